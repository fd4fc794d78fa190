import Verif.Spec.Terminate
import Verif.Spec.Values
/-
The rest of the program: custom parsers and callbacks a parser has nothing to do with.
-/

namespace Tok3n

variable {α β : Type}

/-- Calling `f` calls the user's function `k`. -/
def Fn.Calls : Fn → Nat → Prop
  | .user j, k => j = k
  | .apply f, k => f.Calls k
  | .const _, _ | .construct _, _ | .deflt _, _ => False

/-- Calling `f` calls the constructor of `t`. -/
def Fn.Constructs : Fn → Ty → Prop
  | .construct t, t' => t = t'
  | .apply f, t' => f.Constructs t'
  | .user _, _ | .const _, _ | .deflt _, _ => False

/-- The same program with other custom parsers and other callbacks: `c` gives the custom parsers, `r` what the callbacks
return and `g` what they do. -/
def Ctx.redefine (C : Ctx α β) (c : Nat → CustomDef α) (r : Nat → List Ty → Option Ty)
    (g : Nat → List Val → Except Nat Val) : Ctx α β :=
  { C with custom := c, fnRet := r, fnCall := g }

/-- `p.parse(input)` compiles, in a program of which nothing else is known: `p` is well-formed; so is the body of every
custom parser it uses, `ignore`d or not; and the `parse` of every custom parser other than below `ignore` compiles. -/
structure CompilesAlone [LinearOrder α] (C : Ctx α β) (p : Parser α) : Prop where
  wf : p.wf = true
  ty : tyOK C p = true
  parse : parseOK C p = true
  bodies : ∀ k, Uses C p (.custom k) → (C.custom k).body.wf = true
  custom : ∀ k, ParseReach C p (.custom k) → tyOK C (C.custom k).body = true ∧ parseOK C (C.custom k).body = true ∧
    ((C.custom k).declared = false → (C.custom k).ty = resultFor C (C.custom k).body)

end Tok3n
