import Verif.Spec.Values
/-
How large a result is: the vocabulary of C71.
-/

namespace Tok3n

variable {α β : Type}

mutual
/-- How many spans, vectors, arrays, tuples, optionals, variants, pairs and objects a value is
made of.  No value counts nothing. -/
def Val.size : Val → Nat
  | .unit => 0
  | .span _ => 1
  | .vec vs => 1 + sizes vs
  | .arr vs => 1 + sizes vs
  | .opt none => 1
  | .opt (some v) => 1 + v.size
  | .tup vs => 1 + sizes vs
  | .var _ v => 1 + v.size
  | .pair a b => 1 + (a.size + b.size)
  | .user _ _ vs => 1 + sizes vs
def sizes : List Val → Nat
  | [] => 0
  | v :: vs => v.size + sizes vs
end

/-- What the user has given to `p` makes values at most `F` larger than those it is given:
the conversions between types, and the functions given to `map`. -/
structure AddsAtMost (C : Ctx α β) (F : Nat) (p : Parser α) : Prop where
  conv : ∀ src dst f v, C.conv src dst = some f → (f v).size ≤ v.size + F
  convOpt : ∀ src dst f o, C.convOpt src dst = some f → (f o).size ≤ (Val.opt o).size + F
  fns : ∀ q f, ParseReach C p (.map q f) → ∀ args log v, invoke C f args = .done log (.ok v) → v.size ≤ sizes args + F

/-- The same program on another machine: another memory, another toolchain. -/
abbrev Ctx.on (C : Ctx α β) (mem : Mem β) (tc : Toolchain) (relaxed : Bool) (ptrEq : Ptr → Ptr → Bool) : Ctx α β :=
  { C with mem := mem, toolchain := tc, relaxedTtp := relaxed, ptrEq := ptrEq }

end Tok3n
