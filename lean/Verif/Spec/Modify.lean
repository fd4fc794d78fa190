import Verif.Spec.Outcome
/-
Vocabulary for modifiers that call user code.
-/

namespace Tok3n

/-- The arguments user code is called with: the value, or nothing if there is none. -/
def argsOf (t : Ty) (v : Val) : List Val := if t = .void then [] else [v]

/-- The value made of what user code returned; nothing if it returns nothing. -/
def returned (t : Ty) (v : Val) : Val := if t = .void then .unit else v

/-- The components of a tuple, a pair or an array, in order. -/
inductive Components : Val → List Val → Prop where
  | tup {vs} : Components (.tup vs) vs
  | pair {a b} : Components (.pair a b) [a, b]
  | arr {vs} : Components (.arr vs) vs

end Tok3n
