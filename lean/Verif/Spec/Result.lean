import Verif.Model.Result
/-
What a variable of class `result` stands for, by looking back through the history of a program
to the statement that made the result.  Independent of the objects of Model/Result.lean.
-/

namespace Tok3n.Result

variable {α β : Type}

/-- How `x` came to be what it is: by what the last statement that assigned to it assigned.
`some (b, s)`: the result of a parse that succeeded (`b`) and left `s`; a result that was never
assigned one counts as a failure that left nothing.  Moving, reading and taking the value out
do not count as assigning to the variable read from. -/
def fate (P : Prog α β) : List Op → Nat → Option (Bool × Span)
  | [], _ => none
  | op :: h, z =>
    match op with
    | .declare x => if z = x then some (false, Span.default) else fate P h z
    | .init x => if z = x then some (false, Span.default) else fate P h z
    | .failure x s => if z = x then some (false, s) else fate P h z
    | .success x _ s => if z = x then some (true, s) else fate P h z
    | .copy x y | .move x y =>
      if z = x then (fate P h y).map fun r =>
        -- the exception of `C41`: a type that is made from an optional is made from an empty one too
        (r.1 || (decide (P.ty y ≠ P.ty x) && (fromOptional P.C (P.ty y) (P.ty x)).isSome), r.2)
      else fate P h z
    | _ => fate P h z

/-- The value of `y` as a value of `x`: itself if they are of the same type, else converted (nothing is said about a
value that is made from an optional). -/
def converted (P : Prog α β) (y x : Nat) (v : Option Val) : Option Val :=
  if P.ty y = P.ty x then v
  else match fromOptional P.C (P.ty y) (P.ty x), P.C.conv (P.ty y) (P.ty x) with
    | none, some f => v.map f
    | _, _ => none

/-- The value of `x`, if it was neither moved nor taken out since, is the one its parse gave,
converted where the types differ. -/
def held (P : Prog α β) : List Op → Nat → Option Val
  | [], _ => none
  | op :: h, z =>
    match op with
    | .declare x => if z = x then none else held P h z
    | .init x => if z = x then none else held P h z
    | .failure x _ => if z = x then none else held P h z
    | .success x v _ => if z = x then some v else held P h z
    | .copy x y =>
      if z = x then converted P y x (held P h y) else held P h z
    | .move x y =>
      if x = y then (if z = x then none else held P h z)
      else if z = x then converted P y x (held P h y)
      else if z = y then none else held P h z
    | .takeValue x => if z = x then none else held P h z
    | .takeDeref x => if z = x then none else held P h z
    | _ => held P h z

/-- No variable of type `result<void, U>` is declared without `{}`. -/
def Initialized (P : Prog α β) (h : List Op) : Prop := ∀ x, Op.declare x ∈ h → P.ty x ≠ .void

end Tok3n.Result
