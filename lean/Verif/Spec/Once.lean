import Verif.Spec.Values
/-
Where the values made by the user's functions go.

`pick` selects values of user types, for instance all that are equal to one particular
value, or all of one type.  What a user's function does with values it was given (put them
into a new one, for instance) is its own affair: a value of a user type is counted as one
value.
-/

namespace Tok3n

variable {α β : Type}

mutual
/-- how many of the user's values selected by `pick` a value consists of -/
def Val.occurs (pick : Val → Bool) : Val → Nat
  | .unit => 0
  | .span _ => 0
  | .vec vs => Val.occursAll pick vs
  | .arr vs => Val.occursAll pick vs
  | .opt none => 0
  | .opt (some v) => v.occurs pick
  | .tup vs => Val.occursAll pick vs
  | .var _ v => v.occurs pick
  | .pair a b => a.occurs pick + b.occurs pick
  | .user k t vs => if pick (.user k t vs) then 1 else 0
def Val.occursAll (pick : Val → Bool) : List Val → Nat
  | [] => 0
  | v :: vs => v.occurs pick + Val.occursAll pick vs
end

/-- what a logged call returned, `none` if it threw -/
def Call.returned (C : Ctx α β) (c : Call) : Option Val :=
  match c.fn with
  | .user k => match C.fnCall k c.args with | .ok v => some v | .error _ => none
  | .construct t => match C.ctor t c.args with | .ok v => some v | .error _ => none
  | .const k => some (C.constVal k)
  | .deflt t => defaultVal C t
  | .apply _ => none                              -- only what it applies is logged

/-- how many selected values the calls made -/
def made (C : Ctx α β) (pick : Val → Bool) (log : List Call) : Nat :=
  (log.map fun c => match c.returned C with | some v => v.occurs pick | none => 0).sum

/-- how many selected values were given to the functions in `takers` -/
def given (pick : Val → Bool) (takers : Fn → Bool) (log : List Call) : Nat :=
  (log.map fun c => if takers c.fn then Val.occursAll pick c.args else 0).sum

/-- how many selected values a result holds -/
def R.occurs (pick : Val → Bool) (r : R) : Nat :=
  match r.val with
  | some v => v.occurs pick
  | none => 0

/-- the function that is logged when `f` is invoked -/
def Fn.logged : Fn → Fn
  | .apply f => f.logged
  | f => f

/-- Default construction makes none of the selected values, a conversion at most as many as
it is given. -/
structure Ctx.MakesNo (C : Ctx α β) (pick : Val → Bool) : Prop where
  dflt : ∀ k v, C.userDefault k = some v → v.occurs pick = 0
  conv : ∀ src dst f v, C.conv src dst = some f → (f v).occurs pick ≤ v.occurs pick
  convOpt : ∀ src dst f o, C.convOpt src dst = some f → (f o).occurs pick ≤ (Val.opt o).occurs pick

/-- No `filter` that `p` runs uses one of the functions in `takers`.  (A filter is only
shown its argument.) -/
def NotFilters (C : Ctx α β) (takers : Fn → Bool) (p : Parser α) : Prop :=
  ∀ q f, ParseReach C p (.filter q f) → takers f.logged = false

end Tok3n
