import Verif.Spec.Values
/-
Runs that differ only in where their spans point.
-/

namespace Tok3n

variable {α β A B : Type}

mutual
/-- The same value, except that spans at the same place are related by `T`. -/
def Alike (T : Span → Span → Prop) : Val → Val → Prop
  | .unit, w => w = .unit
  | .span s, w => ∃ s', w = .span s' ∧ T s s'
  | .vec vs, w => ∃ ws, w = .vec ws ∧ Alikes T vs ws
  | .arr vs, w => ∃ ws, w = .arr ws ∧ Alikes T vs ws
  | .opt none, w => w = .opt none
  | .opt (some v), w => ∃ v', w = .opt (some v') ∧ Alike T v v'
  | .tup vs, w => ∃ ws, w = .tup ws ∧ Alikes T vs ws
  | .var i v, w => ∃ v', w = .var i v' ∧ Alike T v v'
  | .pair a b, w => ∃ a' b', w = .pair a' b' ∧ Alike T a a' ∧ Alike T b b'
  | .user k t vs, w => ∃ ws, w = .user k t ws ∧ Alikes T vs ws
/-- componentwise -/
def Alikes (T : Span → Span → Prop) : List Val → List Val → Prop
  | [], ws => ws = []
  | v :: vs, ws => ∃ w ws', ws = w :: ws' ∧ Alike T v w ∧ Alikes T vs ws'
end

/-- The same callback with alike arguments. -/
def AlikeCall (T : Span → Span → Prop) (c c' : Call) : Prop := c.fn = c'.fn ∧ Alikes T c.args c'.args

/-- The same calls in the same order. -/
def AlikeLog (T : Span → Span → Prop) (l l' : List Call) : Prop := List.Forall₂ (AlikeCall T) l l'

/-- Both succeeded with alike values or both failed; the remaining inputs correspond. -/
structure AlikeR (T : Span → Span → Prop) (r r' : R) : Prop where
  val : match r.val, r'.val with
    | some v, some w => Alike T v w
    | none, none => True
    | _, _ => False
  rem : T r.rem r'.rem

/-- Neither returns, or both do, after the same calls, either by throwing the same exception
(or committing the same error) or with results related by `Q`. -/
def AlikeRun (T : Span → Span → Prop) (Q : A → B → Prop) (m : Run A) (m' : Run B) : Prop :=
  match m, m' with
  | .diverge, .diverge => True
  | .done l (.ok a), .done l' (.ok b) => AlikeLog T l l' ∧ Q a b
  | .done l (.err e), .done l' (.err e') => AlikeLog T l l' ∧ e = e'
  | _, _ => False

/-! ### Relocation -/

/-- `i` elements further -/
def Ptr.plus : Ptr → Nat → Ptr
  | .null, _ => .null
  | .at b o, i => .at b (o + i)

/-- `t'` is the part of the input `s'` that `t` is of `s`; or both are default constructed. -/
def Shifted (s s' t t' : Span) : Prop :=
  (t = Span.default ∧ t' = Span.default) ∨
    t'.len = t.len ∧ ∃ i, i + t.len ≤ s.len ∧ t.ptr = s.ptr.plus i ∧ t'.ptr = s'.ptr.plus i

/-- Two runs of one program, perhaps built by different compilers: everything fixed by the
program text is the same; the memory, the behaviour of user code (which may read the memory) and
what the compiler decides may differ. -/
structure SameProgram (C C' : Ctx α β) : Prop where
  eqv : C.eqv = C'.eqv
  fnRet : C.fnRet = C'.fnRet
  constTy : C.constTy = C'.constTy
  ctorOk : C.ctorOk = C'.ctorOk
  custom : C.custom = C'.custom

/-- related options -/
def OptRel (Q : A → B → Prop) : Option A → Option B → Prop
  | some a, some b => Q a b
  | none, none => True
  | _, _ => False

/-- The user's code does not depend on where spans point: on alike arguments it does alike
things. -/
structure PositionIndependent (T : Span → Span → Prop) (C C' : Ctx α β) (p : Parser α) : Prop where
  dflt : ∀ k, OptRel (Alike T) (C.userDefault k) (C'.userDefault k)
  conv : ∀ a b, OptRel (fun f g => ∀ v w, Alike T v w → Alike T (f v) (g w)) (C.conv a b) (C'.conv a b)
  convOpt : ∀ a b, OptRel (fun f g => ∀ v w, OptRel (Alike T) v w → Alike T (f v) (g w)) (C.convOpt a b) (C'.convOpt a b)
  toSpan : ∀ k, OptRel (fun f g => ∀ v w, Alike T v w → T (f v) (g w)) (C.userSpan k) (C'.userSpan k)
  map : ∀ q f, ParseReach C p (.map q f) → ∀ args args', Alikes T args args' →
    AlikeRun T (Alike T) (invoke C f args) (invoke C' f args')
  filter : ∀ q f, ParseReach C p (.filter q f) → ∀ args args', Alikes T args args' →
    AlikeRun T (fun v w => C.truthy v = C'.truthy w) (invoke C f args) (invoke C' f args')

end Tok3n
