import Verif.Spec.Outcome
/-
What it means for a value to have a type, which spans a value contains, and what it
means for user code to be well-behaved.
-/

namespace Tok3n

variable {α β : Type}

mutual
/-- The value is a possible value of the C++ type. -/
def HasTy : Ty → Val → Prop
  | .void, v => v = .unit
  | .span, v => ∃ s, v = .span s
  | .vec t, v => ∃ vs, v = .vec vs ∧ ∀ w ∈ vs, HasTy t w
  | .arr t n, v => ∃ vs, v = .arr vs ∧ vs.length = n ∧ ∀ w ∈ vs, HasTy t w
  | .opt t, v => v = .opt none ∨ ∃ w, v = .opt (some w) ∧ HasTy t w
  | .tup ts, v => ∃ vs, v = .tup vs ∧ HasTys ts vs
  | .var ts, v => ∃ i w, v = .var i w ∧ HasTyAt ts i w
  | .pair a b, v => ∃ x y, v = .pair x y ∧ HasTy a x ∧ HasTy b y
  | .user k, v => ∃ tag vs, v = .user k tag vs
/-- componentwise -/
def HasTys : List Ty → List Val → Prop
  | [], vs => vs = []
  | t :: ts, vs => ∃ w ws, vs = w :: ws ∧ HasTy t w ∧ HasTys ts ws
/-- the value has the type at that place of the list -/
def HasTyAt : List Ty → Nat → Val → Prop
  | [], _, _ => False
  | t :: _, 0, v => HasTy t v
  | _ :: ts, i + 1, v => HasTyAt ts i v
end

mutual
/-- All spans stored in a value, left to right. -/
def Val.spans : Val → List Span
  | .unit => []
  | .span s => [s]
  | .vec vs => spansList vs
  | .arr vs => spansList vs
  | .opt none => []
  | .opt (some v) => v.spans
  | .tup vs => spansList vs
  | .var _ v => v.spans
  | .pair a b => a.spans ++ b.spans
  | .user _ _ vs => spansList vs
def spansList : List Val → List Span
  | [] => []
  | v :: vs => v.spans ++ spansList vs
end

/-- `t` lies inside the part of the input between (the start of) `s` and `s'`: it is in
the same array, starts at or after `s` and ends at or before the start of `s'`. -/
def Within (s s' t : Span) : Prop :=
  ∃ b o i o', s.ptr = .at b o ∧ s'.ptr = .at b o' ∧ t.ptr = .at b i ∧ o ≤ i ∧ i + t.len ≤ o'

/-- … or `t` is a default constructed (empty) span. -/
def InRegion (s s' t : Span) : Prop := t = Span.default ∨ Within s s' t

/-! ### Spans and join -/

mutual
/-- The spans a `join` puts together, left to right: those stored in the value, a user type
convertible to a span counting as that span.  Variants, pairs and other user types cannot be
joined. -/
def joinLeaves (C : Ctx α β) : Val → List Span
  | .span s => [s]
  | .vec vs => joinLeavesList C vs
  | .arr vs => joinLeavesList C vs
  | .opt none => []
  | .opt (some v) => joinLeaves C v
  | .tup vs => joinLeavesList C vs
  | .user k t vs =>
    match C.userSpan k with
    | some f => [f (.user k t vs)]
    | none => []
  | .unit => []
  | .var .. => []
  | .pair .. => []
def joinLeavesList (C : Ctx α β) : List Val → List Span
  | [] => []
  | v :: vs => joinLeaves C v ++ joinLeavesList C vs
end

/-! ### Well-behaved user code -/

/-- User code returns values of the types it declares. -/
structure Ctx.Typed (C : Ctx α β) : Prop where
  fn : ∀ k ts t args v, C.fnRet k ts = some t → HasTys ts args → C.fnCall k args = .ok v → HasTy t v
  const : ∀ k, HasTy (C.constTy k) (C.constVal k)
  ctor : ∀ t ts args v, C.ctorOk t ts = true → HasTys ts args → C.ctor t args = .ok v → HasTy t v
  dflt : ∀ k v, C.userDefault k = some v → HasTy (.user k) v
  conv : ∀ src dst f v, C.conv src dst = some f → HasTy src v → HasTy dst (f v)
  convOpt : ∀ src dst f o, C.convOpt src dst = some f → HasTy (.opt src) (.opt o) → HasTy dst (f o)

/-- A function object invents no spans: those in its result are default constructed or
come from its arguments. -/
def FnLocal (C : Ctx α β) (f : Fn) : Prop :=
  ∀ args log v, invoke C f args = .done log (.ok v) →
    ∀ t ∈ v.spans, t = Span.default ∨ ∃ a ∈ args, t ∈ a.spans

/-- The user's conversions and default constructors invent no spans. -/
structure Ctx.Local (C : Ctx α β) : Prop where
  conv : ∀ src dst f v, C.conv src dst = some f → ∀ t ∈ (f v).spans, t = Span.default ∨ t ∈ v.spans
  convOpt : ∀ src dst f o, C.convOpt src dst = some f → ∀ t ∈ (f o).spans, t = Span.default ∨ t ∈ (Val.opt o).spans
  dflt : ∀ k v, C.userDefault k = some v → ∀ t ∈ v.spans, t = Span.default
  toSpan : ∀ k f v, C.userSpan k = some f → f v = Span.default ∨ f v ∈ v.spans

/-! ### Reachable sub-parsers -/

/-- `p.parse` may call `q.parse`. -/
inductive ParseChild (C : Ctx α β) : Parser α → Parser α → Prop where
  | choice {p ps} : p ∈ ps → ParseChild C (.choice ps) p
  | sequence {p ps} : p ∈ ps → ParseChild C (.sequence ps) p
  | maybe {p} : ParseChild C (.maybe p) p
  | exactly {p n} : ParseChild C (.exactly p n) p
  | oneOrMore {p} : ParseChild C (.oneOrMore p) p
  | zeroOrMore {p} : ParseChild C (.zeroOrMore p) p
  | delimit {p d} : ParseChild C (.delimit p d) p
  | delimiter {p d} : ParseChild C (.delimit p d) d
  | complete {p} : ParseChild C (.complete p) p
  | join {p} : ParseChild C (.join p) p
  | map {p f} : ParseChild C (.map p f) p
  | filter {p f} : ParseChild C (.filter p f) p
  | named {p n} : ParseChild C (.named p n) p
  | custom {k} : ParseChild C (.custom k) (C.custom k).body

/-- `q` is `p` or occurs in it, other than below `ignore`; custom parsers are looked
into. -/
inductive ParseReach (C : Ctx α β) : Parser α → Parser α → Prop where
  | refl {p} : ParseReach C p p
  | step {p q r} : ParseChild C p q → ParseReach C q r → ParseReach C p r

/-- No function mapped over a result in `p` invents spans. -/
structure SpanLocal (C : Ctx α β) (p : Parser α) : Prop where
  ctx : C.Local
  maps : ∀ q f, ParseReach C p (.map q f) → FnLocal C f

/-- No function mapped over something that is joined invents spans. -/
def JoinSafe (C : Ctx α β) (p : Parser α) : Prop :=
  ∀ q, ParseReach C p (.join q) → SpanLocal C q

theorem SpanLocal.child {C : Ctx α β} {p q : Parser α} (h : SpanLocal C p) (hc : ParseChild C p q) :
    SpanLocal C q := ⟨h.ctx, fun r f hr => h.maps r f (.step hc hr)⟩

theorem JoinSafe.child {C : Ctx α β} {p q : Parser α} (h : JoinSafe C p) (hc : ParseChild C p q) :
    JoinSafe C q := fun r hr => h r (.step hc hr)

/-- The declared type of custom parser `k` can be made from `std::optional` of its body's type.  Then it succeeds also
where the body fails. -/
def Pretends (C : Ctx α β) (k : Nat) : Prop :=
  resultFor C (C.custom k).body ≠ (C.custom k).ty ∧
    (fromOptional C (resultFor C (C.custom k).body) (C.custom k).ty).isSome = true

/-- `p` contains no `filter`, no `join` and no custom parser that succeeds where its body fails, other than below
`ignore`; custom parsers are looked into. -/
def Plain (C : Ctx α β) (p : Parser α) : Prop :=
  ∀ q, ParseReach C p q → (∀ r f, q ≠ .filter r f) ∧ (∀ r, q ≠ .join r) ∧ ∀ k, q = .custom k → ¬ Pretends C k

theorem Plain.child {C : Ctx α β} {p q : Parser α} (h : Plain C p) (hc : ParseChild C p q) :
    Plain C q := fun r hr => h r (.step hc hr)

end Tok3n
