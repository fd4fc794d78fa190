import Verif.Proof.AlgebraicSound
/-
The algebraic example: what is in the grammar is accepted.
-/

namespace Tok3n.Algebraic

open Json (Ws Digit Digits Fraction Ends)

variable {m : Machine} {s s1 s' : Span} {w : Val}

/-! ### What follows -/

/-- the operators -/
abbrev ops : List Nat := [94, 42, 47, 43, 45]

/-- After white space, the text does not go on with one of these characters. -/
def After (l : List Nat) (y : List Nat) : Prop := ∀ a c z, y = a ++ c :: z → Ws a → c ∉ l

/-- … and a number ends before it. -/
def Follow (l : List Nat) (y : List Nat) : Prop := Ends y ∧ After l y

theorem Follow.mono {l l' y : List Nat} (h : Follow l y) (hl : ∀ c ∈ l', c ∈ l) : Follow l' y :=
  ⟨h.1, fun a c z e ha hc => h.2 a c z e ha (hl c hc)⟩

theorem Ws.nil : Ws [] := by simp [Ws]
theorem Ws.append {a b : List Nat} (ha : Ws a) (hb : Ws b) : Ws (a ++ b) := by
  intro c hc
  rcases List.mem_append.1 hc with h | h
  · exact ha c h
  · exact hb c h
theorem Ws.head {c : Nat} {a : List Nat} (h : Ws (c :: a)) : Ws [c] := fun d hd => h d (by simp at hd; simp [hd])
theorem Ws.tail {c : Nat} {a : List Nat} (h : Ws (c :: a)) : Ws a := fun d hd => h d (by simp [hd])

/-- a character that is neither white space nor part of a number -/
def Mark (c : Nat) : Prop := ¬ Ws [c] ∧ ¬ Digit c ∧ c ≠ 0x2E ∧ c ≠ 0x45 ∧ c ≠ 0x65

theorem mark_op {c : Nat} (h : c ∈ ops) : Mark c := by
  simp at h
  rcases h with rfl | rfl | rfl | rfl | rfl <;> simp [Mark, Ws, Digit]
theorem mark_close : Mark 41 := by simp [Mark, Ws, Digit]

theorem after_mark {l a z : List Nat} {c : Nat} (ha : Ws a) (hc : Mark c) (hl : c ∉ l) (hw : ∀ d ∈ l, ¬ Ws [d]) :
    After l (a ++ c :: z) := by
  intro a' c' z' e ha'
  induction a generalizing a' with
  | nil =>
    cases a' with
    | nil => simp at e; rw [← e.1]; exact hl
    | cons d a' => simp at e; exact absurd (e.1 ▸ Ws.head ha') hc.1
  | cons d a ih =>
    cases a' with
    | nil => simp at e; exact fun h => hw _ h (e.1 ▸ Ws.head ha)
    | cons d' a' => simp at e; exact ih (Ws.tail ha) a' e.2 (Ws.tail ha')

theorem ends_mark {a z : List Nat} {c : Nat} (ha : Ws a) (hc : Mark c) : Ends (a ++ c :: z) := by
  intro d hd
  cases a with
  | nil => simp at hd; subst hd; exact hc.2
  | cons d' a =>
    simp at hd; subst hd
    have := ha d' (by simp)
    simp only [Digit]; omega

theorem follow_mark {l a z : List Nat} {c : Nat} (ha : Ws a) (hc : Mark c) (hl : c ∉ l) (hw : ∀ d ∈ l, d ∈ ops) :
    Follow l (a ++ c :: z) := ⟨ends_mark ha hc, after_mark ha hc hl fun d hd => (mark_op (hw d hd)).1⟩

/-- then the operator is not found -/
theorem After.noOp {l l' : List Nat} (hs : s.Valid m.mem) (h : After l (s.elems m.mem)) (hl : ∀ c ∈ l', c ∈ l) :
    No (ctx m) (opP l') s ∧ Miss (ctx m) (opP l') s := by
  obtain ⟨a, s1, h1, r, ha, -⟩ := ws_reads hs
  have key : ∀ c ∈ (s1.elems m.mem).head?, c ∉ l' := by
    intro c hc hc'
    cases e : s1.elems m.mem with
    | nil => rw [e] at hc; simp at hc
    | cons d z =>
      rw [e] at hc; simp at hc; subst hc
      exact h a d z (by rw [r.text, e]) ha (hl d hc')
  exact ⟨no_op hs h1 key, miss_op hs h1 key⟩

/-! ### The white space in front -/

def Solid (x : List Nat) : Prop := ∃ c z, x = c :: z ∧ ¬ Ws [c]

theorem Solid.append {x : List Nat} (h : Solid x) (y : List Nat) : Solid (x ++ y) := by
  obtain ⟨c, z, rfl, hc⟩ := h
  exact ⟨c, z ++ y, rfl, hc⟩
theorem Solid.head {x y : List Nat} (h : Solid x) : ∀ c ∈ (x ++ y).head?, ¬ Ws [c] := by
  obtain ⟨c, z, rfl, hc⟩ := h
  intro d hd
  simp at hd; subst hd; exact hc

theorem not_ws_digit {c : Nat} (h : Digit c) : ¬ Ws [c] := by
  intro hw
  have := hw c (by simp)
  simp only [Digit] at h
  omega

theorem IsNumber.head {x : List Nat} {n : Number} (h : IsNumber x n) : ∃ c z, x = c :: z ∧ Digit c := by
  obtain ⟨⟨h1, h2⟩, -, -⟩ := h
  rename_i i f e fo eo
  cases i with
  | nil => exact absurd rfl h1
  | cons c i => exact ⟨c, _, rfl, h2 c (by simp)⟩

theorem IsPowterm.solid {x : List Nat} {p : Powterm} (h : IsPowterm x p) : Solid x := by
  cases h with
  | paren => exact ⟨_, _, rfl, by simp [Ws]⟩
  | neg => exact ⟨_, _, rfl, by simp [Ws]⟩
  | num h => obtain ⟨c, z, rfl, hc⟩ := h.head; exact ⟨c, z, rfl, not_ws_digit hc⟩

theorem IsFactor.trim {x : List Nat} {f : Factor} (h : IsFactor x f) :
    ∃ b y, x = b ++ y ∧ Ws b ∧ IsFactor y f ∧ Solid y := by
  cases h with
  | one ha hx => exact ⟨_, _, rfl, ha, .one (a := []) Ws.nil hx, hx.solid⟩
  | pow ha hx hb hy => exact ⟨_, _, rfl, ha, .pow (a := []) Ws.nil hx hb hy, hx.solid.append _⟩

theorem IsTerm.trim : (t : Term) → {x : List Nat} → IsTerm x t → ∃ b y, x = b ++ y ∧ Ws b ∧ IsTerm y t ∧ Solid y
  | .one f, _, h => by
    cases h with
    | one ha hx =>
      obtain ⟨b, y, rfl, hb, hy, hs⟩ := hx.trim
      exact ⟨_, y, (List.append_assoc ..).symm, Ws.append ha hb, .one (a := []) Ws.nil hy, hs⟩
  | .mul t f, _, h => by
    cases h with
    | mul hx ha hb hy =>
      obtain ⟨b, y, rfl, hb', hy', hs⟩ := IsTerm.trim t hx
      exact ⟨b, _, List.append_assoc .., hb', .mul hy' ha hb hy, hs.append _⟩
  | .div t f, _, h => by
    cases h with
    | div hx ha hb hy =>
      obtain ⟨b, y, rfl, hb', hy', hs⟩ := IsTerm.trim t hx
      exact ⟨b, _, List.append_assoc .., hb', .div hy' ha hb hy, hs.append _⟩

theorem IsExpr.trim : (e : Expr) → {x : List Nat} → IsExpr x e → ∃ b y, x = b ++ y ∧ Ws b ∧ IsExpr y e ∧ Solid y
  | .one t, _, h => by
    cases h with
    | one ha hx =>
      obtain ⟨b, y, rfl, hb, hy, hs⟩ := IsTerm.trim t hx
      exact ⟨_, y, (List.append_assoc ..).symm, Ws.append ha hb, .one (a := []) Ws.nil hy, hs⟩
  | .add t f, _, h => by
    cases h with
    | add hx ha hb hy =>
      obtain ⟨b, y, rfl, hb', hy', hs⟩ := IsExpr.trim t hx
      exact ⟨b, _, List.append_assoc .., hb', .add hy' ha hb hy, hs.append _⟩
  | .sub t f, _, h => by
    cases h with
    | sub hx ha hb hy =>
      obtain ⟨b, y, rfl, hb', hy', hs⟩ := IsExpr.trim t hx
      exact ⟨b, _, List.append_assoc .., hb', .sub hy' ha hb hy, hs.append _⟩

/-- reading white space before a text that starts with something else -/
theorem see_front (hs : s.Valid m.mem) {a x : List Nat} (ha : Ws a) (hx : Solid x) (r : Reads m.mem s (a ++ x) s') :
    ∃ s1, See (ctx m) wsP s s1 ∧ s1.Valid m.mem ∧ Reads m.mem s1 x s' := by
  obtain ⟨s1, r1, r2⟩ := r.split hs
  refine ⟨s1, (see_ws hs).2 ⟨a, r1, ha, ?_⟩, r1.valid hs, r2⟩
  rw [r2.text]; exact hx.head

/-! ### Lists -/

/-- what comes after an element of a list -/
def Tail (m : Machine) (p d : Parser Nat) (s : Span) (vs ds : List Val) (s' : Span) : Prop :=
  (NoMore m p d s ∧ vs = [] ∧ ds = [] ∧ s' = s) ∨
    ∃ w s2 ds2, Ok (ctx m) d s w s2 ∧ List1 (ctx m) p d s2 vs ds2 s' ∧ ds = w :: ds2

theorem Tail.list {p d : Parser Nat} {v : Val} {vs ds : List Val} (h : Ok (ctx m) p s v s1) (ht : Tail m p d s1 vs ds s') :
    List1 (ctx m) p d s (v :: vs) ds s' := by
  rcases ht with ⟨h1, rfl, rfl, rfl⟩ | ⟨w, s2, ds2, h1, h2, rfl⟩
  · exact .last h h1
  · exact .more h h1 h2

/-! ### Completeness -/

def PowtermC (m : Machine) (p : Powterm) : Prop :=
  ∀ x, IsPowterm x p → p.Greedy → ∀ s s1, s.Valid m.mem → Reads m.mem s x s1 → Ends (s1.elems m.mem) →
    (p.endsNeg = true → Follow ops (s1.elems m.mem)) → ∃ v, Ok (ctx m) (.custom 1) s v s1 ∧ RepPowterm m.mem v p
def FactorC (m : Machine) (f : Factor) : Prop :=
  ∀ x, IsFactor x f → f.Greedy → ∀ s s1, s.Valid m.mem → Reads m.mem s x s1 → Follow [94] (s1.elems m.mem) →
    (f.endsNeg = true → Follow ops (s1.elems m.mem)) →
    ∃ vs ds, List1 (ctx m) (argP 1) (.ignore (opP [94])) s vs ds s1 ∧ RepPowterms m.mem vs f
def TermC (m : Machine) (t : Term) : Prop :=
  ∀ x, IsTerm x t → t.Greedy → ∀ s s1, s.Valid m.mem → Reads m.mem s x s1 → Follow [94] (s1.elems m.mem) →
    (t.endsNeg = true → Follow ops (s1.elems m.mem)) →
    ∀ vs2 ds2 s', Tail m (argP 2) (opP [42, 47]) s1 vs2 ds2 s' →
    ∃ vs ds, List1 (ctx m) (argP 2) (opP [42, 47]) s (vs ++ vs2) (ds ++ ds2) s' ∧ RepFactors m.mem vs ds t
def ExprC (m : Machine) (e : Expr) : Prop :=
  ∀ x, IsExpr x e → e.Greedy → ∀ s s1, s.Valid m.mem → Reads m.mem s x s1 → Follow [94, 42, 47] (s1.elems m.mem) →
    (e.endsNeg = true → Follow ops (s1.elems m.mem)) →
    ∀ vs2 ds2 s', Tail m (argP 3) (opP [43, 45]) s1 vs2 ds2 s' →
    ∃ vs ds, List1 (ctx m) (argP 3) (opP [43, 45]) s (vs ++ vs2) (ds ++ ds2) s' ∧ RepExpr m.mem vs ds e

theorem powterm_arg_complete {p : Powterm} (h : PowtermC m p) {a x : List Nat} (ha : Ws a) (hx : IsPowterm x p)
    (hg : p.Greedy) (hs : s.Valid m.mem) (r : Reads m.mem s (a ++ x) s1) (hf : Ends (s1.elems m.mem))
    (hn : p.endsNeg = true → Follow ops (s1.elems m.mem)) :
    ∃ v, Ok (ctx m) (argP 1) s v s1 ∧ RepPowterm m.mem v p := by
  obtain ⟨s0, h0, v0, r0⟩ := see_front hs ha hx.solid r
  obtain ⟨v, h1, hr⟩ := h x hx hg s0 s1 v0 r0 hf hn
  exact ⟨v, (arg_split rfl (by nofun)).2 ⟨s0, h0, h1⟩, hr⟩

theorem factor_arg_complete {f : Factor} (h : FactorC m f) {a x : List Nat} (ha : Ws a) (hx : IsFactor x f)
    (hg : f.Greedy) (hs : s.Valid m.mem) (r : Reads m.mem s (a ++ x) s1) (hf : Follow [94] (s1.elems m.mem))
    (hn : f.endsNeg = true → Follow ops (s1.elems m.mem)) :
    ∃ v, Ok (ctx m) (argP 2) s v s1 ∧ RepFactor m.mem v f := by
  obtain ⟨b, y, rfl, hb, hy, hso⟩ := hx.trim
  rw [← List.append_assoc] at r
  obtain ⟨s0, h0, v0, r0⟩ := see_front hs (Ws.append ha hb) hso r
  obtain ⟨vs, ds, h1, hr⟩ := h y hy hg s0 s1 v0 r0 hf hn
  exact ⟨_, (arg_split rfl (by nofun)).2 ⟨s0, h0, factor_split.2 ⟨vs, ds, h1, rfl⟩⟩, .mk hr⟩

theorem noMul_of (hs : s.Valid m.mem) (h : Follow [94, 42, 47] (s.elems m.mem)) : NoMul m s :=
  .inl (h.2.noOp hs (by simp)).1
theorem noAdd_of (hs : s.Valid m.mem) (h : Follow ops (s.elems m.mem)) : NoAdd m s :=
  .inl (h.2.noOp hs (by simp)).1

theorem term_arg_complete {t : Term} (h : TermC m t) {a x : List Nat} (ha : Ws a) (hx : IsTerm x t)
    (hg : t.Greedy) (hs : s.Valid m.mem) (r : Reads m.mem s (a ++ x) s1) (hf : Follow [94, 42, 47] (s1.elems m.mem))
    (hn : t.endsNeg = true → Follow ops (s1.elems m.mem)) :
    ∃ v, Ok (ctx m) (argP 3) s v s1 ∧ RepTerm m.mem v t := by
  obtain ⟨b, y, rfl, hb, hy, hso⟩ := hx.trim
  have v1 := r.valid hs
  rw [← List.append_assoc] at r
  obtain ⟨s0, h0, v0, r0⟩ := see_front hs (Ws.append ha hb) hso r
  obtain ⟨vs, ds, h1, hr⟩ := h y hy hg s0 s1 v0 r0 (hf.mono (by simp)) hn [] [] s1 (.inl ⟨noMul_of v1 hf, rfl, rfl, rfl⟩)
  rw [List.append_nil, List.append_nil] at h1
  exact ⟨_, (arg_split rfl (by nofun)).2 ⟨s0, h0, term_split.2 ⟨vs, ds, h1, rfl⟩⟩, .mk hr⟩

theorem expr_arg_complete {e : Expr} (h : ExprC m e) {a x : List Nat} (ha : Ws a) (hx : IsExpr x e)
    (hg : e.Greedy) (hs : s.Valid m.mem) (r : Reads m.mem s (a ++ x) s1) (hf : Follow ops (s1.elems m.mem)) :
    ∃ s0 vs ds, See (ctx m) wsP s s0 ∧ Ok (ctx m) (.custom 4) s0 (.pair (.vec vs) (.vec ds)) s1 ∧ RepExpr m.mem vs ds e := by
  obtain ⟨b, y, rfl, hb, hy, hso⟩ := hx.trim
  have v1 := r.valid hs
  rw [← List.append_assoc] at r
  obtain ⟨s0, h0, v0, r0⟩ := see_front hs (Ws.append ha hb) hso r
  obtain ⟨vs, ds, h1, hr⟩ := h y hy hg s0 s1 v0 r0 (hf.mono (by simp)) (fun _ => hf) [] [] s1
    (.inl ⟨noAdd_of v1 hf, rfl, rfl, rfl⟩)
  rw [List.append_nil, List.append_nil] at h1
  exact ⟨s0, vs, ds, h0, expr_split.2 ⟨vs, ds, h1, rfl⟩, hr⟩

/-- an operator in the text -/
theorem ok_op {l a y : List Nat} {c : Nat} (hs : s.Valid m.mem) (ha : Ws a) (hc : c ∈ l) (hl : ∀ d ∈ l, d ∈ ops)
    (r : Reads m.mem s (a ++ c :: y) s') : ∃ d s1, Ok (ctx m) (opP l) s d s1 ∧ See (ctx m) (opP l) s s1 ∧
      RepChar m.mem d c ∧ s1.Valid m.mem ∧ Reads m.mem s1 y s' := by
  obtain ⟨s0, h0, v0, r0⟩ := see_front hs ha ⟨c, y, rfl, (mark_op (hl c hc)).1⟩ r
  obtain ⟨s1, r1, r2⟩ := Reads.split (x := [c]) v0 r0
  exact ⟨_, s1, (op_split hs).2 ⟨s0, h0, c, hc, r1, rfl⟩, (see_op hs).2 ⟨s0, h0, c, hc, r1⟩,
    .mk (r1.span_valid v0) r1.elems, r1.valid v0, r2⟩

theorem mul_complete {t : Term} {f : Factor} (ht : TermC m t) (hf : FactorC m f) {x a b y : List Nat} {c : Nat}
    (hx : IsTerm x t) (ha : Ws a) (hb : Ws b) (hy : IsFactor y f) (hc : c ∈ [42, 47]) (hg : t.Greedy)
    (hn : t.endsNeg = false) (hgf : f.Greedy) (hs : s.Valid m.mem) (r : Reads m.mem s (x ++ (a ++ c :: (b ++ y))) s1)
    (hl : Follow [94] (s1.elems m.mem)) (hl' : f.endsNeg = true → Follow ops (s1.elems m.mem)) (vs2 ds2 : List Val)
    (htail : Tail m (argP 2) (opP [42, 47]) s1 vs2 ds2 s') :
    ∃ vs ds v d, List1 (ctx m) (argP 2) (opP [42, 47]) s (vs ++ [v] ++ vs2) (ds ++ [d] ++ ds2) s' ∧
      RepFactors m.mem vs ds t ∧ RepChar m.mem d c ∧ RepFactor m.mem v f := by
  obtain ⟨s2, r1, r2⟩ := r.split hs
  have v2 := r1.valid hs
  obtain ⟨d, s3, hd, -, hrd, v3, r3⟩ := ok_op (l := [42, 47]) v2 ha hc (by simp) r2
  obtain ⟨v, hv, hrv⟩ := factor_arg_complete hf hb hy hgf v3 r3 hl hl'
  have fo : Follow [94] (s2.elems m.mem) := by
    rw [r2.text, List.append_assoc]
    refine follow_mark ha (mark_op ?_) ?_ (by simp) <;> simp at hc ⊢ <;> omega
  obtain ⟨vs, ds, h1, hr⟩ := ht x hx hg s s2 hs r1 fo (by simp [hn]) (v :: vs2) (d :: ds2) s'
    (.inr ⟨d, s3, ds2, hd, htail.list hv, rfl⟩)
  exact ⟨vs, ds, v, d, by simpa using h1, hr, hrd, hrv⟩

theorem add_complete {e : Expr} {t : Term} (he : ExprC m e) (ht : TermC m t) {x a b y : List Nat} {c : Nat}
    (hx : IsExpr x e) (ha : Ws a) (hb : Ws b) (hy : IsTerm y t) (hc : c ∈ [43, 45]) (hg : e.Greedy)
    (hn : e.endsNeg = false) (hgf : t.Greedy) (hs : s.Valid m.mem) (r : Reads m.mem s (x ++ (a ++ c :: (b ++ y))) s1)
    (hl : Follow [94, 42, 47] (s1.elems m.mem)) (hl' : t.endsNeg = true → Follow ops (s1.elems m.mem)) (vs2 ds2 : List Val)
    (htail : Tail m (argP 3) (opP [43, 45]) s1 vs2 ds2 s') :
    ∃ vs ds v d, List1 (ctx m) (argP 3) (opP [43, 45]) s (vs ++ [v] ++ vs2) (ds ++ [d] ++ ds2) s' ∧
      RepExpr m.mem vs ds e ∧ RepChar m.mem d c ∧ RepTerm m.mem v t := by
  obtain ⟨s2, r1, r2⟩ := r.split hs
  have v2 := r1.valid hs
  obtain ⟨d, s3, hd, -, hrd, v3, r3⟩ := ok_op (l := [43, 45]) v2 ha hc (by simp) r2
  obtain ⟨v, hv, hrv⟩ := term_arg_complete ht hb hy hgf v3 r3 hl hl'
  have fo : Follow [94, 42, 47] (s2.elems m.mem) := by
    rw [r2.text, List.append_assoc]
    refine follow_mark ha (mark_op ?_) ?_ (by simp) <;> simp at hc ⊢ <;> omega
  obtain ⟨vs, ds, h1, hr⟩ := he x hx hg s s2 hs r1 fo (by simp [hn]) (v :: vs2) (d :: ds2) s'
    (.inr ⟨d, s3, ds2, hd, htail.list hv, rfl⟩)
  exact ⟨vs, ds, v, d, by simpa using h1, hr, hrd, hrv⟩

mutual
theorem expr_complete : (e : Expr) → ExprC m e
  | .one t => by
    intro x hx hg s s1 hs r hl hl' vs2 ds2 s' htail
    cases hx with
    | one ha hx =>
      rw [Expr.Greedy] at hg
      rw [Expr.endsNeg] at hl'
      obtain ⟨v, h, hr⟩ := term_arg_complete (term_complete t) ha hx hg hs r hl hl'
      exact ⟨[v], [], htail.list h, .one hr⟩
  | .add e t => by
    intro x hx hg s s1 hs r hl hl' vs2 ds2 s' htail
    cases hx with
    | add hx ha hb hy =>
      rw [Expr.Greedy] at hg
      rw [Expr.endsNeg] at hl'
      obtain ⟨vs, ds, v, d, h1, h2, h3, h4⟩ := add_complete (expr_complete e) (term_complete t) hx ha hb hy (by simp) hg.1
        hg.2.1 hg.2.2 hs r hl hl' vs2 ds2 htail
      exact ⟨_, _, h1, .add h2 h3 h4⟩
  | .sub e t => by
    intro x hx hg s s1 hs r hl hl' vs2 ds2 s' htail
    cases hx with
    | sub hx ha hb hy =>
      rw [Expr.Greedy] at hg
      rw [Expr.endsNeg] at hl'
      obtain ⟨vs, ds, v, d, h1, h2, h3, h4⟩ := add_complete (expr_complete e) (term_complete t) hx ha hb hy (by simp) hg.1
        hg.2.1 hg.2.2 hs r hl hl' vs2 ds2 htail
      exact ⟨_, _, h1, .sub h2 h3 h4⟩
theorem term_complete : (t : Term) → TermC m t
  | .one f => by
    intro x hx hg s s1 hs r hl hl' vs2 ds2 s' htail
    cases hx with
    | one ha hx =>
      rw [Term.Greedy] at hg
      rw [Term.endsNeg] at hl'
      obtain ⟨v, h, hr⟩ := factor_arg_complete (factor_complete f) ha hx hg hs r hl hl'
      exact ⟨[v], [], htail.list h, .one hr⟩
  | .mul t f => by
    intro x hx hg s s1 hs r hl hl' vs2 ds2 s' htail
    cases hx with
    | mul hx ha hb hy =>
      rw [Term.Greedy] at hg
      rw [Term.endsNeg] at hl'
      obtain ⟨vs, ds, v, d, h1, h2, h3, h4⟩ := mul_complete (term_complete t) (factor_complete f) hx ha hb hy (by simp) hg.1
        hg.2.1 hg.2.2 hs r hl hl' vs2 ds2 htail
      exact ⟨_, _, h1, .mul h2 h3 h4⟩
  | .div t f => by
    intro x hx hg s s1 hs r hl hl' vs2 ds2 s' htail
    cases hx with
    | div hx ha hb hy =>
      rw [Term.Greedy] at hg
      rw [Term.endsNeg] at hl'
      obtain ⟨vs, ds, v, d, h1, h2, h3, h4⟩ := mul_complete (term_complete t) (factor_complete f) hx ha hb hy (by simp) hg.1
        hg.2.1 hg.2.2 hs r hl hl' vs2 ds2 htail
      exact ⟨_, _, h1, .div h2 h3 h4⟩
theorem factor_complete : (f : Factor) → FactorC m f
  | .one p => by
    intro x hx hg s s1 hs r hl hl'
    cases hx with
    | one ha hx =>
      rw [Factor.Greedy] at hg
      rw [Factor.endsNeg] at hl'
      obtain ⟨v, h, hr⟩ := powterm_arg_complete (powterm_complete p) ha hx hg hs r hl.1 hl'
      exact ⟨[v], [], .last h (.inl (no_ignore.2 (hl.2.noOp (r.valid hs) (by simp)).2)), .one hr⟩
  | .pow p f => by
    intro x hx hg s s1 hs r hl hl'
    cases hx with
    | @pow a x p b y f ha hx hb hy =>
      rw [Factor.Greedy] at hg
      rw [Factor.endsNeg] at hl'
      rw [← List.append_assoc] at r
      obtain ⟨s2, r1, r2⟩ := r.split hs
      have v2 := r1.valid hs
      obtain ⟨d, s3, -, hd, -, v3, r3⟩ := ok_op (l := [94]) v2 hb (by simp) (by simp) r2
      have fo : Ends (s2.elems m.mem) := by
        rw [r2.text, List.append_assoc]; exact ends_mark hb (mark_op (by simp))
      obtain ⟨v, h, hr⟩ := powterm_arg_complete (powterm_complete p) ha hx hg.1 hs r1 fo (by simp [hg.2.1])
      obtain ⟨vs, ds, h2, hr2⟩ := factor_complete f y hy hg.2.2 s3 s1 v3 r3 hl hl'
      exact ⟨v :: vs, .unit :: ds, .more h (ok_ignore.2 ⟨hd, rfl⟩) h2, .pow hr hr2⟩
theorem powterm_complete : (p : Powterm) → PowtermC m p
  | .paren e => by
    intro x hx hg s s1 hs r hl hl'
    cases hx with
    | @paren a x e b ha hx hb =>
      rw [Powterm.Greedy] at hg
      obtain ⟨s2, r1, r2⟩ := Reads.split (x := [40]) hs r
      have v2 := r1.valid hs
      obtain ⟨s3, r3, r4⟩ := Reads.split (x := a ++ x) (y := b ++ [41]) v2 (by rw [List.append_assoc]; exact r2)
      have v3 := r3.valid v2
      have fo : Follow ops (s3.elems m.mem) := by
        rw [r4.text, List.append_assoc]; exact follow_mark hb mark_close (by simp) (by simp)
      obtain ⟨s0, vs, ds, h0, h1, hr⟩ := expr_arg_complete (expr_complete e) ha hx hg v2 r3 fo
      obtain ⟨s4, h4, v4, r5⟩ := see_front v3 hb ⟨41, [], rfl, mark_close.1⟩ r4
      exact ⟨_, powterm_split.2 ⟨_, .paren ((paren_split hs).2 ⟨s2, s0, s3, s4, _, r1, h0, h1, h4, r5, rfl⟩), rfl⟩, .paren hr⟩
  | .neg e => by
    intro x hx hg s s1 hs r hl hl'
    cases hx with
    | @neg a x e ha hx =>
      rw [Powterm.Greedy] at hg
      obtain ⟨s2, r1, r2⟩ := Reads.split (x := [45]) hs r
      have v2 := r1.valid hs
      obtain ⟨s0, vs, ds, h0, h1, hr⟩ := expr_arg_complete (expr_complete e) ha hx hg v2 r2 (hl' (by rw [Powterm.endsNeg]))
      have hno : No (ctx m) parenP s := no_paren hs (by rw [r1.text]; simp)
      exact ⟨_, powterm_split.2 ⟨_, .neg hno ((neg_split hs).2 ⟨s2, s0, _, r1, h0, h1, rfl⟩), rfl⟩, .neg hr⟩
  | .num n => by
    intro x hx hg s s1 hs r hl hl'
    cases hx with
    | num hx =>
      obtain ⟨v, h, hr⟩ := ok_number hs r hx hl
      obtain ⟨c, z, rfl, hc⟩ := hx.head
      have hd : ∀ d ∈ (s.elems m.mem).head?, d ≠ 40 ∧ d ≠ 45 := by
        rw [r.text]; intro d hd
        simp at hd; subst hd
        simp only [Digit] at hc; omega
      exact ⟨_, powterm_split.2 ⟨_, .num (no_paren hs fun d h => (hd d h).1) (no_neg hs fun d h => (hd d h).2) h, rfl⟩,
        .num hr⟩
end

end Tok3n.Algebraic
