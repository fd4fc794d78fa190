import Verif.Proof.AlgebraicParts
/-
The algebraic example: what is accepted is in the grammar.
-/

namespace Tok3n.Algebraic

open Json (Ws Digit Digits Fraction)

variable {m : Machine} {s s' : Span} {w : Val}

/-- no more of a list of `p` separated by `d` -/
def NoMore (m : Machine) (p d : Parser Nat) (s : Span) : Prop :=
  No (ctx m) d s ∨ ∃ w s2, Ok (ctx m) d s w s2 ∧ No (ctx m) p s2

theorem NoMore.absurd {p d : Parser Nat} (h : NoMore m p d s) {w : Val} {s2 : Span} (h1 : Ok (ctx m) d s w s2) {v : Val}
    {s3 : Span} (h2 : Ok (ctx m) p s2 v s3) : False := by
  rcases h with h | ⟨w', s2', h3, h4⟩
  · exact h1.not_no h
  · obtain ⟨-, rfl⟩ := h1.det h3
    exact h2.not_no h4

theorem _root_.Tok3n.List1.head {p d : Parser Nat} {vs ds : List Val} (h : List1 (ctx m) p d s vs ds s') :
    ∃ v s1, Ok (ctx m) p s v s1 := by
  cases h with
  | last h => exact ⟨_, _, h⟩
  | more h => exact ⟨_, _, h⟩

abbrev NoPow (m : Machine) : Span → Prop := NoMore m (argP 1) (.ignore (opP [94]))
abbrev NoMul (m : Machine) : Span → Prop := NoMore m (argP 2) (opP [42, 47])
abbrev NoAdd (m : Machine) : Span → Prop := NoMore m (argP 3) (opP [43, 45])
/-- no operator with an operand follows -/
def Stuck (m : Machine) (s : Span) : Prop := NoPow m s ∧ NoMul m s ∧ NoAdd m s

def ExprSound (m : Machine) (s : Span) : Prop :=
  ∀ vs ds s', List1 (ctx m) (argP 3) (opP [43, 45]) s vs ds s' →
    ∃ x e, Reads m.mem s x s' ∧ IsExpr x e ∧ RepExpr m.mem vs ds e ∧ e.Greedy ∧ Stuck m s'
def TermSound (m : Machine) (s : Span) : Prop :=
  ∀ vs ds s', List1 (ctx m) (argP 2) (opP [42, 47]) s vs ds s' →
    ∃ x t, Reads m.mem s x s' ∧ IsTerm x t ∧ RepFactors m.mem vs ds t ∧ t.Greedy ∧ NoPow m s' ∧ NoMul m s' ∧
      (t.endsNeg = true → Stuck m s')
def FactorSound (m : Machine) (s : Span) : Prop :=
  ∀ vs ds s', List1 (ctx m) (argP 1) (.ignore (opP [94])) s vs ds s' →
    ∃ x f, Reads m.mem s x s' ∧ IsFactor x f ∧ RepPowterms m.mem vs f ∧ f.Greedy ∧ NoPow m s' ∧
      (f.endsNeg = true → Stuck m s')
def PowtermSound (m : Machine) (s : Span) : Prop :=
  ∀ v s', Ok (ctx m) (.custom 1) s v s' →
    ∃ x p, Reads m.mem s x s' ∧ IsPowterm x p ∧ RepPowterm m.mem v p ∧ p.Greedy ∧ (p.endsNeg = true → Stuck m s')

theorem powterm_sound (hs : s.Valid m.mem) (ih : ∀ s1 : Span, s1.Valid m.mem → s1.len < s.len → ExprSound m s1) :
    PowtermSound m s := by
  intro v s' h
  obtain ⟨v, h1, rfl⟩ := powterm_split.1 h
  clear h
  cases h1 with
  | paren h =>
    obtain ⟨s1, s2, s3, s4, v, r1, h2, h3, h4, r5, rfl⟩ := (paren_split hs).1 h
    have v1 := r1.valid hs
    obtain ⟨a, r2, ha, -⟩ := (see_ws v1).1 h2
    have v2 := r2.valid v1
    obtain ⟨vs, ds, h3l, rfl⟩ := expr_split.1 h3
    have l1 := r1.size; have l2 := r2.size
    obtain ⟨x, e, r3, hx, hr, hg, -⟩ := ih s2 v2 (by simp at l1; omega) vs ds s3 h3l
    obtain ⟨b, r4, hb, -⟩ := (see_ws (r3.valid v2)).1 h4
    exact ⟨_, _, r1.trans (r2.trans (r3.trans (r4.trans r5))), .paren ha hx hb, .paren hr, by rwa [Powterm.Greedy], nofun⟩
  | neg _ h =>
    obtain ⟨s1, s2, v, r1, h2, h3, rfl⟩ := (neg_split hs).1 h
    have v1 := r1.valid hs
    obtain ⟨a, r2, ha, -⟩ := (see_ws v1).1 h2
    have v2 := r2.valid v1
    obtain ⟨vs, ds, h3l, rfl⟩ := expr_split.1 h3
    have l1 := r1.size; have l2 := r2.size
    obtain ⟨x, e, r3, hx, hr, hg, hk⟩ := ih s2 v2 (by simp at l1; omega) vs ds s' h3l
    exact ⟨_, _, r1.trans (r2.trans r3), .neg (a := a) ha hx, .neg hr, by rwa [Powterm.Greedy], fun _ => hk⟩
  | num _ _ h =>
    obtain ⟨x, n, r, hx, hr⟩ := number_ok hs h
    exact ⟨x, _, r, .num hx, .num hr, trivial, nofun⟩

theorem factor_sound (hs : s.Valid m.mem)
    (ih : ∀ s1 : Span, s1.Valid m.mem → s1.len ≤ s.len → PowtermSound m s1) : FactorSound m s := by
  intro vs ds s' h
  induction h with
  | @last s v s1 h1 h2 =>
    obtain ⟨s0, h0, h1⟩ := (arg_split rfl (by nofun)).1 h1
    obtain ⟨a, ra, ha, -⟩ := (see_ws hs).1 h0
    have l := ra.size
    obtain ⟨x, p, r, hx, hr, hg, hk⟩ := ih s0 (ra.valid hs) (by omega) v s1 h1
    exact ⟨_, _, ra.trans r, .one ha hx, .one hr, by rwa [Factor.Greedy], h2, by rwa [Factor.endsNeg]⟩
  | @more s v s1 w s2 vs ds s' h1 h2 h3 ih2 =>
    obtain ⟨s0, h0, h1⟩ := (arg_split rfl (by nofun)).1 h1
    obtain ⟨a, ra, ha, -⟩ := (see_ws hs).1 h0
    have l := ra.size
    obtain ⟨x, p, r, hx, hr, hg, hk⟩ := ih s0 (ra.valid hs) (by omega) v s1 h1
    have l' := r.size
    have hn : p.endsNeg = false := by
      by_contra hn
      obtain ⟨_, _, h4⟩ := h3.head
      exact (hk (by simpa using hn)).1.absurd h2 h4
    have v1 := r.valid (ra.valid hs)
    obtain ⟨h2, -⟩ := ok_ignore.1 h2
    obtain ⟨s3, h5, c, hc, r6⟩ := (see_op v1).1 h2
    obtain ⟨b, r5, hb, -⟩ := (see_ws v1).1 h5
    simp only [List.mem_singleton] at hc
    subst hc
    have v2 := r6.valid (r5.valid v1)
    have l2 := r5.size; have l3 := r6.size
    obtain ⟨y, f, r7, hf, hrf, hgf, hp, hkf⟩ := ih2 v2 fun s4 v4 l4 => ih s4 v4 (by omega)
    refine ⟨_, _, ra.trans (r.trans (r5.trans (r6.trans r7))), .pow ha hx hb hf, .pow hr hrf, ?_, hp, ?_⟩
    · rw [Factor.Greedy]; exact ⟨hg, hn, hgf⟩
    · rwa [Factor.endsNeg]

/-- a factor after white space -/
theorem factor_arg (hs : s.Valid m.mem) (ih : ∀ s1 : Span, s1.Valid m.mem → s1.len ≤ s.len → FactorSound m s1) {v : Val}
    (h : Ok (ctx m) (argP 2) s v s') : ∃ a y f, Reads m.mem s (a ++ y) s' ∧ Ws a ∧ IsFactor y f ∧ RepFactor m.mem v f ∧
      f.Greedy ∧ NoPow m s' ∧ (f.endsNeg = true → Stuck m s') := by
  obtain ⟨s0, h0, h1⟩ := (arg_split rfl (by nofun)).1 h
  obtain ⟨a, ra, ha, -⟩ := (see_ws hs).1 h0
  have l := ra.size
  obtain ⟨vs, ds, h2, rfl⟩ := factor_split.1 h1
  obtain ⟨x, p, r, hx, hr, hg, hk⟩ := ih s0 (ra.valid hs) (by omega) vs ds s' h2
  exact ⟨a, x, p, ra.trans r, ha, hx, .mk hr, hg, hk⟩

theorem term_arg (hs : s.Valid m.mem) (ih : ∀ s1 : Span, s1.Valid m.mem → s1.len ≤ s.len → TermSound m s1) {v : Val}
    (h : Ok (ctx m) (argP 3) s v s') : ∃ a y t, Reads m.mem s (a ++ y) s' ∧ Ws a ∧ IsTerm y t ∧ RepTerm m.mem v t ∧
      t.Greedy ∧ NoPow m s' ∧ NoMul m s' ∧ (t.endsNeg = true → Stuck m s') := by
  obtain ⟨s0, h0, h1⟩ := (arg_split rfl (by nofun)).1 h
  obtain ⟨a, ra, ha, -⟩ := (see_ws hs).1 h0
  have l := ra.size
  obtain ⟨vs, ds, h2, rfl⟩ := term_split.1 h1
  obtain ⟨x, p, r, hx, hr, hg, hk⟩ := ih s0 (ra.valid hs) (by omega) vs ds s' h2
  exact ⟨a, x, p, ra.trans r, ha, hx, .mk hr, hg, hk⟩

/-- the rest of a term -/
theorem factors_sound {vs ds : List Val} (h : List1 (ctx m) (argP 2) (opP [42, 47]) s vs ds s') (hs : s.Valid m.mem)
    (ih : ∀ s1 : Span, s1.Valid m.mem → s1.len ≤ s.len → FactorSound m s1) {x0 a : List Nat} {t0 : Term}
    {vs0 ds0 : List Val} {c : Nat} {d : Val} (hx : IsTerm x0 t0) (hg : t0.Greedy) (hn : t0.endsNeg = false)
    (hr : RepFactors m.mem vs0 ds0 t0) (ha : Ws a) (hc : c ∈ [42, 47]) (hd : RepChar m.mem d c) :
    ∃ x t, Reads m.mem s x s' ∧ IsTerm (x0 ++ (a ++ c :: x)) t ∧ RepFactors m.mem (vs0 ++ vs) (ds0 ++ d :: ds) t ∧
      t.Greedy ∧ NoPow m s' ∧ NoMul m s' ∧ (t.endsNeg = true → Stuck m s') := by
  have step : ∀ {b y : List Nat} {f : Factor} {v : Val}, Ws b → IsFactor y f → RepFactor m.mem v f → f.Greedy →
      ∃ t, IsTerm (x0 ++ (a ++ c :: (b ++ y))) t ∧ RepFactors m.mem (vs0 ++ [v]) (ds0 ++ [d]) t ∧ t.Greedy ∧
        t.endsNeg = f.endsNeg := by
    intro b y f v hb hf hrf hgf
    simp only [List.mem_cons, List.not_mem_nil, or_false] at hc
    rcases hc with rfl | rfl
    · exact ⟨.mul t0 f, .mul hx ha hb hf, .mul hr hd hrf, by rw [Term.Greedy]; exact ⟨hg, hn, hgf⟩, by rw [Term.endsNeg]⟩
    · exact ⟨.div t0 f, .div hx ha hb hf, .div hr hd hrf, by rw [Term.Greedy]; exact ⟨hg, hn, hgf⟩, by rw [Term.endsNeg]⟩
  induction h generalizing x0 t0 vs0 ds0 a c d with
  | @last s v s1 h1 h2 =>
    obtain ⟨b, y, f, r, hb, hf, hrf, hgf, hp, hk⟩ := factor_arg hs ih h1
    obtain ⟨t, ht, hrt, hgt, he⟩ := step hb hf hrf hgf
    exact ⟨_, t, r, ht, hrt, hgt, hp, h2, he ▸ hk⟩
  | @more s v s1 w s2 vs ds s' h1 h2 h3 ih2 =>
    obtain ⟨b, y, f, r, hb, hf, hrf, hgf, hp, hk⟩ := factor_arg hs ih h1
    obtain ⟨t, ht, hrt, hgt, he⟩ := step hb hf hrf hgf
    have hnt : t.endsNeg = false := by
      rw [he]
      by_contra hn
      obtain ⟨_, _, h4⟩ := h3.head
      exact (hk (by simpa using hn)).2.1.absurd h2 h4
    have v1 := r.valid hs
    obtain ⟨a', c', hc', r2, ha', hd'⟩ := op_ok v1 h2
    have l1 := r.size; have l2 := r2.size
    obtain ⟨x, t', r3, ht', hrt', hgt', hk'⟩ := ih2 (r2.valid v1) (fun s4 v4 l4 => ih s4 v4 (by omega)) ht hgt hnt hrt ha'
      hc' hd' (fun hb hf hrf hgf => by
        simp only [List.mem_cons, List.not_mem_nil, or_false] at hc'
        rcases hc' with rfl | rfl
        · exact ⟨.mul t _, .mul ht ha' hb hf, .mul hrt hd' hrf, by rw [Term.Greedy]; exact ⟨hgt, hnt, hgf⟩, by rw [Term.endsNeg]⟩
        · exact ⟨.div t _, .div ht ha' hb hf, .div hrt hd' hrf, by rw [Term.Greedy]; exact ⟨hgt, hnt, hgf⟩, by rw [Term.endsNeg]⟩)
    refine ⟨_, t', r.trans (r2.trans r3), ?_, by simpa using hrt', hgt', hk'⟩
    simpa using ht'

theorem term_sound (hs : s.Valid m.mem) (ih : ∀ s1 : Span, s1.Valid m.mem → s1.len ≤ s.len → FactorSound m s1) :
    TermSound m s := by
  intro vs ds s' h
  cases h with
  | last h1 h2 =>
    obtain ⟨b, y, f, r, hb, hf, hrf, hgf, hp, hk⟩ := factor_arg hs ih h1
    exact ⟨_, .one f, r, .one hb hf, .one hrf, by rwa [Term.Greedy], hp, h2, by rwa [Term.endsNeg]⟩
  | more h1 h2 h3 =>
    obtain ⟨b, y, f, r, hb, hf, hrf, hgf, hp, hk⟩ := factor_arg hs ih h1
    have v1 := r.valid hs
    obtain ⟨a, c, hc, r2, ha, hd⟩ := op_ok v1 h2
    have l1 := r.size; have l2 := r2.size
    have hn : f.endsNeg = false := by
      by_contra hn
      obtain ⟨_, _, h4⟩ := h3.head
      exact (hk (by simpa using hn)).2.1.absurd h2 h4
    obtain ⟨x, t, r3, ht, hrt, hgt, hk'⟩ := factors_sound h3 (r2.valid v1) (fun s4 v4 l4 => ih s4 v4 (by omega))
      (.one hb hf) (by rwa [Term.Greedy]) (by rwa [Term.endsNeg]) (.one hrf) ha hc hd
    exact ⟨_, t, r.trans (r2.trans r3), by simpa using ht, by simpa using hrt, hgt, hk'⟩

/-- the rest of an expression -/
theorem terms_sound {vs ds : List Val} (h : List1 (ctx m) (argP 3) (opP [43, 45]) s vs ds s') (hs : s.Valid m.mem)
    (ih : ∀ s1 : Span, s1.Valid m.mem → s1.len ≤ s.len → TermSound m s1) {x0 a : List Nat} {e0 : Expr}
    {vs0 ds0 : List Val} {c : Nat} {d : Val} (hx : IsExpr x0 e0) (hg : e0.Greedy) (hn : e0.endsNeg = false)
    (hr : RepExpr m.mem vs0 ds0 e0) (ha : Ws a) (hc : c ∈ [43, 45]) (hd : RepChar m.mem d c) :
    ∃ x e, Reads m.mem s x s' ∧ IsExpr (x0 ++ (a ++ c :: x)) e ∧ RepExpr m.mem (vs0 ++ vs) (ds0 ++ d :: ds) e ∧
      e.Greedy ∧ Stuck m s' := by
  have step : ∀ {b y : List Nat} {t : Term} {v : Val}, Ws b → IsTerm y t → RepTerm m.mem v t → t.Greedy →
      ∃ e, IsExpr (x0 ++ (a ++ c :: (b ++ y))) e ∧ RepExpr m.mem (vs0 ++ [v]) (ds0 ++ [d]) e ∧ e.Greedy ∧
        e.endsNeg = t.endsNeg := by
    intro b y t v hb hf hrf hgf
    simp only [List.mem_cons, List.not_mem_nil, or_false] at hc
    rcases hc with rfl | rfl
    · exact ⟨.add e0 t, .add hx ha hb hf, .add hr hd hrf, by rw [Expr.Greedy]; exact ⟨hg, hn, hgf⟩, by rw [Expr.endsNeg]⟩
    · exact ⟨.sub e0 t, .sub hx ha hb hf, .sub hr hd hrf, by rw [Expr.Greedy]; exact ⟨hg, hn, hgf⟩, by rw [Expr.endsNeg]⟩
  induction h generalizing x0 e0 vs0 ds0 a c d with
  | @last s v s1 h1 h2 =>
    obtain ⟨b, y, t, r, hb, hf, hrf, hgf, hp, hq, hk⟩ := term_arg hs ih h1
    obtain ⟨e, ht, hrt, hgt, he⟩ := step hb hf hrf hgf
    exact ⟨_, e, r, ht, hrt, hgt, hp, hq, h2⟩
  | @more s v s1 w s2 vs ds s' h1 h2 h3 ih2 =>
    obtain ⟨b, y, t, r, hb, hf, hrf, hgf, hp, hq, hk⟩ := term_arg hs ih h1
    obtain ⟨e, ht, hrt, hgt, he⟩ := step hb hf hrf hgf
    have hnt : e.endsNeg = false := by
      rw [he]
      by_contra hn
      obtain ⟨_, _, h4⟩ := h3.head
      exact (hk (by simpa using hn)).2.2.absurd h2 h4
    have v1 := r.valid hs
    obtain ⟨a', c', hc', r2, ha', hd'⟩ := op_ok v1 h2
    have l1 := r.size; have l2 := r2.size
    obtain ⟨x, e', r3, ht', hrt', hgt', hk'⟩ := ih2 (r2.valid v1) (fun s4 v4 l4 => ih s4 v4 (by omega)) ht hgt hnt hrt ha'
      hc' hd' (fun hb hf hrf hgf => by
        simp only [List.mem_cons, List.not_mem_nil, or_false] at hc'
        rcases hc' with rfl | rfl
        · exact ⟨.add e _, .add ht ha' hb hf, .add hrt hd' hrf, by rw [Expr.Greedy]; exact ⟨hgt, hnt, hgf⟩, by rw [Expr.endsNeg]⟩
        · exact ⟨.sub e _, .sub ht ha' hb hf, .sub hrt hd' hrf, by rw [Expr.Greedy]; exact ⟨hgt, hnt, hgf⟩, by rw [Expr.endsNeg]⟩)
    refine ⟨_, e', r.trans (r2.trans r3), ?_, by simpa using hrt', hgt', hk'⟩
    simpa using ht'

theorem expr_sound' (hs : s.Valid m.mem) (ih : ∀ s1 : Span, s1.Valid m.mem → s1.len ≤ s.len → TermSound m s1) :
    ExprSound m s := by
  intro vs ds s' h
  cases h with
  | last h1 h2 =>
    obtain ⟨b, y, t, r, hb, hf, hrf, hgf, hp, hq, hk⟩ := term_arg hs ih h1
    exact ⟨_, .one t, r, .one hb hf, .one hrf, by rwa [Expr.Greedy], hp, hq, h2⟩
  | more h1 h2 h3 =>
    obtain ⟨b, y, t, r, hb, hf, hrf, hgf, hp, hq, hk⟩ := term_arg hs ih h1
    have v1 := r.valid hs
    obtain ⟨a, c, hc, r2, ha, hd⟩ := op_ok v1 h2
    have l1 := r.size; have l2 := r2.size
    have hn : t.endsNeg = false := by
      by_contra hn
      obtain ⟨_, _, h4⟩ := h3.head
      exact (hk (by simpa using hn)).2.2.absurd h2 h4
    obtain ⟨x, e, r3, ht, hrt, hgt, hk'⟩ := terms_sound h3 (r2.valid v1) (fun s4 v4 l4 => ih s4 v4 (by omega))
      (.one hb hf) (by rwa [Expr.Greedy]) (by rwa [Expr.endsNeg]) (.one hrf) ha hc hd
    exact ⟨_, e, r.trans (r2.trans r3), by simpa using ht, by simpa using hrt, hgt, hk'⟩

theorem expr_sound (hs : s.Valid m.mem) : ExprSound m s := by
  induction hn : s.len using Nat.strong_induction_on generalizing s with
  | _ n ih =>
    have hp : ∀ s1 : Span, s1.Valid m.mem → s1.len ≤ n → PowtermSound m s1 := fun s1 v1 l1 =>
      powterm_sound v1 fun s2 v2 l2 => ih s2.len (by omega) v2 rfl
    have hf : ∀ s1 : Span, s1.Valid m.mem → s1.len ≤ n → FactorSound m s1 := fun s1 v1 l1 =>
      factor_sound v1 fun s2 v2 l2 => hp s2 v2 (by omega)
    have ht : ∀ s1 : Span, s1.Valid m.mem → s1.len ≤ n → TermSound m s1 := fun s1 v1 l1 =>
      term_sound v1 fun s2 v2 l2 => hf s2 v2 (by omega)
    exact expr_sound' hs fun s2 v2 l2 => ht s2 v2 (by omega)

end Tok3n.Algebraic
