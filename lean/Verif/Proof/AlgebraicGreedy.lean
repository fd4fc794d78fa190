import Verif.Proof.AlgebraicComplete
/-
The algebraic example: every text of the grammar also denotes a greedy expression.
-/

namespace Tok3n.Algebraic

open Json (Ws Digit Digits Fraction Ends)

/-- operands with operators between them, without precedence -/
inductive Flat : List Nat → Prop where
  | one {a x p} : Ws a → IsPowterm x p → p.Greedy → Flat (a ++ x)
  | snoc {x a c b y p} : Flat x → Ws a → c ∈ ops → Ws b → IsPowterm y p → p.Greedy → Flat (x ++ (a ++ c :: (b ++ y)))

theorem Flat.ws {a x : List Nat} (ha : Ws a) (h : Flat x) : Flat (a ++ x) := by
  induction h with
  | one hb hx hg => rw [← List.append_assoc]; exact .one (Ws.append ha hb) hx hg
  | snoc _ h1 h2 h3 h4 h5 ih => rw [← List.append_assoc]; exact .snoc ih h1 h2 h3 h4 h5

theorem Flat.concat {x a b y : List Nat} {c : Nat} (hx : Flat x) (ha : Ws a) (hc : c ∈ ops) (hb : Ws b) (h : Flat y) :
    Flat (x ++ (a ++ c :: (b ++ y))) := by
  induction h with
  | one hb' hx' hg => rw [← List.append_assoc b]; exact .snoc hx ha hc (Ws.append hb hb') hx' hg
  | snoc _ h1 h2 h3 h4 h5 ih =>
    have := Flat.snoc ih h1 h2 h3 h4 h5
    simpa [List.append_assoc] using this

section
variable {a b y : List Nat} {c : Nat} {q : Powterm} (ha : Ws a) (hc : c ∈ ops) (hb : Ws b) (hy : IsPowterm y q) (hq : q.Greedy)
include ha hc hb hy hq

private abbrev next (a b y : List Nat) (c : Nat) : List Nat := a ++ c :: (b ++ y)

omit ha hc in
theorem one_factor : IsFactor (b ++ y) (.one q) ∧ (Factor.one q).Greedy := ⟨.one hb hy, by rw [Factor.Greedy]; exact hq⟩
omit ha hc in
theorem one_term : IsTerm (b ++ y) (.one (.one q)) ∧ (Term.one (.one q)).Greedy :=
  ⟨.one (a := []) Ws.nil (.one hb hy), by rw [Term.Greedy, Factor.Greedy]; exact hq⟩

mutual
/-- One more operand at the end. -/
theorem expr_snoc : (e : Expr) → ∀ x, IsExpr x e → e.Greedy → ∃ e', IsExpr (x ++ (a ++ c :: (b ++ y))) e' ∧ e'.Greedy
  | .one t, _, h, hg => by
    cases h with
    | @one w x t hw hx =>
      rw [Expr.Greedy] at hg
      by_cases hn : t.endsNeg = true ∨ c ∈ [42, 47, 94]
      · obtain ⟨t', h1, h2⟩ := term_snoc t x hx hg hn
        exact ⟨.one t', by rw [List.append_assoc]; exact .one hw h1, by rw [Expr.Greedy]; exact h2⟩
      · have hneg : (Expr.one t).endsNeg = false := by rw [Expr.endsNeg]; simpa using fun h => hn (.inl h)
        have hc' : c = 43 ∨ c = 45 := by simp at hc hn; omega
        obtain ⟨h1, h2⟩ := one_term hb hy hq
        rcases hc' with rfl | rfl
        · exact ⟨_, .add (a := a) (b := []) (.one hw hx) ha Ws.nil h1,
            by rw [Expr.Greedy]; exact ⟨by rw [Expr.Greedy]; exact hg, hneg, h2⟩⟩
        · exact ⟨_, .sub (a := a) (b := []) (.one hw hx) ha Ws.nil h1,
            by rw [Expr.Greedy]; exact ⟨by rw [Expr.Greedy]; exact hg, hneg, h2⟩⟩
  | .add e t, _, h, hg => by
    have hg0 := hg
    cases h with
    | @add x e w w' z t hx hw hw' hz =>
      rw [Expr.Greedy] at hg
      by_cases hn : t.endsNeg = true ∨ c ∈ [42, 47, 94]
      · obtain ⟨t', h1, h2⟩ := term_snoc t z hz hg.2.2 hn
        refine ⟨.add e t', ?_, by rw [Expr.Greedy]; exact ⟨hg.1, hg.2.1, h2⟩⟩
        have := IsExpr.add hx hw hw' h1
        simpa [List.append_assoc] using this
      · have hneg : (Expr.add e t).endsNeg = false := by rw [Expr.endsNeg]; simpa using fun h => hn (.inl h)
        have hc' : c = 43 ∨ c = 45 := by simp at hc hn; omega
        obtain ⟨h1, h2⟩ := one_term hb hy hq
        rcases hc' with rfl | rfl
        · exact ⟨_, .add (a := a) (b := []) (.add hx hw hw' hz) ha Ws.nil h1, by rw [Expr.Greedy]; exact ⟨hg0, hneg, h2⟩⟩
        · exact ⟨_, .sub (a := a) (b := []) (.add hx hw hw' hz) ha Ws.nil h1, by rw [Expr.Greedy]; exact ⟨hg0, hneg, h2⟩⟩
  | .sub e t, _, h, hg => by
    have hg0 := hg
    cases h with
    | @sub x e w w' z t hx hw hw' hz =>
      rw [Expr.Greedy] at hg
      by_cases hn : t.endsNeg = true ∨ c ∈ [42, 47, 94]
      · obtain ⟨t', h1, h2⟩ := term_snoc t z hz hg.2.2 hn
        refine ⟨.sub e t', ?_, by rw [Expr.Greedy]; exact ⟨hg.1, hg.2.1, h2⟩⟩
        have := IsExpr.sub hx hw hw' h1
        simpa [List.append_assoc] using this
      · have hneg : (Expr.sub e t).endsNeg = false := by rw [Expr.endsNeg]; simpa using fun h => hn (.inl h)
        have hc' : c = 43 ∨ c = 45 := by simp at hc hn; omega
        obtain ⟨h1, h2⟩ := one_term hb hy hq
        rcases hc' with rfl | rfl
        · exact ⟨_, .add (a := a) (b := []) (.sub hx hw hw' hz) ha Ws.nil h1, by rw [Expr.Greedy]; exact ⟨hg0, hneg, h2⟩⟩
        · exact ⟨_, .sub (a := a) (b := []) (.sub hx hw hw' hz) ha Ws.nil h1, by rw [Expr.Greedy]; exact ⟨hg0, hneg, h2⟩⟩
theorem term_snoc : (t : Term) → ∀ x, IsTerm x t → t.Greedy → t.endsNeg = true ∨ c ∈ [42, 47, 94] →
    ∃ t', IsTerm (x ++ (a ++ c :: (b ++ y))) t' ∧ t'.Greedy
  | .one t, _, h, hg, hn => by
    cases h with
    | @one w x t hw hx =>
      rw [Term.Greedy] at hg
      rw [Term.endsNeg] at hn
      by_cases hn' : t.endsNeg = true ∨ c = 94
      · obtain ⟨t', h1, h2⟩ := factor_snoc t x hx hg hn'
        exact ⟨.one t', by rw [List.append_assoc]; exact .one hw h1, by rw [Term.Greedy]; exact h2⟩
      · have hneg : (Term.one t).endsNeg = false := by rw [Term.endsNeg]; simpa using fun h => hn' (.inl h)
        have hc' : c = 42 ∨ c = 47 := by simp at hc hn hn'; simp [hn'] at hn; exact hn
        obtain ⟨h1, h2⟩ := one_factor hb hy hq
        rcases hc' with rfl | rfl
        · exact ⟨_, .mul (a := a) (b := []) (.one hw hx) ha Ws.nil h1,
            by rw [Term.Greedy]; exact ⟨by rw [Term.Greedy]; exact hg, hneg, h2⟩⟩
        · exact ⟨_, .div (a := a) (b := []) (.one hw hx) ha Ws.nil h1,
            by rw [Term.Greedy]; exact ⟨by rw [Term.Greedy]; exact hg, hneg, h2⟩⟩
  | .mul e t, _, h, hg, hn => by
    have hg0 := hg
    cases h with
    | @mul x e w w' z t hx hw hw' hz =>
      rw [Term.Greedy] at hg
      rw [Term.endsNeg] at hn
      by_cases hn' : t.endsNeg = true ∨ c = 94
      · obtain ⟨t', h1, h2⟩ := factor_snoc t z hz hg.2.2 hn'
        refine ⟨.mul e t', ?_, by rw [Term.Greedy]; exact ⟨hg.1, hg.2.1, h2⟩⟩
        have := IsTerm.mul hx hw hw' h1
        simpa [List.append_assoc] using this
      · have hneg : (Term.mul e t).endsNeg = false := by rw [Term.endsNeg]; simpa using fun h => hn' (.inl h)
        have hc' : c = 42 ∨ c = 47 := by simp at hc hn hn'; simp [hn'] at hn; exact hn
        obtain ⟨h1, h2⟩ := one_factor hb hy hq
        rcases hc' with rfl | rfl
        · exact ⟨_, .mul (a := a) (b := []) (.mul hx hw hw' hz) ha Ws.nil h1, by rw [Term.Greedy]; exact ⟨hg0, hneg, h2⟩⟩
        · exact ⟨_, .div (a := a) (b := []) (.mul hx hw hw' hz) ha Ws.nil h1, by rw [Term.Greedy]; exact ⟨hg0, hneg, h2⟩⟩
  | .div e t, _, h, hg, hn => by
    have hg0 := hg
    cases h with
    | @div x e w w' z t hx hw hw' hz =>
      rw [Term.Greedy] at hg
      rw [Term.endsNeg] at hn
      by_cases hn' : t.endsNeg = true ∨ c = 94
      · obtain ⟨t', h1, h2⟩ := factor_snoc t z hz hg.2.2 hn'
        refine ⟨.div e t', ?_, by rw [Term.Greedy]; exact ⟨hg.1, hg.2.1, h2⟩⟩
        have := IsTerm.div hx hw hw' h1
        simpa [List.append_assoc] using this
      · have hneg : (Term.div e t).endsNeg = false := by rw [Term.endsNeg]; simpa using fun h => hn' (.inl h)
        have hc' : c = 42 ∨ c = 47 := by simp at hc hn hn'; simp [hn'] at hn; exact hn
        obtain ⟨h1, h2⟩ := one_factor hb hy hq
        rcases hc' with rfl | rfl
        · exact ⟨_, .mul (a := a) (b := []) (.div hx hw hw' hz) ha Ws.nil h1, by rw [Term.Greedy]; exact ⟨hg0, hneg, h2⟩⟩
        · exact ⟨_, .div (a := a) (b := []) (.div hx hw hw' hz) ha Ws.nil h1, by rw [Term.Greedy]; exact ⟨hg0, hneg, h2⟩⟩
theorem factor_snoc : (f : Factor) → ∀ x, IsFactor x f → f.Greedy → f.endsNeg = true ∨ c = 94 →
    ∃ f', IsFactor (x ++ (a ++ c :: (b ++ y))) f' ∧ f'.Greedy
  | .one p, _, h, hg, hn => by
    cases h with
    | @one w x p hw hx =>
      rw [Factor.Greedy] at hg
      rw [Factor.endsNeg] at hn
      by_cases hn' : p.endsNeg = true
      · obtain ⟨p', h1, h2⟩ := powterm_snoc p x hx hg hn'
        exact ⟨.one p', by rw [List.append_assoc]; exact .one hw h1, by rw [Factor.Greedy]; exact h2⟩
      · obtain rfl : c = 94 := hn.resolve_left hn'
        obtain ⟨h1, h2⟩ := one_factor hb hy hq
        refine ⟨.pow p (.one q), ?_, by rw [Factor.Greedy]; exact ⟨hg, by simpa using hn', h2⟩⟩
        rw [List.append_assoc]
        exact .pow hw hx ha h1
  | .pow p f, _, h, hg, hn => by
    cases h with
    | @pow w x p w' z f hw hx hw' hz =>
      rw [Factor.Greedy] at hg
      rw [Factor.endsNeg] at hn
      obtain ⟨f', h1, h2⟩ := factor_snoc f z hz hg.2.2 hn
      refine ⟨.pow p f', ?_, by rw [Factor.Greedy]; exact ⟨hg.1, hg.2.1, h2⟩⟩
      have := IsFactor.pow hw hx hw' h1
      simpa [List.append_assoc] using this
theorem powterm_snoc : (p : Powterm) → ∀ x, IsPowterm x p → p.Greedy → p.endsNeg = true →
    ∃ p', IsPowterm (x ++ (a ++ c :: (b ++ y))) p' ∧ p'.Greedy
  | .paren e, _, _, _, hn => by simp [Powterm.endsNeg] at hn
  | .num e, _, _, _, hn => by simp [Powterm.endsNeg] at hn
  | .neg e, _, h, hg, hn => by
    cases h with
    | @neg w x e hw hx =>
      rw [Powterm.Greedy] at hg
      obtain ⟨e', h1, h2⟩ := expr_snoc e x hx hg
      refine ⟨.neg e', ?_, by rw [Powterm.Greedy]; exact h2⟩
      have := IsPowterm.neg hw h1
      simpa [List.append_assoc] using this
end

end

theorem Flat.greedy {x : List Nat} (h : Flat x) : ∃ e, IsExpr x e ∧ e.Greedy := by
  induction h with
  | one hb hy hq =>
    obtain ⟨h1, h2⟩ := one_term hb hy hq
    exact ⟨_, .one (a := []) Ws.nil h1, by rw [Expr.Greedy]; exact h2⟩
  | snoc _ ha hc hb hy hq ih =>
    obtain ⟨e, h1, h2⟩ := ih
    exact expr_snoc ha hc hb hy hq e _ h1 h2

mutual
theorem expr_flat : (e : Expr) → ∀ x, IsExpr x e → Flat x
  | .one t, _, h => by cases h with | one ha hx => exact .ws ha (term_flat t _ hx)
  | .add e t, _, h => by
    cases h with | add hx ha hb hy => exact .concat (expr_flat e _ hx) ha (by simp) hb (term_flat t _ hy)
  | .sub e t, _, h => by
    cases h with | sub hx ha hb hy => exact .concat (expr_flat e _ hx) ha (by simp) hb (term_flat t _ hy)
theorem term_flat : (t : Term) → ∀ x, IsTerm x t → Flat x
  | .one t, _, h => by cases h with | one ha hx => exact .ws ha (factor_flat t _ hx)
  | .mul e t, _, h => by
    cases h with | mul hx ha hb hy => exact .concat (term_flat e _ hx) ha (by simp) hb (factor_flat t _ hy)
  | .div e t, _, h => by
    cases h with | div hx ha hb hy => exact .concat (term_flat e _ hx) ha (by simp) hb (factor_flat t _ hy)
theorem factor_flat : (f : Factor) → ∀ x, IsFactor x f → Flat x
  | .one p, _, h => by
    cases h with
    | one ha hx =>
      obtain ⟨p', h1, h2⟩ := powterm_flat p _ hx
      exact .one ha h1 h2
  | .pow p f, _, h => by
    cases h with
    | pow ha hx hb hy =>
      obtain ⟨p', h1, h2⟩ := powterm_flat p _ hx
      have := Flat.concat (b := []) (.one ha h1 h2) hb (c := 94) (by simp) Ws.nil (factor_flat f _ hy)
      simpa [List.append_assoc] using this
theorem powterm_flat : (p : Powterm) → ∀ x, IsPowterm x p → ∃ p', IsPowterm x p' ∧ p'.Greedy
  | .paren e, _, h => by
    cases h with
    | paren ha hx hb =>
      obtain ⟨e', h1, h2⟩ := (expr_flat e _ hx).greedy
      exact ⟨_, .paren ha h1 hb, by rw [Powterm.Greedy]; exact h2⟩
  | .neg e, _, h => by
    cases h with
    | neg ha hx =>
      obtain ⟨e', h1, h2⟩ := (expr_flat e _ hx).greedy
      exact ⟨_, .neg ha h1, by rw [Powterm.Greedy]; exact h2⟩
  | .num n, _, h => ⟨_, h, by rw [Powterm.Greedy]; trivial⟩
end

/-- Every text of the grammar denotes a greedy expression. -/
theorem IsExpr.greedy {x : List Nat} {e : Expr} (h : IsExpr x e) : ∃ e', IsExpr x e' ∧ e'.Greedy :=
  (expr_flat e x h).greedy

end Tok3n.Algebraic
