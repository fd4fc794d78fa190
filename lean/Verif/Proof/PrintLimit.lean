import Verif.Proof.Print
/-
How far `print` gets with its 1024 tabs (C58).
-/

namespace Tok3n.Algebraic

variable {mem : Mem Nat}

/-- What becomes of printing when the deepest line is to be indented by `d` tabs: something is written up to 1025, with a
null character at 1025, and beyond that the behaviour is undefined. -/
def Fate (r : Except Failure (List Nat)) (d : Nat) : Prop :=
  (d ≤ 1025 → ∃ t, r = .ok t ∧ (d = 1025 → 0 ∈ t)) ∧ (1025 < d → r = .error .ub)

theorem Fate.text (x : String) (n : Nat) : Fate (printText x n) n := by
  constructor
  · intro h
    refine ⟨_, by rw [printText, getTabs, if_pos h]; rfl, ?_⟩
    rintro rfl
    have : (List.replicate 1024 9 ++ [0]).take 1025 = List.replicate 1024 9 ++ [0] :=
      List.take_of_length_le (by rw [List.length_append, List.length_replicate]; exact Nat.le_refl _)
    rw [this]
    exact List.mem_append_left _ (List.mem_append_right _ (List.mem_singleton.2 rfl))
  · intro h
    rw [printText, getTabs, if_neg (by omega)]
    rfl

/-- one after the other -/
theorem Fate.two {r q : Except Failure (List Nat)} {d d' : Nat} {f : List Nat → List Nat → List Nat} (h : Fate r d) (h' : Fate q d')
    (hf : ∀ a b x, x ∈ a ∨ x ∈ b → x ∈ f a b) : Fate (do let a ← r; let b ← q; .ok (f a b)) (max d d') := by
  by_cases hd : d ≤ 1025
  · obtain ⟨t, rfl, ht⟩ := h.1 hd
    by_cases hd' : d' ≤ 1025
    · obtain ⟨u, rfl, hu⟩ := h'.1 hd'
      refine ⟨fun _ => ⟨f t u, rfl, fun e => hf _ _ _ ?_⟩, fun _ => by omega⟩
      by_cases e1 : d = 1025
      · exact .inl (ht e1)
      · exact .inr (hu (by omega))
    · rw [h'.2 (by omega)]
      exact ⟨fun _ => by omega, fun _ => rfl⟩
  · rw [h.2 (by omega)]
    exact ⟨fun _ => by omega, fun _ => rfl⟩

theorem Fate.same {r q : Except Failure (List Nat)} {d d' : Nat} (h : Fate r d) (e : q = r) (e' : d' = d) : Fate q d' := by
  rw [e, e']; exact h

theorem Fate.autoprint {x : String} {n d : Nat} {i : Except Failure (List Nat)} (h : Fate i d) (hn : n ≤ d) :
    Fate (autoprint x n i) d := by
  have h1 := ((Fate.text x n).two (Fate.text "{\n" n) (f := fun a b => a ++ lit " :\n" ++ b) (by
    intro a b x hx; simp only [List.mem_append]; tauto)).two (h.two (Fate.text "}" n) (f := fun i c => i ++ lit "\n" ++ c) (by
    intro a b x hx; simp only [List.mem_append]; tauto)) (f := fun a b => a ++ b) (by
    intro a b x hx; simp only [List.mem_append]; tauto)
  refine h1.same ?_ (by omega)
  rw [Tok3n.Algebraic.autoprint]
  cases printText x n <;> cases printText "{\n" n <;> cases i <;> cases printText "}" n <;> simp [bind, Except.bind]

theorem Fate.one {r : Except Failure (List Nat)} {d : Nat} {f : List Nat → List Nat} (h : Fate r d) (hf : ∀ a x, x ∈ a → x ∈ f a) :
    Fate (do let a ← r; .ok (f a)) d := by
  refine ⟨fun hd => ?_, fun hd => ?_⟩
  · obtain ⟨t, rfl, ht⟩ := h.1 hd
    exact ⟨f t, rfl, fun e => hf _ _ (ht e)⟩
  · rw [h.2 hd]; rfl

theorem Fate.number {v : Val} {x : Number} (h : RepNumber mem v x) (n : Nat) : Fate (printNumber mem v n) n := by
  cases h with
  | mk hs hf he =>
    rw [printNumber, textOf_eq hs, optionalText_eq hf, optionalText_eq he]
    refine ⟨fun hd => ?_, fun hd => ?_⟩
    · obtain ⟨t, e, ht⟩ := (Fate.text "Number : " n).1 hd
      rw [e]
      refine ⟨_, rfl, fun e => ?_⟩
      simp only [List.mem_append]
      exact .inl (.inl (.inl (ht e)))
    · rw [(Fate.text "Number : " n).2 hd]
      rfl

theorem printTerms_last {n : Nat} {v d : Val} : ∀ {vs ds : List Val}, vs.length = ds.length + 1 →
    printTerms mem (vs ++ [v]) (ds ++ [d]) n = (do
      let a ← printTerms mem vs ds n
      let c ← frontOf mem d
      let b ← (if c = 43 then printText "<plus>" n else if c = 45 then printText "<minus>" n else .error .terminate)
      let r ← printTerm mem v n
      .ok (a ++ lit ",\n" ++ b ++ lit "\n" ++ r))
  | [], _, hl => by simp at hl
  | [w], [], _ => by
    rw [List.cons_append, List.nil_append, List.nil_append, printTerms_two, printTerms, printTerms]
  | [w], _ :: _, hl => by simp at hl
  | w :: u :: vs, [], hl => by simp at hl
  | w :: u :: vs, k :: ds, hl => by
    have ih := printTerms_last (n := n) (v := v) (d := d) (vs := u :: vs) (ds := ds) (by simpa using hl)
    simp only [List.cons_append] at ih ⊢
    rw [printTerms_two, ih, printTerms_two]
    cases printTerm mem w n with
    | error _ => rfl
    | ok a1 =>
    cases frontOf mem k with
    | error _ => rfl
    | ok c1 =>
    simp only [bind, Except.bind]
    generalize (if c1 = 43 then printText "<plus>" n else if c1 = 45 then printText "<minus>" n else .error .terminate) = q
    cases q with
    | error _ => rfl
    | ok b1 =>
    cases printTerms mem (u :: vs) ds n with
    | error _ => rfl
    | ok r1 =>
    cases frontOf mem d with
    | error _ => rfl
    | ok c2 =>
    simp only
    generalize (if c2 = 43 then printText "<plus>" n else if c2 = 45 then printText "<minus>" n else .error .terminate) = q
    cases q with
    | error _ => rfl
    | ok b2 =>
    cases printTerm mem v n with
    | error _ => rfl
    | ok r2 => simp

theorem printFactors_last {n : Nat} {v d : Val} : ∀ {vs ds : List Val}, vs.length = ds.length + 1 →
    printFactors mem (vs ++ [v]) (ds ++ [d]) n = (do
      let a ← printFactors mem vs ds n
      let c ← frontOf mem d
      let b ← (if c = 42 then printText "<multiplied by>" n else if c = 47 then printText "<divided by>" n
        else .error .terminate)
      let r ← printFactor mem v n
      .ok (a ++ lit ",\n" ++ b ++ lit "\n" ++ r))
  | [], _, hl => by simp at hl
  | [w], [], _ => by
    rw [List.cons_append, List.nil_append, List.nil_append, printFactors_two, printFactors, printFactors]
  | [w], _ :: _, hl => by simp at hl
  | w :: u :: vs, [], hl => by simp at hl
  | w :: u :: vs, k :: ds, hl => by
    have ih := printFactors_last (n := n) (v := v) (d := d) (vs := u :: vs) (ds := ds) (by simpa using hl)
    simp only [List.cons_append] at ih ⊢
    rw [printFactors_two, ih, printFactors_two]
    cases printFactor mem w n with
    | error _ => rfl
    | ok a1 =>
    cases frontOf mem k with
    | error _ => rfl
    | ok c1 =>
    simp only [bind, Except.bind]
    generalize (if c1 = 42 then printText "<multiplied by>" n else if c1 = 47 then printText "<divided by>" n
      else .error .terminate) = q
    cases q with
    | error _ => rfl
    | ok b1 =>
    cases printFactors mem (u :: vs) ds n with
    | error _ => rfl
    | ok r1 =>
    cases frontOf mem d with
    | error _ => rfl
    | ok c2 =>
    simp only
    generalize (if c2 = 42 then printText "<multiplied by>" n else if c2 = 47 then printText "<divided by>" n
      else .error .terminate) = q
    cases q with
    | error _ => rfl
    | ok b2 =>
    cases printFactor mem v n with
    | error _ => rfl
    | ok r2 => simp

/-- operands, an operator and one more operand -/
theorem Fate.operands {r q : Except Failure (List Nat)} {x : String} {n d d' : Nat} (h : Fate r d) (h' : Fate q d') (hn : n ≤ d') :
    Fate (do let a ← r; let b ← printText x n; let c ← q; .ok (a ++ lit ",\n" ++ b ++ lit "\n" ++ c)) (max d d') := by
  have h1 := h.two ((Fate.text x n).two h' (f := fun b c => b ++ lit "\n" ++ c) (by
    intro a b x hx; simp only [List.mem_append]; tauto)) (f := fun a b => a ++ lit ",\n" ++ b) (by
    intro a b x hx; simp only [List.mem_append]; tauto)
  refine h1.same ?_ (by omega)
  cases r <;> cases printText x n <;> cases q <;> simp [bind, Except.bind]

mutual
theorem printTerms_fate : (e : Expr) → {vs ds : List Val} → RepExpr mem vs ds e → ∀ n, Fate (printTerms mem vs ds n) (n + 3 + 5 * e.depth)
  | .one t, _, _, h, n => by
    cases h with
    | one h => rw [printTerms, Expr.depth]; exact printTerm_fate t h n
  | .add e t, _, _, h, n => by
    cases h with
    | add h h1 h2 =>
      rw [printTerms_last (RepExpr.length e h), frontOf_eq h1, Expr.depth]
      exact ((printTerms_fate e h n).operands (x := "<plus>") (printTerm_fate t h2 n) (by omega : n ≤ _)).same rfl (by omega)
  | .sub e t, _, _, h, n => by
    cases h with
    | sub h h1 h2 =>
      rw [printTerms_last (RepExpr.length e h), frontOf_eq h1, Expr.depth]
      exact ((printTerms_fate e h n).operands (x := "<minus>") (printTerm_fate t h2 n) (by omega : n ≤ _)).same rfl (by omega)
theorem printTerm_fate : (t : Term) → {v : Val} → RepTerm mem v t → ∀ n, Fate (printTerm mem v n) (n + 3 + 5 * t.depth)
  | t, _, .mk h, n => by
    rw [printTerm]
    exact (Fate.autoprint (printFactors_fate t h (n + 1)) (by omega)).same rfl (by omega)
theorem printFactors_fate : (t : Term) → {vs ds : List Val} → RepFactors mem vs ds t → ∀ n,
    Fate (printFactors mem vs ds n) (n + 2 + 5 * t.depth)
  | .one f, _, _, h, n => by
    cases h with
    | one h => rw [printFactors, Term.depth]; exact printFactor_fate f h n
  | .mul e t, _, _, h, n => by
    cases h with
    | mul h h1 h2 =>
      rw [printFactors_last (RepFactors.length e h), frontOf_eq h1, Term.depth]
      exact ((printFactors_fate e h n).operands (x := "<multiplied by>") (printFactor_fate t h2 n) (by omega : n ≤ _)).same rfl (by omega)
  | .div e t, _, _, h, n => by
    cases h with
    | div h h1 h2 =>
      rw [printFactors_last (RepFactors.length e h), frontOf_eq h1, Term.depth]
      exact ((printFactors_fate e h n).operands (x := "<divided by>") (printFactor_fate t h2 n) (by omega : n ≤ _)).same rfl (by omega)
theorem printFactor_fate : (f : Factor) → {v : Val} → RepFactor mem v f → ∀ n, Fate (printFactor mem v n) (n + 2 + 5 * f.depth)
  | f, _, .mk h, n => by
    rw [printFactor]
    exact (Fate.autoprint (printPowterms_fate f h (n + 1)) (by omega)).same rfl (by omega)
theorem printPowterms_fate : (f : Factor) → {vs : List Val} → RepPowterms mem vs f → ∀ n,
    Fate (printPowterms mem vs n) (n + 1 + 5 * f.depth)
  | .one p, _, h, n => by
    cases h with
    | one h =>
      rw [printPowterms, printPowterms, Factor.depth]
      exact ((printPowterm_fate p h n).one (f := fun a => a ++ [] ++ []) (by simp)).same rfl rfl
  | .pow p f, _, h, n => by
    cases h with
    | pow h h2 =>
      rename_i v vs
      rw [printPowterms, Factor.depth]
      exact ((printPowterm_fate p h n).two (printPowterms_fate f h2 n) (f := fun a b => a ++ (if vs.isEmpty then [] else lit ",\n") ++ b)
        (by intro a b x hx; simp only [List.mem_append]; tauto)).same rfl (by omega)
theorem printPowterm_fate : (p : Powterm) → {v : Val} → RepPowterm mem v p → ∀ n, Fate (printPowterm mem v n) (n + 1 + 5 * p.depth)
  | .paren e, _, h, n => by
    cases h with
    | paren h =>
      rw [printPowterm, printExpr, Powterm.depth]
      exact (Fate.autoprint (Fate.autoprint (Fate.autoprint (printTerms_fate e h (n + 3)) (by omega)) (by omega)) (by omega)).same
        rfl (by omega)
  | .neg e, _, h, n => by
    cases h with
    | neg h =>
      rw [printPowterm, printExpr, Powterm.depth]
      exact (Fate.autoprint (Fate.autoprint (Fate.autoprint (printTerms_fate e h (n + 3)) (by omega)) (by omega)) (by omega)).same
        rfl (by omega)
  | .num x, _, h, n => by
    cases h with
    | num h =>
      rw [printPowterm, Powterm.depth]
      exact (Fate.autoprint (Fate.number h (n + 1)) (by omega)).same rfl (by omega)
end

theorem printExpr_fate {e : Expr} {v : Val} (h : Rep mem v e) (n : Nat) : Fate (printExpr mem v n) (n + 4 + 5 * e.depth) := by
  obtain ⟨vs, ds, rfl, h⟩ := h
  rw [printExpr]
  exact (Fate.autoprint (printTerms_fate e h (n + 1)) (by omega)).same rfl (by omega)

end Tok3n.Algebraic
