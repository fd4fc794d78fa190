import Verif.Spec.Print
import Verif.Proof.AlgebraicUse
/-
The algebraic example: what printing writes.
-/

namespace Tok3n.Algebraic

variable {mem : Mem Nat}

/-! ### Lines -/

theorem written_cons {l : Line} {ls : List Line} (h : ls ≠ []) : written (l :: ls) = l.written ++ 10 :: written ls := by
  cases ls with
  | nil => exact absurd rfl h
  | cons a ls => rfl
theorem written_append : ∀ {ls ls' : List Line}, ls ≠ [] → ls' ≠ [] → written (ls ++ ls') = written ls ++ 10 :: written ls'
  | [], _, h, _ => absurd rfl h
  | [l], ls', _, h => written_cons h
  | l :: m :: ls, ls', _, h => by
    have e := written_append (ls := m :: ls) (by simp) h
    rw [List.cons_append, written_cons (by simp), e, written_cons (l := l) (by simp)]
    simp
theorem comma_ne {ls : List Line} (h : ls ≠ []) : comma ls ≠ [] := by
  match ls with
  | [] => exact absurd rfl h
  | [_] => simp [comma]
  | _ :: _ :: _ => simp [comma]
theorem written_comma : ∀ {ls : List Line}, ls ≠ [] → written (comma ls) = written ls ++ [0x2C]
  | [], h => absurd rfl h
  | [l], _ => by simp [comma, written, Line.written]
  | l :: m :: ls, _ => by
    have e := written_comma (ls := m :: ls) (by simp)
    rw [comma, written_cons (comma_ne (by simp)), e, written_cons (l := l) (by simp)]
    · simp
    · simp
theorem block_ne {n : Nat} {x : String} {ls : List Line} : block n x ls ≠ [] := by simp [block]

theorem Expr.lines_ne (n : Nat) (e : Expr) : e.lines n ≠ [] := by
  cases e <;> simp [Expr.lines, block]
theorem Term.lines_ne (n : Nat) (e : Term) : e.lines n ≠ [] := by
  cases e <;> simp [Term.lines, block]
theorem Factor.lines_ne (n : Nat) (e : Factor) : e.lines n ≠ [] := by
  cases e with
  | one p => simp [Factor.lines, block]
  | pow p f => rw [Factor.lines]; intro h; exact comma_ne block_ne (List.append_eq_nil_iff.1 h).1
theorem Powterm.lines_ne (n : Nat) (e : Powterm) : e.lines n ≠ [] := by
  cases e <;> simp [Powterm.lines, block]

/-! ### Steps -/

theorem printText_eq {n : Nat} (h : n ≤ 1024) (x : String) : printText x n = .ok (List.replicate n 9 ++ codes x) := by
  have : (List.replicate 1024 9 ++ [0]).take n = List.replicate n 9 := by
    rw [List.take_append_of_le_length (by rw [List.length_replicate]; exact h), List.take_replicate, Nat.min_eq_left h]
  rw [printText, getTabs, if_pos (by omega), this]
  rfl

theorem autoprint_eq {n : Nat} (h : n ≤ 1024) (x : String) {ls : List Line} (hl : ls ≠ []) :
    autoprint x n (.ok (written ls)) = .ok (written (block n x ls)) := by
  have e1 : lit " :\n" = codes " :" ++ [10] := by decide
  have e2 : codes "{\n" = codes "{" ++ [10] := by decide
  have e3 : lit "\n" = [10] := by decide
  rw [autoprint, printText_eq h, printText_eq h, printText_eq h, block, written_cons (by simp), written_cons (by simp),
    written_append hl (by simp), e1, e2, e3]
  simp [written, Line.written, bind, Except.bind]

theorem printNumber_eq {v : Val} {x : Number} (h : RepNumber mem v x) {n : Nat} (hn : n ≤ 1024) :
    printNumber mem v n = .ok (written [⟨n, codes "Number : " ++ x.text⟩]) := by
  cases h with
  | mk hs hf he =>
    rw [printNumber, printText_eq hn, textOf_eq hs, optionalText_eq hf, optionalText_eq he]
    rename_i fo eo
    cases fo <;> cases eo <;> simp [written, Line.written, bind, Except.bind, Number.text]

theorem printTerms_two (v w d : Val) (vs ds : List Val) (n : Nat) : printTerms mem (v :: w :: vs) (d :: ds) n = (do
    let a ← printTerm mem v n
    let c ← frontOf mem d
    let b ← (if c = 43 then printText "<plus>" n else if c = 45 then printText "<minus>" n else .error .terminate)
    let r ← printTerms mem (w :: vs) ds n
    .ok (a ++ lit ",\n" ++ b ++ lit "\n" ++ r)) := by
  rw [printTerms]
  simp

/-- one more operand at the end -/
theorem printTerms_snoc {n : Nat} {v d : Val} {c : Nat} {op b : List Nat} (hc : frontOf mem d = .ok c)
    (ho : (if c = 43 then printText "<plus>" n else if c = 45 then printText "<minus>" n else .error .terminate) = .ok op)
    (hv : printTerm mem v n = .ok b) : ∀ {vs ds : List Val} {a : List Nat}, vs.length = ds.length + 1 →
    printTerms mem vs ds n = .ok a → printTerms mem (vs ++ [v]) (ds ++ [d]) n = .ok (a ++ (lit ",\n" ++ (op ++ (lit "\n" ++ b))))
  | [], _, _, hl, _ => by simp at hl
  | [w], [], a, _, h => by
    rw [printTerms] at h
    rw [List.cons_append, List.nil_append, List.nil_append, printTerms_two, h, hc]
    simp only [bind, Except.bind]
    rw [ho, printTerms, hv]
    simp
  | [w], _ :: _, _, hl, _ => by simp at hl
  | w :: u :: vs, [], _, hl, _ => by simp at hl
  | w :: u :: vs, k :: ds, a, hl, h => by
    rw [printTerms_two] at h
    simp only [List.cons_append]
    rw [printTerms_two]
    cases h1 : printTerm mem w n with
    | error _ => rw [h1] at h; cases h
    | ok a1 =>
    rw [h1] at h
    cases h2 : frontOf mem k with
    | error _ => rw [h2] at h; cases h
    | ok c' =>
    rw [h2] at h
    simp only [bind, Except.bind] at h ⊢
    generalize (if c' = 43 then printText "<plus>" n else if c' = 45 then printText "<minus>" n else .error .terminate) = q at h
    cases q with
    | error _ => cases h
    | ok a2 =>
    simp only at h ⊢
    cases h3 : printTerms mem (u :: vs) ds n with
    | error _ => rw [h3] at h; cases h
    | ok a3 =>
    rw [h3] at h
    have ih := printTerms_snoc hc ho hv (by simpa using hl) h3
    rw [List.cons_append] at ih
    rw [ih]
    cases h
    simp

theorem printFactors_two (v w d : Val) (vs ds : List Val) (n : Nat) : printFactors mem (v :: w :: vs) (d :: ds) n = (do
    let a ← printFactor mem v n
    let c ← frontOf mem d
    let b ← (if c = 42 then printText "<multiplied by>" n else if c = 47 then printText "<divided by>" n else .error .terminate)
    let r ← printFactors mem (w :: vs) ds n
    .ok (a ++ lit ",\n" ++ b ++ lit "\n" ++ r)) := by
  rw [printFactors]
  simp

theorem printFactors_snoc {n : Nat} {v d : Val} {c : Nat} {op b : List Nat} (hc : frontOf mem d = .ok c)
    (ho : (if c = 42 then printText "<multiplied by>" n else if c = 47 then printText "<divided by>" n
      else .error .terminate) = .ok op)
    (hv : printFactor mem v n = .ok b) : ∀ {vs ds : List Val} {a : List Nat}, vs.length = ds.length + 1 →
    printFactors mem vs ds n = .ok a → printFactors mem (vs ++ [v]) (ds ++ [d]) n = .ok (a ++ (lit ",\n" ++ (op ++ (lit "\n" ++ b))))
  | [], _, _, hl, _ => by simp at hl
  | [w], [], a, _, h => by
    rw [printFactors] at h
    rw [List.cons_append, List.nil_append, List.nil_append, printFactors_two, h, hc]
    simp only [bind, Except.bind]
    rw [ho, printFactors, hv]
    simp
  | [w], _ :: _, _, hl, _ => by simp at hl
  | w :: u :: vs, [], _, hl, _ => by simp at hl
  | w :: u :: vs, k :: ds, a, hl, h => by
    rw [printFactors_two] at h
    simp only [List.cons_append]
    rw [printFactors_two]
    cases h1 : printFactor mem w n with
    | error _ => rw [h1] at h; cases h
    | ok a1 =>
    rw [h1] at h
    cases h2 : frontOf mem k with
    | error _ => rw [h2] at h; cases h
    | ok c' =>
    rw [h2] at h
    simp only [bind, Except.bind] at h ⊢
    generalize (if c' = 42 then printText "<multiplied by>" n else if c' = 47 then printText "<divided by>" n
      else .error .terminate) = q at h
    cases q with
    | error _ => cases h
    | ok a2 =>
    simp only at h ⊢
    cases h3 : printFactors mem (u :: vs) ds n with
    | error _ => rw [h3] at h; cases h
    | ok a3 =>
    rw [h3] at h
    have ih := printFactors_snoc hc ho hv (by simpa using hl) h3
    rw [List.cons_append] at ih
    rw [ih]
    cases h
    simp

/-- an operand, an operator and an operand -/
theorem written_op {n : Nat} {ls ls' : List Line} (x : String) (h : ls ≠ []) (h' : ls' ≠ []) :
    written ls ++ (lit ",\n" ++ ((List.replicate n 9 ++ codes x) ++ (lit "\n" ++ written ls'))) =
      written (comma ls ++ ⟨n, codes x⟩ :: ls') := by
  have e1 : lit ",\n" = [0x2C, 10] := by decide
  have e2 : lit "\n" = [10] := by decide
  rw [written_append (comma_ne h) (by simp), written_comma h, written_cons h', e1, e2]
  simp [Line.written]

/-! ### Printing -/

mutual
theorem printTerms_eq : (e : Expr) → {vs ds : List Val} → RepExpr mem vs ds e → ∀ n, n + 3 + 5 * e.depth ≤ 1024 →
    printTerms mem vs ds n = .ok (written (e.lines n))
  | .one t, _, _, h, n, hn => by
    cases h with
    | one h => rw [printTerms, Expr.lines]; exact printTerm_eq t h n hn
  | .add e t, _, _, h, n, hn => by
    rw [Expr.depth] at hn
    cases h with
    | add h h1 h2 =>
      rw [Expr.lines, ← written_op _ (e.lines_ne n) block_ne]
      exact printTerms_snoc (frontOf_eq h1) (by rw [if_pos rfl]; exact printText_eq (by omega) _)
        (printTerm_eq t h2 n (by omega)) (RepExpr.length e h) (printTerms_eq e h n (by omega))
  | .sub e t, _, _, h, n, hn => by
    rw [Expr.depth] at hn
    cases h with
    | sub h h1 h2 =>
      rw [Expr.lines, ← written_op _ (e.lines_ne n) block_ne]
      exact printTerms_snoc (frontOf_eq h1) (by rw [if_neg (by decide), if_pos rfl]; exact printText_eq (by omega) _)
        (printTerm_eq t h2 n (by omega)) (RepExpr.length e h) (printTerms_eq e h n (by omega))
theorem printTerm_eq : (t : Term) → {v : Val} → RepTerm mem v t → ∀ n, n + 3 + 5 * t.depth ≤ 1024 →
    printTerm mem v n = .ok (written (block n "Term" (t.lines (n + 1))))
  | t, _, .mk h, n, hn => by
    rw [printTerm, printFactors_eq t h (n + 1) (by omega), autoprint_eq (by omega) _ (t.lines_ne _)]
theorem printFactors_eq : (t : Term) → {vs ds : List Val} → RepFactors mem vs ds t → ∀ n, n + 2 + 5 * t.depth ≤ 1024 →
    printFactors mem vs ds n = .ok (written (t.lines n))
  | .one f, _, _, h, n, hn => by
    cases h with
    | one h => rw [printFactors, Term.lines]; exact printFactor_eq f h n hn
  | .mul e t, _, _, h, n, hn => by
    rw [Term.depth] at hn
    cases h with
    | mul h h1 h2 =>
      rw [Term.lines, ← written_op _ (e.lines_ne n) block_ne]
      exact printFactors_snoc (frontOf_eq h1) (by rw [if_pos rfl]; exact printText_eq (by omega) _)
        (printFactor_eq t h2 n (by omega)) (RepFactors.length e h) (printFactors_eq e h n (by omega))
  | .div e t, _, _, h, n, hn => by
    rw [Term.depth] at hn
    cases h with
    | div h h1 h2 =>
      rw [Term.lines, ← written_op _ (e.lines_ne n) block_ne]
      exact printFactors_snoc (frontOf_eq h1) (by rw [if_neg (by decide), if_pos rfl]; exact printText_eq (by omega) _)
        (printFactor_eq t h2 n (by omega)) (RepFactors.length e h) (printFactors_eq e h n (by omega))
theorem printFactor_eq : (f : Factor) → {v : Val} → RepFactor mem v f → ∀ n, n + 2 + 5 * f.depth ≤ 1024 →
    printFactor mem v n = .ok (written (block n "Factor" (f.lines (n + 1))))
  | f, _, .mk h, n, hn => by
    rw [printFactor, printPowterms_eq f h (n + 1) (by omega), autoprint_eq (by omega) _ (f.lines_ne _)]
theorem printPowterms_eq : (f : Factor) → {vs : List Val} → RepPowterms mem vs f → ∀ n, n + 1 + 5 * f.depth ≤ 1024 →
    printPowterms mem vs n = .ok (written (f.lines n))
  | .one p, _, h, n, hn => by
    cases h with
    | one h =>
      rw [printPowterms, printPowterms, Factor.lines, printPowterm_eq p h n hn]
      simp [bind, Except.bind]
  | .pow p f, _, h, n, hn => by
    rw [Factor.depth] at hn
    have e1 : lit ",\n" = [0x2C, 10] := by decide
    cases h with
    | pow h h2 =>
      rename_i v vs
      have hv : vs.isEmpty = false := by cases h2 <;> rfl
      rw [printPowterms, Factor.lines, printPowterm_eq p h n (by omega), printPowterms_eq f h2 n (by omega), hv,
        written_append (comma_ne block_ne) (f.lines_ne n), written_comma block_ne, e1]
      simp [bind, Except.bind]
theorem printPowterm_eq : (p : Powterm) → {v : Val} → RepPowterm mem v p → ∀ n, n + 1 + 5 * p.depth ≤ 1024 →
    printPowterm mem v n = .ok (written (block n "Powterm" (p.lines (n + 1))))
  | .paren e, _, h, n, hn => by
    rw [Powterm.depth] at hn
    cases h with
    | paren h =>
      rw [printPowterm, printExpr, printTerms_eq e h (n + 3) (by omega), autoprint_eq (by omega) _ (e.lines_ne _),
        autoprint_eq (by omega) _ block_ne, autoprint_eq (by omega) _ block_ne, Powterm.lines]
  | .neg e, _, h, n, hn => by
    rw [Powterm.depth] at hn
    cases h with
    | neg h =>
      rw [printPowterm, printExpr, printTerms_eq e h (n + 3) (by omega), autoprint_eq (by omega) _ (e.lines_ne _),
        autoprint_eq (by omega) _ block_ne, autoprint_eq (by omega) _ block_ne, Powterm.lines]
  | .num x, _, h, n, hn => by
    cases h with
    | num h => rw [printPowterm, printNumber_eq h (by omega), autoprint_eq (by omega) _ (by simp), Powterm.lines]
end

theorem printExpr_eq {e : Expr} {v : Val} (h : Rep mem v e) {n : Nat} (hn : n + 4 + 5 * e.depth ≤ 1024) :
    printExpr mem v n = .ok (e.printed n) := by
  obtain ⟨vs, ds, rfl, h⟩ := h
  rw [printExpr, printTerms_eq e h (n + 1) (by omega), autoprint_eq (by omega) _ (e.lines_ne _)]
  rfl

end Tok3n.Algebraic
