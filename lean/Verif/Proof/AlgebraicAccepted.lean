import Verif.Proof.CallRules
import Verif.Proof.AlgebraicCalls
import Verif.Proof.AlgebraicComplete
/-
Proofs for C65: the algebraic example takes at most quadratically many calls on an input it accepts.
-/

namespace Tok3n.Algebraic

open Json (Ws Digit Digits Fraction Ends digitClass mem_digit)

variable {m : Machine} {xs ys : List Nat} {k : Nat}

/-! ### Characters -/

theorem at_any {l : List Nat} {x : Nat} (h : x ∈ l) : AtMost (ctx m) (.anyOf l) (x :: xs) (some 1) 1 :=
  am_hit trivial ⟨rfl, x, xs, rfl, x, h, by simp [ctx_eqv]⟩
theorem at_notAny {l : List Nat} (h : ∀ x ∈ xs.head?, x ∉ l) : AtMost (ctx m) (.anyOf l) xs none 1 :=
  am_miss trivial (by
    rintro k ⟨-, x, rest, rfl, a, ha, he⟩
    simp only [ctx_eqv, beq_iff_eq] at he
    subst he
    exact h a (by simp) ha)
theorem at_char {x : Nat} : AtMost (ctx m) (.allOf [x]) (x :: xs) (some 1) 1 :=
  am_hit trivial ⟨rfl, [x], xs, rfl, .cons (by simp [ctx_eqv]) .nil⟩
theorem at_notChar {c : Nat} (h : ∀ x ∈ xs.head?, x ≠ c) : AtMost (ctx m) (.allOf [c]) xs none 1 :=
  am_miss trivial (by
    rintro k ⟨-, front, rest, rfl, hf⟩
    cases hf with
    | cons h1 h2 =>
      cases h2
      simp only [ctx_eqv, beq_iff_eq] at h1
      exact h _ (by simp) h1.symm)

/-- a run of characters of one class -/
theorem at_class {l a : List Nat} (ha : ∀ c ∈ a, c ∈ l) (hy : ∀ c ∈ ys.head?, c ∉ l) :
    AtMost (ctx m) (.zeroOrMore (.anyOf l)) (a ++ ys) (some a.length) (a.length + 2) := by
  induction a with
  | nil => exact am_zeroStop (at_notAny hy)
  | cons x a ih =>
    have h := am_zeroMore (at_any (m := m) (xs := a ++ ys) (ha x (by simp))) (by simpa using ih fun c hc => ha c (by simp [hc]))
    rw [List.length_cons, Nat.add_comm a.length 1]
    exact h.mono (by omega)

theorem at_class1 {l a : List Nat} (h0 : a ≠ []) (ha : ∀ c ∈ a, c ∈ l) (hy : ∀ c ∈ ys.head?, c ∉ l) :
    AtMost (ctx m) (.oneOrMore (.anyOf l)) (a ++ ys) (some a.length) (a.length + 2) := by
  cases a with
  | nil => exact absurd rfl h0
  | cons x a =>
    have h := am_oneMore (at_any (m := m) (xs := a ++ ys) (ha x (by simp)))
      (by simpa using at_class (fun c hc => ha c (by simp [hc])) hy)
    rw [List.length_cons, Nat.add_comm a.length 1]
    exact h.mono (by omega)

theorem at_digits {x : List Nat} (h : Digits x) (hy : ∀ c ∈ ys.head?, ¬ Digit c) :
    AtMost (ctx m) digitsP (x ++ ys) (some x.length) (x.length + 2) :=
  at_class1 h.1 (fun c hc => mem_digit.2 (h.2 c hc)) fun c hc hd => hy c hc (mem_digit.1 hd)

theorem at_ws {a : List Nat} (ha : Ws a) (hy : ∀ c ∈ ys.head?, ¬ Ws [c]) :
    AtMost (ctx m) wsP (a ++ ys) (some a.length) (a.length + 3) := by
  refine am_ignore (at_class (fun c hc => ?_) fun c hc hd => hy c hc ?_)
  · have := ha c hc
    simp; omega
  · intro d hd'
    simp at hd hd'; omega

/-! ### Numbers -/

theorem at_number {x : List Nat} {n : Number} (h : IsNumber x n) (hy : Ends ys) :
    AtMost (ctx m) (.custom 0) (x ++ ys) (some x.length) (x.length + 40) := by
  obtain ⟨hi, hf, he⟩ := h
  rename_i i f e fo eo
  have hnd : ∀ z : List Nat, Ends z → ∀ c ∈ z.head?, ¬ Digit c := fun z hz c hc => (hz c hc).1
  have h3 : AtMost (ctx m) (.maybe exponentP) (e ++ ys) (some e.length) (e.length + 12) := by
    cases he with
    | none =>
      exact (am_maybeMiss (am_join (am_stop (am_ignore (at_notAny fun c hc => by
        have := hy c hc; simp; omega))))).mono (by simp)
    | @some c sign x hc hs hx =>
      have h1 : AtMost (ctx m) (.ignore (.anyOf [69, 101])) (c :: (sign ++ x ++ ys)) (some 1) 2 :=
        am_ignore (at_any (by simp; omega))
      have h2 : AtMost (ctx m) (.maybe (.allOf [45])) (sign ++ (x ++ ys)) (some sign.length) 2 := by
        rcases hs with rfl | rfl
        · refine am_maybeMiss (at_notChar ?_)
          obtain ⟨h1, h2⟩ := hx
          cases x with
          | nil => exact absurd rfl h1
          | cons d x =>
            have := h2 d (by simp)
            simp only [Digit] at this
            simp; omega
        · exact am_maybe at_char
      have h3 := at_digits (m := m) hx (hnd _ hy)
      have h4 := am_more h2 (am_more (by rw [List.drop_left]; exact h3) am_nil)
      have h5 := am_maybe (am_join (am_more h1 (by simpa [List.append_assoc] using h4)))
      have e1 : (c :: (sign ++ x)).length = 1 + (sign.length + (x.length + 0)) := by simp; omega
      rw [e1]
      exact h5.mono (by omega)
  have hed : ∀ c ∈ (e ++ ys).head?, ¬ Digit c ∧ c ≠ 46 := by
    cases he with
    | none => exact fun c hc => ⟨(hy c hc).1, (hy c hc).2.1⟩
    | some hc _ _ =>
      intro c hc'
      simp at hc'; subst hc'
      simp only [Digit]; omega
  have h2 : AtMost (ctx m) (.maybe fractionP) (f ++ (e ++ ys)) (some f.length) (f.length + 8) := by
    cases hf with
    | none =>
      exact (am_maybeMiss (am_join (am_stop (am_ignore (at_notChar fun c hc => (hed c hc).2))))).mono (by simp)
    | @some x hx =>
      have h3 := at_digits (m := m) hx fun c hc => (hed c hc).1
      have h4 := am_maybe (am_join (am_more (am_ignore (at_char (m := m) (x := 46) (xs := x ++ (e ++ ys))))
        (am_more h3 am_nil)))
      have e1 : (46 :: x).length = 1 + (x.length + 0) := by simp; omega
      show AtMost (ctx m) _ (46 :: x ++ _) (some (46 :: x).length) _
      rw [e1]
      exact h4.mono (by omega)
  have hfd : ∀ c ∈ (f ++ (e ++ ys)).head?, ¬ Digit c := by
    cases hf with
    | none => exact fun c hc => (hed c hc).1
    | some _ =>
      intro c hc'
      simp at hc'; subst hc'
      simp [Digit]
  have h1 := at_digits (m := m) hi hfd
  have h4 := am_more (am_join h1) (am_more (by rw [List.drop_left]; exact h2)
    (am_more (by rw [List.drop_left, List.drop_left]; exact h3) am_nil))
  refine (am_custom (C := ctx m) (k := 0) (b := i.length + f.length + e.length + 30) ?_).mono (by simp; omega)
  show AtMost (ctx m) numberBody _ _ _
  rw [numberBody_eq]
  have e1 : (i ++ (f ++ e)).length = i.length + (f.length + (e.length + 0)) := by simp
  rw [e1, List.append_assoc, List.append_assoc]
  exact (am_map h4).mono (by omega)

/-! ### Operators and operands -/

theorem at_op {l a z : List Nat} {c : Nat} (ha : Ws a) (hc : c ∈ l) (hl : c ∈ ops) :
    AtMost (ctx m) (opP l) (a ++ c :: z) (some (a.length + 1)) (a.length + 6) := by
  have h1 := at_ws (m := m) (ys := c :: z) ha (by intro d hd; simp at hd; subst hd; exact (mark_op hl).1)
  have h2 := am_more h1 (am_more (by rw [List.drop_left]; exact am_map (f := .construct (.user 1)) (at_any (m := m) hc)) am_nil)
  exact h2.mono (by omega)

theorem at_noOp {l l' : List Nat} (h : After l xs) (hl : ∀ c ∈ l', c ∈ l) :
    AtMost (ctx m) (opP l') xs none (xs.length + 6) := by
  obtain ⟨a, z, rfl, ha, hz⟩ := split_ws xs
  have h1 := at_ws (m := m) ha hz
  have h2 : AtMost (ctx m) (.map (.anyOf l') (.construct (.user 1))) z none 2 := am_map (at_notAny fun c hc hc' => by
    cases z with
    | nil => simp at hc
    | cons d z => simp at hc; subst hc; exact h a d z rfl ha (hl d hc'))
  exact (am_moreMiss h1 (am_stop (by rw [List.drop_left]; exact h2))).mono (by simp)

theorem at_arg {a x : List Nat} {i b : Nat} (ha : Ws a) (hx : Solid x)
    (h : AtMost (ctx m) (.custom i) (x ++ ys) (some x.length) b) :
    AtMost (ctx m) (argP i) (a ++ x ++ ys) (some (a ++ x).length) (a.length + 4 + b) := by
  rw [List.append_assoc, List.length_append]
  have h1 := at_ws (m := m) ha (hx.head (y := ys))
  exact (am_more h1 (am_more (j := 0) (by rw [List.drop_left]; exact h) am_nil)).mono (by omega)

/-- what comes after an element of a list, and what it takes -/
def Rest (m : Machine) (p d : Parser Nat) (ys : List Nat) (k c : Nat) : Prop :=
  (k = 0 ∧ ∃ b, b + 1 ≤ c ∧ AtMost (ctx m) d ys none b) ∨
    ∃ j l b1 b2, k = j + l ∧ b1 + b2 ≤ c ∧ AtMost (ctx m) d ys (some j) b1 ∧
      AtMost (ctx m) (.delimit p d) (ys.drop j) (some l) b2

theorem Rest.list {p d : Parser Nat} {x : List Nat} {a c : Nat} (h : AtMost (ctx m) p (x ++ ys) (some x.length) a)
    (hr : Rest m p d ys k c) : AtMost (ctx m) (.delimit p d) (x ++ ys) (some (x.length + k)) (a + c) := by
  rcases hr with ⟨rfl, b, hb, h1⟩ | ⟨j, l, b1, b2, rfl, hb, h1, h2⟩
  · exact (am_delimitStop h (by rw [List.drop_left]; exact h1)).mono (by omega)
  · rw [← Nat.add_assoc]
    exact (am_delimitMore h (by rw [List.drop_left]; exact h1) (by rw [← List.drop_drop, List.drop_left]; exact h2)).mono
      (by omega)

/-! ### Expressions

Each level skips the white space behind it to look for an operator: `U` bounds what that takes. -/

variable {U : Nat}

theorem le_units (hU : 1 ≤ U) (n : Nat) : n ≤ n * U := Nat.le_mul_of_pos_right n hU

def PowtermB (m : Machine) (U : Nat) (p : Powterm) : Prop :=
  ∀ x ys, IsPowterm x p → p.Greedy → x.length + ys.length + 1 ≤ U → Ends ys → (p.endsNeg = true → Follow ops ys) →
    ∃ b, b + 80 * U ≤ 200 * (x.length * U) ∧ AtMost (ctx m) (.custom 1) (x ++ ys) (some x.length) b
def FactorB (m : Machine) (U : Nat) (f : Factor) : Prop :=
  ∀ x ys, IsFactor x f → f.Greedy → x.length + ys.length + 1 ≤ U → Follow [94] ys → (f.endsNeg = true → Follow ops ys) →
    ∃ b, b + 68 * U ≤ 200 * (x.length * U) ∧
      AtMost (ctx m) (.delimit (argP 1) (.ignore (opP [94]))) (x ++ ys) (some x.length) b
def TermB (m : Machine) (U : Nat) (t : Term) : Prop :=
  ∀ x ys, IsTerm x t → t.Greedy → x.length + ys.length + 1 ≤ U → Follow [94] ys → (t.endsNeg = true → Follow ops ys) →
    ∀ k c, Rest m (argP 2) (opP [42, 47]) ys k c →
    ∃ b, b + 63 * U ≤ 200 * (x.length * U) + c ∧
      AtMost (ctx m) (.delimit (argP 2) (opP [42, 47])) (x ++ ys) (some (x.length + k)) b
def ExprB (m : Machine) (U : Nat) (e : Expr) : Prop :=
  ∀ x ys, IsExpr x e → e.Greedy → x.length + ys.length + 1 ≤ U → Follow [94, 42, 47] ys →
    (e.endsNeg = true → Follow ops ys) → ∀ k c, Rest m (argP 3) (opP [43, 45]) ys k c →
    ∃ b, b + 51 * U ≤ 200 * (x.length * U) + c ∧
      AtMost (ctx m) (.delimit (argP 3) (opP [43, 45])) (x ++ ys) (some (x.length + k)) b

theorem powterm_arg_calls {p : Powterm} (h : PowtermB m U p) {a x : List Nat} (ha : Ws a) (hx : IsPowterm x p)
    (hg : p.Greedy) (hU : (a ++ x).length + ys.length + 1 ≤ U) (hf : Ends ys) (hn : p.endsNeg = true → Follow ops ys) :
    ∃ b, b + 76 * U ≤ 200 * ((a ++ x).length * U) ∧
      AtMost (ctx m) (argP 1) (a ++ x ++ ys) (some (a ++ x).length) b := by
  rw [List.length_append] at hU
  obtain ⟨b, h1, h2⟩ := h x ys hx hg (by omega) hf hn
  refine ⟨_, ?_, at_arg ha hx.solid h2⟩
  have := le_units (U := U) (by omega) a.length
  rw [List.length_append, Nat.add_mul]
  omega

theorem factor_arg_calls {f : Factor} (h : FactorB m U f) {a x : List Nat} (ha : Ws a) (hx : IsFactor x f)
    (hg : f.Greedy) (hU : (a ++ x).length + ys.length + 1 ≤ U) (hf : Follow [94] ys) (hn : f.endsNeg = true → Follow ops ys) :
    ∃ b, b + 63 * U ≤ 200 * ((a ++ x).length * U) ∧
      AtMost (ctx m) (argP 2) (a ++ x ++ ys) (some (a ++ x).length) b := by
  obtain ⟨b, y, rfl, hb, hy, hso⟩ := hx.trim
  rw [← List.append_assoc] at hU ⊢
  have ha' := Ws.append ha hb
  generalize a ++ b = a at ha' hU ⊢
  rw [List.length_append] at hU
  obtain ⟨b, h1, h2⟩ := h y ys hy hg (by omega) hf hn
  refine ⟨_, ?_, at_arg ha' hso (am_custom (by show AtMost (ctx m) factorBody _ _ _; rw [factorBody_eq]; exact h2))⟩
  have := le_units (U := U) (by omega) a.length
  rw [List.length_append, Nat.add_mul]
  omega

theorem noRest {p : Parser Nat} {l l' : List Nat} (h : Follow l ys) (hl : ∀ c ∈ l', c ∈ l) (hU : ys.length + 1 ≤ U) :
    Rest m p (opP l') ys 0 (7 * U) := .inl ⟨rfl, _, by omega, at_noOp h.2 hl⟩

theorem term_arg_calls {t : Term} (h : TermB m U t) {a x : List Nat} (ha : Ws a) (hx : IsTerm x t)
    (hg : t.Greedy) (hU : (a ++ x).length + ys.length + 1 ≤ U) (hf : Follow [94, 42, 47] ys)
    (hn : t.endsNeg = true → Follow ops ys) :
    ∃ b, b + 51 * U ≤ 200 * ((a ++ x).length * U) ∧
      AtMost (ctx m) (argP 3) (a ++ x ++ ys) (some (a ++ x).length) b := by
  obtain ⟨b, y, rfl, hb, hy, hso⟩ := hx.trim
  rw [← List.append_assoc] at hU ⊢
  have ha' := Ws.append ha hb
  generalize a ++ b = a at ha' hU ⊢
  rw [List.length_append] at hU
  obtain ⟨b, h1, h2⟩ := h y ys hy hg (by omega) (hf.mono (by simp)) hn 0 _ (noRest (U := U) hf (by simp) (by omega))
  refine ⟨_, ?_, at_arg ha' hso (am_custom (by show AtMost (ctx m) termBody _ _ _; rw [termBody_eq]; exact h2))⟩
  have := le_units (U := U) (by omega) a.length
  rw [List.length_append, Nat.add_mul]
  omega

/-- an expression between white space on its left and something that does not go on with it -/
theorem expr_arg_calls {e : Expr} (h : ExprB m U e) {a x : List Nat} (ha : Ws a) (hx : IsExpr x e)
    (hg : e.Greedy) (hU : (a ++ x).length + ys.length + 1 ≤ U) (hf : Follow ops ys) :
    ∃ i j b, i + j = (a ++ x).length ∧ b + 40 * U ≤ 200 * ((a ++ x).length * U) ∧ 1 ≤ b ∧
      ∃ b1 b2, b1 + b2 ≤ b ∧ AtMost (ctx m) wsP (a ++ x ++ ys) (some i) b1 ∧
        AtMost (ctx m) (.custom 4) ((a ++ x ++ ys).drop i) (some j) b2 := by
  obtain ⟨b, y, rfl, hb, hy, hso⟩ := hx.trim
  rw [← List.append_assoc] at hU ⊢
  have ha' := Ws.append ha hb
  generalize a ++ b = a at ha' hU ⊢
  rw [List.length_append] at hU
  obtain ⟨b, h1, h2⟩ := h y ys hy hg (by omega) (hf.mono (by simp)) (fun _ => hf) 0 _ (noRest (U := U) hf (by simp) (by omega))
  have h3 := at_ws (m := m) ha' (hso.head (y := ys))
  have := le_units (U := U) (by omega) a.length
  refine ⟨a.length, y.length, (a.length + 3) + (b + 1), by simp, ?_, by omega, _, _, Nat.le_refl _, ?_, ?_⟩
  · rw [List.length_append, Nat.add_mul]
    omega
  · rw [List.append_assoc]; exact h3
  · rw [List.append_assoc, List.drop_left]
    exact am_custom (by show AtMost (ctx m) exprBody _ _ _; rw [exprBody_eq]; exact h2)

theorem mul_calls {t : Term} {f : Factor} (ht : TermB m U t) (hf : FactorB m U f) {x a b y : List Nat} {c : Nat}
    (hx : IsTerm x t) (ha : Ws a) (hb : Ws b) (hy : IsFactor y f) (hc : c ∈ [42, 47]) (hg : t.Greedy)
    (hn : t.endsNeg = false) (hgf : f.Greedy) (hU : (x ++ (a ++ c :: (b ++ y))).length + ys.length + 1 ≤ U)
    (hl : Follow [94] ys) (hl' : f.endsNeg = true → Follow ops ys) (k r : Nat)
    (hr : Rest m (argP 2) (opP [42, 47]) ys k r) :
    ∃ n, n + 63 * U ≤ 200 * ((x ++ (a ++ c :: (b ++ y))).length * U) + r ∧
      AtMost (ctx m) (.delimit (argP 2) (opP [42, 47])) (x ++ (a ++ c :: (b ++ y)) ++ ys)
        (some ((x ++ (a ++ c :: (b ++ y))).length + k)) n := by
  have hlen : (x ++ (a ++ c :: (b ++ y))).length = x.length + a.length + 1 + (b ++ y).length := by simp; omega
  rw [hlen] at hU ⊢
  have hops : c ∈ ops := by simp at hc ⊢; omega
  obtain ⟨n1, h1, h2⟩ := factor_arg_calls hf hb hy hgf (by omega) hl hl'
  have h3 := hr.list h2
  have h4 := at_op (m := m) (z := b ++ y ++ ys) ha hc hops
  have e1 : x ++ (a ++ c :: (b ++ y)) ++ ys = x ++ (a ++ c :: (b ++ y ++ ys)) := by simp
  have e2 : (a ++ c :: (b ++ y ++ ys)).drop (a.length + 1) = b ++ y ++ ys := by
    rw [← List.drop_drop, List.drop_left]; rfl
  have fo : Follow [94] (a ++ c :: (b ++ y ++ ys)) := follow_mark ha (mark_op hops) (by simp at hc ⊢; omega) (by simp)
  obtain ⟨n2, h5, h6⟩ := ht x (a ++ c :: (b ++ y ++ ys)) hx hg (by simp at hU ⊢; omega) fo (by simp [hn]) _ _
    (.inr ⟨_, _, _, _, rfl, Nat.le_refl _, h4, by rw [e2]; exact h3⟩)
  have h7 := le_units (U := U) (by omega) a.length
  refine ⟨n2, ?_, ?_⟩
  · rw [Nat.add_mul, Nat.add_mul, Nat.add_mul]; omega
  · rw [e1]
    have : x.length + a.length + 1 + (b ++ y).length + k = x.length + (a.length + 1 + ((b ++ y).length + k)) := by omega
    rw [this]; exact h6

theorem add_calls {e : Expr} {t : Term} (he : ExprB m U e) (ht : TermB m U t) {x a b y : List Nat} {c : Nat}
    (hx : IsExpr x e) (ha : Ws a) (hb : Ws b) (hy : IsTerm y t) (hc : c ∈ [43, 45]) (hg : e.Greedy)
    (hn : e.endsNeg = false) (hgf : t.Greedy) (hU : (x ++ (a ++ c :: (b ++ y))).length + ys.length + 1 ≤ U)
    (hl : Follow [94, 42, 47] ys) (hl' : t.endsNeg = true → Follow ops ys) (k r : Nat)
    (hr : Rest m (argP 3) (opP [43, 45]) ys k r) :
    ∃ n, n + 51 * U ≤ 200 * ((x ++ (a ++ c :: (b ++ y))).length * U) + r ∧
      AtMost (ctx m) (.delimit (argP 3) (opP [43, 45])) (x ++ (a ++ c :: (b ++ y)) ++ ys)
        (some ((x ++ (a ++ c :: (b ++ y))).length + k)) n := by
  have hlen : (x ++ (a ++ c :: (b ++ y))).length = x.length + a.length + 1 + (b ++ y).length := by simp; omega
  rw [hlen] at hU ⊢
  have hops : c ∈ ops := by simp at hc ⊢; omega
  obtain ⟨n1, h1, h2⟩ := term_arg_calls ht hb hy hgf (by omega) hl hl'
  have h3 := hr.list h2
  have h4 := at_op (m := m) (z := b ++ y ++ ys) ha hc hops
  have e1 : x ++ (a ++ c :: (b ++ y)) ++ ys = x ++ (a ++ c :: (b ++ y ++ ys)) := by simp
  have e2 : (a ++ c :: (b ++ y ++ ys)).drop (a.length + 1) = b ++ y ++ ys := by
    rw [← List.drop_drop, List.drop_left]; rfl
  have fo : Follow [94, 42, 47] (a ++ c :: (b ++ y ++ ys)) := follow_mark ha (mark_op hops) (by simp at hc ⊢; omega) (by simp)
  obtain ⟨n2, h5, h6⟩ := he x (a ++ c :: (b ++ y ++ ys)) hx hg (by simp at hU ⊢; omega) fo (by simp [hn]) _ _
    (.inr ⟨_, _, _, _, rfl, Nat.le_refl _, h4, by rw [e2]; exact h3⟩)
  have h7 := le_units (U := U) (by omega) a.length
  refine ⟨n2, ?_, ?_⟩
  · rw [Nat.add_mul, Nat.add_mul, Nat.add_mul]; omega
  · rw [e1]
    have : x.length + a.length + 1 + (b ++ y).length + k = x.length + (a.length + 1 + ((b ++ y).length + k)) := by omega
    rw [this]; exact h6

mutual
theorem expr_calls : (e : Expr) → ExprB m U e
  | .one t => by
    intro x ys hx hg hU hl hl' k c hr
    cases hx with
    | one ha hx =>
      rw [Expr.Greedy] at hg
      rw [Expr.endsNeg] at hl'
      obtain ⟨b, h1, h2⟩ := term_arg_calls (term_calls t) ha hx hg hU hl hl'
      exact ⟨_, by omega, hr.list h2⟩
  | .add e t => by
    intro x ys hx hg hU hl hl' k c hr
    cases hx with
    | add hx ha hb hy =>
      rw [Expr.Greedy] at hg
      rw [Expr.endsNeg] at hl'
      exact add_calls (expr_calls e) (term_calls t) hx ha hb hy (by simp) hg.1 hg.2.1 hg.2.2 hU hl hl' k c hr
  | .sub e t => by
    intro x ys hx hg hU hl hl' k c hr
    cases hx with
    | sub hx ha hb hy =>
      rw [Expr.Greedy] at hg
      rw [Expr.endsNeg] at hl'
      exact add_calls (expr_calls e) (term_calls t) hx ha hb hy (by simp) hg.1 hg.2.1 hg.2.2 hU hl hl' k c hr
theorem term_calls : (t : Term) → TermB m U t
  | .one f => by
    intro x ys hx hg hU hl hl' k c hr
    cases hx with
    | one ha hx =>
      rw [Term.Greedy] at hg
      rw [Term.endsNeg] at hl'
      obtain ⟨b, h1, h2⟩ := factor_arg_calls (factor_calls f) ha hx hg hU hl hl'
      exact ⟨_, by omega, hr.list h2⟩
  | .mul t f => by
    intro x ys hx hg hU hl hl' k c hr
    cases hx with
    | mul hx ha hb hy =>
      rw [Term.Greedy] at hg
      rw [Term.endsNeg] at hl'
      exact mul_calls (term_calls t) (factor_calls f) hx ha hb hy (by simp) hg.1 hg.2.1 hg.2.2 hU hl hl' k c hr
  | .div t f => by
    intro x ys hx hg hU hl hl' k c hr
    cases hx with
    | div hx ha hb hy =>
      rw [Term.Greedy] at hg
      rw [Term.endsNeg] at hl'
      exact mul_calls (term_calls t) (factor_calls f) hx ha hb hy (by simp) hg.1 hg.2.1 hg.2.2 hU hl hl' k c hr
theorem factor_calls : (f : Factor) → FactorB m U f
  | .one p => by
    intro x ys hx hg hU hl hl'
    cases hx with
    | one ha hx =>
      rw [Factor.Greedy] at hg
      rw [Factor.endsNeg] at hl'
      obtain ⟨b, h1, h2⟩ := powterm_arg_calls (powterm_calls p) ha hx hg hU hl.1 hl'
      have h3 : Rest m (argP 1) (.ignore (opP [94])) ys 0 (8 * U) :=
        .inl ⟨rfl, _, by omega, am_ignore (at_noOp hl.2 (by simp))⟩
      exact ⟨_, by omega, h3.list h2⟩
  | .pow p f => by
    intro x ys hx hg hU hl hl'
    cases hx with
    | @pow a x p b y f ha hx hb hy =>
      rw [Factor.Greedy] at hg
      rw [Factor.endsNeg] at hl'
      have hlen : (a ++ (x ++ (b ++ 94 :: y))).length = (a ++ x).length + b.length + 1 + y.length := by simp; omega
      rw [hlen] at hU ⊢
      obtain ⟨n1, h1, h2⟩ := factor_calls f y ys hy hg.2.2 (by omega) hl hl'
      have fo : Ends (b ++ 94 :: (y ++ ys)) := ends_mark hb (mark_op (by simp))
      obtain ⟨n2, h3, h4⟩ := powterm_arg_calls (ys := b ++ 94 :: (y ++ ys)) (powterm_calls p) ha hx hg.1
        (by simp at hU ⊢; omega) fo (by simp [hg.2.1])
      have h5 := am_ignore (at_op (m := m) (l := [94]) (c := 94) (z := y ++ ys) hb (by simp) (by simp))
      have e1 : a ++ (x ++ (b ++ 94 :: y)) ++ ys = a ++ x ++ (b ++ 94 :: (y ++ ys)) := by simp
      have e2 : (b ++ 94 :: (y ++ ys)).drop (b.length + 1) = y ++ ys := by rw [← List.drop_drop, List.drop_left]; rfl
      have h6 : Rest m (argP 1) (.ignore (opP [94])) (b ++ 94 :: (y ++ ys)) (b.length + 1 + y.length) (b.length + 6 + 1 + n1) :=
        .inr ⟨_, _, _, _, rfl, Nat.le_refl _, h5, by rw [e2]; exact h2⟩
      have h7 := h6.list h4
      have h8 := le_units (U := U) (by omega) b.length
      refine ⟨_, ?_, by rw [e1, Nat.add_assoc _ b.length, Nat.add_assoc _ (b.length + 1)]; exact h7⟩
      rw [Nat.add_mul, Nat.add_mul, Nat.add_mul]; omega
theorem powterm_calls : (p : Powterm) → PowtermB m U p
  | .paren e => by
    intro x ys hx hg hU hl hl'
    cases hx with
    | @paren a x e b ha hx hb =>
      rw [Powterm.Greedy] at hg
      have hlen : (40 :: (a ++ (x ++ (b ++ [41])))).length = 1 + (a ++ x).length + b.length + 1 := by simp; omega
      rw [hlen] at hU ⊢
      have fo : Follow ops (b ++ 41 :: ys) := follow_mark hb mark_close (by simp) (by simp)
      obtain ⟨i, j, n, e1, h1, -, n1, n2, h2, h3, h4⟩ := expr_arg_calls (ys := b ++ 41 :: ys) (expr_calls e) ha hx hg
        (by simp at hU ⊢; omega) fo
      have e2 : 40 :: (a ++ (x ++ (b ++ [41]))) ++ ys = 40 :: (a ++ x ++ (b ++ 41 :: ys)) := by simp
      have e3 : ((a ++ x ++ (b ++ 41 :: ys)).drop i).drop j = b ++ 41 :: ys := by
        rw [List.drop_drop, e1, List.drop_left]
      have h5 := at_ws (m := m) (ys := 41 :: ys) hb (by intro d hd; simp at hd; subst hd; exact mark_close.1)
      have h9 := am_more h3 (am_more h4 (am_more (by rw [e3]; exact h5)
        (am_more (by rw [e3, List.drop_left]; exact am_ignore (at_char (m := m))) am_nil)))
      have h6 := am_more (am_ignore (at_char (m := m) (x := 40) (xs := a ++ x ++ (b ++ 41 :: ys)))) h9
      have h7 := am_map (f := .construct (.user 2)) (am_choiceHit (ps := [negP, .custom 0])
        (am_map (f := .construct (.user 3)) h6))
      have h8 := le_units (U := U) (by omega) b.length
      refine ⟨_, ?_, by
        rw [e2]
        have e4 : 1 + (a ++ x).length + b.length + 1 = 1 + (i + (j + (b.length + (1 + 0)))) := by omega
        rw [e4]
        exact am_custom (C := ctx m) (k := 1) (by show AtMost (ctx m) powtermBody _ _ _; rw [powtermBody_eq]; exact h7)⟩
      rw [Nat.add_mul, Nat.add_mul, Nat.add_mul]; omega
  | .neg e => by
    intro x ys hx hg hU hl hl'
    cases hx with
    | @neg a x e ha hx =>
      rw [Powterm.Greedy] at hg
      have hlen : (45 :: (a ++ x)).length = 1 + (a ++ x).length := by simp; omega
      rw [hlen] at hU ⊢
      obtain ⟨i, j, n, e1, h1, -, n1, n2, h2, h3, h4⟩ := expr_arg_calls (ys := ys) (expr_calls e) ha hx hg
        (by omega) (hl' (by rw [Powterm.endsNeg]))
      have h6 := am_more (am_ignore (at_char (m := m) (x := 45) (xs := a ++ x ++ ys)))
        (am_more h3 (am_more h4 am_nil))
      have h0 : AtMost (ctx m) parenP (45 :: (a ++ x ++ ys)) none 4 :=
        am_map (am_stop (am_ignore (at_notChar (by simp))))
      have h7 := am_map (f := .construct (.user 2)) (am_choiceMiss h0 (am_choiceHit (ps := [.custom 0])
        (am_map (f := .construct (.user 4)) h6)))
      refine ⟨_, ?_, by
        have e4 : 1 + (a ++ x).length = 1 + (i + (j + 0)) := by omega
        rw [e4]
        exact am_custom (C := ctx m) (k := 1) (by show AtMost (ctx m) powtermBody _ _ _; rw [powtermBody_eq]; exact h7)⟩
      rw [Nat.add_mul]; omega
  | .num n => by
    intro x ys hx hg hU hl hl'
    cases hx with
    | num hx =>
      have h1 := at_number (m := m) hx hl
      obtain ⟨c, z, rfl, hc⟩ := hx.head
      have hd : ∀ d ∈ (c :: z ++ ys).head?, d ≠ 40 ∧ d ≠ 45 := by
        intro d hd
        simp at hd; subst hd
        simp only [Digit] at hc; omega
      have h0 : AtMost (ctx m) parenP (c :: z ++ ys) none 4 :=
        am_map (am_stop (am_ignore (at_notChar fun d h => (hd d h).1)))
      have h2 : AtMost (ctx m) negP (c :: z ++ ys) none 4 :=
        am_map (am_stop (am_ignore (at_notChar fun d h => (hd d h).2)))
      have h7 := am_map (f := .construct (.user 2)) (am_choiceMiss h0 (am_choiceMiss h2 (am_choiceHit (ps := []) h1)))
      refine ⟨_, ?_, am_custom (C := ctx m) (k := 1) (by
        show AtMost (ctx m) powtermBody _ _ _; rw [powtermBody_eq]; exact h7)⟩
      have := le_units (U := U) (by omega) z.length
      rw [List.length_cons, Nat.add_mul]; omega
end

/-- The whole text is an expression between white space. -/
theorem input_calls {x : List Nat} {e : Expr} (h : IsInput x e) (hg : e.Greedy) :
    AtMost (ctx m) input x (some x.length) (200 * ((x.length + 1) * (x.length + 1))) := by
  obtain ⟨ha, hx, hb⟩ := h
  rename_i a x b
  have fo : Follow ops b := by
    refine ⟨fun c hc => ?_, fun a' c z e _ hc => ?_⟩
    · have := hb c (List.mem_of_mem_head? hc)
      simp only [Digit]; omega
    · have := hb c (by rw [e]; simp)
      simp at hc; omega
  rw [← List.append_assoc]
  obtain ⟨i, j, n, e1, h1, -, n1, n2, h2, h3, h4⟩ := expr_arg_calls (m := m) (U := (a ++ x ++ b).length + 1) (ys := b)
    (expr_calls e) ha hx hg (by simp; omega) fo
  have e3 : ((a ++ x ++ b).drop i).drop j = b := by rw [List.drop_drop, e1, List.drop_left]
  have h5 := at_ws (m := m) (ys := []) hb (by simp)
  rw [List.append_nil] at h5
  have h6 := am_more h3 (am_more h4 (am_more (by rw [e3]; exact h5) am_nil))
  have e4 : i + (j + (b.length + 0)) = (a ++ x ++ b).length := by rw [List.length_append, ← e1]; omega
  rw [e4] at h6
  obtain ⟨n', h7, h8⟩ := h6
  have h9 : AtMost (ctx m) inputBody (a ++ x ++ b) (some (a ++ x ++ b).length) (n' + 1 + 1) := by
    rw [inputBody_eq]; exact ⟨_, Nat.le_refl _, .completeHit h8⟩
  refine (am_custom (C := ctx m) (k := 5) h9).mono ?_
  have h10 := le_units (U := (a ++ x ++ b).length + 1) (by omega) b.length
  have h11 : (a ++ x ++ b).length * ((a ++ x ++ b).length + 1) = (a ++ x).length * ((a ++ x ++ b).length + 1) +
    b.length * ((a ++ x ++ b).length + 1) := by rw [← Nat.add_mul, List.length_append (as := a ++ x)]
  have h12 := Nat.succ_mul (a ++ x ++ b).length ((a ++ x ++ b).length + 1)
  simp only [Nat.succ_eq_add_one] at h12
  omega

/-! ### An accepted input that takes quadratically many -/

theorem padded_length (k : Nat) : (padded k).length = 2 * k + 1 := by simp [padded]; omega

theorem padded_input (k : Nat) : ∃ e, IsInput (padded k) e := by
  have h : ∀ j, ∃ e, IsExpr (List.replicate j 45 ++ [49]) e := by
    intro j
    induction j with
    | zero =>
      exact ⟨_, .one (a := []) Ws.nil (.one (a := []) Ws.nil (.one (a := []) Ws.nil (.num
        (.mk (i := [49]) ⟨by simp, by simp [Digit]⟩ .none .none))))⟩
    | succ j ih =>
      obtain ⟨e, ih⟩ := ih
      exact ⟨_, .one (a := []) Ws.nil (.one (a := []) Ws.nil (.one (a := []) Ws.nil (.neg (a := []) Ws.nil ih)))⟩
  obtain ⟨e, h⟩ := h k
  have hb : Ws (List.replicate k 32) := by
    intro c hc
    have := List.eq_of_mem_replicate hc
    omega
  have := IsInput.mk (a := []) Ws.nil h hb
  exact ⟨e, by simpa [padded] using this⟩

theorem al_spaces (k : Nat) : AtLeast m wsP (List.replicate k 32) (some k) k := by
  refine al_ignore ?_
  induction k with
  | zero => exact al_zeroStop (al_notAny (by simp))
  | succ k ih =>
    obtain ⟨n, h1, h2⟩ := ih
    obtain ⟨n', -, h4⟩ := al_any (m := m) (xs := List.replicate k 32) (l := [9, 10, 13, 32]) (x := 32) (by simp)
    have := PegCalls.zeroMore h4 (by simpa using h2)
    rw [List.replicate_succ, Nat.add_comm k 1]
    exact ⟨_, by omega, this⟩

theorem al_noOpSpaces (k : Nat) (l : List Nat) : AtLeast m (opP l) (List.replicate k 32) none k := by
  have h := al_more (al_spaces (m := m) k) (al_stop (ps := []) (al_map (f := .construct (.user 1))
    (al_notAny (m := m) (l := l) (xs := (List.replicate k 32).drop k) (by simp))))
  simpa using h

theorem al_numberSpaces (k : Nat) : AtLeast m (.custom 0) (49 :: List.replicate k 32) (some 1) 0 := by
  have hh : ∀ c ∈ (List.replicate k 32).head?, c = 32 := by cases k <;> simp [List.replicate_succ]
  refine al_custom ?_
  show AtLeast m numberBody _ _ _
  rw [numberBody_eq]
  have h1 : AtLeast m integerP (49 :: List.replicate k 32) (some 1) 0 :=
    al_joinAny (al_one (j := 0) (al_any (by decide)) (al_zeroStop (al_notAny (fun c hc => by
      rw [hh c (by simpa using hc)]; simp [digitClass]))))
  have h2 : AtLeast m (.maybe fractionP) (List.replicate k 32) (some 0) 0 :=
    al_maybeMiss (al_join rfl (al_stop (al_ignore (al_not_char (fun c hc => by rw [hh c hc]; simp)))))
  have h3 : AtLeast m (.maybe exponentP) (List.replicate k 32) (some 0) 0 :=
    al_maybeMiss (al_join rfl (al_stop (al_ignore (al_notAny (fun c hc => by rw [hh c hc]; simp)))))
  have := al_more h1 (al_more h2 (al_more h3 al_nil))
  exact al_map (by simpa using this)

/-- each minus sign has its own look for an operator behind the spaces -/
theorem al_minus (k j : Nat) :
    AtLeast m (.custom 4) (List.replicate j 45 ++ 49 :: List.replicate k 32) (some (j + 1)) (j * k) := by
  -- the levels between an expression and its only operand
  have up : ∀ {xs : List Nat} {i b : Nat}, (∀ x ∈ xs.head?, x ∉ [9, 10, 13, 32]) → AtLeast m (.custom 1) xs (some i) b →
      xs.drop i = List.replicate k 32 → AtLeast m (.custom 4) xs (some i) (b + k) := by
    intro xs i b h h1 hd
    refine al_custom ?_
    show AtLeast m exprBody _ _ _
    rw [exprBody_eq]
    refine al_delimitStop (al_arg h (al_custom ?_)) (by rw [hd]; exact al_noOpSpaces k _)
    show AtLeast m termBody _ _ _
    rw [termBody_eq]
    refine (al_delimitStop (al_arg h (al_custom ?_)) (by rw [hd]; exact al_noOpSpaces k _)).mono (Nat.le_add_right b k)
    show AtLeast m factorBody _ _ _
    rw [factorBody_eq]
    exact (al_delimitStop (al_arg h h1) (al_ignore (by rw [hd]; exact al_noOpSpaces k _))).mono (Nat.le_add_right b k)
  induction j with
  | zero =>
    refine (up (i := 1) (b := 0) (by simp) (al_custom ?_) (by simp)).mono (by omega)
    show AtLeast m powtermBody _ _ _
    rw [powtermBody_eq]
    exact al_map (al_choiceMiss (a := 0) (b := 0) (al_map (al_stop (al_ignore (al_not_char (by simp)))))
      (al_choiceMiss (a := 0) (b := 0) (al_map (al_stop (al_ignore (al_not_char (by simp)))))
        (al_choiceHit (al_numberSpaces k))))
  | succ j ih =>
    rw [Nat.succ_mul]
    refine up (by simp [List.replicate_succ]) (al_custom ?_) ?_
    · show AtLeast m powtermBody _ _ _
      rw [powtermBody_eq]
      have hs : ∀ x ∈ (List.replicate j 45 ++ 49 :: List.replicate k 32).head?, x ∉ [9, 10, 13, 32] := by
        cases j <;> simp [List.replicate_succ]
      have := al_more (m := m) (xs := 45 :: (List.replicate j 45 ++ 49 :: List.replicate k 32)) (al_ignore al_one_char)
        (al_more (al_noWs hs) (al_more ih al_nil))
      have h2 := al_map (f := .construct (.user 2)) (al_choiceMiss (a := 0)
        (al_map (p := .sequence [.ignore (.allOf [40]), wsP, .custom 4, wsP, .ignore (.allOf [41])]) (f := .construct (.user 3))
          (al_stop (al_ignore (al_not_char (m := m) (xs := 45 :: (List.replicate j 45 ++ 49 :: List.replicate k 32)) (by simp)))))
        (al_choiceHit (ps := [.custom 0]) (al_map (f := .construct (.user 4)) this)))
      have e : 1 + (0 + (j + 1 + 0)) = j + 1 + 1 := by omega
      simp only [Option.map_some, e] at h2
      rw [List.replicate_succ, List.cons_append]
      exact h2.mono (by omega)
    · rw [List.replicate_succ, List.cons_append, List.drop_succ_cons, ← List.drop_drop]
      have e : (List.replicate j 45 ++ 49 :: List.replicate k 32).drop j = 49 :: List.replicate k 32 := by
        rw [List.drop_append, List.drop_of_length_le (by simp)]; simp
      rw [e]; rfl

theorem padded_calls (k : Nat) : ∃ n, k * k ≤ n ∧ PegCalls (ctx m) input (padded k) n (some (padded k).length) := by
  have h := al_more (m := m) (xs := padded k) (al_noWs (by cases k <;> simp [padded, List.replicate_succ]))
    (al_more (al_minus k k) (al_more (ps := []) (k := k) (a := k) (by
      have e : ((padded k).drop 0).drop (k + 1) = List.replicate k 32 := by
        have e : (List.replicate k 45 ++ 49 :: List.replicate k 32).drop k = 49 :: List.replicate k 32 := by
          rw [List.drop_append, List.drop_of_length_le (by simp)]; simp
        rw [List.drop_zero, ← List.drop_drop, padded, e]; rfl
      rw [e]; exact al_spaces k) al_nil))
  obtain ⟨n, h1, h2⟩ := h
  have e : 0 + (k + 1 + (k + 0)) = (padded k).length := by rw [padded_length]; omega
  simp only [Option.map_some, e] at h2
  refine ⟨_, ?_, .custom (n := n + 1) ?_⟩
  · omega
  · show PegCalls (ctx m) inputBody _ _ _
    rw [inputBody_eq]; exact .completeHit h2

end Tok3n.Algebraic
