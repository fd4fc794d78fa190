import Verif.Spec.Print
/-
What is printed for an expression tells which expression it is (C58).
-/

namespace Tok3n.Algebraic

open Json (Ws Digit Digits Fraction)

/-- no tab, no line feed and no null character in it -/
def Line.Clean (l : Line) : Prop := ∀ c ∈ l.text, c ≠ 9 ∧ c ≠ 10 ∧ c ≠ 0

theorem tabs_unique {a b : Nat} {x y : List Nat} (hx : ∀ c ∈ x, c ≠ 9) (hy : ∀ c ∈ y, c ≠ 9)
    (h : List.replicate a 9 ++ x = List.replicate b 9 ++ y) : a = b ∧ x = y := by
  induction a generalizing b with
  | zero =>
    cases b with
    | zero => exact ⟨rfl, h⟩
    | succ b =>
      refine absurd rfl (hx 9 ?_)
      have : x = List.replicate (b + 1) 9 ++ y := h
      rw [this]; simp [List.replicate_succ]
  | succ a ih =>
    cases b with
    | zero =>
      refine absurd rfl (hy 9 ?_)
      have : List.replicate (a + 1) 9 ++ x = y := h
      rw [← this]; simp [List.replicate_succ]
    | succ b =>
      simp only [List.replicate_succ, List.cons_append, List.cons.injEq, true_and] at h
      obtain ⟨rfl, rfl⟩ := ih h
      exact ⟨rfl, rfl⟩

theorem Line.written_unique {l l' : Line} (h : l.Clean) (h' : l'.Clean) (e : l.written = l'.written) : l = l' := by
  obtain ⟨a, b⟩ := tabs_unique (fun c hc => (h c hc).1) (fun c hc => (h' c hc).1) e
  cases l; cases l'; cases a; cases b; rfl

theorem Line.written_noFeed {l : Line} (h : l.Clean) : ∀ c ∈ l.written, c ≠ 10 := by
  intro c hc
  rcases List.mem_append.1 hc with hc | hc
  · rw [(List.mem_replicate.1 hc).2]; decide
  · exact (h c hc).2.1

/-- what is in front of the first line feed -/
theorem feed_unique {x y u v : List Nat} (hx : ∀ c ∈ x, c ≠ 10) (hy : ∀ c ∈ y, c ≠ 10) (h : x ++ 10 :: u = y ++ 10 :: v) :
    x = y ∧ u = v := by
  induction x generalizing y with
  | nil =>
    cases y with
    | nil => exact ⟨rfl, by simpa using h⟩
    | cons b y => cases h; exact absurd rfl (hy 10 (.head _))
  | cons a x ih =>
    cases y with
    | nil => cases h; exact absurd rfl (hx 10 (.head _))
    | cons b y =>
      simp only [List.cons_append, List.cons.injEq] at h
      obtain ⟨rfl, h⟩ := h
      obtain ⟨rfl, rfl⟩ := ih (fun c hc => hx c (.tail _ hc)) (fun c hc => hy c (.tail _ hc)) h
      exact ⟨rfl, rfl⟩

theorem written_unique {ls ls' : List Line} (h : ∀ l ∈ ls, l.Clean) (h' : ∀ l ∈ ls', l.Clean) (hn : ls ≠ []) (hn' : ls' ≠ [])
    (e : written ls = written ls') : ls = ls' := by
  induction ls generalizing ls' with
  | nil => exact absurd rfl hn
  | cons l ls ih =>
    cases ls' with
    | nil => exact absurd rfl hn'
    | cons l' ls' =>
      have c := h l (.head _)
      have c' := h' l' (.head _)
      cases ls with
      | nil =>
        cases ls' with
        | nil => rw [Line.written_unique c c' e]
        | cons m ms =>
          have e : l.written = l'.written ++ 10 :: written (m :: ms) := e
          refine absurd rfl (Line.written_noFeed c 10 ?_)
          rw [e]; simp
      | cons m ms =>
        cases ls' with
        | nil =>
          have e : l.written ++ 10 :: written (m :: ms) = l'.written := e
          refine absurd rfl (Line.written_noFeed c' 10 ?_)
          rw [← e]; simp
        | cons m' ms' =>
          have e : l.written ++ 10 :: written (m :: ms) = l'.written ++ 10 :: written (m' :: ms') := e
          obtain ⟨e1, e2⟩ := feed_unique (Line.written_noFeed c) (Line.written_noFeed c') e
          rw [Line.written_unique c c' e1, ih (fun l hl => h l (.tail _ hl)) (fun l hl => h' l (.tail _ hl)) (by simp) (by simp) e2]

/-! ### The lines of a block -/

theorem comma_snoc (ls : List Line) (l : Line) : comma (ls ++ [l]) = ls ++ [⟨l.tabs, l.text ++ [0x2C]⟩] := by
  induction ls with
  | nil => rfl
  | cons a ls ih =>
    cases ls with
    | nil => rfl
    | cons b ls => simpa [comma] using ih

theorem comma_mem {ls : List Line} {l : Line} (h : l ∈ comma ls) : ∃ m ∈ ls, l.tabs = m.tabs ∧
    ∀ c ∈ l.text, c ∈ m.text ∨ c = 0x2C := by
  induction ls with
  | nil => cases h
  | cons a ls ih =>
    cases ls with
    | nil =>
      simp only [comma, List.mem_singleton] at h
      subst h
      exact ⟨a, .head _, rfl, fun c hc => by simpa using hc⟩
    | cons b ls =>
      simp only [comma] at h
      cases h with
      | head => exact ⟨l, .head _, rfl, fun c hc => .inl hc⟩
      | tail _ h =>
        obtain ⟨m, hm, r⟩ := ih h
        exact ⟨m, .tail _ hm, r⟩

theorem comma_unique {ls ls' : List Line} (h : comma ls = comma ls') : ls = ls' := by
  rcases List.eq_nil_or_concat ls with rfl | ⟨as, a, rfl⟩
  · rcases List.eq_nil_or_concat ls' with rfl | ⟨bs, b, rfl⟩
    · rfl
    · rw [List.concat_eq_append, comma_snoc] at h; simp [comma] at h
  · rcases List.eq_nil_or_concat ls' with rfl | ⟨bs, b, rfl⟩
    · rw [List.concat_eq_append, comma_snoc] at h; simp [comma] at h
    · rw [List.concat_eq_append, List.concat_eq_append, comma_snoc, comma_snoc] at h
      obtain ⟨h1, h2⟩ := List.append_inj' h rfl
      simp only [List.cons.injEq, Line.mk.injEq, and_true, List.append_cancel_right_eq] at h2
      cases a; cases b; cases h1; cases h2.1; cases h2.2; rfl

/-- the last line that is indented by `n`, and what is behind it -/
theorem last_unique {n : Nat} {X X' c c' : List Line} {y y' : Line} (hc : ∀ l ∈ c, l.tabs ≠ n) (hc' : ∀ l ∈ c', l.tabs ≠ n)
    (hy : y.tabs = n) (hy' : y'.tabs = n) (h : X ++ y :: c = X' ++ y' :: c') : X = X' ∧ y = y' ∧ c = c' := by
  rcases List.append_eq_append_iff.1 h with ⟨a, rfl, g⟩ | ⟨a, rfl, g⟩
  · cases a with
    | nil => simp at g; exact ⟨by simp, g.1, g.2⟩
    | cons z a =>
      simp only [List.cons_append, List.cons.injEq] at g
      obtain ⟨-, rfl⟩ := g
      exact absurd hy' (hc y' (by simp))
  · cases a with
    | nil => simp at g; exact ⟨by simp, g.1.symm, g.2.symm⟩
    | cons z a =>
      simp only [List.cons_append, List.cons.injEq] at g
      obtain ⟨-, rfl⟩ := g
      exact absurd hy (hc' y (by simp))

/-- the first line that is indented by `n`, and what is in front of it -/
theorem first_unique {n : Nat} {c c' r r' : List Line} {y y' : Line} (hc : ∀ l ∈ c, l.tabs ≠ n) (hc' : ∀ l ∈ c', l.tabs ≠ n)
    (hy : y.tabs = n) (hy' : y'.tabs = n) (h : c ++ y :: r = c' ++ y' :: r') : c = c' ∧ y = y' ∧ r = r' := by
  rcases List.append_eq_append_iff.1 h with ⟨a, rfl, g⟩ | ⟨a, rfl, g⟩
  · cases a with
    | nil => simp at g; exact ⟨by simp, g.1, g.2⟩
    | cons z a =>
      simp only [List.cons_append, List.cons.injEq] at g
      obtain ⟨rfl, -⟩ := g
      exact absurd hy (hc' y (by simp))
  · cases a with
    | nil => simp at g; exact ⟨by simp, g.1.symm, g.2.symm⟩
    | cons z a =>
      simp only [List.cons_append, List.cons.injEq] at g
      obtain ⟨rfl, -⟩ := g
      exact absurd hy' (hc y' (by simp))

/-- a block at the end -/
theorem block_last {n : Nat} {X X' c c' : List Line} {t t' : String} (hc : ∀ l ∈ c, n < l.tabs) (hc' : ∀ l ∈ c', n < l.tabs)
    (h : X ++ block n t c = X' ++ block n t' c') : X = X' ∧ c = c' := by
  have e : ∀ (X c : List Line) (t : String), X ++ block n t c =
      ((X ++ [⟨n, codes t ++ codes " :"⟩]) ++ ⟨n, codes "{"⟩ :: c) ++ [⟨n, codes "}"⟩] := by
    intro X c t; simp [block]
  rw [e, e] at h
  obtain ⟨h1, -⟩ := List.append_inj' h rfl
  obtain ⟨h2, -, h3⟩ := last_unique (n := n) (fun l hl => Nat.ne_of_gt (hc l hl)) (fun l hl => Nat.ne_of_gt (hc' l hl)) rfl rfl h1
  exact ⟨(List.append_inj' h2 rfl).1, h3⟩

/-! ### The lines of an expression -/

theorem block_tabs {n : Nat} {t : String} {c : List Line} (hc : ∀ l ∈ c, n < l.tabs) : ∀ l ∈ block n t c, n ≤ l.tabs := by
  intro l hl
  simp only [block, List.mem_cons, List.mem_append, List.not_mem_nil, or_false] at hl
  rcases hl with rfl | rfl | hl | rfl
  · exact Nat.le_refl _
  · exact Nat.le_refl _
  · exact Nat.le_of_lt (hc l hl)
  · exact Nat.le_refl _

theorem comma_tabs {n : Nat} {c : List Line} (hc : ∀ l ∈ c, n ≤ l.tabs) : ∀ l ∈ comma c, n ≤ l.tabs := by
  intro l hl
  obtain ⟨m, hm, e, -⟩ := comma_mem hl
  rw [e]
  exact hc m hm

mutual
theorem Expr.lines_tabs : ∀ (e : Expr) (n : Nat), ∀ l ∈ e.lines n, n ≤ l.tabs
  | .one t, n => by rw [Expr.lines]; exact block_tabs fun l hl => t.lines_tabs (n + 1) l hl
  | .add e t, n => by
    rw [Expr.lines]
    simp only [List.mem_append, List.mem_cons]
    rintro l (h | rfl | h)
    · exact comma_tabs (e.lines_tabs n) l h
    · exact Nat.le_refl _
    · exact block_tabs (fun l hl => t.lines_tabs (n + 1) l hl) l h
  | .sub e t, n => by
    rw [Expr.lines]
    simp only [List.mem_append, List.mem_cons]
    rintro l (h | rfl | h)
    · exact comma_tabs (e.lines_tabs n) l h
    · exact Nat.le_refl _
    · exact block_tabs (fun l hl => t.lines_tabs (n + 1) l hl) l h
theorem Term.lines_tabs : ∀ (e : Term) (n : Nat), ∀ l ∈ e.lines n, n ≤ l.tabs
  | .one t, n => by rw [Term.lines]; exact block_tabs fun l hl => t.lines_tabs (n + 1) l hl
  | .mul e t, n => by
    rw [Term.lines]
    simp only [List.mem_append, List.mem_cons]
    rintro l (h | rfl | h)
    · exact comma_tabs (e.lines_tabs n) l h
    · exact Nat.le_refl _
    · exact block_tabs (fun l hl => t.lines_tabs (n + 1) l hl) l h
  | .div e t, n => by
    rw [Term.lines]
    simp only [List.mem_append, List.mem_cons]
    rintro l (h | rfl | h)
    · exact comma_tabs (e.lines_tabs n) l h
    · exact Nat.le_refl _
    · exact block_tabs (fun l hl => t.lines_tabs (n + 1) l hl) l h
theorem Factor.lines_tabs : ∀ (e : Factor) (n : Nat), ∀ l ∈ e.lines n, n ≤ l.tabs
  | .one t, n => by rw [Factor.lines]; exact block_tabs fun l hl => t.lines_tabs (n + 1) l hl
  | .pow t f, n => by
    rw [Factor.lines]
    simp only [List.mem_append]
    rintro l (h | h)
    · exact comma_tabs (block_tabs fun l hl => t.lines_tabs (n + 1) l hl) l h
    · exact f.lines_tabs n l h
theorem Powterm.lines_tabs : ∀ (e : Powterm) (n : Nat), ∀ l ∈ e.lines n, n ≤ l.tabs
  | .paren e, n => by
    rw [Powterm.lines]
    exact block_tabs fun l hl => block_tabs (fun l hl => e.lines_tabs (n + 2) l hl) l hl
  | .neg e, n => by
    rw [Powterm.lines]
    exact block_tabs fun l hl => block_tabs (fun l hl => e.lines_tabs (n + 2) l hl) l hl
  | .num x, n => by
    rw [Powterm.lines]
    simp
end

/-! ### Numbers -/

/-- digits, digits behind the point, and no tab, line feed or null character behind the `e` -/
def Number.Spelt (x : Number) : Prop :=
  (∀ c ∈ x.int, Digit c) ∧ (∀ f, x.frac = some f → ∀ c ∈ f, Digit c) ∧ ∀ e, x.exp = some e → ∀ c ∈ e, c ≠ 9 ∧ c ≠ 10 ∧ c ≠ 0

theorem Digit.clean {c : Nat} (h : Digit c) : c ≠ 9 ∧ c ≠ 10 ∧ c ≠ 0 := by
  obtain ⟨a, -⟩ := h; omega

theorem IsNumber.spelt {x : List Nat} {n : Number} (h : IsNumber x n) : n.Spelt := by
  cases h with
  | mk hi hf he =>
    refine ⟨hi.2, ?_, ?_⟩
    · intro f ef
      cases hf with
      | none => cases ef
      | some d => cases ef; exact d.2
    · intro e ee
      cases he with
      | none => cases ee
      | some _ hs d =>
        cases ee
        intro c hc
        rcases List.mem_append.1 hc with hc | hc
        · rcases hs with rfl | rfl
          · cases hc
          · rw [List.mem_singleton.1 hc]; decide
        · exact Digit.clean (d.2 c hc)

theorem digits_unique {x y u v : List Nat} (hx : ∀ c ∈ x, Digit c) (hy : ∀ c ∈ y, Digit c)
    (hu : ∀ c u', u = c :: u' → ¬ Digit c) (hv : ∀ c v', v = c :: v' → ¬ Digit c) (h : x ++ u = y ++ v) : x = y ∧ u = v := by
  induction x generalizing y with
  | nil =>
    cases y with
    | nil => exact ⟨rfl, h⟩
    | cons b y => exact absurd (hy b (.head _)) (hu b (y ++ v) h)
  | cons a x ih =>
    cases y with
    | nil => exact absurd (hx a (.head _)) (hv a (x ++ u) h.symm)
    | cons b y =>
      simp only [List.cons_append, List.cons.injEq] at h
      obtain ⟨rfl, g⟩ := h
      obtain ⟨rfl, rfl⟩ := ih (fun c hc => hx c (.tail _ hc)) (fun c hc => hy c (.tail _ hc)) g
      exact ⟨rfl, rfl⟩

/-- a part of a number that may be missing, with the mark in front of it -/
def marked (k : Nat) : Option (List Nat) → List Nat
  | some x => k :: x
  | none => []

theorem Number.text_eq (i : List Nat) (f e : Option (List Nat)) : Number.text ⟨i, f, e⟩ = i ++ (marked 0x2E f ++ marked 0x65 e) := by
  cases f <;> cases e <;> rfl

theorem Number.text_unique {a b : Number} (ha : a.Spelt) (hb : b.Spelt) (h : a.text = b.text) : a = b := by
  obtain ⟨i, f, e⟩ := a
  obtain ⟨i', f', e'⟩ := b
  obtain ⟨h1, h2, -⟩ := ha
  obtain ⟨g1, g2, -⟩ := hb
  have E : ∀ (o : Option (List Nat)) c u, marked 0x65 o = c :: u → ¬ Digit c := by
    intro o c u ho hd
    cases o with
    | none => cases ho
    | some e => cases ho; exact absurd hd (by simp [Digit])
  have F : ∀ (o p : Option (List Nat)) c u, marked 0x2E o ++ marked 0x65 p = c :: u → ¬ Digit c := by
    intro o p c u ho hd
    cases o with
    | none => exact E p c u ho hd
    | some f => cases ho; exact absurd hd (by simp [Digit])
  rw [Number.text_eq, Number.text_eq] at h
  obtain ⟨k1, k2⟩ := digits_unique h1 g1 (F f e) (F f' e') h
  have k3 : f = f' ∧ e = e' := by
    cases f with
    | none =>
      cases f' with
      | none => cases e <;> cases e' <;> simp_all [marked]
      | some f' => cases e <;> simp [marked] at k2
    | some f =>
      cases f' with
      | none => cases e' <;> simp [marked] at k2
      | some f' =>
        have k2 := (List.cons.inj k2).2
        obtain ⟨k4, k5⟩ := digits_unique (h2 f rfl) (g2 f' rfl) (E e) (E e') k2
        refine ⟨by rw [k4], ?_⟩
        cases e <;> cases e' <;> simp_all [marked]
  cases k1; cases k3.1; cases k3.2; rfl

theorem Number.text_clean {x : Number} (h : x.Spelt) : ∀ c ∈ x.text, c ≠ 9 ∧ c ≠ 10 ∧ c ≠ 0 := by
  obtain ⟨i, f, e⟩ := x
  obtain ⟨h1, h2, h3⟩ := h
  intro c hc
  simp only [Number.text, List.mem_append] at hc
  rcases hc with hc | hc | hc
  · exact Digit.clean (h1 c hc)
  · cases f with
    | none => cases hc
    | some f =>
      rcases List.mem_cons.1 hc with rfl | hc
      · decide
      · exact Digit.clean (h2 f rfl c hc)
  · cases e with
    | none => cases hc
    | some e =>
      rcases List.mem_cons.1 hc with rfl | hc
      · decide
      · exact h3 e rfl c hc

mutual
/-- every number in it is spelt like a number -/
def Expr.Spelt : Expr → Prop
  | .one t => t.Spelt
  | .add e t => e.Spelt ∧ t.Spelt
  | .sub e t => e.Spelt ∧ t.Spelt
def Term.Spelt : Term → Prop
  | .one f => f.Spelt
  | .mul t f => t.Spelt ∧ f.Spelt
  | .div t f => t.Spelt ∧ f.Spelt
def Factor.Spelt : Factor → Prop
  | .one p => p.Spelt
  | .pow p f => p.Spelt ∧ f.Spelt
def Powterm.Spelt : Powterm → Prop
  | .paren e => e.Spelt
  | .neg e => e.Spelt
  | .num x => x.Spelt
end

mutual
theorem IsExpr.spelt : ∀ {x e}, IsExpr x e → e.Spelt
  | _, _, .one _ h => by rw [Expr.Spelt]; exact h.spelt
  | _, _, .add h _ _ h' => by rw [Expr.Spelt]; exact ⟨h.spelt, h'.spelt⟩
  | _, _, .sub h _ _ h' => by rw [Expr.Spelt]; exact ⟨h.spelt, h'.spelt⟩
theorem IsTerm.spelt : ∀ {x e}, IsTerm x e → e.Spelt
  | _, _, .one _ h => by rw [Term.Spelt]; exact h.spelt
  | _, _, .mul h _ _ h' => by rw [Term.Spelt]; exact ⟨h.spelt, h'.spelt⟩
  | _, _, .div h _ _ h' => by rw [Term.Spelt]; exact ⟨h.spelt, h'.spelt⟩
theorem IsFactor.spelt : ∀ {x e}, IsFactor x e → e.Spelt
  | _, _, .one _ h => by rw [Factor.Spelt]; exact h.spelt
  | _, _, .pow _ h _ h' => by rw [Factor.Spelt]; exact ⟨h.spelt, h'.spelt⟩
theorem IsPowterm.spelt : ∀ {x e}, IsPowterm x e → e.Spelt
  | _, _, .paren _ h _ => by rw [Powterm.Spelt]; exact h.spelt
  | _, _, .neg _ h => by rw [Powterm.Spelt]; exact h.spelt
  | _, _, .num h => by rw [Powterm.Spelt]; exact h.spelt
end

/-! ### No tab, line feed or null character in a line -/

theorem block_clean {n : Nat} {t : String} {c : List Line} (ht : ∀ x ∈ codes t, x ≠ 9 ∧ x ≠ 10 ∧ x ≠ 0) (hc : ∀ l ∈ c, l.Clean) :
    ∀ l ∈ block n t c, l.Clean := by
  intro l hl
  simp only [block, List.mem_cons, List.mem_append, List.not_mem_nil, or_false] at hl
  rcases hl with rfl | rfl | hl | rfl
  · intro x hx
    rcases List.mem_append.1 hx with hx | hx
    · exact ht x hx
    · exact (by decide : ∀ x ∈ codes " :", x ≠ 9 ∧ x ≠ 10 ∧ x ≠ 0) x hx
  · unfold Line.Clean; dsimp only; decide
  · exact hc l hl
  · unfold Line.Clean; dsimp only; decide

theorem comma_clean {c : List Line} (hc : ∀ l ∈ c, l.Clean) : ∀ l ∈ comma c, l.Clean := by
  intro l hl x hx
  obtain ⟨m, hm, -, e⟩ := comma_mem hl
  rcases e x hx with hx | rfl
  · exact hc m hm x hx
  · decide

theorem between_clean {c d : List Line} {l : Line} (hc : ∀ l ∈ c, l.Clean) (hl : l.Clean) (hd : ∀ l ∈ d, l.Clean) :
    ∀ m ∈ comma c ++ l :: d, m.Clean := by
  intro m hm
  rcases List.mem_append.1 hm with hm | hm
  · exact comma_clean hc m hm
  · rcases List.mem_cons.1 hm with rfl | hm
    · exact hl
    · exact hd m hm

mutual
theorem Expr.lines_clean : ∀ (e : Expr) (n : Nat), e.Spelt → ∀ l ∈ e.lines n, l.Clean
  | .one t, n, h => by
    rw [Expr.Spelt] at h; rw [Expr.lines]
    exact block_clean (by decide) (t.lines_clean _ h)
  | .add e t, n, h => by
    rw [Expr.Spelt] at h; rw [Expr.lines]
    exact between_clean (e.lines_clean _ h.1) (by unfold Line.Clean; dsimp only; decide) (block_clean (by decide) (t.lines_clean _ h.2))
  | .sub e t, n, h => by
    rw [Expr.Spelt] at h; rw [Expr.lines]
    exact between_clean (e.lines_clean _ h.1) (by unfold Line.Clean; dsimp only; decide) (block_clean (by decide) (t.lines_clean _ h.2))
theorem Term.lines_clean : ∀ (e : Term) (n : Nat), e.Spelt → ∀ l ∈ e.lines n, l.Clean
  | .one t, n, h => by
    rw [Term.Spelt] at h; rw [Term.lines]
    exact block_clean (by decide) (t.lines_clean _ h)
  | .mul e t, n, h => by
    rw [Term.Spelt] at h; rw [Term.lines]
    exact between_clean (e.lines_clean _ h.1) (by unfold Line.Clean; dsimp only; decide) (block_clean (by decide) (t.lines_clean _ h.2))
  | .div e t, n, h => by
    rw [Term.Spelt] at h; rw [Term.lines]
    exact between_clean (e.lines_clean _ h.1) (by unfold Line.Clean; dsimp only; decide) (block_clean (by decide) (t.lines_clean _ h.2))
theorem Factor.lines_clean : ∀ (e : Factor) (n : Nat), e.Spelt → ∀ l ∈ e.lines n, l.Clean
  | .one t, n, h => by
    rw [Factor.Spelt] at h; rw [Factor.lines]
    exact block_clean (by decide) (t.lines_clean _ h)
  | .pow t f, n, h => by
    rw [Factor.Spelt] at h; rw [Factor.lines]
    intro l hl
    rcases List.mem_append.1 hl with hl | hl
    · exact comma_clean (block_clean (by decide) (t.lines_clean _ h.1)) l hl
    · exact f.lines_clean _ h.2 l hl
theorem Powterm.lines_clean : ∀ (e : Powterm) (n : Nat), e.Spelt → ∀ l ∈ e.lines n, l.Clean
  | .paren e, n, h => by
    rw [Powterm.Spelt] at h; rw [Powterm.lines]
    exact block_clean (by decide) (block_clean (by decide) (e.lines_clean _ h))
  | .neg e, n, h => by
    rw [Powterm.Spelt] at h; rw [Powterm.lines]
    exact block_clean (by decide) (block_clean (by decide) (e.lines_clean _ h))
  | .num x, n, h => by
    rw [Powterm.Spelt] at h; rw [Powterm.lines]
    intro l hl c hc
    rw [List.mem_singleton.1 hl] at hc
    rcases List.mem_append.1 hc with hc | hc
    · exact (by decide : ∀ c ∈ codes "Number : ", c ≠ 9 ∧ c ≠ 10 ∧ c ≠ 0) c hc
    · exact Number.text_clean h c hc
end

/-! ### The lines tell the expression -/

/-- one operand, or operands in front of an operator and a last operand -/
theorem operands_unique {n : Nat} {A B c d : List Line} {o o' : Line} {t : String} (hc : ∀ l ∈ c, n < l.tabs)
    (hd : ∀ l ∈ d, n < l.tabs) (h : comma A ++ o :: block n t c = comma B ++ o' :: block n t d) : A = B ∧ o = o' ∧ c = d := by
  have e : ∀ (A c : List Line) (o : Line), comma A ++ o :: block n t c = (comma A ++ [o]) ++ block n t c := by
    intro A c o; simp
  rw [e, e] at h
  obtain ⟨h1, h2⟩ := block_last hc hd h
  obtain ⟨h3, h4⟩ := List.append_inj' h1 rfl
  exact ⟨comma_unique h3, by simpa using h4, h2⟩

theorem operand_ne {n : Nat} {A c d : List Line} {o : Line} {t : String} (hc : ∀ l ∈ c, n < l.tabs)
    (hd : ∀ l ∈ d, n < l.tabs) : block n t c ≠ comma A ++ o :: block n t d := by
  intro h
  have e : comma A ++ o :: block n t d = (comma A ++ [o]) ++ block n t d := by simp
  have h : [] ++ block n t c = _ := h
  rw [e] at h
  obtain ⟨h1, -⟩ := block_last hc hd h
  simp at h1

theorem block_unique {n : Nat} {c d : List Line} {t t' : String} (h : block n t c = block n t' d) :
    codes t ++ codes " :" = codes t' ++ codes " :" ∧ c = d := by
  simp only [block, List.cons.injEq, Line.mk.injEq, true_and, List.append_cancel_right_eq] at h
  exact ⟨by rw [h.1], h.2⟩

/-- a block with a comma behind it -/
theorem block_comma (n : Nat) (t : String) (c : List Line) :
    comma (block n t c) = ⟨n, codes t ++ codes " :"⟩ :: ⟨n, codes "{"⟩ :: (c ++ [⟨n, codes "}" ++ [0x2C]⟩]) :=
  comma_snoc (⟨n, codes t ++ codes " :"⟩ :: ⟨n, codes "{"⟩ :: c) ⟨n, codes "}"⟩

mutual
theorem Expr.lines_unique : ∀ (e e' : Expr) (n : Nat), e.Spelt → e'.Spelt → e.lines n = e'.lines n → e = e'
  | .one t, .one t', n, h, h', k => by
    rw [Expr.Spelt] at h h'; rw [Expr.lines, Expr.lines] at k
    rw [t.lines_unique t' _ h h' (block_unique k).2]
  | .add e t, .add e' t', n, h, h', k => by
    rw [Expr.Spelt] at h h'; rw [Expr.lines, Expr.lines] at k
    obtain ⟨k1, -, k2⟩ := operands_unique (t.lines_tabs _) (t'.lines_tabs _) k
    rw [e.lines_unique e' _ h.1 h'.1 k1, t.lines_unique t' _ h.2 h'.2 k2]
  | .sub e t, .sub e' t', n, h, h', k => by
    rw [Expr.Spelt] at h h'; rw [Expr.lines, Expr.lines] at k
    obtain ⟨k1, -, k2⟩ := operands_unique (t.lines_tabs _) (t'.lines_tabs _) k
    rw [e.lines_unique e' _ h.1 h'.1 k1, t.lines_unique t' _ h.2 h'.2 k2]
  | .add e t, .sub e' t', n, h, h', k => by
    rw [Expr.lines, Expr.lines] at k
    obtain ⟨-, k1, -⟩ := operands_unique (t.lines_tabs _) (t'.lines_tabs _) k
    exact absurd (congrArg Line.text k1) (by dsimp only; decide)
  | .sub e t, .add e' t', n, h, h', k => by
    rw [Expr.lines, Expr.lines] at k
    obtain ⟨-, k1, -⟩ := operands_unique (t.lines_tabs _) (t'.lines_tabs _) k
    exact absurd (congrArg Line.text k1) (by dsimp only; decide)
  | .one t, .add e' t', n, h, h', k => by
    rw [Expr.lines, Expr.lines] at k
    exact absurd k (operand_ne (t.lines_tabs _) (t'.lines_tabs _))
  | .one t, .sub e' t', n, h, h', k => by
    rw [Expr.lines, Expr.lines] at k
    exact absurd k (operand_ne (t.lines_tabs _) (t'.lines_tabs _))
  | .add e t, .one t', n, h, h', k => by
    rw [Expr.lines, Expr.lines] at k
    exact absurd k.symm (operand_ne (t'.lines_tabs _) (t.lines_tabs _))
  | .sub e t, .one t', n, h, h', k => by
    rw [Expr.lines, Expr.lines] at k
    exact absurd k.symm (operand_ne (t'.lines_tabs _) (t.lines_tabs _))
theorem Term.lines_unique : ∀ (e e' : Term) (n : Nat), e.Spelt → e'.Spelt → e.lines n = e'.lines n → e = e'
  | .one t, .one t', n, h, h', k => by
    rw [Term.Spelt] at h h'; rw [Term.lines, Term.lines] at k
    rw [t.lines_unique t' _ h h' (block_unique k).2]
  | .mul e t, .mul e' t', n, h, h', k => by
    rw [Term.Spelt] at h h'; rw [Term.lines, Term.lines] at k
    obtain ⟨k1, -, k2⟩ := operands_unique (t.lines_tabs _) (t'.lines_tabs _) k
    rw [e.lines_unique e' _ h.1 h'.1 k1, t.lines_unique t' _ h.2 h'.2 k2]
  | .div e t, .div e' t', n, h, h', k => by
    rw [Term.Spelt] at h h'; rw [Term.lines, Term.lines] at k
    obtain ⟨k1, -, k2⟩ := operands_unique (t.lines_tabs _) (t'.lines_tabs _) k
    rw [e.lines_unique e' _ h.1 h'.1 k1, t.lines_unique t' _ h.2 h'.2 k2]
  | .mul e t, .div e' t', n, h, h', k => by
    rw [Term.lines, Term.lines] at k
    obtain ⟨-, k1, -⟩ := operands_unique (t.lines_tabs _) (t'.lines_tabs _) k
    exact absurd (congrArg Line.text k1) (by dsimp only; decide)
  | .div e t, .mul e' t', n, h, h', k => by
    rw [Term.lines, Term.lines] at k
    obtain ⟨-, k1, -⟩ := operands_unique (t.lines_tabs _) (t'.lines_tabs _) k
    exact absurd (congrArg Line.text k1) (by dsimp only; decide)
  | .one t, .mul e' t', n, h, h', k => by
    rw [Term.lines, Term.lines] at k
    exact absurd k (operand_ne (t.lines_tabs _) (t'.lines_tabs _))
  | .one t, .div e' t', n, h, h', k => by
    rw [Term.lines, Term.lines] at k
    exact absurd k (operand_ne (t.lines_tabs _) (t'.lines_tabs _))
  | .mul e t, .one t', n, h, h', k => by
    rw [Term.lines, Term.lines] at k
    exact absurd k.symm (operand_ne (t'.lines_tabs _) (t.lines_tabs _))
  | .div e t, .one t', n, h, h', k => by
    rw [Term.lines, Term.lines] at k
    exact absurd k.symm (operand_ne (t'.lines_tabs _) (t.lines_tabs _))
theorem Factor.lines_unique : ∀ (e e' : Factor) (n : Nat), e.Spelt → e'.Spelt → e.lines n = e'.lines n → e = e'
  | .one p, .one p', n, h, h', k => by
    rw [Factor.Spelt] at h h'; rw [Factor.lines, Factor.lines] at k
    rw [p.lines_unique p' _ h h' (block_unique k).2]
  | .pow p f, .pow p' f', n, h, h', k => by
    rw [Factor.Spelt] at h h'; rw [Factor.lines, Factor.lines, block_comma, block_comma] at k
    simp only [List.cons_append, List.append_assoc, List.nil_append, List.cons.injEq, true_and] at k
    obtain ⟨k1, -, k2⟩ := first_unique (n := n) (fun l hl => Nat.ne_of_gt (p.lines_tabs _ l hl))
      (fun l hl => Nat.ne_of_gt (p'.lines_tabs _ l hl)) rfl rfl k
    rw [p.lines_unique p' _ h.1 h'.1 k1, f.lines_unique f' _ h.2 h'.2 k2]
  | .one p, .pow p' f', n, h, h', k => by
    rw [Factor.lines, Factor.lines, block_comma, block] at k
    simp only [List.cons_append, List.append_assoc, List.nil_append, List.cons.injEq, true_and] at k
    obtain ⟨-, k1, -⟩ := first_unique (n := n) (fun l hl => Nat.ne_of_gt (p.lines_tabs _ l hl))
      (fun l hl => Nat.ne_of_gt (p'.lines_tabs _ l hl)) rfl rfl k
    exact absurd (congrArg Line.text k1) (by dsimp only; decide)
  | .pow p f, .one p', n, h, h', k => by
    rw [Factor.lines, Factor.lines, block_comma, block] at k
    simp only [List.cons_append, List.append_assoc, List.nil_append, List.cons.injEq, true_and] at k
    obtain ⟨-, k1, -⟩ := first_unique (n := n) (fun l hl => Nat.ne_of_gt (p.lines_tabs _ l hl))
      (fun l hl => Nat.ne_of_gt (p'.lines_tabs _ l hl)) rfl rfl k
    exact absurd (congrArg Line.text k1) (by dsimp only; decide)
theorem Powterm.lines_unique : ∀ (e e' : Powterm) (n : Nat), e.Spelt → e'.Spelt → e.lines n = e'.lines n → e = e'
  | .paren e, .paren e', n, h, h', k => by
    rw [Powterm.Spelt] at h h'; rw [Powterm.lines, Powterm.lines] at k
    rw [e.lines_unique e' _ h h' (block_unique (block_unique k).2).2]
  | .neg e, .neg e', n, h, h', k => by
    rw [Powterm.Spelt] at h h'; rw [Powterm.lines, Powterm.lines] at k
    rw [e.lines_unique e' _ h h' (block_unique (block_unique k).2).2]
  | .num x, .num x', n, h, h', k => by
    rw [Powterm.Spelt] at h h'; rw [Powterm.lines, Powterm.lines] at k
    simp only [List.cons.injEq, Line.mk.injEq, true_and, and_true, List.append_cancel_left_eq] at k
    rw [Number.text_unique h h' k]
  | .paren e, .neg e', n, h, h', k => by
    rw [Powterm.lines, Powterm.lines] at k
    exact absurd (block_unique k).1 (by decide)
  | .neg e, .paren e', n, h, h', k => by
    rw [Powterm.lines, Powterm.lines] at k
    exact absurd (block_unique k).1 (by decide)
  | .paren e, .num x', n, h, h', k => by
    rw [Powterm.lines, Powterm.lines] at k
    exact absurd (congrArg List.length k) (by simp [block])
  | .neg e, .num x', n, h, h', k => by
    rw [Powterm.lines, Powterm.lines] at k
    exact absurd (congrArg List.length k) (by simp [block])
  | .num x, .paren e', n, h, h', k => by
    rw [Powterm.lines, Powterm.lines] at k
    exact absurd (congrArg List.length k) (by simp [block])
  | .num x, .neg e', n, h, h', k => by
    rw [Powterm.lines, Powterm.lines] at k
    exact absurd (congrArg List.length k) (by simp [block])
end

theorem Expr.printed_unique {e e' : Expr} {n : Nat} (h : e.Spelt) (h' : e'.Spelt) (k : e.printed n = e'.printed n) : e = e' :=
  e.lines_unique e' _ h h' (block_unique (written_unique (block_clean (by decide) (e.lines_clean _ h))
    (block_clean (by decide) (e'.lines_clean _ h')) (by simp [block]) (by simp [block]) k)).2

theorem written_noNull {ls : List Line} (h : ∀ l ∈ ls, l.Clean) : 0 ∉ written ls := by
  have one : ∀ l : Line, l.Clean → 0 ∉ l.written := by
    intro l hl hc
    rcases List.mem_append.1 hc with hc | hc
    · exact absurd (List.mem_replicate.1 hc).2 (by decide)
    · exact (hl 0 hc).2.2 rfl
  induction ls with
  | nil => simp [written]
  | cons l ls ih =>
    cases ls with
    | nil => exact one l (h l (.head _))
    | cons m ls =>
      intro hc
      rcases List.mem_append.1 hc with hc | hc
      · exact one l (h l (.head _)) hc
      · rcases List.mem_cons.1 hc with hc | hc
        · cases hc
        · exact ih (fun l hl => h l (.tail _ hl)) hc

theorem Expr.printed_noNull {e : Expr} {n : Nat} (h : e.Spelt) : 0 ∉ e.printed n :=
  written_noNull (block_clean (by decide) (e.lines_clean _ h))

end Tok3n.Algebraic
