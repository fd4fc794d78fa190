import Verif.Props.Algebraic
import Verif.Proof.Print
import Verif.Proof.PrintTells
import Verif.Proof.PrintLimit
/-
C58: what the algebraic example prints.
-/

namespace Tok3n.Algebraic

open Json (Ws Digit)

/-- `print(result, tabs)` on the result of a successful `input::parse` writes the expression that the text denotes, as
laid out in `Spec/Print.lean`, as long as no line is to be indented by more than 1024 tabs. -/
theorem C58_print (m : Machine) (s : Span) (hs : s.Valid m.mem) (log : List Call) (v : Val) (s' : Span)
    (h : Parses (ctx m) input s log v s') :
    ∃ e, IsInput (s.elems m.mem) e ∧ e.Greedy ∧
      ∀ tabs, tabs + 4 + 5 * e.depth ≤ 1024 → printExpr m.mem v tabs = .ok (e.printed tabs) := by
  obtain ⟨-, e, h1, h2, h3⟩ := C55_sound m s hs log v s' h
  exact ⟨e, h1, h2, fun _ => printExpr_eq h3⟩

/-- Every text of the grammar with at most 204 levels of parentheses and minus signs is read and printed. -/
theorem C58_prints {x : List Nat} {e : Expr} (h : IsInput x e) (hg : e.Greedy) (hd : e.depth ≤ 204) :
    ∃ log v s', Parses (ctx (holding x)) input (all x) log v s' ∧ printExpr (holding x).mem v 0 = .ok (e.printed 0) := by
  obtain ⟨log, v, s', h', -, hr⟩ := C55_complete _ _ (all_valid x) e (by rw [all_elems]; exact h) hg
  exact ⟨log, v, s', h', printExpr_eq hr (by omega)⟩

/-- Two expressions that texts denote are printed differently, unless they are the same. -/
theorem C58_distinct {x x' : List Nat} {e e' : Expr} (h : IsInput x e) (h' : IsInput x' e') (tabs : Nat)
    (hp : e.printed tabs = e'.printed tabs) : e = e' := by
  cases h with
  | mk _ h _ =>
    cases h' with
    | mk _ h' _ => exact Expr.printed_unique h.spelt h'.spelt hp

/-- If `print` writes the same for the results of two successful parses, with the same indentation and none beyond 1024
tabs, then the two texts denote the same expression and `evaluate` does the same with both. -/
theorem C58_tells (m m' : Machine) (s t : Span) (hs : s.Valid m.mem) (ht : t.Valid m'.mem) (log log' : List Call) (v v' : Val)
    (s' t' : Span) (h : Parses (ctx m) input s log v s') (h' : Parses (ctx m') input t log' v' t') (tabs : Nat) (e e' : Expr)
    (he : IsInput (s.elems m.mem) e) (hg : e.Greedy) (hd : tabs + 4 + 5 * e.depth ≤ 1024)
    (he' : IsInput (t.elems m'.mem) e') (hg' : e'.Greedy) (hd' : tabs + 4 + 5 * e'.depth ≤ 1024)
    (hp : printExpr m.mem v tabs = printExpr m'.mem v' tabs) :
    e = e' ∧ ∀ (R : Type) (A : Arith R), evaluateExpr m.mem A v = evaluateExpr m'.mem A v' := by
  obtain ⟨e1, a1, a2, a3⟩ := C58_print m s hs log v s' h
  obtain ⟨e2, b1, b2, b3⟩ := C58_print m' t ht log' v' t' h'
  obtain ⟨e3, c1, c2, c3⟩ := C56_evaluate m s hs log v s' h
  obtain ⟨e4, d1, d2, d3⟩ := C56_evaluate m' t ht log' v' t' h'
  cases C55_greedy_unique _ e e1 he hg a1 a2
  cases C55_greedy_unique _ e e3 he hg c1 c2
  cases C55_greedy_unique _ e' e2 he' hg' b1 b2
  cases C55_greedy_unique _ e' e4 he' hg' d1 d2
  rw [a3 tabs hd, b3 tabs hd'] at hp
  cases C58_distinct he he' tabs (Except.ok.inj hp)
  exact ⟨rfl, fun R A => by rw [c3, d3]⟩

/-- The limit is exact.  The deepest line is indented by `tabs + 4`, and by 5 more for every level of parentheses and minus
signs.  Up to 1024, `print` writes the expression; at 1025 it writes something with a null character in it, which is not
the expression; and beyond that it reads past its buffer. -/
theorem C58_limit (m : Machine) (s : Span) (hs : s.Valid m.mem) (log : List Call) (v : Val) (s' : Span)
    (h : Parses (ctx m) input s log v s') :
    ∃ e, IsInput (s.elems m.mem) e ∧ e.Greedy ∧ ∀ tabs,
      (printExpr m.mem v tabs = .ok (e.printed tabs) ↔ tabs + 4 + 5 * e.depth ≤ 1024) ∧
      ((∃ t, printExpr m.mem v tabs = .ok t ∧ 0 ∈ t) ↔ tabs + 4 + 5 * e.depth = 1025) ∧
      (printExpr m.mem v tabs = .error .ub ↔ 1025 < tabs + 4 + 5 * e.depth) := by
  obtain ⟨-, e, h1, h2, h3⟩ := C55_sound m s hs log v s' h
  refine ⟨e, h1, h2, fun tabs => ?_⟩
  have no : 0 ∉ e.printed tabs := by
    generalize s.elems m.mem = x at h1
    cases h1 with
    | mk _ h1 _ => exact Expr.printed_noNull h1.spelt
  obtain ⟨f1, f2⟩ := printExpr_fate h3 tabs
  rcases Nat.lt_trichotomy (tabs + 4 + 5 * e.depth) 1025 with hd | hd | hd
  · have hp := printExpr_eq h3 (n := tabs) (by omega)
    refine ⟨⟨fun _ => by omega, fun _ => hp⟩, ⟨?_, fun _ => by omega⟩, ⟨fun k => ?_, fun _ => by omega⟩⟩
    · rintro ⟨t, k, ht⟩
      rw [hp] at k
      cases k
      exact absurd ht no
    · rw [hp] at k; cases k
  · obtain ⟨t, hp, ht⟩ := f1 (by omega)
    refine ⟨⟨fun k => ?_, fun _ => by omega⟩, ⟨fun _ => hd, fun _ => ⟨t, hp, ht hd⟩⟩, ⟨fun k => ?_, fun _ => by omega⟩⟩
    · rw [hp] at k
      cases k
      exact absurd (ht hd) no
    · rw [hp] at k; cases k
  · have hp := f2 hd
    refine ⟨⟨fun k => ?_, fun _ => by omega⟩, ⟨?_, fun _ => by omega⟩, ⟨fun _ => hd, fun _ => hp⟩⟩
    · rw [hp] at k; cases k
    · rintro ⟨t, k, -⟩
      rw [hp] at k; cases k

/-- If `print` writes the same for the results of two successful parses, and no null character, then the two texts denote
the same expression, which is the one that was printed, and `evaluate` does the same with both. -/
theorem C58_same (m m' : Machine) (s t : Span) (hs : s.Valid m.mem) (ht : t.Valid m'.mem) (log log' : List Call) (v v' : Val)
    (s' t' : Span) (h : Parses (ctx m) input s log v s') (h' : Parses (ctx m') input t log' v' t') (tabs : Nat) (out : List Nat)
    (hp : printExpr m.mem v tabs = .ok out) (hp' : printExpr m'.mem v' tabs = .ok out) (h0 : 0 ∉ out) :
    (∃ e, IsInput (s.elems m.mem) e ∧ IsInput (t.elems m'.mem) e ∧ e.Greedy ∧ out = e.printed tabs) ∧
      ∀ (R : Type) (A : Arith R), evaluateExpr m.mem A v = evaluateExpr m'.mem A v' := by
  obtain ⟨e, a1, a2, a3⟩ := C58_limit m s hs log v s' h
  obtain ⟨e', b1, b2, b3⟩ := C58_limit m' t ht log' v' t' h'
  have d : ∀ {d : Nat} {r : Except Failure (List Nat)}, r = .ok out → ((∃ t, r = .ok t ∧ 0 ∈ t) ↔ d = 1025) →
      (r = .error .ub ↔ 1025 < d) → d ≤ 1024 := by
    intro d r hr k1 k2
    have n1 : ¬ d = 1025 := by
      intro k
      obtain ⟨t, k3, k4⟩ := k1.2 k
      rw [hr] at k3; cases k3
      exact h0 k4
    have n2 : ¬ 1025 < d := by
      intro k
      have := k2.2 k
      rw [hr] at this; cases this
    omega
  have d1 := d hp (a3 tabs).2.1 (a3 tabs).2.2
  have d2 := d hp' (b3 tabs).2.1 (b3 tabs).2.2
  obtain ⟨rfl, k⟩ := C58_tells m m' s t hs ht log log' v v' s' t' h h' tabs e e' a1 a2 d1 b1 b2 d2 (by rw [hp, hp'])
  refine ⟨⟨e, a1, b1, a2, ?_⟩, k⟩
  have := (a3 tabs).1.2 d1
  rw [hp] at this
  exact Except.ok.inj this

/-! ### Cases -/

/-- `(1)-2` -/
def subExpr : Expr := .sub (.one (.one (.one (.paren (.one (.one (.one (digit 49)))))))) (.one (.one (digit 50)))

theorem sub_input : IsInput [40, 49, 41, 45, 50] subExpr := by
  have n : Ws [] := by simp [Ws]
  exact .mk (a := []) (b := []) n (.sub (x := [40, 49, 41]) (a := []) (b := []) (y := [50]) (.one (a := []) n (.one (a := []) n
    (.one (a := []) n (.paren (a := []) (x := [49]) (b := []) n (.one (a := []) n (digit_term 49 (by simp [Digit]))) n)))) n n
    (digit_term 50 (by simp [Digit]))) n

/-- what is printed for it -/
def subText : String :=
  "Expr :\n{\n" ++
  "\tTerm :\n\t{\n" ++
  "\t\tFactor :\n\t\t{\n" ++
  "\t\t\tPowterm :\n\t\t\t{\n" ++
  "\t\t\t\tBracketed Expr :\n\t\t\t\t{\n" ++
  "\t\t\t\t\tExpr :\n\t\t\t\t\t{\n" ++
  "\t\t\t\t\t\tTerm :\n\t\t\t\t\t\t{\n" ++
  "\t\t\t\t\t\t\tFactor :\n\t\t\t\t\t\t\t{\n" ++
  "\t\t\t\t\t\t\t\tPowterm :\n\t\t\t\t\t\t\t\t{\n" ++
  "\t\t\t\t\t\t\t\t\tNumber : 1\n" ++
  "\t\t\t\t\t\t\t\t}\n\t\t\t\t\t\t\t}\n\t\t\t\t\t\t}\n\t\t\t\t\t}\n\t\t\t\t}\n\t\t\t}\n\t\t}\n\t},\n" ++
  "\t<minus>\n" ++
  "\tTerm :\n\t{\n" ++
  "\t\tFactor :\n\t\t{\n" ++
  "\t\t\tPowterm :\n\t\t\t{\n" ++
  "\t\t\t\tNumber : 2\n" ++
  "\t\t\t}\n\t\t}\n\t}\n}"

example : ∃ log v s', Parses (ctx (holding [40, 49, 41, 45, 50])) input (all [40, 49, 41, 45, 50]) log v s' ∧
    printExpr (holding [40, 49, 41, 45, 50]).mem v 0 = .ok (codes subText) := by
  have h := C58_prints sub_input (by simp [subExpr, Expr.Greedy, Term.Greedy, Factor.Greedy, Powterm.Greedy, Expr.endsNeg,
    Term.endsNeg, Factor.endsNeg, Powterm.endsNeg]) (by simp [subExpr, Expr.depth, Term.depth, Factor.depth, Powterm.depth])
  have e : subExpr.printed 0 = codes subText := by
    set_option maxRecDepth 10000 in rfl
  rwa [e] at h

/-- `(1)-2` and `1` are printed differently. -/
example : subExpr.printed 0 ≠ (Expr.one (.one (.one (digit 49)))).printed 0 := by
  intro h
  have n : Ws [] := by simp [Ws]
  have := C58_distinct sub_input (.mk (a := []) (x := [49]) (b := []) n (.one (a := []) n (digit_term 49 (by simp [Digit]))) n) 0 h
  cases this

/-- `(1)-2` with and without spaces: two texts, two machines, and `C58_tells` speaks of both. -/
example : ∃ log v s' log' v' t', Parses (ctx (holding [40, 49, 41, 45, 50])) input (all [40, 49, 41, 45, 50]) log v s' ∧
    Parses (ctx (holding [32, 40, 49, 41, 45, 50])) input (all [32, 40, 49, 41, 45, 50]) log' v' t' ∧
    printExpr (holding [40, 49, 41, 45, 50]).mem v 3 = printExpr (holding [32, 40, 49, 41, 45, 50]).mem v' 3 ∧
    ∀ (R : Type) (A : Arith R), evaluateExpr (holding [40, 49, 41, 45, 50]).mem A v =
      evaluateExpr (holding [32, 40, 49, 41, 45, 50]).mem A v' := by
  have g : subExpr.Greedy := by simp [subExpr, Expr.Greedy, Term.Greedy, Factor.Greedy, Powterm.Greedy, Expr.endsNeg,
    Term.endsNeg, Factor.endsNeg, Powterm.endsNeg]
  have d : 3 + 4 + 5 * subExpr.depth ≤ 1024 := by simp [subExpr, Expr.depth, Term.depth, Factor.depth, Powterm.depth]
  have i : IsInput [32, 40, 49, 41, 45, 50] subExpr := by
    have n : Ws [] := by simp [Ws]
    exact .mk (a := [32]) (b := []) (by simp [Ws]) (.sub (x := [40, 49, 41]) (a := []) (b := []) (y := [50]) (.one (a := []) n
      (.one (a := []) n (.one (a := []) n (.paren (a := []) (x := [49]) (b := []) n (.one (a := []) n (digit_term 49
      (by simp [Digit]))) n)))) n n (digit_term 50 (by simp [Digit]))) n
  obtain ⟨log, v, s', h, -, r⟩ := C55_complete _ _ (all_valid _) subExpr (by rw [all_elems]; exact sub_input) g
  obtain ⟨log', v', t', h', -, r'⟩ := C55_complete _ _ (all_valid _) subExpr (by rw [all_elems]; exact i) g
  have p : printExpr (holding [40, 49, 41, 45, 50]).mem v 3 = printExpr (holding [32, 40, 49, 41, 45, 50]).mem v' 3 := by
    rw [printExpr_eq r d, printExpr_eq r' d]
  exact ⟨log, v, s', log', v', t', h, h', p, (C58_tells _ _ _ _ (all_valid _) (all_valid _) _ _ _ _ _ _ h h' 3 subExpr subExpr
    (by rw [all_elems]; exact sub_input) g d (by rw [all_elems]; exact i) g d p).2⟩

/-- A number is printed with 1020 tabs in front, spoilt with 1021, and not printed with 1022. -/
example (m : Machine) (s : Span) (hs : s.Valid m.mem) (hx : s.elems m.mem = [49]) (log : List Call) (v : Val) (s' : Span)
    (h : Parses (ctx m) input s log v s') :
    printExpr m.mem v 1020 = .ok ((Expr.one (.one (.one (digit 49)))).printed 1020) ∧
      (∃ t, printExpr m.mem v 1021 = .ok t ∧ 0 ∈ t) ∧ printExpr m.mem v 1022 = .error .ub := by
  obtain ⟨e, h1, h2, h3⟩ := C58_limit m s hs log v s' h
  have n : Ws [] := by simp [Ws]
  have i : IsInput (s.elems m.mem) (Expr.one (.one (.one (digit 49)))) := by
    rw [hx]
    exact .mk (a := []) (x := [49]) (b := []) n (.one (a := []) n (digit_term 49 (by simp [Digit]))) n
  cases C55_greedy_unique _ _ _ i (by simp [Expr.Greedy, Term.Greedy, Factor.Greedy, Powterm.Greedy]) h1 h2
  have d : (Expr.one (.one (.one (digit 49)))).depth = 0 := by simp [Expr.depth, Term.depth, Factor.depth, Powterm.depth]
  exact ⟨(h3 1020).1.2 (by omega), (h3 1021).2.1.2 (by omega), (h3 1022).2.2.2 (by omega)⟩

end Tok3n.Algebraic
