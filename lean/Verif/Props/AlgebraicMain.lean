import Verif.Model.AlgebraicMain
import Verif.Props.Print
/-
C89: the program of the algebraic example.
-/

namespace Tok3n.Algebraic

open Json (Ws Digit)

section
variable (m : Machine) {R : Type} (A : Arith R) (format : R → List Nat) (s : Span) (hs : s.Valid m.mem)
include hs

/-- Parsing, then printing and evaluating, or reporting a failure, is done as the text demands: a text that denotes no
expression is reported; any other is printed, and its value behind it; if it has no value, the program ends there, with
`std::invalid_argument` or `std::terminate`; and with more than 204 levels of parentheses and minus signs the behaviour is
undefined. -/
theorem C89_report :
    ((¬ ∃ e, IsInput (s.elems m.mem) e) → reportText m A format s = some ⟨codes "Parse failure.\n", none⟩) ∧
    ∀ e, IsInput (s.elems m.mem) e → e.Greedy →
      (e.depth ≤ 204 → reportText m A format s = some (match e.value A with
        | .ok r => ⟨e.printed 0 ++ codes "\n" ++ format r ++ codes "\n", none⟩
        | .error .number => ⟨e.printed 0 ++ codes "\n", some .invalidArgument⟩
        | .error .exponent => ⟨e.printed 0 ++ codes "\n", some .terminate⟩)) ∧
      (204 < e.depth → ∃ out, reportText m A format s = some ⟨out, some .ub⟩) := by
  constructor
  · intro hn
    rcases C47_returns m input (by simp) s hs with ⟨log, v, x, s', h, -⟩ | ⟨log, h⟩
    · exact absurd ((C55_accepts m s hs).1 ⟨log, v, s', h⟩) hn
    · have h : Parse (ctx m) input s = _ := h
      rw [reportText, h]
      rfl
  · intro e he hg
    obtain ⟨log, v, s', h, -, -⟩ := C55_complete m s hs e he hg
    obtain ⟨e1, a1, a2, a3⟩ := C58_limit m s hs log v s' h
    obtain ⟨e2, b1, b2, b3⟩ := C56_evaluate m s hs log v s' h
    cases C55_greedy_unique _ e e1 he hg a1 a2
    cases C55_greedy_unique _ e e2 he hg b1 b2
    have h : Parse (ctx m) input s = .done log (.ok ⟨some v, s'⟩) := h
    rw [reportText, h]
    constructor
    · intro hd
      simp only [(a3 0).1.2 (by omega), b3]
      cases e.value A with
      | ok r => rfl
      | error x => cases x <;> rfl
    · intro hd
      exact ⟨[], by simp only [(a3 0).2.2.2 (by omega)]⟩

/-- `evaluate(*input::parse(text))` is the value of the expression that the text denotes; it throws or terminates if there
is none, and is undefined for a text that denotes no expression. -/
theorem C89_evaluate :
    ((¬ ∃ e, IsInput (s.elems m.mem) e) → evaluateText m A s = some (.error .ub)) ∧
    ∀ e, IsInput (s.elems m.mem) e → e.Greedy → evaluateText m A s = some (match e.value A with
      | .ok r => .ok r
      | .error .number => .error .invalidArgument
      | .error .exponent => .error .terminate) := by
  constructor
  · intro hn
    rcases C47_returns m input (by simp) s hs with ⟨log, v, x, s', h, -⟩ | ⟨log, h⟩
    · exact absurd ((C55_accepts m s hs).1 ⟨log, v, s', h⟩) hn
    · have h : Parse (ctx m) input s = _ := h
      rw [evaluateText, h]
  · intro e he hg
    obtain ⟨log, v, s', h, -, -⟩ := C55_complete m s hs e he hg
    obtain ⟨e2, b1, b2, b3⟩ := C56_evaluate m s hs log v s' h
    cases C55_greedy_unique _ e e2 he hg b1 b2
    have h : Parse (ctx m) input s = .done log (.ok ⟨some v, s'⟩) := h
    rw [evaluateText, h]
    simp only [b3]
    cases e.value A with
    | ok r => rfl
    | error x => cases x <;> rfl

end

/-! ### The four texts of the program -/

/-- `4 ^ (2 + 4 * 6) + 1 * 3` -/
def mainExpr : Expr :=
  .add (.one (.one (.pow (digit 52) (.one (.paren (.add (.one (.one (.one (digit 50))))
    (.mul (.one (.one (digit 52))) (.one (digit 54)))))))))
    (.mul (.one (.one (digit 49))) (.one (digit 51)))
/-- `1 + 2 + 3 + 4` -/
def mainExpr1 : Expr :=
  .add (.add (.add (.one (.one (.one (digit 49)))) (.one (.one (digit 50)))) (.one (.one (digit 51)))) (.one (.one (digit 52)))
/-- `1 + 2 - 3 + 4` -/
def mainExpr2 : Expr :=
  .add (.sub (.add (.one (.one (.one (digit 49)))) (.one (.one (digit 50)))) (.one (.one (digit 51)))) (.one (.one (digit 52)))
/-- `3^3^3` -/
def mainExpr3 : Expr := .one (.one (.pow (digit 51) (.pow (digit 51) (.one (digit 51)))))

theorem main_input : IsInput (codes "4 ^ (2 + 4 * 6) + 1 * 3") mainExpr ∧ IsInput (codes "1 + 2 + 3 + 4") mainExpr1 ∧
    IsInput (codes "1 + 2 - 3 + 4") mainExpr2 ∧ IsInput (codes "3^3^3") mainExpr3 := by
  have n : Ws [] := by simp [Ws]
  have w : Ws [32] := by simp [Ws]
  have p : ∀ c, Digit c → IsPowterm [c] (digit c) := digit_number
  have f : ∀ c, Digit c → IsFactor [c] (.one (digit c)) := fun c h => .one (a := []) n (p c h)
  have t : ∀ c, Digit c → IsTerm [c] (.one (.one (digit c))) := digit_term
  have e : ∀ c, Digit c → IsExpr [c] (.one (.one (.one (digit c)))) := fun c h => .one (a := []) n (t c h)
  have d1 : Digit 49 := by simp [Digit]
  have d2 : Digit 50 := by simp [Digit]
  have d3 : Digit 51 := by simp [Digit]
  have d4 : Digit 52 := by simp [Digit]
  have d6 : Digit 54 := by simp [Digit]
  refine ⟨?_, ?_, ?_, ?_⟩
  · have h1 : IsExpr [50, 32, 43, 32, 52, 32, 42, 32, 54] _ := .add (x := [50]) (a := [32]) (b := [32]) (y := [52, 32, 42, 32, 54]) (e 50 d2) w w
      (.mul (x := [52]) (a := [32]) (b := [32]) (y := [54]) (t 52 d4) w w (f 54 d6))
    have h2 : IsFactor [32, 40, 50, 32, 43, 32, 52, 32, 42, 32, 54, 41] _ := .one (a := [32]) w
      (.paren (a := []) (x := [50, 32, 43, 32, 52, 32, 42, 32, 54]) (b := []) n h1 n)
    have h3 : IsExpr [52, 32, 94, 32, 40, 50, 32, 43, 32, 52, 32, 42, 32, 54, 41] _ := .one (a := []) n (.one (a := []) n
      (.pow (a := []) (x := [52]) (b := [32]) (y := [32, 40, 50, 32, 43, 32, 52, 32, 42, 32, 54, 41]) n (p 52 d4) w h2))
    have h4 : IsTerm [49, 32, 42, 32, 51] _ := .mul (x := [49]) (a := [32]) (b := [32]) (y := [51]) (t 49 d1) w w (f 51 d3)
    exact .mk (a := []) (x := [52, 32, 94, 32, 40, 50, 32, 43, 32, 52, 32, 42, 32, 54, 41, 32, 43, 32, 49, 32, 42, 32, 51]) (b := []) n
      (.add (x := [52, 32, 94, 32, 40, 50, 32, 43, 32, 52, 32, 42, 32, 54, 41]) (a := [32]) (b := [32]) (y := [49, 32, 42, 32, 51]) h3 w w h4) n
  · exact .mk (a := []) (x := [49, 32, 43, 32, 50, 32, 43, 32, 51, 32, 43, 32, 52]) (b := []) n
      (.add (x := [49, 32, 43, 32, 50, 32, 43, 32, 51]) (a := [32]) (b := [32]) (y := [52])
        (.add (x := [49, 32, 43, 32, 50]) (a := [32]) (b := [32]) (y := [51])
          (.add (x := [49]) (a := [32]) (b := [32]) (y := [50]) (e 49 d1) w w (t 50 d2)) w w (t 51 d3)) w w (t 52 d4)) n
  · exact .mk (a := []) (x := [49, 32, 43, 32, 50, 32, 45, 32, 51, 32, 43, 32, 52]) (b := []) n
      (.add (x := [49, 32, 43, 32, 50, 32, 45, 32, 51]) (a := [32]) (b := [32]) (y := [52])
        (.sub (x := [49, 32, 43, 32, 50]) (a := [32]) (b := [32]) (y := [51])
          (.add (x := [49]) (a := [32]) (b := [32]) (y := [50]) (e 49 d1) w w (t 50 d2)) w w (t 51 d3)) w w (t 52 d4)) n
  · exact .mk (a := []) (x := [51, 94, 51, 94, 51]) (b := []) n (.one (a := []) n (.one (a := []) n
      (.pow (a := []) (x := [51]) (b := []) (y := [51, 94, 51]) n (p 51 d3) n
        (.pow (a := []) (x := [51]) (b := []) (y := [51]) n (p 51 d3) n (f 51 d3))))) n

theorem main_greedy : mainExpr.Greedy ∧ mainExpr1.Greedy ∧ mainExpr2.Greedy ∧ mainExpr3.Greedy := by
  simp [mainExpr, mainExpr1, mainExpr2, mainExpr3, Expr.Greedy, Term.Greedy, Factor.Greedy, Powterm.Greedy, Expr.endsNeg,
    Term.endsNeg, Factor.endsNeg, Powterm.endsNeg]

/-- what is printed for the first -/
def mainText : List Nat :=
  codes "Expr :\n{\n\tTerm :\n\t{\n\t\tFactor :\n\t\t{\n\t\t\tPowterm :\n\t\t\t{\n\t\t\t\tNumber : 4\n\t\t\t},\n" ++
  codes "\t\t\tPowterm :\n\t\t\t{\n\t\t\t\tBracketed Expr :\n\t\t\t\t{\n\t\t\t\t\tExpr :\n\t\t\t\t\t{\n" ++
  codes "\t\t\t\t\t\tTerm :\n\t\t\t\t\t\t{\n\t\t\t\t\t\t\tFactor :\n\t\t\t\t\t\t\t{\n\t\t\t\t\t\t\t\tPowterm :\n" ++
  codes "\t\t\t\t\t\t\t\t{\n\t\t\t\t\t\t\t\t\tNumber : 2\n\t\t\t\t\t\t\t\t}\n\t\t\t\t\t\t\t}\n\t\t\t\t\t\t},\n" ++
  codes "\t\t\t\t\t\t<plus>\n\t\t\t\t\t\tTerm :\n\t\t\t\t\t\t{\n\t\t\t\t\t\t\tFactor :\n\t\t\t\t\t\t\t{\n" ++
  codes "\t\t\t\t\t\t\t\tPowterm :\n\t\t\t\t\t\t\t\t{\n\t\t\t\t\t\t\t\t\tNumber : 4\n\t\t\t\t\t\t\t\t}\n" ++
  codes "\t\t\t\t\t\t\t},\n\t\t\t\t\t\t\t<multiplied by>\n\t\t\t\t\t\t\tFactor :\n\t\t\t\t\t\t\t{\n" ++
  codes "\t\t\t\t\t\t\t\tPowterm :\n\t\t\t\t\t\t\t\t{\n\t\t\t\t\t\t\t\t\tNumber : 6\n\t\t\t\t\t\t\t\t}\n" ++
  codes "\t\t\t\t\t\t\t}\n\t\t\t\t\t\t}\n\t\t\t\t\t}\n\t\t\t\t}\n\t\t\t}\n\t\t}\n\t},\n\t<plus>\n\tTerm :\n\t{\n" ++
  codes "\t\tFactor :\n\t\t{\n\t\t\tPowterm :\n\t\t\t{\n\t\t\t\tNumber : 1\n\t\t\t}\n\t\t},\n\t\t<multiplied by>\n" ++
  codes "\t\tFactor :\n\t\t{\n\t\t\tPowterm :\n\t\t\t{\n\t\t\t\tNumber : 3\n\t\t\t}\n\t\t}\n\t}\n}"

theorem main_printed : mainExpr.printed 0 = mainText := by
  set_option maxRecDepth 20000 in decide +kernel

/-- The program, whatever the machine and whatever arithmetic `double` has, as long as it has the numbers 1, 2, 3, 4 and 6:
it prints the first expression and its value, and the values of the other three, in which `+` and `-` associate to the left
and `^` to the right. -/
theorem C89_program (m : Machine) {R : Type} (A : Arith R) (format : R → List Nat) (s s1 s2 s3 : Span)
    (hs : s.Valid m.mem) (hs1 : s1.Valid m.mem) (hs2 : s2.Valid m.mem) (hs3 : s3.Valid m.mem)
    (hx : s.elems m.mem = codes "4 ^ (2 + 4 * 6) + 1 * 3") (hx1 : s1.elems m.mem = codes "1 + 2 + 3 + 4")
    (hx2 : s2.elems m.mem = codes "1 + 2 - 3 + 4") (hx3 : s3.elems m.mem = codes "3^3^3") (one two three four six : R)
    (h1 : A.real (codes "1") = some one) (h2 : A.real (codes "2") = some two) (h3 : A.real (codes "3") = some three)
    (h4 : A.real (codes "4") = some four) (h6 : A.real (codes "6") = some six) :
    program m A format s s1 s2 s3 = some ⟨mainText ++ codes "\n" ++
      format (A.add (A.pow four (A.add two (A.mul four six))) (A.mul one three)) ++ codes "\n" ++
      (codes "\n" ++ format (A.add (A.add (A.add one two) three) four)) ++
      (codes "\n" ++ format (A.add (A.sub (A.add one two) three) four)) ++
      (codes "\n" ++ format (A.pow three (A.pow three three))), none⟩ := by
  have h1 : A.real [49] = some one := h1
  have h2 : A.real [50] = some two := h2
  have h3 : A.real [51] = some three := h3
  have h4 : A.real [52] = some four := h4
  have h6 : A.real [54] = some six := h6
  obtain ⟨i, i1, i2, i3⟩ := main_input
  obtain ⟨g, g1, g2, g3⟩ := main_greedy
  have r := ((C89_report m A format s hs).2 mainExpr (by rw [hx]; exact i) g).1
    (by simp [mainExpr, Expr.depth, Term.depth, Factor.depth, Powterm.depth])
  have r1 := (C89_evaluate m A s1 hs1).2 mainExpr1 (by rw [hx1]; exact i1) g1
  have r2 := (C89_evaluate m A s2 hs2).2 mainExpr2 (by rw [hx2]; exact i2) g2
  have r3 := (C89_evaluate m A s3 hs3).2 mainExpr3 (by rw [hx3]; exact i3) g3
  have v : mainExpr.value A = .ok (A.add (A.pow four (A.add two (A.mul four six))) (A.mul one three)) := by
    simp [mainExpr, Expr.value, Term.value, Factor.value, Powterm.value, Number.value, h1, h2, h3, h4, h6, bind, Except.bind]
  have v1 : mainExpr1.value A = .ok (A.add (A.add (A.add one two) three) four) := by
    simp [mainExpr1, Expr.value, Term.value, Factor.value, Powterm.value, Number.value, h1, h2, h3, h4, bind, Except.bind]
  have v2 : mainExpr2.value A = .ok (A.add (A.sub (A.add one two) three) four) := by
    simp [mainExpr2, Expr.value, Term.value, Factor.value, Powterm.value, Number.value, h1, h2, h3, h4, bind, Except.bind]
  have v3 : mainExpr3.value A = .ok (A.pow three (A.pow three three)) := by
    simp [mainExpr3, Expr.value, Term.value, Factor.value, Powterm.value, Number.value, h3, bind, Except.bind]
  rw [v, main_printed] at r
  rw [v1] at r1
  rw [v2] at r2
  rw [v3] at r3
  rw [program, r]
  simp only [Option.bind_eq_bind, Option.bind_some, r1, r2, r3]
  rfl

/-! ### Cases -/

/-- the four texts in four arrays -/
def mainMachine : Machine :=
  ⟨fun b => [codes "4 ^ (2 + 4 * 6) + 1 * 3", codes "1 + 2 + 3 + 4", codes "1 + 2 - 3 + 4", codes "3^3^3"].getD b [],
    .gnuRuntime, true, fun _ _ => false⟩

/-- With integers for numbers, the values are 4503599627370499, 10, 4 and 7625597484987. -/
example : program mainMachine ints (fun n => codes (toString n)) ⟨.at 0 0, 23⟩ ⟨.at 1 0, 13⟩ ⟨.at 2 0, 13⟩ ⟨.at 3 0, 5⟩ =
    some ⟨mainText ++ codes "\n" ++ codes (toString (4503599627370499 : Int)) ++ codes "\n" ++
      (codes "\n" ++ codes (toString (10 : Int))) ++ (codes "\n" ++ codes (toString (4 : Int))) ++
      (codes "\n" ++ codes (toString (7625597484987 : Int))), none⟩ :=
  C89_program mainMachine ints _ ⟨.at 0 0, 23⟩ ⟨.at 1 0, 13⟩ ⟨.at 2 0, 13⟩ ⟨.at 3 0, 5⟩ (by decide +kernel) (by decide +kernel)
    (by decide +kernel) (by decide +kernel) (by decide +kernel) (by decide +kernel) (by decide +kernel) (by decide +kernel)
    1 2 3 4 6 (by decide +kernel) (by decide +kernel) (by decide +kernel) (by decide +kernel) (by decide +kernel)

/-- a run that fails to match -/
def noMatch : M Call R → Bool
  | .done _ (.ok ⟨none, _⟩) => true
  | _ => false

/-- `1+` is reported. -/
example : reportText (holding [49, 43]) ints (fun _ => []) (all [49, 43]) = some ⟨codes "Parse failure.\n", none⟩ := by
  refine (C89_report _ ints _ _ (all_valid _)).1 fun h => ?_
  obtain ⟨log, v, s', h⟩ := (C55_accepts _ _ (all_valid [49, 43])).2 h
  have k : noMatch ((sem (ctx (holding [49, 43])) 60 input).parse (all [49, 43])) = true := by decide +kernel
  have h : Parse (ctx (holding [49, 43])) input (all [49, 43]) = .done log (.ok ⟨some v, s'⟩) := h
  generalize hr : (sem (ctx (holding [49, 43])) 60 input).parse (all [49, 43]) = r at k
  match r, hr, k with
  | .done _ (.ok ⟨none, _⟩), hr, _ => rw [Parse_eq_done.2 ⟨60, hr⟩] at h; cases h

end Tok3n.Algebraic
