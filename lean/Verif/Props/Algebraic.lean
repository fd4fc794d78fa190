import Verif.Proof.AlgebraicUse
import Verif.Props.Terminate
import Verif.Props.Exceptions
/-
C47, C55, C56: the algebraic example.  It returns on every input, accepts its grammar, and computes the value of the
expression read.
-/

namespace Tok3n.Algebraic

open Json (Ws Digit Digits Fraction Ends)

/-! ### It returns -/

theorem algebraic_productive {m : Machine} {p : Parser Nat} (hp : p ∈ [number, powterm, factor, term, expr, input]) :
    productive (ctx m) [0, 1, 2, 3, 4, 5] (fun _ => false) id p = true := by
  have e0 : ((ctx m).custom 0).body = numberBody := rfl
  have e1 : ((ctx m).custom 1).body = powtermBody := rfl
  have e2 : ((ctx m).custom 2).body = factorBody := rfl
  have e3 : ((ctx m).custom 3).body = termBody := rfl
  have e4 : ((ctx m).custom 4).body = exprBody := rfl
  have e5 : ((ctx m).custom 5).body = inputBody := rfl
  simp only [List.mem_cons, List.not_mem_nil, or_false] at hp
  rcases hp with rfl | rfl | rfl | rfl | rfl | rfl <;>
    simp only [productive, List.all_cons, List.all_nil, e0, e1, e2, e3, e4, e5, numberBody_eq, powtermBody_eq, factorBody_eq,
      termBody_eq, exprBody_eq, inputBody_eq] <;> rfl

/-- what is joined contains neither `map` nor a custom parser -/
def joinB : Parser Nat → Bool
  | .join q => everyNode noMapB q
  | _ => true

theorem algebraic_joinSafe {m : Machine} {p : Parser Nat} (hp : p ∈ [number, powterm, factor, term, expr, input]) :
    JoinSafe (ctx m) p := by
  intro q hq
  have hb : ∀ k, everyNode joinB ((ctx m).custom k).body = true := by
    intro k
    match k with
    | 0 => show everyNode joinB numberBody = true; rw [numberBody_eq]; rfl
    | 1 => show everyNode joinB powtermBody = true; rw [powtermBody_eq]; rfl
    | 2 => show everyNode joinB factorBody = true; rw [factorBody_eq]; rfl
    | 3 => show everyNode joinB termBody = true; rw [termBody_eq]; rfl
    | 4 => show everyNode joinB exprBody = true; rw [exprBody_eq]; rfl
    | 5 => show everyNode joinB inputBody = true; rw [inputBody_eq]; rfl
    | _ + 6 => rfl
  have hn : everyNode joinB p = true := by
    simp only [List.mem_cons, List.not_mem_nil, or_false] at hp
    rcases hp with rfl | rfl | rfl | rfl | rfl | rfl <;> rfl
  exact spanLocal_noMap ctx_local (reach_ok hb hn hq)

theorem algebraic_compiles {m : Machine} {p : Parser Nat} (hp : p ∈ [number, powterm, factor, term, expr, input]) :
    Compiles (ctx m) p := by
  have e0 : ((ctx m).custom 0).body = numberBody := rfl
  have e1 : ((ctx m).custom 1).body = powtermBody := rfl
  have e2 : ((ctx m).custom 2).body = factorBody := rfl
  have e3 : ((ctx m).custom 3).body = termBody := rfl
  have e4 : ((ctx m).custom 4).body = exprBody := rfl
  have e5 : ((ctx m).custom 5).body = inputBody := rfl
  simp only [List.mem_cons, List.not_mem_nil, or_false] at hp
  rcases hp with rfl | rfl | rfl | rfl | rfl | rfl <;> refine ⟨ctx_ok, rfl, rfl, ?_⟩ <;>
    simp only [number, powterm, factor, term, expr, input, parseOK, e0, e1, e2, e3, e4, e5, numberBody_eq, powtermBody_eq,
      factorBody_eq, termBody_eq, exprBody_eq, inputBody_eq] <;> rfl

/-- On every readable input the parsers of the example return: they succeed, leaving the rest of the input, or fail,
leaving all of it.  They run into no undefined behaviour and throw nothing. -/
theorem C47_returns (m : Machine) (p : Parser Nat) (hp : p ∈ [number, powterm, factor, term, expr, input])
    (s : Span) (hs : s.Valid m.mem) :
    (∃ log v x s', Parses (ctx m) p s log v s' ∧ Reads m.mem s x s') ∨ (∃ log, ParseFails (ctx m) p s log s) := by
  have h1 := (C39_checked (ctx m) p _ _ _ (algebraic_productive hp) s hs).1
  have h2 := C03_memory_safe (ctx m) p s (algebraic_compiles hp) ctx_typed (algebraic_joinSafe hp) hs
  have h3 := fun log e => C49_no_throw (ctx m) p s log e ctx_throws
  have h4 := fun log s' => (C01_failure_restores_input (ctx m) p s s' log).1
  unfold ParseLoops at h1
  unfold ParseErr at h2
  cases hr : Parse (ctx m) p s with
  | diverge => exact absurd hr h1
  | done log res =>
    cases res with
    | err e =>
      obtain ⟨x, rfl⟩ := h2 log e hr
      exact absurd hr (h3 _ _)
    | ok r =>
      obtain ⟨rv, s'⟩ := r
      cases rv with
      | some v =>
        obtain ⟨x, hx⟩ := Reads.of_suffix hs (Ok.suffix (C := ctx m) (p := p) ⟨log, hr⟩)
        exact .inl ⟨log, v, x, s', hr, hx⟩
      | none =>
        obtain rfl := h4 log s' hr
        exact .inr ⟨log, hr⟩

/-! ### It accepts the grammar -/

theorem follow_ws {b : List Nat} (hb : Ws b) : Follow ops b := by
  refine ⟨fun c hc => ?_, fun a c z e _ hc => (mark_op hc).1 fun d hd => ?_⟩
  · have := hb c (List.mem_of_mem_head? hc)
    simp only [Digit]; omega
  · simp at hd; subst hd; exact hb d (by simp [e])

/-- What `input::parse` accepts is all of the input and in the grammar; the value represents the expression that the
text denotes if a minus sign takes as much as it can. -/
theorem C55_sound (m : Machine) (s : Span) (hs : s.Valid m.mem) (log : List Call) (v : Val) (s' : Span)
    (h : Parses (ctx m) input s log v s') :
    Reads m.mem s (s.elems m.mem) s' ∧ ∃ e, IsInput (s.elems m.mem) e ∧ e.Greedy ∧ Rep m.mem v e := by
  obtain ⟨s1, s2, h1, h2, h3, h4⟩ := input_split.1 ⟨log, h⟩
  obtain ⟨a, r1, ha, -⟩ := (see_ws hs).1 h1
  have v1 := r1.valid hs
  obtain ⟨vs, ds, h5, rfl⟩ := expr_split.1 h2
  obtain ⟨x, e, r2, hx, hr, hg, -⟩ := expr_sound v1 vs ds s2 h5
  obtain ⟨b, r3, hb, -⟩ := (see_ws (r2.valid v1)).1 h3
  have r := r1.trans (r2.trans r3)
  have e0 : s'.elems m.mem = [] := List.eq_nil_of_length_eq_zero (by rw [(r.valid hs).elems_length, h4])
  have et : s.elems m.mem = a ++ (x ++ b) := by rw [r.text, e0, List.append_nil]
  rw [et]
  exact ⟨r, e, .mk ha hx hb, hg, vs, ds, rfl, hr⟩

/-- Every text of the grammar is accepted. -/
theorem C55_complete (m : Machine) (s : Span) (hs : s.Valid m.mem) (e : Expr) (h : IsInput (s.elems m.mem) e)
    (hg : e.Greedy) : ∃ log v s', Parses (ctx m) input s log v s' ∧ s'.len = 0 ∧ Rep m.mem v e := by
  generalize hx : s.elems m.mem = x at h
  cases h with
  | @mk a x e b ha he hb =>
    rw [← List.append_assoc] at hx
    have r1 := Reads.of_text hs hx
    have v1 := r1.valid hs
    have t1 : (s.drop (a ++ x).length).elems m.mem = b := by
      have := r1.text
      rw [hx, List.append_cancel_left_eq] at this
      exact this.symm
    obtain ⟨s0, vs, ds, h0, h1, hr⟩ := expr_arg_complete (expr_complete e) ha he hg hs r1 (by rw [t1]; exact follow_ws hb)
    have r2 := Reads.of_text (y := []) v1 (t1.trans (List.append_nil b).symm)
    have hl := r2.size
    rw [← t1, v1.elems_length] at hl r2
    have e0 : ((s.drop (a ++ x).length).drop (s.drop (a ++ x).length).len).elems m.mem = [] :=
      List.eq_nil_of_length_eq_zero (by rw [(r2.valid v1).elems_length]; omega)
    obtain ⟨log, h⟩ := input_split.2 ⟨s0, _, h0, h1, (see_ws v1).2 ⟨_, r2, by rw [t1]; exact hb, by rw [e0]; simp⟩, by omega⟩
    exact ⟨log, _, _, h, by omega, vs, ds, rfl, hr⟩

/-- Every text of the grammar denotes an expression in which a minus sign takes as much as it can. -/
theorem C55_greedy_exists (x : List Nat) (e : Expr) (h : IsInput x e) : ∃ e', IsInput x e' ∧ e'.Greedy := by
  cases h with
  | mk ha he hb =>
    obtain ⟨e', h1, h2⟩ := he.greedy
    exact ⟨e', .mk ha h1 hb, h2⟩

/-- a machine with this text in memory -/
def holding (x : List Nat) : Machine := ⟨fun _ => x, .gnuRuntime, true, fun _ _ => false⟩
def all (x : List Nat) : Span := ⟨.at 0 0, x.length⟩
theorem all_valid (x : List Nat) : (all x).Valid (holding x).mem := by show 0 + x.length ≤ x.length; omega
theorem all_elems (x : List Nat) : (all x).elems (holding x).mem = x := by simp [all, holding, Span.elems]

/-- There is only one such expression. -/
theorem C55_greedy_unique (x : List Nat) (e e' : Expr) (h : IsInput x e) (hg : e.Greedy) (h' : IsInput x e')
    (hg' : e'.Greedy) : e = e' := by
  obtain ⟨_, v, s1, h1, -, vs, ds, rfl, hr⟩ := C55_complete (holding x) (all x) (all_valid x) e (by rw [all_elems]; exact h) hg
  obtain ⟨_, v', s2, h2, -, vs', ds', rfl, hr'⟩ :=
    C55_complete (holding x) (all x) (all_valid x) e' (by rw [all_elems]; exact h') hg'
  obtain ⟨hv, -⟩ := Ok.det ⟨_, h1⟩ ⟨_, h2⟩
  injection hv with e1 e2
  injection e1 with e1
  injection e2 with e2
  subst e1 e2
  exact RepExpr.unique e hr hr'

/-- `input::parse` accepts exactly the texts of the grammar. -/
theorem C55_accepts (m : Machine) (s : Span) (hs : s.Valid m.mem) :
    (∃ log v s', Parses (ctx m) input s log v s') ↔ ∃ e, IsInput (s.elems m.mem) e := by
  constructor
  · rintro ⟨log, v, s', h⟩
    obtain ⟨-, e, h1, -⟩ := C55_sound m s hs log v s' h
    exact ⟨e, h1⟩
  · rintro ⟨e, h⟩
    obtain ⟨e', h1, h2⟩ := C55_greedy_exists _ e h
    obtain ⟨log, v, s', h3, -⟩ := C55_complete m s hs e' h1 h2
    exact ⟨log, v, s', h3⟩

/-! ### What it produces -/

mutual
/-- Every `expr` in the value has one operand more than operators and every `term` too; every `factor` has an
operand. -/
inductive ShapedExpr : Val → Prop where
  | mk {vs ds} : vs.length = ds.length + 1 → (∀ v ∈ vs, ShapedTerm v) → ShapedExpr (.pair (.vec vs) (.vec ds))
inductive ShapedTerm : Val → Prop where
  | mk {vs ds} : vs.length = ds.length + 1 → (∀ v ∈ vs, ShapedFactor v) → ShapedTerm (.pair (.vec vs) (.vec ds))
inductive ShapedFactor : Val → Prop where
  | mk {vs} : vs ≠ [] → (∀ v ∈ vs, ShapedPowterm v) → ShapedFactor (.vec vs)
inductive ShapedPowterm : Val → Prop where
  | paren {v} : ShapedExpr v → ShapedPowterm (.user 2 0 [.var 0 (.user 3 0 [v])])
  | neg {v} : ShapedExpr v → ShapedPowterm (.user 2 0 [.var 1 (.user 4 0 [v])])
  | num {i f e} : ShapedPowterm (.user 2 0 [.var 2 (.user 0 0 [i, f, e])])
end

section
variable {mem : Mem Nat}
mutual
theorem shaped_expr : (e : Expr) → {vs ds : List Val} → RepExpr mem vs ds e → ∀ v ∈ vs, ShapedTerm v
  | .one t, _, _, h => by
    cases h with
    | one h =>
      cases h with
      | mk h => intro v hv; simp at hv; subst hv; exact .mk (RepFactors.length t h) (shaped_factors t h)
  | .add e t, _, _, h => by
    cases h with
    | add h _ h' =>
      cases h' with
      | mk h' =>
        intro v hv
        rcases List.mem_append.1 hv with hv | hv
        · exact shaped_expr e h v hv
        · simp at hv; subst hv; exact .mk (RepFactors.length t h') (shaped_factors t h')
  | .sub e t, _, _, h => by
    cases h with
    | sub h _ h' =>
      cases h' with
      | mk h' =>
        intro v hv
        rcases List.mem_append.1 hv with hv | hv
        · exact shaped_expr e h v hv
        · simp at hv; subst hv; exact .mk (RepFactors.length t h') (shaped_factors t h')
theorem shaped_factors : (t : Term) → {vs ds : List Val} → RepFactors mem vs ds t → ∀ v ∈ vs, ShapedFactor v
  | .one f, _, _, h => by
    cases h with
    | one h => cases h with | mk h => intro v hv; simp at hv; subst hv; exact .mk h.pos (shaped_powterms f h)
  | .mul t f, _, _, h => by
    cases h with
    | mul h _ h' =>
      cases h' with
      | mk h' =>
        intro v hv
        rcases List.mem_append.1 hv with hv | hv
        · exact shaped_factors t h v hv
        · simp at hv; subst hv; exact .mk h'.pos (shaped_powterms f h')
  | .div t f, _, _, h => by
    cases h with
    | div h _ h' =>
      cases h' with
      | mk h' =>
        intro v hv
        rcases List.mem_append.1 hv with hv | hv
        · exact shaped_factors t h v hv
        · simp at hv; subst hv; exact .mk h'.pos (shaped_powterms f h')
theorem shaped_powterms : (f : Factor) → {vs : List Val} → RepPowterms mem vs f → ∀ v ∈ vs, ShapedPowterm v
  | .one p, _, h => by
    cases h with
    | one h => intro v hv; simp at hv; subst hv; exact shaped_powterm p h
  | .pow p f, _, h => by
    cases h with
    | pow h h' =>
      intro v hv
      rcases List.mem_cons.1 hv with rfl | hv
      · exact shaped_powterm p h
      · exact shaped_powterms f h' v hv
theorem shaped_powterm : (p : Powterm) → {v : Val} → RepPowterm mem v p → ShapedPowterm v
  | .paren e, _, h => by cases h with | paren h => exact .paren (.mk (RepExpr.length e h) (shaped_expr e h))
  | .neg e, _, h => by cases h with | neg h => exact .neg (.mk (RepExpr.length e h) (shaped_expr e h))
  | .num n, _, h => by cases h with | num h => cases h with | mk => exact .num
end
end

/-- Every `expr` and `term` produced has exactly one operand more than operators, at any depth, and no `factor` is
empty. -/
theorem C47_shape (m : Machine) (s : Span) (hs : s.Valid m.mem) (log : List Call) (v : Val) (s' : Span) :
    (Parses (ctx m) input s log v s' → ShapedExpr v) ∧ (Parses (ctx m) expr s log v s' → ShapedExpr v) := by
  constructor
  · intro h
    obtain ⟨-, e, -, -, vs, ds, rfl, hr⟩ := C55_sound m s hs log v s' h
    exact .mk (RepExpr.length e hr) (shaped_expr e hr)
  · intro h
    obtain ⟨vs, ds, h5, rfl⟩ := expr_split.1 ⟨log, h⟩
    obtain ⟨x, e, -, -, hr, -⟩ := expr_sound hs vs ds s' h5
    exact .mk (RepExpr.length e hr) (shaped_expr e hr)

/-- A successful `input::parse` consumes everything. -/
theorem C47_complete (m : Machine) (s : Span) (hs : s.Valid m.mem) (log : List Call) (v : Val) (s' : Span)
    (h : Parses (ctx m) input s log v s') : s'.len = 0 := by
  obtain ⟨s1, s2, h1, h2, h3, h4⟩ := input_split.1 ⟨log, h⟩
  exact h4

/-! ### Evaluating it -/

theorem IsInput.expr {x : List Nat} {e : Expr} (h : IsInput x e) : ∃ y, IsExpr y e := by
  cases h with | mk _ h _ => exact ⟨_, h⟩

/-- `evaluate` on the result of a successful `input::parse` computes the value of the expression that was read, or
throws `std::invalid_argument` for a number that is out of range, or terminates for an exponent that is. -/
theorem C56_evaluate (m : Machine) (s : Span) (hs : s.Valid m.mem) (log : List Call) (v : Val) (s' : Span)
    (h : Parses (ctx m) input s log v s') :
    ∃ e, IsInput (s.elems m.mem) e ∧ e.Greedy ∧ ∀ (R : Type) (A : Arith R), evaluateExpr m.mem A v =
      match e.value A with
      | .ok r => .ok r
      | .error .number => .error .invalidArgument
      | .error .exponent => .error .terminate := by
  obtain ⟨-, e, h1, h2, h3⟩ := C55_sound m s hs log v s' h
  refine ⟨e, h1, h2, fun R A => ?_⟩
  obtain ⟨x, hx⟩ := h1.expr
  rw [evaluate_rep hx h3]
  rcases e.value A with (_ | _) | _ <;> rfl

/-- `evaluate` never runs past the end of a vector or of a `std::string_view`. -/
theorem C47_evaluate (m : Machine) (s : Span) (hs : s.Valid m.mem) (log : List Call) (v : Val) (s' : Span)
    (h : Parses (ctx m) input s log v s') (R : Type) (A : Arith R) : evaluateExpr m.mem A v ≠ .error .ub := by
  obtain ⟨e, -, -, h1⟩ := C56_evaluate m s hs log v s' h
  rw [h1]
  rcases e.value A with (_ | _) | _ <;> simp

/-- `print` on the result of a successful `input::parse` prints it, never running past the end of a vector, as long
as what is to be printed is not nested too deep: for `print(result, 0)` that is 204 levels of parentheses and minus
signs. -/
theorem C47_print (m : Machine) (s : Span) (hs : s.Valid m.mem) (log : List Call) (v : Val) (s' : Span)
    (h : Parses (ctx m) input s log v s') :
    ∃ e, IsInput (s.elems m.mem) e ∧ e.Greedy ∧ ∀ tabs,
      (tabs + 4 + 5 * e.depth ≤ 1025 → ∃ out, printExpr m.mem v tabs = .ok out) ∧
      (¬ tabs + 4 + 5 * e.depth ≤ 1025 → printExpr m.mem v tabs = .error .ub) := by
  obtain ⟨-, e, h1, h2, h3⟩ := C55_sound m s hs log v s' h
  exact ⟨e, h1, h2, print_rep h3⟩

/-! ### Cases -/

/-- arithmetic on integers -/
def ints : Arith Int where
  add := (· + ·)
  sub := (· - ·)
  mul := (· * ·)
  div := (· / ·)
  pow x y := x ^ y.toNat
  neg x := -x
  ofInt x := x
  real x := some (decimal x)

theorem computes {x : List Nat} {e : Expr} (h : IsInput x e) (hg : e.Greedy) {R : Type} (A : Arith R) :
    ∃ log v s', Parses (ctx (holding x)) input (all x) log v s' ∧ evaluateExpr (holding x).mem A v = reported (e.value A) := by
  obtain ⟨log, v, s', h', -, hr⟩ := C55_complete _ _ (all_valid x) e (by rw [all_elems]; exact h) hg
  obtain ⟨y, hy⟩ := h.expr
  exact ⟨log, v, s', h', evaluate_rep hy hr⟩

theorem digit_number (d : Nat) (h : Digit d) : IsPowterm [d] (.num ⟨[d], none, none⟩) :=
  .num (.mk (i := [d]) (f := []) (e := []) ⟨by simp, by simpa using h⟩ .none .none)

/-- `4 ^ (2 + 1) * 3` -/
def case1 : List Nat := [52, 32, 94, 32, 40, 50, 32, 43, 32, 49, 41, 32, 42, 32, 51]
abbrev digit (d : Nat) : Powterm := .num ⟨[d], none, none⟩
def case1Expr : Expr := .one (.mul (.one (.pow (digit 52) (.one (.paren (.add (.one (.one (.one (digit 50))))
  (.one (.one (digit 49)))))))) (.one (digit 51)))

theorem case1_input : IsInput case1 case1Expr := by
  have w : Ws [32] := by simp [Ws]
  have n : Ws [] := by simp [Ws]
  have d : ∀ c, Digit c → IsFactor [c] (.one (digit c)) := fun c h => .one (a := []) n (digit_number c h)
  have p : IsPowterm [40, 50, 32, 43, 32, 49, 41] _ :=
    .paren (a := []) (x := [50, 32, 43, 32, 49]) (b := []) n
      (.add (x := [50]) (a := [32]) (b := [32]) (y := [49]) (.one (a := []) n (.one (a := []) n (d 50 (by simp [Digit])))) w w
        (.one (a := []) n (d 49 (by simp [Digit])))) n
  exact .mk (a := []) (b := []) n (.one (a := []) n
    (.mul (x := [52, 32, 94, 32, 40, 50, 32, 43, 32, 49, 41]) (a := [32]) (b := [32]) (y := [51])
      (.one (a := []) n (.pow (a := []) (x := [52]) (b := [32]) (y := [32, 40, 50, 32, 43, 32, 49, 41]) n
        (digit_number 52 (by simp [Digit])) w (.one (a := [32]) w p))) w w (d 51 (by simp [Digit])))) n

theorem case1_greedy : case1Expr.Greedy := by
  simp [case1Expr, Expr.Greedy, Term.Greedy, Factor.Greedy, Powterm.Greedy, Expr.endsNeg, Term.endsNeg, Factor.endsNeg,
    Powterm.endsNeg]

/-- It is accepted, and its value is 4³ · 3. -/
example : ∃ log v s', Parses (ctx (holding case1)) input (all case1) log v s' ∧
    evaluateExpr (holding case1).mem ints v = .ok 192 := computes case1_input case1_greedy ints

/-- `1+` is not in the grammar: the parser fails on it. -/
example : ∃ log, ParseFails (ctx (holding [49, 43])) input (all [49, 43]) log (all [49, 43]) :=
  ⟨_, Ex.parses _ 40 rfl⟩

theorem digit_term (c : Nat) (h : Digit c) : IsTerm [c] (.one (.one (digit c))) :=
  .one (a := []) (by simp [Ws]) (.one (a := []) (by simp [Ws]) (digit_number c h))

/-- `-1+2` read as -(1+2) -/
def minusExpr : Expr := .one (.one (.one (.neg (.add (.one (.one (.one (digit 49)))) (.one (.one (digit 50)))))))
theorem minus_input : IsInput [45, 49, 43, 50] minusExpr := by
  have n : Ws [] := by simp [Ws]
  exact .mk (a := []) (b := []) n (.one (a := []) n (.one (a := []) n (.one (a := []) n (.neg (a := []) n
    (.add (x := [49]) (a := []) (b := []) (y := [50]) (.one (a := []) n (digit_term 49 (by simp [Digit]))) n n
      (digit_term 50 (by simp [Digit]))))))) n

/-- A minus sign negates all of what follows: `-1+2` is -(1+2). -/
theorem C56_minus : ∃ log v s', Parses (ctx (holding [45, 49, 43, 50])) input (all [45, 49, 43, 50]) log v s' ∧
    evaluateExpr (holding [45, 49, 43, 50]).mem ints v = .ok (-3) :=
  computes minus_input (by simp [minusExpr, Expr.Greedy, Term.Greedy, Factor.Greedy, Powterm.Greedy, Expr.endsNeg,
    Term.endsNeg, Factor.endsNeg, Powterm.endsNeg]) ints

/-- a number alone -/
theorem number_input {x : List Nat} {n : Number} (h : IsNumber x n) : IsInput x (.one (.one (.one (.num n)))) := by
  have w : Ws [] := by simp [Ws]
  have := IsInput.mk (a := []) (b := []) w (.one (a := []) w (.one (a := []) w (.one (a := []) w (.num h)))) w
  simpa using this

/-- `2e3` is 2³. -/
theorem C56_power : ∃ log v s', Parses (ctx (holding [50, 101, 51])) input (all [50, 101, 51]) log v s' ∧
    evaluateExpr (holding [50, 101, 51]).mem ints v = .ok 8 :=
  computes (number_input (.mk (i := [50]) (f := []) (e := [101, 51]) ⟨by simp, by simp [Digit]⟩ .none
    (.some (sign := []) (by simp) (by simp) ⟨by simp, by simp [Digit]⟩)))
    (by simp [Expr.Greedy, Term.Greedy, Factor.Greedy, Powterm.Greedy]) ints

/-- An exponent that is no `int`, as in `1e9999999999`, terminates the program. -/
theorem C56_exponent : ∃ log v s', Parses (ctx (holding (49 :: 101 :: List.replicate 10 57))) input
      (all (49 :: 101 :: List.replicate 10 57)) log v s' ∧
    evaluateExpr (holding (49 :: 101 :: List.replicate 10 57)).mem ints v = .error .terminate :=
  computes (number_input (.mk (i := [49]) (f := []) (e := 101 :: List.replicate 10 57) ⟨by simp, by simp [Digit]⟩ .none
    (.some (sign := []) (by simp) (by simp) ⟨by simp, by simp [Digit]⟩)))
    (by simp [Expr.Greedy, Term.Greedy, Factor.Greedy, Powterm.Greedy]) ints

/-! Nested parentheses: `print` runs past the end of its tabs. -/

/-- `((…(1)…))` -/
def nested : Nat → List Nat
  | 0 => [49]
  | n + 1 => 40 :: (nested n ++ [41])
def nestedExpr : Nat → Expr
  | 0 => .one (.one (.one (digit 49)))
  | n + 1 => .one (.one (.one (.paren (nestedExpr n))))

theorem nested_expr (n : Nat) : IsExpr (nested n) (nestedExpr n) ∧ (nestedExpr n).Greedy ∧ (nestedExpr n).depth = n := by
  have w : Ws [] := by simp [Ws]
  induction n with
  | zero =>
    refine ⟨.one (a := []) w (digit_term 49 (by simp [Digit])), ?_, ?_⟩
    · simp [nestedExpr, Expr.Greedy, Term.Greedy, Factor.Greedy, Powterm.Greedy]
    · simp [nestedExpr, Expr.depth, Term.depth, Factor.depth, Powterm.depth]
  | succ n ih =>
    obtain ⟨h1, h2, h3⟩ := ih
    refine ⟨.one (a := []) w (.one (a := []) w (.one (a := []) w (.paren (a := []) (b := []) w h1 w))), ?_, ?_⟩
    · simpa [nestedExpr, Expr.Greedy, Term.Greedy, Factor.Greedy, Powterm.Greedy] using h2
    · simpa [nestedExpr, Expr.depth, Term.depth, Factor.depth, Powterm.depth] using h3

/-- A number in 205 or more pairs of parentheses is accepted, but printing it is undefined. -/
theorem C47_print_deep (n : Nat) (hn : 205 ≤ n) : ∃ log v s',
    Parses (ctx (holding (nested n))) input (all (nested n)) log v s' ∧
    printExpr (holding (nested n)).mem v 0 = .error .ub := by
  have w : Ws [] := by simp [Ws]
  obtain ⟨h1, h2, h3⟩ := nested_expr n
  have h : IsInput (nested n) (nestedExpr n) := by
    have := IsInput.mk (a := []) (b := []) w h1 w
    rwa [List.nil_append, List.append_nil] at this
  obtain ⟨log, v, s', h4, -, hr⟩ := C55_complete _ _ (all_valid _) _ (by rw [all_elems]; exact h) h2
  exact ⟨log, v, s', h4, (print_rep hr 0).2 (by rw [h3]; omega)⟩

/-- The grammar is ambiguous: `-1+2` is also (-1)+2. -/
theorem C55_ambiguous : ∃ x e e', IsInput x e ∧ IsInput x e' ∧ e ≠ e' := by
  have n : Ws [] := by simp [Ws]
  refine ⟨[45, 49, 43, 50], minusExpr, .add (.one (.one (.one (.neg (.one (.one (.one (digit 49)))))))) (.one (.one (digit 50))),
    minus_input, ?_, by simp [minusExpr]⟩
  exact .mk (a := []) (b := []) n (.add (x := [45, 49]) (a := []) (b := []) (y := [50]) (.one (a := []) n (.one (a := []) n
    (.one (a := []) n (.neg (a := []) n (.one (a := []) n (digit_term 49 (by simp [Digit]))))))) n n
    (digit_term 50 (by simp [Digit]))) n

end Tok3n.Algebraic
