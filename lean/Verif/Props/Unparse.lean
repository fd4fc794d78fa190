import Verif.Spec.Unparse
import Verif.Props.Algebraic
import Verif.Props.Json
/-
C90: the examples read every expression and every document.
-/

namespace Tok3n.Algebraic

open Json (Ws Digit Digits Fraction)

theorem IsNumber.proper {x : List Nat} {n : Number} (h : IsNumber x n) : n.Proper := by
  cases h with
  | mk hi hf he =>
    refine ⟨hi, ?_, ?_⟩
    · intro f e
      cases hf with
      | none => cases e
      | some d => cases e; exact d
    · intro e k
      cases he with
      | none => cases k
      | some _ hs d => cases k; exact ⟨_, _, hs, d, rfl⟩

theorem Number.Proper.isNumber {n : Number} (h : n.Proper) : IsNumber n.text n := by
  obtain ⟨i, f, e⟩ := n
  obtain ⟨h1, h2, h3⟩ := h
  cases f with
  | none =>
    cases e with
    | none => exact .mk h1 .none .none
    | some e =>
      obtain ⟨sign, x, a, b, k⟩ := h3 e rfl
      cases k
      exact .mk h1 .none (.some (.inr rfl) a b)
  | some f =>
    cases e with
    | none => exact .mk h1 (.some (h2 f rfl)) .none
    | some e =>
      obtain ⟨sign, x, a, b, k⟩ := h3 e rfl
      cases k
      exact .mk h1 (.some (h2 f rfl)) (.some (.inr rfl) a b)

mutual
theorem IsExpr.proper : ∀ {x e}, IsExpr x e → e.Proper
  | _, _, .one _ h => by rw [Expr.Proper]; exact h.proper
  | _, _, .add h _ _ h' => by rw [Expr.Proper]; exact ⟨h.proper, h'.proper⟩
  | _, _, .sub h _ _ h' => by rw [Expr.Proper]; exact ⟨h.proper, h'.proper⟩
theorem IsTerm.proper : ∀ {x e}, IsTerm x e → e.Proper
  | _, _, .one _ h => by rw [Term.Proper]; exact h.proper
  | _, _, .mul h _ _ h' => by rw [Term.Proper]; exact ⟨h.proper, h'.proper⟩
  | _, _, .div h _ _ h' => by rw [Term.Proper]; exact ⟨h.proper, h'.proper⟩
theorem IsFactor.proper : ∀ {x e}, IsFactor x e → e.Proper
  | _, _, .one _ h => by rw [Factor.Proper]; exact h.proper
  | _, _, .pow _ h _ h' => by rw [Factor.Proper]; exact ⟨h.proper, h'.proper⟩
theorem IsPowterm.proper : ∀ {x e}, IsPowterm x e → e.Proper
  | _, _, .paren _ h _ => by rw [Powterm.Proper]; exact h.proper
  | _, _, .neg _ h => by rw [Powterm.Proper]; exact h.proper
  | _, _, .num h => by rw [Powterm.Proper]; exact h.proper
end

theorem noWs : Ws [] := by simp [Ws]

mutual
theorem Expr.Proper.isExpr : ∀ e : Expr, e.Proper → IsExpr e.text e
  | .one t, h => by rw [Expr.Proper] at h; rw [Expr.text]; exact .one (a := []) noWs (Term.Proper.isTerm t h)
  | .add e t, h => by
    rw [Expr.Proper] at h; rw [Expr.text]
    exact .add (a := []) (b := []) (Expr.Proper.isExpr e h.1) noWs noWs (Term.Proper.isTerm t h.2)
  | .sub e t, h => by
    rw [Expr.Proper] at h; rw [Expr.text]
    exact .sub (a := []) (b := []) (Expr.Proper.isExpr e h.1) noWs noWs (Term.Proper.isTerm t h.2)
theorem Term.Proper.isTerm : ∀ e : Term, e.Proper → IsTerm e.text e
  | .one t, h => by rw [Term.Proper] at h; rw [Term.text]; exact .one (a := []) noWs (Factor.Proper.isFactor t h)
  | .mul e t, h => by
    rw [Term.Proper] at h; rw [Term.text]
    exact .mul (a := []) (b := []) (Term.Proper.isTerm e h.1) noWs noWs (Factor.Proper.isFactor t h.2)
  | .div e t, h => by
    rw [Term.Proper] at h; rw [Term.text]
    exact .div (a := []) (b := []) (Term.Proper.isTerm e h.1) noWs noWs (Factor.Proper.isFactor t h.2)
theorem Factor.Proper.isFactor : ∀ e : Factor, e.Proper → IsFactor e.text e
  | .one p, h => by rw [Factor.Proper] at h; rw [Factor.text]; exact .one (a := []) noWs (Powterm.Proper.isPowterm p h)
  | .pow p f, h => by
    rw [Factor.Proper] at h; rw [Factor.text]
    exact .pow (a := []) (b := []) noWs (Powterm.Proper.isPowterm p h.1) noWs (Factor.Proper.isFactor f h.2)
theorem Powterm.Proper.isPowterm : ∀ e : Powterm, e.Proper → IsPowterm e.text e
  | .paren e, h => by
    rw [Powterm.Proper] at h; rw [Powterm.text]
    exact .paren (a := []) (b := []) noWs (Expr.Proper.isExpr e h) noWs
  | .neg e, h => by rw [Powterm.Proper] at h; rw [Powterm.text]; exact .neg (a := []) noWs (Expr.Proper.isExpr e h)
  | .num n, h => by rw [Powterm.Proper] at h; rw [Powterm.text]; exact .num h.isNumber
end

/-- An expression is denoted by a text exactly if its numbers are proper, and then `Expr.text` is such a text. -/
theorem C90_expression (e : Expr) : ((∃ x, IsInput x e) ↔ e.Proper) ∧ (e.Proper → IsInput e.text e) := by
  have h2 : e.Proper → IsInput e.text e := fun h => by
    have := IsInput.mk (a := []) (b := []) noWs (Expr.Proper.isExpr e h) noWs
    rwa [List.nil_append, List.append_nil] at this
  refine ⟨⟨?_, fun h => ⟨_, h2 h⟩⟩, h2⟩
  rintro ⟨x, h⟩
  cases h with
  | mk _ h _ => exact h.proper

/-- What `Expr.text` writes for a greedy expression, `input::parse` reads: all of it, and as that expression. -/
theorem C90_read (m : Machine) (s : Span) (hs : s.Valid m.mem) (e : Expr) (he : e.Proper) (hg : e.Greedy)
    (hx : s.elems m.mem = e.text) : ∃ log v s', Parses (ctx m) input s log v s' ∧ s'.len = 0 ∧ Rep m.mem v e :=
  C55_complete m s hs e (by rw [hx]; exact (C90_expression e).2 he) hg

/-- The results of `input::parse` are the proper greedy expressions: all of them and no others. -/
theorem C90_results (e : Expr) :
    (∃ m s log v s', s.Valid m.mem ∧ Parses (ctx m) input s log v s' ∧ Rep m.mem v e) ↔ e.Proper ∧ e.Greedy := by
  constructor
  · rintro ⟨m, s, log, v, s', hs, h, hr⟩
    obtain ⟨-, e', h1, h2, h3⟩ := C55_sound m s hs log v s' h
    obtain ⟨vs, ds, rfl, hr⟩ := hr
    obtain ⟨vs', ds', k, h3⟩ := h3
    cases k
    cases RepExpr.unique e hr h3
    exact ⟨(C90_expression e).1.1 ⟨_, h1⟩, h2⟩
  · rintro ⟨he, hg⟩
    obtain ⟨log, v, s', h, -, hr⟩ := C90_read (holding e.text) (all e.text) (all_valid _) e he hg (all_elems _)
    exact ⟨_, _, log, v, s', all_valid _, h, hr⟩

/-- Different greedy expressions are written differently. -/
theorem C90_distinct (e e' : Expr) (he : e.Proper) (he' : e'.Proper) (hg : e.Greedy) (hg' : e'.Greedy)
    (h : e.text = e'.text) : e = e' := by
  obtain ⟨log, v, s', h1, -, vs, ds, hv, hr⟩ :=
    C90_read (holding e.text) (all e.text) (all_valid _) e he hg (all_elems _)
  obtain ⟨log', v', s'', h2, -, vs', ds', hv', hr'⟩ :=
    C90_read (holding e.text) (all e.text) (all_valid _) e' he' hg' ((all_elems _).trans h)
  cases (Eq.symm h1).trans h2
  cases hv.symm.trans hv'
  exact RepExpr.unique e hr hr'

/-! ### Cases -/

/-- `-(1*2)^3e4` -/
example : let e : Expr := .one (.one (.one (.neg (.one (.one (.pow (.paren (.one (.mul (.one (.one (digit 49))) (.one (digit 50)))))
    (.one (.num ⟨[51], none, some [52]⟩))))))))
    e.Proper ∧ e.Greedy ∧ e.text = [45, 40, 49, 42, 50, 41, 94, 51, 101, 52] := by
  refine ⟨?_, ?_, rfl⟩
  · simp [Expr.Proper, Term.Proper, Factor.Proper, Powterm.Proper, Number.Proper, Digits, Digit]
  · simp [Expr.Greedy, Term.Greedy, Factor.Greedy, Powterm.Greedy, Term.endsNeg, Factor.endsNeg, Powterm.endsNeg]

/-- `C90_distinct` is about greedy expressions only: `-1+2` is how both `-(1 + 2)` and `(-1) + 2` are written. -/
example : let one : Term := .one (.one (digit 49)); let two : Term := .one (.one (digit 50))
    let e : Expr := .one (.one (.one (.neg (.add (.one one) two))))
    let e' : Expr := .add (.one (.one (.one (.neg (.one one))))) two
    e.text = e'.text ∧ e ≠ e' := by
  refine ⟨rfl, ?_⟩
  intro h
  cases h

end Tok3n.Algebraic

namespace Tok3n.Json

mutual
theorem Value.proper : ∀ {x d}, Value x d → d.Proper
  | _, _, .emptyObj _ => .obj .nil
  | _, _, .obj h => .obj h.proper
  | _, _, .emptyArr _ => .arr .nil
  | _, _, .arr h => .arr h.proper
  | _, _, .str h => .str h
  | _, _, .num hi hf he => by
    refine .num hi ?_ ?_
    · intro f e
      cases hf with
      | none => cases e
      | some d => cases e; exact d
    · intro e k
      cases he with
      | none => cases k
      | some _ hs d => cases k; exact ⟨_, _, hs, d, rfl⟩
  | _, _, .true => .bool
  | _, _, .false => .bool
  | _, _, .null => .null
theorem Element.proper : ∀ {x d}, Element x d → d.Proper
  | _, _, .mk _ h _ => h.proper
theorem Elements.proper : ∀ {x d}, Elements x d → ProperElements d
  | _, _, .one h => .cons h.proper .nil
  | _, _, .more h h' => .cons h.proper h'.proper
theorem Member.proper : ∀ {x m}, Member x m → Characters m.1 ∧ m.2.Proper
  | _, _, .mk _ h _ h' => ⟨h, h'.proper⟩
theorem Members.proper : ∀ {x d}, Members x d → ProperMembers d
  | _, _, .one h => .cons h.proper.1 h.proper.2 .nil
  | _, _, .more h h' => .cons h.proper.1 h.proper.2 h'.proper
end

theorem noWs : Ws [] := by simp [Ws]

theorem Value.element {x : List Nat} {d : Doc} (h : Value x d) : Element x d := by
  have := Element.mk (a := []) (b := []) noWs h noWs
  rwa [List.nil_append, List.append_nil] at this

mutual
theorem Doc.Proper.value : ∀ {d}, Doc.Proper d → Value d.text d
  | _, .str h => by rw [Doc.text]; exact .str h
  | _, .num (fo := none) (eo := none) hi _ _ => .num hi .none .none
  | _, .num (fo := some f) (eo := none) hi hf _ => .num hi (.some (hf f rfl)) .none
  | _, .num (fo := none) (eo := some e) hi _ he => by
    obtain ⟨sign, x, a, b, k⟩ := he e rfl
    cases k
    exact .num hi .none (.some (.inr rfl) a b)
  | _, .num (fo := some f) (eo := some e) hi hf he => by
    obtain ⟨sign, x, a, b, k⟩ := he e rfl
    cases k
    exact .num hi (.some (hf f rfl)) (.some (.inr rfl) a b)
  | _, .obj (ms := []) _ => by rw [Doc.text, membersText]; exact .emptyObj (a := []) noWs
  | _, .obj (ms := _ :: _) h => by rw [Doc.text]; exact .obj (h.members (by simp))
  | _, .arr (es := []) _ => by rw [Doc.text, elementsText]; exact .emptyArr (a := []) noWs
  | _, .arr (es := _ :: _) h => by rw [Doc.text]; exact .arr (h.elements (by simp))
  | _, .bool (b := true) => by rw [Doc.text]; exact .true
  | _, .bool (b := false) => by rw [Doc.text]; exact .false
  | _, .null => by rw [Doc.text]; exact .null
theorem ProperMembers.members : ∀ {ms}, ProperMembers ms → ms ≠ [] → Members (membersText ms) ms
  | _, .nil, h => absurd rfl h
  | _, .cons (ms := []) hr hd _, _ => by
    rw [membersText, memberText]
    exact .one (.mk (a := []) (b := []) noWs hr noWs hd.value.element)
  | _, .cons (ms := _ :: _) hr hd hm, _ => by
    rw [membersText, memberText]
    · exact .more (.mk (a := []) (b := []) noWs hr noWs hd.value.element) (hm.members (by simp))
    · simp
theorem ProperElements.elements : ∀ {es}, ProperElements es → es ≠ [] → Elements (elementsText es) es
  | _, .nil, h => absurd rfl h
  | _, .cons (es := []) hd _, _ => by rw [elementsText]; exact .one hd.value.element
  | _, .cons (es := _ :: _) hd hm, _ => by
    rw [elementsText]
    · exact .more hd.value.element (hm.elements (by simp))
    · simp
end

/-- A document is denoted by a text exactly if it is proper, and then `Doc.text` is such a text. -/
theorem C90_document (d : Doc) : ((∃ x, Element x d) ↔ d.Proper) ∧ (d.Proper → Element d.text d) :=
  ⟨⟨fun ⟨_, h⟩ => h.proper, fun h => ⟨_, h.value.element⟩⟩, fun h => h.value.element⟩

/-- What `Doc.text` writes for a proper document, `JsonValue::parse` reads: all of it, and as that document. -/
theorem C90_read (m : Machine) (s : Span) (hs : s.Valid m.mem) (d : Doc) (hd : d.Proper) (hx : s.elems m.mem = d.text) :
    ∃ log v s', Parses (ctx m) jsonValue s log v s' ∧ s'.len = 0 ∧ Rep m.mem v d := by
  have r := Reads.of_text (y := []) hs (List.append_nil (s.elems m.mem)).symm
  have hl : (s.drop (s.elems m.mem).length).len = 0 := by
    have := r.size
    rw [hs.elems_length] at this ⊢
    omega
  have e : (s.drop (s.elems m.mem).length).elems m.mem = [] :=
    List.eq_nil_of_length_eq_zero (by rw [(r.valid hs).elems_length, hl])
  obtain ⟨log, v, h, hr⟩ := C54_complete m s hs _ d _ (by rw [hx]; exact hd.value.element) r (by rw [e]; simp [Stops])
  exact ⟨log, v, _, h, hl, hr⟩

/-- The results of `JsonValue::parse` are the proper documents: all of them and no others. -/
theorem C90_results (d : Doc) :
    (∃ m s log v s', s.Valid m.mem ∧ Parses (ctx m) jsonValue s log v s' ∧ Rep m.mem v d) ↔ d.Proper := by
  constructor
  · rintro ⟨m, s, log, v, s', hs, h, hr⟩
    obtain ⟨x, d', -, h1, h2, -⟩ := C54_sound m s hs log v s' h
    cases hr.unique h2
    exact h1.proper
  · intro hd
    let m : Machine := ⟨fun _ => d.text, .gnuRuntime, true, fun _ _ => false⟩
    have hs : (⟨.at 0 0, d.text.length⟩ : Span).Valid m.mem := by show 0 + d.text.length ≤ d.text.length; omega
    obtain ⟨log, v, s', h, -, hr⟩ := C90_read m ⟨.at 0 0, d.text.length⟩ hs d hd (by simp [m, Span.elems])
    exact ⟨m, _, log, v, s', hs, h, hr⟩

/-- Different documents are written differently. -/
theorem C90_distinct (d d' : Doc) (hd : d.Proper) (hd' : d'.Proper) (h : d.text = d'.text) : d = d' := by
  let m : Machine := ⟨fun _ => d.text, .gnuRuntime, true, fun _ _ => false⟩
  have hs : (⟨.at 0 0, d.text.length⟩ : Span).Valid m.mem := by show 0 + d.text.length ≤ d.text.length; omega
  have hx : (⟨.at 0 0, d.text.length⟩ : Span).elems m.mem = d.text := by simp [m, Span.elems]
  obtain ⟨log, v, s', h1, -, hr⟩ := C90_read m _ hs d hd hx
  obtain ⟨log', v', s'', h2, -, hr'⟩ := C90_read m _ hs d' hd' (hx.trans h)
  cases (Eq.symm h1).trans h2
  exact hr.unique hr'

/-! ### Cases -/

/-- `{"a":[1,true],"":null}` -/
example : let d : Doc := .obj [([97], .arr [.num [49] none none, .bool true]), ([], .null)]
    d.Proper ∧ d.text = lit "{\"a\":[1,true],\"\":null}" := by
  refine ⟨.obj (.cons (.cons (x := [97]) (.plain (by simp) (by simp)) .nil) (.arr (.cons (.num (.digit (by simp [Digit])) (by simp)
    (by simp)) (.cons .bool .nil))) (.cons .nil .null .nil)), ?_⟩
  simp only [Doc.text, membersText, memberText, elementsText]
  decide +kernel

end Tok3n.Json
