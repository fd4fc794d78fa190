import Verif.Proof.Ranked
import Verif.Proof.StackReturns
import Verif.Props.Json
import Verif.Props.Algebraic
/-
C64: how deep the calls of a parse nest.
-/

namespace Tok3n

variable {α β : Type}

/-- A grammar that does not recurse: its calls nest no deeper than it is high, whatever the input. -/
theorem C64_no_recursion (C : Ctx α β) (p : Parser α) (d : Nat) (h : Fits C d p) (s : Span) : NestsAtMost C d p s := by
  intro d' hd o
  rw [h.budget d' hd o]
  exact ⟨rfl, rfl⟩

theorem fits_height {C : Ctx α β} (p : Parser α) (hc : p.customs (fun _ => false) = true) (d : Nat) (hd : p.height ≤ d) :
    Fits C d p := by
  induction d generalizing p with
  | zero => have := height_pos p; omega
  | succ d ih =>
    refine .intro (fun q hq => ih q (customs_part hc hq) ?_) fun k hk => ?_
    · have := height_part hq; omega
    · subst hk; simp [Parser.customs] at hc

/-- An expression without custom parsers: at most its height. -/
theorem C64_expression (C : Ctx α β) (p : Parser α) (hc : p.customs (fun _ => false) = true) (s : Span) :
    NestsAtMost C p.height p s := C64_no_recursion C p _ (fits_height p hc _ (Nat.le_refl _)) s

/-- A recursive grammar whose custom parsers can be ranked: at most linearly in the length of the input. -/
theorem C64_ranked (C : Ctx α β) (p : Parser α) (rank : Nat → Nat) (R h : Nat) (hr : Ranked C rank R h p) (s : Span)
    (hs : s.Valid C.mem) : NestsAtMost C ((s.len + 1) * ((R + 1) * (h + 1))) p s := ranked_nests hr s hs

/-- That is every grammar in which no custom parser can reach itself before something is consumed. -/
theorem C64_linear (C : Ctx α β) (p : Parser α) (hfin : ∃ ks : List Nat, ∀ k, Uses C p (.custom k) → k ∈ ks)
    (hrec : ∀ k, Uses C p (.custom k) → ¬ Relation.TransGen (fun j k => Reaches C (C.custom j).body k) k k) :
    ∃ c, ∀ s : Span, s.Valid C.mem → NestsAtMost C ((s.len + 1) * c) p s := by
  obtain ⟨ks, hks⟩ := hfin
  obtain ⟨rank, R, h, hr⟩ := exists_ranked hks hrec
  exact ⟨_, fun s hs => ranked_nests hr s hs⟩

/-- In particular every productive grammar. -/
theorem C64_productive (C : Ctx α β) (p : Parser α) (hp : Productive C p) :
    ∃ c, ∀ s : Span, s.Valid C.mem → NestsAtMost C ((s.len + 1) * c) p s := C64_linear C p hp.finite hp.recursion

/-- Whatever the grammar, left recursive or not: a parse or lookahead that returns has nested its calls at most
linearly in the length of the input.  So the stack is exhausted only where it is asked for by the length of the input, or
by a parse that would never return.  The factor depends on the expression and the bodies of the custom parsers only. -/
theorem C64_returns (C : Ctx α β) (p : Parser α) (hfin : ∃ ks : List Nat, ∀ k, Uses C p (.custom k) → k ∈ ks) :
    ∃ c, ∀ C' : Ctx α β, C'.custom = C.custom → ∀ s : Span,
      (ParseLoops C' p s ∨ ParseNestsAtMost C' ((s.len + 1) * c) p s) ∧
      (LookLoops C' p s ∨ LookNestsAtMost C' ((s.len + 1) * c) p s) := by
  obtain ⟨ks, hks⟩ := hfin
  refine ⟨(2 * ks.toFinset.card + 1) * (ks.foldr (fun k m => max (C.custom k).body.height m) p.height + 1),
    fun C' hC s => ?_⟩
  have hks' : ∀ k, Uses C' p (.custom k) → k ∈ ks := fun k hk => hks k (hk.of_custom hC)
  constructor
  · by_cases h : Parse C' p s = .diverge
    · exact .inl h
    · exact .inr fun d hd o => returns_nests hks' o true s h d (by rw [hC]; exact hd)
  · by_cases h : Look C' p s = .diverge
    · exact .inl h
    · exact .inr fun d hd o => returns_nests hks' o false s h d (by rw [hC]; exact hd)

/-- A left recursive custom parser, `ignore("a" | custom >> "b")`.  On `ab` it returns. -/
def Ex.leftRec (text : String) : Ctx Nat Nat := { Ex.ctx text with
  custom := fun _ => ⟨.ignore (.choice [Ex.all "a", .sequence [.custom 0, Ex.all "b"]]), true, .void⟩ }

theorem Ex.leftRec_finite (text : String) : ∃ ks : List Nat, ∀ k, Uses (Ex.leftRec text) (.custom 0) (.custom k) → k ∈ ks := by
  have hu : ∀ x q, Uses (Ex.leftRec text) x q → (x = .custom 0 ∨
      x = .ignore (.choice [Ex.all "a", .sequence [.custom 0, Ex.all "b"]]) ∨ x = .choice [Ex.all "a", .sequence [.custom 0, Ex.all "b"]] ∨
      x = Ex.all "a" ∨ x = .sequence [.custom 0, Ex.all "b"] ∨ x = Ex.all "b") → ∀ k, q = .custom k → k = 0 := by
    intro x q h
    induction h with
    | self => rintro (rfl | rfl | rfl | rfl | rfl | rfl) k ⟨⟩; rfl
    | part hm _ ih =>
      intro hx
      refine ih ?_
      rcases hx with rfl | rfl | rfl | rfl | rfl | rfl <;> simp [Parser.parts] at hm <;>
        first | (subst hm; simp) | (rcases hm with rfl | rfl <;> simp)
    | custom _ ih => exact fun _ => ih (.inr (.inl rfl))
  exact ⟨[0], fun k hk => by simp [hu _ _ hk (.inl rfl) k rfl]⟩

example : ∃ c, ∀ text s, ParseLoops (Ex.leftRec text) (.custom 0) s ∨
    ParseNestsAtMost (Ex.leftRec text) ((s.len + 1) * c) (.custom 0) s := by
  obtain ⟨c, h⟩ := C64_returns (Ex.leftRec "") (.custom 0) (Ex.leftRec_finite "")
  exact ⟨c, fun text s => (h (Ex.leftRec text) rfl s).1⟩
example : ∃ log v, Parses (Ex.leftRec "ab") (.custom 0) (Ex.input "ab") log v ⟨.at 0 1, 1⟩ :=
  ⟨_, _, Ex.parses _ 6 rfl⟩

/-- outcomes that tell how they came about -/
private def stop (n : Nat) : Sub := ⟨fun _ => .done [] (.err (.exn n)), fun _ => .done [] (.err (.exn n))⟩

private theorem not_nests {C : Ctx α β} {p : Parser α} {s : Span} {d d' : Nat} (hd : d ≤ d')
    (h : ∀ n, (budget C (stop n) d' p).look s = (stop n).look s) : ¬ NestsAtMost C d p s := by
  intro hn
  have h0 := (hn d' hd (stop 0)).2
  have h1 := (hn d' hd (stop 1)).2
  rw [h] at h0 h1
  rw [← h0] at h1
  simp [stop] at h1

/-- A custom parser that starts with itself: no depth is enough. -/
theorem C64_left_recursion (C : Ctx α β) (k : Nat) (rest : List (Parser α))
    (hb : (C.custom k).body = .sequence (.custom k :: rest)) (d : Nat) (s : Span) :
    ¬ NestsAtMost C d (.custom k) s := by
  refine not_nests (d' := 2 * d) (by omega) fun n => ?_
  induction d with
  | zero => rfl
  | succ d ih =>
    have e : ∀ i, (step C (budget C (stop n) (2 * d)) i (.sequence (.custom k :: rest))).look s = (stop n).look s := by
      intro i
      simp only [step, lookSequence, mkLookElems, foldAnd, execute, M.bind_eq]
      rw [ih]; rfl
    show (lim fun i => (step C (budget C (stop n) (2 * d + 1)) i (.custom k)).look s) = _
    simp only [step, hb]
    show (lim fun _ => lim fun i => (step C (budget C (stop n) (2 * d)) i (.sequence (.custom k :: rest))).look s) = _
    simp only [e, lim_const]

private abbrev opens (n : Nat) : String := String.ofList (List.replicate n '(')

private theorem opens_elems (n i m : Nat) (h : i + m = n) :
    (⟨.at 0 i, m⟩ : Span).elems (Ex.ctx (opens n)).mem = List.replicate m 40 ∧
      (⟨.at 0 i, m⟩ : Span).Valid (Ex.ctx (opens n)).mem := by
  have e : (Ex.ctx (opens n)).mem 0 = List.replicate n 40 := by
    show (String.ofList (List.replicate n '(')).toList.map Char.toNat = _
    simp
  constructor
  · show (((Ex.ctx (opens n)).mem 0).drop i).take m = _
    rw [e, List.drop_replicate, List.take_replicate]
    congr 1; omega
  · show i + m ≤ ((Ex.ctx (opens n)).mem 0).length
    rw [e]; simp; omega

/-- In a recursive grammar the depth does depend on the input: `n` opening parentheses, read by the custom parser
`"(" >> ~custom >> ")"`, take more than `3 * n` nested calls. -/
theorem C64_needed (n : Nat) : ∃ text : String, (Ex.input text).len = n ∧
    ¬ NestsAtMost (Ex.ctx text) (3 * n) (.custom 0) (Ex.input text) := by
  refine ⟨opens n, by simp [Ex.input, Ex.str, opens], ?_⟩
  refine not_nests (Nat.le_refl _) fun x => ?_
  have e : Ex.input (opens n) = ⟨.at 0 0, n⟩ := by simp [Ex.input, Ex.str, opens]
  rw [e]
  suffices H : ∀ m i, i + m = n → (budget (Ex.ctx (opens n)) (stop x) (3 * m) (.custom 0)).look ⟨.at 0 i, m⟩ =
      (stop x).look ⟨.at 0 i, m⟩ from H n 0 (by omega)
  intro m
  induction m with
  | zero => intro i _; rfl
  | succ m ih =>
    intro i hi
    obtain ⟨he, hv⟩ := opens_elems n i (m + 1) hi
    have h1 : (budget (Ex.ctx (opens n)) (stop x) (3 * m + 1) (Ex.all "(")).look ⟨.at 0 i, m + 1⟩ =
        M.pure (R.successVoid ⟨.at 0 (i + 1), m⟩) := by
      show (lim fun _ => lookBasic (Ex.ctx (opens n)) (.allOf (Ex.str "(")) ⟨.at 0 i, m + 1⟩) = _
      rw [lim_const, lookBasic_eq hv, he]; rfl
    have h2 : (budget (Ex.ctx (opens n)) (stop x) (3 * m + 1) (.maybe (.custom 0))).look ⟨.at 0 (i + 1), m⟩ =
        (stop x).look ⟨.at 0 i, m⟩ := by
      show (lim fun _ => lookMaybe (budget (Ex.ctx (opens n)) (stop x) (3 * m) (.custom 0)) ⟨.at 0 (i + 1), m⟩) = _
      rw [lim_const, lookMaybe]
      rw [ih (i + 1) (by omega)]; rfl
    show (lim fun _ => lim fun k => (step (Ex.ctx (opens n)) (budget (Ex.ctx (opens n)) (stop x) (3 * m + 1)) k
      (.sequence [Ex.all "(", .maybe (.custom 0), Ex.all ")"])).look ⟨.at 0 i, m + 1⟩) = _
    have h3 : ∀ k, (step (Ex.ctx (opens n)) (budget (Ex.ctx (opens n)) (stop x) (3 * m + 1)) k
        (.sequence [Ex.all "(", .maybe (.custom 0), Ex.all ")"])).look ⟨.at 0 i, m + 1⟩ = (stop x).look ⟨.at 0 i, m⟩ := by
      intro k
      simp only [step, lookSequence, mkLookElems, foldAnd, execute, M.bind_eq]
      rw [h1]
      simp only [M.pure_bind, R.successVoid, R.hasValue]
      rw [h2]; rfl
    simp only [h3, lim_const]; rfl

namespace Json

/-- The JSON example: a text of `n` characters takes at most `51 * (n + 1)` nested calls. -/
theorem C64_json (m : Json.Machine) (p : Parser Nat)
    (hp : p ∈ [Json.jsonValue, Json.jsonObject, Json.jsonArray, Json.string, Json.number]) (s : Span) (hs : s.Valid m.mem) :
    NestsAtMost (Json.ctx m) ((s.len + 1) * 51) p s := by
  refine C64_ranked (Json.ctx m) p (fun k => if k = 0 then 1 else 0) 2 16
    (productive_ranked (Json.json_productive hp) (by simp) ?_ ?_) s hs
  · simp only [List.mem_cons, List.not_mem_nil, or_false] at hp
    rcases hp with rfl | rfl | rfl | rfl | rfl
    · decide
    · decide
    · decide
    · rw [Json.string_eq, Json.chars, Json.validChar_eq]; simp [Parser.height, heights]
    · rw [Json.number_eq, Json.integer_eq, Json.fraction_eq, Json.exponent_eq]; simp [Parser.height, heights]
  · intro k hk
    simp only [List.mem_cons, List.not_mem_nil, or_false] at hk
    rcases hk with rfl | rfl | rfl
    · show Json.valueBody.height ≤ 16
      rw [Json.valueBody_eq, Json.number_eq, Json.string_eq, Json.chars, Json.validChar_eq, Json.integer_eq, Json.fraction_eq,
        Json.exponent_eq]
      decide
    · show Json.objectBody.height ≤ 16
      rw [Json.objectBody_eq, Json.pair_eq, Json.chars, Json.validChar_eq]
      decide
    · show Json.arrayBody.height ≤ 16
      rw [Json.arrayBody_eq]
      decide

end Json

namespace Algebraic

/-- The algebraic example: at most `56 * (n + 1)`. -/
theorem C64_algebraic (m : Algebraic.Machine) (p : Parser Nat)
    (hp : p ∈ [Algebraic.number, Algebraic.powterm, Algebraic.factor, Algebraic.term, Algebraic.expr, Algebraic.input])
    (s : Span) (hs : s.Valid m.mem) : NestsAtMost (Algebraic.ctx m) ((s.len + 1) * 56) p s := by
  refine C64_ranked (Algebraic.ctx m) p id 6 7 (productive_ranked (Algebraic.algebraic_productive hp) (by simp) ?_ ?_) s hs
  · simp only [List.mem_cons, List.not_mem_nil, or_false] at hp
    rcases hp with rfl | rfl | rfl | rfl | rfl | rfl <;> decide
  · intro k hk
    simp only [List.mem_cons, List.not_mem_nil, or_false] at hk
    rcases hk with rfl | rfl | rfl | rfl | rfl | rfl
    · show Algebraic.numberBody.height ≤ 7; rw [Algebraic.numberBody_eq]; decide
    · show Algebraic.powtermBody.height ≤ 7; rw [Algebraic.powtermBody_eq]; decide
    · show Algebraic.factorBody.height ≤ 7; rw [Algebraic.factorBody_eq]; decide
    · show Algebraic.termBody.height ≤ 7; rw [Algebraic.termBody_eq]; decide
    · show Algebraic.exprBody.height ≤ 7; rw [Algebraic.exprBody_eq]; decide
    · show Algebraic.inputBody.height ≤ 7; rw [Algebraic.inputBody_eq]; decide

end Algebraic

/-! ### Examples -/

/-- Three levels are enough for a repetition of a choice, however long the input. -/
example (text : String) (s : Span) :
    NestsAtMost (Ex.ctx text) 3 (.zeroOrMore (.choice [Ex.all "ab", Ex.any "xy"])) s :=
  C64_expression _ (.zeroOrMore (.choice [Ex.all "ab", Ex.any "xy"])) rfl s

/-- One level less is not: the choice would have no room for its alternatives. -/
example : ¬ NestsAtMost (Ex.ctx "") 1 (.maybe (Ex.all "ab")) (Ex.input "") := by
  refine not_nests (Nat.le_refl _) fun n => ?_
  show (lim fun _ => lookMaybe (stop n) (Ex.input "")) = _
  rw [lim_const]; rfl

/-- The recursive grammar of the examples is ranked. -/
example (text : String) : Ranked (Ex.ctx text) (fun _ => 0) 1 3 (.custom 0) :=
  productive_ranked (ks := [0]) (null := fun _ => false) rfl (by simp) (by decide) (fun k hk => by
    rw [List.mem_singleton.1 hk]
    exact show 3 ≤ 3 from Nat.le_refl _)

/-- No depth is enough for `list = list >> "x"`. -/
example (d : Nat) (s : Span) :
    ¬ NestsAtMost { Ex.ctx "x" with custom := fun _ => ⟨.sequence [.custom 0, Ex.all "x"], false, .span⟩ } d (.custom 0) s :=
  C64_left_recursion _ 0 [Ex.all "x"] rfl d s

end Tok3n
