import Verif.Proof.Cut
import Verif.Props.Order
import Verif.Props.Json
/-
C78: what a parser makes of the text in front of it depends on the text behind only in ways that can be read off the
parser.
-/

namespace Tok3n

variable {α β : Type} {C : Ctx α β}

theorem Span.cut_elems (mem : Mem β) (s : Span) (n : Nat) : (s.cut n).elems mem = (s.elems mem).take n := by
  obtain ⟨p, len⟩ := s
  cases p with
  | null => simp [Span.elems, Span.cut]
  | «at» b o => simp [Span.elems, Span.cut, List.take_take]

theorem Span.cut_valid {mem : Mem β} {s : Span} (hs : s.Valid mem) (n : Nat) : (s.cut n).Valid mem := by
  unfold Span.Valid Span.cut at *
  split at hs
  · simp [*]
  · simp [*]; omega

theorem looksAt_peg {p : Parser α} {s : Span} (hs : s.Valid C.mem) (k : Nat) :
    LooksAt C p s k ↔ PegC C p (s.elems C.mem) (some k) := by
  constructor
  · rintro ⟨log, s', h, ha⟩
    obtain ⟨-, j, hp, ha'⟩ := ((C45_lookahead C p s hs).1 log s').1 h
    have := ha.size
    have := ha'.size
    cases (by omega : j = k)
    exact hp
  · intro h
    have hk := h.le _ rfl
    rw [hs.elems_length] at hk
    exact ⟨[], _, ((C45_lookahead C p s hs).1 [] _).2 ⟨rfl, k, h, hs.advanced hk⟩, hs.advanced hk⟩

theorem lookFails_peg {p : Parser α} {s : Span} (hs : s.Valid C.mem) :
    (∃ log s', LookFails C p s log s') ↔ PegC C p (s.elems C.mem) none := by
  simp only [(C45_lookahead C p s hs).2.1]
  simp

theorem returns_peg {p : Parser α} {s : Span} (hs : s.Valid C.mem) (h : ¬ LookLoops C p s) :
    ∃ o, PegC C p (s.elems C.mem) o := by
  rw [(C45_lookahead C p s hs).2.2.1] at h
  simpa using h

section
variable {null : Nat → Bool} {begin' : Nat → β → Bool} {cuts : Nat → AtCut β}

/-- what happens on a part of a text -/
theorem cut_outcomes (ht : CutTable C null begin' cuts) (p : Parser α) {s : Span} {n : Nat}
    {o o' : Option Nat} (h : PegC C p (s.elems C.mem) o) (h' : PegC C p ((s.cut n).elems C.mem) o') :
    Cuts (p.atCut C.eqv null begin' cuts) (s.elems C.mem) n o o' := by
  rw [Span.cut_elems] at h'
  exact peg_cuts ht h n o' h'

/-- Cutting off text behind a match changes nothing: if `lookahead` of a `steady` parser consumes `k` elements of `s`, and
returns on the first `n ≥ k` elements, then it consumes the same `k` there. -/
theorem C78_cut (ht : CutTable C null begin' cuts) (p : Parser α) (hp : (p.atCut C.eqv null begin' cuts).steady)
    (s : Span) (hs : s.Valid C.mem) (k n : Nat) (h : LooksAt C p s k) (hk : k ≤ n) (hr : ¬ LookLoops C p (s.cut n)) :
    LooksAt C p (s.cut n) k := by
  obtain ⟨o', h'⟩ := returns_peg (s.cut_valid hs n) hr
  rw [looksAt_peg hs] at h
  rw [looksAt_peg (s.cut_valid hs n)]
  cases (cut_outcomes ht p h h').steady hp k rfl hk
  exact h'

/-- What fails stays failed: if `lookahead` of a `hopeless` parser fails on `s`, it fails on every beginning of `s` on
which it returns. -/
theorem C78_fails (ht : CutTable C null begin' cuts) (p : Parser α) (hp : (p.atCut C.eqv null begin' cuts).hopeless)
    (s : Span) (hs : s.Valid C.mem) (n : Nat) (h : ∃ log s', LookFails C p s log s') (hr : ¬ LookLoops C p (s.cut n)) :
    ∃ log s', LookFails C p (s.cut n) log s' := by
  obtain ⟨o', h'⟩ := returns_peg (s.cut_valid hs n) hr
  rw [lookFails_peg hs] at h
  rw [lookFails_peg (s.cut_valid hs n)]
  cases (cut_outcomes ht p h h').hopeless hp rfl
  exact h'

/-- If the text is cut off inside a match, `lookahead` fails (not if the parser is `ready` and something is left), or
consumes all that is left, or stops in front of one of the `short` elements. -/
theorem C78_inside (ht : CutTable C null begin' cuts) (p : Parser α) (s : Span) (hs : s.Valid C.mem) (k n : Nat)
    (h : LooksAt C p s k) (hk : n < k) (hr : ¬ LookLoops C p (s.cut n)) :
    ((∃ log s', LookFails C p (s.cut n) log s') ∧ ¬ ((p.atCut C.eqv null begin' cuts).ready ∧ n ≠ 0)) ∨
    LooksAt C p (s.cut n) n ∨
    ∃ m x, LooksAt C p (s.cut n) m ∧ m < n ∧ (s.elems C.mem)[m]? = some x ∧ (p.atCut C.eqv null begin' cuts).short x := by
  have hv := s.cut_valid hs n
  obtain ⟨o', h'⟩ := returns_peg hv hr
  rw [looksAt_peg hs] at h
  have hc := cut_outcomes ht p h h'
  rw [lookFails_peg hv]
  simp only [looksAt_peg hv]
  cases o' with
  | none => exact .inl ⟨h', fun ⟨h1, h2⟩ => hc.ready h1 k rfl hk h2 rfl⟩
  | some m =>
    have hm := h'.le _ rfl
    rw [Span.cut_elems, List.length_take] at hm
    rcases Nat.lt_or_ge m n with hlt | hge
    · obtain ⟨x, ex, sx⟩ := hc.short k m rfl hk rfl hlt
      exact .inr (.inr ⟨m, x, h', hlt, ex, sx⟩)
    · cases (by omega : m = n)
      exact .inr (.inl h')

/-- More text changes nothing, if the next element shows that the match is at its end: if `lookahead` of a `steady` and
`hopeless` parser on the first `n` elements of `s` stops in front of an element that is not `short`, it consumes the same
of all of `s` (if it returns). -/
theorem C78_more (ht : CutTable C null begin' cuts) (p : Parser α) (hp : (p.atCut C.eqv null begin' cuts).steady)
    (hp' : (p.atCut C.eqv null begin' cuts).hopeless) (s : Span) (hs : s.Valid C.mem) (m n : Nat) (x : β)
    (h : LooksAt C p (s.cut n) m) (hm : m < n) (hx : (s.elems C.mem)[m]? = some x)
    (hsx : ¬ (p.atCut C.eqv null begin' cuts).short x) (hr : ¬ LookLoops C p s) : LooksAt C p s m := by
  obtain ⟨o, ho⟩ := returns_peg hs hr
  rw [looksAt_peg (s.cut_valid hs n)] at h
  rw [looksAt_peg hs]
  have hc := cut_outcomes ht p ho h
  cases o with
  | none => cases hc.hopeless hp' rfl
  | some k =>
    rcases Nat.lt_or_ge n k with hlt | hge
    · obtain ⟨y, ey, sy⟩ := hc.short k m rfl hlt rfl hm
      rw [hx] at ey
      cases ey
      exact (hsx sy).elim
    · cases hc.steady hp k rfl hge
      exact ho

/-- `parse` and `lookahead` consume the same, where nothing is overruled and no callback throws. -/
theorem parsesAt_iff {p : Parser α} (hn : NeverOverrules C p) {s : Span} (hs : s.Valid C.mem)
    (herr : ∀ log e, ¬ ParseErr C p s log e) :
    (∀ k, ParsesAt C p s k ↔ LooksAt C p s k) ∧
    ((∃ log s', ParseFails C p s log s') ↔ ∃ log s', LookFails C p s log s') := by
  constructor
  · intro k
    constructor
    · rintro ⟨log, v, s', h, ha⟩
      obtain ⟨log', h'⟩ := ((C05_same_verdict_partial C p hn s hs herr s').1).1 ⟨log, v, h⟩
      exact ⟨log', s', h', ha⟩
    · rintro ⟨log, s', h, ha⟩
      obtain ⟨log', v, h'⟩ := ((C05_same_verdict_partial C p hn s hs herr s').1).2 ⟨log, h⟩
      exact ⟨log', v, s', h', ha⟩
  · constructor
    · rintro ⟨log, s', h⟩
      obtain ⟨log', h'⟩ := ((C05_same_verdict_partial C p hn s hs herr s').2).1 ⟨log, h⟩
      exact ⟨log', s', h'⟩
    · rintro ⟨log, s', h⟩
      obtain ⟨log', h'⟩ := ((C05_same_verdict_partial C p hn s hs herr s').2).2 ⟨log, h⟩
      exact ⟨log', s', h'⟩

/-- The same for `parse`, if no `filter` and no `join` in the parser ever rejects what its parser matched, no custom parser
succeeds where its body fails, and no callback throws. -/
theorem C78_parse (ht : CutTable C null begin' cuts) (p : Parser α) (hn : NeverOverrules C p) (s : Span)
    (hs : s.Valid C.mem) (n : Nat) (he : ∀ log e, ¬ ParseErr C p s log e) (he' : ∀ log e, ¬ ParseErr C p (s.cut n) log e)
    (hr : ¬ LookLoops C p s) (hr' : ¬ LookLoops C p (s.cut n)) :
    ((p.atCut C.eqv null begin' cuts).steady → ∀ k, ParsesAt C p s k → k ≤ n → ParsesAt C p (s.cut n) k) ∧
    ((p.atCut C.eqv null begin' cuts).hopeless → (∃ log s', ParseFails C p s log s') →
      ∃ log s', ParseFails C p (s.cut n) log s') ∧
    (∀ k, ParsesAt C p s k → n < k →
      ((∃ log s', ParseFails C p (s.cut n) log s') ∧ ¬ ((p.atCut C.eqv null begin' cuts).ready ∧ n ≠ 0)) ∨
      ParsesAt C p (s.cut n) n ∨
      ∃ m x, ParsesAt C p (s.cut n) m ∧ m < n ∧ (s.elems C.mem)[m]? = some x ∧
        (p.atCut C.eqv null begin' cuts).short x) ∧
    ((p.atCut C.eqv null begin' cuts).steady → (p.atCut C.eqv null begin' cuts).hopeless → ∀ m x,
      ParsesAt C p (s.cut n) m → m < n → (s.elems C.mem)[m]? = some x → ¬ (p.atCut C.eqv null begin' cuts).short x →
      ParsesAt C p s m) := by
  have hv := s.cut_valid hs n
  obtain ⟨h1, h2⟩ := parsesAt_iff hn hs he
  obtain ⟨h3, h4⟩ := parsesAt_iff hn hv he'
  simp only [h1, h2, h3, h4]
  exact ⟨fun hp k h hk => C78_cut ht p hp s hs k n h hk hr', fun hp h => C78_fails ht p hp s hs n h hr',
    fun k h hk => C78_inside ht p s hs k n h hk hr',
    fun hp hp' m x h hm hx hsx => C78_more ht p hp hp' s hs m n x h hm hx hsx hr⟩

/-- Nothing need be known of custom parsers. -/
theorem CutTable.unknown (hb : BeginTable C null begin') : CutTable C null begin' fun _ => .unknown :=
  { hb with steady := fun _ => False.elim, hopeless := fun _ => False.elim, ready := fun _ => False.elim,
            short := fun _ _ _ => ⟨⟩ }

theorem BeginTable.all : BeginTable C (fun _ => true) fun _ _ => true := ⟨fun _ _ => rfl, fun _ _ _ => rfl⟩

end

/-- Without such a check cutting off text behind a match can change everything: a parser that consumes "ab" of "abc" fails
on "ab". -/
theorem C78_refuted : ∃ (C : Ctx Nat Nat) (p : Parser Nat) (s : Span) (k : Nat), s.Valid C.mem ∧ Compiles C p ∧
    LooksAt C p s k ∧ ParsesAt C p s k ∧ k ≤ s.len ∧ (∃ log s', LookFails C p (s.cut k) log s') ∧
    ∃ log s', ParseFails C p (s.cut k) log s' :=
  ⟨Ex.ctx "abc", .sequence [.choice [.sequence [.maybe (Ex.all "abc"), Ex.all "ab"], Ex.all "a"], Ex.all "b"],
    Ex.input "abc", 2, Ex.input_valid _, ⟨Ex.ctx_ok _, rfl, rfl, rfl⟩,
    ⟨_, ⟨.at 0 2, 1⟩, Ex.looks _ 9 rfl, ⟨rfl, .inr ⟨0, 0, rfl, rfl⟩⟩⟩,
    ⟨_, _, ⟨.at 0 2, 1⟩, Ex.parses _ 9 rfl, ⟨rfl, .inr ⟨0, 0, rfl, rfl⟩⟩⟩, by decide,
    ⟨_, _, Ex.looks _ 9 rfl⟩, ⟨_, _, Ex.parses _ 9 rfl⟩⟩

/-- ... and what is left over need not stay so: a parser that consumes "1" of "1." consumes all of "1.5". -/
theorem C78_short_refuted : ∃ (C : Ctx Nat Nat) (p : Parser Nat) (s : Span) (n : Nat), s.Valid C.mem ∧ Compiles C p ∧
    (p.atCut C.eqv (fun _ => true) (fun _ _ => true) fun _ => .unknown).steady ∧
    (p.atCut C.eqv (fun _ => true) (fun _ _ => true) fun _ => .unknown).hopeless ∧
    LooksAt C p (s.cut n) 1 ∧ 1 < n ∧ LooksAt C p s 3 :=
  ⟨Ex.ctx "1.5", .sequence [Ex.any "15", .maybe (.sequence [Ex.all ".", .oneOrMore (Ex.any "15")])],
    Ex.input "1.5", 2, Ex.input_valid _, ⟨Ex.ctx_ok _, rfl, rfl, rfl⟩,
    by simp [Parser.atCut, sequenceCut, AtCut.andThen, AtCut.optional, AtCut.repeated, AtCut.trivial, Ex.all, Ex.any, Parser.certain, allCertain],
    by simp [Parser.atCut, sequenceCut, AtCut.andThen, AtCut.optional, AtCut.repeated, AtCut.trivial, Ex.all, Ex.any, Parser.certain, allCertain],
    ⟨_, ⟨.at 0 1, 1⟩, Ex.looks _ 9 rfl, ⟨rfl, .inr ⟨0, 0, rfl, rfl⟩⟩⟩, by decide,
    ⟨_, ⟨.at 0 3, 0⟩, Ex.looks _ 9 rfl, ⟨rfl, .inr ⟨0, 0, rfl, rfl⟩⟩⟩⟩

/-! Parentheses in parentheses (custom parser 0 of the example context): steady, hopeless, never short. -/

/-- what is known of the custom parsers of the example context -/
def Ex.cutTable (k : Nat) : AtCut Nat :=
  match k with
  | 0 => ⟨True, True, False, fun _ => False⟩
  | _ => .unknown

theorem Ex.cutTable_ok (text : String) :
    CutTable (Ex.ctx text) (fun _ => false) (fun k x => match k with | 0 => x == 40 | _ => true) Ex.cutTable := by
  have h0 : ((Ex.ctx text).custom 0).body = .sequence [.allOf [40], .maybe (.custom 0), .allOf [41]] := rfl
  refine ⟨⟨fun k => ?_, fun k x => ?_⟩, fun k => ?_, fun k => ?_, fun k => ?_, fun k x => ?_⟩ <;>
    match k with
    | 0 => ?_
    | k + 1 => ?_
  · rw [h0]; exact fun h => nomatch h
  · exact fun h => nomatch h
  · rw [h0]
    simp only [Parser.begins, sequenceBegins, Parser.nullable, List.isEmpty_cons, Bool.false_and, Bool.or_false, Ex.ctx, beq_iff_eq]
    exact Eq.symm
  · exact fun _ => rfl
  all_goals first
    | exact False.elim
    | exact fun _ => trivial
    | (rw [h0]
       simp [Parser.atCut, sequenceCut, AtCut.andThen, AtCut.optional, AtCut.trivial, Ex.cutTable, Parser.certain,
         allCertain, Parser.nullable, allNullable, Parser.begins, sequenceBegins, Ex.ctx])

-- "(())" is found in "(())(" as in "(())"; and "(()" cannot be continued to "(())" without looking at all of it
example : LooksAt (Ex.ctx "(())(") (.custom 0) ((Ex.input "(())(").cut 4) 4 :=
  C78_cut (Ex.cutTable_ok _) (.custom 0) trivial (Ex.input "(())(") (Ex.input_valid _) 4 4
    ⟨_, ⟨.at 0 4, 1⟩, Ex.looks _ 9 rfl, ⟨rfl, .inr ⟨0, 0, rfl, rfl⟩⟩⟩ (by decide)
    (fun h => nomatch h.symm.trans (Ex.looks (l := []) (r := .ok ⟨some .unit, ⟨.at 0 4, 0⟩⟩) _ 9 rfl))

namespace Json

/-- the check of the strings of the JSON example -/
theorem string_cut (m : Machine) : let a := string.atCut (ctx m).eqv (fun k => decide (3 ≤ k)) beginTable fun _ => .unknown
    a.steady ∧ a.hopeless ∧ ∀ x, ¬ a.short x := by
  rw [string_eq, chars, validChar_eq]
  simp [Parser.atCut, sequenceCut, choiceCut, exactlyCut, AtCut.andThen, AtCut.optional, AtCut.repeated, AtCut.orElse, AtCut.trivial, Parser.certain, someCertain,
         allCertain, Parser.nullable, allNullable, someNullable, Parser.begins, sequenceBegins, someBegins, ctx]
  omega

/-- the check of the numbers of the JSON example -/
theorem number_cut (m : Machine) : let a := number.atCut (ctx m).eqv (fun k => decide (3 ≤ k)) beginTable fun _ => .unknown
    a.steady ∧ a.hopeless ∧ ∀ x, a.short x → x = 46 ∨ x = 69 ∨ x = 101 := by
  rw [number_eq, integer_eq, fraction_eq, exponent_eq]
  simp [Parser.atCut, sequenceCut, choiceCut, exactlyCut, AtCut.andThen, AtCut.optional, AtCut.repeated, AtCut.orElse, AtCut.trivial, Parser.certain, someCertain,
         allCertain, Parser.nullable, allNullable, someNullable, Parser.begins, sequenceBegins, someBegins, ctx]
  omega

theorem returns (m : Machine) {p : Parser Nat} (hp : p ∈ [jsonValue, jsonObject, jsonArray, string, number]) {s : Span}
    (hs : s.Valid m.mem) : ¬ LookLoops (ctx m) p s :=
  (C39_checked (ctx m) p _ _ _ (json_productive hp) s hs).2

/-- A JSON string is found, or not found, without regard to the text behind its closing quote: if it is found in a text,
it is found in every beginning of it that contains it, and in every continuation; if there is none, there is none in a
beginning. -/
theorem C78_json_string (m : Machine) (s : Span) (hs : s.Valid m.mem) (n : Nat) :
    (∀ k, LooksAt (ctx m) string s k → k ≤ n → LooksAt (ctx m) string (s.cut n) k) ∧
    (∀ k, LooksAt (ctx m) string (s.cut n) k → k < min n s.len → LooksAt (ctx m) string s k) ∧
    ((∃ log s', LookFails (ctx m) string s log s') → ∃ log s', LookFails (ctx m) string (s.cut n) log s') := by
  have ht := CutTable.unknown (beginTable_ok m)
  obtain ⟨h1, h2, h3⟩ := string_cut m
  have hv := s.cut_valid hs n
  have hr := returns m (p := string) (by simp) hs
  have hr' := returns m (p := string) (by simp) hv
  refine ⟨fun k h hk => C78_cut ht _ h1 s hs k n h hk hr', fun k h hk => ?_, fun h => C78_fails ht _ h2 s hs n h hr'⟩
  have hl : k < (s.elems m.mem).length := by rw [hs.elems_length]; omega
  exact C78_more ht _ h1 h2 s hs k n _ h (by omega) (List.getElem?_eq_getElem hl) (h3 _) hr

/-- A JSON number that is followed by anything but a point or an `e` is the number of every longer text too. -/
theorem C78_json_number (m : Machine) (s : Span) (hs : s.Valid m.mem) (n : Nat) :
    (∀ k, LooksAt (ctx m) number s k → k ≤ n → LooksAt (ctx m) number (s.cut n) k) ∧
    (∀ k x, LooksAt (ctx m) number (s.cut n) k → k < n → (s.elems m.mem)[k]? = some x → x ≠ 0x2E → x ≠ 0x45 → x ≠ 0x65 →
      LooksAt (ctx m) number s k) ∧
    ((∃ log s', LookFails (ctx m) number s log s') → ∃ log s', LookFails (ctx m) number (s.cut n) log s') := by
  have ht := CutTable.unknown (beginTable_ok m)
  obtain ⟨h1, h2, h3⟩ := number_cut m
  have hv := s.cut_valid hs n
  have hr := returns m (p := number) (by simp) hs
  have hr' := returns m (p := number) (by simp) hv
  refine ⟨fun k h hk => C78_cut ht _ h1 s hs k n h hk hr', fun k x h hk hx n1 n2 n3 => ?_,
    fun h => C78_fails ht _ h2 s hs n h hr'⟩
  refine C78_more ht _ h1 h2 s hs k n x h hk hx (fun h => ?_) hr
  rcases h3 x h with h | h | h
  · exact n1 h
  · exact n2 h
  · exact n3 h

/-- The text that was read as a JSON value is a JSON text: by itself it is read to its end, as the same document. -/
theorem C78_json_alone (m : Machine) (s : Span) (hs : s.Valid m.mem) (log : List Call) (v : Val) (s' : Span)
    (h : Parses (ctx m) jsonValue s log v s') :
    ∃ log' v' s'' d, Parses (ctx m) jsonValue (s.cut (s.len - s'.len)) log' v' s'' ∧ s''.len = 0 ∧
      Rep m.mem v d ∧ Rep m.mem v' d := by
  obtain ⟨x, d, hr, hx, hd, -⟩ := C54_sound m s hs log v s' h
  have hv := s.cut_valid hs (s.len - s'.len)
  have hl := hr.size
  have he : (s.cut (s.len - s'.len)).elems m.mem = x ++ [] := by
    rw [Span.cut_elems, hr.text, List.append_nil]
    rw [show s.len - s'.len = x.length by omega]
    simp
  have hr' := Reads.of_text hv he
  have hlen : (s.cut (s.len - s'.len)).len = x.length := by
    show min (s.len - s'.len) s.len = x.length
    omega
  have h0 : ((s.cut (s.len - s'.len)).drop x.length).len = 0 := by
    have := hr'.size
    omega
  obtain ⟨log', v', h', hd'⟩ := C54_complete m _ hv x d _ hx hr' (by
    rw [Span.elems_drop, he]; simp [Stops])
  exact ⟨log', v', _, d, h', h0, hd, hd'⟩

-- `"a"` is a string in `"a",` ...
example : LooksAt (ctx (machine "\"a\",")) string (input "\"a\",") 3 :=
  ⟨_, ⟨.at 0 3, 1⟩, Ex.looks _ 20 (by rw [string_eq, chars, validChar_eq]; rfl), ⟨rfl, .inr ⟨0, 0, rfl, rfl⟩⟩⟩

-- ... and `1` a number in `1]`
example : LooksAt (ctx (machine "1]")) number ((input "1]2").cut 2) 1 :=
  ⟨_, ⟨.at 0 1, 1⟩, Ex.looks _ 20 (by rw [number_eq, integer_eq, fraction_eq, exponent_eq]; rfl), ⟨rfl, .inr ⟨0, 0, rfl, rfl⟩⟩⟩

end Json

end Tok3n
