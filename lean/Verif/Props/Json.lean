import Verif.Proof.JsonLanguage
import Verif.Props.Terminate
/-
C46, C54: the JSON example.  It returns on every input, and it accepts JSON.
-/

namespace Tok3n.Json

/-! ### It returns -/

theorem json_productive {m : Machine} {p : Parser Nat} (hp : p ∈ [jsonValue, jsonObject, jsonArray, string, number]) :
    productive (ctx m) [0, 1, 2] (fun _ => false) (fun k => if k = 0 then 1 else 0) p = true := by
  have e0 : ((ctx m).custom 0).body = valueBody := rfl
  have e1 : ((ctx m).custom 1).body = objectBody := rfl
  have e2 : ((ctx m).custom 2).body = arrayBody := rfl
  simp only [List.mem_cons, List.not_mem_nil, or_false] at hp
  rcases hp with rfl | rfl | rfl | rfl | rfl <;>
    simp only [productive, List.all_cons, List.all_nil, e0, e1, e2, valueBody_eq, objectBody_eq, arrayBody_eq, number_eq,
      string_eq, chars, validChar_eq, integer_eq, fraction_eq, exponent_eq, pair_eq] <;> rfl

/-- what is joined contains neither `map` nor a custom parser -/
def joinB : Parser Nat → Bool
  | .join q => everyNode noMapB q
  | _ => true

theorem json_joinSafe {m : Machine} {p : Parser Nat} (hp : p ∈ [jsonValue, jsonObject, jsonArray, string, number]) :
    JoinSafe (ctx m) p := by
  intro q hq
  have hb : ∀ k, everyNode joinB ((ctx m).custom k).body = true := by
    intro k
    match k with
    | 0 =>
      show everyNode joinB valueBody = true
      rw [valueBody_eq, number_eq, string_eq, chars, validChar_eq, integer_eq, fraction_eq, exponent_eq]; rfl
    | 1 =>
      show everyNode joinB objectBody = true
      rw [objectBody_eq, pair_eq, chars, validChar_eq]; rfl
    | 2 =>
      show everyNode joinB arrayBody = true
      rw [arrayBody_eq]; rfl
    | _ + 3 => rfl
  have hn : everyNode joinB p = true := by
    simp only [List.mem_cons, List.not_mem_nil, or_false] at hp
    rcases hp with rfl | rfl | rfl | rfl | rfl
    · rfl
    · rfl
    · rfl
    · rw [string_eq, chars, validChar_eq]; rfl
    · rw [number_eq, integer_eq, fraction_eq, exponent_eq]; rfl
  exact spanLocal_noMap ctx_local (reach_ok hb hn hq)

theorem json_compiles {m : Machine} {p : Parser Nat} (hp : p ∈ [jsonValue, jsonObject, jsonArray, string, number]) :
    Compiles (ctx m) p := by
  simp only [List.mem_cons, List.not_mem_nil, or_false] at hp
  rcases hp with rfl | rfl | rfl | rfl | rfl
  · refine ⟨ctx_ok, rfl, rfl, ?_⟩
    rw [jsonValue, parseOK, value_body, result_value_seq]; rfl
  · refine ⟨ctx_ok, rfl, rfl, ?_⟩
    rw [jsonObject, parseOK, show ((ctx m).custom 1).body = objectBody from rfl, objectBody_eq, pair_eq, chars, validChar_eq]
    rfl
  · exact ⟨ctx_ok, rfl, rfl, rfl⟩
  · rw [string_eq, chars, validChar_eq]; exact ⟨ctx_ok, rfl, rfl, rfl⟩
  · rw [number_eq, integer_eq, fraction_eq, exponent_eq]; exact ⟨ctx_ok, rfl, rfl, rfl⟩

/-- On every readable input `JsonValue::parse`, `JsonObject::parse`, `JsonArray::parse`, `string.parse` and
`number.parse` return: they succeed, leaving the rest of the input, or fail, leaving all of it.  They run into no
undefined behaviour and throw nothing. -/
theorem C46_returns (m : Machine) (p : Parser Nat) (hp : p ∈ [jsonValue, jsonObject, jsonArray, string, number])
    (s : Span) (hs : s.Valid m.mem) :
    (∃ log v x s', Parses (ctx m) p s log v s' ∧ Reads m.mem s x s') ∨ (∃ log, ParseFails (ctx m) p s log s) := by
  have h1 := (C39_checked (ctx m) p _ _ _ (json_productive hp) s hs).1
  have h2 := C03_memory_safe (ctx m) p s (json_compiles hp) ctx_typed (json_joinSafe hp) hs
  have h3 := fun log e => C49_no_throw (ctx m) p s log e ctx_throws
  have h4 := fun log s' => (C01_failure_restores_input (ctx m) p s s' log).1
  unfold ParseLoops at h1
  unfold ParseErr at h2
  cases hr : Parse (ctx m) p s with
  | diverge => exact absurd hr h1
  | done log res =>
    cases res with
    | err e =>
      obtain ⟨x, rfl⟩ := h2 log e hr
      exact absurd hr (h3 _ _)
    | ok r =>
      obtain ⟨rv, s'⟩ := r
      cases rv with
      | some v =>
        obtain ⟨x, hx⟩ := Reads.of_suffix hs (Ok.suffix (C := ctx m) (p := p) ⟨log, hr⟩)
        exact .inl ⟨log, v, x, s', hr, hx⟩
      | none =>
        obtain rfl := h4 log s' hr
        exact .inr ⟨log, hr⟩

/-- … and so does `lookahead`. -/
theorem C46_lookahead_returns (m : Machine) (p : Parser Nat) (hp : p ∈ [jsonValue, jsonObject, jsonArray, string, number])
    (s : Span) (hs : s.Valid m.mem) :
    (∃ x s', Looks (ctx m) p s [] s' ∧ Reads m.mem s x s') ∨ LookFails (ctx m) p s [] s := by
  have h1 := (C39_checked (ctx m) p _ _ _ (json_productive hp) s hs).2
  obtain ⟨h2, h3, -, h5⟩ := C45_lookahead (ctx m) p s hs
  unfold LookLoops at h1
  cases hr : Look (ctx m) p s with
  | diverge => exact absurd hr h1
  | done log res =>
    cases res with
    | err e => exact absurd hr (h5 _ _)
    | ok r =>
      obtain ⟨rv, s'⟩ := r
      obtain ⟨rfl, hu⟩ := Look_unit hr
      cases rv with
      | some v =>
        obtain rfl : v = .unit := by simpa using hu
        obtain ⟨x, hx⟩ := Reads.of_suffix hs (See.suffix (C := ctx m) (p := p) hr)
        exact .inl ⟨x, s', hr, hx⟩
      | none => obtain ⟨-, rfl, -⟩ := (h3 _ _).1 hr; exact .inr hr

/-! ### It accepts JSON -/

/-- What `JsonValue::parse` accepts is an element of the grammar, its value represents the element's document, and
what is left does not start with white space. -/
theorem C54_sound (m : Machine) (s : Span) (hs : s.Valid m.mem) (log : List Call) (v : Val) (s' : Span)
    (h : Parses (ctx m) jsonValue s log v s') :
    ∃ x d, Reads m.mem s x s' ∧ Element x d ∧ Rep m.mem v d ∧ ∀ c ∈ (s'.elems m.mem).head?, ¬ Ws [c] := by
  obtain ⟨x, d, r, hx, hd⟩ := value_sound hs ⟨log, h⟩
  refine ⟨x, d, r, hx, hd, ?_⟩
  obtain ⟨s1, s2, v, h1, h2, h3, rfl⟩ := value_split.1 ⟨log, h⟩
  have hs1 := h1.suffix.valid hs
  obtain ⟨y, d, r2, -⟩ := alt_sound (soundBelow _) hs1 le_rfl h2
  obtain ⟨b, -, -, h4⟩ := (see_ws (r2.valid hs1)).1 h3
  exact h4

/-- Every element of the grammar is accepted, whatever follows it that cannot be read as its continuation. -/
theorem C54_complete (m : Machine) (s : Span) (hs : s.Valid m.mem) (x : List Nat) (d : Doc) (s' : Span)
    (hx : Element x d) (r : Reads m.mem s x s') (hy : Stops (s'.elems m.mem)) :
    ∃ log v, Parses (ctx m) jsonValue s log v s' ∧ Rep m.mem v d := by
  obtain ⟨v, ⟨log, h⟩, hv⟩ := element_complete hx hs r hy
  exact ⟨log, v, h, hv⟩

/-- `JsonValue::parse` accepts all of a text exactly if the text is an element of the grammar. -/
theorem C54_accepts (m : Machine) (s : Span) (hs : s.Valid m.mem) :
    (∃ log v s', Parses (ctx m) jsonValue s log v s' ∧ s'.len = 0) ↔ ∃ d, Element (s.elems m.mem) d := by
  constructor
  · rintro ⟨log, v, s', h, h0⟩
    obtain ⟨x, d, r, hx, -⟩ := C54_sound m s hs log v s' h
    have e : s'.elems m.mem = [] := List.eq_nil_of_length_eq_zero (by rw [(r.valid hs).elems_length, h0])
    exact ⟨d, by rw [r.text, e, List.append_nil]; exact hx⟩
  · rintro ⟨d, hx⟩
    have r := Reads.of_text (y := []) hs (List.append_nil (s.elems m.mem)).symm
    have h0 := r.size
    rw [hs.elems_length] at h0 r
    have e : (s.drop s.len).elems m.mem = [] :=
      List.eq_nil_of_length_eq_zero (by rw [(r.valid hs).elems_length]; omega)
    obtain ⟨log, v, h, -⟩ := C54_complete m s hs _ d _ hx r (by rw [e]; simp [Stops])
    exact ⟨log, v, _, h, by omega⟩

/-- `JsonObject::parse` accepts exactly the objects of the grammar (without white space around them), whatever
follows; its vector represents the members. -/
theorem C54_object (m : Machine) (s : Span) (hs : s.Valid m.mem) :
    (∀ log v s', Parses (ctx m) jsonObject s log v s' →
      ∃ x ms vs, Reads m.mem s x s' ∧ Value x (.obj ms) ∧ v = .vec vs ∧ RepMembers m.mem vs ms) ∧
    (∀ x ms s', Value x (.obj ms) → Reads m.mem s x s' →
      ∃ log vs, Parses (ctx m) jsonObject s log (.vec vs) s' ∧ RepMembers m.mem vs ms) := by
  refine ⟨fun log v s' h => object_sound hs ⟨log, h⟩, fun x ms s' hx r => ?_⟩
  obtain ⟨vs, ⟨log, h⟩, hv⟩ := object_complete hx hs r
  exact ⟨log, vs, h, hv⟩

/-- The same for `JsonArray::parse`. -/
theorem C54_array (m : Machine) (s : Span) (hs : s.Valid m.mem) :
    (∀ log v s', Parses (ctx m) jsonArray s log v s' →
      ∃ x es vs, Reads m.mem s x s' ∧ Value x (.arr es) ∧ v = .vec vs ∧ RepElements m.mem vs es) ∧
    (∀ x es s', Value x (.arr es) → Reads m.mem s x s' →
      ∃ log vs, Parses (ctx m) jsonArray s log (.vec vs) s' ∧ RepElements m.mem vs es) := by
  refine ⟨fun log v s' h => array_sound hs ⟨log, h⟩, fun x ms s' hx r => ?_⟩
  obtain ⟨vs, ⟨log, h⟩, hv⟩ := array_complete hx hs r
  exact ⟨log, vs, h, hv⟩

/-- `string.parse` accepts exactly the strings of the grammar, whatever follows; its value is the text between the
quotes. -/
theorem C54_string (m : Machine) (s : Span) (hs : s.Valid m.mem) :
    (∀ log v s', Parses (ctx m) string s log v s' →
      ∃ x, Reads m.mem s (0x22 :: (x ++ [0x22])) s' ∧ Characters x ∧ RepString m.mem v x) ∧
    (∀ x s', Characters x → Reads m.mem s (0x22 :: (x ++ [0x22])) s' →
      ∃ log v, Parses (ctx m) string s log v s' ∧ RepString m.mem v x) := by
  refine ⟨fun log v s' h => string_ok hs ⟨log, h⟩, fun x s' hx r => ?_⟩
  obtain ⟨v, ⟨log, h⟩, hv⟩ := ok_string hs r hx
  exact ⟨log, v, h, hv⟩

/-- What `JsonValue::parse` leaves does not start with white space. -/
theorem C46_leftover (m : Machine) (s : Span) (hs : s.Valid m.mem) (log : List Call) (v : Val) (s' : Span)
    (h : Parses (ctx m) jsonValue s log v s') : ∀ c ∈ (s'.elems m.mem).head?, ¬ Ws [c] := by
  obtain ⟨_, _, _, _, _, h⟩ := C54_sound m s hs log v s' h
  exact h

/-! ### The grammar is unambiguous -/

/-- A text denotes at most one document. -/
theorem C54_unambiguous (x : List Nat) (d d' : Doc) (h : Element x d) (h' : Element x d') : d = d' := by
  let m : Machine := ⟨fun _ => x, .gnuRuntime, true, fun _ _ => false⟩
  let s : Span := ⟨.at 0 0, x.length⟩
  have hs : s.Valid m.mem := by show 0 + x.length ≤ x.length; omega
  have e : s.elems m.mem = x ++ [] := by simp [s, m, Span.elems]
  have r := Reads.of_text hs e
  have e' : (s.drop x.length).elems m.mem = [] :=
    List.eq_nil_of_length_eq_zero (by rw [(r.valid hs).elems_length]; have := r.size; simp only [s] at this ⊢; omega)
  obtain ⟨_, v, h1, hv⟩ := C54_complete m s hs x d _ h r (by rw [e']; simp [Stops])
  obtain ⟨_, v', h2, hv'⟩ := C54_complete m s hs x d' _ h' r (by rw [e']; simp [Stops])
  obtain ⟨rfl, -⟩ := Ok.det ⟨_, h1⟩ ⟨_, h2⟩
  exact hv.unique hv'

/-! ### Cases -/

/-- a machine with this text in memory -/
def machine (text : String) : Machine := ⟨fun _ => lit text, .gnuRuntime, true, fun _ _ => false⟩
def input (text : String) : Span := ⟨.at 0 0, (lit text).length⟩
theorem input_valid (text : String) : (input text).Valid (machine text).mem := by show 0 + _ ≤ (lit text).length; simp [input]

/-- The text `[ {"a": -1.5e+3}, "\n", null ]` is in the grammar … -/
theorem example_element : Element (lit " [ {\"a\": -1.5e+3}, \"\\n\", null ]")
    (.arr [.obj [(lit "a", .num (lit "-1") (some (lit "5")) (some (lit "+3")))], .str (lit "\\n"), .null]) := by
  have w : Ws [32] := by simp [Ws]
  have n : Ws [] := by simp [Ws]
  refine .mk (a := [32]) (b := []) w (.arr (x := lit " {\"a\": -1.5e+3}, \"\\n\", null ") ?_) n
  refine .more (x := lit " {\"a\": -1.5e+3}") (y := lit " \"\\n\", null ") ?_
    (.more (x := lit " \"\\n\"") (y := lit " null ") ?_ (.one ?_))
  · refine .mk (a := [32]) (b := []) w (.obj (x := lit "\"a\": -1.5e+3") (.one ?_)) n
    refine .mk (a := []) (b := []) n (raw := [97]) (.cons (x := [97]) (.plain (by simp) (by simp)) .nil) n
      (.mk (a := [32]) (x := lit "-1.5e+3") (b := []) w ?_ n)
    exact .num (i := [45, 49]) (f := [46, 53]) (e := [101, 43, 51]) (.negDigit ⟨by simp, by simp⟩)
      (.some ⟨by simp, by simp [Digit]⟩) (.some (sign := [0x2B]) (by simp) (by simp) ⟨by simp, by simp [Digit]⟩)
  · exact .mk (a := [32]) (b := []) w (.str (.cons (x := [92, 110]) (.escape (by simp)) .nil)) n
  · exact .mk (a := [32]) (b := [32]) w .null w

/-- … so it is accepted, and its value represents that document. -/
example : ∃ log v s', Parses (ctx (machine " [ {\"a\": -1.5e+3}, \"\\n\", null ]")) jsonValue
    (input " [ {\"a\": -1.5e+3}, \"\\n\", null ]") log v s' ∧ s'.len = 0 :=
  (C54_accepts _ _ (input_valid _)).2 ⟨_, example_element⟩

/-- `[1 2]` is not in the grammar: the parser fails on it. -/
example : ∃ log, ParseFails (ctx (machine "[1 2]")) jsonArray (input "[1 2]") log (input "[1 2]") := ⟨_, Ex.parses _ 40 rfl⟩

/-- Unlike json.org's grammar, the example accepts control characters in strings (json.cpp:44). -/
theorem C54_control_character : ∃ log v s', Parses (ctx (machine "\"\n\"")) jsonValue (input "\"\n\"") log v s' ∧
    s'.len = 0 :=
  (C54_accepts _ _ (input_valid _)).2 ⟨.str [10], .mk (a := []) (b := []) (by simp [Ws])
    (.str (raw := [10]) (.cons (x := [10]) (.plain (by simp) (by simp)) .nil)) (by simp [Ws])⟩

end Tok3n.Json
