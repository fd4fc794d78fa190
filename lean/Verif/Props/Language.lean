import Verif.Proof.LanguageParse
import Verif.Props.Gives
import Verif.Props.Cut
/-
Property C85: a parser expression as a context-free grammar.
-/

namespace Tok3n

variable {α β : Type} [LinearOrder α]

/-- the words of `p` -/
abbrev WordC (C : Ctx α β) : Parser α → List β → Prop := Word C.eqv fun k => (C.custom k).body

omit [LinearOrder α] in
/-- What `lookahead` consumes is a word, for every parser and every readable input. -/
theorem C85_lookahead_sound (C : Ctx α β) (p : Parser α) (s : Span) (hs : s.Valid C.mem) (log : List Call) (s' : Span)
    (h : Looks C p s log s') : ∃ w, s.elems C.mem = w ++ s'.elems C.mem ∧ WordC C p w := by
  obtain ⟨-, k, hk, ha⟩ := ((C45_lookahead C p s hs).1 log s').1 h
  exact (spelt_peg hs hk ha).2

/-- What `parse` consumes is a word, also if filters, joins and exceptions make it try other alternatives than `lookahead`;
only a custom parser whose type makes a success of a failure of its `get_parser()` (C41) can add something. -/
theorem C85_parse_sound (C : Ctx α β) (p : Parser α) (hc : Compiles C p) (ht : C.Typed) (hj : JoinSafe C p)
    (hp : ∀ k, ¬ Pretends C k) (s : Span) (hs : s.Valid C.mem) (log : List Call) (v : Val) (s' : Span)
    (h : Parses C p s log v s') : ∃ w, s.elems C.mem = w ++ s'.elems C.mem ∧ WordC C p w :=
  (((C84_parse C p hc ht hj s hs).1 log v s').1 h |>.word hp hs).get.2

section
variable {C : Ctx α β} {null : Nat → Bool} {begin' : Nat → β → Bool} {follow : Nat → β → Prop}

/-- What is a word is consumed: if the text begins with a word of a clear grammar, and goes on with what may come behind it
or is at its end, `lookahead` consumes just that word, and so does `parse`, unless it ends with an exception. -/
theorem C85_complete (ht : ClearTable C null begin' follow) (p : Parser α) (F : β → Prop)
    (hp : Clear C null begin' follow p F) (s : Span) (hs : s.Valid C.mem) (w xs : List β)
    (hw : s.elems C.mem = w ++ xs) (h : WordC C p w) (hF : GoesOn F xs) :
    LooksAt C p s w.length ∧
    (NeverOverrules C p → (∀ log e, ¬ ParseErr C p s log e) → ParsesAt C p s w.length) := by
  have hpeg : PegC C p (s.elems C.mem) (some w.length) := by rw [hw]; exact peg_of_word ht h F xs hp hF
  have hk := hpeg.le _ rfl
  rw [hs.elems_length] at hk
  refine ⟨(looksAt_peg hs _).2 hpeg, fun hn he => ?_⟩
  obtain ⟨log, v, h⟩ := ((C45_parse C p hn s hs he (s.drop w.length)).1).2 ⟨_, hpeg, hs.advanced hk⟩
  exact ⟨log, v, _, h, hs.advanced hk⟩

/-- A clear grammar means what it says: `complete(p)` accepts exactly the words of `p`. -/
theorem C85_language (ht : ClearTable C null begin' follow) (p : Parser α)
    (hp : Clear C null begin' follow p fun _ => False) (s : Span) (hs : s.Valid C.mem) :
    ((∃ log s', Looks C (.complete p) s log s') ↔ WordC C p (s.elems C.mem)) ∧
    (NeverOverrules C (.complete p) → (∀ log e, ¬ ParseErr C (.complete p) s log e) →
      ((∃ log v s', Parses C (.complete p) s log v s') ↔ WordC C p (s.elems C.mem))) := by
  have hpeg : (∃ k, PegC C (.complete p) (s.elems C.mem) (some k)) ↔ WordC C p (s.elems C.mem) := by
    constructor
    · rintro ⟨k, h⟩
      obtain ⟨-, h2⟩ := word_of_peg h k rfl
      cases h with
      | hit hb => cases hb
      | completeHit h =>
        rw [List.take_length] at h2
        cases h2 with
        | basic hb => cases hb
        | complete h2 => exact h2
    · intro h
      have := peg_of_word ht (.complete h) (fun _ => False) [] ⟨hp, fun _ => id⟩ nofun
      rw [List.append_nil] at this
      exact ⟨_, this⟩
  have hadv : ∀ {k}, PegC C (.complete p) (s.elems C.mem) (some k) → s.Advanced k (s.drop k) := fun h => by
    have hk := h.le _ rfl
    rw [hs.elems_length] at hk
    exact hs.advanced hk
  refine ⟨?_, fun hn he => ?_⟩
  · rw [← hpeg]
    constructor
    · rintro ⟨log, s', h⟩
      obtain ⟨-, k, hk, -⟩ := ((C45_lookahead C _ s hs).1 log s').1 h
      exact ⟨k, hk⟩
    · rintro ⟨k, h⟩
      exact ⟨[], _, ((C45_lookahead C _ s hs).1 [] _).2 ⟨rfl, k, h, hadv h⟩⟩
  · rw [← hpeg]
    constructor
    · rintro ⟨log, v, s', h⟩
      obtain ⟨k, hk, -⟩ := (C45_parse C _ hn s hs he s').1.1 ⟨log, v, h⟩
      exact ⟨k, hk⟩
    · rintro ⟨k, h⟩
      obtain ⟨log, v, h⟩ := (C45_parse C _ hn s hs he _).1.2 ⟨k, h, hadv h⟩
      exact ⟨log, v, _, h⟩

omit [LinearOrder α] in
/-- A text has at most one beginning that is a word of a clear grammar with something behind it that may come there. -/
theorem C85_unique (ht : ClearTable C null begin' follow) (p : Parser α) (F : β → Prop)
    (hp : Clear C null begin' follow p F) (w w' xs xs' : List β) (h : WordC C p w) (h' : WordC C p w')
    (e : w ++ xs = w' ++ xs') (hF : GoesOn F xs) (hF' : GoesOn F xs') : w = w' := by
  have h1 := peg_of_word ht h F xs hp hF
  have h2 := peg_of_word ht h' F xs' hp hF'
  rw [e] at h1
  have h3 : w.length = w'.length := Option.some.inj (C45_deterministic _ _ _ _ _ _ h1 h2)
  exact (List.append_inj e h3).1

/-- A check for the conditions in `Clear`: a productive grammar whose matches are never empty and begin with elements other
than those of `F` does not match where `F` comes, … -/
theorem C85_refuses (ht : BeginTable C null begin') (p : Parser α) (ks : List Nat) (null' : Nat → Bool) (rank : Nat → Nat)
    (hr : productive C ks null' rank p = true) (hn : p.nullable null = false) (F : β → Prop)
    (hF : ∀ x, F x → p.begins C.eqv null begin' x = false) : Refuses C p F := by
  intro xs hx
  obtain ⟨o, ho⟩ := peg_total hr xs
  cases o with
  | none => exact ho
  | some k =>
    have h := peg_begins ht ho k rfl
    have hk : 0 < k := Nat.pos_of_ne_zero fun h0 => by have := h.1 h0; rw [hn] at this; cases this
    obtain ⟨x, rest, rfl, hb⟩ := h.2 hk
    rw [hF x (hx x rfl)] at hb
    cases hb

/-- … nor where a word of `q` comes, if these begin with other elements (and, if they can be empty, `F` as well). -/
theorem C85_leaves (ht : BeginTable C null begin') (p q : Parser α) (ks : List Nat) (null' : Nat → Bool)
    (rank : Nat → Nat) (hr : productive C ks null' rank p = true) (hn : p.nullable null = false) (F : β → Prop)
    (hq : ∀ x, q.begins C.eqv null begin' x = true → p.begins C.eqv null begin' x = false)
    (hF : q.nullable null = true → ∀ x, F x → p.begins C.eqv null begin' x = false) : Leaves C F p q := by
  intro w xs hw hx
  have hb := word_begins ht hw
  refine C85_refuses ht p ks null' rank hr hn (fun x => q.begins C.eqv null begin' x = true ∨
    (q.nullable null = true ∧ F x)) (fun x h => h.elim (hq x) fun h => hF h.1 x h.2) _ ?_
  cases w with
  | nil => exact fun x h => .inr ⟨hb, hx x h⟩
  | cons y w => rintro x ⟨⟩; exact .inl hb

end

/-- It matters that the grammar is clear: `complete("a" | "ab")` does not accept the word `ab`, and
`complete(*"a" >> "a")` accepts none of its words `a`, `aa`, … -/
theorem C85_refuted_order :
    (WordC (Ex.ctx "ab") (.choice [Ex.all "a", Ex.all "ab"]) ((Ex.input "ab").elems (Ex.ctx "ab").mem) ∧
      LookFails (Ex.ctx "ab") (.complete (.choice [Ex.all "a", Ex.all "ab"])) (Ex.input "ab") [] (Ex.input "ab")) ∧
    (WordC (Ex.ctx "aa") (.sequence [.zeroOrMore (Ex.all "a"), Ex.all "a"]) ((Ex.input "aa").elems (Ex.ctx "aa").mem) ∧
      LookFails (Ex.ctx "aa") (.complete (.sequence [.zeroOrMore (Ex.all "a"), Ex.all "a"])) (Ex.input "aa") []
        (Ex.input "aa")) := by
  refine ⟨⟨.choice (.tail _ (.head _)) (.basic trivial
      ((matches_iff (b := .allOf (Ex.str "ab")) rfl _ _).2 (by decide +kernel))), Ex.looks _ 9 rfl⟩, ?_, Ex.looks _ 9 rfl⟩
  have ha : WordC (Ex.ctx "aa") (Ex.all "a") [97] := .basic trivial
    ((matches_iff (b := .allOf (Ex.str "a")) rfl _ _).2 (by decide +kernel))
  exact .sequenceMore (u := [97]) (v := [97]) (.zeroMore (u := [97]) (v := []) ha .zeroNil)
    (.sequenceMore (u := [97]) (v := []) ha .sequenceNil)

/-- It matters that custom parsers do not make a success of a failure: here one succeeds on `a` without consuming anything,
but its only word is `x`. -/
theorem C85_refuted_pretends : let C := { Ex.ctx "a" with
      custom := fun _ => ⟨.map (Ex.all "x") (.user 0), true, .user 1⟩ }
    Compiles C (.custom 0) ∧ (∃ v, Parses C (.custom 0) (Ex.input "a") [] v (Ex.input "a")) ∧ ∀ w, WordC C (.custom 0) w → w = [120] := by
  refine ⟨⟨⟨fun _ => rfl, fun _ => rfl, fun _ => rfl, nofun⟩, rfl, rfl, rfl⟩, ⟨_, Ex.parses _ 9 rfl⟩, fun w h => ?_⟩
  cases h with
  | basic hb => cases hb
  | custom h =>
    cases h with
    | basic hb => cases hb
    | map h =>
      cases h with
      | basic hb hm =>
        obtain ⟨h1, h2⟩ := (matches_iff (b := .allOf (Ex.str "x")) rfl _ _).1 hm
        match w, h1, h2 with
        | [x], _, h2 =>
          have h2 : ((120 == x) && true) = true := h2
          simp at h2
          rw [h2]

/-! ### Concrete cases -/

/-- Custom parser 0 is `ignore(+"ab"_any | "(" >> custom 0 % delimit(",") >> ")")`. -/
def Ex.tuples (text : String) : Ctx Nat Nat := { Ex.ctx text with
  custom := fun _ => ⟨.ignore (.choice [.oneOrMore (Ex.any "ab"),
    .sequence [Ex.all "(", .delimit (.custom 0) (Ex.all ","), Ex.all ")"]]), true, .void⟩ }

theorem Ex.tuples_begin (text : String) : BeginTable (Ex.tuples text) (fun k => k != 0) (fun _ => Ex.listsBegin) where
  nulls k h := by simp [tuples, Parser.nullable, someNullable, allNullable] at h
  begins k x h := by
    simp [tuples, Parser.begins, someBegins, sequenceBegins, Parser.nullable, ctx, str_brackets] at h
    simp [listsBegin]
    omega

theorem Ex.str_comma : Ex.str "," = [44] ∧ Ex.str "ab" = [97, 98] := ⟨rfl, rfl⟩

/-- `,` and `)` may come behind it -/
theorem Ex.tuples_table (text : String) : ClearTable (Ex.tuples text) (fun k => k != 0) (fun _ => Ex.listsBegin)
    (fun _ x => x = 44 ∨ x = 41) where
  toBeginTable := Ex.tuples_begin text
  clear k := by
    refine ⟨⟨⟨trivial, ?_⟩, ⟨trivial, ⟨?_, trivial, ?_⟩, trivial, trivial⟩, trivial⟩, ?_⟩
    · refine C85_refuses (Ex.tuples_begin text) _ [0] (fun k => k != 0) (fun _ => 0) rfl rfl _ fun x hx => ?_
      simp [Parser.begins, tuples, ctx, str_comma]
      omega
    · intro x hx
      simp [behind, sequenceBegins, Parser.begins, tuples, ctx, str_comma, str_brackets, Parser.nullable, allNullable] at hx
      omega
    · refine C85_refuses (Ex.tuples_begin text) _ [0] (fun k => k != 0) (fun _ => 0) rfl rfl _ fun x hx => ?_
      simp [behind, sequenceBegins, Parser.begins, tuples, ctx, str_comma, str_brackets, Parser.nullable, allNullable] at hx ⊢
      omega
    · refine .cons (fun q hq => ?_) (.cons nofun .nil)
      simp only [List.mem_singleton] at hq
      subst hq
      refine C85_leaves (Ex.tuples_begin text) _ _ [0] (fun k => k != 0) (fun _ => 0) rfl rfl _ (fun x hx => ?_) nofun
      simp [sequenceBegins, Parser.begins, tuples, ctx, str_comma, str_brackets, Parser.nullable] at hx ⊢
      omega

/-- nested tuples are accepted exactly if they are of this form -/
example (text : String) : (∃ log s', Looks (Ex.tuples text) (.complete (.custom 0)) (Ex.input text) log s') ↔
    WordC (Ex.tuples text) (.custom 0) ((Ex.input text).elems (Ex.tuples text).mem) :=
  (C85_language (Ex.tuples_table text) (.custom 0) nofun (Ex.input text) (Ex.input_valid text)).1

example (text : String) : (∃ log v s', Parses (Ex.tuples text) (.complete (.custom 0)) (Ex.input text) log v s') ↔
    WordC (Ex.tuples text) (.custom 0) ((Ex.input text).elems (Ex.tuples text).mem) := by
  have hp : Plain (Ex.tuples text) (.complete (.custom 0)) := plain_of (fun k => ⟨rfl, fun h => h.1 rfl⟩) rfl
  refine (C85_language (Ex.tuples_table text) (.custom 0) nofun (Ex.input text) (Ex.input_valid text)).2 hp.never fun log e he => ?_
  have ht (text) : (Ex.tuples text).Typed := ⟨(Ex.ctx_typed text).fn, (Ex.ctx_typed text).const, (Ex.ctx_typed text).ctor,
    (Ex.ctx_typed text).dflt, (Ex.ctx_typed text).conv, (Ex.ctx_typed text).convOpt⟩
  obtain ⟨x, rfl, h⟩ := ((C84_parse (Ex.tuples text) (.complete (.custom 0))
    ⟨⟨fun _ => rfl, fun _ => rfl, fun _ => rfl, nofun⟩, rfl, rfl, rfl⟩
    (ht text) hp.joinSafe _ (Ex.input_valid text)).2.2.1 log e).1 he
  cases h with
  | completeStops h hs =>
    cases hs
    generalize ho : (Ending.throws x : Ending Val) = o at h
    cases h with
    | custom _ h =>
      rename_i o' _
      cases o' <;> cases ho
      cases h
    | pretendedThrows hk => exact hk.1 rfl
    | _ => cases ho

/-- `(a,(bb))` is accepted, and so it is a word -/
example : WordC (Ex.tuples "(a,(bb))") (.custom 0) (Ex.str "(a,(bb))") :=
  (C85_language (Ex.tuples_table "(a,(bb))") (.custom 0) nofun (Ex.input _) (Ex.input_valid _)).1.1
    ⟨[], ⟨.at 0 8, 0⟩, Ex.looks _ 20 rfl⟩

end Tok3n
