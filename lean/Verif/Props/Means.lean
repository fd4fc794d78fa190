import Verif.Proof.MeansParse
import Verif.Proof.MeansText
import Verif.Props.Language
import Verif.Props.Exceptions
import Verif.Props.Terminate
/-
Property C87: a parser expression as a context-free grammar that gives values.
-/

namespace Tok3n

variable {α β : Type} [LinearOrder α]

/-- What `parse` returns is something the consumed text can mean, for every grammar; only a custom parser whose type makes a
success of a failure of its `get_parser()` (C41) can add something. -/
theorem C87_sound (C : Ctx α β) (p : Parser α) (hc : Compiles C p) (ht : C.Typed) (hj : JoinSafe C p)
    (hp : ∀ k, ¬ Pretends C k) (s : Span) (hs : s.Valid C.mem) (log : List Call) (v : Val) (s' : Span)
    (h : Parses C p s log v s') : Means C p s v s' :=
  (((C84_parse C p hc ht hj s hs).1 log v s').1 h |>.means hp).get

section
variable {C : Ctx α β} {null : Nat → Bool} {begin' : Nat → β → Bool} {follow : Nat → β → Prop}

omit [LinearOrder α] in
/-- In a clear grammar a text means one thing: there is one value and one place where it ends, with something behind it that
may come there. -/
theorem C87_unique (ht : ClearTable C null begin' follow) (p : Parser α) (F : β → Prop)
    (hp : Clear C null begin' follow p F) (s : Span) (hs : s.Valid C.mem) (v v' : Val) (s1 s2 : Span)
    (h : Means C p s v s1) (h' : Means C p s v' s2) (hF : GoesOn F (s1.elems C.mem)) (hF' : GoesOn F (s2.elems C.mem)) :
    v = v' ∧ s1 = s2 :=
  ⟨h.unique ht hp hs hF h' hF', strides_unique ht hp hs h.strides hF h'.strides hF'⟩

/-- `parse` finds it: if the text can be read as a `p`, and goes on with what may come behind it or is at its end, `parse`
consumes just that and returns what it means, unless it ends with an exception or not at all.  What filters and joins
turn down has no meaning, and they may turn down whatever they like. -/
theorem C87_found (ht : ClearTable C null begin' follow) (p : Parser α) (F : β → Prop)
    (hp : Clear C null begin' follow p F) (hc : Compiles C p) (hty : C.Typed) (hj : JoinSafe C p)
    (hk : ∀ k, ¬ Pretends C k) (s : Span) (hs : s.Valid C.mem) (v : Val) (s' : Span) (h : Means C p s v s')
    (hF : GoesOn F (s'.elems C.mem)) :
    (∃ log, Parses C p s log v s') ∨ (∃ log e, ParseErr C p s log e) ∨ ParseLoops C p s := by
  obtain ⟨h1, -, h3, h4⟩ := C84_parse C p hc hty hj s hs
  by_cases hl : ParseLoops C p s
  · exact .inr (.inr hl)
  · rw [h4] at hl
    push Not at hl
    obtain ⟨log, o, ho⟩ := hl
    cases h.found hk ht hp hs hF ho with
    | ok => exact .inl ⟨log, (h1 _ _ _).2 ho⟩
    | throws => exact .inr (.inl ⟨log, _, (h3 _ _).2 ⟨_, rfl, ho⟩⟩)

/-- It ends if no filter or join overrules, since `lookahead` does. -/
theorem C87_complete (ht : ClearTable C null begin' follow) (p : Parser α) (F : β → Prop)
    (hp : Clear C null begin' follow p F) (hc : Compiles C p) (hty : C.Typed) (hj : JoinSafe C p)
    (hk : ∀ k, ¬ Pretends C k) (hn : NeverOverrules C p) (s : Span) (hs : s.Valid C.mem)
    (he : ∀ log e, ¬ ParseErr C p s log e) (v : Val) (s' : Span) (h : Means C p s v s')
    (hF : GoesOn F (s'.elems C.mem)) : ∃ log, Parses C p s log v s' := by
  obtain ⟨w, e, hw, hd⟩ := h.strides.word hs
  obtain ⟨log, v0, s0, h0, ha⟩ := (C85_complete ht p F hp s hs w _ e hw hF).2 hn he
  obtain rfl : s' = s0 := by rw [hd, ha.eq_drop]
  cases h.unique ht hp hs hF (C87_sound C p hc hty hj hk s hs log v0 _ h0) hF
  exact ⟨log, h0⟩

/-- A clear grammar means what it says, values included: if `complete(p)` ends without an exception, it returns `v` exactly
if the whole text, read as a `p`, has the value `v`. -/
theorem C87_value (ht : ClearTable C null begin' follow) (p : Parser α)
    (hp : Clear C null begin' follow p fun _ => False) (hc : Compiles C (.complete p)) (hty : C.Typed)
    (hj : JoinSafe C (.complete p)) (hk : ∀ k, ¬ Pretends C k) (s : Span) (hs : s.Valid C.mem)
    (hl : ¬ ParseLoops C (.complete p) s) (he : ∀ log e, ¬ ParseErr C (.complete p) s log e) (v : Val) :
    (∃ log s', Parses C (.complete p) s log v s') ↔ ∃ s', Means C p s v s' ∧ s'.len = 0 := by
  constructor
  · rintro ⟨log, s', h⟩
    have hg := ((C84_parse C _ hc hty hj s hs).1 log v s').1 h
    cases hg with
    | hit hb => cases hb
    | complete h hl => exact ⟨s', (h.means hk).get, hl⟩
    | completeStops _ h => cases h
  · rintro ⟨s', h, h0⟩
    rcases C87_found ht (.complete p) (fun _ => False) ⟨hp, fun _ => id⟩ hc hty hj hk s hs v s' (.complete h) (by
        have : s'.elems C.mem = [] := List.length_eq_zero_iff.1 (by rw [(h.strides.valid hs).elems_length, h0])
        rw [this]
        nofun) with ⟨log, h⟩ | ⟨log, e, h⟩ | h
    · exact ⟨log, s', h⟩
    · exact absurd h (he log e)
    · exact absurd h hl

/-- Nothing is left to assume about the text if the grammar is productive (C39) and no function object throws: `complete(p)`
then returns what the text means, and fails if it means nothing. -/
theorem C87_decides (ht : ClearTable C null begin' follow) (p : Parser α)
    (hp : Clear C null begin' follow p fun _ => False) (hc : Compiles C (.complete p)) (hty : C.Typed)
    (hj : JoinSafe C (.complete p)) (hk : ∀ k, ¬ Pretends C k) (ks : List Nat) (null' : Nat → Bool) (rank : Nat → Nat)
    (hr : productive C ks null' rank p = true) (he : ∀ c, C.throws c = none) (s : Span) (hs : s.Valid C.mem) :
    (∀ v, (∃ log s', Parses C (.complete p) s log v s') ↔ ∃ s', Means C p s v s' ∧ s'.len = 0) ∧
    ((∃ log, ParseFails C (.complete p) s log s) ↔ ¬ ∃ v s', Means C p s v s' ∧ s'.len = 0) := by
  have hl := (C39_checked C (.complete p) ks null' rank hr s hs).1
  have he' : ∀ log e, ¬ ParseErr C (.complete p) s log e := fun log e h => by
    obtain ⟨x, rfl, -⟩ := ((C84_parse C _ hc hty hj s hs).2.2.1 log e).1 h
    exact C49_no_throw C (.complete p) s log x he h
  have hv := C87_value ht p hp hc hty hj hk s hs hl he'
  refine ⟨hv, ?_⟩
  obtain ⟨h1, h2, h3, h4⟩ := C84_parse C _ hc hty hj s hs
  constructor
  · rintro ⟨log, h⟩ ⟨v, hm⟩
    obtain ⟨log', s', h'⟩ := (hv v).2 hm
    unfold Parses at h'
    unfold ParseFails at h
    rw [h'] at h
    cases h
  · intro hn
    rw [h4] at hl
    push Not at hl
    obtain ⟨log, o, ho⟩ := hl
    cases o with
    | ok v s' => exact absurd ⟨v, (hv v).1 ⟨log, s', (h1 _ _ _).2 ho⟩⟩ hn
    | no => exact ⟨log, (h2 _ _).2 ⟨rfl, ho⟩⟩
    | throws x => exact absurd ((h3 _ _).2 ⟨x, rfl, ho⟩) (he' log _)

omit [LinearOrder α] in
/-- What comes behind a text has no part in what it means: what `k` elements mean in one input, they mean in every input
that begins at the same place and has them. -/
theorem C87_text (p : Parser α) (s t : Span) (hs : s.Valid C.mem) (ht : t.Valid C.mem) (e : t.ptr = s.ptr) (v : Val)
    (s' : Span) (k : Nat) (h : Means C p s v s') (ha : s.Advanced k s') (hk : k ≤ t.len) : Means C p t v (t.drop k) := by
  have hz := ha.size
  obtain ⟨t', h', hb⟩ := h.besides t hs ht e (by omega)
  obtain ⟨j, hj, -⟩ := h'.strides
  have := hj.size
  have := hb.2
  obtain rfl : j = k := by omega
  rw [← hj.eq_drop]
  exact h'

/-- So in a clear grammar the text behind a match does not decide what is returned: if `parse` consumed `k` elements of one
input and returned `v`, it does so on every input that begins with these at the same place and goes on with what may come
behind, unless it ends with an exception or not at all. -/
theorem C87_behind (ht : ClearTable C null begin' follow) (p : Parser α) (F : β → Prop)
    (hp : Clear C null begin' follow p F) (hc : Compiles C p) (hty : C.Typed) (hj : JoinSafe C p)
    (hk : ∀ k, ¬ Pretends C k) (s t : Span) (hs : s.Valid C.mem) (hv : t.Valid C.mem) (e : t.ptr = s.ptr) (log : List Call)
    (v : Val) (s' : Span) (k : Nat) (h : Parses C p s log v s') (ha : s.Advanced k s') (hkt : k ≤ t.len)
    (hF : GoesOn F ((t.drop k).elems C.mem)) :
    (∃ log', Parses C p t log' v (t.drop k)) ∨ (∃ log' x, ParseErr C p t log' x) ∨ ParseLoops C p t :=
  C87_found ht p F hp hc hty hj hk t hv v _
    (C87_text p s t hs hv e v s' k (C87_sound C p hc hty hj hk s hs log v s' h) ha hkt) hF

end

/-- It matters that the grammar is clear: the text `a` can be read in two ways as `~"a" >> ~"a"`, of which `parse` returns
one, and `aa` can be read as `*"a" >> "a"`, but `parse` fails. -/
theorem C87_refuted_ambiguous :
    (∃ v v', v ≠ v' ∧ Means (Ex.ctx "a") (.sequence [.maybe (Ex.all "a"), .maybe (Ex.all "a")]) (Ex.input "a") v ⟨.at 0 1, 0⟩ ∧
      Means (Ex.ctx "a") (.sequence [.maybe (Ex.all "a"), .maybe (Ex.all "a")]) (Ex.input "a") v' ⟨.at 0 1, 0⟩ ∧
      Parses (Ex.ctx "a") (.complete (.sequence [.maybe (Ex.all "a"), .maybe (Ex.all "a")])) (Ex.input "a") [] v
        ⟨.at 0 1, 0⟩) ∧
    (∃ v, Means (Ex.ctx "aa") (.sequence [.zeroOrMore (Ex.all "a"), Ex.all "a"]) (Ex.input "aa") v ⟨.at 0 2, 0⟩) ∧
      ParseFails (Ex.ctx "aa") (.complete (.sequence [.zeroOrMore (Ex.all "a"), Ex.all "a"])) (Ex.input "aa") []
        (Ex.input "aa") := by
  refine ⟨⟨.tup [.opt (some (.span ⟨.at 0 0, 1⟩)), .opt none], .tup [.opt none, .opt (some (.span ⟨.at 0 0, 1⟩))], by simp,
    ?_, ?_, Ex.parses _ 9 rfl⟩, ⟨.tup [.vec [.span ⟨.at 0 0, 1⟩], .span ⟨.at 0 1, 1⟩], ?_⟩, Ex.parses _ 9 rfl⟩
  · have ha : Means (Ex.ctx "a") (Ex.all "a") (Ex.input "a") (.span ⟨.at 0 0, 1⟩) ⟨.at 0 1, 0⟩ :=
      .basic trivial ((matches_iff (b := .allOf (Ex.str "a")) rfl _ _).2 (by decide +kernel)) ⟨rfl, .inr ⟨0, 0, rfl, rfl⟩⟩
    exact .sequence (.value (by decide +kernel) (.maybe ha) (.value (by decide +kernel) .maybeNot .nil))
  · have ha : Means (Ex.ctx "a") (Ex.all "a") (Ex.input "a") (.span ⟨.at 0 0, 1⟩) ⟨.at 0 1, 0⟩ :=
      .basic trivial ((matches_iff (b := .allOf (Ex.str "a")) rfl _ _).2 (by decide +kernel)) ⟨rfl, .inr ⟨0, 0, rfl, rfl⟩⟩
    exact .sequence (.value (by decide +kernel) .maybeNot (.value (by decide +kernel) (.maybe ha) .nil))
  · have ha : Means (Ex.ctx "aa") (Ex.all "a") (Ex.input "aa") (.span ⟨.at 0 0, 1⟩) ⟨.at 0 1, 1⟩ :=
      .basic trivial ((matches_iff (b := .allOf (Ex.str "a")) rfl _ _).2 (by decide +kernel)) ⟨rfl, .inr ⟨0, 0, rfl, rfl⟩⟩
    have hb : Means (Ex.ctx "aa") (Ex.all "a") ⟨.at 0 1, 1⟩ (.span ⟨.at 0 1, 1⟩) ⟨.at 0 2, 0⟩ :=
      .basic trivial ((matches_iff (b := .allOf (Ex.str "a")) rfl _ _).2 (by decide +kernel)) ⟨rfl, .inr ⟨0, 1, rfl, rfl⟩⟩
    exact .sequence (.value (by decide +kernel) (.zeroOrMore (.more ha .over)) (.value (by decide +kernel) hb .nil))

/-! ### Concrete cases -/

/-- Custom parser 0 is `(+"ab"_any | "("_ign >> custom 0 % delimit(",") >> ")"_ign) % map<f>`, a tree with words at its leaves;
no callback throws, and a predicate accepts what is at an even place. -/
def Ex.wordTrees (text : String) : Ctx Nat Nat := { Ex.ctx text with
  fnRet := fun _ _ => some (.user 0)
  fnCall := fun _ vs => .ok (.user 0 0 vs)
  boolTy := fun t => t == .user 0
  truthy := fun v => match v with
    | .user _ _ [.span ⟨.at _ i, _⟩] => i % 2 == 0
    | _ => false
  custom := fun _ => ⟨.map (.choice [.oneOrMore (Ex.any "ab"),
    .sequence [.ignore (Ex.all "("), .delimit (.custom 0) (.ignore (Ex.all ",")), .ignore (Ex.all ")")]]) (.user 0), true,
    .user 0⟩ }

theorem Ex.wordTrees_begin (text : String) : BeginTable (Ex.wordTrees text) (fun k => k != 0) (fun _ => Ex.listsBegin) where
  nulls k h := by simp [wordTrees, Parser.nullable, someNullable, allNullable] at h
  begins k x h := by
    simp [wordTrees, Parser.begins, someBegins, sequenceBegins, Parser.nullable, ctx, str_brackets] at h
    simp [listsBegin]
    omega

/-- `,` and `)` may come behind it -/
theorem Ex.wordTrees_table (text : String) : ClearTable (Ex.wordTrees text) (fun k => k != 0) (fun _ => Ex.listsBegin)
    (fun _ x => x = 44 ∨ x = 41) where
  toBeginTable := Ex.wordTrees_begin text
  clear k := by
    refine ⟨⟨⟨trivial, ?_⟩, ⟨trivial, ⟨?_, trivial, ?_⟩, trivial, trivial⟩, trivial⟩, ?_⟩
    · refine C85_refuses (Ex.wordTrees_begin text) _ [0] (fun k => k != 0) (fun _ => 0) rfl rfl _ fun x hx => ?_
      simp [Parser.begins, wordTrees, ctx, str_comma]
      omega
    · intro x hx
      simp [behind, sequenceBegins, Parser.begins, wordTrees, ctx, str_comma, str_brackets, Parser.nullable, allNullable] at hx
      omega
    · refine C85_refuses (Ex.wordTrees_begin text) _ [0] (fun k => k != 0) (fun _ => 0) rfl rfl _ fun x hx => ?_
      simp [behind, sequenceBegins, Parser.begins, wordTrees, ctx, str_comma, str_brackets, Parser.nullable, allNullable] at hx ⊢
      omega
    · refine .cons (fun q hq => ?_) (.cons nofun .nil)
      simp only [List.mem_singleton] at hq
      subst hq
      refine C85_leaves (Ex.wordTrees_begin text) _ _ [0] (fun k => k != 0) (fun _ => 0) rfl rfl _ (fun x hx => ?_) nofun
      simp [sequenceBegins, Parser.begins, wordTrees, ctx, str_comma, str_brackets, Parser.nullable] at hx ⊢
      omega

theorem Ex.wordTrees_typed (text : String) : (Ex.wordTrees text).Typed :=
  ⟨fun _ _ _ _ _ h _ h' => by cases h; cases h'; exact ⟨_, _, rfl⟩, (Ex.ctx_typed text).const, (Ex.ctx_typed text).ctor,
    (Ex.ctx_typed text).dflt, (Ex.ctx_typed text).conv, (Ex.ctx_typed text).convOpt⟩

theorem Ex.wordTrees_throws (text : String) (c : Call) : (Ex.wordTrees text).throws c = Option.none := by
  obtain ⟨f, args⟩ := c
  cases f <;> rfl

/-- what is returned is the tree that the text describes -/
example (text : String) (v : Val) : (∃ log s', Parses (Ex.wordTrees text) (.complete (.custom 0)) (Ex.input text) log v s') ↔
    ∃ s', Means (Ex.wordTrees text) (.custom 0) (Ex.input text) v s' ∧ s'.len = 0 :=
  (C87_decides (Ex.wordTrees_table text) (.custom 0) nofun ⟨⟨fun _ => rfl, fun _ => rfl, fun _ => rfl, nofun⟩, rfl, rfl, rfl⟩
    (Ex.wordTrees_typed text)
    (plain_of (fun _ => ⟨rfl, fun h => h.1 rfl⟩) rfl : Plain (Ex.wordTrees text) (.complete (.custom 0))).joinSafe
    (fun _ h => h.1 rfl) [0] (fun k => k != 0) (fun _ => 0) rfl (Ex.wordTrees_throws text) (Ex.input text)
    (Ex.input_valid text)).1 v

/-- `(a,b)` gives the same in front of `,` and `)` as alone -/
example (v : Val) (log : List Call) (s' : Span) (h : Parses (Ex.wordTrees "(a,b),)") (.custom 0) ⟨.at 0 0, 5⟩ log v s')
    (ha : (⟨.at 0 0, 5⟩ : Span).Advanced 5 s') (n : Nat) (hn : n ≤ 2) :
    ∃ log', Parses (Ex.wordTrees "(a,b),)") (.custom 0) ⟨.at 0 0, 5 + n⟩ log' v ⟨.at 0 5, n⟩ := by
  have hv : (⟨.at 0 0, 5 + n⟩ : Span).Valid (Ex.wordTrees "(a,b),)").mem := by
    show 0 + (5 + n) ≤ 7
    omega
  rcases C87_behind (Ex.wordTrees_table "(a,b),)") (.custom 0) (fun x => x = 44 ∨ x = 41) (fun _ h => h)
    ⟨⟨fun _ => rfl, fun _ => rfl, fun _ => rfl, nofun⟩, rfl, rfl, rfl⟩ (Ex.wordTrees_typed _)
    (plain_of (fun _ => ⟨rfl, fun h => h.1 rfl⟩) rfl : Plain _ _).joinSafe (fun _ h => h.1 rfl) ⟨.at 0 0, 5⟩ ⟨.at 0 0, 5 + n⟩
    (by show 0 + 5 ≤ 7; decide) hv rfl log v s' 5 h ha (by simp) (by
      match n with
      | 0 => exact nofun
      | 1 => rintro x ⟨⟩; exact .inl rfl
      | 2 => rintro x ⟨⟩; exact .inl rfl) with ⟨l, h⟩ | ⟨l, x, h⟩ | h
  · exact ⟨l, by simpa [Span.drop, Ptr.shift] using h⟩
  · obtain ⟨y, rfl, -⟩ := ((C84_parse (Ex.wordTrees "(a,b),)") (.custom 0) ⟨⟨fun _ => rfl, fun _ => rfl, fun _ => rfl, nofun⟩, rfl, rfl, rfl⟩ (Ex.wordTrees_typed _)
      (plain_of (fun _ => ⟨rfl, fun h => h.1 rfl⟩) rfl : Plain _ _).joinSafe _ hv).2.2.1 l x).1 h
    exact absurd h (C49_no_throw _ _ _ _ _ (Ex.wordTrees_throws _))
  · exact absurd h (C39_checked (Ex.wordTrees "(a,b),)") (.custom 0) [0] (fun k => k != 0) (fun _ => 0) rfl _ hv).1

/-- a filter may turn down what it likes: `*("ab"_any % filter<f>)` -/
example (text : String) : (∃ log, ParseFails (Ex.wordTrees text) (.complete (.zeroOrMore (.filter (Ex.any "ab") (.user 1))))
      (Ex.input text) log (Ex.input text)) ↔
    ¬ ∃ v s', Means (Ex.wordTrees text) (.zeroOrMore (.filter (Ex.any "ab") (.user 1))) (Ex.input text) v s' ∧ s'.len = 0 :=
  (C87_decides (Ex.wordTrees_table text) (.zeroOrMore (.filter (Ex.any "ab") (.user 1)))
    ⟨trivial, C85_refuses (Ex.wordTrees_begin text) _ [0] (fun k => k != 0) (fun _ => 0) rfl rfl _ (fun _ h => h.elim)⟩
    ⟨⟨fun _ => rfl, fun _ => rfl, fun _ => rfl, nofun⟩, rfl, rfl, rfl⟩ (Ex.wordTrees_typed text)
    (fun q hq => by
      cases hq with
      | step h hq => cases h; cases hq with
        | step h hq => cases h; cases hq with
          | step h hq => cases h; cases hq with
            | step h _ => cases h)
    (fun _ h => h.1 rfl) [0] (fun k => k != 0) (fun _ => 0) rfl (Ex.wordTrees_throws text) (Ex.input text)
    (Ex.input_valid text)).2

/-- it turns down the second element -/
example : ParseFails (Ex.wordTrees "ab") (.complete (.zeroOrMore (.filter (Ex.any "ab") (.user 1)))) (Ex.input "ab")
    [⟨.user 1, [.span ⟨.at 0 0, 1⟩]⟩, ⟨.user 1, [.span ⟨.at 0 1, 1⟩]⟩] (Ex.input "ab") := Ex.parses _ 9 rfl

/-- `(a,b)` has a value -/
example : ∃ v, Means (Ex.wordTrees "(a,b)") (.custom 0) (Ex.input "(a,b)") v ⟨.at 0 5, 0⟩ :=
  ⟨_, C87_sound (Ex.wordTrees "(a,b)") (.custom 0) ⟨⟨fun _ => rfl, fun _ => rfl, fun _ => rfl, nofun⟩, rfl, rfl, rfl⟩
    (Ex.wordTrees_typed _) (plain_of (fun _ => ⟨rfl, fun h => h.1 rfl⟩) rfl : Plain _ _).joinSafe (fun _ h => h.1 rfl) _
    (Ex.input_valid _) _ _ _ (Ex.parses _ 20 rfl)⟩

end Tok3n
