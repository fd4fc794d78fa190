import Verif.Proof.WrittenTerminate
import Verif.Spec.Example
import Verif.Props.Lookahead
/-
C77: hand-written parser classes.
-/

namespace Tok3n

open Written (Protocol Delivers Truthful)

variable {α β : Type}

section
variable (C : Ctx α β) (W : Written) (p : Parser α)

/-- A hand-written class does in an expression what it does by itself. -/
theorem C77_itself (k : Nat) (S : Sub) (h : W k = some S) (s : Span) :
    Written.Parse C W (.custom k) s = S.parse s ∧ Written.Look C W (.custom k) s = S.look s := by
  have e := Written.den_custom (C := C) h
  exact ⟨congrFun (congrArg Sub.parse e) s, congrFun (congrArg Sub.look e) s⟩

/-- If the hand-written classes give the input back when they fail and leave an end of it when they succeed, so does
every parser made with them. -/
theorem C77_protocol (hW : ∀ k S, W k = some S → Protocol S) : Protocol (Written.den C W p) where
  fails s _ _ h := ((Written.Parse_good (C := C) hW p s).1.ok h).fail rfl
  consumes s _ _ _ h := ((Written.Parse_good (C := C) hW p s).1.ok h).suffix
  lookFails s _ _ h := ((Written.Parse_good (C := C) hW p s).2.ok h).fail rfl
  lookConsumes s _ _ _ h := ((Written.Parse_good (C := C) hW p s).2.ok h).suffix

/-- If moreover their `lookahead` runs no callbacks and ends with no error on readable input, so does that of every parser
made with them. -/
theorem C77_lookahead_quiet (hW : ∀ k S, W k = some S → Written.Quiet C S) : Written.Quiet C (Written.den C W p) where
  toProtocol := C77_protocol C W p fun k S h => (hW k S h).toProtocol
  value s _ _ _ h := ((Written.Look_quiet hW p s).sat.ok h).unit _ rfl
  log s log r h := by
    have := Written.Look_quiet hW p s
    rw [show Written.Look C W p s = _ from h] at this
    cases r <;> exact this.1
  err s _ _ h := (Written.Look_quiet hW p s).sat.err h

/-- If moreover they deliver values of the types they announce, with spans from the text they consumed, and read nothing
that is not there, so does every parser made with them that compiles.  As without hand-written classes, the callbacks of
`p` must not invent spans (`SpanLocal`). -/
theorem C77_delivers [LinearOrder α] (hW : ∀ k S, W k = some S → Delivers C (C.custom k).ty S) (hc : Compiles C p)
    (ht : C.Typed) (hl : SpanLocal C p) : Delivers C (resultFor C p) (Written.den C W p) where
  toQuiet := C77_lookahead_quiet C W p fun k S h => (hW k S h).toQuiet
  hasTy s _ v _ h := (((Written.Parse_typed hc ht hW s).ok h).val v rfl).ty
  spans s _ v _ h := fun x hx => (((Written.Parse_typed hc ht hW s).ok h).val v rfl).spans x hx hl
  parseErr s _ e h := by
    have := (Written.Parse_typed hc ht hW s).err h
    refine ⟨this.1, fun hs he => this.2 he ⟨hs, fun q hq => ?_⟩⟩
    exact ⟨hl.ctx, fun r f hr => hl.maps r f (hq.trans (.step .join hr))⟩

/-- For the types alone nothing is asked of the callbacks, and for memory safety only that what is joined invents no
spans. -/
theorem C77_memory_safe [LinearOrder α] (hW : ∀ k S, W k = some S → Delivers C (C.custom k).ty S) (hc : Compiles C p)
    (ht : C.Typed) (s : Span) :
    (∀ log v s', Written.Parses C W p s log v s' → HasTy (resultFor C p) v) ∧
    (JoinSafe C p → s.Valid C.mem → ∀ log e, Written.ParseErr C W p s log e → ∃ x, e = .exn x) := by
  refine ⟨fun log v s' h => (((Written.Parse_typed hc ht hW s).ok h).val v rfl).ty, fun hj hs log e h => ?_⟩
  have := (Written.Parse_typed hc ht hW s).err h
  cases e with
  | ub => exact absurd ⟨hs, hj⟩ (this.2 rfl)
  | exn x => exact ⟨x, rfl⟩
  | ill => exact absurd rfl this.1

/-- If the hand-written classes' `lookahead` says what their `parse` says, so does that of every parser made with them
that has no `filter` and no `join`. -/
theorem C77_lookahead_tells (hQ : ∀ k S, W k = some S → Written.Quiet C S) (hW : ∀ k S, W k = some S → Truthful S)
    (hp : Plain C p) : Truthful (Written.den C W p) := by
  have key := fun s => Written.Look_follows hQ hW hp s
  refine ⟨fun s log v s' h => ?_, fun s log s' h => ?_, fun s h => ?_⟩
  · have := key s
    rw [show Written.Parse C W p s = _ from h] at this
    obtain ⟨⟨v', s''⟩, hl, h1, h2⟩ := this
    simp only at h1 h2
    subst h1 h2; exact hl
  · have := key s
    rw [show Written.Parse C W p s = _ from h] at this
    obtain ⟨⟨v', s''⟩, hl, h1, h2⟩ := this
    simp only at h1 h2
    subst h1 h2; exact hl
  · have := key s
    rw [show Written.Parse C W p s = _ from h] at this
    exact this

/-- A hand-written class that does what a custom parser does can be put in its place: nothing changes. -/
theorem C77_in_place (hW : ∀ k S, W k = some S → ∀ s, S.parse s = Parse C (.custom k) s ∧ S.look s = Look C (.custom k) s)
    (s : Span) : Written.Parse C W p s = Parse C p s ∧ Written.Look C W p s = Look C p s := by
  have e := Written.den_same (C := C) (W := W) (fun k S hk => congrArg₂ Sub.mk (funext fun s => (hW k S hk s).1)
    (funext fun s => (hW k S hk s).2)) p
  exact ⟨congrFun (congrArg Sub.parse e) s, congrFun (congrArg Sub.look e) s⟩

/-- Without hand-written classes there is nothing but the library. -/
theorem C77_none (s : Span) :
    Written.Parse C (fun _ => none) p s = Parse C p s ∧ Written.Look C (fun _ => none) p s = Look C p s :=
  C77_in_place C _ p (fun _ _ h => by cases h) s

end

/-! ### Two hand-written classes -/

namespace Ex

/-- Takes the first half of what is left, rounded up (not expressible with the library's parsers); fails at the end. -/
def half : Sub where
  parse s := match s.ptr with
    | .null => if s.len = 0 then .done [] (.ok ⟨Option.none, s⟩) else .done [] (.err .ub)
    | .at b o =>
      if s.len = 0 then .done [] (.ok ⟨Option.none, s⟩)
      else .done [] (.ok ⟨some (.span ⟨.at b o, (s.len + 1) / 2⟩), ⟨.at b (o + (s.len + 1) / 2), s.len - (s.len + 1) / 2⟩⟩)
  look s := match s.ptr with
    | .null => if s.len = 0 then .done [] (.ok ⟨Option.none, s⟩) else .done [] (.err .ub)
    | .at b o =>
      if s.len = 0 then .done [] (.ok ⟨Option.none, s⟩)
      else .done [] (.ok ⟨some .unit, ⟨.at b (o + (s.len + 1) / 2), s.len - (s.len + 1) / 2⟩⟩)

/-- Has no value and always fails, but forgets to give the input back: what is left starts one element later. -/
def careless : Sub where
  parse s := match s.ptr with
    | .at b o => .done [] (.ok ⟨Option.none, ⟨.at b (o + 1), s.len - 1⟩⟩)
    | .null => .done [] (.ok ⟨Option.none, s⟩)
  look s := match s.ptr with
    | .at b o => .done [] (.ok ⟨Option.none, ⟨.at b (o + 1), s.len - 1⟩⟩)
    | .null => .done [] (.ok ⟨Option.none, s⟩)

/-- 1 is `half`, 2 is `careless`. -/
def classes : Written := fun k => if k = 1 then some half else if k = 2 then some careless else Option.none

/-- only `half` -/
def halves : Written := fun k => if k = 1 then some half else Option.none

/-- the program with these classes: 1 announces a span, the others nothing -/
def written (text : String) : Ctx Nat Nat :=
  { ctx text with custom := fun k => ⟨.custom k, true, if k = 1 then .span else .void⟩ }

theorem wparses {C : Ctx α β} {W : Written} {p : Parser α} {s : Span} {l r} (n : Nat)
    (h : (Written.sem C W n p).parse s = .done l r) : Written.Parse C W p s = .done l r := Written.Parse_eq_done.2 ⟨n, h⟩

theorem half_delivers (C : Ctx α β) : Delivers C .span half := by
  have look : ∀ s log r, half.look s = .done log r → log = [] ∧
      ((r = .ok ⟨Option.none, s⟩) ∨ (r = .err .ub ∧ s.ptr = .null ∧ s.len ≠ 0) ∨
        ∃ b o, s.ptr = .at b o ∧ r = .ok ⟨some .unit, ⟨.at b (o + (s.len + 1) / 2), s.len - (s.len + 1) / 2⟩⟩) := by
    intro s log r h
    unfold half at h
    dsimp only at h
    split at h
    · next hp => split at h <;> cases h <;> simp_all
    · next hp => split at h <;> cases h <;> simp_all
  have parse : ∀ s log r, half.parse s = .done log r → log = [] ∧
      ((r = .ok ⟨Option.none, s⟩) ∨ (r = .err .ub ∧ s.ptr = .null ∧ s.len ≠ 0) ∨
        ∃ b o, s.ptr = .at b o ∧ r = .ok ⟨some (.span ⟨.at b o, (s.len + 1) / 2⟩),
          ⟨.at b (o + (s.len + 1) / 2), s.len - (s.len + 1) / 2⟩⟩) := by
    intro s log r h
    unfold half at h
    dsimp only at h
    split at h
    · next hp => split at h <;> cases h <;> simp_all
    · next hp => split at h <;> cases h <;> simp_all
  have adv : ∀ (s : Span) b o, s.ptr = .at b o →
      Span.SuffixOf ⟨.at b (o + (s.len + 1) / 2), s.len - (s.len + 1) / 2⟩ s := by
    rintro ⟨_, len⟩ b o ⟨⟩
    exact ⟨(len + 1) / 2, by simp only; omega, .inr ⟨b, o, rfl, rfl⟩⟩
  refine { fails := ?_, consumes := ?_, lookFails := ?_, lookConsumes := ?_, value := ?_, log := fun s log r h => (look s log r h).1, err := ?_, hasTy := ?_, spans := ?_, parseErr := ?_ }
  · intro s log s' h
    obtain ⟨-, h | ⟨h, -⟩ | ⟨b, o, -, h⟩⟩ := parse _ _ _ h <;> cases h
    rfl
  · intro s log v s' h
    obtain ⟨-, h | ⟨h, -⟩ | ⟨b, o, hp, h⟩⟩ := parse _ _ _ h <;> cases h
    exact adv s b o hp
  · intro s log s' h
    obtain ⟨-, h | ⟨h, -⟩ | ⟨b, o, -, h⟩⟩ := look _ _ _ h <;> cases h
    rfl
  · intro s log v s' h
    obtain ⟨-, h | ⟨h, -⟩ | ⟨b, o, hp, h⟩⟩ := look _ _ _ h <;> cases h
    exact adv s b o hp
  · intro s log v s' h
    obtain ⟨-, h | ⟨h, -⟩ | ⟨b, o, hp, h⟩⟩ := look _ _ _ h <;> cases h
    rfl
  · intro s log e h
    obtain ⟨-, h | ⟨h, hp, hl⟩ | ⟨b, o, hp, h⟩⟩ := look _ _ _ h <;> cases h
    refine ⟨rfl, fun hv => hl ?_⟩
    rw [Span.Valid, hp] at hv
    exact hv
  · intro s log v s' h
    obtain ⟨-, h | ⟨h, -⟩ | ⟨b, o, hp, h⟩⟩ := parse _ _ _ h <;> cases h
    exact ⟨_, rfl⟩
  · intro s log v s' h
    obtain ⟨-, h | ⟨h, -⟩ | ⟨b, o, hp, h⟩⟩ := parse _ _ _ h <;> cases h
    intro x hx
    cases List.mem_singleton.1 hx
    exact .inr ⟨b, o, o, _, hp, rfl, rfl, Nat.le_refl _, Nat.le_refl _⟩
  · intro s log e h
    obtain ⟨-, h | ⟨h, hp, hl⟩ | ⟨b, o, hp, h⟩⟩ := parse _ _ _ h <;> cases h
    refine ⟨nofun, fun hv => absurd ?_ hl⟩
    rw [Span.Valid, hp] at hv
    exact hv

theorem half_tells : Truthful half := by
  refine ⟨fun s log v s' h => ?_, fun s log s' h => ?_, fun s h => ?_⟩ <;> unfold half at h ⊢ <;> dsimp only at h ⊢ <;>
    (split at h <;> split at h <;> cases h) <;> simp_all

theorem written_ok (text : String) : (written text).OK :=
  ⟨fun _ => rfl, fun k => rfl, fun k => match k with | 0 => rfl | 1 => rfl | _ + 2 => rfl, fun _ => nofun⟩

end Ex

/-- The hypotheses are met by a program with the class `half`: half of the text, then letters. -/
example : let p : Parser Nat := .sequence [.custom 1, .zeroOrMore (Ex.any "ab"), .maybe (.custom 1)]
    (∀ k S, Ex.halves k = some S → Delivers (Ex.written "cdab") ((Ex.written "cdab").custom k).ty S ∧ Truthful S) ∧
    Compiles (Ex.written "cdab") p ∧ Plain (Ex.written "cdab") p ∧
    Written.Parses (Ex.written "cdab") Ex.halves p (Ex.input "cdab") []
      (.tup [.span ⟨.at 0 0, 2⟩, .vec [.span ⟨.at 0 2, 1⟩, .span ⟨.at 0 3, 1⟩], .opt none]) ⟨.at 0 4, 0⟩ := by
  refine ⟨fun k S h => ?_, ⟨Ex.written_ok _, rfl, rfl, rfl⟩, ?_, Ex.wparses 6 rfl⟩
  · unfold Ex.halves at h
    split at h
    · next hk => cases h; subst hk; exact ⟨Ex.half_delivers _, Ex.half_tells⟩
    · cases h
  · exact plain_of (fun k => ⟨rfl, fun h => h.1 rfl⟩) rfl

/-- The promise to give the input back is needed.  `careless` fails everywhere, `"b"` does not match "ab"; yet the choice
between the two accepts "ab": it goes on where the failed alternative says the input is (helpers.h:168-170). -/
theorem C77_careless : ∃ (C : Ctx Nat Nat) (W : Written) (S : Sub),
    W 2 = some S ∧ (∀ s, ∃ s', S.parse s = .done [] (.ok ⟨none, s'⟩) ∧ S.look s = .done [] (.ok ⟨none, s'⟩)) ∧
    Compiles C (.choice [.custom 2, Ex.all "b"]) ∧
    Written.ParseFails C W (Ex.all "b") (Ex.input "ab") [] (Ex.input "ab") ∧
    ∃ v, Written.Parses C W (.choice [.custom 2, Ex.all "b"]) (Ex.input "ab") [] v ⟨.at 0 2, 0⟩ := by
  refine ⟨Ex.written "ab", Ex.classes, Ex.careless, rfl, fun s => ?_, ⟨Ex.written_ok _, rfl, rfl, rfl⟩, Ex.wparses 3 rfl,
    .span ⟨.at 0 1, 1⟩, Ex.wparses 5 rfl⟩
  obtain ⟨_ | ⟨b, o⟩, len⟩ := s
  · exact ⟨_, rfl, rfl⟩
  · exact ⟨_, rfl, rfl⟩

/-! ### Returning -/

/-- If the hand-written classes return and consume something whenever they succeed (those with `null` need not), and the
library's custom parsers do not reach themselves before something is consumed, then every expression that repeats
nothing that may succeed without consuming returns, from `parse` and from `lookahead`. -/
theorem C77_returns {α β : Type} (C : Ctx α β) (W : Written) (null : Nat → Bool) (rank : Nat → Nat)
    (hW : Written.Table C W null rank) (p : Parser α) (hp : p.repeatsOK null = true) (s : Span) (hs : s.Valid C.mem) :
    ¬ Written.ParseLoops C W p s ∧ ¬ Written.LookLoops C W p s :=
  Written.table_rets hW s.len p hp s hs (Nat.le_refl _)

namespace Ex

/-- custom parser 0 is `~("(", maybe custom 0, class 1)` -/
def nested (text : String) : Ctx Nat Nat :=
  { ctx text with custom := fun k =>
      if k = 0 then ⟨.ignore (.sequence [Ex.all "(", .maybe (.custom 0), .custom 1]), true, .void⟩
      else if k = 1 then ⟨.custom k, true, .span⟩ else ⟨.epsilon, true, .void⟩ }

theorem nested_table (text : String) : Written.Table (nested text) halves (fun k => k != 0 && k != 1) id where
  protocol k S h := by
    unfold halves at h
    split at h
    · cases h; exact (half_delivers (nested text)).toProtocol
    · cases h
  returns k S h s _ := by
    unfold halves at h
    split at h
    · cases h
      obtain ⟨_ | ⟨b, o⟩, len⟩ := s <;> simp only [half] <;> exact ⟨by split <;> nofun, by split <;> nofun⟩
    · cases h
  consumes k S h _ s log v s' := by
    unfold halves at h
    split at h
    · cases h
      obtain ⟨_ | ⟨b, o⟩, len⟩ := s
      · constructor <;> intro h <;> simp only [half] at h <;> split at h <;> cases h
      · constructor <;> intro h <;> simp only [half] at h <;> split at h <;> cases h <;> simp only <;> omega
    · cases h
  nullable k hk h := by
    have h1 : k ≠ 1 := fun e => by subst e; cases hk
    by_cases h0 : k = 0
    · subst h0; revert h; simp [nested, Parser.nullable, allNullable, Ex.all, pretends, resultFor]
    · simp [h0, h1]
  repeats k hk := by
    by_cases h0 : k = 0
    · subst h0; rfl
    · by_cases h1 : k = 1
      · subst h1; cases hk
      · simp [nested, h0, h1, Parser.repeatsOK]
  firsts k hk := by
    by_cases h0 : k = 0
    · subst h0; rfl
    · by_cases h1 : k = 1
      · subst h1; cases hk
      · simp [nested, h0, h1, Parser.firsts]

/-- Always succeeds and consumes nothing. -/
def idle : Sub where
  parse s := .done [] (.ok ⟨some .unit, s⟩)
  look s := .done [] (.ok ⟨some .unit, s⟩)

end Ex

example : Written.Table (Ex.nested "((abcd") Ex.halves (fun k => k != 0 && k != 1) id ∧
    (Parser.oneOrMore (.choice [.custom 0, .custom 1]) : Parser Nat).repeatsOK (fun k => k != 0 && k != 1) = true ∧
    (Ex.input "((abcd").Valid (Ex.nested "((abcd").mem ∧
    Written.Parses (Ex.nested "((abcd") Ex.halves (.custom 0) (Ex.input "((abcd") [] .unit ⟨.at 0 5, 1⟩ :=
  ⟨Ex.nested_table _, rfl, Ex.input_valid _, Ex.wparses 14 rfl⟩

/-- The promise to consume is needed: a class that keeps all the others but succeeds without consuming makes `*` of it
loop on every input. -/
theorem C77_idle : ∃ (C : Ctx Nat Nat) (W : Written) (S : Sub),
    W 3 = some S ∧ Delivers C (C.custom 3).ty S ∧ Truthful S ∧ (∀ s, S.parse s ≠ .diverge ∧ S.look s ≠ .diverge) ∧
    Compiles C (.zeroOrMore (.custom 3)) ∧ ∀ s, Written.ParseLoops C W (.zeroOrMore (.custom 3)) s := by
  let W : Written := fun k => if k = 3 then some Ex.idle else none
  have hd : Delivers (Ex.written "") .void Ex.idle := by
    refine ⟨⟨⟨?_, ?_, ?_, ?_⟩, ?_, ?_, ?_⟩, ?_, ?_, ?_⟩
    · rintro s log s' ⟨⟩
    · rintro s log v s' ⟨⟩; exact .refl _
    · rintro s log s' ⟨⟩
    · rintro s log v s' ⟨⟩; exact .refl _
    · rintro s log v s' ⟨⟩; rfl
    · rintro s log r ⟨⟩; rfl
    · rintro s log e ⟨⟩
    · rintro s log v s' ⟨⟩; exact rfl
    · rintro s log v s' ⟨⟩ x ⟨⟩
    · rintro s log e ⟨⟩
  refine ⟨Ex.written "", W, Ex.idle, rfl, hd, ⟨?_, ?_, ?_⟩, fun s => ⟨nofun, nofun⟩, ⟨Ex.written_ok _, rfl, rfl, rfl⟩, ?_⟩
  · rintro s log v s' ⟨⟩; rfl
  · rintro s log s' ⟨⟩
  · rintro s ⟨⟩
  intro s
  have loop : ∀ k s v, zeroOrMoreLoop .void Ex.idle k s v = .diverge := by
    intro k
    induction k with
    | zero => intro s v; rfl
    | succ k ih =>
      intro s v
      rw [zeroOrMoreLoop]
      simp [Ex.idle, M.bind_eq, M.bind, R.hasValue, builderInsertBack, M.pure]
      have := ih s v
      simp_all [Ex.idle]
  show Written.Parse _ _ _ _ = _
  cases h : Written.Parse (Ex.written "") W (.zeroOrMore (.custom 3)) s with
  | diverge => rfl
  | done l r =>
    obtain ⟨n, hn⟩ := Written.Parse_eq_done.1 h
    match n with
    | 0 => cases hn
    | 1 => cases hn
    | n + 2 =>
      have e : (Written.sem (Ex.written "") W (n + 2) (.zeroOrMore (.custom 3))).parse s =
        M.bind (M.pure .unit) fun v => M.bind (zeroOrMoreLoop .void Ex.idle (n + 1) s v) fun x =>
          M.pure (builderBuild .void x.2 x.1) := rfl
      rw [e, M.pure_bind, loop] at hn
      cases hn

end Tok3n
