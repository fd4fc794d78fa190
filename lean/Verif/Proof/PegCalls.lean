import Verif.Spec.PegCalls
import Verif.Proof.EffortExact
import Verif.Props.Peg
/-
Proofs for C65: how many calls a run makes, from the rules.
-/

namespace Tok3n

variable {α β A B : Type} {C : Ctx α β}

/-! ### The rules and the grammar -/

theorem PegCalls.peg {p : Parser α} {xs : List β} {n o} (h : PegCalls C p xs n o) : PegC C p xs o := by
  induction h with
  | hit h1 h2 => exact .hit h1 h2
  | miss h1 h2 => exact .miss h1 h2
  | epsilon => exact .epsilon
  | choiceNil => exact .choiceNil
  | choiceHit _ ih => exact .choiceHit ih
  | choiceMiss _ _ ih1 ih2 => exact .choiceMiss ih1 ih2
  | sequenceNil => exact .sequenceNil
  | sequenceMore _ _ ih1 ih2 => exact .sequenceMore ih1 ih2
  | sequenceMiss _ ih => exact .sequenceMiss ih
  | maybeHit _ ih => exact .maybeHit ih
  | maybeMiss _ ih => exact .maybeMiss ih
  | exactlyNil => exact .exactlyNil
  | exactlyMore _ _ ih1 ih2 => exact .exactlyMore ih1 ih2
  | exactlyMiss _ ih => exact .exactlyMiss ih
  | zeroStop _ ih => exact .zeroStop ih
  | zeroMore _ _ ih1 ih2 => exact .zeroMore ih1 ih2
  | oneMiss _ ih => exact .oneMiss ih
  | oneMore _ _ ih1 ih2 => exact .oneMore ih1 ih2
  | delimitMiss _ ih => exact .delimitMiss ih
  | delimitStop _ _ ih1 ih2 => exact .delimitMore (j := 0) ih1 (.zeroStop (.sequenceMiss ih2))
  | delimitLast _ _ _ ih1 ih2 ih3 =>
    cases ih3 with
    | miss h => cases h
    | delimitMiss ih3 =>
      refine .delimitMore (j := 0) ih1 (.zeroStop (.sequenceMore (o := none) ih2 (.sequenceMiss ?_)))
      rwa [List.drop_drop]
  | @delimitMore _ _ xs _ _ _ k j _ _ _ _ ih1 ih2 ih3 =>
    cases ih3 with
    | hit h => cases h
    | @delimitMore _ _ _ a b h1 h2 =>
      have e : k + j + (a + b) = k + (j + (a + 0) + b) := by omega
      rw [e]
      rw [← List.drop_drop] at h1
      rw [List.drop_drop, Nat.add_assoc, ← List.drop_drop] at h2
      exact .delimitMore ih1 (.zeroMore (.sequenceMore (o := some (a + 0)) ih2
        (.sequenceMore (o := some 0) h1 .sequenceNil)) (by simpa using h2))
  | completeHit _ ih => exact .completeHit ih
  | completeShort _ h ih => exact .completeShort ih h
  | completeMiss _ ih => exact .completeMiss ih
  | ignore _ ih => exact .ignore ih
  | join _ _ ih | joinOwn _ _ ih => exact .join ih
  | map _ ih => exact .map ih
  | filter _ ih => exact .filter ih
  | named _ ih => exact .named ih
  | custom _ ih => exact .custom ih

theorem PegCalls.delimit_of {p d q : Parser α} {ys : List β} {n o} (h : PegCalls C q ys n o)
    (hq : q = .zeroOrMore (.sequence [d, p])) : ∀ j, o = some j → ∀ xs k m, PegCalls C p xs m (some k) → xs.drop k = ys →
      ∃ n', PegCalls C (.delimit p d) xs n' (some (k + j)) := by
  induction h with
  | hit h | miss h => subst hq; cases h
  | zeroStop h _ =>
    cases hq
    rintro _ ⟨⟩ xs k m hp rfl
    generalize ho : (none : Option Nat) = o at h
    cases h with
    | miss h => cases h
    | hit h => cases h
    | sequenceMiss h => exact ⟨_, .delimitStop hp h⟩
    | @sequenceMore _ _ _ _ _ a o h1 h2 =>
      cases o with
      | some => cases ho
      | none =>
        generalize ho : (none : Option Nat) = o at h2
        cases h2 with
        | miss h => cases h
        | hit h => cases h
        | sequenceMiss h => exact ⟨_, .delimitLast hp h1 (.delimitMiss (by rwa [List.drop_drop] at h))⟩
        | @sequenceMore _ _ _ _ _ a o h3 h4 => cases h4 with
          | hit h | miss h => cases h
          | sequenceNil => cases ho
  | @zeroMore _ _ _ _ a b h _ _ ih =>
    cases hq
    rintro _ ⟨⟩ xs k m hp rfl
    generalize ho : some a = o at h
    cases h with
    | hit h | miss h => cases h
    | sequenceMiss h => cases ho
    | @sequenceMore _ _ _ _ _ a1 o h1 h2 =>
      cases h2 with
      | hit h | miss h => cases h
      | sequenceMiss h => cases ho
      | @sequenceMore _ _ _ _ _ a2 o h3 h4 => cases h4 with
        | hit h | miss h => cases h
        | sequenceNil =>
          cases ho
          obtain ⟨n', h5⟩ := ih rfl b rfl ((xs.drop k).drop a1) a2 _ h3 (by
            simp only [List.drop_drop]; congr 1; omega)
          rw [List.drop_drop] at h5
          have := PegCalls.delimitMore hp h1 h5
          have e : k + a1 + (a2 + b) = k + (a1 + (a2 + 0) + b) := by omega
          exact ⟨_, e ▸ this⟩
  | _ => cases hq

theorem Peg.calls {p : Parser α} {xs : List β} {o} (h : PegC C p xs o) : ∃ n, PegCalls C p xs n o := by
  induction h with
  | hit h1 h2 => exact ⟨_, .hit h1 h2⟩
  | miss h1 h2 => exact ⟨_, .miss h1 h2⟩
  | epsilon => exact ⟨_, .epsilon⟩
  | choiceNil => exact ⟨_, .choiceNil⟩
  | choiceHit _ ih => obtain ⟨_, h⟩ := ih; exact ⟨_, .choiceHit h⟩
  | choiceMiss _ _ ih1 ih2 => obtain ⟨_, h1⟩ := ih1; obtain ⟨_, h2⟩ := ih2; exact ⟨_, .choiceMiss h1 h2⟩
  | sequenceNil => exact ⟨_, .sequenceNil⟩
  | sequenceMore _ _ ih1 ih2 => obtain ⟨_, h1⟩ := ih1; obtain ⟨_, h2⟩ := ih2; exact ⟨_, .sequenceMore h1 h2⟩
  | sequenceMiss _ ih => obtain ⟨_, h⟩ := ih; exact ⟨_, .sequenceMiss h⟩
  | maybeHit _ ih => obtain ⟨_, h⟩ := ih; exact ⟨_, .maybeHit h⟩
  | maybeMiss _ ih => obtain ⟨_, h⟩ := ih; exact ⟨_, .maybeMiss h⟩
  | exactlyNil => exact ⟨_, .exactlyNil⟩
  | exactlyMore _ _ ih1 ih2 => obtain ⟨_, h1⟩ := ih1; obtain ⟨_, h2⟩ := ih2; exact ⟨_, .exactlyMore h1 h2⟩
  | exactlyMiss _ ih => obtain ⟨_, h⟩ := ih; exact ⟨_, .exactlyMiss h⟩
  | zeroStop _ ih => obtain ⟨_, h⟩ := ih; exact ⟨_, .zeroStop h⟩
  | zeroMore _ _ ih1 ih2 => obtain ⟨_, h1⟩ := ih1; obtain ⟨_, h2⟩ := ih2; exact ⟨_, .zeroMore h1 h2⟩
  | oneMiss _ ih => obtain ⟨_, h⟩ := ih; exact ⟨_, .oneMiss h⟩
  | oneMore _ _ ih1 ih2 => obtain ⟨_, h1⟩ := ih1; obtain ⟨_, h2⟩ := ih2; exact ⟨_, .oneMore h1 h2⟩
  | delimitMiss _ ih => obtain ⟨_, h⟩ := ih; exact ⟨_, .delimitMiss h⟩
  | delimitMore _ _ ih1 ih2 =>
    obtain ⟨_, h1⟩ := ih1; obtain ⟨_, h2⟩ := ih2; exact h2.delimit_of rfl _ rfl _ _ _ h1 rfl
  | completeHit _ ih => obtain ⟨_, h⟩ := ih; exact ⟨_, .completeHit h⟩
  | completeShort _ hk ih => obtain ⟨_, h⟩ := ih; exact ⟨_, .completeShort h hk⟩
  | completeMiss _ ih => obtain ⟨_, h⟩ := ih; exact ⟨_, .completeMiss h⟩
  | ignore _ ih => obtain ⟨_, h⟩ := ih; exact ⟨_, .ignore h⟩
  | @join p _ _ _ ih =>
    obtain ⟨_, h⟩ := ih
    cases hw : ownLoop C p
    · exact ⟨_, .join hw h⟩
    · exact ⟨_, .joinOwn hw h⟩
  | map _ ih => obtain ⟨_, h⟩ := ih; exact ⟨_, .map h⟩
  | filter _ ih => obtain ⟨_, h⟩ := ih; exact ⟨_, .filter h⟩
  | named _ ih => obtain ⟨_, h⟩ := ih; exact ⟨_, .named h⟩
  | custom _ ih => obtain ⟨_, h⟩ := ih; exact ⟨_, .custom h⟩

/-! ### What a run tells -/

/-- the outcome `o` on the input `s` -/
structure Told (s : Span) (o : Option Nat) (r : R) : Prop where
  val : r.hasValue = o.isSome
  rem : r.rem = s.drop (o.getD 0)

theorem told_look {p : Parser α} {xs : List β} {o} (h : PegC C p xs o) {s : Span} (hs : s.Valid C.mem)
    (hx : s.elems C.mem = xs) {l r} (hm : CountedLook C p s = .done l (.ok r)) : Told s o r := by
  have h1 := CountedLook_erases (C := C) p s
  rw [hm, h.look s hs hx, M.pure, erase, M.done.injEq] at h1
  cases h1.2
  cases o
  · exact ⟨rfl, by simp [pegResult, R.failure]⟩
  · exact ⟨rfl, rfl⟩

theorem told_parse {p : Parser α} {xs : List β} {o} (h : PegC C p xs o) (hp : NeverOverrules C p) {s : Span}
    (hs : s.Valid C.mem) (hx : s.elems C.mem = xs) {l r} (hm : CountedParse C p s = .done l (.ok r)) : Told s o r := by
  subst hx
  have h1 := CountedParse_erases (C := C) p s
  rw [hm] at h1
  obtain ⟨h2, h3⟩ := C45_parse C p hp s hs (fun l e he => by unfold ParseErr at he; rw [he] at h1; cases h1) r.rem
  obtain ⟨v, rem⟩ := r
  cases v with
  | none =>
    obtain ⟨h4, h5⟩ := h3.1 ⟨_, h1.symm⟩
    cases C45_deterministic _ _ _ _ _ _ h h5
    exact ⟨rfl, by simpa using h4⟩
  | some v =>
    obtain ⟨k, h4, h5⟩ := h2.1 ⟨_, v, h1.symm⟩
    cases C45_deterministic _ _ _ _ _ _ h h4
    exact ⟨rfl, h5.eq_drop⟩

/-! ### Counting the marks -/

/-- If the run ends, then after `n` marks (at most, if it ends with an error), and at most twice as many calls, and `e`
more. -/
structure Mk (m : Run A) (n e : Nat) : Prop where of ::
  on : ∀ l r, m = .done l r → marks l ≤ n ∧ ((∃ a, r = .ok a) → marks l = n) ∧ l.length ≤ 2 * n + e

theorem Mk.diverge {n e : Nat} : Mk (M.diverge : Run A) n e := .of fun _ _ h => by cases h
theorem Mk.pure {a : A} {e : Nat} : Mk (M.pure a) 0 e := .of fun l r h => by
  cases h; simp [marks]

theorem Mk.mono {m : Run A} {n e e' : Nat} (h : Mk m n e) (he : e ≤ e') : Mk m n e' := .of fun l r hm => by
  have := h.on l r hm
  exact ⟨this.1, this.2.1, by omega⟩

theorem Logs.mk {m : Run A} {b : Nat} (h : Logs m b) : Mk m 0 b := .of fun l r hm => by
  have := h.on l r hm
  have e : marks l = 0 := by
    rw [marks, List.length_eq_zero_iff, List.filter_eq_nil_iff]
    intro c hc; rw [this.2 c hc]; simp
  exact ⟨by omega, fun _ => e, by omega⟩

theorem Mk.bind {m : Run A} {f : A → Run B} {n n' e e' : Nat} (h : Mk m n e)
    (hf : ∀ l a, m = .done l (.ok a) → Mk (f a) n' e') : Mk (m.bind f) (n + n') (e + e') := .of fun l r hm => by
  cases m with
  | diverge => cases hm
  | done l1 r1 =>
    have h1 := h.on _ _ rfl
    cases r1 with
    | err e => cases hm; exact ⟨by omega, fun ⟨a, h⟩ => by (cases h), by omega⟩
    | ok a =>
      have h2 := hf l1 a rfl
      rw [M.ok_bind] at hm
      obtain ⟨l2, hl, rfl⟩ := M.after_eq_done.1 hm
      have h2 := h2.on _ _ hl
      have h3 := h1.2.1 ⟨_, rfl⟩
      have e : marks (l1 ++ l2) = marks l1 + marks l2 := by simp [marks]
      rw [List.length_append, e]
      exact ⟨by omega, fun ha => by rw [h3, h2.2.1 ha], by omega⟩

theorem Mk.bind0 {m : Run A} {f : A → Run B} {n e : Nat} (h : Logs m 0)
    (hf : ∀ l a, m = .done l (.ok a) → Mk (f a) n e) : Mk (m.bind f) n e := by
  have := Mk.bind h.mk hf
  rwa [Nat.zero_add, Nat.zero_add] at this

theorem Mk.bindr {m : Run A} {f : A → Run B} {n e : Nat} (h : Mk m n e)
    (hf : ∀ l a, m = .done l (.ok a) → Mk (f a) 0 0) : Mk (m.bind f) n e := Mk.bind h hf

theorem Mk.post {m : Run A} {g : A → Run B} {D : Type} {f : A → B → Run D} {n e : Nat} (h : Mk (m.bind g) n e)
    (hf : ∀ a b, Mk (f a b) 0 0) : Mk (m.bind fun a => (g a).bind (f a)) n e := by
  cases m with
  | diverge => exact .diverge
  | done l r =>
    cases r with
    | err x =>
      refine .of fun l' r' hm => ?_
      cases hm
      have := h.on l _ rfl
      exact ⟨this.1, fun ⟨a, h⟩ => by (cases h), this.2.2⟩
    | ok a =>
      have e1 : (M.done l (.ok a) : Run A).bind (fun a => (g a).bind (f a)) =
          ((M.done l (.ok a) : Run A).bind g).bind (f a) := by rw [M.bind_assoc]; simp only [M.ok_bind]
      rw [e1]
      exact h.bindr fun _ b _ => hf a b

theorem Mk.mark {m : Run A} {n : Nat} (h : Mk m n 1) : Mk (M.bind (M.log callMark) fun _ => m) (n + 1) 0 := .of fun l r hm => by
  rw [show (M.log callMark : Run Unit) = .done [callMark] (.ok ()) from rfl, M.ok_bind] at hm
  obtain ⟨l', hl, rfl⟩ := M.after_eq_done.1 hm
  have := h.on _ _ hl
  have e : marks ([callMark] ++ l') = marks l' + 1 := rfl
  rw [List.length_append, e]
  exact ⟨by omega, fun ha => by rw [this.2.1 ha], by simp only [List.length_singleton]; omega⟩

theorem Mk.lim {f : Nat → Run A} {n e : Nat} (hf : Mono f) (h : ∀ k, Mk (f (k + 1)) n e) : Mk (lim f) n e := .of fun l r hm => by
  obtain ⟨k, hk⟩ := (hf.lim.tail.iff l r).1 hm
  exact (h k).on _ _ hk

/-! ### The counts of a parser -/

theorem NeverOverrules.child {p q : Parser α} (h : NeverOverrules C p) (hc : ParseChild C p q) : NeverOverrules C q :=
  ⟨fun r hr => h.rejects r (.step hc hr), fun k hk => h.pretends k (.step hc hk)⟩

variable (C) in
/-- on the input `xs`, `p` makes `n` calls after its own -/
structure Counts (p : Parser α) (xs : List β) (n : Nat) : Prop where
  look : ∀ s : Span, s.Valid C.mem → s.elems C.mem = xs → Mk (CountedLook C p s) (n + 1) 0
  parse : NeverOverrules C p → ∀ s : Span, s.Valid C.mem → s.elems C.mem = xs → Mk (CountedParse C p s) (n + 1) 0

theorem Counts.of {p : Parser α} {xs : List β} {n}
    (hl : ∀ k (s : Span), s.Valid C.mem → s.elems C.mem = xs → Mk ((step C (cden C) (k + 1) p).look s) n 1)
    (hp : NeverOverrules C p → ∀ k (s : Span), s.Valid C.mem → s.elems C.mem = xs → Mk ((step C (cden C) (k + 1) p).parse s) n 1) :
    Counts C p xs n where
  look s hs hx := by
    rw [CountedLook_eq]
    exact .mark (.lim (fun k => (step_fuel_le _ k p s).2) fun k => hl k s hs hx)
  parse hn s hs hx := by
    rw [CountedParse_eq]
    exact .mark (.lim (fun k => (step_fuel_le _ k p s).1) fun k => hp hn k s hs hx)

/-- how the input goes on after a match -/
theorem PegCalls.next {p : Parser α} {xs : List β} {n k} (h : PegCalls C p xs n (some k)) {s : Span} (hs : s.Valid C.mem)
    (hx : s.elems C.mem = xs) : (s.drop k).Valid C.mem ∧ (s.drop k).elems C.mem = xs.drop k := by
  have := h.peg.le _ rfl
  rw [← hx, hs.elems_length] at this
  exact ⟨hs.drop this, by rw [Span.elems_drop, hx]⟩

section pieces
variable {p d : Parser α} {ps : List (Parser α)} {xs : List β} {n m : Nat} {o : Option Nat}

/-- one part of a choice or sequence -/
theorem execute_mk (h : PegCalls C p xs n o) (hc : Counts C p xs n) {idx : Option Nat}
    (hi : idx = none ∨ NeverOverrules C p) (T : Ty) (u c : Bool) (t : Ty) (v : Val) {s : Span} (hs : s.Valid C.mem)
    (hx : s.elems C.mem = xs) :
    Mk (execute C T u c ⟨cden C p, t, idx⟩ ⟨s, v⟩) (n + 1) 0 ∧
      ∀ l x, execute C T u c ⟨cden C p, t, idx⟩ ⟨s, v⟩ = .done l (.ok x) →
        x.1 = o.isSome ∧ x.2.input = s.drop (o.getD 0) := by
  cases idx with
  | none =>
    refine ⟨Mk.bindr (hc.look s hs hx) fun _ _ _ => .pure, fun l x hl => ?_⟩
    simp only [execute, M.bind_eq] at hl
    rw [M.bind_eq_ok] at hl
    obtain ⟨l1, l2, r, h1, h2, -⟩ := hl
    cases h2
    have := told_look h.peg hs hx h1
    exact ⟨this.val, this.rem⟩
  | some i =>
    have hi : NeverOverrules C p := hi.resolve_left nofun
    have hlog : ∀ r : R, Logs ((if u then builderAssign T v r else if c then builderEmplaceAt C T i t v r
        else builderGetAssign T v i r) : Run Val) 0 := fun r =>
      .ite (builderAssign_logs ..) (.ite (builderEmplaceAt_logs ..) (builderGetAssign_logs ..))
    refine ⟨Mk.bindr (hc.parse hi s hs hx) fun _ r _ => ?_, fun l x hl => ?_⟩
    · show Mk (if _ then _ else _) 0 0
      split
      · exact .pure
      · exact .bind0 (hlog r) fun _ _ _ => .pure
    · simp only [execute, M.bind_eq] at hl
      rw [M.bind_eq_ok] at hl
      obtain ⟨l1, l2, r, h1, h2, -⟩ := hl
      have := told_parse h.peg hi hs hx h1
      cases o with
      | none =>
        rw [if_pos (by simp [this.val])] at h2
        cases h2
        exact ⟨rfl, by simp⟩
      | some k =>
        rw [if_neg (by simp [this.val])] at h2
        rw [M.bind_eq_ok] at h2
        obtain ⟨_, _, v, _, h4, _⟩ := h2
        cases h4
        exact ⟨rfl, this.rem⟩

end pieces

variable (C) in
/-- what the loops of a parser make of its rules -/
def Inside : Parser α → List β → Nat → Prop
  | .choice ps, xs, n => ∀ (is : Option (List (Option Nat))),
      (∀ l ∈ is, l.length = ps.length ∧ ∀ p ∈ ps, NeverOverrules C p) → ∀ T u c v (s : Span), s.Valid C.mem →
      s.elems C.mem = xs → Mk (foldOr (execute C T u c)
        (match is with | none => mkLookElems (cden C) C ps | some is => mkElems (cden C) C ps is) ⟨s, v⟩) n 0
  | .sequence ps, xs, n => ∀ (is : Option (List (Option Nat))),
      (∀ l ∈ is, l.length = ps.length ∧ ∀ p ∈ ps, NeverOverrules C p) → ∀ T u c v (s : Span), s.Valid C.mem →
      s.elems C.mem = xs → Mk (foldAnd (execute C T u c)
        (match is with | none => mkLookElems (cden C) C ps | some is => mkElems (cden C) C ps is) ⟨s, v⟩) n 0
  | .exactly p N, xs, n => ∀ s : Span, s.Valid C.mem → s.elems C.mem = xs →
      (∀ i, Mk (lookExactlyLoop (cden C p) i N s) n 0) ∧
      (NeverOverrules C p → ∀ T i j v, Mk (exactlyLoop T (cden C p) i N j s v) n 0)
  | .zeroOrMore p, xs, n => ∀ s : Span, s.Valid C.mem → s.elems C.mem = xs → ∀ fuel,
      Mk (lookZeroOrMoreLoop (cden C p) fuel s) n 0 ∧ (∀ b, Mk (lookOneOrMoreLoop (cden C p) fuel b s) n 0) ∧
      (NeverOverrules C p → ∀ T v, Mk (zeroOrMoreLoop T (cden C p) fuel s v) n 0 ∧
        ∀ b, Mk (oneOrMoreLoop T (cden C p) fuel b s v) n 0)
  | .delimit p d, xs, n => ∀ s : Span, s.Valid C.mem → s.elems C.mem = xs → ∀ fuel i,
      Mk (M.bind (CountedLook C p s) fun r => lookDelimitLoop (cden C p) (cden C d) fuel r i) n 0 ∧
      (NeverOverrules C p → NeverOverrules C d → ∀ T tp td (g : R → Run Val), (∀ r, Logs (g r) 0) →
        Mk (M.bind (CountedParse C p s) fun r => M.bind (g r) fun v =>
          delimitLoop T tp td (cden C p) (cden C d) fuel r i v) n 0)
  | _, _, _ => True

theorem inside_choice_cons {p : Parser α} {ps : List (Parser α)} {xs : List β} {n m o} (h : PegCalls C p xs n o)
    (hc : Counts C p xs n) (hm : o = none → Inside C (.choice ps) xs m) (h0 : o ≠ none → m = 0) :
    Inside C (.choice (p :: ps)) xs (n + 1 + m) := by
  intro is hi T u c v s hs hx
  have key : ∀ (idx : Option Nat) (es : List Elem), (idx = none ∨ NeverOverrules C p) →
      (o = none → ∀ v, Mk (foldOr (execute C T u c) es ⟨s, v⟩) m 0) →
      Mk (foldOr (execute C T u c) (⟨cden C p, resultFor C p, idx⟩ :: es) ⟨s, v⟩) (n + 1 + m) 0 := by
    intro idx es hidx hes
    obtain ⟨h1, h2⟩ := execute_mk h hc hidx T u c (resultFor C p) v hs hx
    refine Mk.bind (e := 0) (e' := 0) h1 fun l x hl => ?_
    obtain ⟨h3, h4⟩ := h2 l x hl
    obtain ⟨b, st⟩ := x
    cases o with
    | none =>
      cases h3
      have : st = ⟨s, st.value⟩ := by obtain ⟨i, w⟩ := st; simpa using h4
      rw [this]
      exact hes rfl _
    | some k =>
      cases h3
      rw [h0 nofun]
      exact .pure
  cases is with
  | none => exact key none _ (.inl rfl) fun ho v => hm ho none nofun T u c v s hs hx
  | some is =>
    obtain ⟨hl, hn⟩ := hi _ rfl
    cases is with
    | nil => cases hl
    | cons i is =>
      refine key i _ (.inr (hn _ (.head _))) fun ho v => hm ho (some is) ?_ T u c v s hs hx
      rintro _ ⟨⟩
      exact ⟨by simpa using hl, fun q hq => hn q (.tail _ hq)⟩

theorem inside_sequence_cons {p : Parser α} {ps : List (Parser α)} {xs : List β} {n m o} (h : PegCalls C p xs n o)
    (hc : Counts C p xs n) (hm : ∀ k, o = some k → Inside C (.sequence ps) (xs.drop k) m) (h0 : o = none → m = 0) :
    Inside C (.sequence (p :: ps)) xs (n + 1 + m) := by
  intro is hi T u c v s hs hx
  have key : ∀ (idx : Option Nat) (es : List Elem), (idx = none ∨ NeverOverrules C p) →
      (∀ k, o = some k → ∀ v, Mk (foldAnd (execute C T u c) es ⟨s.drop k, v⟩) m 0) →
      Mk (foldAnd (execute C T u c) (⟨cden C p, resultFor C p, idx⟩ :: es) ⟨s, v⟩) (n + 1 + m) 0 := by
    intro idx es hidx hes
    obtain ⟨h1, h2⟩ := execute_mk h hc hidx T u c (resultFor C p) v hs hx
    refine Mk.bind (e := 0) (e' := 0) h1 fun l x hl => ?_
    obtain ⟨h3, h4⟩ := h2 l x hl
    obtain ⟨b, st⟩ := x
    cases o with
    | some k =>
      cases h3
      have : st = ⟨s.drop k, st.value⟩ := by obtain ⟨i, w⟩ := st; simpa using h4
      rw [this]
      exact hes k rfl _
    | none =>
      cases h3
      rw [h0 rfl]
      exact .pure
  have next : ∀ k, o = some k → (s.drop k).Valid C.mem ∧ (s.drop k).elems C.mem = xs.drop k := by
    rintro k rfl; exact h.next hs hx
  cases is with
  | none => exact key none _ (.inl rfl) fun k ho v => hm k ho none nofun T u c v _ (next k ho).1 (next k ho).2
  | some is =>
    obtain ⟨hl, hn⟩ := hi _ rfl
    cases is with
    | nil => cases hl
    | cons i is =>
      refine key i _ (.inr (hn _ (.head _))) fun k ho v => hm k ho (some is) ?_ T u c v _ (next k ho).1 (next k ho).2
      rintro _ ⟨⟩
      exact ⟨by simpa using hl, fun q hq => hn q (.tail _ hq)⟩

theorem inside_exactly_succ {p : Parser α} {N : Nat} {xs : List β} {n m o} (h : PegCalls C p xs n o)
    (hc : Counts C p xs n) (hm : ∀ k, o = some k → Inside C (.exactly p N) (xs.drop k) m) (h0 : o = none → m = 0) :
    Inside C (.exactly p (N + 1)) xs (n + 1 + m) := by
  intro s hs hx
  have next : ∀ k, o = some k → (s.drop k).Valid C.mem ∧ (s.drop k).elems C.mem = xs.drop k := by
    rintro k rfl; exact h.next hs hx
  refine ⟨fun i => ?_, fun hn T i j v => ?_⟩
  · refine Mk.bind (e := 0) (e' := 0) (hc.look s hs hx) fun l r hr => ?_
    have ht := told_look h.peg hs hx hr
    cases o with
    | none => rw [if_pos (by simp [ht.val]), h0 rfl]; exact .pure
    | some k =>
      rw [if_neg (by simp [ht.val]), ht.rem]
      exact (hm k rfl _ (next k rfl).1 (next k rfl).2).1 i
  · refine Mk.bind (e := 0) (e' := 0) (hc.parse hn s hs hx) fun l r hr => ?_
    have ht := told_parse h.peg hn hs hx hr
    cases o with
    | none => rw [if_pos (by simp [ht.val]), h0 rfl]; exact .pure
    | some k =>
      rw [if_neg (by simp [ht.val]), ht.rem]
      exact .bind0 (builderArrayAssign_logs ..) fun _ w _ => (hm k rfl _ (next k rfl).1 (next k rfl).2).2 hn T i _ w

theorem inside_zeroOrMore {p : Parser α} {xs : List β} {n m o} (h : PegCalls C p xs n o)
    (hc : Counts C p xs n) (hm : ∀ k, o = some k → Inside C (.zeroOrMore p) (xs.drop k) m) (h0 : o = none → m = 0) :
    Inside C (.zeroOrMore p) xs (n + 1 + m) := by
  intro s hs hx fuel
  have next : ∀ k, o = some k → (s.drop k).Valid C.mem ∧ (s.drop k).elems C.mem = xs.drop k := by
    rintro k rfl; exact h.next hs hx
  cases fuel with
  | zero => exact ⟨.diverge, fun _ => .diverge, fun _ _ _ => ⟨.diverge, fun _ => .diverge⟩⟩
  | succ fuel =>
    refine ⟨?_, fun b => ?_, fun hn T v => ⟨?_, fun b => ?_⟩⟩
    · refine Mk.bind (e := 0) (e' := 0) (hc.look s hs hx) fun l r hr => ?_
      have ht := told_look h.peg hs hx hr
      cases o with
      | none => rw [if_pos (by simp [ht.val]), h0 rfl]; exact .pure
      | some k =>
        rw [if_neg (by simp [ht.val]), ht.rem]
        exact (hm k rfl _ (next k rfl).1 (next k rfl).2 fuel).1
    · refine Mk.bind (e := 0) (e' := 0) (hc.look s hs hx) fun l r hr => ?_
      have ht := told_look h.peg hs hx hr
      cases o with
      | none => rw [if_pos (by simp [ht.val]), h0 rfl]; exact .pure
      | some k =>
        rw [if_neg (by simp [ht.val]), ht.rem]
        exact (hm k rfl _ (next k rfl).1 (next k rfl).2 fuel).2.1 _
    · refine Mk.bind (e := 0) (e' := 0) (hc.parse hn s hs hx) fun l r hr => ?_
      have ht := told_parse h.peg hn hs hx hr
      cases o with
      | none => rw [if_pos (by simp [ht.val]), h0 rfl]; exact .pure
      | some k =>
        rw [if_neg (by simp [ht.val]), ht.rem]
        exact .bind0 (builderInsertBack_logs ..) fun _ w _ =>
          ((hm k rfl _ (next k rfl).1 (next k rfl).2 fuel).2.2 hn T w).1
    · refine Mk.bind (e := 0) (e' := 0) (hc.parse hn s hs hx) fun l r hr => ?_
      have ht := told_parse h.peg hn hs hx hr
      cases o with
      | none => rw [if_pos (by simp [ht.val]), h0 rfl]; exact .pure
      | some k =>
        rw [if_neg (by simp [ht.val]), ht.rem]
        exact .bind0 (builderInsertBack_logs ..) fun _ w _ =>
          ((hm k rfl _ (next k rfl).1 (next k rfl).2 fuel).2.2 hn T w).2 _

theorem inside_delimit_miss {p d : Parser α} {xs : List β} {n} (h : PegCalls C p xs n none) (hc : Counts C p xs n) :
    Inside C (.delimit p d) xs (n + 1) := by
  intro s hs hx fuel i
  refine ⟨Mk.bindr (hc.look s hs hx) fun l r hr => ?_, fun hp hd T tp td g hg =>
    Mk.bindr (hc.parse hp s hs hx) fun l r hr => .bind0 (hg r) fun _ v _ => ?_⟩
  · have ht := told_look h.peg hs hx hr
    cases fuel with
    | zero => exact .diverge
    | succ fuel => rw [lookDelimitLoop, if_pos (by simp [ht.val])]; exact .pure
  · have ht := told_parse h.peg hp hs hx hr
    cases fuel with
    | zero => exact .diverge
    | succ fuel => rw [delimitLoop, if_pos (by simp [ht.val])]; exact .pure

theorem inside_delimit_hit {p d : Parser α} {xs : List β} {n m j k o} (h : PegCalls C p xs n (some k))
    (hc : Counts C p xs n) (h' : PegCalls C d (xs.drop k) m o) (hc' : Counts C d (xs.drop k) m)
    (hm : ∀ i, o = some i → Inside C (.delimit p d) (xs.drop (k + i)) j) (h0 : o = none → j = 0) :
    Inside C (.delimit p d) xs (n + 1 + (m + 1 + j)) := by
  intro s hs hx fuel i
  obtain ⟨hs1, hx1⟩ := h.next hs hx
  have next : ∀ i, o = some i → ((s.drop k).drop i).Valid C.mem ∧ ((s.drop k).drop i).elems C.mem = xs.drop (k + i) := by
    rintro i rfl
    rw [← List.drop_drop]
    exact h'.next hs1 hx1
  refine ⟨Mk.bind (e := 0) (e' := 0) (hc.look s hs hx) fun l r hr => ?_, fun hp hd T tp td g hg =>
    Mk.bind (e := 0) (e' := 0) (hc.parse hp s hs hx) fun l r hr => .bind0 (hg r) fun _ v _ => ?_⟩
  · have ht := told_look h.peg hs hx hr
    cases fuel with
    | zero => exact .diverge
    | succ fuel =>
      rw [lookDelimitLoop, if_neg (by simp [ht.val]), ht.rem]
      refine Mk.bind (e := 0) (e' := 0) (hc'.look _ hs1 hx1) fun l r hr => ?_
      have ht := told_look h'.peg hs1 hx1 hr
      cases o with
      | none => rw [if_pos (by simp [ht.val]), h0 rfl]; exact .pure
      | some i =>
        rw [if_neg (by simp [ht.val]), ht.rem]
        exact (hm i rfl _ (next i rfl).1 (next i rfl).2 fuel _).1
  · have ht := told_parse h.peg hp hs hx hr
    cases fuel with
    | zero => exact .diverge
    | succ fuel =>
      rw [delimitLoop, if_neg (by simp [ht.val]), ht.rem]
      refine .bind0 (delimitRecordP_logs ..) fun _ v _ => ?_
      refine Mk.bind (e := 0) (e' := 0) (hc'.parse hd _ hs1 hx1) fun l r hr => ?_
      have ht := told_parse h'.peg hd hs1 hx1 hr
      cases o with
      | none => rw [if_pos (by simp [ht.val]), h0 rfl]; exact .pure
      | some i =>
        rw [if_neg (by simp [ht.val]), ht.rem]
        exact (hm i rfl _ (next i rfl).1 (next i rfl).2 fuel _).2 hp hd T tp td _ fun r => delimitRecordD_logs ..

theorem ownLoop_logs {p : Parser α} (h : ownLoop C p = true) (rec : Parser α → Sub) (k : Nat) (s : Span) :
    Logs ((semJoin C rec k p).look s) 0 ∧ Logs ((semJoin C rec k p).parse s) 0 := by
  cases p with
  | exactly q n =>
    simp only [semJoin]
    cases hb : asBasic C q with
    | none => rw [ownLoop, hb] at h; cases h
    | some b => exact ⟨lookJoinExactlyLoop_logs .., joinExactlyLoop_logs ..⟩
  | maybe q =>
    simp only [semJoin]
    cases hb : asBasic C q with
    | none => rw [ownLoop, hb] at h; cases h
    | some b =>
      constructor <;>
      exact .bind0 (failureCondition_logs ..) fun _ => .ite .pure (.bind0 (advance_logs ..) fun _ => .pure)
  | oneOrMore q =>
    simp only [semJoin]
    cases hb : asBasic C q with
    | none => rw [ownLoop, hb] at h; cases h
    | some b =>
      constructor
      · exact .bind0 (failureCondition_logs ..) fun _ => .ite .pure
          (.bind0 (subspan_logs ..) fun _ => .bind0 (lookJoinRepeatLoop_logs ..) fun _ => .pure)
      · exact .bind0 (failureCondition_logs ..) fun _ => .ite .pure
          (.bind0 (subspan_logs ..) fun _ => .bind0 (joinRepeatLoop_logs ..) fun _ => .pure)
  | zeroOrMore q =>
    simp only [semJoin]
    cases hb : asBasic C q with
    | none => rw [ownLoop, hb] at h; cases h
    | some b =>
      exact ⟨.bind0 (lookJoinRepeatLoop_logs ..) fun _ => .pure, .bind0 (joinRepeatLoop_logs ..) fun _ => .pure⟩
  | _ => cases h

theorem semJoin_notOwn {p : Parser α} (h : ownLoop C p = false) (rec : Parser α → Sub) (k : Nat) :
    semJoin C rec k p = joinGeneric C (rec p) := by
  cases p with
  | exactly q n | maybe q | oneOrMore q | zeroOrMore q =>
    simp only [semJoin]
    cases hb : asBasic C q with
    | none => rfl
    | some b => rw [ownLoop, hb] at h; cases h
  | _ => rfl

theorem PegCalls.counts {p : Parser α} {xs : List β} {n o} (h : PegCalls C p xs n o) :
    Inside C p xs n ∧ Counts C p xs n := by
  -- the loops make the functions
  have choice : ∀ {ps : List (Parser α)} {xs n}, Inside C (.choice ps) xs n →
      Inside C (.choice ps) xs n ∧ Counts C (.choice ps) xs n := fun {ps xs n} h =>
    ⟨h, .of (fun k s hs hx => ((h none nofun _ _ _ _ s hs hx).bindr fun _ _ _ => by
        show Mk (if _ then _ else _) 0 0
        split <;> exact .pure).mono (by omega))
      fun hn k s hs hx => .bind0 (builderInit_logs ..) fun _ v _ => ((h (some _) (by
          rintro _ ⟨⟩
          exact ⟨choiceTrait_length ps, fun q hq => hn.child (.choice hq)⟩) _ _ _ _ s hs hx).bindr fun _ _ _ => by
        show Mk (if _ then _ else _) 0 0
        split <;> exact .pure).mono (by omega)⟩
  have sequence : ∀ {ps : List (Parser α)} {xs n}, Inside C (.sequence ps) xs n →
      Inside C (.sequence ps) xs n ∧ Counts C (.sequence ps) xs n := fun {ps xs n} h =>
    ⟨h, .of (fun k s hs hx => ((h none nofun _ _ _ _ s hs hx).bindr fun _ _ _ => by
        show Mk (if _ then _ else _) 0 0
        split <;> exact .pure).mono (by omega))
      fun hn k s hs hx => .bind0 (builderInit_logs ..) fun _ v _ => ((h (some _) (by
          rintro _ ⟨⟩
          exact ⟨sequenceTrait_length ps, fun q hq => hn.child (.sequence hq)⟩) _ _ _ _ s hs hx).bindr fun _ _ _ => by
        show Mk (if _ then _ else _) 0 0
        split <;> exact .pure).mono (by omega)⟩
  have exactly : ∀ {p : Parser α} {N xs n}, Inside C (.exactly p N) xs n →
      Inside C (.exactly p N) xs n ∧ Counts C (.exactly p N) xs n := fun {p N xs n} h =>
    ⟨h, .of (fun k s hs hx => ((h s hs hx).1 s).mono (by omega)) fun hn k s hs hx =>
      .bind0 (builderInit_logs ..) fun _ v _ => ((h s hs hx).2 (hn.child .exactly) _ _ _ v).mono (by omega)⟩
  have zero : ∀ {p : Parser α} {xs n}, Inside C (.zeroOrMore p) xs n →
      Inside C (.zeroOrMore p) xs n ∧ Counts C (.zeroOrMore p) xs n := fun {p xs n} h =>
    ⟨h, .of (fun k s hs hx => ((h s hs hx (k + 1)).1.bindr fun _ _ _ => .pure).mono (by omega)) fun hn k s hs hx =>
      .bind0 (builderInit_logs ..) fun _ v _ =>
        (((h s hs hx (k + 1)).2.2 (hn.child .zeroOrMore) _ v).1.bindr fun _ _ _ => .pure).mono (by omega)⟩
  have one : ∀ {p : Parser α} {xs n m o}, PegCalls C p xs n o → Counts C p xs n →
      (∀ k, o = some k → Inside C (.zeroOrMore p) (xs.drop k) m) → (o = none → m = 0) →
      Inside C (.oneOrMore p) xs (n + 1 + m) ∧ Counts C (.oneOrMore p) xs (n + 1 + m) := by
    intro p xs n m o h1 h2 h3 h4
    have h := inside_zeroOrMore h1 h2 h3 h4
    refine ⟨trivial, .of (fun k s hs hx => (((h s hs hx (k + 1)).2.1 false).bindr fun _ _ _ => ?_).mono (by omega))
      fun hn k s hs hx => .bind0 (builderInit_logs ..) fun _ v _ =>
        ((((h s hs hx (k + 1)).2.2 (hn.child .oneOrMore) _ v).2 false).bindr fun _ _ _ => ?_).mono (by omega)⟩
    · show Mk (if _ then _ else _) 0 0
      split <;> exact .pure
    · show Mk (if _ then _ else _) 0 0
      split <;> exact .pure
  have delimit : ∀ {p d : Parser α} {xs n o i}, PegCalls C p xs i o → Inside C (.delimit p d) xs n →
      Inside C (.delimit p d) xs n ∧ Counts C (.delimit p d) xs n := by
    intro p d xs n o i hp h
    refine ⟨h, .of (fun k s hs hx => ?_) fun hn k s hs hx => .bind0 (builderInit_logs ..) fun _ v _ => ?_⟩
    · refine Mk.mono (e := 0) ?_ (by omega)
      have e : (step C (cden C) (k + 1) (.delimit p d)).look s = M.bind (CountedLook C p s) fun r =>
          M.bind (lookDelimitLoop (cden C p) (cden C d) (k + 1) r s) fun x =>
            if r.hasValue then M.pure (R.successVoid x) else M.pure (R.failure s) := by
        refine M.bind_congr fun r => ?_
        cases hr : r.hasValue
        · simp [lookDelimitLoop, hr]
        · simp
      rw [e]
      refine (h s hs hx (k + 1) s).1.post fun r x => ?_
      split <;> exact .pure
    · refine Mk.mono (e := 0) ?_ (by omega)
      have h1 := (h s hs hx (k + 1) s).2 (hn.child .delimit) (hn.child .delimiter) (resultFor C (.delimit p d))
        (resultFor C p) (resultFor C d) (fun _ => M.pure v) (fun _ => .pure)
      simp only [M.pure_bind] at h1
      have h2 := h1.post (f := fun r x => if r.hasValue then M.pure (builderBuild (resultFor C (.delimit p d)) x.2 x.1)
        else M.pure (R.failure s)) fun r x => by split <;> exact .pure
      refine Eq.mp (congrArg (Mk · n 0) ?_) h2
      refine M.bind_congr fun r => ?_
      cases hr : r.hasValue
      · simp [delimitLoop, hr]
      · simp [hr]
  have basic : ∀ {p : Parser α} {xs}, IsBasic p → Inside C p xs 0 ∧ Counts C p xs 0 := by
    intro p xs hp
    cases p with
    | anyOf | noneOf | allOf | anything =>
      exact ⟨trivial, .of (fun _ s _ _ => (lookBasic_logs ..).mk.mono (by omega))
        fun _ _ s _ _ => (parseBasic_logs ..).mk.mono (by omega)⟩
    | _ => cases hp
  have same : ∀ {q p : Parser α} {xs n}, Counts C p xs n → ParseChild C q p → Inside C q xs (n + 1) →
      (∀ k s, (step C (cden C) k q).look s = CountedLook C p s) →
      (∀ k (s : Span) n, Mk (CountedParse C p s) n 0 → Mk ((step C (cden C) k q).parse s) n 1) →
      Inside C q xs (n + 1) ∧ Counts C q xs (n + 1) := fun {q p xs n} h hc hi hl hp =>
    ⟨hi, .of (fun k s hs hx => hl (k + 1) s ▸ (h.look s hs hx).mono (by omega))
      fun hn k s hs hx => hp (k + 1) s _ (h.parse (hn.child hc) s hs hx)⟩
  induction h with
  | hit h | miss h => exact basic h
  | epsilon => exact ⟨trivial, .of (fun _ _ _ _ => .pure) fun _ _ _ _ _ => .pure⟩
  | choiceNil =>
    refine choice fun is hi T u c v s hs hx => ?_
    cases is with
    | none => exact .pure
    | some is => cases is <;> exact .pure
  | choiceHit h ih => exact choice (inside_choice_cons (m := 0) h ih.2 nofun fun _ => rfl)
  | choiceMiss h _ ih1 ih2 => exact choice (inside_choice_cons h ih1.2 (fun _ => ih2.1) fun h => (h rfl).elim)
  | sequenceNil =>
    refine sequence fun is hi T u c v s hs hx => ?_
    cases is with
    | none => exact .pure
    | some is => cases is <;> exact .pure
  | sequenceMore h _ ih1 ih2 =>
    exact sequence (inside_sequence_cons h ih1.2 (by rintro _ ⟨⟩; exact ih2.1) nofun)
  | sequenceMiss h ih => exact sequence (inside_sequence_cons (m := 0) h ih.2 nofun fun _ => rfl)
  | exactlyNil => exact exactly fun s hs hx => ⟨fun _ => .pure, fun _ _ _ _ _ => .pure⟩
  | exactlyMore h _ ih1 ih2 => exact exactly (inside_exactly_succ h ih1.2 (by rintro _ ⟨⟩; exact ih2.1) nofun)
  | exactlyMiss h ih => exact exactly (inside_exactly_succ (m := 0) h ih.2 nofun fun _ => rfl)
  | zeroStop h ih => exact zero (inside_zeroOrMore (m := 0) h ih.2 nofun fun _ => rfl)
  | zeroMore h _ ih1 ih2 => exact zero (inside_zeroOrMore h ih1.2 (by rintro _ ⟨⟩; exact ih2.1) nofun)
  | oneMiss h ih => exact one (m := 0) h ih.2 nofun fun _ => rfl
  | oneMore h _ ih1 ih2 => exact one h ih1.2 (by rintro _ ⟨⟩; exact ih2.1) nofun
  | delimitMiss h ih => exact delimit h (inside_delimit_miss h ih.2)
  | delimitStop h h' ih1 ih2 => exact delimit h (inside_delimit_hit (j := 0) h ih1.2 h' ih2.2 nofun fun _ => rfl)
  | delimitLast h h' _ ih1 ih2 ih3 =>
    exact delimit h (inside_delimit_hit h ih1.2 h' ih2.2 (by rintro _ ⟨⟩; exact ih3.1) nofun)
  | delimitMore h h' _ ih1 ih2 ih3 =>
    exact delimit h (inside_delimit_hit h ih1.2 h' ih2.2 (by rintro _ ⟨⟩; exact ih3.1) nofun)
  | maybeHit h ih | maybeMiss h ih =>
    refine ⟨trivial, .of (fun k s hs hx => ((ih.2.look s hs hx).bindr fun _ _ _ => ?_).mono (by omega))
      fun hn k s hs hx => .bind0 (builderInit_logs ..) fun _ v _ =>
        ((ih.2.parse (hn.child .maybe) s hs hx).bindr fun _ _ _ => .bind0 ?_ fun _ _ _ => .pure).mono (by omega)⟩
    · show Mk (if _ then _ else _) 0 0
      split <;> exact .pure
    · exact .ite (builderEmplace_logs ..) .pure
  | completeHit _ ih | completeShort _ _ ih | completeMiss _ ih =>
    refine ⟨trivial, .of (fun k s hs hx => ((ih.2.look s hs hx).bindr fun _ _ _ => ?_).mono (by omega))
      fun hn k s hs hx => ((ih.2.parse (hn.child .complete) s hs hx).bindr fun _ _ _ => ?_).mono (by omega)⟩
    · show Mk (if _ then _ else _) 0 0
      split <;> exact .pure
    · show Mk (if _ then _ else _) 0 0
      split <;> exact .pure
  | ignore _ ih =>
    exact ⟨trivial, .of (fun k s hs hx => (ih.2.look s hs hx).mono (by omega))
      fun _ k s hs hx => (ih.2.look s hs hx).mono (by omega)⟩
  | join hw _ ih =>
    refine same ih.2 .join trivial (fun k s => ?_) fun k s n h => ?_
    · rw [step, semJoin_notOwn hw]; rfl
    · rw [step, semJoin_notOwn hw]
      refine Mk.bind (e := 0) (n' := 0) (e' := 1) h fun _ r _ => ?_
      show Mk (if _ then _ else _) 0 1
      split
      · refine .bind0 (joinExecutor_logs ..) fun _ j _ => ?_
        cases j <;> exact .pure
      · exact .pure
  | joinOwn hw _ ih =>
    exact ⟨trivial, .of (fun k s _ _ => (ownLoop_logs hw _ (k + 1) s).1.mk.mono (by omega))
      fun _ k s _ _ => (ownLoop_logs hw _ (k + 1) s).2.mk.mono (by omega)⟩
  | map _ ih =>
    refine same ih.2 .map trivial (fun k s => rfl) fun k s n h => ?_
    show Mk (parseMap ..) n 1
    refine Mk.bind (e := 0) (n' := 0) (e' := 1) h fun _ r _ => ?_
    show Mk (if _ then _ else _) 0 1
    split
    · exact .pure
    · refine .bind0 (argVals_logs ..) fun _ args _ => ?_
      refine Mk.bind (n' := 0) (e' := 0) (invoke_logs ..).mk fun _ v _ => ?_
      show Mk (if _ then _ else _) 0 0
      split <;> exact .pure
  | filter _ ih =>
    refine same ih.2 .filter trivial (fun k s => rfl) fun k s n h => ?_
    show Mk (parseFilter ..) n 1
    refine Mk.bind (e := 0) (n' := 0) (e' := 1) h fun _ r _ => ?_
    show Mk (if _ then _ else _) 0 1
    split
    · exact .pure
    · refine .bind0 (argVals_logs ..) fun _ args _ => ?_
      refine Mk.bind (n' := 0) (e' := 0) (invoke_logs ..).mk fun _ v _ => ?_
      show Mk (if _ then _ else _) 0 0
      split <;> exact .pure
  | named _ ih => exact same ih.2 .named trivial (fun k s => rfl) fun k s n h => h.mono (by omega)
  | custom _ ih =>
    refine same ih.2 .custom trivial (fun k s => rfl) fun k s n h => ?_
    exact (h.bindr fun _ r _ => (convertResult_logs ..).mk).mono (by omega)

end Tok3n
