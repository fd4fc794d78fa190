import Verif.Proof.Repeat
import Verif.Proof.Regions
import Verif.Proof.Typing
import Verif.Spec.Join
/-
The specialised joins do what the generic one does.
-/

namespace Tok3n

variable {α β : Type} {C : Ctx α β}

theorem subspan_advance (s : Span) (n : Nat) : (s.subspan C.mem n : Run Span) = advance C s n := by
  simp only [Span.subspan, advance, sizeSub, M.bind_eq]
  by_cases h : n ≤ s.len
  · simp only [if_pos h, M.pure_bind]
  · simp only [if_neg h]
    unfold Ptr.add
    split <;> split <;> rfl

theorem asBasic_parse {p : Parser α} {b : BasicP α} (h : asBasic C p = some b) :
    Parse C p = parseBasic C b ∧ Look C p = lookBasic C b ∧ resultFor C p = .span := by
  cases p with
  | anyOf arr =>
    simp only [asBasic] at h; split at h <;> cases h
    exact ⟨funext fun _ => Parse_anyOf _ _, funext fun _ => Look_anyOf _ _, by rw [resultFor]⟩
  | noneOf arr =>
    simp only [asBasic] at h; split at h <;> cases h
    exact ⟨funext fun _ => Parse_noneOf _ _, funext fun _ => Look_noneOf _ _, by rw [resultFor]⟩
  | allOf arr =>
    simp only [asBasic] at h; cases h
    exact ⟨funext fun _ => Parse_allOf _ _, funext fun _ => Look_allOf _ _, by rw [resultFor]⟩
  | _ => simp [asBasic] at h

/-- one match of a basic parser -/
theorem stepOf_basic (b : BasicP α) (s : Span) :
    stepOf (parseBasic C b) s = M.bind (failureCondition C b s) fun c =>
      if c then M.pure none
      else M.bind (advance C s b.length) fun s' => M.pure (some (.span ⟨s.ptr, b.length⟩, s')) := by
  simp only [stepOf, parseBasic, M.bind_eq, M.bind_assoc]
  refine M.bind_congr fun c => ?_
  cases c
  · simp [R.success, M.bind_assoc]
  · simp [R.failure]

theorem stepOf_lookBasic (b : BasicP α) (s : Span) :
    stepOf (lookBasic C b) s = M.bind (failureCondition C b s) fun c =>
      if c then M.pure none
      else M.bind (advance C s b.length) fun s' => M.pure (some (.unit, s')) := by
  simp only [stepOf, lookBasic, M.bind_eq, M.bind_assoc]
  refine M.bind_congr fun c => ?_
  cases c
  · simp [R.successVoid, M.bind_assoc]
  · simp [R.failure]

theorem advance_ok {s s' : Span} {n : Nat} {l} (h : advance C s n = .done l (.ok s')) :
    l = [] ∧ s.Advanced n s' ∧
      (n ≠ 0 → ∃ b o, s.ptr = .at b o ∧ s'.ptr = .at b (o + n) ∧ o + n ≤ (C.mem b).length) := by
  have hq := advance_quiet_ub C s n
  rw [h] at hq
  refine ⟨hq.1, hq.2, fun hn => ?_⟩
  obtain ⟨b, o, e, e'⟩ : ∃ b o, s.ptr = .at b o ∧ s'.ptr = .at b (o + n) := by
    rcases hq.2.start with ⟨h0, _⟩ | h
    · exact absurd h0 hn
    · exact h
  refine ⟨b, o, e, e', ?_⟩
  by_contra hlt
  simp only [advance, M.bind_eq, e, Ptr.add, if_neg hlt, M.fail_bind] at h
  cases h

theorem step_basic_some {b : BasicP α} {s s' : Span} {l v}
    (h : stepOf (parseBasic C b) s = .done l (.ok (some (v, s')))) :
    l = [] ∧ v = .span ⟨s.ptr, b.length⟩ ∧ s.Advanced b.length s' ∧
      (b.length ≠ 0 → ∃ k o, s.ptr = .at k o ∧ s'.ptr = .at k (o + b.length) ∧
        o + b.length ≤ (C.mem k).length) := by
  rw [stepOf_basic, M.bind_eq_ok] at h
  obtain ⟨l1, l2, c, h1, h2, rfl⟩ := h
  have hq := failureCondition_quiet_ub C b s
  rw [h1] at hq
  cases c with
  | true => simp at h2
  | false =>
    simp only [Bool.false_eq_true, if_false, M.bind_eq_ok, M.pure_eq_ok, Option.some.injEq,
      Prod.mk.injEq] at h2
    obtain ⟨l3, l4, s2, h3, ⟨rfl, rfl, rfl⟩, rfl⟩ := h2
    obtain ⟨rfl, ha, hb⟩ := advance_ok h3
    exact ⟨by simp [hq.1], rfl, ha, hb⟩

/-- Matches of a basic parser in a row are adjacent. -/
theorem tryJoins_basic_some {b : BasicP α} (hb : b.length ≠ 0) {s s' : Span} {l vs}
    (h : Chain (stepOf (parseBasic C b)) s l vs s') {k o m : Nat} (hs : s.ptr = .at k (o + m)) :
    tryJoins C (some ⟨.at k o, m⟩) vs = M.pure (true, some ⟨.at k o, m + vs.length * b.length⟩) := by
  induction h generalizing m with
  | nil => simp [tryJoins]
  | @cons s l x s1 log xs s2 hx _ ih =>
    obtain ⟨-, rfl, -, hin⟩ := step_basic_some hx
    obtain ⟨k', o', e, e', hle⟩ := hin hb
    rw [hs] at e; cases e
    have ha : adjacent C ⟨.at k o, m⟩ ⟨s.ptr, b.length⟩ = M.pure true := by
      have h1 : InArr k (C.mem k).length ⟨.at k o, m⟩ := ⟨o, rfl, by show o + m ≤ _; omega⟩
      have h2 : InArr k (C.mem k).length ⟨s.ptr, b.length⟩ := ⟨o + m, hs, hle⟩
      rw [adjacent_eq (le_refl _) h1 h2]
      simp [touches, hs]
    simp only [tryJoins, tryJoin, tryJoinSpan, Span.empty, beq_iff_eq, hb, if_false, M.bind_eq, ha,
      M.pure_bind, if_true]
    rw [ih (m := m + b.length) (by rw [e']; congr 1; omega)]
    have : m + b.length + xs.length * b.length = m + (xs.length + 1) * b.length := by
      rw [Nat.add_mul]; omega
    simp only [List.length_cons, this]

theorem chain_basic_empty {b : BasicP α} (hb : b.length = 0) {s s' : Span} {l vs}
    (h : Chain (stepOf (parseBasic C b)) s l vs s') :
    s'.ptr = s.ptr ∧ tryJoins C none vs = M.pure (true, none) := by
  induction h with
  | nil => exact ⟨rfl, by simp [tryJoins]⟩
  | @cons s l x s1 log xs s2 hx _ ih =>
    obtain ⟨-, rfl, ha, -⟩ := step_basic_some hx
    refine ⟨ih.1.trans ?_, ?_⟩
    · rcases ha.start with ⟨_, e⟩ | ⟨k, o, e, e'⟩
      · exact e
      · rw [e', e, hb, Nat.add_zero]
    · simp [tryJoins, tryJoin, tryJoinSpan, Span.empty, hb, ih.2]

/-- Joining matches of a basic parser in a row gives what they cover. -/
theorem joinExecutor_basic {b : BasicP α} {s s' : Span} {l vs}
    (h : Chain (stepOf (parseBasic C b)) s l vs s') {v : Val}
    (hv : ∀ j, tryJoin C j v = tryJoins C j vs) :
    joinExecutor C ⟨some v, s'⟩ = M.pure (some ⟨s.ptr, vs.length * b.length⟩) := by
  simp only [joinExecutor, R.deref, M.bind_eq, M.pure_bind, hv]
  by_cases hb : b.length = 0
  · obtain ⟨e, ht⟩ := chain_basic_empty hb h
    simp [ht, e, hb]
  · cases h with
    | nil => simp [tryJoins]
    | @cons _ l x s1 log xs _ hx ht =>
      obtain ⟨-, rfl, -, hin⟩ := step_basic_some hx
      obtain ⟨k', o', e, e', hle⟩ := hin hb
      have := tryJoins_basic_some hb ht e'
      simp only [tryJoins, tryJoin, tryJoinSpan, Span.empty, beq_iff_eq, hb, if_false, M.bind_eq,
        M.pure_bind, if_true, e, this]
      simp [Nat.add_mul, Nat.add_comm]

theorem joinRepeatLoop_rep (b : BasicP α) (k : Nat) (s : Span) (q : Ptr) (m : Nat) :
    joinRepeatLoop C b k s ⟨q, m⟩ = M.bind (rep (stepOf (parseBasic C b)) k s) fun x =>
      M.pure (x.2, ⟨q, m + x.1.length * b.length⟩) := by
  induction k generalizing s m with
  | zero => rfl
  | succ k ih =>
    simp only [joinRepeatLoop, rep, stepOf_basic, M.bind_eq, M.bind_assoc, subspan_advance]
    refine M.bind_congr fun c => ?_
    cases c with
    | true => simp
    | false =>
      simp only [Bool.false_eq_true, if_false, M.bind_assoc, M.pure_bind]
      refine M.bind_congr fun s' => ?_
      rw [ih]
      refine M.bind_congr fun x => ?_
      have : m + b.length + x.1.length * b.length = m + (x.1.length + 1) * b.length := by
        rw [Nat.add_mul]; omega
      simp only [List.length_cons, this]

theorem lookJoinRepeatLoop_rep (b : BasicP α) (k : Nat) (s : Span) :
    lookJoinRepeatLoop C b k s = M.bind (rep (stepOf (lookBasic C b)) k s) fun x => M.pure x.2 := by
  induction k generalizing s with
  | zero => rfl
  | succ k ih =>
    simp only [lookJoinRepeatLoop, rep, stepOf_lookBasic, M.bind_eq, M.bind_assoc, subspan_advance]
    refine M.bind_congr fun c => ?_
    cases c with
    | true => simp
    | false =>
      simp only [Bool.false_eq_true, if_false, M.bind_assoc, M.pure_bind]
      refine M.bind_congr fun s' => ?_
      rw [ih]

theorem jrLoop_repeat (b : BasicP α) (s : Span) (q : Ptr) (m : Nat) :
    jrLoop C b s ⟨q, m⟩ = M.bind (repeatAll (stepOf (parseBasic C b)) s) fun x =>
      M.pure (x.2, ⟨q, m + x.1.length * b.length⟩) := by
  refine (jrLoop_lim b s ⟨q, m⟩).unique ?_
  simp only [joinRepeatLoop_rep]
  exact Lim.bind (f := fun _ (x : List Val × Span) => M.pure (x.2, (⟨q, m + x.1.length * b.length⟩ : Span)))
    (repeatAll_lim _ s) fun _ => Lim.const _

theorem lookJrLoop_repeat (b : BasicP α) (s : Span) :
    lookJrLoop C b s = M.bind (repeatAll (stepOf (lookBasic C b)) s) fun x => M.pure x.2 := by
  refine (lookJrLoop_lim b s).unique ?_
  simp only [lookJoinRepeatLoop_rep]
  exact Lim.bind (f := fun _ (x : List Val × Span) => M.pure x.2) (repeatAll_lim _ s) fun _ => Lim.const _

theorem joinExactlyLoop_inOrder (b : BasicP α) (s0 : Span) (n : Nat) (s : Span) (q : Ptr) (m : Nat) :
    joinExactlyLoop C b s0 n s ⟨q, m⟩ =
      allOrNothing s0 (fun _ => .span ⟨q, m + n * b.length⟩) (inOrder (List.replicate n (parseBasic C b)) s) := by
  induction n generalizing s m with
  | zero => simp [joinExactlyLoop, allOrNothing, inOrder, R.success]
  | succ n ih =>
    simp only [joinExactlyLoop, List.replicate_succ, inOrder, allOrNothing, parseBasic, M.bind_eq,
      M.bind_assoc, subspan_advance]
    refine M.bind_congr fun c => ?_
    cases c with
    | true => simp [R.failure]
    | false =>
      simp only [Bool.false_eq_true, if_false, M.bind_assoc, M.pure_bind, R.success]
      refine M.bind_congr fun s' => ?_
      rw [ih]
      simp only [allOrNothing]
      refine M.bind_congr fun x => ?_
      have : m + b.length + n * b.length = m + (n + 1) * b.length := by rw [Nat.add_mul]; omega
      cases x with
      | none => simp
      | some x => simp [this]

theorem lookJoinExactlyLoop_inOrder (b : BasicP α) (s0 : Span) (n : Nat) (s : Span) :
    lookJoinExactlyLoop C b s0 n s =
      allOrNothing s0 (fun _ => .unit) (inOrder (List.replicate n (lookBasic C b)) s) := by
  induction n generalizing s with
  | zero => simp [lookJoinExactlyLoop, allOrNothing, inOrder, R.successVoid]
  | succ n ih =>
    simp only [lookJoinExactlyLoop, List.replicate_succ, inOrder, allOrNothing, lookBasic, M.bind_eq,
      M.bind_assoc, subspan_advance]
    refine M.bind_congr fun c => ?_
    cases c with
    | true => simp [R.failure]
    | false =>
      simp only [Bool.false_eq_true, if_false, M.bind_assoc, M.pure_bind, R.successVoid]
      refine M.bind_congr fun s' => ?_
      rw [ih]
      simp only [allOrNothing]
      refine M.bind_congr fun x => ?_
      cases x with
      | none => simp
      | some x => simp

theorem vectorValue_tryJoin {t : Ty} (ht : t ≠ .void) (vs : List Val) (j : Option Span) :
    tryJoin C j (vectorValue t vs) = tryJoins C j vs := by
  simp [vectorValue, ht, tryJoin]

/-- All joins agree with the generic one. -/
theorem Parse_join_eq (p : Parser α) (s : Span) : Parse C (.join p) s = parseJoin C (den C p) s := by
  by_cases hs : JoinSpec C p
  swap
  · exact Parse_join_generic s p hs
  cases hs with
  | @exactly q n b h =>
    obtain ⟨hP, -, ht⟩ := asBasic_parse h
    have hv : resultFor C q ≠ .void := by rw [ht]; nofun
    rw [Parse_join_exactly s h, parseJoinExactlyBasic, joinExactlyLoop_inOrder, parseJoin]
    have hok : parseOK C (.exactly q n) = true := by
      cases q <;> simp [asBasic] at h <;> simp [parseOK, tyOK, resultFor, voidOr, defaultVal]
    simp only [den, M.bind_eq, Parse_exactly_eq hok, hP, allOrNothing, M.bind_assoc]
    refine M.bind_congr' fun l x hx => ?_
    cases x with
    | none => simp [R.hasValue, R.failure]
    | some x =>
      obtain ⟨vs, s'⟩ := x
      have hx' := inOrder_some.mp hx
      have hlen : vs.length = n := by simpa using hx'.length
      have hc : Chain (stepOf (parseBasic C b)) s l vs s' := chain_inTurn.mpr (by rwa [hlen])
      simp only [M.pure_bind, R.hasValue, Option.isSome_some, if_true]
      rw [joinExecutor_basic hc (by simp [arrayValue, hv, tryJoin])]
      simp [hlen, R.success]
  | @maybe q b h =>
    obtain ⟨hP, -, ht⟩ := asBasic_parse h
    have hv : resultFor C q ≠ .void := by rw [ht]; nofun
    rw [Parse_join_maybe s h, parseJoinMaybeBasic, parseJoin]
    simp only [den, M.bind_eq, Parse_maybe_eq, hP, M.bind_assoc, M.pure_bind, R.hasValue,
      Option.isSome_some, if_true, optionalValue, if_neg hv, parseBasic]
    refine M.bind_congr fun c => ?_
    cases c with
    | true => simp [R.failure, joinExecutor, R.deref, tryJoin, R.success]
    | false =>
      simp only [Bool.false_eq_true, if_false, M.bind_assoc, M.pure_bind]
      refine M.bind_congr' fun l s' ha => ?_
      obtain ⟨-, hadv, hin⟩ := advance_ok ha
      by_cases hb : b.length = 0
      · have : s'.ptr = s.ptr := by
          rcases hadv.start with ⟨_, e⟩ | ⟨k, o, e, e'⟩
          · exact e
          · rw [e', e, hb, Nat.add_zero]
        simp [R.success, joinExecutor, R.deref, tryJoin, tryJoinSpan, Span.empty, hb, this]
      · simp [R.success, joinExecutor, R.deref, tryJoin, tryJoinSpan, Span.empty, hb]
  | @oneOrMore q b h =>
    obtain ⟨hP, -, ht⟩ := asBasic_parse h
    have hv : resultFor C q ≠ .void := by rw [ht]; nofun
    rw [Parse_join_oneOrMore s h, parseJoin]
    have hgen : ∀ l x, repeatAll (stepOf (parseBasic C b)) s = .done l (.ok x) → x.1 ≠ [] →
        joinExecutor C ⟨some (vectorValue (resultFor C q) x.1), x.2⟩ =
          M.pure (some ⟨s.ptr, x.1.length * b.length⟩) := by
      rintro l ⟨xs, s'⟩ hx -
      obtain ⟨l1, l2, hc, -, -⟩ := repeatAll_ok.mp hx
      exact joinExecutor_basic hc (vectorValue_tryJoin hv xs)
    simp only [den, M.bind_eq, Parse_oneOrMore_eq, hP, M.bind_assoc, M.pure_bind]
    trans M.bind (repeatAll (stepOf (parseBasic C b)) s) fun x =>
      if x.1 = [] then M.pure (R.failure s)
      else M.pure (R.success (.span ⟨s.ptr, x.1.length * b.length⟩) x.2)
    swap
    · refine M.bind_congr' fun l x hx => ?_
      by_cases h0 : x.1 = []
      · simp [h0, R.hasValue]
      · simp only [if_neg h0, R.hasValue, Option.isSome_some, if_true]
        rw [hgen l x hx h0]; simp
    rw [repeatAll_eq, stepOf_basic]
    simp only [M.bind_assoc, subspan_advance]
    refine M.bind_congr fun c => ?_
    cases c with
    | true => simp
    | false =>
      simp only [Bool.false_eq_true, if_false, M.bind_assoc, M.pure_bind]
      refine M.bind_congr fun s' => ?_
      rw [jrLoop_repeat]
      simp [M.bind_assoc, Nat.add_mul, Nat.add_comm]
  | @zeroOrMore q b h =>
    obtain ⟨hP, -, ht⟩ := asBasic_parse h
    have hv : resultFor C q ≠ .void := by rw [ht]; nofun
    rw [Parse_join_zeroOrMore s h, parseJoin]
    simp only [den, M.bind_eq, Parse_zeroOrMore_eq, hP, M.bind_assoc, M.pure_bind, R.hasValue,
      Option.isSome_some, if_true, jrLoop_repeat]
    refine M.bind_congr' fun l x hx => ?_
    obtain ⟨l1, l2, hc, -, -⟩ := repeatAll_ok.mp (show _ = M.done l (.ok (x.1, x.2)) from hx)
    rw [joinExecutor_basic hc (vectorValue_tryJoin hv _)]
    simp

theorem Look_join_eq (p : Parser α) (s : Span) : Look C (.join p) s = Look C p s := by
  by_cases hs : JoinSpec C p
  swap
  · exact Look_join_generic s p hs
  cases hs with
  | @exactly q n b h =>
    obtain ⟨-, hL, -⟩ := asBasic_parse h
    rw [Look_join_exactly s h, lookJoinExactlyBasic, lookJoinExactlyLoop_inOrder, Look_exactly_eq, hL]
  | @maybe q b h =>
    obtain ⟨-, hL, -⟩ := asBasic_parse h
    rw [Look_join_maybe s h, lookJoinMaybeBasic, Look_maybe_eq, hL, lookBasic]
    simp only [M.bind_eq, M.bind_assoc]
    refine M.bind_congr fun c => ?_
    cases c with
    | true => simp [R.failure, R.successVoid]
    | false => simp [R.successVoid, M.bind_assoc]
  | @oneOrMore q b h =>
    obtain ⟨-, hL, -⟩ := asBasic_parse h
    rw [Look_join_oneOrMore s h, Look_oneOrMore_eq, hL, repeatAll_eq, stepOf_lookBasic]
    simp only [M.bind_assoc, subspan_advance, lookJrLoop_repeat]
    refine M.bind_congr fun c => ?_
    cases c with
    | true => simp [R.failure]
    | false => simp [R.successVoid, M.bind_assoc]
  | @zeroOrMore q b h =>
    obtain ⟨-, hL, -⟩ := asBasic_parse h
    rw [Look_join_zeroOrMore s h, Look_zeroOrMore_eq, hL, lookJrLoop_repeat]
    simp [M.bind_assoc, R.successVoid]

/-! ### The generic join -/

theorem touches_iff {a b : Span} : touches a b = true ↔ Touch a b := by
  unfold touches Touch
  cases ha : a.ptr <;> cases hb : b.ptr <;> simp
  constructor
  · rintro ⟨rfl, rfl⟩; exact ⟨rfl, rfl⟩
  · rintro ⟨rfl, rfl⟩; exact ⟨rfl, rfl⟩

/-- the accumulated span stands for the spans it covers -/
theorem joinAll_some {j : Span} {xs : List Span} :
    (Contiguous (j :: nonEmpty xs) → joinAll (some j) xs = (true, some (cover j (j :: nonEmpty xs)))) ∧
    (¬ Contiguous (j :: nonEmpty xs) → joinAll (some j) xs = (false, none)) := by
  induction xs generalizing j with
  | nil => simp [nonEmpty, Contiguous, joinAll, cover]
  | cons x xs ih =>
    by_cases h0 : x.len = 0
    · simpa [nonEmpty, joinAll, h0] using ih
    · have he : nonEmpty (x :: xs) = x :: nonEmpty xs := by simp [nonEmpty, h0]
      simp only [he, joinAll, if_neg h0, Contiguous]
      by_cases ht : Touch j x
      · have e : Contiguous (⟨j.ptr, j.len + x.len⟩ :: nonEmpty xs) ↔ Contiguous (x :: nonEmpty xs) := by
          cases nonEmpty xs with
          | nil => simp [Contiguous]
          | cons y ys =>
            simp only [Contiguous, Touch]
            obtain ⟨k, o, h1, h2⟩ := ht
            simp only [h1, h2, Ptr.at.injEq]
            constructor
            · rintro ⟨⟨k', o', ⟨rfl, rfl⟩, h⟩, hc⟩
              exact ⟨⟨_, _, ⟨rfl, rfl⟩, by rw [h]; congr 1; omega⟩, hc⟩
            · rintro ⟨⟨k', o', ⟨rfl, rfl⟩, h⟩, hc⟩
              exact ⟨⟨_, _, ⟨rfl, rfl⟩, by rw [h]; congr 1; omega⟩, hc⟩
        rw [if_pos (touches_iff.mpr ht)]
        simp only [ht, true_and]
        obtain ⟨i1, i2⟩ := @ih ⟨j.ptr, j.len + x.len⟩
        rw [e] at i1 i2
        refine ⟨fun hc => ?_, i2⟩
        rw [i1 hc]
        simp [cover, Nat.add_assoc]
      · have hf : touches j x = false := by
          cases h : touches j x with
          | false => rfl
          | true => exact absurd (touches_iff.mp h) ht
        simp [hf, ht]

theorem joinAll_none {xs : List Span} :
    (Contiguous (nonEmpty xs) → ∀ r : Span, joinAll none xs =
      (true, if nonEmpty xs = [] then none else some (cover r (nonEmpty xs)))) ∧
    (¬ Contiguous (nonEmpty xs) → joinAll none xs = (false, none)) := by
  induction xs with
  | nil => simp [nonEmpty, Contiguous, joinAll]
  | cons x xs ih =>
    by_cases h0 : x.len = 0
    · simpa [nonEmpty, joinAll, h0] using ih
    · have he : nonEmpty (x :: xs) = x :: nonEmpty xs := by simp [nonEmpty, h0]
      simp only [he, joinAll, if_neg h0]
      refine ⟨fun h r => ?_, joinAll_some.2⟩
      rw [joinAll_some.1 h]; simp [cover]

/-- What the generic join makes of a value whose spans lie in the consumed input. -/
theorem joinExecutor_spec {t : Ty} {v : Val} {s s' : Span} (hj : joinable C t = true) (hv : HasTy t v)
    (hs : s.Valid C.mem) (h' : s'.SuffixOf s) (hL : C.Local) (hreg : ∀ x ∈ v.spans, InRegion s s' x) :
    (Contiguous (nonEmpty (joinLeaves C v)) →
      joinExecutor C ⟨some v, s'⟩ = M.pure (some (cover s' (nonEmpty (joinLeaves C v))))) ∧
    (¬ Contiguous (nonEmpty (joinLeaves C v)) → joinExecutor C ⟨some v, s'⟩ = M.pure none) := by
  obtain ⟨b, hi, hhi, hin⟩ := region_inArr hs h'
  have hx : ∀ x ∈ joinLeaves C v, x.len ≠ 0 → InArr b hi x := fun x hx h0 => by
    refine hin x ?_ h0
    rcases joinLeaves_local hL v x hx with rfl | h
    · exact .inl rfl
    · exact hreg x h
  have key : tryJoin C none v = M.pure (joinAll none (joinLeaves C v)) := by
    rw [tryJoin_eq none t v hj hv, tryJoinList_eq hhi _ hx none nofun]
  simp only [joinExecutor, R.deref, M.bind_eq, M.pure_bind, key]
  refine ⟨fun hc => ?_, fun hc => ?_⟩
  · rw [joinAll_none.1 hc s']
    by_cases hn : nonEmpty (joinLeaves C v) = []
    · simp [hn, cover]
    · simp [hn]
  · rw [joinAll_none.2 hc]; simp

section
variable (C)
mutual
/-- a joined span is never empty -/
theorem tryJoin_len (j : Option Span) (hj : ∀ y, j = some y → y.len ≠ 0) :
    ∀ (v : Val) {l b j'}, tryJoin C j v = .done l (.ok (b, j')) → ∀ y, j' = some y → y.len ≠ 0
  | .span s, l, b, j', h, y, hy => tryJoinSpan_len j hj h y hy
  | .vec vs, l, b, j', h, y, hy => tryJoins_len j hj vs (by simpa only [tryJoin] using h) y hy
  | .arr vs, l, b, j', h, y, hy => tryJoins_len j hj vs (by simpa only [tryJoin] using h) y hy
  | .opt none, l, b, j', h, y, hy => by
    simp only [tryJoin, M.pure_eq_ok, Prod.mk.injEq] at h
    exact hj y (by rw [← h.2.2, hy])
  | .opt (some v), l, b, j', h, y, hy => tryJoin_len j hj v (by simpa only [tryJoin] using h) y hy
  | .tup vs, l, b, j', h, y, hy => tryJoins_len j hj vs (by simpa only [tryJoin] using h) y hy
  | .user k t vs, l, b, j', h, y, hy => by
    simp only [tryJoin] at h
    split at h
    · exact tryJoinSpan_len j hj h y hy
    · simp at h
  | .unit, l, b, j', h, y, hy => by simp [tryJoin] at h
  | .var .., l, b, j', h, y, hy => by simp [tryJoin] at h
  | .pair .., l, b, j', h, y, hy => by simp [tryJoin] at h
theorem tryJoins_len (j : Option Span) (hj : ∀ y, j = some y → y.len ≠ 0) :
    ∀ (vs : List Val) {l b j'}, tryJoins C j vs = .done l (.ok (b, j')) → ∀ y, j' = some y → y.len ≠ 0
  | [], l, b, j', h, y, hy => by
    simp only [tryJoins, M.pure_eq_ok, Prod.mk.injEq] at h
    exact hj y (by rw [← h.2.2, hy])
  | v :: vs, l, b, j', h, y, hy => by
    simp only [tryJoins, M.bind_eq, M.bind_eq_ok] at h
    obtain ⟨l1, l2, ⟨ok, j1⟩, h1, h2, -⟩ := h
    have h3 := tryJoin_len j hj v h1
    cases ok with
    | true => exact tryJoins_len j1 h3 vs (by simpa using h2) y hy
    | false =>
      simp only [Bool.false_eq_true, if_false, M.pure_eq_ok, Prod.mk.injEq] at h2
      exact h3 y (by rw [← h2.2.2, hy])
theorem tryJoinSpan_len (j : Option Span) (hj : ∀ y, j = some y → y.len ≠ 0) {s : Span} {l b j'}
    (h : tryJoinSpan C j s = .done l (.ok (b, j'))) : ∀ y, j' = some y → y.len ≠ 0 := by
  simp only [tryJoinSpan, Span.empty, beq_iff_eq] at h
  split at h
  · simp only [M.pure_eq_ok, Prod.mk.injEq] at h
    obtain ⟨-, -, rfl⟩ := h
    exact hj
  · rename_i h0
    cases j with
    | none =>
      simp only [M.pure_eq_ok, Prod.mk.injEq] at h
      obtain ⟨-, -, rfl⟩ := h
      rintro y ⟨⟩; exact h0
    | some j =>
      simp only [M.bind_eq, M.bind_eq_ok] at h
      obtain ⟨l1, l2, a, h1, h2, -⟩ := h
      cases a with
      | true =>
        simp only [if_true, M.pure_eq_ok, Prod.mk.injEq] at h2
        obtain ⟨-, -, rfl⟩ := h2
        rintro y ⟨⟩; show j.len + s.len ≠ 0; omega
      | false =>
        simp only [Bool.false_eq_true, if_false, M.pure_eq_ok, Prod.mk.injEq] at h2
        obtain ⟨-, -, rfl⟩ := h2
        nofun
end
end

/-- joining the result of a join again changes nothing -/
theorem joinExecutor_again {r : R} {l j} (h : joinExecutor C r = .done l (.ok (some j))) :
    joinExecutor C ⟨some (.span j), r.rem⟩ = M.pure (some j) := by
  simp only [joinExecutor, M.bind_eq, M.bind_eq_ok] at h
  obtain ⟨l1, l2, v, -, ⟨l3, l4, ⟨ok, jj⟩, h1, h2, -⟩, -⟩ := h
  have hlen := tryJoin_len C none nofun v h1
  have hj : j.len ≠ 0 ∨ j = ⟨r.rem.ptr, 0⟩ := by
    split at h2 <;> simp only [M.pure_eq_ok, Option.some.injEq] at h2
    · exact .inr h2.2
    · exact .inl (hlen j h2.2.symm)
  rcases hj with hj | rfl
  · simp [joinExecutor, R.deref, tryJoin, tryJoinSpan, Span.empty, hj]
  · simp [joinExecutor, R.deref, tryJoin, tryJoinSpan, Span.empty]

theorem Parse_join_join (p : Parser α) (s : Span) : Parse C (.join (.join p)) s = Parse C (.join p) s := by
  rw [Parse_join_eq, parseJoin]
  simp only [den, M.bind_eq]
  rw [Parse_join_eq, parseJoin]
  simp only [den, M.bind_eq, M.bind_assoc]
  refine M.bind_congr fun r => ?_
  cases hv : r.hasValue with
  | false => simp [R.hasValue, R.failure]
  | true =>
    simp only [if_true, M.bind_assoc]
    refine M.bind_congr' fun l j hj => ?_
    cases j with
    | none => simp [R.hasValue, R.failure]
    | some j => simp [R.hasValue, R.success, joinExecutor_again hj]

end Tok3n
