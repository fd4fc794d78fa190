import Verif.Spec.Peg
import Verif.Proof.Repeat
import Verif.Proof.Join
import Verif.Props.Literals
/-
`lookahead` and the grammar agree.
-/

namespace Tok3n

variable {α β : Type} {C : Ctx α β}

/-- the grammar of the parsers of `C` -/
abbrev PegC (C : Ctx α β) : Parser α → List β → Option Nat → Prop := Peg C.eqv fun k => (C.custom k).body

theorem Peg.le {eqv : α → β → Bool} {body : Nat → Parser α} {p : Parser α} {xs : List β} {o : Option Nat}
    (h : Peg eqv body p xs o) : ∀ k ∈ o, k ≤ xs.length := by
  induction h with
  | hit hp hm =>
    obtain ⟨b, hb⟩ := hp.get
    rw [matches_iff hb] at hm
    rintro _ ⟨⟩
    rw [hm.1]; exact BasicP.accepts_length hm.2
  | miss | choiceNil | sequenceMiss | exactlyMiss | oneMiss | delimitMiss | completeShort | completeMiss => nofun
  | epsilon | sequenceNil | maybeMiss | exactlyNil | zeroStop => rintro _ ⟨⟩; exact Nat.zero_le _
  | choiceHit _ ih | maybeHit _ ih => exact ih
  | choiceMiss _ _ _ ih => exact ih
  | zeroMore _ _ ih1 ih2 | oneMore _ _ ih1 ih2 | delimitMore _ _ ih1 ih2 =>
    rintro _ ⟨⟩
    have h1 := ih1 _ rfl
    have h2 := ih2 _ rfl
    simp only [List.length_drop] at h2
    omega
  | @sequenceMore _ _ _ k o _ _ ih1 ih2 | @exactlyMore _ _ _ k o _ _ ih1 ih2 =>
    intro j hj
    cases o with
    | none => cases hj
    | some i =>
      cases hj
      have h1 := ih1 _ rfl
      have h2 := ih2 _ rfl
      simp only [List.length_drop] at h2
      show k + i ≤ _
      omega
  | completeHit => rintro _ ⟨⟩; exact Nat.le_refl _
  | ignore _ ih | join _ ih | map _ ih | filter _ ih | named _ ih | custom _ ih => exact ih

/-- the result of `lookahead` that the grammar asks for -/
def pegResult (s : Span) : Option Nat → R
  | none => R.failure s
  | some k => R.successVoid (s.drop k)

/-! ### One element at a time -/

theorem Look_choice_cons (p : Parser α) (ps : List (Parser α)) (s : Span) :
    Look C (.choice (p :: ps)) s =
      M.bind (Look C p s) fun r => if r.val.isSome then M.pure r else Look C (.choice ps) s := by
  rw [Look_choice_eq, List.map_cons, firstOf]
  simp only [Look_choice_eq]

theorem Look_sequence_cons (p : Parser α) (ps : List (Parser α)) (s : Span) :
    Look C (.sequence (p :: ps)) s = M.bind (Look C p s) fun r =>
      if r.val.isSome then M.bind (Look C (.sequence ps) r.rem) fun r' =>
        if r'.val.isSome then M.pure r' else M.pure (R.failure s)
      else M.pure (R.failure s) := by
  rw [Look_sequence_eq, List.map_cons, inOrder, allOrNothing, M.bind_assoc]
  refine M.bind_congr fun r => ?_
  obtain ⟨rv, rr⟩ := r
  cases rv with
  | none => simp [R.failure]
  | some v =>
    simp only [Option.isSome_some, if_true, Look_sequence_eq, allOrNothing]
    rw [M.bind_assoc, M.bind_assoc]
    refine M.bind_congr fun x => ?_
    cases x with
    | none => simp [R.failure]
    | some x => simp

theorem Look_exactly_succ (p : Parser α) (n : Nat) (s : Span) :
    Look C (.exactly p (n + 1)) s = M.bind (Look C p s) fun r =>
      if r.val.isSome then M.bind (Look C (.exactly p n) r.rem) fun r' =>
        if r'.val.isSome then M.pure r' else M.pure (R.failure s)
      else M.pure (R.failure s) := by
  rw [Look_exactly_eq, List.replicate_succ, inOrder, allOrNothing, M.bind_assoc]
  refine M.bind_congr fun r => ?_
  obtain ⟨rv, rr⟩ := r
  cases rv with
  | none => simp [R.failure]
  | some v =>
    simp only [Option.isSome_some, if_true, Look_exactly_eq, allOrNothing]
    rw [M.bind_assoc, M.bind_assoc]
    refine M.bind_congr fun x => ?_
    cases x with
    | none => simp [R.failure]
    | some x => simp

theorem Look_zeroOrMore_unfold (p : Parser α) (s : Span) :
    Look C (.zeroOrMore p) s = M.bind (Look C p s) fun r =>
      if r.val.isSome then Look C (.zeroOrMore p) r.rem else M.pure (R.successVoid s) := by
  rw [Look_zeroOrMore_eq, repeatAll_eq, stepOf, M.bind_assoc, M.bind_assoc]
  refine M.bind_congr fun r => ?_
  obtain ⟨rv, rr⟩ := r
  cases rv with
  | none => simp [R.successVoid]
  | some v =>
    simp only [Option.map_some, M.pure_bind, Option.isSome_some, if_true, Look_zeroOrMore_eq]
    rw [M.bind_assoc]
    simp

theorem Look_oneOrMore_unfold (p : Parser α) (s : Span) :
    Look C (.oneOrMore p) s = M.bind (Look C p s) fun r =>
      if r.val.isSome then Look C (.zeroOrMore p) r.rem else M.pure (R.failure s) := by
  rw [Look_oneOrMore_eq, repeatAll_eq, stepOf, M.bind_assoc, M.bind_assoc]
  refine M.bind_congr fun r => ?_
  obtain ⟨rv, rr⟩ := r
  cases rv with
  | none => simp [R.failure]
  | some v =>
    simp only [Option.map_some, M.pure_bind, Option.isSome_some, if_true, Look_zeroOrMore_eq]
    rw [M.bind_assoc]
    simp

theorem Look_delimit_unfold (p d : Parser α) (s : Span) :
    Look C (.delimit p d) s = M.bind (Look C p s) fun r =>
      if r.val.isSome then Look C (.zeroOrMore (.sequence [d, p])) r.rem else M.pure (R.failure s) := by
  rw [Look_delimit_eq]
  refine M.bind_congr fun r => ?_
  obtain ⟨rv, rr⟩ := r
  cases rv with
  | none => simp [R.failure]
  | some v =>
    simp only [Option.isSome_some, if_true, Look_zeroOrMore_eq]
    rw [repeatAll_map (step := stepPair (Look C d) (Look C p)) (f := fun _ => Val.unit)]
    · rw [M.bind_assoc]; simp
    · intro s
      rw [stepOf, Look_sequence_cons, stepPair, M.bind_assoc, M.bind_assoc]
      refine M.bind_congr fun r => ?_
      obtain ⟨rv, rr⟩ := r
      cases rv with
      | none => simp [R.failure]
      | some v =>
        simp only [Option.isSome_some, if_true, Look_sequence_cons]
        rw [M.bind_assoc, M.bind_assoc, M.bind_assoc]
        refine M.bind_congr fun r => ?_
        obtain ⟨rv, rr⟩ := r
        cases rv with
        | none => simp [R.failure]
        | some v =>
          simp only [Option.isSome_some, if_true, Look_sequence_eq, List.map_nil, inOrder, allOrNothing]
          simp

/-! ### What the grammar derives, `lookahead` does -/

theorem Peg.look {p : Parser α} {xs : List β} {o : Option Nat} (h : PegC C p xs o) (s : Span)
    (hs : s.Valid C.mem) (hx : s.elems C.mem = xs) : Look C p s = M.pure (pegResult s o) := by
  have key : ∀ {p : Parser α} {xs : List β} {k : Nat}, PegC C p xs (some k) → ∀ s : Span, s.Valid C.mem →
      s.elems C.mem = xs → (s.drop k).Valid C.mem ∧ (s.drop k).elems C.mem = xs.drop k := by
    intro p xs k h s hs hx
    have := h.le _ rfl
    rw [← hx, hs.elems_length] at this
    exact ⟨hs.drop this, by rw [Span.elems_drop, hx]⟩
  induction h generalizing s with
  | hit hp hm =>
    obtain ⟨b, hb⟩ := hp.get
    rw [matches_iff hb, ← hx] at hm
    rw [Look_basic hb, lookBasic_eq hs, if_pos hm.2, hm.1]; rfl
  | miss hp hm =>
    obtain ⟨b, hb⟩ := hp.get
    simp only [matches_iff hb, ← hx] at hm
    rw [Look_basic hb, lookBasic_eq hs, if_neg fun h => hm _ ⟨rfl, h⟩]; rfl
  | epsilon => rw [Look_epsilon]; simp [pegResult]
  | choiceNil => rw [Look_choice_eq]; rfl
  | choiceHit _ ih => rw [Look_choice_cons, ih s hs hx]; simp [pegResult, R.successVoid]
  | choiceMiss _ _ ih1 ih2 => rw [Look_choice_cons, ih1 s hs hx, M.pure_bind, ih2 s hs hx]; simp [pegResult, R.failure]
  | sequenceNil => rw [Look_sequence_eq]; simp [inOrder, allOrNothing, pegResult, R.successVoid]
  | @sequenceMore _ _ _ k o h1 _ ih1 ih2 =>
    obtain ⟨hv, he⟩ := key h1 s hs hx
    rw [Look_sequence_cons, ih1 s hs hx, M.pure_bind]
    simp only [pegResult, R.successVoid, Option.isSome_some, if_true]
    rw [ih2 _ hv he, M.pure_bind]
    cases o <;> simp [pegResult, R.failure, R.successVoid, Span.drop_drop]
  | sequenceMiss _ ih => rw [Look_sequence_cons, ih s hs hx]; simp [pegResult, R.failure]
  | maybeHit _ ih => rw [Look_maybe_eq, ih s hs hx]; simp [pegResult, R.successVoid]
  | maybeMiss _ ih => rw [Look_maybe_eq, ih s hs hx]; simp [pegResult, R.successVoid, R.failure]
  | exactlyNil => rw [Look_exactly_eq]; simp [inOrder, allOrNothing, pegResult, R.successVoid]
  | @exactlyMore _ _ _ k o h1 _ ih1 ih2 =>
    obtain ⟨hv, he⟩ := key h1 s hs hx
    rw [Look_exactly_succ, ih1 s hs hx, M.pure_bind]
    simp only [pegResult, R.successVoid, Option.isSome_some, if_true]
    rw [ih2 _ hv he, M.pure_bind]
    cases o <;> simp [pegResult, R.failure, R.successVoid, Span.drop_drop]
  | exactlyMiss _ ih => rw [Look_exactly_succ, ih s hs hx]; simp [pegResult, R.failure]
  | zeroStop _ ih => rw [Look_zeroOrMore_unfold, ih s hs hx]; simp [pegResult, R.failure]
  | zeroMore h1 h2 ih1 ih2 =>
    obtain ⟨hv, he⟩ := key h1 s hs hx
    rw [Look_zeroOrMore_unfold, ih1 s hs hx, M.pure_bind]
    simp only [pegResult, R.successVoid, Option.isSome_some, if_true]
    rw [ih2 _ hv he]
    simp [pegResult, R.successVoid, Span.drop_drop]
  | oneMiss _ ih => rw [Look_oneOrMore_unfold, ih s hs hx]; simp [pegResult, R.failure]
  | oneMore h1 h2 ih1 ih2 =>
    obtain ⟨hv, he⟩ := key h1 s hs hx
    rw [Look_oneOrMore_unfold, ih1 s hs hx, M.pure_bind]
    simp only [pegResult, R.successVoid, Option.isSome_some, if_true]
    rw [ih2 _ hv he]
    simp [pegResult, R.successVoid, Span.drop_drop]
  | delimitMiss _ ih => rw [Look_delimit_unfold, ih s hs hx]; simp [pegResult, R.failure]
  | delimitMore h1 h2 ih1 ih2 =>
    obtain ⟨hv, he⟩ := key h1 s hs hx
    rw [Look_delimit_unfold, ih1 s hs hx, M.pure_bind]
    simp only [pegResult, R.successVoid, Option.isSome_some, if_true]
    rw [ih2 _ hv he]
    simp [pegResult, R.successVoid, Span.drop_drop]
  | completeHit _ ih =>
    rw [Look_complete, lookComplete]
    show M.bind (Look C _ s) _ = _
    rw [ih s hs hx, M.pure_bind]
    simp [pegResult, R.successVoid, R.hasValue, Span.empty, ← hx, hs.elems_length]
  | completeShort _ hk ih =>
    rw [Look_complete, lookComplete]
    show M.bind (Look C _ s) _ = _
    rw [ih s hs hx, M.pure_bind]
    rw [← hx, hs.elems_length] at hk
    have : s.len - _ ≠ 0 := Nat.sub_ne_zero_of_lt hk
    simp [pegResult, R.successVoid, R.hasValue, Span.empty, this]
  | completeMiss _ ih =>
    rw [Look_complete, lookComplete]
    show M.bind (Look C _ s) _ = _
    rw [ih s hs hx, M.pure_bind]
    simp [pegResult, R.failure, R.hasValue]
  | ignore _ ih => rw [Look_ignore]; exact ih s hs hx
  | join _ ih => rw [Look_join_eq]; exact ih s hs hx
  | map _ ih => rw [Look_map]; exact ih s hs hx
  | filter _ ih => rw [Look_filter]; exact ih s hs hx
  | named _ ih => rw [Look_named]; exact ih s hs hx
  | custom _ ih => rw [Look_custom]; exact ih s hs hx

/-! ### What `lookahead` does, the grammar derives -/

/-- the result is one that the grammar derives -/
inductive PegOut (C : Ctx α β) (p : Parser α) (s : Span) : R → Prop where
  | hit {k} : k ≤ s.len → PegC C p (s.elems C.mem) (some k) → PegOut C p s (R.successVoid (s.drop k))
  | miss : PegC C p (s.elems C.mem) none → PegOut C p s (R.failure s)

def LookPeg (C : Ctx α β) (p : Parser α) (P : Sub) : Prop :=
  ∀ s : Span, s.Valid C.mem → Sat (P.look s) (PegOut C p s) fun _ => True

theorem PegOut.of {p : Parser α} {s : Span} {o : Option Nat} (h : PegC C p (s.elems C.mem) o)
    (hs : s.Valid C.mem) : PegOut C p s (pegResult s o) := by
  cases o with
  | none => exact .miss h
  | some k => exact .hit (by have := h.le _ rfl; rwa [hs.elems_length] at this) h

/-- the basic parser decides -/
theorem peg_basic {q : Parser α} {b : BasicP α} (hq : IsBasic q) (hb : q.basic? = some b) (s : Span)
    (hs : s.Valid C.mem) :
    PegC C q (s.elems C.mem) (if b.accepts C.eqv (s.elems C.mem) then some b.length else none) := by
  split
  · exact .hit hq ((matches_iff hb _ _).2 ⟨rfl, ‹_›⟩)
  · exact .miss hq fun k hk => ‹¬ _› ((matches_iff hb _ _).1 hk).2

theorem asBasic_basic {q : Parser α} {b : BasicP α} (h : asBasic C q = some b) :
    IsBasic q ∧ q.basic? = some b := by
  cases q with
  | anyOf a =>
    simp only [asBasic] at h; split at h
    · cases h; exact ⟨trivial, rfl⟩
    · cases h
  | noneOf a =>
    simp only [asBasic] at h; split at h
    · cases h; exact ⟨trivial, rfl⟩
    · cases h
  | allOf a => cases h; exact ⟨trivial, rfl⟩
  | _ => cases h

theorem lookBasic_peg {q : Parser α} {b : BasicP α} (hq : IsBasic q) (hb : q.basic? = some b) (s : Span)
    (hs : s.Valid C.mem) : Sat (lookBasic C b s) (PegOut C q s) fun _ => True := by
  rw [lookBasic_eq hs]
  have := PegOut.of (peg_basic hq hb s hs) hs
  refine Sat.pure ?_
  split <;> simp_all [pegResult]

section
variable {P D : Sub} {p d : Parser α}

/-- go on after a match -/
theorem LookPeg.bind {A : Type} (hP : LookPeg C p P) {s : Span} (hs : s.Valid C.mem) {f : R → Run A} {Q : A → Prop}
    (hhit : ∀ k, k ≤ s.len → (s.drop k).Valid C.mem → (s.drop k).elems C.mem = (s.elems C.mem).drop k →
      PegC C p (s.elems C.mem) (some k) → Sat (f (R.successVoid (s.drop k))) Q fun _ => True)
    (hmiss : PegC C p (s.elems C.mem) none → Sat (f (R.failure s)) Q fun _ => True) :
    Sat (M.bind (P.look s) f) Q fun _ => True := by
  refine Sat.bind (hP s hs) fun r hr => ?_
  cases hr with
  | hit hk h => exact hhit _ hk (hs.drop hk) (Span.elems_drop _) h
  | miss h => exact hmiss h

theorem foldOr_peg {rec : Parser α → Sub} (h : ∀ q, LookPeg C q (rec q)) (T : Ty) (u c : Bool)
    (ps : List (Parser α)) (s : Span) (hs : s.Valid C.mem) (v : Val) :
    Sat (foldOr (execute C T u c) (mkLookElems rec C ps) ⟨s, v⟩)
      (fun x => if x.1 then ∃ k ≤ s.len, x.2.input = s.drop k ∧ PegC C (.choice ps) (s.elems C.mem) (some k)
        else PegC C (.choice ps) (s.elems C.mem) none) fun _ => True := by
  induction ps with
  | nil => exact Sat.pure (by simpa using Peg.choiceNil)
  | cons p ps ih =>
    simp only [mkLookElems, foldOr, execute, M.bind_eq]
    rw [M.bind_assoc]
    refine (h p).bind hs (fun k hk hv he hp => ?_) fun hp => ?_
    · refine Sat.pure ?_
      exact ⟨k, hk, rfl, .choiceHit hp⟩
    · rw [M.pure_bind]
      refine Sat.mono ih (fun x hx => ?_) fun _ h => h
      split at hx
      · rename_i hx1
        obtain ⟨k, hk, hi, hp'⟩ := hx
        rw [if_pos hx1]
        exact ⟨k, hk, hi, .choiceMiss hp hp'⟩
      · rename_i hx1
        rw [if_neg hx1]
        exact .choiceMiss hp hx

theorem foldAnd_peg {rec : Parser α → Sub} (h : ∀ q, LookPeg C q (rec q)) (T : Ty) (u c : Bool)
    (ps : List (Parser α)) (s : Span) (hs : s.Valid C.mem) (v : Val) :
    Sat (foldAnd (execute C T u c) (mkLookElems rec C ps) ⟨s, v⟩)
      (fun x => if x.1 then ∃ k ≤ s.len, x.2.input = s.drop k ∧ PegC C (.sequence ps) (s.elems C.mem) (some k)
        else PegC C (.sequence ps) (s.elems C.mem) none) fun _ => True := by
  induction ps generalizing s with
  | nil => exact Sat.pure ⟨0, Nat.zero_le _, by simp, .sequenceNil⟩
  | cons p ps ih =>
    simp only [mkLookElems, foldAnd, execute, M.bind_eq]
    rw [M.bind_assoc]
    refine (h p).bind hs (fun k hk hv he hp => ?_) fun hp => ?_
    · rw [M.pure_bind]
      refine Sat.mono (ih (s.drop k) hv) (fun x hx => ?_) fun _ h => h
      rw [he] at hx
      split at hx
      · rename_i hx1
        obtain ⟨j, hj, hi, hp'⟩ := hx
        rw [if_pos hx1]
        rw [Span.drop_len] at hj
        exact ⟨k + j, by omega, by rw [hi, Span.drop_drop], .sequenceMore hp hp'⟩
      · rename_i hx1
        rw [if_neg hx1]
        exact .sequenceMore (o := none) hp hx
    · exact Sat.pure (by simpa using .sequenceMiss hp)

/-- the result of a loop -/
inductive LoopOut (C : Ctx α β) (p : Parser α) (s : Span) : Span → Prop where
  | mk {k} : k ≤ s.len → PegC C p (s.elems C.mem) (some k) → LoopOut C p s (s.drop k)

theorem exactlyLoop_peg (hP : LookPeg C p P) (o : Span) (n : Nat) (s : Span) (hs : s.Valid C.mem) :
    Sat (lookExactlyLoop P o n s)
      (fun r => (∃ k ≤ s.len, r = R.successVoid (s.drop k) ∧ PegC C (.exactly p n) (s.elems C.mem) (some k)) ∨
        (r = R.failure o ∧ PegC C (.exactly p n) (s.elems C.mem) none)) fun _ => True := by
  induction n generalizing s with
  | zero => exact Sat.pure (.inl ⟨0, Nat.zero_le _, by simp, .exactlyNil⟩)
  | succ n ih =>
    refine hP.bind hs (fun k hk hv he hp => ?_) fun hp => ?_
    · refine Sat.mono (ih (s.drop k) hv) (fun r hr => ?_) fun _ h => h
      rw [he] at hr
      rcases hr with ⟨j, hj, rfl, hp'⟩ | ⟨rfl, hp'⟩
      · rw [Span.drop_len] at hj
        exact .inl ⟨k + j, by omega, by rw [Span.drop_drop], .exactlyMore hp hp'⟩
      · exact .inr ⟨rfl, .exactlyMore (o := none) hp hp'⟩
    · exact Sat.pure (.inr ⟨rfl, .exactlyMiss hp⟩)

theorem zeroLoop_peg (hP : LookPeg C p P) (n : Nat) (s : Span) (hs : s.Valid C.mem) :
    Sat (lookZeroOrMoreLoop P n s) (LoopOut C (.zeroOrMore p) s) fun _ => True := by
  induction n generalizing s with
  | zero => trivial
  | succ n ih =>
    refine hP.bind hs (fun k hk hv he hp => ?_) fun hp => ?_
    · refine Sat.mono (ih (s.drop k) hv) (fun r hr => ?_) fun _ h => h
      obtain ⟨hj, hp'⟩ := hr
      rw [Span.drop_drop]
      rw [he] at hp'
      rw [Span.drop_len] at hj
      exact .mk (by omega) (.zeroMore hp hp')
    · have := LoopOut.mk (Nat.zero_le _) (.zeroStop hp)
      rw [Span.drop_zero] at this
      exact Sat.pure this

theorem oneLoop_peg (hP : LookPeg C p P) (n : Nat) (s : Span) (hs : s.Valid C.mem) :
    Sat (lookOneOrMoreLoop P n true s) (fun x => x.1 = true ∧ LoopOut C (.zeroOrMore p) s x.2) fun _ => True := by
  induction n generalizing s with
  | zero => trivial
  | succ n ih =>
    refine hP.bind hs (fun k hk hv he hp => ?_) fun hp => ?_
    · refine Sat.mono (ih (s.drop k) hv) (fun r hr => ?_) fun _ h => h
      obtain ⟨b, r⟩ := r
      obtain ⟨rfl, hr⟩ := hr
      obtain ⟨hj, hp'⟩ := hr
      refine ⟨rfl, ?_⟩
      show LoopOut _ _ _ ((s.drop k).drop _)
      rw [Span.drop_drop]
      rw [he] at hp'
      rw [Span.drop_len] at hj
      exact .mk (by omega) (.zeroMore hp hp')
    · have := LoopOut.mk (Nat.zero_le _) (.zeroStop hp)
      rw [Span.drop_zero] at this
      exact Sat.pure ⟨rfl, this⟩

theorem delimitLoop_peg (hP : LookPeg C p P) (hD : LookPeg C d D) (n : Nat) (s i : Span) (hs : s.Valid C.mem) :
    Sat (lookDelimitLoop P D n (R.successVoid s) i) (LoopOut C (.zeroOrMore (.sequence [d, p])) s) fun _ => True := by
  induction n generalizing s i with
  | zero => trivial
  | succ n ih =>
    have stop : PegC C (.sequence [d, p]) (s.elems C.mem) none →
        LoopOut C (.zeroOrMore (.sequence [d, p])) s s := by
      intro h
      have := LoopOut.mk (s := s) (Nat.zero_le _) (.zeroStop h)
      rwa [Span.drop_zero] at this
    refine hD.bind hs (fun k hk hv he hd => ?_) fun hd => ?_
    · refine hP.bind hv (fun j hj hv' he' hp => ?_) fun hp => ?_
      · refine Sat.mono (ih _ _ hv') (fun r hr => ?_) fun _ h => h
        obtain ⟨hi, hr⟩ := hr
        rw [he] at hp he'
        rw [he', List.drop_drop] at hr
        rw [Span.drop_drop, Span.drop_drop, ← Nat.add_assoc]
        simp only [Span.drop_len] at hi hj
        refine .mk (by omega) (.zeroMore (k := k + j) ?_ hr)
        exact .sequenceMore (o := some j) hd (.sequenceMore (o := some 0) hp .sequenceNil)
      · rw [he] at hp
        cases n with
        | zero => trivial
        | succ n => exact Sat.pure (stop (.sequenceMore (o := none) hd (.sequenceMiss hp)))
    · exact Sat.pure (stop (.sequenceMiss hd))

end

/-! the specialised bodies of `join` are the ordinary ones with a basic parser -/

section
variable (b : BasicP α)

theorem failureCondition_look {A : Type} {s : Span} (hs : s.Valid C.mem) (yes : Span → Run A) (no : Run A) :
    (M.bind (failureCondition C b s) fun c =>
      if c then no else M.bind (s.subspan C.mem b.length) fun s' => yes s') =
    M.bind (lookBasic C b s) fun r => if not r.hasValue then no else yes r.rem := by
  rw [lookBasic_eq hs, M.pure_bind, failureCondition_eq hs, M.pure_bind]
  cases ha : b.accepts C.eqv (s.elems C.mem) with
  | false => simp [R.failure, R.hasValue]
  | true =>
    have := BasicP.accepts_length ha
    rw [hs.elems_length] at this
    simp [R.successVoid, R.hasValue, hs.subspan this]

theorem lookBasic_valid {s : Span} (hs : s.Valid C.mem) {l r} (h : lookBasic C b s = .done l (.ok r)) :
    r.rem.Valid C.mem := by
  have h2 := lookBasic_quiet C b s
  rw [h] at h2
  exact h2.2.suffix.valid hs

theorem lookJoinExactlyLoop_eq (o : Span) (n : Nat) {s : Span} (hs : s.Valid C.mem) :
    lookJoinExactlyLoop C b o n s = lookExactlyLoop ⟨fun _ => .diverge, lookBasic C b⟩ o n s := by
  induction n generalizing s with
  | zero => rfl
  | succ n ih =>
    simp only [lookJoinExactlyLoop, lookExactlyLoop, M.bind_eq]
    rw [failureCondition_look b hs]
    refine M.bind_congr' fun l r hr => ?_
    rw [ih (lookBasic_valid b hs hr)]

theorem lookJoinRepeatLoop_eq (n : Nat) {s : Span} (hs : s.Valid C.mem) :
    lookJoinRepeatLoop C b n s = lookZeroOrMoreLoop ⟨fun _ => .diverge, lookBasic C b⟩ n s := by
  induction n generalizing s with
  | zero => rfl
  | succ n ih =>
    simp only [lookJoinRepeatLoop, lookZeroOrMoreLoop, M.bind_eq]
    rw [failureCondition_look b hs]
    refine M.bind_congr' fun l r hr => ?_
    rw [ih (lookBasic_valid b hs hr)]
    have h2 := lookBasic_quiet C b s
    rw [hr] at h2
    obtain ⟨rv, rr⟩ := r
    cases rv with
    | none => simp only [R.hasValue]; rw [← h2.2.fail rfl]
    | some v => rfl

end

theorem semJoin_peg {rec : Parser α → Sub} (h : ∀ q, LookPeg C q (rec q)) (n : Nat) (p : Parser α) :
    LookPeg C p (semJoin C rec n p) := by
  have basic : ∀ {q b}, asBasic C q = some b → LookPeg C q ⟨fun _ => .diverge, lookBasic C b⟩ := by
    intro q b hb s hs
    exact lookBasic_peg (asBasic_basic hb).1 (asBasic_basic hb).2 s hs
  cases p with
  | exactly q m =>
    simp only [semJoin]
    cases hb : asBasic C q with
    | none => exact h _
    | some b =>
      intro s hs
      show Sat (lookJoinExactlyLoop C b s m s) _ _
      rw [lookJoinExactlyLoop_eq b s m hs]
      refine Sat.mono (exactlyLoop_peg (basic hb) s m s hs) (fun r hr => ?_) fun _ h => h
      rcases hr with ⟨k, hk, rfl, hp⟩ | ⟨rfl, hp⟩
      · exact .hit hk hp
      · exact .miss hp
  | maybe q =>
    simp only [semJoin]
    cases hb : asBasic C q with
    | none => exact h _
    | some b =>
      intro s hs
      have : lookJoinMaybeBasic C b s = lookMaybe ⟨fun _ => .diverge, lookBasic C b⟩ s := by
        simp only [lookJoinMaybeBasic, lookMaybe, M.bind_eq]
        rw [lookBasic_eq hs, M.pure_bind, failureCondition_eq hs, M.pure_bind]
        cases ha : b.accepts C.eqv (s.elems C.mem) with
        | false => simp [R.failure, R.hasValue]
        | true =>
          have := BasicP.accepts_length ha
          rw [hs.elems_length] at this
          simp [R.successVoid, R.hasValue, hs.advance this]
      show Sat (lookJoinMaybeBasic C b s) _ _
      rw [this]
      refine (basic hb).bind hs (fun k hk hv he hp => ?_) fun hp => ?_
      · exact Sat.pure (.hit hk (.maybeHit hp))
      · refine Sat.pure ?_
        simpa [pegResult] using PegOut.of (.maybeMiss hp) hs
  | oneOrMore q =>
    simp only [semJoin]
    cases hb : asBasic C q with
    | none => exact h _
    | some b =>
      intro s hs
      show Sat (lookJoinOneOrMoreBasic C b n s) _ _
      simp only [lookJoinOneOrMoreBasic, M.bind_eq]
      rw [failureCondition_look b hs]
      refine (basic hb).bind hs (fun k hk hv he hp => ?_) fun hp => ?_
      · show Sat (M.bind (lookJoinRepeatLoop C b n (s.drop k)) _) _ _
        rw [lookJoinRepeatLoop_eq b n hv]
        refine Sat.bind (zeroLoop_peg (basic hb) n _ hv) fun x hx => ?_
        obtain ⟨hj, hp'⟩ := hx
        rw [he] at hp'
        rw [Span.drop_len] at hj
        exact Sat.pure (Span.drop_drop .. ▸ .hit (by omega) (.oneMore hp hp'))
      · exact Sat.pure (.miss (.oneMiss hp))
  | zeroOrMore q =>
    simp only [semJoin]
    cases hb : asBasic C q with
    | none => exact h _
    | some b =>
      intro s hs
      show Sat (M.bind (lookJoinRepeatLoop C b n s) _) _ _
      rw [lookJoinRepeatLoop_eq b n hs]
      refine Sat.bind (zeroLoop_peg (basic hb) n s hs) fun x hx => ?_
      obtain ⟨hj, hp⟩ := hx
      exact Sat.pure (.hit hj hp)
  | _ => exact h _

theorem step_peg {rec : Parser α → Sub} (n : Nat) (h : ∀ q, LookPeg C q (rec q)) (p : Parser α) :
    LookPeg C p (step C rec n p) := by
  intro s hs
  have zero : ∀ p, PegC C p (s.elems C.mem) (some 0) → PegOut C p s (R.successVoid s) := by
    intro p hp
    simpa [pegResult] using PegOut.of hp hs
  cases p with
  | anyOf a => exact lookBasic_peg (q := .anyOf a) trivial rfl s hs
  | noneOf a => exact lookBasic_peg (q := .noneOf a) trivial rfl s hs
  | allOf a => exact lookBasic_peg (q := .allOf a) trivial rfl s hs
  | anything => exact lookBasic_peg (q := .anything) trivial rfl s hs
  | epsilon => exact Sat.pure (zero _ .epsilon)
  | choice ps =>
    refine Sat.bind (foldOr_peg h _ _ _ ps s hs _) fun x hx => ?_
    refine Sat.ite (fun hc => ?_) fun hc => ?_
    · rw [if_pos hc] at hx
      obtain ⟨k, hk, hi, hp⟩ := hx
      exact Sat.pure (hi ▸ .hit hk hp)
    · rw [if_neg hc] at hx
      exact Sat.pure (.miss hx)
  | sequence ps =>
    refine Sat.bind (foldAnd_peg h _ _ _ ps s hs _) fun x hx => ?_
    refine Sat.ite (fun hc => ?_) fun hc => ?_
    · rw [if_pos hc] at hx
      obtain ⟨k, hk, hi, hp⟩ := hx
      exact Sat.pure (hi ▸ .hit hk hp)
    · rw [if_neg hc] at hx
      exact Sat.pure (.miss hx)
  | maybe p =>
    refine (h p).bind hs (fun k hk hv he hp => ?_) fun hp => ?_
    · exact Sat.pure (.hit hk (.maybeHit hp))
    · exact Sat.pure (zero _ (.maybeMiss hp))
  | exactly p m =>
    refine Sat.mono (exactlyLoop_peg (h p) s m s hs) (fun r hr => ?_) fun _ h => h
    rcases hr with ⟨k, hk, rfl, hp⟩ | ⟨rfl, hp⟩
    · exact .hit hk hp
    · exact .miss hp
  | oneOrMore p =>
    cases n with
    | zero => trivial
    | succ n =>
      simp only [step, lookOneOrMore, lookOneOrMoreLoop, M.bind_eq]
      rw [M.bind_assoc]
      refine (h p).bind hs (fun k hk hv he hp => ?_) fun hp => ?_
      · refine Sat.bind (oneLoop_peg (h p) n _ hv) fun x hx => ?_
        obtain ⟨b, r⟩ := x
        obtain ⟨rfl, hx⟩ := hx
        obtain ⟨hj, hp'⟩ := hx
        simp only [R.successVoid] at hp' hj
        rw [he] at hp'
        rw [Span.drop_len] at hj
        show Sat (M.pure (R.successVoid ((s.drop k).drop _))) _ _
        exact Sat.pure (Span.drop_drop .. ▸ .hit (by omega) (.oneMore hp hp'))
      · exact Sat.pure (.miss (.oneMiss hp))
  | zeroOrMore p =>
    refine Sat.bind (zeroLoop_peg (h p) n s hs) fun x hx => ?_
    obtain ⟨hj, hp⟩ := hx
    exact Sat.pure (.hit hj hp)
  | delimit p d =>
    refine (h p).bind hs (fun k hk hv he hp => ?_) fun hp => ?_
    · refine Sat.bind (delimitLoop_peg (h p) (h d) n _ _ hv) fun x hx => ?_
      obtain ⟨hj, hp'⟩ := hx
      rw [he] at hp'
      rw [Span.drop_len] at hj
      exact Sat.pure (Span.drop_drop .. ▸ .hit (by omega) (.delimitMore hp hp'))
    · exact Sat.pure (.miss (.delimitMiss hp))
  | ignore p => exact (h p s hs).mono (fun r hr => by cases hr; exacts [.hit ‹_› (.ignore ‹_›), .miss (.ignore ‹_›)]) fun _ h => h
  | complete p =>
    refine (h p).bind hs (fun k hk hv he hp => ?_) fun hp => ?_
    · have hlen := hs.elems_length
      rcases Nat.lt_or_ge k s.len with hlt | hge
      · have : s.len - k ≠ 0 := by omega
        simp only [R.successVoid, R.hasValue, Span.empty, Span.drop_len, Option.isSome_some, Bool.not_true,
          Bool.false_or, Bool.not_eq_true', beq_eq_false_iff_ne, ne_eq, this, not_false_eq_true, if_true]
        exact Sat.pure (.miss (.completeShort hp (by omega)))
      · have : k = s.len := by omega
        subst this
        simp only [R.successVoid, R.hasValue, Span.empty, Span.drop_len, Option.isSome_some, Bool.not_true,
          Bool.false_or, Nat.sub_self, beq_self_eq_true]
        rw [← hlen] at hp
        exact Sat.pure (.hit hk (hlen ▸ .completeHit hp))
    · exact Sat.pure (.miss (.completeMiss hp))
  | join p => exact (semJoin_peg h n p s hs).mono (fun r hr => by cases hr; exacts [.hit ‹_› (.join ‹_›), .miss (.join ‹_›)]) fun _ h => h
  | map p f => exact (h p s hs).mono (fun r hr => by cases hr; exacts [.hit ‹_› (.map ‹_›), .miss (.map ‹_›)]) fun _ h => h
  | filter p f => exact (h p s hs).mono (fun r hr => by cases hr; exacts [.hit ‹_› (.filter ‹_›), .miss (.filter ‹_›)]) fun _ h => h
  | named p _ => exact (h p s hs).mono (fun r hr => by cases hr; exacts [.hit ‹_› (.named ‹_›), .miss (.named ‹_›)]) fun _ h => h
  | custom j => exact (h _ s hs).mono (fun r hr => by cases hr; exacts [.hit ‹_› (.custom ‹_›), .miss (.custom ‹_›)]) fun _ h => h

theorem Look_peg (p : Parser α) (s : Span) (hs : s.Valid C.mem) :
    Sat (Look C p s) (PegOut C p s) fun _ => True :=
  Look_sat fun n =>
    sem_induct (fun p P => LookPeg C p P) (fun _ _ _ => trivial) (fun _ k h p => step_peg k h p) n p s hs

end Tok3n
