import Verif.Spec.Comparisons
import Verif.Proof.PegSteps
import Verif.Props.Interrupted
import Verif.Props.Predict
import Verif.Proof.Productive
/-
Proofs for C83: how many elements a run compares, from the rules.
-/

namespace Tok3n

variable {α β A B : Type} {C : Ctx α β}

/-! ### The rules and the grammar -/

theorem PegCompares.exists_steps {p : Parser α} {xs : List β} {n o} (h : PegCompares C p xs n o) :
    ∃ m, PegSteps C p xs m o := by
  induction h with
  | hit h1 h2 => exact ⟨_, .hit h1 h2⟩
  | miss h1 h2 => exact ⟨_, .miss h1 h2⟩
  | epsilon => exact ⟨_, .epsilon⟩
  | choiceNil => exact ⟨_, .choiceNil⟩
  | choiceHit _ ih0 => obtain ⟨_, h0⟩ := ih0; exact ⟨_, .choiceHit h0⟩
  | choiceMiss _ _ ih0 ih1 => obtain ⟨_, h0⟩ := ih0; obtain ⟨_, h1⟩ := ih1; exact ⟨_, .choiceMiss h0 h1⟩
  | sequenceNil => exact ⟨_, .sequenceNil⟩
  | sequenceMore _ _ ih0 ih1 => obtain ⟨_, h0⟩ := ih0; obtain ⟨_, h1⟩ := ih1; exact ⟨_, .sequenceMore h0 h1⟩
  | sequenceMiss _ ih0 => obtain ⟨_, h0⟩ := ih0; exact ⟨_, .sequenceMiss h0⟩
  | maybeHit _ ih0 => obtain ⟨_, h0⟩ := ih0; exact ⟨_, .maybeHit h0⟩
  | maybeMiss _ ih0 => obtain ⟨_, h0⟩ := ih0; exact ⟨_, .maybeMiss h0⟩
  | exactlyNil => exact ⟨_, .exactlyNil⟩
  | exactlyMore _ _ ih0 ih1 => obtain ⟨_, h0⟩ := ih0; obtain ⟨_, h1⟩ := ih1; exact ⟨_, .exactlyMore h0 h1⟩
  | exactlyMiss _ ih0 => obtain ⟨_, h0⟩ := ih0; exact ⟨_, .exactlyMiss h0⟩
  | zeroStop _ ih0 => obtain ⟨_, h0⟩ := ih0; exact ⟨_, .zeroStop h0⟩
  | zeroMore _ _ ih0 ih1 => obtain ⟨_, h0⟩ := ih0; obtain ⟨_, h1⟩ := ih1; exact ⟨_, .zeroMore h0 h1⟩
  | oneMiss _ ih0 => obtain ⟨_, h0⟩ := ih0; exact ⟨_, .oneMiss h0⟩
  | oneMore _ _ ih0 ih1 => obtain ⟨_, h0⟩ := ih0; obtain ⟨_, h1⟩ := ih1; exact ⟨_, .oneMore h0 h1⟩
  | delimitMiss _ ih0 => obtain ⟨_, h0⟩ := ih0; exact ⟨_, .delimitMiss h0⟩
  | delimitStop _ _ ih0 ih1 => obtain ⟨_, h0⟩ := ih0; obtain ⟨_, h1⟩ := ih1; exact ⟨_, .delimitStop h0 h1⟩
  | delimitLast _ _ _ ih0 ih1 ih2 => obtain ⟨_, h0⟩ := ih0; obtain ⟨_, h1⟩ := ih1; obtain ⟨_, h2⟩ := ih2; exact ⟨_, .delimitLast h0 h1 h2⟩
  | delimitMore _ _ _ ih0 ih1 ih2 => obtain ⟨_, h0⟩ := ih0; obtain ⟨_, h1⟩ := ih1; obtain ⟨_, h2⟩ := ih2; exact ⟨_, .delimitMore h0 h1 h2⟩
  | completeHit _ ih0 => obtain ⟨_, h0⟩ := ih0; exact ⟨_, .completeHit h0⟩
  | completeShort _ hk ih0 => obtain ⟨_, h0⟩ := ih0; exact ⟨_, .completeShort h0 hk⟩
  | completeMiss _ ih0 => obtain ⟨_, h0⟩ := ih0; exact ⟨_, .completeMiss h0⟩
  | ignore _ ih0 => obtain ⟨_, h0⟩ := ih0; exact ⟨_, .ignore h0⟩
  | join _ ih0 => obtain ⟨_, h0⟩ := ih0; exact ⟨_, .join h0⟩
  | map _ ih0 => obtain ⟨_, h0⟩ := ih0; exact ⟨_, .map h0⟩
  | filter _ ih0 => obtain ⟨_, h0⟩ := ih0; exact ⟨_, .filter h0⟩
  | named _ ih0 => obtain ⟨_, h0⟩ := ih0; exact ⟨_, .named h0⟩
  | custom _ ih0 => obtain ⟨_, h0⟩ := ih0; exact ⟨_, .custom h0⟩

theorem PegSteps.exists_compares {p : Parser α} {xs : List β} {n o} (h : PegSteps C p xs n o) :
    ∃ m, PegCompares C p xs m o := by
  induction h with
  | hit h1 h2 => exact ⟨_, .hit h1 h2⟩
  | miss h1 h2 => exact ⟨_, .miss h1 h2⟩
  | epsilon => exact ⟨_, .epsilon⟩
  | choiceNil => exact ⟨_, .choiceNil⟩
  | choiceHit _ ih0 => obtain ⟨_, h0⟩ := ih0; exact ⟨_, .choiceHit h0⟩
  | choiceMiss _ _ ih0 ih1 => obtain ⟨_, h0⟩ := ih0; obtain ⟨_, h1⟩ := ih1; exact ⟨_, .choiceMiss h0 h1⟩
  | sequenceNil => exact ⟨_, .sequenceNil⟩
  | sequenceMore _ _ ih0 ih1 => obtain ⟨_, h0⟩ := ih0; obtain ⟨_, h1⟩ := ih1; exact ⟨_, .sequenceMore h0 h1⟩
  | sequenceMiss _ ih0 => obtain ⟨_, h0⟩ := ih0; exact ⟨_, .sequenceMiss h0⟩
  | maybeHit _ ih0 => obtain ⟨_, h0⟩ := ih0; exact ⟨_, .maybeHit h0⟩
  | maybeMiss _ ih0 => obtain ⟨_, h0⟩ := ih0; exact ⟨_, .maybeMiss h0⟩
  | exactlyNil => exact ⟨_, .exactlyNil⟩
  | exactlyMore _ _ ih0 ih1 => obtain ⟨_, h0⟩ := ih0; obtain ⟨_, h1⟩ := ih1; exact ⟨_, .exactlyMore h0 h1⟩
  | exactlyMiss _ ih0 => obtain ⟨_, h0⟩ := ih0; exact ⟨_, .exactlyMiss h0⟩
  | zeroStop _ ih0 => obtain ⟨_, h0⟩ := ih0; exact ⟨_, .zeroStop h0⟩
  | zeroMore _ _ ih0 ih1 => obtain ⟨_, h0⟩ := ih0; obtain ⟨_, h1⟩ := ih1; exact ⟨_, .zeroMore h0 h1⟩
  | oneMiss _ ih0 => obtain ⟨_, h0⟩ := ih0; exact ⟨_, .oneMiss h0⟩
  | oneMore _ _ ih0 ih1 => obtain ⟨_, h0⟩ := ih0; obtain ⟨_, h1⟩ := ih1; exact ⟨_, .oneMore h0 h1⟩
  | delimitMiss _ ih0 => obtain ⟨_, h0⟩ := ih0; exact ⟨_, .delimitMiss h0⟩
  | delimitStop _ _ ih0 ih1 => obtain ⟨_, h0⟩ := ih0; obtain ⟨_, h1⟩ := ih1; exact ⟨_, .delimitStop h0 h1⟩
  | delimitLast _ _ _ ih0 ih1 ih2 => obtain ⟨_, h0⟩ := ih0; obtain ⟨_, h1⟩ := ih1; obtain ⟨_, h2⟩ := ih2; exact ⟨_, .delimitLast h0 h1 h2⟩
  | delimitMore _ _ _ ih0 ih1 ih2 => obtain ⟨_, h0⟩ := ih0; obtain ⟨_, h1⟩ := ih1; obtain ⟨_, h2⟩ := ih2; exact ⟨_, .delimitMore h0 h1 h2⟩
  | completeHit _ ih0 => obtain ⟨_, h0⟩ := ih0; exact ⟨_, .completeHit h0⟩
  | completeShort _ hk ih0 => obtain ⟨_, h0⟩ := ih0; exact ⟨_, .completeShort h0 hk⟩
  | completeMiss _ ih0 => obtain ⟨_, h0⟩ := ih0; exact ⟨_, .completeMiss h0⟩
  | ignore _ ih0 => obtain ⟨_, h0⟩ := ih0; exact ⟨_, .ignore h0⟩
  | join _ ih0 => obtain ⟨_, h0⟩ := ih0; exact ⟨_, .join h0⟩
  | map _ ih0 => obtain ⟨_, h0⟩ := ih0; exact ⟨_, .map h0⟩
  | filter _ ih0 => obtain ⟨_, h0⟩ := ih0; exact ⟨_, .filter h0⟩
  | named _ ih0 => obtain ⟨_, h0⟩ := ih0; exact ⟨_, .named h0⟩
  | custom _ ih0 => obtain ⟨_, h0⟩ := ih0; exact ⟨_, .custom h0⟩

theorem PegCompares.peg {p : Parser α} {xs : List β} {n o} (h : PegCompares C p xs n o) : PegC C p xs o := by
  obtain ⟨_, h⟩ := h.exists_steps
  exact h.peg

theorem Peg.compares {p : Parser α} {xs : List β} {o} (h : PegC C p xs o) : ∃ n, PegCompares C p xs n o := by
  obtain ⟨_, h⟩ := h.calls
  obtain ⟨_, _, h⟩ := h.steps
  exact h.exists_compares

/-- how the input goes on after a match -/
theorem PegCompares.next {p : Parser α} {xs : List β} {n k} (h : PegCompares C p xs n (some k)) {s : Span} (hs : s.Valid C.mem)
    (hx : s.elems C.mem = xs) : (s.drop k).Valid C.mem ∧ (s.drop k).elems C.mem = xs.drop k := by
  have := h.peg.le _ rfl
  rw [← hx, hs.elems_length] at this
  exact ⟨hs.drop this, by rw [Span.elems_drop, hx]⟩

/-- the rules say one number -/
theorem PegCompares.unique {p : Parser α} {xs : List β} {n o} (h : PegCompares C p xs n o) :
    ∀ {n' o'}, PegCompares C p xs n' o' → n = n' := by
  have out : ∀ {p : Parser α} {xs : List β} {n o n' o'}, PegCompares C p xs n o → PegCompares C p xs n' o' → o = o' :=
    fun h h' => C45_deterministic _ _ _ _ _ _ h.peg h'.peg
  induction h with
  | @hit p xs k h _ | @miss p xs h _ =>
    intro n' o' h'
    cases p <;> first | (cases h; done) | (cases h' <;> rfl)
  | epsilon =>
    intro n' o' h'
    cases h' with
    | hit h | miss h => cases h
    | epsilon => rfl
  | choiceNil =>
    intro n' o' h'
    cases h' with
    | hit h | miss h => cases h
    | choiceNil => rfl
  | choiceHit a i =>
    intro n' o' h'
    cases h' with
    | hit h | miss h => cases h
    | choiceHit h1 => exact i h1
    | choiceMiss h1 _ => cases out a h1
  | choiceMiss a b i j =>
    intro n' o' h'
    cases h' with
    | hit h | miss h => cases h
    | choiceHit h1 => cases out a h1
    | choiceMiss h1 h2 => rw [i h1, j h2]
  | sequenceNil =>
    intro n' o' h'
    cases h' with
    | hit h | miss h => cases h
    | sequenceNil => rfl
  | sequenceMore a b i j =>
    intro n' o' h'
    cases h' with
    | hit h | miss h => cases h
    | sequenceMore h1 h2 => cases out a h1; rw [i h1, j h2]
    | sequenceMiss h1 => cases out a h1
  | sequenceMiss a i =>
    intro n' o' h'
    cases h' with
    | hit h | miss h => cases h
    | sequenceMore h1 h2 => cases out a h1
    | sequenceMiss h1 => exact i h1
  | maybeHit a i =>
    intro n' o' h'
    cases h' with
    | hit h | miss h => cases h
    | maybeHit h1 => exact i h1
    | maybeMiss h1 => exact i h1
  | maybeMiss a i =>
    intro n' o' h'
    cases h' with
    | hit h | miss h => cases h
    | maybeHit h1 => exact i h1
    | maybeMiss h1 => exact i h1
  | exactlyNil =>
    intro n' o' h'
    cases h' with
    | hit h | miss h => cases h
    | exactlyNil => rfl
  | exactlyMore a b i j =>
    intro n' o' h'
    cases h' with
    | hit h | miss h => cases h
    | exactlyMore h1 h2 => cases out a h1; rw [i h1, j h2]
    | exactlyMiss h1 => cases out a h1
  | exactlyMiss a i =>
    intro n' o' h'
    cases h' with
    | hit h | miss h => cases h
    | exactlyMore h1 h2 => cases out a h1
    | exactlyMiss h1 => exact i h1
  | zeroStop a i =>
    intro n' o' h'
    cases h' with
    | hit h | miss h => cases h
    | zeroStop h1 => exact i h1
    | zeroMore h1 h2 => cases out a h1
  | zeroMore a b i j =>
    intro n' o' h'
    cases h' with
    | hit h | miss h => cases h
    | zeroStop h1 => cases out a h1
    | zeroMore h1 h2 => cases out a h1; rw [i h1, j h2]
  | oneMiss a i =>
    intro n' o' h'
    cases h' with
    | hit h | miss h => cases h
    | oneMiss h1 => exact i h1
    | oneMore h1 h2 => cases out a h1
  | oneMore a b i j =>
    intro n' o' h'
    cases h' with
    | hit h | miss h => cases h
    | oneMiss h1 => cases out a h1
    | oneMore h1 h2 => cases out a h1; rw [i h1, j h2]
  | delimitMiss a i =>
    intro n' o' h'
    cases h' with
    | hit h | miss h => cases h
    | delimitMiss h1 => exact i h1
    | delimitStop h1 _ | delimitLast h1 _ _ | delimitMore h1 _ _ => cases out a h1
  | delimitStop a b i j =>
    intro n' o' h'
    cases h' with
    | hit h | miss h => cases h
    | delimitMiss h1 => cases out a h1
    | delimitStop h1 h2 => cases out a h1; rw [i h1, j h2]
    | delimitLast h1 h2 _ | delimitMore h1 h2 _ => cases out a h1; cases out b h2
  | delimitLast a b c i j k =>
    intro n' o' h'
    cases h' with
    | hit h | miss h => cases h
    | delimitMiss h1 => cases out a h1
    | delimitStop h1 h2 => cases out a h1; cases out b h2
    | delimitLast h1 h2 h3 | delimitMore h1 h2 h3 => cases out a h1; cases out b h2; rw [i h1, j h2, k h3]
  | delimitMore a b c i j k =>
    intro n' o' h'
    cases h' with
    | hit h | miss h => cases h
    | delimitMiss h1 => cases out a h1
    | delimitStop h1 h2 => cases out a h1; cases out b h2
    | delimitLast h1 h2 h3 | delimitMore h1 h2 h3 => cases out a h1; cases out b h2; rw [i h1, j h2, k h3]
  | completeHit a i =>
    intro n' o' h'
    cases h' with
    | hit h | miss h => cases h
    | completeHit h1 | completeShort h1 _ | completeMiss h1 => exact i h1
  | completeShort a _ i =>
    intro n' o' h'
    cases h' with
    | hit h | miss h => cases h
    | completeHit h1 | completeShort h1 _ | completeMiss h1 => exact i h1
  | completeMiss a i =>
    intro n' o' h'
    cases h' with
    | hit h | miss h => cases h
    | completeHit h1 | completeShort h1 _ | completeMiss h1 => exact i h1
  | ignore a i =>
    intro n' o' h'
    cases h' with
    | hit h | miss h => cases h
    | ignore h1 => exact i h1
  | join a i =>
    intro n' o' h'
    cases h' with
    | hit h | miss h => cases h
    | join h1 => exact i h1
  | map a i =>
    intro n' o' h'
    cases h' with
    | hit h | miss h => cases h
    | map h1 => exact i h1
  | filter a i =>
    intro n' o' h'
    cases h' with
    | hit h | miss h => cases h
    | filter h1 => exact i h1
  | named a i =>
    intro n' o' h'
    cases h' with
    | hit h | miss h => cases h
    | named h1 => exact i h1
  | custom a i =>
    intro n' o' h'
    cases h' with
    | hit h | miss h => cases h
    | custom h1 => exact i h1

/-! ### What a run counts -/

namespace Tally

open Stateful (SRun)
open Interrupted (built op)

variable {σ : Type}

/-- If the run returns `a`, it has made `n` comparisons, such that `Q a n`. -/
def Took (m : SRun (Nat × σ) A) (Q : A → Nat → Prop) : Prop :=
  ∀ t st l a t' st', m (t, st) = .done l (.ok (a, t', st')) → ∃ n, t' = t + n ∧ Q a n

namespace Took

theorem pure {a : A} {Q : A → Nat → Prop} (h : Q a 0) : Took (SRun.pure a : SRun (Nat × σ) A) Q := by
  rintro t st l _ _ _ ⟨⟩
  exact ⟨0, rfl, h⟩

theorem diverge {Q : A → Nat → Prop} : Took (SRun.diverge : SRun (Nat × σ) A) Q := nofun

theorem bind {m : SRun (Nat × σ) A} {f : A → SRun (Nat × σ) B} {Q : A → Nat → Prop} {Q' : B → Nat → Prop} (h : Took m Q)
    (hf : ∀ a n, Q a n → Took (f a) fun b k => Q' b (n + k)) : Took (m >>= f) Q' := by
  intro t st l b t' st' hb
  change M.bind (m (t, st)) (fun x => f x.1 x.2) = _ at hb
  rw [M.bind_eq_ok] at hb
  obtain ⟨l1, l2, ⟨a, t1, st1⟩, h1, h2, -⟩ := hb
  obtain ⟨n, rfl, hq⟩ := h t st _ _ _ _ h1
  obtain ⟨k, rfl, hk⟩ := hf a n hq _ _ _ _ _ _ h2
  exact ⟨n + k, by omega, hk⟩

theorem lift {m : Run A} {Q : A → Nat → Prop} (h : ∀ l a, m = .done l (.ok a) → Q a 0) :
    Took (SRun.lift m : SRun (Nat × σ) A) Q := by
  intro t st l a t' st' ha
  change M.bind m (fun a => M.pure (a, (t, st))) = _ at ha
  rw [M.bind_eq_ok] at ha
  obtain ⟨l1, l2, b, h1, h2, -⟩ := ha
  cases h2
  exact ⟨0, rfl, h l1 _ h1⟩

theorem mono {m : SRun (Nat × σ) A} {Q Q' : A → Nat → Prop} (h : Took m Q) (hq : ∀ a n, Q a n → Q' a n) : Took m Q' := by
  intro t st l a t' st' ha
  obtain ⟨n, h1, h2⟩ := h _ _ _ _ _ _ ha
  exact ⟨n, h1, hq a n h2⟩

theorem free {m : SRun (Nat × σ) A} {f : A → SRun (Nat × σ) B} {Q' : B → Nat → Prop} (h : Took m fun _ n => n = 0)
    (hf : ∀ a, Took (f a) Q') : Took (m >>= f) Q' :=
  h.bind fun a n hn => by subst hn; exact (hf a).mono fun b k hk => by rwa [Nat.zero_add]

theorem liftFree (m : Run A) : Took (SRun.lift m : SRun (Nat × σ) A) fun _ n => n = 0 := lift fun _ _ _ => rfl

theorem value : Took (op (tally : Interrupted.Env α β Nat) .value : SRun (Nat × σ) Unit) (fun _ n => n = 0) := by
  rintro t st l _ _ _ ⟨⟩
  exact ⟨0, rfl, rfl⟩

theorem compare (a : α) (x : β) : Took (op tally (.compare a x) : SRun (Nat × σ) Unit) (fun _ n => n = 1) := by
  rintro t st l _ _ _ ⟨⟩
  exact ⟨1, rfl, rfl⟩

theorem builtFree (T : Ty) (m : Run A) : Took (built (tally : Interrupted.Env α β Nat) T m : SRun (Nat × σ) A) fun _ n => n = 0 := by
  unfold built
  split
  · exact liftFree m
  · exact (value (α := α) (β := β)).free fun _ => liftFree m

theorem buildFree (T : Ty) (v : Val) (s : Span) :
    Took (Interrupted.build (tally : Interrupted.Env α β Nat) T v s : SRun (Nat × σ) R) fun _ n => n = 0 := builtFree _ _

theorem ite {c : Prop} [Decidable c] {a b : SRun (Nat × σ) A} {Q : A → Nat → Prop} (ha : c → Took a Q) (hb : ¬ c → Took b Q) :
    Took (if c then a else b) Q := by
  split
  · exact ha ‹_›
  · exact hb ‹_›

/-- a step that makes no comparison, at the end -/
theorem then0 {m : SRun (Nat × σ) A} {f : A → SRun (Nat × σ) B} {Q : Nat → Prop} (h : Took m fun _ n => Q n)
    (hf : ∀ a, Took (f a) fun _ n => n = 0) : Took (m >>= f) fun _ n => Q n :=
  h.bind fun a _ hn => (hf a).mono fun _ k hk => by subst hk; exact hn

theorem answerFree (U : Stateful.Callbacks σ) (c : Call) (f : Nat × σ → Except Nat Val × (Nat × σ)) (hf : ∀ x, (f x).2.1 = x.1) :
    Took (Stateful.answer c f) fun _ n => n = 0 := by
  intro t st l a t' st' h
  have h1 := hf (t, st)
  unfold Stateful.answer at h
  generalize f (t, st) = y at h h1
  obtain ⟨r | v, t1, st1⟩ := y
  · cases h
  · cases h
    exact ⟨0, h1, rfl⟩

theorem userFree (C : Ctx α β) (U : Stateful.Callbacks σ) : ∀ (f : Fn) (args : List Val),
    Took (Stateful.invoke C (Interrupted.carried U : Stateful.Callbacks (Nat × σ)) f args) fun _ n => n = 0
  | .user _, _ => answerFree U _ _ fun _ => rfl
  | .apply f, args => by
    unfold Stateful.invoke
    split
    · split
      · exact userFree C U f _
      · exact liftFree _
    · exact liftFree _
  | .const _, _ => answerFree U _ _ fun _ => rfl
  | .construct _, _ => answerFree U _ _ fun _ => rfl
  | .deflt _, _ => (liftFree _).free fun _ => liftFree _

theorem invokeFree (C : Ctx α β) (U : Stateful.Callbacks σ) (f : Fn) (args : List Val) :
    Took (Interrupted.invoke (tally : Interrupted.Env α β Nat) C U f args) fun _ n => n = 0 :=
  (value (α := α) (β := β)).free fun _ => (userFree C U f args).free fun _ =>
    (value (α := α) (β := β)).free fun _ => pure rfl

end Took

/-! ### Literals -/

theorem contains (C : Ctx α β) (x : β) : ∀ arr : List α,
    Took (Interrupted.contains (σ := σ) tally C arr x) fun c n => n = triedUntil C.eqv arr x ∧ c = arr.any (C.eqv · x)
  | [] => .pure ⟨rfl, rfl⟩
  | a :: as => by
    refine (Took.compare a x).bind fun _ n hn => ?_
    subst hn
    refine .ite (fun h => .pure ?_) fun h => (contains C x as).mono ?_
    · simp [triedUntil, h]
    · rintro c n ⟨rfl, rfl⟩
      simp [triedUntil, h, Nat.add_comm]

theorem equalLoop (C : Ctx α β) {as : List α} {bs : List β} (hl : as.length = bs.length) {readL : Nat → Run α}
    {readR : Nat → Run β} (hL : ∀ (i : Nat) (h : i < as.length), readL i = M.pure as[i])
    (hR : ∀ (i : Nat) (h : i < bs.length), readR i = M.pure bs[i]) : ∀ todo i : Nat, todo + i = as.length →
    Took (Interrupted.equalLoop (σ := σ) tally C readL readR todo i)
      fun c n => n = comparedWhile C.eqv (as.drop i) (bs.drop i) ∧ c = pairwise C.eqv (as.drop i) (bs.drop i)
  | 0, i, hi => by
    have h1 : as.drop i = [] := List.drop_eq_nil_of_le (by omega)
    have h2 : bs.drop i = [] := List.drop_eq_nil_of_le (by omega)
    exact .pure (by rw [h1, h2]; exact ⟨rfl, rfl⟩)
  | todo + 1, i, hi => by
    have h1 : i < as.length := by omega
    have h2 : i < bs.length := by omega
    have e1 : as.drop i = as[i] :: as.drop (i + 1) := List.drop_eq_getElem_cons h1
    have e2 : bs.drop i = bs[i] :: bs.drop (i + 1) := List.drop_eq_getElem_cons h2
    rw [e1, e2]
    simp only [Interrupted.equalLoop, hL i h1, hR i h2]
    refine (Took.lift (Q := fun a n => a = as[i] ∧ n = 0) (by rintro l a ⟨⟩; exact ⟨rfl, rfl⟩)).bind ?_
    rintro _ _ ⟨rfl, rfl⟩
    refine (Took.lift (Q := fun a n => a = bs[i] ∧ n = 0) (by rintro l a ⟨⟩; exact ⟨rfl, rfl⟩)).bind ?_
    rintro _ _ ⟨rfl, rfl⟩
    refine (Took.compare _ _).bind ?_
    rintro _ _ rfl
    refine .ite (fun h => .pure ?_) fun h => (equalLoop C hl hL hR todo (i + 1) (by omega)).mono ?_
    · simp only [Bool.not_eq_true'] at h
      simp [comparedWhile, pairwise, h]
    · rintro c n ⟨rfl, rfl⟩
      simp only [Bool.not_eq_true', Bool.not_eq_false] at h
      simp [comparedWhile, pairwise, h]; omega

theorem comparedWhile_take (eqv : α → β → Bool) : ∀ (arr : List α) (xs : List β) (n : Nat), arr.length ≤ n →
    comparedWhile eqv arr (xs.take n) = comparedWhile eqv arr xs
  | [], xs, n, _ => by cases xs <;> cases n <;> rfl
  | a :: as, [], n, _ => by cases n <;> rfl
  | a :: as, x :: xs, 0, h => by simp at h
  | a :: as, x :: xs, n + 1, h => by
    simp only [List.take_succ_cons, comparedWhile, comparedWhile_take eqv as xs n (by simpa using h)]

/-- the test of a literal -/
theorem failureCondition {p : Parser α} {b : BasicP α} (hb : p.basic? = some b) {s : Span} (hs : s.Valid C.mem) :
    Took (Interrupted.failureCondition (σ := σ) tally C b s)
      fun c n => n = literalCompares C.eqv p (s.elems C.mem) ∧ c = !b.accepts C.eqv (s.elems C.mem) := by
  have hl := hs.elems_length
  have front : s.len ≠ 0 → ∃ x xs, s.elems C.mem = x :: xs ∧ (s.front C.mem : Run β) = M.pure x := by
    intro h0
    have hr := hs.read (L := Call) (i := 0) (by omega)
    cases he : s.elems C.mem with
    | nil => rw [he] at hl; simp at hl; omega
    | cons x xs => exact ⟨x, xs, rfl, by simp [Span.front, hr, he, h0]⟩
  have nil : s.len = 0 → s.elems C.mem = [] := fun h0 => by rw [← List.length_eq_zero_iff, hl, h0]
  cases p with
  | anyOf arr =>
    cases hb
    refine .ite (fun h => .pure ?_) fun h => ?_
    · rw [nil (by simpa [Span.empty] using h)]; exact ⟨rfl, rfl⟩
    · obtain ⟨x, xs, hx, hf⟩ := front (by simpa [Span.empty] using h)
      rw [hx, hf]
      refine (Took.lift (Q := fun a n => a = x ∧ n = 0) (by rintro l a ⟨⟩; exact ⟨rfl, rfl⟩)).bind ?_
      rintro _ _ ⟨rfl, rfl⟩
      refine (contains C _ arr).bind ?_
      rintro _ _ ⟨rfl, rfl⟩
      exact .pure ⟨by simp [literalCompares], rfl⟩
  | noneOf arr =>
    cases hb
    refine .ite (fun h => .pure ?_) fun h => ?_
    · rw [nil (by simpa [Span.empty] using h)]; exact ⟨rfl, rfl⟩
    · obtain ⟨x, xs, hx, hf⟩ := front (by simpa [Span.empty] using h)
      rw [hx, hf]
      refine (Took.lift (Q := fun a n => a = x ∧ n = 0) (by rintro l a ⟨⟩; exact ⟨rfl, rfl⟩)).bind ?_
      rintro _ _ ⟨rfl, rfl⟩
      refine (contains C _ arr).mono ?_
      rintro _ _ ⟨rfl, rfl⟩
      exact ⟨by simp [literalCompares], by simp [BasicP.accepts]⟩
  | allOf arr =>
    cases hb
    refine .ite (fun h => .pure ?_) fun h => ?_
    · refine ⟨by simp [literalCompares, hl, h], ?_⟩
      cases ha : BasicP.accepts C.eqv (.allOf arr) (s.elems C.mem)
      · rfl
      · have := startsWith_length ha; omega
    · have hle : arr.length ≤ s.len := by omega
      simp only [Span.first, if_pos hle]
      refine (Took.lift (Q := fun a n => a = ⟨s.ptr, arr.length⟩ ∧ n = 0) (by rintro l a ⟨⟩; exact ⟨rfl, rfl⟩)).bind ?_
      rintro _ _ ⟨rfl, rfl⟩
      have hv : (Span.mk s.ptr arr.length).Valid C.mem := by
        obtain ⟨p, len⟩ := s
        cases p <;> simp only [Span.Valid] at * <;> omega
      have he := Span.elems_take (s := s) (mem := C.mem) hle
      have hlen : (s.elems C.mem).length = s.len := hl
      unfold Interrupted.arrNotEqual Interrupted.equal
      rw [if_neg (by simp)]
      refine (equalLoop C (as := arr) (bs := (s.elems C.mem).take arr.length) (by rw [List.length_take]; omega)
        (fun i hi => ?_) (fun i hi => ?_) arr.length 0 rfl).bind ?_
      · simp [Ptr.read, hi]; rfl
      · have h1 := hv.read (L := Call) (i := i) (by rw [List.length_take] at hi; show i < arr.length; omega)
        simpa [he] using h1
      · rintro _ _ ⟨rfl, rfl⟩
        refine .pure ⟨?_, ?_⟩
        · simp [literalCompares, hl, h, comparedWhile_take]
        · simp [BasicP.accepts, startsWith_eq_pairwise C.eqv arr (s.elems C.mem) (by omega)]
  | anything =>
    cases hb
    refine .pure ⟨rfl, ?_⟩
    cases he : s.elems C.mem with
    | nil => rw [he] at hl; simp at hl; simp [Span.empty, BasicP.accepts, ← hl]
    | cons x xs => rw [he] at hl; simp at hl; simp [Span.empty, BasicP.accepts, ← hl]
  | _ => cases hb

/-! ### What a run tells -/

variable {p q d : Parser α} {ps : List (Parser α)}

variable (C σ) in
/-- `parse` and `lookahead` with fuel, counting -/
abbrev sub (n : Nat) (p : Parser α) : Stateful.Sub (Nat × σ) := Interrupted.sem tally C (.ofCtx C) n p

theorem told_look {xs : List β} {o} (h : PegC C p xs o) {s : Span} (hs : s.Valid C.mem)
    (hx : s.elems C.mem = xs) {n t st l r t' st'} (hm : (sub C σ n p).look s (t, st) = .done l (.ok (r, t', st'))) : Told s o r := by
  obtain ⟨cs, hcs⟩ := C82_lookahead (U := .ofCtx C) (st := st) (h.look s hs hx)
  have h1 := hcs Nat tally t
  rw [((Interrupted.sem_lim p s (t, st)).2.iff l _).2 ⟨n, hm⟩] at h1
  have h2 : r = pegResult s o := by
    rcases Interrupted.play_cases tally t (cs.map fun c => Interrupted.Event.op (.compare c.1 c.2)) (.ok (pegResult s o, st)) with
      ⟨_, _, h2, _⟩ | ⟨x, _, _, h2, h3⟩ | ⟨_, h2, _⟩
    · rw [h2] at h1; cases h1
    · cases h2; rw [h3] at h1; cases h1; rfl
    · cases h2
  subst h2
  cases o
  · exact ⟨rfl, by simp [pegResult, R.failure]⟩
  · exact ⟨rfl, rfl⟩

theorem told_parse {xs : List β} {o} (h : PegC C p xs o) (hp : NeverOverrules C p) {s : Span}
    (hs : s.Valid C.mem) (hx : s.elems C.mem = xs) {n t st l r t' st'}
    (hm : (sub C σ n p).parse s (t, st) = .done l (.ok (r, t', st'))) : Told s o r := by
  subst hx
  have h0 := ((Interrupted.sem_lim p s (t, st)).1.iff l _).2 ⟨n, hm⟩
  have h1 : ∃ l, Parse C p s = .done l (.ok r) := by
    cases h2 : Stateful.Parse C (.ofCtx C) p s st with
    | diverge =>
      rcases C82_endless h2 tally t with h3 | ⟨_, _, h3, _⟩
      · rw [h3] at h0; cases h0
      · rw [h3] at h0; cases h0
    | done l r' =>
      rcases C82_stops h2 tally t with ⟨_, _, h3, _⟩ | ⟨x, st', _, h4, h3⟩ | ⟨_, _, h3⟩
      · rw [h3] at h0; cases h0
      · rw [h3] at h0
        cases h0
        subst h4
        obtain ⟨v, rem⟩ := r
        cases v with
        | some v => exact ⟨_, (((C75_stateless C p s rem st st' l).1 v).1 h2).1⟩
        | none => exact ⟨_, (((C75_stateless C p s rem st st' l).2.1).1 h2).1⟩
      · rw [h3] at h0; cases h0
  obtain ⟨l, h1⟩ := h1
  obtain ⟨h2, h3⟩ := C45_parse C p hp s hs (fun l e he => by unfold ParseErr at he; rw [he] at h1; cases h1) r.rem
  obtain ⟨v, rem⟩ := r
  cases v with
  | none =>
    obtain ⟨h4, h5⟩ := h3.1 ⟨_, h1⟩
    cases C45_deterministic _ _ _ _ _ _ h h5
    exact ⟨rfl, by simpa using h4⟩
  | some v =>
    obtain ⟨k, h4, h5⟩ := h2.1 ⟨_, v, h1⟩
    cases C45_deterministic _ _ _ _ _ _ h h4
    exact ⟨rfl, h5.eq_drop⟩

/-! ### The rules of each parser -/

variable (C p) in
/-- what `f` counts and finds is what the rules say of `p` -/
def Sound (f : Span → SRun (Nat × σ) R) : Prop := ∀ s : Span, s.Valid C.mem →
  Took (f s) fun r n => ∃ o, PegCompares C p (s.elems C.mem) n o ∧ Told s o r

variable (C p) in
/-- what `m` counts is what the rules say of `p` at `s` -/
def Ruled (s : Span) (m : SRun (Nat × σ) A) : Prop := Took m fun _ n => ∃ o, PegCompares C p (s.elems C.mem) n o

/-- the outcome of a sub-parser -/
theorem Sound.bind {f : Span → SRun (Nat × σ) R} (h : Sound C p f) {s : Span} (hs : s.Valid C.mem) {g : R → SRun (Nat × σ) A}
    {Q : A → Nat → Prop}
    (hn : ∀ r n, r.hasValue = false → r.rem = s → PegCompares C p (s.elems C.mem) n none → Took (g r) fun a m => Q a (n + m))
    (hk : ∀ r n k, r.hasValue = true → r.rem = s.drop k → PegCompares C p (s.elems C.mem) n (some k) → (s.drop k).Valid C.mem →
      Took (g r) fun a m => Q a (n + m)) : Took (f s >>= g) Q := by
  refine (h s hs).bind ?_
  rintro r n ⟨o, h1, h2⟩
  cases o with
  | none => exact hn r n h2.val (by simpa using h2.rem) h1
  | some k => exact hk r n k h2.val h2.rem h1 (h1.next hs rfl).1

theorem iff_not {b : Bool} (h : b = false) : (!b) = true := by simp [h]
theorem iff_yes {b : Bool} (h : b = true) : ¬ (!b) = true := by simp [h]

section literals
variable {b : BasicP α} (hb : p.basic? = some b)
include hb

theorem isBasic : IsBasic p := by cases p <;> first | trivial | cases hb

theorem misses {xs : List β} (h : b.accepts C.eqv xs = false) : PegCompares C p xs (literalCompares C.eqv p xs) none :=
  .miss (isBasic hb) fun k hk => by rw [matches_iff hb] at hk; rw [hk.2] at h; cases h

theorem hits {xs : List β} (h : b.accepts C.eqv xs = true) :
    PegCompares C p xs (literalCompares C.eqv p xs) (some b.length) :=
  .hit (isBasic hb) ((matches_iff hb _ _).2 ⟨rfl, h⟩)

/-- a test of a literal and what follows -/
theorem test {s : Span} (hs : s.Valid C.mem) {g : Bool → SRun (Nat × σ) A} {Q : A → Nat → Prop}
    (hn : ∀ n, PegCompares C p (s.elems C.mem) n none → Took (g true) fun a m => Q a (n + m))
    (hk : ∀ n, PegCompares C p (s.elems C.mem) n (some b.length) → (s.drop b.length).Valid C.mem → b.length ≤ s.len →
      Took (g false) fun a m => Q a (n + m)) : Took (Interrupted.failureCondition tally C b s >>= g) Q := by
  refine (failureCondition hb hs).bind ?_
  rintro _ _ ⟨rfl, rfl⟩
  cases h : b.accepts C.eqv (s.elems C.mem) with
  | false => exact hn _ (misses hb h)
  | true =>
    have := BasicP.accepts_length h
    rw [hs.elems_length] at this
    exact hk _ (hits hb h) (hs.drop this) this

theorem ruled_literal {s : Span} (hs : s.Valid C.mem) (g : Bool → SRun (Nat × σ) A) (hg : ∀ c, Took (g c) fun _ n => n = 0) :
    Ruled C p s (Interrupted.failureCondition tally C b s >>= g) :=
  test hb hs (fun _ h => (hg _).mono fun _ _ e => by subst e; exact ⟨_, h⟩)
    fun _ h _ _ => (hg _).mono fun _ _ e => by subst e; exact ⟨_, h⟩

theorem basicParse {s : Span} (hs : s.Valid C.mem) : Ruled C p s (Interrupted.parseBasic (σ := σ) tally C b s) :=
  ruled_literal hb hs _ fun c => .ite (fun _ => .pure rfl) fun _ => (Took.liftFree _).free fun _ => .pure rfl

theorem basicLook {s : Span} (hs : s.Valid C.mem) : Ruled C p s (Interrupted.lookBasic (σ := σ) tally C b s) :=
  ruled_literal hb hs _ fun c => .ite (fun _ => .pure rfl) fun _ => (Took.liftFree _).free fun _ => .pure rfl

/-- the input after a literal -/
theorem subspan {s : Span} (hs : s.Valid C.mem) (hle : b.length ≤ s.len) {g : Span → SRun (Nat × σ) A} {Q : A → Nat → Prop}
    (h : Took (g (s.drop b.length)) Q) : Took (SRun.lift (Span.subspan C.mem s b.length) >>= g) Q := by
  rw [hs.subspan hle]
  refine (Took.lift (Q := fun a n => a = s.drop b.length ∧ n = 0) (by rintro l a ⟨⟩; exact ⟨rfl, rfl⟩)).bind ?_
  rintro _ _ ⟨rfl, rfl⟩
  exact h.mono fun _ _ h => by rwa [Nat.zero_add]

theorem joinExactlyLoop (i : Span) : ∀ (todo : Nat) (s r : Span), s.Valid C.mem →
    Ruled C (.exactly p todo) s (Interrupted.joinExactlyLoop (σ := σ) tally C b i todo s r)
  | 0, _, _, _ => .pure ⟨_, .exactlyNil⟩
  | todo + 1, s, r, hs => by
    refine test hb hs (fun n h => .pure ⟨_, .exactlyMiss h⟩) fun n h h1 h2 => ?_
    refine subspan hb hs h2 ((joinExactlyLoop i todo _ _ h1).mono ?_)
    rintro _ m ⟨o, ho⟩
    rw [Span.elems_drop] at ho
    exact ⟨_, .exactlyMore h ho⟩

theorem lookJoinExactlyLoop (i : Span) : ∀ (todo : Nat) (s : Span), s.Valid C.mem →
    Ruled C (.exactly p todo) s (Interrupted.lookJoinExactlyLoop (σ := σ) tally C b i todo s)
  | 0, _, _ => .pure ⟨_, .exactlyNil⟩
  | todo + 1, s, hs => by
    refine test hb hs (fun n h => .pure ⟨_, .exactlyMiss h⟩) fun n h h1 h2 => ?_
    refine subspan hb hs h2 ((lookJoinExactlyLoop i todo _ h1).mono ?_)
    rintro _ m ⟨o, ho⟩
    rw [Span.elems_drop] at ho
    exact ⟨_, .exactlyMore h ho⟩

theorem joinRepeatLoop : ∀ (fuel : Nat) (s r : Span), s.Valid C.mem →
    Took (Interrupted.joinRepeatLoop (σ := σ) tally C b fuel s r)
      fun _ n => ∃ j, PegCompares C (.zeroOrMore p) (s.elems C.mem) n (some j)
  | 0, _, _, _ => .diverge
  | fuel + 1, s, r, hs => by
    refine test hb hs (fun n h => .pure ⟨_, .zeroStop h⟩) fun n h h1 h2 => ?_
    refine subspan hb hs h2 ((joinRepeatLoop fuel _ _ h1).mono ?_)
    rintro _ m ⟨j, hj⟩
    rw [Span.elems_drop] at hj
    exact ⟨_, .zeroMore h hj⟩

theorem lookJoinRepeatLoop : ∀ (fuel : Nat) (s : Span), s.Valid C.mem →
    Took (Interrupted.lookJoinRepeatLoop (σ := σ) tally C b fuel s)
      fun _ n => ∃ j, PegCompares C (.zeroOrMore p) (s.elems C.mem) n (some j)
  | 0, _, _ => .diverge
  | fuel + 1, s, hs => by
    refine test hb hs (fun n h => .pure ⟨_, .zeroStop h⟩) fun n h h1 h2 => ?_
    refine subspan hb hs h2 ((lookJoinRepeatLoop fuel _ h1).mono ?_)
    rintro _ m ⟨j, hj⟩
    rw [Span.elems_drop] at hj
    exact ⟨_, .zeroMore h hj⟩

end literals

theorem asBasic_basic {b : BasicP α} (h : asBasic C q = some b) : q.basic? = some b := by
  cases q <;> simp only [asBasic] at h <;> first | (split at h <;> cases h <;> rfl) | (cases h <;> rfl)

/-- the loops of `join` over a literal -/
theorem own_ruled (rec : Parser α → Stateful.Sub (Nat × σ)) (fuel : Nat) {s : Span} (hs : s.Valid C.mem)
    (hl : Ruled C p s ((rec p).look s)) :
    Ruled C p s ((Interrupted.semJoin tally C rec fuel p).look s) ∧
    ((ownLoop C p = true ∨ Ruled C p s ((rec p).parse s)) → Ruled C p s ((Interrupted.semJoin tally C rec fuel p).parse s)) := by
  have gen : (ownLoop C p = false → Interrupted.semJoin tally C rec fuel p = Interrupted.joinGeneric tally C (rec p)) := by
    intro h
    cases p with
    | exactly q n | maybe q | oneOrMore q | zeroOrMore q =>
      simp only [Interrupted.semJoin]
      cases hb : asBasic C q with
      | none => rfl
      | some b => rw [ownLoop, hb] at h; cases h
    | _ => rfl
  cases ho : ownLoop C p with
  | false =>
    rw [gen ho]
    refine ⟨hl, fun h => ?_⟩
    have h := h.resolve_left nofun
    refine Took.then0 h fun r => .ite (fun _ => ?_) fun _ => .pure rfl
    refine (Took.value (α := α) (β := β)).free fun _ => (Took.liftFree _).free fun j => ?_
    cases j <;> exact .pure rfl
  | true =>
    cases p with
    | exactly q n =>
      simp only [Interrupted.semJoin]
      cases hb : asBasic C q with
      | none => rw [ownLoop, hb] at ho; cases ho
      | some b => exact ⟨lookJoinExactlyLoop (asBasic_basic hb) _ _ _ hs, fun _ => joinExactlyLoop (asBasic_basic hb) _ _ _ _ hs⟩
    | maybe q =>
      simp only [Interrupted.semJoin]
      cases hb : asBasic C q with
      | none => rw [ownLoop, hb] at ho; cases ho
      | some b =>
        exact ⟨test (asBasic_basic hb) hs (fun n h => .pure ⟨_, .maybeMiss h⟩) fun n h _ _ =>
            (Took.liftFree _).free fun _ => .pure ⟨_, .maybeHit h⟩,
          fun _ => test (asBasic_basic hb) hs (fun n h => .pure ⟨_, .maybeMiss h⟩) fun n h _ _ =>
            (Took.liftFree _).free fun _ => .pure ⟨_, .maybeHit h⟩⟩
    | oneOrMore q =>
      simp only [Interrupted.semJoin]
      cases hb : asBasic C q with
      | none => rw [ownLoop, hb] at ho; cases ho
      | some b =>
        refine ⟨test (asBasic_basic hb) hs (fun n h => .pure ⟨_, .oneMiss h⟩) fun n h h1 h2 =>
            subspan (asBasic_basic hb) hs h2 (Took.then0 (Q := fun m => ∃ o, PegCompares C (.oneOrMore q) (s.elems C.mem) (n + m) o)
              ((lookJoinRepeatLoop (asBasic_basic hb) _ _ h1).mono ?_) fun _ => .pure rfl),
          fun _ => test (asBasic_basic hb) hs (fun n h => .pure ⟨_, .oneMiss h⟩) fun n h h1 h2 =>
            subspan (asBasic_basic hb) hs h2 (Took.then0 (Q := fun m => ∃ o, PegCompares C (.oneOrMore q) (s.elems C.mem) (n + m) o)
              ((joinRepeatLoop (asBasic_basic hb) _ _ _ h1).mono ?_) fun _ => .pure rfl)⟩
        · rintro _ m ⟨j, hj⟩
          rw [Span.elems_drop] at hj
          exact ⟨_, .oneMore h hj⟩
        · rintro _ m ⟨j, hj⟩
          rw [Span.elems_drop] at hj
          exact ⟨_, .oneMore h hj⟩
    | zeroOrMore q =>
      simp only [Interrupted.semJoin]
      cases hb : asBasic C q with
      | none => rw [ownLoop, hb] at ho; cases ho
      | some b =>
        exact ⟨Took.then0 ((lookJoinRepeatLoop (asBasic_basic hb) _ _ hs).mono fun _ _ ⟨j, hj⟩ => ⟨_, hj⟩) fun _ => .pure rfl,
          fun _ => Took.then0 ((joinRepeatLoop (asBasic_basic hb) _ _ _ hs).mono fun _ _ ⟨j, hj⟩ => ⟨_, hj⟩) fun _ => .pure rfl⟩
    | _ => cases ho

/-! ### The loops -/

section loops
variable {P D : Stateful.Sub (Nat × σ)}

theorem lookExactlyLoop (h : Sound C p P.look) (i : Span) : ∀ (todo : Nat) (s : Span), s.Valid C.mem →
    Ruled C (.exactly p todo) s (Stateful.lookExactlyLoop P i todo s)
  | 0, _, _ => .pure ⟨_, .exactlyNil⟩
  | todo + 1, s, hs => by
    refine h.bind hs (fun r n h1 h2 h3 => ?_) fun r n k h1 h2 h3 h4 => ?_
    · rw [if_pos (iff_not h1)]
      exact .pure ⟨_, .exactlyMiss h3⟩
    · rw [if_neg (iff_yes h1), h2]
      refine (lookExactlyLoop h i todo _ h4).mono ?_
      rintro _ m ⟨o, ho⟩
      rw [Span.elems_drop] at ho
      exact ⟨_, .exactlyMore h3 ho⟩

theorem exactlyLoop (h : Sound C p P.parse) (T : Ty) (i : Span) : ∀ (todo j : Nat) (s : Span) (v : Val), s.Valid C.mem →
    Ruled C (.exactly p todo) s (Interrupted.exactlyLoop (tally : Interrupted.Env α β Nat) T P i todo j s v)
  | 0, _, _, _, _ => (Took.buildFree _ _ _).mono fun _ _ e => by subst e; exact ⟨_, .exactlyNil⟩
  | todo + 1, j, s, v, hs => by
    refine h.bind hs (fun r n h1 h2 h3 => ?_) fun r n k h1 h2 h3 h4 => ?_
    · rw [if_pos (iff_not h1)]
      exact .pure ⟨_, .exactlyMiss h3⟩
    · rw [if_neg (iff_yes h1), h2]
      refine (Took.builtFree _ _).free fun v => (exactlyLoop h T i todo _ _ v h4).mono ?_
      rintro _ m ⟨o, ho⟩
      rw [Span.elems_drop] at ho
      exact ⟨_, .exactlyMore h3 ho⟩

theorem lookZeroOrMoreLoop (h : Sound C p P.look) : ∀ (fuel : Nat) (s : Span), s.Valid C.mem →
    Took (Stateful.lookZeroOrMoreLoop P fuel s) fun _ n => ∃ j, PegCompares C (.zeroOrMore p) (s.elems C.mem) n (some j)
  | 0, _, _ => .diverge
  | fuel + 1, s, hs => by
    refine h.bind hs (fun r n h1 h2 h3 => ?_) fun r n k h1 h2 h3 h4 => ?_
    · rw [if_pos (iff_not h1)]
      exact .pure ⟨_, .zeroStop h3⟩
    · rw [if_neg (iff_yes h1), h2]
      refine (lookZeroOrMoreLoop h fuel _ h4).mono ?_
      rintro _ m ⟨o, ho⟩
      rw [Span.elems_drop] at ho
      exact ⟨_, .zeroMore h3 ho⟩

theorem zeroOrMoreLoop (h : Sound C p P.parse) (T : Ty) : ∀ (fuel : Nat) (s : Span) (v : Val), s.Valid C.mem →
    Took (Interrupted.zeroOrMoreLoop (tally : Interrupted.Env α β Nat) T P fuel s v)
      fun _ n => ∃ j, PegCompares C (.zeroOrMore p) (s.elems C.mem) n (some j)
  | 0, _, _, _ => .diverge
  | fuel + 1, s, v, hs => by
    refine h.bind hs (fun r n h1 h2 h3 => ?_) fun r n k h1 h2 h3 h4 => ?_
    · rw [if_pos (iff_not h1)]
      exact .pure ⟨_, .zeroStop h3⟩
    · rw [if_neg (iff_yes h1), h2]
      refine (Took.builtFree _ _).free fun v => (zeroOrMoreLoop h T fuel _ v h4).mono ?_
      rintro _ m ⟨o, ho⟩
      rw [Span.elems_drop] at ho
      exact ⟨_, .zeroMore h3 ho⟩

theorem lookOneOrMoreLoop (h : Sound C p P.look) : ∀ (fuel : Nat) (b : Bool) (s : Span), s.Valid C.mem →
    Took (Stateful.lookOneOrMoreLoop P fuel b s) fun _ n => ∃ j, PegCompares C (.zeroOrMore p) (s.elems C.mem) n (some j)
  | 0, _, _, _ => .diverge
  | fuel + 1, b, s, hs => by
    refine h.bind hs (fun r n h1 h2 h3 => ?_) fun r n k h1 h2 h3 h4 => ?_
    · rw [if_pos (iff_not h1)]
      exact .pure ⟨_, .zeroStop h3⟩
    · rw [if_neg (iff_yes h1), h2]
      refine (lookOneOrMoreLoop h fuel _ _ h4).mono ?_
      rintro _ m ⟨o, ho⟩
      rw [Span.elems_drop] at ho
      exact ⟨_, .zeroMore h3 ho⟩

theorem oneOrMoreLoop (h : Sound C p P.parse) (T : Ty) : ∀ (fuel : Nat) (b : Bool) (s : Span) (v : Val), s.Valid C.mem →
    Took (Interrupted.oneOrMoreLoop (tally : Interrupted.Env α β Nat) T P fuel b s v)
      fun _ n => ∃ j, PegCompares C (.zeroOrMore p) (s.elems C.mem) n (some j)
  | 0, _, _, _, _ => .diverge
  | fuel + 1, b, s, v, hs => by
    refine h.bind hs (fun r n h1 h2 h3 => ?_) fun r n k h1 h2 h3 h4 => ?_
    · rw [if_pos (iff_not h1)]
      exact .pure ⟨_, .zeroStop h3⟩
    · rw [if_neg (iff_yes h1), h2]
      refine (Took.builtFree _ _).free fun v => (oneOrMoreLoop h T fuel _ _ v h4).mono ?_
      rintro _ m ⟨o, ho⟩
      rw [Span.elems_drop] at ho
      exact ⟨_, .zeroMore h3 ho⟩

theorem one_of_zero {xs : List β} {n j} (h : PegCompares C (.zeroOrMore p) xs n (some j)) :
    ∃ o, PegCompares C (.oneOrMore p) xs n o := by
  generalize ho : some j = o at h
  cases h with
  | hit h => cases h
  | miss h => cases h
  | zeroStop h => exact ⟨_, .oneMiss h⟩
  | zeroMore h1 h2 => exact ⟨_, .oneMore h1 h2⟩

theorem delimit_of {xs : List β} {n m i k j o} (h1 : PegCompares C p xs n (some k)) (h2 : PegCompares C d (xs.drop k) m (some j))
    (h3 : PegCompares C (.delimit p d) (xs.drop (k + j)) i o) : ∃ o, PegCompares C (.delimit p d) xs (n + (m + i)) o := by
  cases o with
  | none => exact ⟨_, .delimitLast h1 h2 h3⟩
  | some l => exact ⟨_, .delimitMore h1 h2 h3⟩

theorem lookDelimitLoop (hp : Sound C p P.look) (hd : Sound C d D.look) : ∀ (fuel : Nat) (s i : Span) (r : R) (n : Nat) (o : Option Nat),
    s.Valid C.mem → PegCompares C p (s.elems C.mem) n o → Told s o r →
    Took (Stateful.lookDelimitLoop P D fuel r i) fun _ m => ∃ o, PegCompares C (.delimit p d) (s.elems C.mem) (n + m) o
  | 0, _, _, _, _, _, _, _, _ => .diverge
  | fuel + 1, s, i, r, n, o, hs, h, ht => by
    cases o with
    | none =>
      rw [Stateful.lookDelimitLoop, if_pos (iff_not ht.val)]
      exact .pure ⟨_, .delimitMiss h⟩
    | some k =>
      rw [Stateful.lookDelimitLoop, if_neg (iff_yes ht.val), ht.rem]
      have hs1 := (h.next hs rfl).1
      refine hd.bind hs1 (fun r m h1 h2 h3 => ?_) fun r m j h1 h2 h3 h4 => ?_
      · rw [if_pos (iff_not h1)]
        rw [Span.elems_drop] at h3
        exact .pure ⟨_, .delimitStop h h3⟩
      · rw [if_neg (iff_yes h1), h2]
        refine (hp _ h4).bind ?_
        rintro r2 n2 ⟨o2, h5, h6⟩
        refine (lookDelimitLoop hp hd fuel _ _ r2 n2 o2 h4 h5 h6).mono ?_
        rintro _ i ⟨o3, h7⟩
        rw [Span.elems_drop] at h3
        rw [Span.elems_drop, Span.elems_drop, List.drop_drop] at h7
        exact delimit_of h h3 h7

theorem delimitLoop (hp : Sound C p P.parse) (hd : Sound C d D.parse) (T tp td : Ty) :
    ∀ (fuel : Nat) (s i : Span) (v : Val) (r : R) (n : Nat) (o : Option Nat),
    s.Valid C.mem → PegCompares C p (s.elems C.mem) n o → Told s o r →
    Took (Interrupted.delimitLoop (tally : Interrupted.Env α β Nat) T tp td P D fuel r i v)
      fun _ m => ∃ o, PegCompares C (.delimit p d) (s.elems C.mem) (n + m) o
  | 0, _, _, _, _, _, _, _, _, _ => .diverge
  | fuel + 1, s, i, v, r, n, o, hs, h, ht => by
    cases o with
    | none =>
      rw [Interrupted.delimitLoop, if_pos (iff_not ht.val)]
      exact .pure ⟨_, .delimitMiss h⟩
    | some k =>
      rw [Interrupted.delimitLoop, if_neg (iff_yes ht.val), ht.rem]
      have hs1 := (h.next hs rfl).1
      refine (Took.builtFree _ _).free fun v => ?_
      refine hd.bind hs1 (fun r m h1 h2 h3 => ?_) fun r m j h1 h2 h3 h4 => ?_
      · rw [if_pos (iff_not h1)]
        rw [Span.elems_drop] at h3
        exact .pure ⟨_, .delimitStop h h3⟩
      · rw [if_neg (iff_yes h1), h2]
        refine (hp _ h4).bind ?_
        rintro r2 n2 ⟨o2, h5, h6⟩
        refine (Took.builtFree _ _).free fun v => (delimitLoop hp hd T tp td fuel _ _ v r2 n2 o2 h4 h5 h6).mono ?_
        rintro _ i ⟨o3, h7⟩
        rw [Span.elems_drop] at h3
        rw [Span.elems_drop, Span.elems_drop, List.drop_drop] at h7
        exact delimit_of h h3 h7

/-! ### choice and sequence -/

variable (C) in
/-- one part of a choice or sequence does what the rules say of `p` -/
def Fits (exec : Stateful.Elem (Nat × σ) → Exec → SRun (Nat × σ) (Bool × Exec)) (e : Stateful.Elem (Nat × σ)) (p : Parser α) : Prop :=
  ∀ (s : Span) (v : Val), s.Valid C.mem → Took (exec e ⟨s, v⟩) fun x n =>
    ∃ o, PegCompares C p (s.elems C.mem) n o ∧ x.1 = o.isSome ∧ x.2.input = s.drop (o.getD 0)

theorem fits_none {P : Stateful.Sub (Nat × σ)} (h : Sound C p P.look) (T : Ty) (u c : Bool) (ty : Ty) :
    Fits C (Stateful.execute C T u c) ⟨P, ty, none⟩ p := fun s v hs => by
  refine h.bind hs (fun r n h1 h2 h3 => .pure ⟨_, h3, h1, ?_⟩) fun r n k h1 h2 h3 h4 => .pure ⟨_, h3, h1, h2⟩
  simpa using h2

theorem fits_some {P : Stateful.Sub (Nat × σ)} (h : Sound C p P.parse) (T : Ty) (u c : Bool) (ty : Ty) (i : Nat) :
    Fits C (Interrupted.execute tally C T u c) ⟨P, ty, some i⟩ p := fun s v hs => by
  refine h.bind hs (fun r n h1 h2 h3 => ?_) fun r n k h1 h2 h3 h4 => ?_
  · rw [if_pos (iff_not h1)]
    exact .pure ⟨_, h3, rfl, by simp⟩
  · rw [if_neg (iff_yes h1)]
    exact (Took.builtFree _ _).free fun v => .pure ⟨_, h3, rfl, h2⟩

variable {exec : Stateful.Elem (Nat × σ) → Exec → SRun (Nat × σ) (Bool × Exec)}

theorem foldOr {es : List (Stateful.Elem (Nat × σ))} (h : List.Forall₂ (Fits C exec) es ps) {s : Span}
    (hs : s.Valid C.mem) (v : Val) : Ruled C (.choice ps) s (Stateful.foldOr exec es ⟨s, v⟩) := by
  induction h generalizing v with
  | nil => exact .pure ⟨_, .choiceNil⟩
  | cons h1 _ ih =>
    refine (h1 s v hs).bind ?_
    rintro ⟨b, st⟩ n ⟨o, h2, h3, h4⟩
    cases o with
    | none =>
      cases h3
      have : st = ⟨s, st.value⟩ := by obtain ⟨i, w⟩ := st; simpa using h4
      rw [this]
      refine (ih _).mono ?_
      rintro _ m ⟨o, ho⟩
      exact ⟨_, .choiceMiss h2 ho⟩
    | some k =>
      cases h3
      exact .pure ⟨_, .choiceHit h2⟩

theorem foldAnd {es : List (Stateful.Elem (Nat × σ))} (h : List.Forall₂ (Fits C exec) es ps) {s : Span}
    (hs : s.Valid C.mem) (v : Val) : Ruled C (.sequence ps) s (Stateful.foldAnd exec es ⟨s, v⟩) := by
  induction h generalizing s v with
  | nil => exact .pure ⟨_, .sequenceNil⟩
  | cons h1 _ ih =>
    refine (h1 s v hs).bind ?_
    rintro ⟨b, st⟩ n ⟨o, h2, h3, h4⟩
    cases o with
    | none =>
      cases h3
      exact .pure ⟨_, .sequenceMiss h2⟩
    | some k =>
      cases h3
      have : st = ⟨s.drop k, st.value⟩ := by obtain ⟨i, w⟩ := st; simpa using h4
      rw [this]
      refine (ih (h2.next hs rfl).1 _).mono ?_
      rintro _ m ⟨o, ho⟩
      rw [Span.elems_drop] at ho
      exact ⟨_, .sequenceMore h2 ho⟩

theorem fits_look {rec : Parser α → Stateful.Sub (Nat × σ)} (T : Ty) (u c : Bool) : ∀ ps : List (Parser α),
    (∀ p ∈ ps, Sound C p (rec p).look) → List.Forall₂ (Fits C (Stateful.execute C T u c)) (Stateful.mkLookElems rec C ps) ps
  | [], _ => .nil
  | p :: ps, h => .cons (fits_none (h p (.head _)) _ _ _ _) (fits_look T u c ps fun q hq => h q (.tail _ hq))

theorem fits_parse {rec : Parser α → Stateful.Sub (Nat × σ)} (T : Ty) (u c : Bool) : ∀ (ps : List (Parser α)) (is : List (Option Nat)),
    is.length = ps.length → (∀ p ∈ ps, Sound C p (rec p).look ∧ Sound C p (rec p).parse) →
    List.Forall₂ (Fits C (Interrupted.execute tally C T u c)) (Stateful.mkElems rec C ps is) ps
  | [], [], _, _ => .nil
  | p :: ps, i :: is, hl, h => .cons (by
        cases i
        · exact fits_none (h p (.head _)).1 T u c _
        · exact fits_some (h p (.head _)).2 _ _ _ _ _)
      (fits_parse T u c ps is (by simpa using hl) fun q hq => h q (.tail _ hq))

end loops

/-! ### All parsers -/

/-- from what the rules say of the sub-parsers to what they say of the parser -/
theorem step_ruled {rec : Parser α → Stateful.Sub (Nat × σ)} (hl : ∀ p, Sound C p (rec p).look)
    (hp : ∀ p, NeverOverrules C p → Sound C p (rec p).parse) (fuel : Nat) (p : Parser α) {s : Span} (hs : s.Valid C.mem) :
    Ruled C p s ((Interrupted.step tally C (.ofCtx C) rec fuel p).look s) ∧
    (NeverOverrules C p → Ruled C p s ((Interrupted.step tally C (.ofCtx C) rec fuel p).parse s)) := by
  have ruledL : ∀ q, Ruled C q s ((rec q).look s) := fun q => (hl q s hs).mono fun _ _ ⟨o, h, _⟩ => ⟨o, h⟩
  have ruledP : ∀ q, NeverOverrules C q → Ruled C q s ((rec q).parse s) := fun q hq =>
    (hp q hq s hs).mono fun _ _ ⟨o, h, _⟩ => ⟨o, h⟩
  have up : ∀ {q q' : Parser α} {m : SRun (Nat × σ) R}, (∀ n o, PegCompares C q (s.elems C.mem) n o →
      PegCompares C q' (s.elems C.mem) n o) → Ruled C q s m → Ruled C q' s m := fun h hr =>
    Took.mono hr fun _ _ ⟨o, ho⟩ => ⟨o, h _ _ ho⟩
  cases p with
  | anyOf arr => exact ⟨basicLook rfl hs, fun _ => basicParse rfl hs⟩
  | noneOf arr => exact ⟨basicLook rfl hs, fun _ => basicParse rfl hs⟩
  | allOf arr => exact ⟨basicLook rfl hs, fun _ => basicParse rfl hs⟩
  | anything => exact ⟨basicLook rfl hs, fun _ => basicParse rfl hs⟩
  | epsilon =>
    have h : Ruled C (.epsilon : Parser α) s (SRun.lift (parseEpsilon s) : SRun (Nat × σ) R) :=
      Took.lift fun _ _ _ => ⟨_, .epsilon⟩
    exact ⟨h, fun _ => h⟩
  | choice ps =>
    refine ⟨Took.then0 (foldOr (fits_look _ _ _ ps fun q _ => hl q) hs _) fun _ => ?_, fun hn =>
      (Took.builtFree _ _).free fun v => Took.then0 (foldOr (fits_parse _ _ _ ps _ (choiceTrait_length ps)
        fun q hq => ⟨hl q, hp q (hn.child (.choice hq))⟩) hs _) fun _ => ?_⟩
    · exact .ite (fun _ => .pure rfl) fun _ => .pure rfl
    · exact .ite (fun _ => .pure rfl) fun _ => .buildFree _ _ _
  | sequence ps =>
    refine ⟨Took.then0 (foldAnd (fits_look _ _ _ ps fun q _ => hl q) hs _) fun _ => ?_, fun hn =>
      (Took.builtFree _ _).free fun v => Took.then0 (foldAnd (fits_parse _ _ _ ps _ (sequenceTrait_length ps)
        fun q hq => ⟨hl q, hp q (hn.child (.sequence hq))⟩) hs _) fun _ => ?_⟩
    · exact .ite (fun _ => .pure rfl) fun _ => .pure rfl
    · exact .ite (fun _ => .pure rfl) fun _ => .buildFree _ _ _
  | maybe q =>
    refine ⟨(hl q).bind hs (fun r n h1 h2 h3 => ?_) fun r n k h1 h2 h3 h4 => ?_, fun hn =>
      (Took.builtFree _ _).free fun v => (hp q (hn.child .maybe)).bind hs (fun r n h1 h2 h3 => ?_) fun r n k h1 h2 h3 h4 => ?_⟩
    · exact .ite (fun _ => .pure ⟨_, .maybeMiss h3⟩) fun _ => .pure ⟨_, .maybeMiss h3⟩
    · exact .ite (fun _ => .pure ⟨_, .maybeHit h3⟩) fun _ => .pure ⟨_, .maybeHit h3⟩
    · exact (Took.ite (fun _ => .builtFree _ _) fun _ => .pure rfl).free fun v =>
        (Took.buildFree _ _ _).mono fun _ _ e => by subst e; exact ⟨_, .maybeMiss h3⟩
    · exact (Took.ite (fun _ => .builtFree _ _) fun _ => .pure rfl).free fun v =>
        (Took.buildFree _ _ _).mono fun _ _ e => by subst e; exact ⟨_, .maybeHit h3⟩
  | exactly q n =>
    exact ⟨lookExactlyLoop (hl q) s n s hs, fun hn =>
      (Took.builtFree _ _).free fun v => exactlyLoop (hp q (hn.child .exactly)) _ s n 0 s v hs⟩
  | oneOrMore q =>
    refine ⟨Took.then0 ((lookOneOrMoreLoop (hl q) _ _ _ hs).mono fun _ _ ⟨_, h⟩ => one_of_zero h) fun _ => ?_, fun hn =>
      (Took.builtFree _ _).free fun v =>
        Took.then0 ((oneOrMoreLoop (hp q (hn.child .oneOrMore)) _ _ _ _ v hs).mono fun _ _ ⟨_, h⟩ => one_of_zero h) fun _ => ?_⟩
    · exact .ite (fun _ => .pure rfl) fun _ => .pure rfl
    · exact .ite (fun _ => .buildFree _ _ _) fun _ => .pure rfl
  | zeroOrMore q =>
    refine ⟨Took.then0 ((lookZeroOrMoreLoop (hl q) _ _ hs).mono fun _ _ ⟨_, h⟩ => ⟨_, h⟩) fun _ => .pure rfl, fun hn =>
      (Took.builtFree _ _).free fun v =>
        Took.then0 ((zeroOrMoreLoop (hp q (hn.child .zeroOrMore)) _ _ _ v hs).mono fun _ _ ⟨_, h⟩ => ⟨_, h⟩) fun _ => .buildFree _ _ _⟩
  | delimit q d =>
    refine ⟨(hl q s hs).bind ?_, fun hn => (Took.builtFree _ _).free fun v => (hp q (hn.child .delimit) s hs).bind ?_⟩
    · rintro r n ⟨o, h1, h2⟩
      cases o with
      | none => rw [if_pos (iff_not h2.val)]; exact .pure ⟨_, .delimitMiss h1⟩
      | some k =>
        rw [if_neg (iff_yes h2.val)]
        exact Took.then0 (Q := fun m => ∃ o, PegCompares C (.delimit q d) (s.elems C.mem) (n + m) o)
          (lookDelimitLoop (hl q) (hl d) _ s _ r n _ hs h1 h2) fun _ => .pure rfl
    · rintro r n ⟨o, h1, h2⟩
      cases o with
      | none => rw [if_pos (iff_not h2.val)]; exact .pure ⟨_, .delimitMiss h1⟩
      | some k =>
        rw [if_neg (iff_yes h2.val)]
        exact Took.then0 (Q := fun m => ∃ o, PegCompares C (.delimit q d) (s.elems C.mem) (n + m) o)
          (delimitLoop (hp q (hn.child .delimit)) (hp d (hn.child .delimiter)) _ _ _ _ s _ v r n _ hs h1 h2) fun _ =>
            .buildFree _ _ _
  | ignore q => exact ⟨up (fun _ _ => .ignore) (ruledL q), fun _ => up (fun _ _ => .ignore) (ruledL q)⟩
  | complete q =>
    have rule : ∀ {n o}, PegCompares C q (s.elems C.mem) n o → ∃ o, PegCompares C (.complete q) (s.elems C.mem) n o := by
      intro n o h
      cases o with
      | none => exact ⟨_, .completeMiss h⟩
      | some k =>
        rcases Nat.lt_or_eq_of_le (h.peg.le _ rfl) with h1 | h1
        · exact ⟨_, .completeShort h h1⟩
        · subst h1; exact ⟨_, .completeHit h⟩
    refine ⟨Took.then0 (Took.mono (ruledL q) fun _ _ ⟨_, h⟩ => rule h) fun _ => ?_, fun hn =>
      Took.then0 (Took.mono (ruledP q (hn.child .complete)) fun _ _ ⟨_, h⟩ => rule h) fun _ => ?_⟩
    · exact .ite (fun _ => .pure rfl) fun _ => .pure rfl
    · exact .ite (fun _ => .pure rfl) fun _ => (Took.value (α := α) (β := β)).free fun _ => .pure rfl
  | join q =>
    have := own_ruled rec fuel hs (ruledL q)
    exact ⟨up (fun _ _ => .join) this.1, fun hn => up (fun _ _ => .join) (this.2 (.inr (ruledP q (hn.child .join))))⟩
  | map q f =>
    refine ⟨up (fun _ _ => .map) (ruledL q), fun hn => up (fun _ _ => .map) (Took.then0 (ruledP q (hn.child .map)) fun r => ?_)⟩
    exact .ite (fun _ => .pure rfl) fun _ => (Took.liftFree _).free fun _ => (Took.invokeFree C _ _ _).free fun _ =>
      .ite (fun _ => .pure rfl) fun _ => .pure rfl
  | filter q f =>
    refine ⟨up (fun _ _ => .filter) (ruledL q), fun hn =>
      up (fun _ _ => .filter) (Took.then0 (ruledP q (hn.child .filter)) fun r => ?_)⟩
    exact .ite (fun _ => .pure rfl) fun _ => (Took.liftFree _).free fun _ => (Took.invokeFree C _ _ _).free fun _ =>
      .ite (fun _ => .pure rfl) fun _ => .pure rfl
  | named q m => exact ⟨up (fun _ _ => .named) (ruledL q), fun hn => up (fun _ _ => .named) (ruledP q (hn.child .named))⟩
  | custom k =>
    exact ⟨up (fun _ _ => .custom) (ruledL _), fun hn =>
      up (fun _ _ => .custom) (Took.then0 (ruledP _ (hn.child .custom)) fun r => .builtFree _ _)⟩

theorem sound_of_ruled {f : Span → SRun (Nat × σ) R} (h : ∀ s : Span, s.Valid C.mem → Ruled C p s (f s))
    (ht : ∀ (s : Span) o, s.Valid C.mem → PegC C p (s.elems C.mem) o → ∀ t st l r t' st',
      f s (t, st) = .done l (.ok (r, t', st')) → Told s o r) : Sound C p f := fun s hs t st l r t' st' hm => by
  obtain ⟨n, h1, o, h2⟩ := h s hs _ _ _ _ _ _ hm
  exact ⟨n, h1, o, h2, ht s o hs h2.peg _ _ _ _ _ _ hm⟩

theorem sem_sound (n : Nat) (p : Parser α) : Sound C p (sub C σ n p).look ∧ (NeverOverrules C p → Sound C p (sub C σ n p).parse) := by
  induction n generalizing p with
  | zero => exact ⟨fun _ _ => .diverge, fun _ _ _ => .diverge⟩
  | succ n ih =>
    refine ⟨sound_of_ruled (fun s hs => (step_ruled (fun p => (ih p).1) (fun p => (ih p).2) n p hs).1)
        fun s o hs ho t st l r t' st' hm => told_look (n := n + 1) ho hs rfl hm,
      fun hn => sound_of_ruled (fun s hs => (step_ruled (fun p => (ih p).1) (fun p => (ih p).2) n p hs).2 hn)
        fun s o hs ho t st l r t' st' hm => told_parse (n := n + 1) ho hn hs rfl hm⟩

end Tally

/-! ### How many there can be -/

theorem triedUntil_le (eqv : α → β → Bool) (x : β) : ∀ arr : List α, triedUntil eqv arr x ≤ arr.length
  | [] => Nat.le_refl _
  | a :: as => by
    unfold triedUntil
    have := triedUntil_le eqv x as
    split <;> simp <;> omega

theorem comparedWhile_le (eqv : α → β → Bool) : ∀ (arr : List α) (xs : List β), comparedWhile eqv arr xs ≤ arr.length
  | [], _ => by simp [comparedWhile]
  | a :: as, [] => by simp [comparedWhile]
  | a :: as, x :: xs => by
    unfold comparedWhile
    have := comparedWhile_le eqv as xs
    split <;> simp <;> omega

theorem literalCompares_le (eqv : α → β → Bool) (p : Parser α) (xs : List β) : literalCompares eqv p xs ≤ p.literal := by
  cases p with
  | anyOf arr | noneOf arr =>
    cases xs with
    | nil => exact Nat.zero_le _
    | cons x xs => exact triedUntil_le eqv x arr
  | allOf arr =>
    simp only [literalCompares]
    split
    · exact Nat.zero_le _
    · exact comparedWhile_le ..
  | _ => exact Nat.zero_le _

theorem uses_tail {p : Parser α} {ps : List (Parser α)} {L : Nat}
    (h : (∀ q, Uses C (.choice (p :: ps)) q → q.literal ≤ L) ∨ ∀ q, Uses C (.sequence (p :: ps)) q → q.literal ≤ L) :
    (∀ q, Uses C (.choice ps) q → q.literal ≤ L) ∧ ∀ q, Uses C (.sequence ps) q → q.literal ≤ L := by
  have h1 : ∀ r ∈ ps, ∀ q, Uses C r q → q.literal ≤ L := by
    intro r hr q hq
    rcases h with h | h
    · exact h q (.part (List.mem_cons_of_mem _ hr) hq)
    · exact h q (.part (List.mem_cons_of_mem _ hr) hq)
  constructor
  · intro q hq
    cases hq with
    | self => exact Nat.zero_le _
    | part h2 h3 => exact h1 _ h2 _ h3
  · intro q hq
    cases hq with
    | self => exact Nat.zero_le _
    | part h2 h3 => exact h1 _ h2 _ h3

/-- each step compares at most as many elements as the longest literal has -/
theorem PegCompares.bound {p : Parser α} {xs : List β} {n o} (h : PegCompares C p xs n o) {L : Nat}
    (hL : ∀ q, Uses C p q → q.literal ≤ L) : ∃ m, PegSteps C p xs m o ∧ n ≤ L * (m + 1) := by
  have lit : ∀ {p : Parser α} {xs : List β}, (∀ q, Uses C p q → q.literal ≤ L) → literalCompares C.eqv p xs ≤ L * (0 + 1) :=
    fun h => by rw [Nat.zero_add, Nat.mul_one]; exact Nat.le_trans (literalCompares_le ..) (h _ .self)
  have sum : ∀ {a b m k : Nat}, a ≤ L * (m + 1) → b ≤ L * k → a + b ≤ L * (m + 1 + k) := fun h1 h2 => by
    rw [Nat.mul_add]; omega
  have up : ∀ {a m k : Nat}, a ≤ L * (m + 1) → m ≤ k → a ≤ L * (k + 1) := fun h1 h2 =>
    Nat.le_trans h1 (Nat.mul_le_mul_left _ (by omega))
  have one : ∀ {p q : Parser α}, (∀ r, Uses C p r → r.literal ≤ L) → q ∈ p.parts → ∀ r, Uses C q r → r.literal ≤ L :=
    fun h hq r hr => h r (.part hq hr)
  have same : ∀ {p q : Parser α}, (∀ r, Uses C q r → r.literal ≤ L) → p.parts = q.parts → p.literal = 0 →
      (∀ k, p ≠ .custom k) → ∀ r, Uses C p r → r.literal ≤ L := fun h e e0 hc r hr => by
    cases hr with
    | self => omega
    | part h1 h2 => exact h _ (.part (e ▸ h1) h2)
    | custom => exact absurd rfl (hc _)
  induction h with
  | hit h1 h2 => exact ⟨_, .hit h1 h2, lit hL⟩
  | miss h1 h2 => exact ⟨_, .miss h1 h2, lit hL⟩
  | epsilon => exact ⟨_, .epsilon, Nat.zero_le _⟩
  | choiceNil => exact ⟨_, .choiceNil, Nat.zero_le _⟩
  | choiceHit _ ih =>
    obtain ⟨_, h, hb⟩ := ih (one hL (.head _)); exact ⟨_, .choiceHit h, up hb (by omega)⟩
  | choiceMiss _ _ ih1 ih2 =>
    obtain ⟨_, h1, hb1⟩ := ih1 (one hL (.head _)); obtain ⟨_, h2, hb2⟩ := ih2 (uses_tail (.inl hL)).1
    exact ⟨_, .choiceMiss h1 h2, sum hb1 hb2⟩
  | sequenceNil => exact ⟨_, .sequenceNil, Nat.zero_le _⟩
  | sequenceMore _ _ ih1 ih2 =>
    obtain ⟨_, h1, hb1⟩ := ih1 (one hL (.head _)); obtain ⟨_, h2, hb2⟩ := ih2 (uses_tail (.inr hL)).2
    exact ⟨_, .sequenceMore h1 h2, sum hb1 hb2⟩
  | sequenceMiss _ ih =>
    obtain ⟨_, h, hb⟩ := ih (one hL (.head _)); exact ⟨_, .sequenceMiss h, up hb (by omega)⟩
  | maybeHit _ ih => obtain ⟨_, h, hb⟩ := ih (one hL (.head _)); exact ⟨_, .maybeHit h, up hb (by omega)⟩
  | maybeMiss _ ih => obtain ⟨_, h, hb⟩ := ih (one hL (.head _)); exact ⟨_, .maybeMiss h, up hb (by omega)⟩
  | exactlyNil => exact ⟨_, .exactlyNil, Nat.zero_le _⟩
  | exactlyMore _ _ ih1 ih2 =>
    obtain ⟨_, h1, hb1⟩ := ih1 (one hL (.head _)); obtain ⟨_, h2, hb2⟩ := ih2 (same hL rfl rfl nofun)
    exact ⟨_, .exactlyMore h1 h2, sum hb1 hb2⟩
  | exactlyMiss _ ih => obtain ⟨_, h, hb⟩ := ih (one hL (.head _)); exact ⟨_, .exactlyMiss h, up hb (by omega)⟩
  | zeroStop _ ih => obtain ⟨_, h, hb⟩ := ih (one hL (.head _)); exact ⟨_, .zeroStop h, up hb (by omega)⟩
  | zeroMore _ _ ih1 ih2 =>
    obtain ⟨_, h1, hb1⟩ := ih1 (one hL (.head _)); obtain ⟨_, h2, hb2⟩ := ih2 hL
    exact ⟨_, .zeroMore h1 h2, sum hb1 hb2⟩
  | oneMiss _ ih => obtain ⟨_, h, hb⟩ := ih (one hL (.head _)); exact ⟨_, .oneMiss h, up hb (by omega)⟩
  | oneMore _ _ ih1 ih2 =>
    obtain ⟨_, h1, hb1⟩ := ih1 (one hL (.head _)); obtain ⟨_, h2, hb2⟩ := ih2 (same hL rfl rfl nofun)
    exact ⟨_, .oneMore h1 h2, sum hb1 hb2⟩
  | delimitMiss _ ih => obtain ⟨_, h, hb⟩ := ih (one hL (.head _)); exact ⟨_, .delimitMiss h, up hb (by omega)⟩
  | delimitStop _ _ ih1 ih2 =>
    obtain ⟨_, h1, hb1⟩ := ih1 (one hL (.head _)); obtain ⟨_, h2, hb2⟩ := ih2 (one hL (.tail _ (.head _)))
    exact ⟨_, .delimitStop h1 h2, Nat.le_trans (sum hb1 hb2) (Nat.mul_le_mul_left _ (by omega))⟩
  | delimitLast _ _ _ ih1 ih2 ih3 =>
    obtain ⟨_, h1, hb1⟩ := ih1 (one hL (.head _)); obtain ⟨_, h2, hb2⟩ := ih2 (one hL (.tail _ (.head _)))
    obtain ⟨_, h3, hb3⟩ := ih3 hL
    exact ⟨_, .delimitLast h1 h2 h3, sum hb1 (sum hb2 hb3)⟩
  | delimitMore _ _ _ ih1 ih2 ih3 =>
    obtain ⟨_, h1, hb1⟩ := ih1 (one hL (.head _)); obtain ⟨_, h2, hb2⟩ := ih2 (one hL (.tail _ (.head _)))
    obtain ⟨_, h3, hb3⟩ := ih3 hL
    exact ⟨_, .delimitMore h1 h2 h3, sum hb1 (sum hb2 hb3)⟩
  | completeHit _ ih => obtain ⟨_, h, hb⟩ := ih (one hL (.head _)); exact ⟨_, .completeHit h, up hb (by omega)⟩
  | completeShort _ hk ih => obtain ⟨_, h, hb⟩ := ih (one hL (.head _)); exact ⟨_, .completeShort h hk, up hb (by omega)⟩
  | completeMiss _ ih => obtain ⟨_, h, hb⟩ := ih (one hL (.head _)); exact ⟨_, .completeMiss h, up hb (by omega)⟩
  | ignore _ ih => obtain ⟨_, h, hb⟩ := ih (one hL (.head _)); exact ⟨_, .ignore h, up hb (by omega)⟩
  | join _ ih => obtain ⟨_, h, hb⟩ := ih (one hL (.head _)); exact ⟨_, .join h, up hb (by omega)⟩
  | map _ ih => obtain ⟨_, h, hb⟩ := ih (one hL (.head _)); exact ⟨_, .map h, up hb (by omega)⟩
  | filter _ ih => obtain ⟨_, h, hb⟩ := ih (one hL (.head _)); exact ⟨_, .filter h, up hb (by omega)⟩
  | named _ ih => obtain ⟨_, h, hb⟩ := ih (one hL (.head _)); exact ⟨_, .named h, up hb (by omega)⟩
  | custom _ ih =>
    obtain ⟨_, h, hb⟩ := ih fun r hr => hL r (.custom hr)
    exact ⟨_, .custom h, up hb (by omega)⟩

/-! ### The literals of a grammar -/

theorem length_le_sizeOf (l : List α) : l.length ≤ sizeOf l := by
  induction l with
  | nil => simp
  | cons a l ih => simp only [List.length_cons, List.cons.sizeOf_spec]; omega

theorem literal_le (p : Parser α) : p.literal ≤ sizeOf p := by
  cases p with
  | anyOf arr | noneOf arr | allOf arr => have := length_le_sizeOf arr; simp [Parser.literal]; omega
  | _ => exact Nat.zero_le _

theorem part_le {p q : Parser α} (h : q ∈ p.parts) : sizeOf q ≤ sizeOf p := by
  cases p with
  | choice ps | sequence ps => have := List.sizeOf_lt_of_mem (show q ∈ ps from h); simp; omega
  | delimit p d =>
    simp only [Parser.parts, List.mem_cons, List.not_mem_nil, or_false] at h
    rcases h with rfl | rfl <;> simp <;> try omega
  | anyOf | noneOf | allOf | anything | epsilon | custom => cases h
  | _ =>
    simp only [Parser.parts, List.mem_cons, List.not_mem_nil, or_false] at h
    subst h; simp; try omega

/-- the literals of a grammar with finitely many custom parsers -/
theorem exists_longest (p : Parser α) {ks : List Nat} (hp : p.customs ks.contains = true)
    (hks : ∀ k ∈ ks, (C.custom k).body.customs ks.contains = true) :
    ∃ L, ∀ C' : Ctx α β, C'.custom = C.custom → ∀ q, Uses C' p q → q.literal ≤ L := by
  refine ⟨sizeOf p + (ks.map fun k => sizeOf (C.custom k).body).sum, fun C' e q h => ?_⟩
  have body : ∀ k ∈ ks, sizeOf (C.custom k).body ≤ (ks.map fun k => sizeOf (C.custom k).body).sum := fun k hk =>
    List.le_sum_of_mem (List.mem_map.2 ⟨k, hk, rfl⟩)
  have key : ∀ {p q}, Uses C' p q → p.customs ks.contains = true →
      ∀ N, sizeOf p ≤ N → (∀ k ∈ ks, sizeOf (C.custom k).body ≤ N) → q.literal ≤ N := by
    intro p q h
    induction h with
    | self => exact fun _ N h _ => Nat.le_trans (literal_le _) h
    | part h1 _ ih => exact fun hc N h2 h3 => ih (customs_part hc h1) N (Nat.le_trans (part_le h1) h2) h3
    | @custom k r _ ih =>
      intro hc N _ h3
      have hk : k ∈ ks := by simpa [Parser.customs] using hc
      rw [e] at ih
      exact ih (hks k hk) N (h3 k hk) h3
  exact key h hp _ (Nat.le_add_right ..) fun k hk => Nat.le_trans (body k hk) (Nat.le_add_left ..)

end Tok3n
