import Verif.Proof.EffortBound
import Verif.Proof.Equations
import Mathlib.Data.Nat.Choose.Basic
import Mathlib.Data.Nat.Factorial.BigOperators
/-
Proofs for C65: exact counts, and grammars that take as many calls as the bounds allow.
-/

namespace Tok3n

variable {α β A B : Type} {C : Ctx α β}

/-! ### Equations -/

theorem step_cden_lim (p : Parser α) :
    SubLim (fun n => step C (counted C n) n p)
      ⟨fun s => lim fun k => (step C (cden C) k p).parse s,
       fun s => lim fun k => (step C (cden C) k p).look s⟩ := by
  refine ⟨fun s => ?_, fun s => ?_⟩
  · refine Lim.diag (a := fun n k => (step C (counted C n) k p).parse s) (fun k => ?_) (fun n k => ?_)
    · exact (step_lim counted_lim k p).parse s
    · exact (step_fuel_le _ k p s).1
  · refine Lim.diag (a := fun n k => (step C (counted C n) k p).look s) (fun k => ?_) (fun n k => ?_)
    · exact (step_lim counted_lim k p).look s
    · exact (step_fuel_le _ k p s).2

theorem CountedParse_eq (p : Parser α) (s : Span) :
    CountedParse C p s = M.bind (M.log callMark) fun _ => lim fun k => (step C (cden C) k p).parse s :=
  (((counted_lim p).parse s).tail).unique (Lim.bind (Lim.const (M.log callMark)) fun _ => (step_cden_lim p).parse s)

theorem CountedLook_eq (p : Parser α) (s : Span) :
    CountedLook C p s = M.bind (M.log callMark) fun _ => lim fun k => (step C (cden C) k p).look s :=
  (((counted_lim p).look s).tail).unique (Lim.bind (Lim.const (M.log callMark)) fun _ => (step_cden_lim p).look s)

/-! ### How many calls a run took -/

/-- the run ended with `a` after `n` calls -/
def Took (m : Run A) (a : A) (n : Nat) : Prop := ∃ l, m = .done l (.ok a) ∧ l.length = n

theorem Took.pure (a : A) : Took (M.pure a : Run A) a 0 := ⟨[], rfl, rfl⟩

theorem Took.bind {m : Run A} {f : A → Run B} {a b n k} (h : Took m a n) (hf : Took (f a) b k) : Took (m.bind f) b (n + k) := by
  obtain ⟨l, rfl, rfl⟩ := h
  obtain ⟨l', h', rfl⟩ := hf
  exact ⟨l ++ l', by rw [M.ok_bind, h']; rfl, by simp⟩

theorem Took.bind_pure {m : Run A} {f : A → Run B} {a b n} (h : Took m a n) (hf : f a = M.pure b) : Took (m.bind f) b n :=
  h.bind (k := 0) (hf ▸ .pure b)

theorem Took.mark {m : Run A} {a n} (h : Took m a n) : Took (M.bind (M.log callMark) fun _ => m) a (n + 1) := by
  rw [Nat.add_comm]
  exact Took.bind (a := ()) (n := 1) ⟨[callMark], rfl, rfl⟩ h

theorem Took.look {p : Parser α} {s : Span} {r n} (h : Took (lim fun k => (step C (cden C) k p).look s) r n) :
    Took (CountedLook C p s) r (n + 1) := by
  rw [CountedLook_eq]; exact h.mark

theorem Took.parse {p : Parser α} {s : Span} {r n} (h : Took (lim fun k => (step C (cden C) k p).parse s) r n) :
    Took (CountedParse C p s) r (n + 1) := by
  rw [CountedParse_eq]; exact h.mark

theorem took_look_allOf {s : Span} (hs : s.Valid C.mem) (a : List α) :
    Took (CountedLook C (.allOf a) s) (if (BasicP.allOf a).accepts C.eqv (s.elems C.mem)
      then R.successVoid (s.drop a.length) else R.failure s) 1 := by
  refine Took.look (n := 0) ?_
  show Took (lim fun _ => lookBasic C (.allOf a) s) _ 0
  rw [lim_const, lookBasic_eq hs]
  exact .pure _

theorem took_look_custom {j : Nat} {s : Span} {r n} (h : Took (CountedLook C (C.custom j).body s) r n) :
    Took (CountedLook C (.custom j) s) r (n + 1) := by
  refine Took.look ?_
  show Took (lim fun _ => CountedLook C (C.custom j).body s) _ _
  rwa [lim_const]

theorem took_look_ignore {p : Parser α} {s : Span} {r n} (h : Took (CountedLook C p s) r n) :
    Took (CountedLook C (.ignore p) s) r (n + 1) := by
  refine Took.look ?_
  show Took (lim fun _ => CountedLook C p s) _ _
  rwa [lim_const]

theorem took_parse_ignore {p : Parser α} {s : Span} {r n} (h : Took (CountedLook C p s) r n) :
    Took (CountedParse C (.ignore p) s) r (n + 1) := by
  refine Took.parse ?_
  show Took (lim fun _ => CountedLook C p s) _ _
  rwa [lim_const]

theorem took_execute {p : Parser α} {t : Ty} {s : Span} {v : Val} {r n} (h : Took (CountedLook C p s) r n) (T : Ty)
    (u c : Bool) : Took (execute C T u c ⟨cden C p, t, none⟩ ⟨s, v⟩) (r.hasValue, ⟨r.rem, v⟩) n :=
  h.bind_pure rfl

/-- both alternatives fail -/
theorem took_look_choice_fail {p q : Parser α} {s : Span} {n k} (hp : Took (CountedLook C p s) (R.failure s) n)
    (hq : Took (CountedLook C q s) (R.failure s) k) :
    Took (CountedLook C (.choice [p, q]) s) (R.failure s) (n + k + 1) := by
  refine Took.look ?_
  show Took (lim fun _ => lookChoice C (choiceTrait (resultsFor C [p, q])) (mkLookElems (cden C) C [p, q]) s) _ _
  rw [lim_const]
  exact Took.bind_pure (Took.bind (took_execute hp _ _ _) (Took.bind_pure (took_execute hq _ _ _) rfl)) rfl

/-- the second alternative succeeds -/
theorem took_look_choice_second {p q : Parser α} {s s' : Span} {n k} (hp : Took (CountedLook C p s) (R.failure s) n)
    (hq : Took (CountedLook C q s) (R.successVoid s') k) :
    Took (CountedLook C (.choice [p, q]) s) (R.successVoid s') (n + k + 1) := by
  refine Took.look ?_
  show Took (lim fun _ => lookChoice C (choiceTrait (resultsFor C [p, q])) (mkLookElems (cden C) C [p, q]) s) _ _
  rw [lim_const]
  exact Took.bind_pure (Took.bind (took_execute hp _ _ _) (Took.bind_pure (took_execute hq _ _ _) rfl)) rfl

/-- the first element fails -/
theorem took_look_sequence_first {p : Parser α} {ps : List (Parser α)} {s : Span} {n}
    (hp : Took (CountedLook C p s) (R.failure s) n) :
    Took (CountedLook C (.sequence (p :: ps)) s) (R.failure s) (n + 1) := by
  refine Took.look ?_
  show Took (lim fun _ => lookSequence C (sequenceTrait (resultsFor C (p :: ps))) (mkLookElems (cden C) C (p :: ps)) s) _ _
  rw [lim_const]
  exact Took.bind_pure (Took.bind_pure (took_execute hp _ _ _) rfl) rfl

/-- the second element fails -/
theorem took_look_sequence_second {p q : Parser α} {ps : List (Parser α)} {s s' : Span} {n k}
    (hp : Took (CountedLook C p s) (R.successVoid s') n) (hq : Took (CountedLook C q s') (R.failure s') k) :
    Took (CountedLook C (.sequence (p :: q :: ps)) s) (R.failure s) (n + k + 1) := by
  refine Took.look ?_
  show Took (lim fun _ => lookSequence C (sequenceTrait (resultsFor C (p :: q :: ps)))
    (mkLookElems (cden C) C (p :: q :: ps)) s) _ _
  rw [lim_const]
  exact Took.bind_pure (Took.bind (took_execute hp _ _ _) (Took.bind_pure (took_execute hq _ _ _) rfl)) rfl

theorem took_look_epsilon (s : Span) : Took (CountedLook C .epsilon s) (R.successVoid s) 1 := by
  refine Took.look (n := 0) ?_
  show Took (lim fun _ => parseEpsilon s) _ _
  rw [lim_const]
  exact .pure _

theorem took_look_zeroOrMore {p : Parser α} {s s' : Span} {n} (h : Took (lookZomLoop (cden C p) s) s' n) :
    Took (CountedLook C (.zeroOrMore p) s) (R.successVoid s') (n + 1) := by
  refine Took.look ?_
  have e : (lim fun k => (step C (cden C) k (.zeroOrMore p)).look s) =
      M.bind (lookZomLoop (cden C p) s) fun x => M.pure (R.successVoid x) :=
    Lim.eq (Lim.bind (lookZomLoop_lim _) fun _ => Lim.const _)
  rw [e]
  exact h.bind_pure rfl

theorem took_zomLoop_stop {p : Parser α} {s : Span} {n} (h : Took (CountedLook C p s) (R.failure s) n) :
    Took (lookZomLoop (cden C p) s) s n := by
  rw [lookZomLoop_eq]
  exact h.bind_pure rfl

theorem took_zomLoop_again {p : Parser α} {s s' t : Span} {n k} (h : Took (CountedLook C p s) (R.successVoid s') n)
    (h' : Took (lookZomLoop (cden C p) s') t k) : Took (lookZomLoop (cden C p) s) t (n + k) := by
  rw [lookZomLoop_eq]
  exact h.bind h'

/-! ### Inputs that repeat an element -/

/-- a readable input that consists of elements equal to `a` -/
structure RunOf (C : Ctx α β) (a : α) (s : Span) : Prop where
  valid : s.Valid C.mem
  eq : ∀ x ∈ s.elems C.mem, C.eqv a x = true

/-- and different from `b` -/
structure RunOfNot (C : Ctx α β) (a b : α) (s : Span) : Prop extends RunOf C a s where
  ne : ∀ x ∈ s.elems C.mem, C.eqv b x = false

theorem RunOf.drop {a : α} {s : Span} (h : RunOf C a s) (hs : 0 < s.len) : RunOf C a (s.drop 1) := by
  have e : (s.drop 1).elems C.mem = (s.elems C.mem).drop 1 := Span.elems_drop ..
  exact ⟨h.valid.drop hs, fun x hx => h.eq x (List.mem_of_mem_drop (e ▸ hx))⟩

theorem RunOfNot.drop {a b : α} {s : Span} (h : RunOfNot C a b s) (hs : 0 < s.len) : RunOfNot C a b (s.drop 1) := by
  have e : (s.drop 1).elems C.mem = (s.elems C.mem).drop 1 := Span.elems_drop ..
  exact ⟨h.toRunOf.drop hs, fun x hx => h.ne x (List.mem_of_mem_drop (e ▸ hx))⟩

theorem RunOf.take {a : α} {s : Span} (h : RunOf C a s) (hs : 0 < s.len) :
    Took (CountedLook C (.allOf [a]) s) (R.successVoid (s.drop 1)) 1 := by
  have := took_look_allOf h.valid [a]
  rwa [if_pos ?_] at this
  have hl := h.valid.elems_length
  cases he : s.elems C.mem with
  | nil => rw [he] at hl; simp at hl; omega
  | cons x xs =>
    have hx := h.eq x (by rw [he]; exact .head _)
    simp [BasicP.accepts, startsWith, hx]

theorem RunOf.none {a : α} {s : Span} (h : RunOf C a s) (hs : s.len = 0) :
    Took (CountedLook C (.allOf [a]) s) (R.failure s) 1 := by
  have := took_look_allOf h.valid [a]
  rwa [if_neg ?_] at this
  have hl := h.valid.elems_length
  cases he : s.elems C.mem with
  | nil => simp [BasicP.accepts, startsWith]
  | cons x xs => rw [he] at hl; simp at hl; omega

theorem RunOfNot.miss {a b : α} {s : Span} (h : RunOfNot C a b s) :
    Took (CountedLook C (.allOf [b]) s) (R.failure s) 1 := by
  have := took_look_allOf h.valid [b]
  rwa [if_neg ?_] at this
  cases he : s.elems C.mem with
  | nil => simp [BasicP.accepts, startsWith]
  | cons x xs =>
    have hx := h.ne x (by rw [he]; exact .head _)
    simp [BasicP.accepts, startsWith, hx]

/-! ### Repetitions in repetitions -/

theorem tower_took (a b : α) (d : Nat) {s : Span} (hs : RunOfNot C a b s) :
    ∃ s' n, RunOfNot C a b s' ∧ Took (CountedLook C (tower a b d) s) (R.successVoid s') n ∧
      (s.len + d).choose d ≤ n := by
  induction d generalizing s with
  | zero => exact ⟨s, 1, hs, took_look_epsilon s, by simp⟩
  | succ d ihd =>
    suffices H : ∀ m (s : Span), RunOfNot C a b s → s.len = m → ∃ s' n, RunOfNot C a b s' ∧
        Took (lookZomLoop (cden C (.choice [.sequence [tower a b d, .ignore (.allOf [b])], .ignore (.allOf [a])])) s) s' n ∧
          (s.len + (d + 1)).choose (d + 1) ≤ n by
      obtain ⟨s', n, h1, h2, h3⟩ := H s.len s hs rfl
      exact ⟨s', n + 1 + 1, h1, took_look_ignore (took_look_zeroOrMore h2), by omega⟩
    intro m
    induction m with
    | zero =>
      intro s hs hm
      obtain ⟨s1, n1, h1, h2, h3⟩ := ihd hs
      have hseq := took_look_sequence_second (ps := []) h2 (took_look_ignore h1.miss)
      refine ⟨s, _, hs, took_zomLoop_stop (took_look_choice_fail hseq (took_look_ignore (hs.none hm))), ?_⟩
      rw [hm, Nat.zero_add, Nat.choose_self]; omega
    | succ m ih =>
      intro s hs hm
      obtain ⟨s1, n1, h1, h2, h3⟩ := ihd hs
      have hseq := took_look_sequence_second (ps := []) h2 (took_look_ignore h1.miss)
      obtain ⟨s', n, h4, h5, h6⟩ := ih (s.drop 1) (hs.drop (by omega)) (by simp; omega)
      refine ⟨s', _, h4, took_zomLoop_again
        (took_look_choice_second hseq (took_look_ignore (hs.take (by omega)))) h5, ?_⟩
      have e : (s.drop 1).len = m := by simp; omega
      rw [e] at h6
      have hp : (m + 1 + (d + 1)).choose (d + 1) = (m + 1 + d).choose d + (m + 1 + d).choose (d + 1) :=
        Nat.choose_succ_succ ..
      have e2 : m + 1 + d = m + (d + 1) := by omega
      rw [hm] at h3 ⊢
      rw [hp]
      rw [← e2] at h6
      omega

theorem pow_le_choose (n d : Nat) : (n + 1) ^ d ≤ d.factorial * (n + d).choose d := by
  rw [← Nat.ascFactorial_eq_factorial_mul_choose]
  exact Nat.pow_succ_le_ascFactorial (n + 1) d

/-! ### A grammar that takes exponentially many calls -/

theorem doubling_took {k : Nat} {a : α} {p q : List (Parser α)}
    (hb : (C.custom k).body = .choice [.sequence (.allOf [a] :: .custom k :: p), .sequence (.allOf [a] :: .custom k :: q)])
    {s : Span} (hs : RunOf C a s) :
    ∃ n, Took (CountedLook C (.custom k) s) (R.failure s) n ∧ 2 ^ s.len ≤ n := by
  suffices H : ∀ m (s : Span), RunOf C a s → s.len = m →
      ∃ n, Took (CountedLook C (.custom k) s) (R.failure s) n ∧ 2 ^ m ≤ n from H s.len s hs rfl
  intro m
  induction m with
  | zero =>
    intro s hs hm
    refine ⟨_, took_look_custom (hb ▸ took_look_choice_fail (took_look_sequence_first (hs.none hm))
      (took_look_sequence_first (hs.none hm))), by omega⟩
  | succ m ih =>
    intro s hs hm
    obtain ⟨n, h1, h2⟩ := ih (s.drop 1) (hs.drop (by omega)) (by simp; omega)
    have hseq : ∀ ps, Took (CountedLook C (.sequence (.allOf [a] :: .custom k :: ps)) s) (R.failure s) (1 + n + 1) :=
      fun ps => took_look_sequence_second (hs.take (by omega)) h1
    refine ⟨_, took_look_custom (hb ▸ took_look_choice_fail (hseq p) (hseq q)), ?_⟩
    rw [Nat.pow_succ]; omega

end Tok3n
