import Verif.Spec.Written
import Verif.Proof.Typing
import Verif.Proof.Agree
/-
Hand-written parser classes: the invariants of the library's parsers hold around them.
-/

namespace Tok3n.Written

variable {α β : Type} {C : Ctx α β} {W : Written}

/-! ### The promises, as the invariants of the proofs -/

theorem Protocol.subGood {S : Sub} (h : Protocol S) : SubGood S := by
  refine ⟨fun s => ?_, fun s => ?_⟩
  · cases hm : S.parse s with
    | diverge => trivial
    | done l r =>
      cases r with
      | err e => trivial
      | ok r =>
        obtain ⟨_ | v, s'⟩ := r
        · cases h.fails s l s' hm; exact .failure s
        · exact ⟨h.consumes s l v s' hm, nofun⟩
  · cases hm : S.look s with
    | diverge => trivial
    | done l r =>
      cases r with
      | err e => trivial
      | ok r =>
        obtain ⟨_ | v, s'⟩ := r
        · cases h.lookFails s l s' hm; exact .failure s
        · exact ⟨h.lookConsumes s l v s' hm, nofun⟩

theorem Quiet.lookQuiet {S : Sub} (h : Quiet C S) : LookQuiet C S := by
  intro s
  cases hm : S.look s with
  | diverge => trivial
  | done l r =>
    cases h.log s l r hm
    cases r with
    | err e => exact ⟨rfl, h.err s _ e hm⟩
    | ok r =>
      obtain ⟨_ | v, s'⟩ := r
      · cases h.lookFails s _ s' hm; exact ⟨rfl, .failure s⟩
      · cases h.value s _ v s' hm; exact ⟨rfl, .successVoid (h.lookConsumes s _ _ s' hm)⟩

theorem Delivers.parseOK {S : Sub} {t : Ty} {loc safe : Prop} (h : Delivers C t S) : ParseOK C loc safe t S := by
  intro s
  cases hm : S.parse s with
  | diverge => trivial
  | done l r =>
    cases r with
    | err e => exact ⟨(h.parseErr s l e hm).1, fun he hv => (h.parseErr s l e hm).2 hv.1 he⟩
    | ok r =>
      obtain ⟨_ | v, s'⟩ := r
      · cases h.fails s l s' hm; exact ⟨.failure s, nofun⟩
      · refine ⟨⟨h.consumes s l v s' hm, nofun⟩, ?_⟩
        rintro w ⟨⟩
        exact ⟨h.hasTy s l v s' hm, fun x hx _ => h.spans s l v s' hm x hx⟩

theorem Truthful.follows {S : Sub} (h : Truthful S) (s : Span) : Follows SameButValue (S.parse s) (S.look s) := by
  cases hm : S.parse s with
  | diverge => exact h.loops s hm
  | done l r =>
    cases r with
    | err e => trivial
    | ok r =>
      obtain ⟨_ | v, s'⟩ := r
      · exact ⟨_, h.failure s l s' hm, rfl, rfl⟩
      · exact ⟨_, h.success s l v s' hm, rfl, rfl⟩

/-! ### The fuel -/

/-- a hand-written class does what it does, other parsers do what they do in the library -/
theorem step_eq (C : Ctx α β) (W : Written) (p : Parser α) :
    (∃ k S, p = .custom k ∧ W k = some S ∧ ∀ rec n, step C W rec n p = S) ∨
    (∀ k S, p = .custom k → W k ≠ some S) ∧ ∀ rec n, step C W rec n p = Tok3n.step C rec n p := by
  cases p with
  | custom k =>
    cases hk : W k with
    | none =>
      refine .inr ⟨?_, fun rec n => ?_⟩
      · rintro j S ⟨⟩ h; rw [hk] at h; cases h
      · show (W k).getD _ = _; rw [hk]; rfl
    | some S => exact .inl ⟨k, S, rfl, hk, fun rec n => by show (W k).getD _ = _; rw [hk]; rfl⟩
  | _ => exact .inr ⟨nofun, fun _ _ => by rw [step]; nofun⟩

/-- what holds of the hand-written classes and is preserved by the library's parsers -/
theorem step_cases (Φ : Parser α → Sub → Prop) {rec : Parser α → Sub} {n : Nat} (p : Parser α)
    (hW : ∀ k S, W k = some S → Φ (.custom k) S) (h : Φ p (Tok3n.step C rec n p)) : Φ p (step C W rec n p) := by
  rcases step_eq C W p with ⟨k, S, rfl, hk, e⟩ | ⟨-, e⟩
  · rw [e]; exact hW k S hk
  · rw [e]; exact h

theorem sem_induct (Φ : Parser α → Sub → Prop) (bot : ∀ p, Φ p ⟨fun _ => M.diverge, fun _ => M.diverge⟩)
    (hW : ∀ k S, W k = some S → Φ (.custom k) S)
    (hstep : ∀ rec k, (∀ q, Φ q (rec q)) → ∀ p, Φ p (Tok3n.step C rec k p)) (n : Nat) (p : Parser α) :
    Φ p (sem C W n p) := by
  induction n generalizing p with
  | zero => exact bot p
  | succ n ih => exact step_cases Φ p hW (hstep _ _ ih p)

theorem step_rec_le {rec rec' : Parser α → Sub} (h : ∀ p, (rec p).le (rec' p)) (k : Nat) (p : Parser α) :
    (step C W rec k p).le (step C W rec' k p) := by
  rcases step_eq C W p with ⟨k, S, rfl, hk, e⟩ | ⟨-, e⟩
  · rw [e, e]; exact Sub.le_refl S
  · rw [e, e]; exact Tok3n.step_rec_le h k p

theorem step_fuel_le (rec : Parser α → Sub) (k : Nat) (p : Parser α) :
    (step C W rec k p).le (step C W rec (k + 1) p) := by
  rcases step_eq C W p with ⟨k, S, rfl, hk, e⟩ | ⟨-, e⟩
  · rw [e, e]; exact Sub.le_refl S
  · rw [e, e]; exact Tok3n.step_fuel_le rec k p

theorem sem_le_succ (n : Nat) (p : Parser α) : (sem C W n p).le (sem C W (n + 1) p) := by
  induction n generalizing p with
  | zero => exact fun s => ⟨M.diverge_le _, M.diverge_le _⟩
  | succ n ih => exact Sub.le_trans (step_rec_le ih n p) (step_fuel_le _ n p)

theorem sem_mono_parse (p : Parser α) (s : Span) : Mono (fun n => (sem C W n p).parse s) :=
  fun n => (sem_le_succ n p s).1
theorem sem_mono_look (p : Parser α) (s : Span) : Mono (fun n => (sem C W n p).look s) :=
  fun n => (sem_le_succ n p s).2

variable (C W) in
/-- `parse` and `lookahead` without fuel -/
noncomputable def den (p : Parser α) : Sub := ⟨Parse C W p, Look C W p⟩

theorem sem_lim (p : Parser α) : SubLim (fun n => sem C W n p) (den C W p) :=
  ⟨fun s => (sem_mono_parse p s).lim, fun s => (sem_mono_look p s).lim⟩

theorem Parse_eq_done {p : Parser α} {s : Span} {l r} :
    Parse C W p s = .done l r ↔ ∃ n, (sem C W n p).parse s = .done l r := ((sem_lim p).parse s).iff l r

theorem Look_eq_done {p : Parser α} {s : Span} {l r} :
    Look C W p s = .done l r ↔ ∃ n, (sem C W n p).look s = .done l r := ((sem_lim p).look s).iff l r

/-! ### The invariants -/

theorem Parse_good (hW : ∀ k S, W k = some S → Protocol S) (p : Parser α) (s : Span) :
    Sat (Parse C W p s) (Good s) anyErr ∧ Sat (Look C W p s) (Good s) anyErr := by
  have h : ∀ n, SubGood (sem C W n p) := fun n =>
    sem_induct (fun _ P => SubGood P) (fun _ => ⟨fun _ => Sat.diverge, fun _ => Sat.diverge⟩)
      (fun k S hk => (hW k S hk).subGood) (fun _ k h p => step_good k h p) n p
  exact ⟨Sat.lim ((sem_lim p).parse s) fun n => (h n).parse s, Sat.lim ((sem_lim p).look s) fun n => (h n).look s⟩

theorem sem_quiet (hW : ∀ k S, W k = some S → Quiet C S) (n : Nat) (p : Parser α) : LookQuiet C (sem C W n p) :=
  sem_induct (fun _ P => LookQuiet C P) (fun _ _ => Tok3n.Quiet.diverge)
    (fun k S hk => (hW k S hk).lookQuiet) (fun _ k h p => step_quiet k h p) n p

theorem Look_quiet (hW : ∀ k S, W k = some S → Quiet C S) (p : Parser α) (s : Span) :
    QuietOnU C (Look C W p s) s := Tok3n.Quiet.lim ((sem_lim p).look s) fun n => sem_quiet hW n p s

theorem Parse_typed [LinearOrder α] {p : Parser α} (hc : Compiles C p) (hT : C.Typed)
    (hW : ∀ k S, W k = some S → Delivers C (C.custom k).ty S) (s : Span) :
    Sat (Parse C W p s) (GoodV (SpanLocal C p) (resultFor C p) s) (OkErr C (JoinSafe C p) s) := by
  have h : ∀ n, TypedSub C p (sem C W n p) := fun n =>
    sem_induct (fun p P => TypedSub C p P) (fun _ => ⟨fun _ => Tok3n.Quiet.diverge, fun _ _ _ => Sat.diverge⟩)
      (fun k S hk => ⟨(hW k S hk).toQuiet.lookQuiet, fun _ _ => (hW k S hk).parseOK⟩)
      (fun _ k h p => step_typed hT hc.ctx.ty hc.ctx.parse k h p) n p
  exact Sat.lim ((sem_lim p).parse s) fun n => (h n).2 hc.ty hc.parse s

/-! ### Lookahead and parse -/

theorem sem_agree (hQ : ∀ k S, W k = some S → Quiet C S) (hT : ∀ k S, W k = some S → Truthful S) (n : Nat)
    (p : Parser α) (hp : Plain C p) : Agree (fun _ => True) (sem C W n p) := by
  induction n generalizing p with
  | zero => exact fun s _ => Follows.diverge
  | succ n ih =>
    intro s hs
    refine Follows.mono ?_ fun r _ h => ⟨h, trivial⟩
    show Follows SameButValue ((step C W (sem C W n) n p).parse s) ((step C W (sem C W n) n p).look s)
    refine step_cases (Φ := fun _ P => Follows SameButValue (P.parse s) (P.look s)) p
      (fun k S hk => (hT k S hk).follows s) ?_
    have hgood : ∀ q, SubGood (sem C W n q) := fun q =>
      sem_induct (fun _ P => SubGood P) (fun _ => ⟨fun _ => Sat.diverge, fun _ => Sat.diverge⟩)
        (fun k S hk => (hQ k S hk).toProtocol.subGood) (fun _ k h p => step_good k h p) n q
    refine step_agree n hgood (sem_quiet hQ n) (fun _ _ => trivial) p (fun hc => ih _ (hp.child hc)) ?_ ?_ s trivial
    · rintro q (rfl | ⟨f, rfl⟩)
      · exact absurd rfl ((hp _ .refl).2.1 q)
      · exact absurd rfl ((hp _ .refl).1 q f)
    · rintro j rfl s _ ⟨l, l', v, s', s'', h1, h2⟩
      refine (hp _ .refl).2.2 j rfl ?_
      replace h2 : parseCustom C (resultFor C (C.custom j).body) (C.custom j).ty (sem C W n (C.custom j).body) s =
        .done l' (.ok ⟨some v, s''⟩) := h2
      simp only [parseCustom, M.bind_eq, h1, M.ok_bind, convertResult] at h2
      split at h2
      · cases h2
      · next hne =>
        refine ⟨hne, ?_⟩
        split at h2
        · cases h2
        · split at h2
          · next hg => rw [hg]; rfl
          · cases h2

theorem Look_follows (hQ : ∀ k S, W k = some S → Quiet C S) (hT : ∀ k S, W k = some S → Truthful S)
    {p : Parser α} (hp : Plain C p) (s : Span) : Follows SameButValue (Parse C W p s) (Look C W p s) :=
  Follows.lim ((sem_lim p).parse s) ((sem_lim p).look s) (sem_mono_parse p s) fun n =>
    (sem_agree hQ hT n p hp s trivial).mono fun _ _ h => h.1

/-! ### What a hand-written class is, and when it can be told from a custom parser -/

theorem den_custom {k : Nat} {S : Sub} (h : W k = some S) : den C W (.custom k) = S := by
  have e : ∀ n, sem C W (n + 1) (.custom k) = S := fun n => by
    show (W k).getD _ = S; rw [h]; rfl
  have h1 : ∀ s, Parse C W (.custom k) s = S.parse s := fun s =>
    (((sem_lim (C := C) (W := W) (.custom k)).parse s).tail).unique (by simp only [e]; exact Lim.const _)
  have h2 : ∀ s, Look C W (.custom k) s = S.look s := fun s =>
    (((sem_lim (C := C) (W := W) (.custom k)).look s).tail).unique (by simp only [e]; exact Lim.const _)
  show Sub.mk _ _ = _
  rw [funext h1, funext h2]

/-- what a parser of the library does is made of what its parts do -/
theorem step_den_le (p : Parser α) (k : Nat) : (step C W (den C W) k p).le (den C W p) := by
  have hl : ∀ k, SubLim (fun n => step C W (sem C W n) k p) (step C W (den C W) k p) := by
    intro k
    rcases step_eq C W p with ⟨k, S, rfl, hk, e⟩ | ⟨-, e⟩
    · simp only [e]; exact SubLim.const S
    · simp only [e]; exact step_lim sem_lim k p
  refine fun s => ⟨?_, ?_⟩
  · have := Lim.diag (a := fun n k => (step C W (sem C W n) k p).parse s) (fun k => (hl k).parse s)
      fun n k => (step_fuel_le _ k p s).1
    rw [show (den C W p).parse s = _ from (((sem_lim p).parse s).tail).unique this]
    refine (Mono.lim (m := fun k => (step C W (den C W) k p).parse s) fun k => ?_).le k
    exact (step_fuel_le _ k p s).1
  · have := Lim.diag (a := fun n k => (step C W (sem C W n) k p).look s) (fun k => (hl k).look s)
      fun n k => (step_fuel_le _ k p s).2
    rw [show (den C W p).look s = _ from (((sem_lim p).look s).tail).unique this]
    refine (Mono.lim (m := fun k => (step C W (den C W) k p).look s) fun k => ?_).le k
    exact (step_fuel_le _ k p s).2

/-- no hand-written classes: the library -/
theorem sem_none (n : Nat) (p : Parser α) : sem C (fun _ => none) n p = Tok3n.sem C n p := by
  induction n generalizing p with
  | zero => rfl
  | succ n ih =>
    show step C (fun _ => none) (sem C (fun _ => none) n) n p = Tok3n.step C (Tok3n.sem C n) n p
    rw [show sem C (fun _ => none) n = Tok3n.sem C n from funext ih]
    rcases step_eq C (fun _ => none) p with ⟨k, S, rfl, hk, e⟩ | ⟨-, e⟩
    · cases hk
    · exact e _ _

theorem den_none (p : Parser α) : den C (fun _ => none) p = Tok3n.den C p := by
  have h1 : Parse C (fun _ => none) p = Tok3n.Parse C p := funext fun s => congrArg lim (funext fun n => by rw [sem_none])
  have h2 : Look C (fun _ => none) p = Tok3n.Look C p := funext fun s => congrArg lim (funext fun n => by rw [sem_none])
  show Sub.mk _ _ = Sub.mk _ _
  rw [h1, h2]

/-- exchanging hand-written classes for others that do the same, or for custom parsers that do the same -/
theorem den_le {W' : Written} (hW : ∀ k S, W k = some S → S.le (den C W' (.custom k)))
    (hW' : ∀ k S, W' k = some S → W k = none → (Tok3n.step C (den C W') 0 (.custom k)).le S) (n : Nat) (p : Parser α) :
    (sem C W n p).le (den C W' p) := by
  induction n generalizing p with
  | zero => exact fun s => ⟨M.diverge_le _, M.diverge_le _⟩
  | succ n ih =>
    refine Sub.le_trans (step_rec_le ih n p) ?_
    rcases step_eq C W p with ⟨k, S, rfl, hk, e⟩ | ⟨hn, e⟩
    · rw [e]; exact hW k S hk
    · rw [e]
      rcases step_eq C W' p with ⟨k, S, rfl, hk, e'⟩ | ⟨-, e'⟩
      · rw [den_custom hk]
        refine hW' k S hk ?_
        cases h : W k with
        | none => rfl
        | some S => exact absurd h (hn k S rfl)
      · rw [← e']; exact step_den_le p n

theorem den_le_of {W' : Written} {p : Parser α} (h : ∀ n, (sem C W n p).le (den C W' p)) :
    (den C W p).le (den C W' p) := by
  refine fun s => ⟨fun hs => ?_, fun hs => ?_⟩
  · cases hm : (den C W p).parse s with
    | diverge => exact absurd hm hs
    | done l r =>
      obtain ⟨n, hn⟩ := Parse_eq_done.1 hm
      exact ((h n s).1 (by rw [hn]; nofun)).trans hn
  · cases hm : (den C W p).look s with
    | diverge => exact absurd hm hs
    | done l r =>
      obtain ⟨n, hn⟩ := Look_eq_done.1 hm
      exact ((h n s).2 (by rw [hn]; nofun)).trans hn

/-- a hand-written class that does what a custom parser does -/
theorem den_same (hW : ∀ k S, W k = some S → S = Tok3n.den C (.custom k)) (p : Parser α) :
    den C W p = Tok3n.den C p := by
  have le : ∀ p, (den C W p).le (den C (fun _ => none) p) := fun p =>
    den_le_of fun n => den_le (W := W) (W' := fun _ => none) (fun k S hk => by rw [hW k S hk, den_none]; exact Sub.le_refl _)
      (fun _ _ h => by cases h) n p
  have ge : ∀ p, (den C (fun _ => none) p).le (den C W p) := fun p =>
    den_le_of fun n => den_le (W := fun _ => none) (W' := W) (fun _ _ h => by cases h) (fun k S hk _ => by
      refine Sub.le_trans (Tok3n.step_rec_le le 0 _) ?_
      rw [hW k S hk, ← den_none]
      have h := step_den_le (C := C) (W := fun _ => none) (.custom k) 0
      exact h) n p
  rw [← den_none]
  refine congrArg₂ Sub.mk (funext fun s => ?_) (funext fun s => ?_)
  · exact M.le_antisymm (le p s).1 (ge p s).1
  · exact M.le_antisymm (le p s).2 (ge p s).2

end Tok3n.Written
