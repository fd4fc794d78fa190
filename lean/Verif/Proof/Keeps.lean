import Verif.Proof.Join
import Verif.Proof.Compound
import Verif.Proof.Verdict
import Verif.Proof.Sequence
import Verif.Proof.Nullable
import Verif.Spec.Keeps
/-
What a parser that drops nothing returns covers what it consumed.
-/

namespace Tok3n

variable {α β : Type} {C : Ctx α β}

theorem Span.Advanced.zero {s s' : Span} (h : s.Advanced 0 s') : s' = s := by
  obtain ⟨h1, h2⟩ := h
  obtain ⟨p, n⟩ := s
  obtain ⟨p', n'⟩ := s'
  rcases h2 with ⟨_, h2⟩ | ⟨b, o, h2, h3⟩
  · simp only at h1 h2; subst h2; simp at h1; subst h1; rfl
  · simp only at h1 h2 h3; subst h2 h3; simp at h1; subst h1; rfl

theorem Tiles.nil_eq {s s' : Span} (h : Tiles s [] s') : s' = s := by cases h; rfl

theorem Tiles.append {s s1 s2 : Span} {xs ys : List Span} (h : Tiles s xs s1) (h' : Tiles s1 ys s2) :
    Tiles s (xs ++ ys) s2 := by
  induction h with
  | nil => exact h'
  | cons e a _ ih => exact .cons e a (ih h')

theorem Tiles.advanced {s s' : Span} {xs : List Span} (h : Tiles s xs s') :
    s.Advanced (xs.map Span.len).sum s' := by
  induction h with
  | nil => exact .refl _
  | cons _ a _ ih => simpa using a.trans ih

/-- one span is a tiling, unless it is empty -/
theorem Tiles.single {s s' : Span} {k : Nat} (h : s.Advanced k s') : Tiles s (nonEmpty [⟨s.ptr, k⟩]) s' := by
  by_cases hk : k = 0
  · subst hk; rw [h.zero]; exact .nil
  · have : nonEmpty [⟨s.ptr, k⟩] = [(⟨s.ptr, k⟩ : Span)] := by simp [nonEmpty, hk]
    rw [this]; exact .cons rfl h .nil

theorem nonEmpty_append (xs ys : List Span) : nonEmpty (xs ++ ys) = nonEmpty xs ++ nonEmpty ys := List.filter_append ..

theorem nonEmpty_nil_of {xs : List Span} (h : ∀ x ∈ xs, x = Span.default) : nonEmpty xs = [] := by
  rw [nonEmpty, List.filter_eq_nil_iff]
  intro x hx; rw [h x hx]; simp [Span.default]

/-- contiguous spans: what `join` looks at -/
theorem Tiles.contiguous {s s' : Span} {xs : List Span} (h : Tiles s xs s') (hne : ∀ x ∈ xs, x.len ≠ 0) :
    Contiguous xs ∧ cover s' xs = ⟨s.ptr, (xs.map Span.len).sum⟩ := by
  induction h with
  | nil => exact ⟨trivial, rfl⟩
  | @cons s x s1 xs s' e a ht ih =>
    have ih := ih fun y hy => hne y (List.mem_cons_of_mem _ hy)
    refine ⟨?_, ?_⟩
    · cases ht with
      | nil => exact trivial
      | @cons _ y s2 ys _ e' a' ht' =>
        refine ⟨?_, ih.1⟩
        rcases a.start with ⟨h0, _⟩ | ⟨b, o, h1, h2⟩
        · exact absurd h0 (hne x List.mem_cons_self)
        · exact ⟨b, o, by rw [e, h1], by rw [e', h2]⟩
    · simp [cover, e]

section
variable (C)

/-- what parsing keeps -/
def ParseKeeps (P : Sub) : Prop := ∀ s, s.Valid C.mem →
  Sat (P.parse s) (fun r => ∀ v, r.val = some v → Tiles s (nonEmpty v.spans) r.rem) anyErr

/-- without a value nothing is consumed -/
def LookStays (P : Sub) : Prop := ∀ s, s.Valid C.mem →
  Sat (P.look s) (fun r => r.val.isSome = true → r.rem = s) anyErr

def KeptSub (p : Parser α) (P : Sub) : Prop :=
  TypedSub C p P ∧ SubGood P ∧ (KeepsAll C p → resultFor C p = .void → LookStays C P) ∧
    (KeepsAll C p → tyOK C p = true → parseOK C p = true → ParseKeeps C P)
end

theorem KeepsAll.child {p q : Parser α} (h : KeepsAll C p) (hc : ParseChild C p q) : KeepsAll C q :=
  fun r hr => h r (.step hc hr)

section
variable {P : Sub}

/-- the value of a parser without a value -/
theorem ParseKeeps.void (h : ParseKeeps C P) {loc safe : Prop} (ht : ParseOK C loc safe .void P) {s : Span}
    (hs : s.Valid C.mem) :
    Sat (P.parse s) (fun r => ∀ v, r.val = some v → v = .unit ∧ r.rem = s) anyErr := by
  refine (Sat.and (h s hs) (ht s)).mono (fun r hr v hv => ?_) fun _ _ => trivial
  have hu : v = .unit := (hr.2.val v hv).ty
  subst hu
  exact ⟨rfl, (hr.1 _ hv).nil_eq⟩

theorem lookStays_firstOf {s : Span} {ms : List (Run R)} {Q : R → Prop} (hn : Q ⟨none, s⟩)
    (h : ∀ m ∈ ms, Sat m Q anyErr) : Sat (firstOf s ms) Q anyErr := by
  induction ms with
  | nil => exact Sat.pure hn
  | cons m ms ih =>
    refine Sat.bind (h m List.mem_cons_self) fun r hr => Sat.ite (fun _ => Sat.pure hr) fun _ => ?_
    exact ih fun m hm => h m (List.mem_cons_of_mem _ hm)

theorem stays_look (h : LookStays C P) (hg : SubGood P) {s : Span} (hs : s.Valid C.mem) :
    Sat (P.look s) (fun r => r.rem = s) anyErr := by
  refine (Sat.and (h s hs) (hg.look s)).mono (fun r hr => ?_) fun _ _ => trivial
  cases hv : r.val with
  | none => exact hr.2.fail hv
  | some v => exact hr.1 (by rw [hv]; rfl)

theorem foldOr_stays {T : Ty} {u c : Bool} {es : List Elem} (hes : ∀ e ∈ es, e.idx = none ∧ LookStays C e.sub ∧ SubGood e.sub)
    (st : Exec) (hs : st.input.Valid C.mem) :
    Sat (foldOr (execute C T u c) es st) (fun x => x.1 = true → x.2.input = st.input) anyErr := by
  induction es generalizing st with
  | nil => exact Sat.pure nofun
  | cons e es ih =>
    obtain ⟨hi, hl, hg⟩ := hes e List.mem_cons_self
    obtain ⟨P, t, i⟩ := e
    simp only at hi; subst hi
    refine Sat.bind (Q := fun x => x.2.input = st.input) ?_ fun ⟨ok, st'⟩ hx => Sat.ite (fun _ => Sat.pure fun _ => hx) fun _ => ?_
    · exact Sat.bind (stays_look hl hg hs) fun r hr => Sat.pure hr
    · have hx : st'.input = st.input := hx
      refine (ih (fun e he => hes e (List.mem_cons_of_mem _ he)) st' (hx ▸ hs)).post fun y hy ht => ?_
      rw [hy ht, hx]

theorem foldAnd_stays {T : Ty} {u c : Bool} {es : List Elem} (hes : ∀ e ∈ es, e.idx = none ∧ LookStays C e.sub ∧ SubGood e.sub)
    (st : Exec) (hs : st.input.Valid C.mem) :
    Sat (foldAnd (execute C T u c) es st) (fun x => x.1 = true → x.2.input = st.input) anyErr := by
  induction es generalizing st with
  | nil => exact Sat.pure fun _ => rfl
  | cons e es ih =>
    obtain ⟨hi, hl, hg⟩ := hes e List.mem_cons_self
    obtain ⟨P, t, i⟩ := e
    simp only at hi; subst hi
    refine Sat.bind (Q := fun x => x.2.input = st.input) ?_ fun ⟨ok, st'⟩ hx => Sat.ite (fun _ => ?_) fun _ => Sat.pure nofun
    · exact Sat.bind (stays_look hl hg hs) fun r hr => Sat.pure hr
    · have hx : st'.input = st.input := hx
      refine (ih (fun e he => hes e (List.mem_cons_of_mem _ he)) st' (hx ▸ hs)).post fun y hy ht => ?_
      rw [hy ht, hx]

theorem lookExactlyLoop_stays (h : LookStays C P) (o : Span) (n : Nat) (s : Span) (hs : s.Valid C.mem) :
    Sat (lookExactlyLoop P o n s) (fun r => r.val.isSome = true → r.rem = s) anyErr := by
  induction n generalizing s with
  | zero => exact Sat.pure fun _ => rfl
  | succ n ih =>
    refine Sat.bind (h s hs) fun r hr => Sat.ite (fun _ => Sat.pure nofun) fun hv => ?_
    have : r.rem = s := hr (R.some_of hv)
    rw [this]; exact ih s hs

theorem lookOneOrMoreLoop_stays (h : LookStays C P) (hg : SubGood P) (n : Nat) (b : Bool) (s : Span) (hs : s.Valid C.mem) :
    Sat (lookOneOrMoreLoop P n b s) (fun x => x.2 = s) anyErr := by
  induction n generalizing b s with
  | zero => exact Sat.diverge
  | succ n ih =>
    refine Sat.bind (stays_look h hg hs) fun r hr => ?_
    have hr : r.rem = s := hr
    refine Sat.ite (fun _ => Sat.pure hr) fun hv => ?_
    rw [hr]; exact ih _ s hs

theorem lookZeroOrMoreLoop_stays (h : LookStays C P) (hg : SubGood P) (n : Nat) (s : Span) (hs : s.Valid C.mem) :
    Sat (lookZeroOrMoreLoop P n s) (fun x => x = s) anyErr := by
  induction n generalizing s with
  | zero => exact Sat.diverge
  | succ n ih =>
    refine Sat.bind (stays_look h hg hs) fun r hr => ?_
    have hr : r.rem = s := hr
    refine Sat.ite (fun _ => Sat.pure hr) fun hv => ?_
    rw [hr]; exact ih s hs

/-! ### Loops -/

/-- the child's value and the builder's type fit: no value, or a value that covers what was consumed -/
def ChildKeeps (C : Ctx α β) (T : Ty) (P : Sub) : Prop := ∀ s, s.Valid C.mem →
  Sat (P.parse s) (fun r => r.rem.SuffixOf s ∧ (r.val = none → r.rem = s) ∧
    ∀ w, r.val = some w → Tiles s (nonEmpty w.spans) r.rem ∧ (T = .void → w.spans = [])) anyErr

theorem builderInsertBack_spans {T : Ty} {v v' : Val} {r : R} {w : Val} {l} (hw : r.val = some w)
    (hT : T = .void → w.spans = []) (h : builderInsertBack T v r = .done l (.ok v')) :
    v'.spans = v.spans ++ w.spans := by
  unfold builderInsertBack at h
  split at h
  · next ht => simp only [M.pure_eq_ok] at h; rw [h.2, hT ht, List.append_nil]
  · cases v with
    | vec vs =>
      simp only [R.deref, hw, M.bind_eq, M.pure_bind, M.pure_eq_ok] at h
      rw [h.2]; simp [Val.spans, spansList_append, spansList]
    | _ => cases h

theorem zeroOrMoreLoop_keeps {T : Ty} (hP : ChildKeeps C T P) (o : Span) (n : Nat) (s : Span) (hs : s.Valid C.mem) (v : Val)
    (hv : Tiles o (nonEmpty v.spans) s) (h0 : T = .void → v.spans = []) :
    Sat (zeroOrMoreLoop T P n s v) (fun x => Tiles o (nonEmpty x.2.spans) x.1 ∧ (T = .void → x.2.spans = [])) anyErr := by
  induction n generalizing s v with
  | zero => exact Sat.diverge
  | succ n ih =>
    refine Sat.bind (hP s hs) fun r hr => Sat.ite (fun hn => Sat.pure ?_) fun hn => ?_
    · have : r.rem = s := hr.2.1 (by simpa [R.hasValue] using hn)
      show Tiles o (nonEmpty v.spans) r.rem ∧ _
      rw [this]; exact ⟨hv, h0⟩
    · obtain ⟨w, hw⟩ := Option.isSome_iff_exists.1 (R.some_of hn)
      refine Sat.bind (Q := fun v' => v'.spans = v.spans ++ w.spans)
        (Sat.intro (fun l a ha => builderInsertBack_spans hw (hr.2.2 w hw).2 ha) fun _ _ _ => trivial) fun v' hv' => ?_
      refine ih r.rem (hr.1.valid hs) v' ?_ fun h => by rw [hv', h0 h, (hr.2.2 w hw).2 h]; rfl
      rw [hv', nonEmpty_append]
      exact hv.append (hr.2.2 w hw).1

theorem oneOrMoreLoop_keeps {T : Ty} (hP : ChildKeeps C T P) (o : Span) (n : Nat) (b : Bool) (s : Span) (hs : s.Valid C.mem) (v : Val)
    (hv : Tiles o (nonEmpty v.spans) s) (h0 : T = .void → v.spans = []) :
    Sat (oneOrMoreLoop T P n b s v) (fun x => Tiles o (nonEmpty x.2.2.spans) x.2.1 ∧ (T = .void → x.2.2.spans = [])) anyErr := by
  induction n generalizing b s v with
  | zero => exact Sat.diverge
  | succ n ih =>
    refine Sat.bind (hP s hs) fun r hr => Sat.ite (fun hn => Sat.pure ?_) fun hn => ?_
    · have : r.rem = s := hr.2.1 (by simpa [R.hasValue] using hn)
      show Tiles o (nonEmpty v.spans) r.rem ∧ _
      rw [this]; exact ⟨hv, h0⟩
    · obtain ⟨w, hw⟩ := Option.isSome_iff_exists.1 (R.some_of hn)
      refine Sat.bind (Q := fun v' => v'.spans = v.spans ++ w.spans)
        (Sat.intro (fun l a ha => builderInsertBack_spans hw (hr.2.2 w hw).2 ha) fun _ _ _ => trivial) fun v' hv' => ?_
      refine ih _ r.rem (hr.1.valid hs) v' ?_ fun h => by rw [hv', h0 h, (hr.2.2 w hw).2 h]; rfl
      rw [hv', nonEmpty_append]
      exact hv.append (hr.2.2 w hw).1

/-- the spans of an array filled up to place `i` -/
def Filled (i : Nat) (v : Val) (xs : List Span) : Prop :=
  (v.spans = [] ∧ xs = []) ∨ ∃ vs, v = .arr vs ∧ nonEmpty (spansList (vs.take i)) = xs ∧ nonEmpty (spansList (vs.drop i)) = []

theorem Filled.spans {i : Nat} {v : Val} {xs : List Span} (h : Filled i v xs) : nonEmpty v.spans = xs := by
  rcases h with ⟨h, rfl⟩ | ⟨vs, rfl, rfl, h⟩
  · rw [h]; rfl
  · have : spansList vs = spansList (vs.take i) ++ spansList (vs.drop i) := by
      rw [← spansList_append, List.take_append_drop]
    rw [Val.spans, this, nonEmpty_append, h, List.append_nil]

theorem builderArrayAssign_filled {T : Ty} {v v' : Val} {r : R} {w : Val} {i : Nat} {xs : List Span} {l} (hw : r.val = some w)
    (hT : T = .void → w.spans = [] ∧ v = .unit) (hf : Filled i v xs) (h : builderArrayAssign T v i r = .done l (.ok v')) :
    Filled (i + 1) v' (xs ++ nonEmpty w.spans) ∧ (T = .void → v' = .unit) := by
  unfold builderArrayAssign at h
  split at h
  · next ht =>
    simp only [M.pure_eq_ok] at h
    obtain ⟨h1, h2⟩ := hT ht
    subst h2
    rcases hf with ⟨_, rfl⟩ | ⟨vs, h, _⟩
    · rw [h.2, h1]; exact ⟨.inl ⟨rfl, rfl⟩, fun _ => rfl⟩
    · cases h
  · next ht =>
    cases v with
    | arr vs =>
      simp only [R.deref, hw, M.bind_eq, M.pure_bind] at h
      split at h
      · next hi =>
        simp only [M.pure_eq_ok] at h
        rw [h.2]
        refine ⟨.inr ⟨_, rfl, ?_, ?_⟩, fun h => absurd h ht⟩
        · have ht : (vs.set i w).take (i + 1) = vs.take i ++ [w] := by
            rw [List.take_succ_eq_append_getElem (by simpa using hi), List.take_set_of_le (Nat.le_refl _)]
            simp
          rw [ht, spansList_append, nonEmpty_append]
          congr 1
          · rcases hf with ⟨h, rfl⟩ | ⟨vs', h, h1, _⟩
            · have : spansList vs = spansList (vs.take i) ++ spansList (vs.drop i) := by
                rw [← spansList_append, List.take_append_drop]
              rw [Val.spans, this, List.append_eq_nil_iff] at h
              rw [h.1]; rfl
            · cases h; exact h1
          · simp [spansList]
        · rw [List.drop_set_of_lt (by omega)]
          have hd : vs.drop i = vs[i] :: vs.drop (i + 1) := (List.cons_getElem_drop_succ).symm
          have h0 : nonEmpty (spansList (vs.drop i)) = [] := by
            rcases hf with ⟨h, rfl⟩ | ⟨vs', h, _, h1⟩
            · have : spansList vs = spansList (vs.take i) ++ spansList (vs.drop i) := by
                rw [← spansList_append, List.take_append_drop]
              rw [Val.spans, this, List.append_eq_nil_iff] at h
              rw [h.2]; rfl
            · cases h; exact h1
          rw [hd, spansList, nonEmpty_append, List.append_eq_nil_iff] at h0
          exact h0.2
      · cases h
    | _ => cases h

theorem exactlyLoop_keeps {T : Ty} (hP : ChildKeeps C T P) (o o' : Span) (n i : Nat) (s : Span) (hs : s.Valid C.mem) (v : Val)
    {xs : List Span} (hf : Filled i v xs) (ht : T = .void → v = .unit) (hv : Tiles o xs s) :
    Sat (exactlyLoop T P o' n i s v) (fun r => ∀ w, r.val = some w → Tiles o (nonEmpty w.spans) r.rem) anyErr := by
  induction n generalizing i s v xs with
  | zero =>
    refine Sat.pure ?_
    unfold builderBuild
    split
    · next h =>
      rintro w ⟨⟩
      have := ht h; subst this
      have e := hf.spans; rw [Val.spans] at e ⊢; rw [e]; exact hv
    · rintro w ⟨⟩; rw [hf.spans]; exact hv
  | succ n ih =>
    refine Sat.bind (hP s hs) fun r hr => Sat.ite (fun _ => Sat.pure nofun) fun hn => ?_
    obtain ⟨w, hw⟩ := Option.isSome_iff_exists.1 (R.some_of hn)
    refine Sat.bind (Q := fun v' => Filled (i + 1) v' (xs ++ nonEmpty w.spans) ∧ (T = .void → v' = .unit))
      (Sat.intro (fun l a ha => builderArrayAssign_filled hw (fun h => ⟨(hr.2.2 w hw).2 h, ht h⟩) hf ha)
        fun _ _ _ => trivial) fun v' hv' => ?_
    exact ih (i + 1) r.rem (hr.1.valid hs) v' hv'.1 hv'.2 (hv.append (hr.2.2 w hw).1)

theorem build_keeps {T : Ty} {v : Val} {o s : Span} (hv : Tiles o (nonEmpty v.spans) s) (ht : T = .void → v.spans = []) :
    ∀ w, (builderBuild T v s).val = some w → Tiles o (nonEmpty w.spans) (builderBuild T v s).rem := by
  unfold builderBuild
  split
  · next h => rintro w ⟨⟩; rw [ht h] at hv; exact hv
  · rintro w ⟨⟩; exact hv

end

/-! ### Types without user types -/

theorem allStandard_iff {ts : List Ty} : allStandard ts = true ↔ ∀ t ∈ ts, t.standard = true := by
  induction ts with
  | nil => simp [allStandard]
  | cons t ts ih => simp [allStandard, ih]

theorem standard_distinct {ts : List Ty} (h : ∀ t ∈ ts, t.standard = true) : (choiceType ts).standard = true := by
  have hd : ∀ t ∈ distinct ts, t.standard = true := fun t ht => h t ((mem_distinct _ _).1 ht).1
  unfold choiceType
  split
  · rfl
  · next e => exact hd _ (by rw [e]; simp)
  · rw [Ty.standard]; exact allStandard_iff.2 hd

theorem standard_sequence {ts : List Ty} (h : ∀ t ∈ ts, t.standard = true) : (sequenceType ts).standard = true := by
  have hd : ∀ t ∈ ts.filter (· ≠ .void), t.standard = true := fun t ht => h t (List.mem_filter.1 ht).1
  unfold sequenceType tupleType
  split
  · rfl
  · next e => exact hd _ (by rw [e]; simp)
  · rw [Ty.standard]; exact allStandard_iff.2 hd

theorem standard_voidOr {f : Ty → Ty} {t : Ty} (hf : t.standard = true → (f t).standard = true) (h : t.standard = true) :
    (voidOr f t).standard = true := by
  unfold voidOr; split
  · rfl
  · exact hf h

mutual
theorem KeepsAll.standard : ∀ (p : Parser α), KeepsAll C p → (resultFor C p).standard = true
  | .anyOf _, _ | .noneOf _, _ | .allOf _, _ | .anything, _ | .join _, _ => by rw [resultFor]; rfl
  | .epsilon, _ => by rw [resultFor]; rfl
  | .choice ps, h => by
    rw [resultFor, choiceTrait_ty]
    exact standard_distinct (allStandard_iff.1 (KeepsAll.standards ps fun q hq => h.child (.choice hq)))
  | .sequence ps, h => by
    rw [resultFor, sequenceTrait_ty]
    exact standard_sequence (allStandard_iff.1 (KeepsAll.standards ps fun q hq => h.child (.sequence hq)))
  | .maybe p, h => by rw [resultFor]; exact standard_voidOr id (KeepsAll.standard p (h.child .maybe))
  | .exactly p n, h => by rw [resultFor]; exact standard_voidOr (f := (.arr · n)) id (KeepsAll.standard p (h.child .exactly))
  | .oneOrMore p, h => by rw [resultFor]; exact standard_voidOr id (KeepsAll.standard p (h.child .oneOrMore))
  | .zeroOrMore p, h => by rw [resultFor]; exact standard_voidOr id (KeepsAll.standard p (h.child .zeroOrMore))
  | .delimit p d, h => (h _ .refl).elim
  | .ignore p, h => (h _ .refl).elim
  | .complete p, h => by rw [resultFor]; exact KeepsAll.standard p (h.child .complete)
  | .map p f, h => (h _ .refl).elim
  | .filter p f, h => by rw [resultFor]; exact KeepsAll.standard p (h.child .filter)
  | .named p n, h => by rw [resultFor]; exact KeepsAll.standard p (h.child .named)
  | .custom k, h => by rw [resultFor]; exact (h _ .refl).2
theorem KeepsAll.standards : ∀ (ps : List (Parser α)), (∀ q ∈ ps, KeepsAll C q) → allStandard (resultsFor C ps) = true
  | [], _ => rfl
  | p :: ps, h => by
    rw [resultsFor, allStandard, Bool.and_eq_true]
    exact ⟨KeepsAll.standard p (h _ List.mem_cons_self),
      KeepsAll.standards ps (fun q hq => h q (List.mem_cons_of_mem _ hq))⟩
end

mutual
theorem joinLeaves_standard : ∀ (t : Ty) (v : Val), t.standard = true → joinable C t = true → HasTy t v → joinLeaves C v = v.spans
  | .span, _, _, _, ⟨s, rfl⟩ => rfl
  | .vec t, _, hs, hj, ⟨vs, rfl, h⟩ => by
    simp only [Ty.standard, joinable] at hs hj
    simp only [joinLeaves, Val.spans]
    exact joinLeavesList_all vs fun w hw => joinLeaves_standard t w hs hj (h w hw)
  | .arr t _, _, hs, hj, ⟨vs, rfl, _, h⟩ => by
    simp only [Ty.standard, joinable] at hs hj
    simp only [joinLeaves, Val.spans]
    exact joinLeavesList_all vs fun w hw => joinLeaves_standard t w hs hj (h w hw)
  | .opt t, _, hs, hj, .inl rfl => rfl
  | .opt t, _, hs, hj, .inr ⟨w, rfl, h⟩ => by
    simp only [Ty.standard, joinable] at hs hj
    simp only [joinLeaves, Val.spans]
    exact joinLeaves_standard t w hs hj h
  | .tup ts, _, hs, hj, ⟨vs, rfl, h⟩ => by
    simp only [Ty.standard, joinable, Bool.and_eq_true] at hs hj
    simp only [joinLeaves, Val.spans]
    exact joinLeavesList_standard ts vs hs hj.2 h
  | .void, _, _, hj, _ => by simp [joinable] at hj
  | .var _, _, _, hj, _ => by simp [joinable] at hj
  | .pair _ _, _, _, hj, _ => by simp [joinable] at hj
  | .user _, _, hs, _, _ => by simp [Ty.standard] at hs
theorem joinLeavesList_standard : ∀ (ts : List Ty) (vs : List Val), allStandard ts = true → joinable.joinables C ts = true →
    HasTys ts vs → joinLeavesList C vs = spansList vs
  | [], _, _, _, h => by cases h; rfl
  | t :: ts, _, hs, hj, ⟨w, ws, rfl, h1, h2⟩ => by
    simp only [allStandard, joinable.joinables, Bool.and_eq_true] at hs hj
    simp only [joinLeavesList, spansList]
    rw [joinLeaves_standard t w hs.1 hj.1 h1, joinLeavesList_standard ts ws hs.2 hj.2 h2]
theorem joinLeavesList_all : ∀ (vs : List Val), (∀ w ∈ vs, joinLeaves C w = w.spans) → joinLeavesList C vs = spansList vs
  | [], _ => rfl
  | v :: vs, h => by
    simp only [joinLeavesList, spansList]
    rw [h v List.mem_cons_self, joinLeavesList_all vs fun w hw => h w (List.mem_cons_of_mem _ hw)]
end

/-! ### The induction -/

theorem childKeeps {P : Sub} {T t : Ty} {loc safe : Prop} (hk : ParseKeeps C P) (hg : SubGood P)
    (ht : ParseOK C loc safe t P) (hT : T = .void → t = .void) : ChildKeeps C T P := by
  intro s hs
  refine (Sat.and (Sat.and (hk s hs) (hg.parse s)) (ht s)).mono (fun r hr => ?_) fun _ _ => trivial
  refine ⟨hr.1.2.suffix, hr.1.2.fail, fun w hw => ⟨hr.1.1 w hw, fun h => ?_⟩⟩
  have := (hr.2.val w hw).ty
  rw [hT h] at this
  have hu : w = .unit := this
  rw [hu]; rfl

theorem voidOr_void {f : Ty → Ty} {t : Ty} (hf : f t ≠ .void) (h : voidOr f t = .void) : t = .void := by
  unfold voidOr at h; split at h
  · assumption
  · exact absurd h hf

theorem init_sat (hL : C.Local) (T : Ty) :
    Sat (builderInit C T : Run Val) (fun v => nonEmpty v.spans = [] ∧ (T = .void → v = .unit) ∧ defaultVal C T = some v) anyErr := by
  unfold builderInit
  cases h : defaultVal C T with
  | none => exact Sat.fail trivial
  | some v =>
    refine Sat.pure ⟨nonEmpty_nil_of (defaultVal_spans hL T v h), fun ht => ?_, rfl⟩
    rw [ht, defaultVal] at h; exact (Option.some.inj h).symm

theorem inOrder_keeps {rec : Parser α → Sub} (ps : List (Parser α))
    (hg : ∀ q, SubGood (rec q))
    (hl : ∀ q ∈ ps, resultFor C q = .void → LookStays C (rec q))
    (hp : ∀ q ∈ ps, resultFor C q ≠ .void → ParseKeeps C (rec q)) (s : Span) (hs : s.Valid C.mem) :
    Sat (inOrder (ps.map (partOf rec C)) s)
      (fun x => ∀ y, x = some y → Tiles s (nonEmpty (spansList (withValue (resultsFor C ps) y.1))) y.2) anyErr := by
  induction ps generalizing s with
  | nil =>
    refine Sat.pure ?_
    rintro y ⟨⟩
    exact .nil
  | cons p ps ih =>
    have ih := ih (fun q hq => hl q (List.mem_cons_of_mem _ hq)) fun q hq => hp q (List.mem_cons_of_mem _ hq)
    simp only [List.map_cons, inOrder]
    have hpart : Sat (partOf rec C p s) (fun r => r.rem.SuffixOf s ∧ ∀ v, r.val = some v →
        Tiles s (if resultFor C p = .void then [] else nonEmpty v.spans) r.rem) anyErr := by
      unfold partOf
      by_cases hv : resultFor C p = .void
      · rw [if_pos hv]
        refine (Sat.and (hl p List.mem_cons_self hv s hs) ((hg p).look s)).mono (fun r hr => ?_) fun _ _ => trivial
        refine ⟨hr.2.suffix, fun v h => ?_⟩
        rw [if_pos hv, hr.1 (by rw [h]; rfl)]; exact .nil
      · rw [if_neg hv]
        refine (Sat.and (hp p List.mem_cons_self hv s hs) ((hg p).parse s)).mono (fun r hr => ?_) fun _ _ => trivial
        refine ⟨hr.2.suffix, fun v h => ?_⟩
        rw [if_neg hv]; exact hr.1 v h
    refine Sat.bind hpart fun r hr => ?_
    obtain ⟨rv, rr⟩ := r
    cases rv with
    | none => exact Sat.pure nofun
    | some v =>
      refine Sat.bind (ih rr (hr.1.valid hs)) fun x hx => Sat.pure ?_
      rintro y hy
      cases x with
      | none => cases hy
      | some x =>
        cases hy
        have h1 := hr.2 v rfl
        have h2 := hx x rfl
        simp only [resultsFor, withValue]
        by_cases hv : resultFor C p = .void
        · rw [if_pos hv] at h1 ⊢
          exact h1.append h2
        · rw [if_neg hv] at h1 ⊢
          rw [spansList, nonEmpty_append]
          exact h1.append h2

theorem sequenceValue_spans (vs : List Val) : (sequenceValue vs).spans = spansList vs := by
  unfold sequenceValue
  split <;> simp [Val.spans, spansList]

theorem choiceValue_spans {us : List Ty} {d : Val} {t : Ty} {v : Val} (ht : t ≠ .void) :
    (choiceValue us d t v).spans = v.spans := by
  unfold choiceValue
  rw [if_neg ht]
  split <;> simp [Val.spans]

theorem tysOK_mem {ps : List (Parser α)} (h : tysOK C ps = true) {q} (hq : q ∈ ps) : tyOK C q = true := by
  induction ps with
  | nil => cases hq
  | cons p ps ih =>
    simp only [tysOK, Bool.and_eq_true] at h
    rcases List.mem_cons.1 hq with rfl | hq
    · exact h.1
    · exact ih h.2 hq

theorem GoodSpan.keeps {s : Span} {m : Run R} {E} (h : Quiet m (GoodSpan s) E) :
    Sat m (fun r => ∀ v, r.val = some v → Tiles s (nonEmpty v.spans) r.rem) anyErr := by
  refine h.sat.mono (fun r hr v hv => ?_) fun _ _ => trivial
  obtain ⟨k, rfl, hk⟩ := hr.val v hv
  exact .single hk

theorem KeepsAll.spanLocal (hL : C.Local) {p : Parser α} (h : KeepsAll C p) : SpanLocal C p :=
  ⟨hL, fun _ _ hr => (h _ hr).elim⟩

theorem joinGeneric_keeps (hL : C.Local) {p : Parser α} {P : Sub} {safe : Prop} (hk : KeepsAll C p)
    (hj : joinable C (resultFor C p) = true) (hP : ParseKeeps C P)
    (ht : ParseOK C (SpanLocal C p) safe (resultFor C p) P) : ParseKeeps C (joinGeneric C P) := by
  intro s hs
  refine Sat.bind ((Sat.and (hP s hs) (ht s)).mono (fun _ h => h) fun _ _ => trivial) fun r hr => ?_
  refine Sat.ite (fun hn => ?_) fun _ => Sat.pure nofun
  obtain ⟨w, hw⟩ : ∃ w, r.val = some w := Option.isSome_iff_exists.1 hn
  obtain ⟨rv, rr⟩ := r
  simp only at hw; subst hw
  have hg := hr.2.val w rfl
  have htile := hr.1 w rfl
  have hleaf := joinLeaves_standard (C := C) _ w (KeepsAll.standard p hk) hj hg.ty
  have hsp := joinExecutor_spec hj hg.ty hs hr.2.suffix hL fun x hx => hg.spans x hx (hk.spanLocal hL)
  have hc := htile.contiguous (fun x hx => by simpa [nonEmpty] using (List.mem_filter.1 hx).2)
  rw [hleaf] at hsp
  rw [hsp.1 hc.1]
  simp only [M.bind_eq, M.pure_bind, hc.2]
  refine Sat.pure ?_
  rintro v ⟨⟩
  exact .single htile.advanced

theorem semJoin_keeps (hL : C.Local) {rec : Parser α → Sub} {safe : Prop} (k : Nat) {p : Parser α} (hk : KeepsAll C p)
    (hj : joinable C (resultFor C p) = true) (hP : ParseKeeps C (rec p))
    (ht : ParseOK C (SpanLocal C p) safe (resultFor C p) (rec p)) : ParseKeeps C (semJoin C rec k p) := by
  have gen : ParseKeeps C (joinGeneric C (rec p)) := joinGeneric_keeps hL hk hj hP ht
  cases p with
  | exactly q n =>
    simp only [semJoin]
    cases asBasic C q with
    | none => exact gen
    | some b => exact fun s _ => GoodSpan.keeps (joinExactlyLoop_quiet b n s 0 (.refl s))
  | maybe q =>
    simp only [semJoin]
    cases asBasic C q with
    | none => exact gen
    | some b =>
      refine fun s _ => GoodSpan.keeps (E := OnlyBadInput C s) ?_
      refine Quiet.bind (failureCondition_quiet C b s) fun c hc => ?_
      refine Quiet.ite (fun _ => Quiet.pure (.success (.refl s))) fun hn => ?_
      exact Quiet.bind (advance_quiet C fun hs => hc hs (by simpa using hn)) fun s' h =>
        Quiet.pure (.success h)
  | oneOrMore q =>
    simp only [semJoin]
    cases asBasic C q with
    | none => exact gen
    | some b =>
      refine fun s _ => GoodSpan.keeps (E := OnlyBadInput C s) ?_
      refine Quiet.bind (failureCondition_quiet C b s) fun c hc => ?_
      refine Quiet.ite (fun _ => Quiet.pure (.failure s)) fun hn => ?_
      refine Quiet.bind (subspan_quiet C fun hs => hc hs (by simpa using hn)) fun s' h => ?_
      refine Quiet.bind (joinRepeatLoop_quiet b k s' _ h) fun ⟨i, r⟩ hx => ?_
      obtain ⟨k, rfl, hk⟩ := hx
      exact Quiet.pure (.success hk)
  | zeroOrMore q =>
    simp only [semJoin]
    cases asBasic C q with
    | none => exact gen
    | some b =>
      refine fun s _ => GoodSpan.keeps (E := OnlyBadInput C s) ?_
      refine Quiet.bind (joinRepeatLoop_quiet b k s 0 (.refl s)) fun ⟨i, r⟩ hx => ?_
      obtain ⟨k, rfl, hk⟩ := hx
      exact Quiet.pure (.success hk)
  | _ => exact gen

theorem step_stays {rec : Parser α → Sub} (k : Nat) (hg : ∀ q, SubGood (rec q))
    (h : ∀ q, KeepsAll C q → resultFor C q = .void → LookStays C (rec q)) (p : Parser α) (hk : KeepsAll C p)
    (hv : resultFor C p = .void) : LookStays C (step C rec k p) := by
  cases p with
  | anyOf _ | noneOf _ | allOf _ | anything | join _ => rw [resultFor] at hv; cases hv
  | epsilon => exact fun s _ => Sat.pure fun _ => rfl
  | choice ps =>
    rw [resultFor, choiceTrait_ty] at hv
    have hvs := choiceType_void hv
    rw [resultsFor_eq] at hvs
    intro s hs
    refine Sat.bind (foldOr_stays (es := mkLookElems rec C ps) ?_ ⟨s, .unit⟩ hs) fun x hx =>
      Sat.ite (fun ht => Sat.pure fun _ => hx ht) fun _ => Sat.pure nofun
    intro e he
    rw [mkLookElems_eq_map, List.mem_map] at he
    obtain ⟨q, hq, rfl⟩ := he
    exact ⟨rfl, h q (hk.child (.choice hq)) (hvs _ (List.mem_map_of_mem hq)), hg q⟩
  | sequence ps =>
    rw [resultFor, sequenceTrait_ty] at hv
    have hvs := sequenceType_void hv
    rw [resultsFor_eq] at hvs
    intro s hs
    refine Sat.bind (foldAnd_stays (es := mkLookElems rec C ps) ?_ ⟨s, .unit⟩ hs) fun x hx =>
      Sat.ite (fun ht => Sat.pure fun _ => hx ht) fun _ => Sat.pure nofun
    intro e he
    rw [mkLookElems_eq_map, List.mem_map] at he
    obtain ⟨q, hq, rfl⟩ := he
    exact ⟨rfl, h q (hk.child (.sequence hq)) (hvs _ (List.mem_map_of_mem hq)), hg q⟩
  | maybe q =>
    rw [resultFor] at hv
    intro s hs
    refine Sat.bind (h q (hk.child .maybe) (voidOr_void (by simp) hv) s hs) fun r hr =>
      Sat.ite (fun ht => Sat.pure fun _ => hr ht) fun _ => Sat.pure fun _ => rfl
  | exactly q n =>
    rw [resultFor] at hv
    exact fun s hs => lookExactlyLoop_stays (h q (hk.child .exactly) (voidOr_void (by simp) hv)) s n s hs
  | oneOrMore q =>
    rw [resultFor] at hv
    intro s hs
    refine Sat.bind (lookOneOrMoreLoop_stays (h q (hk.child .oneOrMore) (voidOr_void (by simp) hv)) (hg q) k false s hs)
      fun x hx => Sat.ite (fun _ => Sat.pure fun _ => hx) fun _ => Sat.pure nofun
  | zeroOrMore q =>
    rw [resultFor] at hv
    intro s hs
    exact Sat.bind (lookZeroOrMoreLoop_stays (h q (hk.child .zeroOrMore) (voidOr_void (by simp) hv)) (hg q) k s hs)
      fun x hx => Sat.pure fun _ => hx
  | delimit q d => exact (hk _ .refl).elim
  | ignore q => exact (hk _ .refl).elim
  | map q f => exact (hk _ .refl).elim
  | complete q =>
    rw [resultFor] at hv
    intro s hs
    refine Sat.bind (h q (hk.child .complete) hv s hs) fun r hr => ?_
    exact Sat.ite (fun _ => Sat.pure nofun) fun _ => Sat.pure hr
  | filter q f => rw [resultFor] at hv; exact h q (hk.child .filter) hv
  | named q n => rw [resultFor] at hv; exact h q (hk.child .named) hv
  | custom j =>
    rw [resultFor] at hv
    exact h _ (hk.child .custom) (by rw [← (hk _ .refl).1]; exact hv)

theorem step_kept (hT : C.Typed) (hL : C.Local) (hty : ∀ k, tyOK C (C.custom k).body = true)
    (hpa : ∀ k, parseOK C (C.custom k).body = true) {rec : Parser α → Sub} (k : Nat) (h : ∀ q, KeptSub C q (rec q))
    (p : Parser α) : KeptSub C p (step C rec k p) := by
  have hg : ∀ q, SubGood (rec q) := fun q => (h q).2.1
  refine ⟨step_typed hT hty hpa k (fun q => (h q).1) p, step_good k hg p,
    step_stays k hg (fun q => (h q).2.2.1) p, fun hk ht hp => ?_⟩
  have child : ∀ {q T}, ParseChild C p q → tyOK C q = true → parseOK C q = true → (T = .void → resultFor C q = .void) →
      ChildKeeps C T (rec q) := fun hc h1 h2 hT => childKeeps ((h _).2.2.2 (hk.child hc) h1 h2) (hg _) ((h _).1.2 h1 h2) hT
  cases p with
  | anyOf _ | noneOf _ | allOf _ | anything => exact fun s _ => GoodSpan.keeps (parseBasic_quiet _ s)
  | epsilon => exact fun s _ => Sat.pure (by rintro v ⟨⟩; exact .nil)
  | choice ps =>
    intro s hs
    have hi : Indexable (resultsFor C ps) := by rw [resultsFor_eq]; exact hk _ .refl
    have hp' := hp
    simp only [parseOK, Bool.and_eq_true] at hp'
    obtain ⟨d, hd⟩ := Option.isSome_iff_exists.1 hp'.1.1.2
    have hds := nonEmpty_nil_of (defaultVal_spans hL _ _ hd)
    rw [choiceTrait_ty] at hd
    show Sat (parseChoice ..) _ _
    rw [parseChoice_eq hg hp hi hd s]
    refine lookStays_firstOf nofun fun m hm => ?_
    obtain ⟨q, hq, rfl⟩ := List.mem_map.1 hm
    unfold partOf
    by_cases hv : resultFor C q = .void
    · rw [if_pos hv]
      refine Sat.bind ((h q).2.2.1 (hk.child (.choice hq)) hv s hs) fun r hr => Sat.pure ?_
      intro v hv'
      obtain ⟨rv, rr⟩ := r
      cases rv with
      | none => cases hv'
      | some w =>
        cases hv'
        have : rr = s := hr rfl
        subst this
        simp only [choiceValue, hv, if_true, hds]
        exact .nil
    · rw [if_neg hv]
      have htq := tysOK_mem hp'.1.1.1 hq
      refine Sat.bind ((h q).2.2.2 (hk.child (.choice hq)) htq (parseOK_alternative hp hi hq hv) s hs) fun r hr => Sat.pure ?_
      intro v hv'
      obtain ⟨rv, rr⟩ := r
      cases rv with
      | none => cases hv'
      | some w =>
        cases hv'
        rw [choiceValue_spans hv]
        exact hr w rfl
  | sequence ps =>
    intro s hs
    have hp' := hp
    simp only [parseOK, Bool.and_eq_true] at hp'
    obtain ⟨d, hd⟩ := Option.isSome_iff_exists.1 hp'.1.1.2
    rw [sequenceTrait_ty] at hd
    show Sat (parseSequence ..) _ _
    rw [parseSequence_eq hd s]
    refine Sat.bind (inOrder_keeps ps hg (fun q hq hv => (h q).2.2.1 (hk.child (.sequence hq)) hv)
      (fun q hq hv => (h q).2.2.2 (hk.child (.sequence hq)) (tysOK_mem hp'.1.1.1 hq) (parseOK_part hp hq hv)) s hs) fun x hx => ?_
    cases x with
    | none => exact Sat.pure nofun
    | some x =>
      obtain ⟨vs, s'⟩ := x
      refine Sat.pure ?_
      rintro v ⟨⟩
      rw [sequenceValue_spans]
      exact hx _ rfl
  | maybe q =>
    simp only [parseOK, Bool.and_eq_true] at hp
    intro s hs
    have hq := child (T := voidOr .opt (resultFor C q)) .maybe hp.1 hp.2 (voidOr_void (by simp)) s hs
    show Sat (parseMaybe C (resultFor C (.maybe q)) (rec q) s) _ _
    rw [resultFor]
    refine Sat.bind (init_sat hL _) fun v hv => Sat.bind hq fun r hr => ?_
    by_cases hn : r.hasValue = true
    · rw [if_pos hn]
      obtain ⟨w, hw⟩ : ∃ w, r.val = some w := Option.isSome_iff_exists.1 hn
      have hw' := hr.2.2 w hw
      refine Sat.bind (Q := fun v' => nonEmpty v'.spans = nonEmpty w.spans ∧ (voidOr .opt (resultFor C q) = .void → v'.spans = [])) ?_
        fun v' hv' => Sat.pure (build_keeps ?_ hv'.2)
      · unfold builderEmplace
        split
        · next hT =>
          refine Sat.pure ⟨?_, fun _ => ?_⟩
          · rw [hv.1, hw'.2 hT]; rfl
          · rw [hv.2.1 hT]; rfl
        · next hT =>
          cases v with
          | opt o =>
            simp only [R.deref, hw, M.bind_eq, M.pure_bind]
            exact Sat.pure ⟨rfl, fun h => absurd h hT⟩
          | _ => exact Sat.fail trivial
      · rw [hv'.1]; exact hw'.1
    · rw [if_neg hn]
      simp only [M.bind_eq, M.pure_bind]
      have : r.rem = s := hr.2.1 (by simpa [R.hasValue] using hn)
      rw [this]
      refine Sat.pure (build_keeps ?_ fun h => ?_)
      · rw [hv.1]; exact .nil
      · rw [hv.2.1 h]; rfl
  | exactly q n =>
    simp only [parseOK, Bool.and_eq_true] at hp
    intro s hs
    have hq := child (T := voidOr (.arr · n) (resultFor C q)) .exactly hp.1.1 hp.1.2 (voidOr_void (by simp))
    show Sat (parseExactly C (resultFor C (.exactly q n)) n (rec q) s) _ _
    rw [resultFor]
    refine Sat.bind (init_sat hL _) fun v hv => ?_
    have hf : Filled 0 v [] := by
      by_cases hT : voidOr (.arr · n) (resultFor C q) = .void
      · rw [hv.2.1 hT]; exact .inl ⟨rfl, rfl⟩
      · have hd := hv.2.2
        unfold voidOr at hd hT
        split at hd
        · next h' => rw [if_pos h'] at hT; exact absurd rfl hT
        · simp only [defaultVal, Option.map_eq_some_iff] at hd
          obtain ⟨w, -, rfl⟩ := hd
          exact .inr ⟨_, rfl, rfl, hv.1⟩
    exact exactlyLoop_keeps hq s s n 0 s hs v hf hv.2.1 .nil
  | oneOrMore q =>
    simp only [parseOK, Bool.and_eq_true] at hp
    intro s hs
    have hq := child (T := voidOr .vec (resultFor C q)) .oneOrMore hp.1 hp.2 (voidOr_void (by simp))
    show Sat (parseOneOrMore C (resultFor C (.oneOrMore q)) (rec q) k s) _ _
    rw [resultFor]
    refine Sat.bind (init_sat hL _) fun v hv => ?_
    refine Sat.bind (oneOrMoreLoop_keeps hq s k false s hs v (by rw [hv.1]; exact .nil) fun h => by rw [hv.2.1 h]; rfl)
      fun ⟨b, s', v'⟩ hx => ?_
    exact Sat.ite (fun _ => Sat.pure (build_keeps hx.1 hx.2)) fun _ => Sat.pure nofun
  | zeroOrMore q =>
    simp only [parseOK, Bool.and_eq_true] at hp
    intro s hs
    have hq := child (T := voidOr .vec (resultFor C q)) .zeroOrMore hp.1 hp.2 (voidOr_void (by simp))
    show Sat (parseZeroOrMore C (resultFor C (.zeroOrMore q)) (rec q) k s) _ _
    rw [resultFor]
    refine Sat.bind (init_sat hL _) fun v hv => ?_
    refine Sat.bind (zeroOrMoreLoop_keeps hq s k s hs v (by rw [hv.1]; exact .nil) fun h => by rw [hv.2.1 h]; rfl)
      fun ⟨s', v'⟩ hx => ?_
    exact Sat.pure (build_keeps hx.1 hx.2)
  | delimit q d => exact (hk _ .refl).elim
  | ignore q => exact (hk _ .refl).elim
  | map q f => exact (hk _ .refl).elim
  | complete q =>
    simp only [parseOK, Bool.and_eq_true] at hp
    intro s hs
    refine Sat.bind ((h q).2.2.2 (hk.child .complete) hp.1 hp.2 s hs) fun r hr => ?_
    exact Sat.ite (fun _ => Sat.pure nofun) fun _ => Sat.pure hr
  | join q =>
    simp only [parseOK, Bool.and_eq_true] at hp
    exact semJoin_keeps hL k (hk.child .join) hp.2 ((h q).2.2.2 (hk.child .join) hp.1.1 hp.1.2) ((h q).1.2 hp.1.1 hp.1.2)
  | filter q f =>
    simp only [parseOK, tyOK, Bool.and_eq_true] at hp
    intro s hs
    refine Sat.bind ((h q).2.2.2 (hk.child .filter) hp.1.1 hp.2 s hs) fun r hr => Sat.ite (fun _ => Sat.pure nofun) fun _ => ?_
    refine Sat.bind (Sat.triv _) fun _ _ => Sat.bind (Sat.triv _) fun _ _ => ?_
    exact Sat.ite (fun _ => Sat.pure hr) fun _ => Sat.pure nofun
  | named q n =>
    simp only [parseOK, Bool.and_eq_true] at hp
    exact (h q).2.2.2 (hk.child .named) hp.1 hp.2
  | custom j =>
    intro s hs
    have he := (hk _ .refl).1
    refine Sat.bind ((h _).2.2.2 (hk.child .custom) (hty j) (hpa j) s hs) fun r hr => ?_
    show Sat (convertResult C (resultFor C (C.custom j).body) (C.custom j).ty r) _ _
    unfold convertResult
    rw [if_pos he.symm]
    exact Sat.pure hr

theorem Parse_keeps [LinearOrder α] {p : Parser α} (hc : Compiles C p) (hT : C.Typed) (hL : C.Local) (hk : KeepsAll C p)
    (s : Span) (hs : s.Valid C.mem) :
    Sat (Parse C p s) (fun r => ∀ v, r.val = some v → Tiles s (nonEmpty v.spans) r.rem) anyErr :=
  Parse_sat fun n => (sem_induct (fun p P => KeptSub C p P)
    (fun _ => ⟨⟨fun _ => Quiet.diverge, fun _ _ _ => Sat.diverge⟩, ⟨fun _ => Sat.diverge, fun _ => Sat.diverge⟩,
      fun _ _ _ _ => Sat.diverge, fun _ _ _ _ _ => Sat.diverge⟩)
    (fun _ k h p => step_kept hT hL hc.ctx.ty hc.ctx.parse k h p) n p).2.2.2 hk hc.ty hc.parse s hs

end Tok3n
