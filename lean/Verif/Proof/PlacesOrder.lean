import Verif.Proof.Places
/-
The spans in a result come in the order of the text.
-/

namespace Tok3n

variable {α β : Type} {C : Ctx α β}

/-- the spans lie between the start of `o` and the start of `s`, one after the other -/
structure Ord (o : Span) (xs : List Span) (s : Span) : Prop where
  suffix : s.SuffixOf o
  within : ∀ x ∈ xs, Within o s x
  sorted : xs.Pairwise Before

theorem Ord.nil {o s : Span} (h : s.SuffixOf o) : Ord o [] s := ⟨h, nofun, .nil⟩

theorem Ord.append {o s s' : Span} {xs ys : List Span} (h : Ord o xs s) (h' : Ord s ys s') : Ord o (xs ++ ys) s' := by
  refine ⟨h'.suffix.trans h.suffix, fun x hx => ?_, List.pairwise_append.2 ⟨h.sorted, h'.sorted, fun x hx y hy => ?_⟩⟩
  · rcases List.mem_append.1 hx with hx | hx
    · exact (h.within x hx).mono (.refl _) h'.suffix
    · exact (h'.within x hx).mono h.suffix (.refl _)
  · obtain ⟨b, i, j, e, -, h2, h3, -, h5⟩ := h.within x hx
    obtain ⟨b', i', j', e', k1, -, k3, k4, -⟩ := h'.within y hy
    rw [h2] at k1; cases k1
    exact ⟨b, j, j', h3, k3, by omega⟩

theorem Ord.sublist {o s : Span} {xs ys : List Span} (h : Ord o xs s) (hs : ys.Sublist xs) : Ord o ys s :=
  ⟨h.suffix, fun x hx => h.within x (hs.subset hx), h.sorted.sublist hs⟩

theorem Ord.mono {o s s' : Span} {xs : List Span} (h : Ord o xs s) (hs : s'.SuffixOf s) : Ord o xs s' :=
  ⟨hs.trans h.suffix, fun x hx => (h.within x hx).mono (.refl _) hs, h.sorted⟩

theorem Ord.single {o s t : Span} (hs : s.SuffixOf o) (h : InRegion o s t) : Ord o (nonEmpty [t]) s := by
  by_cases h0 : t.len = 0
  · have : nonEmpty [t] = [] := by simp [nonEmpty, h0]
    rw [this]; exact .nil hs
  · have : nonEmpty [t] = [t] := by simp [nonEmpty, h0]
    rw [this]
    refine ⟨hs, fun x hx => ?_, List.pairwise_singleton _ _⟩
    simp only [List.mem_singleton] at hx; subst hx
    rcases h with rfl | h
    · exact absurd rfl h0
    · exact h

/-- a sublist of the spans that are not empty -/
theorem nonEmpty_sublist {xs ys : List Span} (h : (nonEmpty xs).Sublist ys) : (nonEmpty xs).Sublist (nonEmpty ys) := by
  have := h.filter (fun x => x.len ≠ 0)
  have e : (nonEmpty xs).filter (fun x => x.len ≠ 0) = nonEmpty xs := by simp [nonEmpty]
  rw [e] at this
  exact this

/-- what parsing returns is in order -/
def ParseOrd (P : Sub) : Prop := ∀ s,
  Sat (P.parse s) (fun r => r.rem.SuffixOf s ∧ ∀ v, r.val = some v → Ord s (nonEmpty v.spans) r.rem) anyErr

/-- … and if the builder's type is `void`, there is no value -/
def ChildOrd (T : Ty) (P : Sub) : Prop := ∀ s,
  Sat (P.parse s) (fun r => Good s r ∧
    ∀ w, r.val = some w → Ord s (nonEmpty w.spans) r.rem ∧ (T = .void → w.spans = [])) anyErr

section
variable {P D : Sub} {T : Ty}

theorem zeroOrMoreLoop_ord (hP : ChildOrd T P) (o : Span) (n : Nat) (s : Span) (v : Val)
    (hv : Ord o (nonEmpty v.spans) s) (h0 : T = .void → v.spans = []) :
    Sat (zeroOrMoreLoop T P n s v) (fun x => Ord o (nonEmpty x.2.spans) x.1 ∧ (T = .void → x.2.spans = [])) anyErr := by
  induction n generalizing s v with
  | zero => exact Sat.diverge
  | succ n ih =>
    refine Sat.bind (hP s) fun r hr => Sat.ite (fun hn => Sat.pure ?_) fun hn => ?_
    · exact ⟨hv.mono hr.1.suffix, h0⟩
    · obtain ⟨w, hw⟩ := Option.isSome_iff_exists.1 (R.some_of hn)
      refine Sat.bind (Q := fun v' => v'.spans = v.spans ++ w.spans)
        (Sat.intro (fun l a ha => builderInsertBack_spans hw (hr.2 w hw).2 ha) fun _ _ _ => trivial) fun v' hv' => ?_
      refine ih r.rem v' ?_ fun h => by rw [hv', h0 h, (hr.2 w hw).2 h]; rfl
      rw [hv', nonEmpty_append]
      exact hv.append (hr.2 w hw).1

theorem oneOrMoreLoop_ord (hP : ChildOrd T P) (o : Span) (n : Nat) (b : Bool) (s : Span) (v : Val)
    (hv : Ord o (nonEmpty v.spans) s) (h0 : T = .void → v.spans = []) :
    Sat (oneOrMoreLoop T P n b s v) (fun x => Ord o (nonEmpty x.2.2.spans) x.2.1 ∧ (T = .void → x.2.2.spans = [])) anyErr := by
  induction n generalizing b s v with
  | zero => exact Sat.diverge
  | succ n ih =>
    refine Sat.bind (hP s) fun r hr => Sat.ite (fun hn => Sat.pure ?_) fun hn => ?_
    · exact ⟨hv.mono hr.1.suffix, h0⟩
    · obtain ⟨w, hw⟩ := Option.isSome_iff_exists.1 (R.some_of hn)
      refine Sat.bind (Q := fun v' => v'.spans = v.spans ++ w.spans)
        (Sat.intro (fun l a ha => builderInsertBack_spans hw (hr.2 w hw).2 ha) fun _ _ _ => trivial) fun v' hv' => ?_
      refine ih _ r.rem v' ?_ fun h => by rw [hv', h0 h, (hr.2 w hw).2 h]; rfl
      rw [hv', nonEmpty_append]
      exact hv.append (hr.2 w hw).1

theorem build_ord {v : Val} {o s : Span} (hv : Ord o (nonEmpty v.spans) s) :
    (builderBuild T v s).rem.SuffixOf o ∧
      ∀ w, (builderBuild T v s).val = some w → Ord o (nonEmpty w.spans) (builderBuild T v s).rem := by
  unfold builderBuild
  split
  · exact ⟨hv.suffix, by rintro w ⟨⟩; exact .nil hv.suffix⟩
  · exact ⟨hv.suffix, by rintro w ⟨⟩; exact hv⟩

theorem exactlyLoop_ord (hP : ChildOrd T P) (o : Span) (n i : Nat) (s : Span) (v : Val)
    {xs : List Span} (hf : Filled i v xs) (ht : T = .void → v = .unit) (hv : Ord o xs s) :
    Sat (exactlyLoop T P o n i s v) (fun r => r.rem.SuffixOf o ∧ ∀ w, r.val = some w → Ord o (nonEmpty w.spans) r.rem) anyErr := by
  induction n generalizing i s v xs with
  | zero => exact Sat.pure (build_ord (by rw [hf.spans]; exact hv))
  | succ n ih =>
    refine Sat.bind (hP s) fun r hr => Sat.ite (fun _ => Sat.pure ⟨.refl o, nofun⟩) fun hn => ?_
    obtain ⟨w, hw⟩ := Option.isSome_iff_exists.1 (R.some_of hn)
    refine Sat.bind (Q := fun v' => Filled (i + 1) v' (xs ++ nonEmpty w.spans) ∧ (T = .void → v' = .unit))
      (Sat.intro (fun l a ha => builderArrayAssign_filled hw (fun h => ⟨(hr.2 w hw).2 h, ht h⟩) hf ha)
        fun _ _ _ => trivial) fun v' hv' => ?_
    exact ih (i + 1) r.rem v' hv'.1 hv'.2 (hv.append (hr.2 w hw).1)

/-! ### delimit -/

/-- what is known when the loop of `delimit` is entered: `r` is what parsing an element gave,
`s` is where the last one recorded ended -/
structure DelimitOrd (tp : Ty) (o : Span) (r : R) (s : Span) (v : Val) : Prop where
  failed : r.val = none → Ord o (nonEmpty v.spans) s
  value : ∀ w, r.val = some w → Ord o (nonEmpty (v.spans ++ w.spans)) r.rem
  void : ∀ w, r.val = some w → tp = .void → w.spans = []

/-- `delimit` with values only of its elements, or only of its delimiters: what is recorded
is added at the end -/
theorem delimitLoop_ord {tp td : Ty} (hT : tp = .void ∨ td = .void) (hP : ChildOrd tp P) (hD : ChildOrd td D)
    (o : Span) (k : Nat) (r : R) (s : Span) (v : Val) (h : DelimitOrd tp o r s v) :
    Sat (delimitLoop (delimitTy tp td) tp td P D k r s v) (fun x => Ord o (nonEmpty x.2.spans) x.1) anyErr := by
  induction k generalizing r s v with
  | zero => exact Sat.diverge
  | succ k ih =>
    unfold delimitLoop
    refine Sat.ite (fun hn => Sat.pure (h.failed (by simpa [R.hasValue] using hn))) fun hn => ?_
    obtain ⟨w, hw⟩ := Option.isSome_iff_exists.1 (R.some_of hn)
    dsimp only
    refine Sat.bind (Q := fun v' => Ord o (nonEmpty v'.spans) r.rem) ?_ fun v' hv' => ?_
    · unfold delimitRecordP
      refine Sat.ite (fun hp => ?_) fun hp => Sat.pure ?_
      · have hd : td = .void := hT.resolve_left hp
        rw [if_pos hd]
        refine Sat.intro (fun l a ha => ?_) fun _ _ _ => trivial
        rw [builderInsertBack_spans hw (by simp [delimitTy, hd, hp]) ha]
        exact h.value w hw
      · have := h.value w hw
        rw [h.void w hw (by simpa using hp), List.append_nil] at this
        exact this
    · refine Sat.bind (hD r.rem) fun d hd => Sat.ite (fun _ => Sat.pure hv') fun hdn => ?_
      obtain ⟨dv, hdv⟩ := Option.isSome_iff_exists.1 (R.some_of hdn)
      have hdo := hd.2 dv hdv
      refine Sat.bind (hP d.rem) fun r' hr' => ?_
      refine Sat.bind (Q := fun v2 => DelimitOrd tp o r' r.rem v2) ?_ fun v2 hv2 => ih _ _ _ hv2
      have keep : ∀ w', r'.val = some w' → Ord o (nonEmpty (v'.spans ++ w'.spans)) r'.rem := fun w' hw' => by
        rw [nonEmpty_append]
        exact (hv'.mono hd.1.suffix).append (hr'.2 w' hw').1
      unfold delimitRecordD
      refine Sat.ite (fun htd => Sat.ite (fun hrn => ?_) fun hrn => Sat.pure ?_) fun _ => Sat.pure ?_
      · have hp : tp = .void := hT.resolve_right htd
        rw [if_pos hp]
        refine Sat.intro (fun l a ha => ?_) fun _ _ _ => trivial
        have e := builderInsertBack_spans hdv (by simp [delimitTy, htd, hp]) ha
        refine ⟨fun hn => ?_, fun w' hw' => ?_, fun w' hw' => (hr'.2 w' hw').2⟩
        · rw [R.hasValue, hn] at hrn; cases hrn
        · rw [e, (hr'.2 w' hw').2 hp, List.append_nil, nonEmpty_append]
          exact (hv'.append hdo.1).mono hr'.1.suffix
      · exact ⟨fun _ => hv', keep, fun w' hw' => (hr'.2 w' hw').2⟩
      · exact ⟨fun _ => hv', keep, fun w' hw' => (hr'.2 w' hw').2⟩

/-! ### Choice -/

theorem convert_ord (hconv : ∀ src dst f v, C.conv src dst = some f → List.Sublist (nonEmpty (f v).spans) v.spans)
    (a b : Ty) (v : Val) : Sat (convert C a b v) (fun w => (nonEmpty w.spans).Sublist (nonEmpty v.spans)) anyErr := by
  unfold convert
  split
  · exact Sat.pure (List.Sublist.refl _)
  · split
    · rename_i f hf
      exact Sat.pure (nonEmpty_sublist (hconv _ _ _ v hf))
    · exact Sat.fail trivial

/-- what an alternative does to the value, which is the default value before -/
theorem execute_ord (hconv : ∀ src dst f v, C.conv src dst = some f → List.Sublist (nonEmpty (f v).spans) v.spans)
    {u : Bool} {e : Elem} (st : Exec) (hv : nonEmpty st.value.spans = []) (hl : LookQuiet C e.sub)
    (h : e.idx ≠ none → ParseOrd e.sub) :
    Sat (execute C T u true e st)
      (fun x => Ord st.input (nonEmpty x.2.value.spans) x.2.input ∧ (x.1 = false → nonEmpty x.2.value.spans = [])) anyErr := by
  unfold execute
  split
  · refine Sat.bind ((hl st.input).sat.mono (fun _ h => h) fun _ _ => trivial) fun r hr => Sat.pure ?_
    exact ⟨by dsimp only; rw [hv]; exact .nil hr.suffix, fun _ => hv⟩
  · rename_i i hi
    refine Sat.bind (h (by rw [hi]; nofun) _) fun r hr => ?_
    refine Sat.ite (fun _ => Sat.pure ⟨by rw [hv]; exact .nil (.refl _), fun _ => hv⟩) fun hn => ?_
    obtain ⟨w, hw⟩ := Option.isSome_iff_exists.1 (R.some_of hn)
    have hwo := hr.2 w hw
    refine Sat.bind (Q := fun v' => (nonEmpty v'.spans).Sublist (nonEmpty w.spans)) ?_ fun v' hv' =>
      Sat.pure ⟨hwo.sublist hv', nofun⟩
    refine Sat.ite (fun _ => ?_) fun _ => ?_
    · unfold builderAssign
      refine Sat.ite (fun _ => Sat.pure (by rw [hv]; exact List.nil_sublist _)) fun _ => ?_
      rw [R.deref_eq hw]
      exact Sat.pure (List.Sublist.refl _)
    · simp only [if_true]
      unfold builderEmplaceAt
      split
      · exact Sat.pure (by rw [hv]; exact List.nil_sublist _)
      · split
        · rw [R.deref_eq hw]
          simp only [M.bind_eq, M.pure_bind]
          exact Sat.bind (convert_ord hconv _ _ w) fun w' hw' => Sat.pure hw'
        · exact Sat.fail trivial
      · exact Sat.fail trivial

theorem foldOr_ord {exec : Elem → Exec → Run (Bool × Exec)} (es : List Elem) (st : Exec) (hv : nonEmpty st.value.spans = [])
    (h : ∀ e ∈ es, ∀ st, nonEmpty st.value.spans = [] → Sat (exec e st)
      (fun x => Ord st.input (nonEmpty x.2.value.spans) x.2.input ∧ (x.1 = false → nonEmpty x.2.value.spans = [])) anyErr) :
    Sat (foldOr exec es st) (fun x => Ord st.input (nonEmpty x.2.value.spans) x.2.input) anyErr := by
  induction es generalizing st with
  | nil => exact Sat.pure (by rw [hv]; exact .nil (.refl _))
  | cons e es ih =>
    unfold foldOr
    refine Sat.bind (h e (by simp) st hv) fun ⟨b, st'⟩ hx => ?_
    cases b
    · refine (ih _ (hx.2 rfl) fun e he => h e (by simp [he])).post fun y hy => ?_
      exact (Ord.nil hx.1.suffix).append hy
    · exact Sat.pure hx.1

/-! ### Sequence -/

theorem inOrder_ord {rec : Parser α → Sub} (ps : List (Parser α)) (hg : ∀ q ∈ ps, LookQuiet C (rec q))
    (hp : ∀ q ∈ ps, resultFor C q ≠ .void → ParseOrd (rec q)) (s : Span) :
    Sat (inOrder (ps.map (partOf rec C)) s)
      (fun x => ∀ y, x = some y → Ord s (nonEmpty (spansList (withValue (resultsFor C ps) y.1))) y.2) anyErr := by
  induction ps generalizing s with
  | nil =>
    refine Sat.pure ?_
    rintro y ⟨⟩
    exact .nil (.refl _)
  | cons p ps ih =>
    have ih := ih (fun q hq => hg q (List.mem_cons_of_mem _ hq)) fun q hq => hp q (List.mem_cons_of_mem _ hq)
    simp only [List.map_cons, inOrder]
    have hpart : Sat (partOf rec C p s) (fun r => ∀ v, r.val = some v →
        Ord s (if resultFor C p = .void then [] else nonEmpty v.spans) r.rem) anyErr := by
      unfold partOf
      by_cases hv : resultFor C p = .void
      · rw [if_pos hv]
        refine (hg p List.mem_cons_self s).sat.mono (fun r hr => ?_) fun _ _ => trivial
        intro v h
        rw [if_pos hv]; exact .nil hr.suffix
      · rw [if_neg hv]
        refine (hp p List.mem_cons_self hv s).mono (fun r hr => ?_) fun _ _ => trivial
        intro v h
        rw [if_neg hv]; exact hr.2 v h
    refine Sat.bind hpart fun r hr => ?_
    obtain ⟨rv, rr⟩ := r
    cases rv with
    | none => exact Sat.pure nofun
    | some v =>
      refine Sat.bind (ih rr) fun x hx => Sat.pure ?_
      rintro y hy
      cases x with
      | none => cases hy
      | some x =>
        cases hy
        have h1 := hr v rfl
        have h2 := hx x rfl
        simp only [resultsFor, withValue]
        by_cases hv : resultFor C p = .void
        · rw [if_pos hv] at h1 ⊢
          exact h1.append h2
        · rw [if_neg hv] at h1 ⊢
          rw [spansList, nonEmpty_append]
          exact h1.append h2

end

/-! ### The induction -/

theorem KeepsOrder.child {p q : Parser α} (h : KeepsOrder C p) (hc : ParseChild C p q) : KeepsOrder C q :=
  ⟨h.toSpanLocal.child hc, h.conv, h.convOpt, fun r f hr => h.fns r f (.step hc hr), fun r d hr => h.delimits r d (.step hc hr)⟩

theorem GoodSpan.ord {s : Span} {m : Run R} {E} (h : Quiet m (GoodSpan s) E) :
    Sat m (fun r => r.rem.SuffixOf s ∧ ∀ v, r.val = some v → Ord s (nonEmpty v.spans) r.rem) anyErr := by
  refine h.sat.mono (fun r hr => ⟨hr.suffix, fun v hv => ?_⟩) fun _ _ => trivial
  obtain ⟨k, rfl, hk⟩ := hr.val v hv
  exact .single hr.suffix hk.inRegion

theorem childOrd {P : Sub} {T t : Ty} {loc safe : Prop} (hk : ParseOrd P)
    (ht : ParseOK C loc safe t P) (hT : T = .void → t = .void) : ChildOrd T P := by
  intro s
  refine (Sat.and (hk s) (ht s)).mono (fun r hr => ⟨hr.2.toGood, fun w hw => ⟨hr.1.2 w hw, fun h => ?_⟩⟩) fun _ _ => trivial
  have := (hr.2.val w hw).ty
  rw [hT h] at this
  have hu : w = .unit := this
  rw [hu]; rfl

theorem step_ord (hT : C.Typed) (hty : ∀ k, tyOK C (C.custom k).body = true)
    (hpa : ∀ k, parseOK C (C.custom k).body = true) {rec : Parser α → Sub} (k : Nat) (h : ∀ q, TypedSub C q (rec q))
    (hw : ∀ q, KeepsOrder C q → tyOK C q = true → parseOK C q = true → ParseOrd (rec q)) (p : Parser α)
    (hn : KeepsOrder C p) (ht : tyOK C p = true) (hp : parseOK C p = true) : ParseOrd (step C rec k p) := by
  have hL := hn.ctx
  have ch : ∀ {q}, ParseChild C p q → tyOK C q = true → parseOK C q = true → ParseOrd (rec q) :=
    fun hc => hw _ (hn.child hc)
  have chT : ∀ {q T}, ParseChild C p q → tyOK C q = true → parseOK C q = true → (T = .void → resultFor C q = .void) →
      ChildOrd T (rec q) := fun hc h1 h2 hT => childOrd (ch hc h1 h2) ((h _).2 h1 h2) hT
  have fail : ∀ s, (R.failure s).rem.SuffixOf s ∧ ∀ v, (R.failure s).val = some v → Ord s (nonEmpty v.spans) (R.failure s).rem :=
    fun s => ⟨.refl s, nofun⟩
  cases p with
  | anyOf _ | noneOf _ | allOf _ | anything => exact fun s => GoodSpan.ord (parseBasic_quiet _ s)
  | epsilon => exact fun s => Sat.pure ⟨.refl s, by rintro v ⟨⟩; exact .nil (.refl s)⟩
  | choice ps =>
    simp only [parseOK, Bool.and_eq_true] at hp
    obtain ⟨⟨⟨h1, h2⟩, h3⟩, h4⟩ := hp
    intro s
    show Sat (parseChoice ..) _ _
    refine Sat.bind (init_sat hL _) fun v hv => Sat.bind (foldOr_ord _ ⟨s, v⟩ hv.1 fun e he st hst => ?_) fun ⟨b, st⟩ hx => ?_
    · obtain ⟨q, hm, hq, -, hpq⟩ := mkElems_parsed h1 h4 he
      exact execute_ord hn.conv st hst (by rw [hq]; exact (h q).1) fun hi => by
        rw [hq]; exact ch (.choice hm) (hpq hi).1 (hpq hi).2
    · exact Sat.ite (fun _ => Sat.pure (fail s)) fun _ => Sat.pure (build_ord hx)
  | sequence ps =>
    intro s
    have hp' := hp
    simp only [parseOK, Bool.and_eq_true] at hp'
    obtain ⟨d, hd⟩ := Option.isSome_iff_exists.1 hp'.1.1.2
    rw [sequenceTrait_ty] at hd
    show Sat (parseSequence ..) _ _
    rw [parseSequence_eq hd s]
    refine Sat.bind (inOrder_ord ps (fun q _ => (h q).1)
      (fun q hq hv => ch (.sequence hq) (tysOK_mem hp'.1.1.1 hq) (parseOK_part hp hq hv)) s) fun x hx => ?_
    cases x with
    | none => exact Sat.pure (fail s)
    | some x =>
      obtain ⟨vs, s'⟩ := x
      have := hx _ rfl
      refine Sat.pure ⟨this.suffix, ?_⟩
      rintro v ⟨⟩
      rw [sequenceValue_spans]
      exact this
  | maybe q =>
    simp only [parseOK, Bool.and_eq_true] at hp
    intro s
    show Sat (parseMaybe ..) _ _
    refine Sat.bind (init_sat hL _) fun v hv => Sat.bind (ch .maybe hp.1 hp.2 s) fun r hr => ?_
    refine Sat.bind (Q := fun v' => Ord s (nonEmpty v'.spans) r.rem) ?_ fun v' hv' => Sat.pure (build_ord hv')
    refine Sat.ite (fun hn => ?_) fun _ => Sat.pure (by rw [hv.1]; exact .nil hr.1)
    obtain ⟨w, hw⟩ : ∃ w, r.val = some w := Option.isSome_iff_exists.1 hn
    unfold builderEmplace
    split
    · exact Sat.pure (by rw [hv.1]; exact .nil hr.1)
    · split
      · rw [R.deref_eq hw]
        exact Sat.pure (hr.2 w hw)
      · exact Sat.fail trivial
  | exactly q n =>
    simp only [parseOK, Bool.and_eq_true] at hp
    intro s
    have hq := chT (T := voidOr (.arr · n) (resultFor C q)) .exactly hp.1.1 hp.1.2 (voidOr_void (by simp))
    show Sat (parseExactly C (resultFor C (.exactly q n)) n (rec q) s) _ _
    rw [resultFor]
    refine Sat.bind (init_sat hL _) fun v hv => ?_
    have hf : Filled 0 v [] := by
      by_cases hT : voidOr (.arr · n) (resultFor C q) = .void
      · rw [hv.2.1 hT]; exact .inl ⟨rfl, rfl⟩
      · have hd := hv.2.2
        unfold voidOr at hd hT
        split at hd
        · next h' => rw [if_pos h'] at hT; exact absurd rfl hT
        · simp only [defaultVal, Option.map_eq_some_iff] at hd
          obtain ⟨w, -, rfl⟩ := hd
          exact .inr ⟨_, rfl, rfl, hv.1⟩
    exact exactlyLoop_ord hq s n 0 s v hf hv.2.1 (.nil (.refl s))
  | oneOrMore q =>
    simp only [parseOK, Bool.and_eq_true] at hp
    intro s
    have hq := chT (T := voidOr .vec (resultFor C q)) .oneOrMore hp.1 hp.2 (voidOr_void (by simp))
    show Sat (parseOneOrMore C (resultFor C (.oneOrMore q)) (rec q) k s) _ _
    rw [resultFor]
    refine Sat.bind (init_sat hL _) fun v hv => ?_
    refine Sat.bind (oneOrMoreLoop_ord hq s k false s v (by rw [hv.1]; exact .nil (.refl s)) fun h => by rw [hv.2.1 h]; rfl)
      fun ⟨b, s', v'⟩ hx => ?_
    exact Sat.ite (fun _ => Sat.pure (build_ord hx.1)) fun _ => Sat.pure ⟨hx.1.suffix, nofun⟩
  | zeroOrMore q =>
    simp only [parseOK, Bool.and_eq_true] at hp
    intro s
    have hq := chT (T := voidOr .vec (resultFor C q)) .zeroOrMore hp.1 hp.2 (voidOr_void (by simp))
    show Sat (parseZeroOrMore C (resultFor C (.zeroOrMore q)) (rec q) k s) _ _
    rw [resultFor]
    refine Sat.bind (init_sat hL _) fun v hv => ?_
    refine Sat.bind (zeroOrMoreLoop_ord hq s k s v (by rw [hv.1]; exact .nil (.refl s)) fun h => by rw [hv.2.1 h]; rfl)
      fun ⟨s', v'⟩ hx => ?_
    exact Sat.pure (build_ord hx.1)
  | delimit q d =>
    simp only [parseOK, Bool.and_eq_true] at hp
    intro s
    have hq := chT (T := resultFor C q) .delimit hp.1.1.1 hp.1.2 fun h => h
    have hd := chT (T := resultFor C d) .delimiter hp.1.1.2 hp.2 fun h => h
    show Sat (parseDelimit C (delimitTy (resultFor C q) (resultFor C d)) (resultFor C q) (resultFor C d) (rec q) (rec d) k s) _ _
    refine Sat.bind (init_sat hL _) fun v hv => Sat.bind (hq s) fun r hr =>
      Sat.ite (fun _ => Sat.pure (fail s)) fun _ =>
      Sat.bind (delimitLoop_ord (hn.delimits q d .refl) hq hd s k r s v ⟨fun _ => ?_, fun w hw => ?_, fun w hw => (hr.2 w hw).2⟩)
        fun ⟨s', w⟩ hx => Sat.pure (build_ord hx)
    · rw [hv.1]; exact .nil (.refl s)
    · rw [nonEmpty_append, hv.1]; exact (hr.2 w hw).1
  | ignore q =>
    refine fun s => ((h q).1 s).sat.mono (fun r hr => ⟨hr.suffix, fun v hv => ?_⟩) fun _ _ => trivial
    rw [hr.unit v hv]; exact .nil hr.suffix
  | complete q =>
    simp only [parseOK, Bool.and_eq_true] at hp
    exact fun s => Sat.bind (ch .complete hp.1 hp.2 s) fun r hr => Sat.ite (fun _ => Sat.pure (fail s)) fun _ => Sat.pure hr
  | join q =>
    intro s
    refine ((step_typed hT hty hpa k h (.join q)).2 ht hp s).mono (fun r hr => ⟨hr.suffix, fun v hv => ?_⟩) fun _ _ => trivial
    have hvok := hr.val v hv
    obtain ⟨j, rfl⟩ := hvok.ty
    exact .single hr.suffix (hvok.spans j (by simp [Val.spans]) hn.toSpanLocal)
  | map q f =>
    simp only [parseOK, tyOK, Bool.and_eq_true] at hp
    intro s
    refine Sat.bind (ch .map hp.1.1 hp.2 s) fun r hr => Sat.ite (fun _ => Sat.pure (fail s)) fun hnv => ?_
    obtain ⟨w, hw⟩ := Option.isSome_iff_exists.1 (R.some_of hnv)
    refine Sat.bind (Q := fun args => (spansList args).Sublist w.spans) ?_ fun args ha => ?_
    · unfold argVals
      refine Sat.ite (fun _ => Sat.pure (by simp [spansList])) fun _ => ?_
      rw [R.deref_eq hw]
      exact Sat.pure (by simp [spansList])
    · refine Sat.bind (Q := fun v => (nonEmpty v.spans).Sublist (nonEmpty w.spans))
        (Sat.intro (fun l v hv => ?_) fun _ _ _ => trivial) fun v hv => ?_
      · exact nonEmpty_sublist ((hn.fns q f .refl args l v hv).trans ha)
      · refine Sat.ite (fun _ => Sat.pure ⟨hr.1, ?_⟩) fun _ => Sat.pure ⟨hr.1, ?_⟩
        · rintro v ⟨⟩; exact .nil hr.1
        · rintro v ⟨⟩; exact (hr.2 w hw).sublist hv
  | filter q f =>
    simp only [parseOK, tyOK, Bool.and_eq_true] at hp
    intro s
    refine Sat.bind (ch .filter hp.1.1 hp.2 s) fun r hr => Sat.ite (fun _ => Sat.pure (fail s)) fun _ => ?_
    refine Sat.bind (Sat.triv _) fun _ _ => Sat.bind (Sat.triv _) fun _ _ => ?_
    exact Sat.ite (fun _ => Sat.pure hr) fun _ => Sat.pure (fail s)
  | named q n =>
    simp only [parseOK, Bool.and_eq_true] at hp
    exact ch .named hp.1 hp.2
  | custom j =>
    intro s
    refine Sat.bind (ch (q := (C.custom j).body) .custom (hty j) (hpa j) s) fun r hr => ?_
    unfold convertResult
    split
    · exact Sat.pure hr
    · split
      · exact Sat.fail trivial
      · split
        · rename_i f hf
          refine Sat.pure ⟨hr.1, ?_⟩
          rintro v ⟨⟩
          have : (nonEmpty (f r.val).spans).Sublist (nonEmpty (Val.opt r.val).spans) := by
            unfold fromOptional at hf
            split at hf
            · cases hf; exact List.Sublist.refl _
            · exact nonEmpty_sublist (hn.convOpt _ _ _ _ hf)
          cases hrv : r.val with
          | none =>
            rw [hrv] at this
            exact (Ord.nil hr.1).sublist this
          | some w =>
            rw [hrv] at this
            exact (hr.2 w hrv).sublist this
        · split
          · exact Sat.pure hr
          · rename_i v hv
            refine Sat.bind (convert_ord hn.conv _ _ v) fun w hw' => Sat.pure ⟨hr.1, ?_⟩
            rintro v' ⟨⟩
            exact (hr.2 v hv).sublist hw'

theorem Parse_ord [LinearOrder α] {p : Parser α} (hc : Compiles C p) (hT : C.Typed)
    (hn : KeepsOrder C p) (s : Span) :
    Sat (Parse C p s) (fun r => r.rem.SuffixOf s ∧ ∀ v, r.val = some v → Ord s (nonEmpty v.spans) r.rem) anyErr := by
  refine Parse_sat fun n => ?_
  have : ∀ n (p : Parser α), KeepsOrder C p → tyOK C p = true → parseOK C p = true → ParseOrd (sem C n p) := by
    intro n
    induction n with
    | zero => exact fun _ _ _ _ _ => Sat.diverge
    | succ n ih =>
      exact fun p => step_ord hT hc.ctx.ty hc.ctx.parse n (fun q => sem_typed hT hc.ctx.ty hc.ctx.parse n q) ih p
  exact this n p hn hc.ty hc.parse s

end Tok3n
