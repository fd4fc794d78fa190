import Verif.Proof.Keeps
import Verif.Proof.Once
import Verif.Spec.Places
/-
What the spans in a result hold, counted along a run: together with what is left they never
hold more than the input did.
-/

namespace Tok3n

variable {α β A B : Type}

/-- A way to weigh spans: what is taken from the front and what is left weigh at most what
there was. -/
structure Weighs (g : Span → Nat) : Prop where
  empty : ∀ t, t.len = 0 → g t = 0
  split : ∀ s k s' t, s.Advanced k s' → InRegion s s' t → g t + g s' ≤ g s

section
variable {g : Span → Nat}

theorem Weighs.suffix (W : Weighs g) {s s' : Span} (h : s'.SuffixOf s) : g s' ≤ g s := by
  obtain ⟨k, h⟩ := h
  have := W.split s k s' .default h (.inl rfl)
  omega

def weight (g : Span → Nat) (v : Val) : Nat := (v.spans.map g).sum
def spanWeights (g : Span → Nat) (vs : List Val) : Nat := ((spansList vs).map g).sum

/-- the weight of the value of a result -/
def R.own (g : Span → Nat) (r : R) : Nat := match r.val with | some v => weight g v | none => 0

@[simp] theorem spanWeights_nil : spanWeights g [] = 0 := rfl
@[simp] theorem spanWeights_cons (v : Val) (vs : List Val) : spanWeights g (v :: vs) = weight g v + spanWeights g vs := by
  simp [spanWeights, weight, spansList]
theorem spanWeights_append (vs ws : List Val) : spanWeights g (vs ++ ws) = spanWeights g vs + spanWeights g ws := by
  induction vs with
  | nil => simp
  | cons v vs ih => simp only [List.cons_append, spanWeights_cons, ih]; omega
@[simp] theorem weight_unit : weight g .unit = 0 := rfl
@[simp] theorem weight_span (t : Span) : weight g (.span t) = g t := by simp [weight, Val.spans]
@[simp] theorem weight_vec (vs : List Val) : weight g (.vec vs) = spanWeights g vs := rfl
@[simp] theorem weight_arr (vs : List Val) : weight g (.arr vs) = spanWeights g vs := rfl
@[simp] theorem weight_tup (vs : List Val) : weight g (.tup vs) = spanWeights g vs := rfl
@[simp] theorem weight_opt_none : weight g (.opt none) = 0 := rfl
@[simp] theorem weight_opt (v : Val) : weight g (.opt (some v)) = weight g v := rfl
@[simp] theorem weight_var (i : Nat) (v : Val) : weight g (.var i v) = weight g v := rfl
@[simp] theorem weight_pair (a b : Val) : weight g (.pair a b) = weight g a + weight g b := by
  simp [weight, Val.spans]

theorem spanWeights_set (vs : List Val) (i : Nat) (v : Val) : spanWeights g (vs.set i v) ≤ spanWeights g vs + weight g v := by
  induction vs generalizing i with
  | nil => simp
  | cons w vs ih =>
    cases i with
    | zero => simp only [List.set_cons_zero, spanWeights_cons]; omega
    | succ i => have := ih i; simp only [List.set_cons_succ, spanWeights_cons]; omega

theorem sum_sublist {l l' : List Span} (h : l.Sublist l') : (l.map g).sum ≤ (l'.map g).sum := by
  induction h with
  | slnil => exact Nat.le_refl _
  | cons _ _ ih => simp only [List.map_cons, List.sum_cons]; omega
  | cons_cons _ _ ih => simp only [List.map_cons, List.sum_cons]; omega

theorem sum_subperm {l l' : List Span} (h : List.Subperm l l') : (l.map g).sum ≤ (l'.map g).sum := by
  obtain ⟨m, hm, hs⟩ := h
  have := sum_sublist (g := g) hs
  have : (m.map g).sum = (l.map g).sum := (hm.map g).sum_nat
  omega

theorem sum_nonEmpty (W : Weighs g) (l : List Span) : ((nonEmpty l).map g).sum = (l.map g).sum := by
  induction l with
  | nil => rfl
  | cons t l ih =>
    by_cases h : t.len = 0
    · have : nonEmpty (t :: l) = nonEmpty l := by simp [nonEmpty, h]
      simp [this, ih, W.empty t h]
    · have : nonEmpty (t :: l) = t :: nonEmpty l := by simp [nonEmpty, h]
      simp [this, ih]

theorem weight_zero (W : Weighs g) {v : Val} (h : ∀ x ∈ v.spans, x = Span.default) : weight g v = 0 := by
  unfold weight
  rw [← sum_nonEmpty W, nonEmpty_nil_of h]; rfl

theorem weight_le (W : Weighs g) {v : Val} {l : List Span} (h : List.Subperm (nonEmpty v.spans) l) :
    weight g v ≤ (l.map g).sum := by
  unfold weight
  rw [← sum_nonEmpty W]; exact sum_subperm h

/-! ### The builder -/

variable {C : Ctx α β} {T : Ty} {v : Val} {r : R}

variable (g) in
theorem deref_weight (r : R) : Sat r.deref (fun w => weight g w = r.own g) anyErr := by
  unfold R.deref
  cases h : r.val with
  | none => exact Sat.fail trivial
  | some v => exact Sat.pure (by simp [R.own, h])

theorem builderInit_weight (W : Weighs g) (hL : C.Local) : Sat (builderInit C T) (fun v => weight g v = 0) anyErr :=
  Sat.ofOption (fun v h => weight_zero W (defaultVal_spans hL T v h)) fun _ => trivial

theorem builderAssign_weight : Sat (builderAssign T v r) (fun w => weight g w ≤ weight g v + r.own g) anyErr := by
  unfold builderAssign
  split
  · exact Sat.pure (by omega)
  · exact (deref_weight g r).post fun w hw => by omega

theorem builderArrayAssign_weight (i : Nat) :
    Sat (builderArrayAssign T v i r) (fun w => weight g w ≤ weight g v + r.own g) anyErr := by
  unfold builderArrayAssign
  split
  · exact Sat.pure (by omega)
  · split
    · rename_i vs
      refine Sat.bind (deref_weight g r) fun w hw => ?_
      split
      · exact Sat.pure (by rw [← hw]; simpa using spanWeights_set vs i w)
      · exact Sat.fail trivial
    · exact Sat.fail trivial

theorem builderGetAssign_weight (i : Nat) :
    Sat (builderGetAssign T v i r) (fun w => weight g w ≤ weight g v + r.own g) anyErr := by
  unfold builderGetAssign
  split
  · exact Sat.pure (by omega)
  · split
    · rename_i vs
      refine Sat.bind (deref_weight g r) fun w hw => ?_
      split
      · exact Sat.pure (by rw [← hw]; simpa using spanWeights_set vs i w)
      · exact Sat.fail trivial
    · exact Sat.fail trivial

theorem builderEmplace_weight : Sat (builderEmplace T v r) (fun w => weight g w ≤ weight g v + r.own g) anyErr := by
  unfold builderEmplace
  split
  · exact Sat.pure (by omega)
  · split
    · exact Sat.bind (deref_weight g r) fun w hw => Sat.pure (by rw [← hw]; simp)
    · exact Sat.fail trivial

theorem convert_weight (W : Weighs g)
    (hconv : ∀ src dst f v, C.conv src dst = some f → List.Subperm (nonEmpty (f v).spans) v.spans) (a b : Ty) (v : Val) :
    Sat (convert C a b v) (fun w => weight g w ≤ weight g v) anyErr := by
  unfold convert
  split
  · exact Sat.pure (Nat.le_refl _)
  · split
    · rename_i f hf
      exact Sat.pure (weight_le W (hconv _ _ _ v hf))
    · exact Sat.fail trivial

theorem builderEmplaceAt_weight (W : Weighs g)
    (hconv : ∀ src dst f v, C.conv src dst = some f → List.Subperm (nonEmpty (f v).spans) v.spans) (i : Nat) (src : Ty) :
    Sat (builderEmplaceAt C T i src v r) (fun w => weight g w ≤ weight g v + r.own g) anyErr := by
  unfold builderEmplaceAt
  split
  · exact Sat.pure (by omega)
  · split
    · refine Sat.bind (deref_weight g r) fun w hw => Sat.bind (convert_weight W hconv _ _ w) fun w' hw' => ?_
      exact Sat.pure (by rw [← hw]; simp; omega)
    · exact Sat.fail trivial
  · exact Sat.fail trivial

theorem builderInsertBack_weight : Sat (builderInsertBack T v r) (fun w => weight g w ≤ weight g v + r.own g) anyErr := by
  unfold builderInsertBack
  split
  · exact Sat.pure (by omega)
  · split
    · exact Sat.bind (deref_weight g r) fun w hw => Sat.pure (by rw [← hw]; simp [spanWeights_append])
    · exact Sat.fail trivial

theorem builderInsertBackFirst_weight :
    Sat (builderInsertBackFirst T v r) (fun w => weight g w ≤ weight g v + r.own g) anyErr := by
  unfold builderInsertBackFirst
  split
  · exact Sat.pure (by omega)
  · split
    · exact Sat.bind (deref_weight g r) fun w hw => Sat.pure (by rw [← hw]; simp [spanWeights_append]; omega)
    · exact Sat.fail trivial

theorem builderInsertBackSecond_weight :
    Sat (builderInsertBackSecond T v r) (fun w => weight g w ≤ weight g v + r.own g) anyErr := by
  unfold builderInsertBackSecond
  split
  · exact Sat.pure (by omega)
  · split
    · exact Sat.bind (deref_weight g r) fun w hw => Sat.pure (by rw [← hw]; simp [spanWeights_append]; omega)
    · exact Sat.fail trivial

theorem build_weight (s : Span) : (builderBuild T v s).own g + g (builderBuild T v s).rem ≤ weight g v + g s := by
  unfold builderBuild
  split
  · simp [R.own, R.successVoid]
  · simp [R.own, R.success]

/-! ### Parsers -/

variable (g) in
/-- what is parsed and what is left weigh at most what there was -/
def ParseWeighs (P : Sub) : Prop := ∀ s, Sat (P.parse s) (fun r => r.own g + g r.rem ≤ g s) anyErr

theorem look_weight (W : Weighs g) {P : Sub} (h : LookQuiet C P) (s : Span) :
    Sat (P.look s) (fun r => r.own g = 0 ∧ g r.rem ≤ g s) anyErr := by
  refine (h s).sat.mono (fun r hr => ⟨?_, W.suffix hr.suffix⟩) fun _ _ => trivial
  unfold R.own
  cases hv : r.val with
  | none => rfl
  | some v => rw [hr.unit v hv]; rfl

theorem execute_weight (W : Weighs g)
    (hconv : ∀ src dst f v, C.conv src dst = some f → List.Subperm (nonEmpty (f v).spans) v.spans) {u c : Bool} {e : Elem}
    (st : Exec) (hl : LookQuiet C e.sub) (h : e.idx ≠ none → ParseWeighs g e.sub) :
    Sat (execute C T u c e st) (fun x => weight g x.2.value + g x.2.input ≤ weight g st.value + g st.input) anyErr := by
  unfold execute
  split
  · exact Sat.bind (look_weight W hl _) fun r hr => Sat.pure (by have := hr.2; dsimp only; omega)
  · rename_i i hi
    refine Sat.bind (h (by rw [hi]; nofun) _) fun r hr => ?_
    split
    · exact Sat.pure (Nat.le_refl _)
    · refine Sat.bind (Q := fun w => weight g w ≤ weight g st.value + r.own g) ?_ fun w hw =>
        Sat.pure (by dsimp only; omega)
      split
      · exact builderAssign_weight
      · split
        · exact builderEmplaceAt_weight W hconv _ _
        · exact builderGetAssign_weight _

theorem foldOr_weight {exec : Elem → Exec → Run (Bool × Exec)} (es : List Elem) (st : Exec)
    (h : ∀ e ∈ es, ∀ st, Sat (exec e st)
      (fun x => weight g x.2.value + g x.2.input ≤ weight g st.value + g st.input) anyErr) :
    Sat (foldOr exec es st) (fun x => weight g x.2.value + g x.2.input ≤ weight g st.value + g st.input) anyErr := by
  induction es generalizing st with
  | nil => exact Sat.pure (Nat.le_refl _)
  | cons e es ih =>
    unfold foldOr
    refine Sat.bind (h e (by simp) st) fun ⟨b, st'⟩ hx => ?_
    cases b
    · exact (ih _ fun e he => h e (by simp [he])).post fun y hy => Nat.le_trans hy hx
    · exact Sat.pure hx

theorem foldAnd_weight {exec : Elem → Exec → Run (Bool × Exec)} (es : List Elem) (st : Exec)
    (h : ∀ e ∈ es, ∀ st, Sat (exec e st)
      (fun x => weight g x.2.value + g x.2.input ≤ weight g st.value + g st.input) anyErr) :
    Sat (foldAnd exec es st) (fun x => weight g x.2.value + g x.2.input ≤ weight g st.value + g st.input) anyErr := by
  induction es generalizing st with
  | nil => exact Sat.pure (Nat.le_refl _)
  | cons e es ih =>
    unfold foldAnd
    refine Sat.bind (h e (by simp) st) fun ⟨b, st'⟩ hx => ?_
    cases b
    · exact Sat.pure hx
    · exact (ih _ fun e he => h e (by simp [he])).post fun y hy => Nat.le_trans hy hx

section
variable {P D : Sub} (h : ParseWeighs g P) (h' : ParseWeighs g D)
include h

theorem exactlyLoop_weight (T : Ty) (o : Span) (n i : Nat) (s : Span) (v : Val) (hv : weight g v + g s ≤ g o) :
    Sat (exactlyLoop T P o n i s v) (fun r => r.own g + g r.rem ≤ g o) anyErr := by
  induction n generalizing i s v with
  | zero => exact Sat.pure (Nat.le_trans (build_weight _) hv)
  | succ n ih =>
    unfold exactlyLoop
    refine Sat.bind (h s) fun r hr => ?_
    split
    · exact Sat.pure (by simp [R.own, R.failure])
    · exact Sat.bind (builderArrayAssign_weight (g := g) _) fun w hw => ih _ _ _ (by omega)

theorem oneOrMoreLoop_weight (T : Ty) (k : Nat) (b : Bool) (s : Span) (v : Val) :
    Sat (oneOrMoreLoop T P k b s v) (fun x => weight g x.2.2 + g x.2.1 ≤ weight g v + g s) anyErr := by
  induction k generalizing b s v with
  | zero => exact Sat.diverge
  | succ k ih =>
    unfold oneOrMoreLoop
    refine Sat.bind (h s) fun r hr => ?_
    dsimp only
    split
    · exact Sat.pure (by dsimp only; omega)
    · exact Sat.bind (builderInsertBack_weight (g := g)) fun w hw => (ih _ _ _).post fun x hx => by omega

theorem zeroOrMoreLoop_weight (T : Ty) (k : Nat) (s : Span) (v : Val) :
    Sat (zeroOrMoreLoop T P k s v) (fun x => weight g x.2 + g x.1 ≤ weight g v + g s) anyErr := by
  induction k generalizing s v with
  | zero => exact Sat.diverge
  | succ k ih =>
    unfold zeroOrMoreLoop
    refine Sat.bind (h s) fun r hr => ?_
    dsimp only
    split
    · exact Sat.pure (by dsimp only; omega)
    · exact Sat.bind (builderInsertBack_weight (g := g)) fun w hw => (ih _ _).post fun x hx => by omega

omit h in
theorem delimitRecordP_weight (T tp td : Ty) (v : Val) (r : R) :
    Sat (delimitRecordP T tp td v r) (fun w => weight g w ≤ weight g v + r.own g) anyErr := by
  unfold delimitRecordP
  split
  · split
    · exact builderInsertBack_weight
    · exact builderInsertBackFirst_weight
  · exact Sat.pure (by omega)

omit h in
theorem delimitRecordD_weight (T tp td : Ty) (v : Val) (r d : R) :
    Sat (delimitRecordD T tp td v r d) (fun w => weight g w ≤ weight g v + d.own g ∧
      (r.hasValue = false → weight g w ≤ weight g v)) anyErr := by
  unfold delimitRecordD
  split
  · split
    · rename_i hr
      split
      · exact builderInsertBack_weight.post fun w hw => ⟨hw, fun h => by simp [hr] at h⟩
      · exact builderInsertBackSecond_weight.post fun w hw => ⟨hw, fun h => by simp [hr] at h⟩
    · exact Sat.pure ⟨by omega, fun _ => Nat.le_refl _⟩
  · exact Sat.pure ⟨by omega, fun _ => Nat.le_refl _⟩

include h' in
theorem delimitLoop_weight (T tp td : Ty) (k : Nat) (r : R) (s : Span) (v : Val) (c : Nat)
    (h1 : r.hasValue = false → weight g v + g s ≤ c) (h2 : weight g v + r.own g + g r.rem ≤ c) :
    Sat (delimitLoop T tp td P D k r s v) (fun x => weight g x.2 + g x.1 ≤ c) anyErr := by
  induction k generalizing r s v with
  | zero => exact Sat.diverge
  | succ k ih =>
    unfold delimitLoop
    split
    · rename_i hr
      exact Sat.pure (h1 (by simpa using hr))
    · dsimp only
      refine Sat.bind (delimitRecordP_weight (g := g) _ _ _ _ _) fun w hw => Sat.bind (h' _) fun d hd => ?_
      split
      · exact Sat.pure (by dsimp only; omega)
      · refine Sat.bind (h _) fun r' hr' => Sat.bind (delimitRecordD_weight (g := g) T tp td w r' d) fun w' hw' => ?_
        refine ih _ _ _ ?_ ?_
        · intro hn; have := hw'.2 hn; omega
        · omega

end

/-- an element that is parsed was checked to be parsable -/
theorem mkElems_parsed {rec : Parser α → Sub} {ps : List (Parser α)} {is : List (Option Nat)} (hty : tysOK C ps = true)
    (hpa : parsesOK C ps is = true) {e : Elem} (he : e ∈ mkElems rec C ps is) :
    ∃ p ∈ ps, e.sub = rec p ∧ e.ty = resultFor C p ∧ (e.idx ≠ none → tyOK C p = true ∧ parseOK C p = true) := by
  induction ps generalizing is with
  | nil => simp [mkElems] at he
  | cons p ps ih =>
    cases is with
    | nil => simp [mkElems] at he
    | cons i is =>
      simp only [tysOK, Bool.and_eq_true] at hty
      simp only [mkElems, List.mem_cons] at he
      have hpa' : parsesOK C ps is = true := by
        cases i with
        | none => simpa [parsesOK] using hpa
        | some i => simp [parsesOK] at hpa; exact hpa.2
      rcases he with rfl | he
      · refine ⟨p, by simp, rfl, rfl, fun hi => ?_⟩
        cases i with
        | none => exact absurd rfl hi
        | some i => simp [parsesOK] at hpa; exact ⟨hty.1, hpa.1⟩
      · obtain ⟨q, h1, h2⟩ := ih hty.2 hpa' he
        exact ⟨q, by simp [h1], h2⟩

theorem CopiesNone.child {p q : Parser α} (h : CopiesNone C p) (hc : ParseChild C p q) : CopiesNone C q :=
  ⟨h.toSpanLocal.child hc, h.conv, h.convOpt, fun r f hr => h.fns r f (.step hc hr)⟩

theorem GoodSpan.weight (W : Weighs g) {s : Span} {m : Run R} {E} (h : Quiet m (GoodSpan s) E) :
    Sat m (fun r => r.own g + g r.rem ≤ g s) anyErr := by
  refine h.sat.mono (fun r hr => ?_) fun _ _ => trivial
  unfold R.own
  cases hv : r.val with
  | none => have := W.suffix hr.suffix; dsimp only; omega
  | some v =>
    obtain ⟨k, rfl, hk⟩ := hr.val v hv
    simpa using W.split _ _ _ _ hk hk.inRegion

theorem fromOptional_weight (W : Weighs g)
    (hconv : ∀ src dst f o, C.convOpt src dst = some f → List.Subperm (nonEmpty (f o).spans) (Val.opt o).spans) {a b : Ty}
    {f : Option Val → Val} (hf : fromOptional C a b = some f) (o : Option Val) : weight g (f o) ≤ weight g (.opt o) := by
  unfold fromOptional at hf
  split at hf
  · cases hf; exact Nat.le_refl _
  · exact weight_le W (hconv _ _ _ _ hf)

theorem step_weight (W : Weighs g) (hT : C.Typed) (hty : ∀ k, tyOK C (C.custom k).body = true)
    (hpa : ∀ k, parseOK C (C.custom k).body = true) {rec : Parser α → Sub} (k : Nat) (h : ∀ q, TypedSub C q (rec q))
    (hw : ∀ q, CopiesNone C q → tyOK C q = true → parseOK C q = true → ParseWeighs g (rec q)) (p : Parser α)
    (hn : CopiesNone C p) (ht : tyOK C p = true) (hp : parseOK C p = true) : ParseWeighs g (step C rec k p) := by
  have hL := hn.ctx
  have ch : ∀ {q}, ParseChild C p q → tyOK C q = true → parseOK C q = true → ParseWeighs g (rec q) :=
    fun hc => hw _ (hn.child hc)
  have fail : ∀ s, (R.failure s).own g + g (R.failure s).rem ≤ g s := fun s => by simp [R.own, R.failure]
  cases p with
  | anyOf _ | noneOf _ | allOf _ | anything => exact fun s => GoodSpan.weight W (parseBasic_quiet _ s)
  | epsilon => exact fun s => Sat.pure (by simp [R.own, R.successVoid])
  | choice ps =>
    simp only [parseOK, Bool.and_eq_true] at hp
    obtain ⟨⟨⟨h1, h2⟩, h3⟩, h4⟩ := hp
    intro s
    show Sat (parseChoice ..) _ _
    refine Sat.bind (builderInit_weight W hL) fun v hv => Sat.bind (foldOr_weight (g := g) _ ⟨s, v⟩ fun e he st => ?_) fun ⟨b, st⟩ hx => ?_
    · obtain ⟨q, hm, hq, -, hpq⟩ := mkElems_parsed h1 h4 he
      exact execute_weight W hn.conv st (by rw [hq]; exact (h q).1) fun hi => by
        rw [hq]; exact ch (.choice hm) (hpq hi).1 (hpq hi).2
    · refine Sat.ite (fun _ => Sat.pure (fail s)) fun _ => Sat.pure ?_
      have := build_weight (g := g) (T := (choiceTrait (resultsFor C ps)).ty) (v := st.value) st.input
      dsimp only at hx
      omega
  | sequence ps =>
    simp only [parseOK, Bool.and_eq_true] at hp
    obtain ⟨⟨⟨h1, h2⟩, h3⟩, h4⟩ := hp
    intro s
    show Sat (parseSequence ..) _ _
    refine Sat.bind (builderInit_weight W hL) fun v hv => Sat.bind (foldAnd_weight (g := g) _ ⟨s, v⟩ fun e he st => ?_) fun ⟨b, st⟩ hx => ?_
    · obtain ⟨q, hm, hq, -, hpq⟩ := mkElems_parsed h1 h4 he
      exact execute_weight W hn.conv st (by rw [hq]; exact (h q).1) fun hi => by
        rw [hq]; exact ch (.sequence hm) (hpq hi).1 (hpq hi).2
    · refine Sat.ite (fun _ => Sat.pure (fail s)) fun _ => Sat.pure ?_
      have := build_weight (g := g) (T := (sequenceTrait (resultsFor C ps)).ty) (v := st.value) st.input
      dsimp only at hx
      omega
  | maybe q =>
    simp only [parseOK, Bool.and_eq_true] at hp
    intro s
    refine Sat.bind (builderInit_weight W hL) fun v hv => Sat.bind (ch .maybe hp.1 hp.2 s) fun r hr =>
      Sat.bind (Q := fun w => weight g w ≤ weight g v + r.own g) ?_ fun w hw' => Sat.pure ?_
    · exact Sat.ite (fun _ => builderEmplace_weight) fun _ => Sat.pure (by omega)
    · exact Nat.le_trans (build_weight _) (by omega)
  | exactly q n =>
    simp only [parseOK, Bool.and_eq_true] at hp
    intro s
    exact Sat.bind (builderInit_weight W hL) fun v hv => exactlyLoop_weight (ch .exactly hp.1.1 hp.1.2) _ _ _ _ _ _ (by omega)
  | oneOrMore q =>
    simp only [parseOK, Bool.and_eq_true] at hp
    intro s
    refine Sat.bind (builderInit_weight W hL) fun v hv => Sat.bind (oneOrMoreLoop_weight (ch .oneOrMore hp.1 hp.2) _ _ _ _ _)
      fun ⟨b, s', w⟩ hx => Sat.ite (fun _ => Sat.pure (Nat.le_trans (build_weight _) ?_)) fun _ =>
        Sat.pure (Nat.le_trans (fail s') ?_)
    all_goals dsimp only at hx; omega
  | zeroOrMore q =>
    simp only [parseOK, Bool.and_eq_true] at hp
    intro s
    refine Sat.bind (builderInit_weight W hL) fun v hv => Sat.bind (zeroOrMoreLoop_weight (ch .zeroOrMore hp.1 hp.2) _ _ _ _)
      fun ⟨s', w⟩ hx => Sat.pure (Nat.le_trans (build_weight _) ?_)
    dsimp only at hx; omega
  | delimit q d =>
    simp only [parseOK, Bool.and_eq_true] at hp
    intro s
    refine Sat.bind (builderInit_weight W hL) fun v hv => Sat.bind (ch .delimit hp.1.1.1 hp.1.2 s) fun r hr =>
      Sat.ite (fun _ => Sat.pure (fail s)) fun _ =>
      Sat.bind (delimitLoop_weight (ch .delimit hp.1.1.1 hp.1.2) (ch .delimiter hp.1.1.2 hp.2) _ _ _ _ _ _ _ (g s)
        (fun _ => by omega) (by omega)) fun ⟨s', w⟩ hx => Sat.pure (Nat.le_trans (build_weight _) hx)
  | ignore q => exact fun s => (look_weight W (h q).1 s).post fun r hr => by omega
  | complete q =>
    simp only [parseOK, Bool.and_eq_true] at hp
    exact fun s => Sat.bind (ch .complete hp.1 hp.2 s) fun r hr => Sat.ite (fun _ => Sat.pure (fail s)) fun _ => Sat.pure hr
  | join q =>
    intro s
    refine ((step_typed hT hty hpa k h (.join q)).2 ht hp s).mono (fun r hr => ?_) fun _ _ => trivial
    unfold R.own
    cases hv : r.val with
    | none => have := W.suffix hr.suffix; dsimp only; omega
    | some v =>
      have hvok := hr.val v hv
      obtain ⟨j, rfl⟩ := hvok.ty
      obtain ⟨k, hk⟩ := hr.suffix
      simpa using W.split _ _ _ j hk (hvok.spans j (by simp [Val.spans]) hn.toSpanLocal)
  | map q f =>
    simp only [parseOK, tyOK, Bool.and_eq_true] at hp
    intro s
    refine Sat.bind (ch .map hp.1.1 hp.2 s) fun r hr => Sat.ite (fun _ => Sat.pure (fail s)) fun _ => ?_
    refine Sat.bind (Q := fun args => spanWeights g args ≤ r.own g) ?_ fun args ha => ?_
    · unfold argVals
      split
      · exact Sat.pure (by simp)
      · exact Sat.bind (deref_weight g r) fun w hw' => Sat.pure (by simp [hw'])
    · refine Sat.bind (Q := fun v => weight g v ≤ spanWeights g args) (Sat.intro (fun l v hv => ?_) fun _ _ _ => trivial) fun v hv => ?_
      · exact weight_le W (hn.fns q f .refl args l v hv)
      · refine Sat.ite (fun _ => Sat.pure ?_) fun _ => Sat.pure ?_
        · simp only [R.own, R.successVoid, weight_unit]; omega
        · simp only [R.own, R.success]; omega
  | filter q f =>
    simp only [parseOK, tyOK, Bool.and_eq_true] at hp
    intro s
    refine Sat.bind (ch .filter hp.1.1 hp.2 s) fun r hr => Sat.ite (fun _ => Sat.pure (fail s)) fun _ => ?_
    refine Sat.bind (Sat.triv _) fun _ _ => Sat.bind (Sat.triv _) fun _ _ => ?_
    exact Sat.ite (fun _ => Sat.pure hr) fun _ => Sat.pure (fail s)
  | named q n =>
    simp only [parseOK, Bool.and_eq_true] at hp
    exact ch .named hp.1 hp.2
  | custom j =>
    intro s
    refine Sat.bind (ch (q := (C.custom j).body) .custom (hty j) (hpa j) s) fun r hr => ?_
    unfold convertResult
    split
    · exact Sat.pure hr
    · split
      · exact Sat.fail trivial
      · split
        · rename_i f hf
          refine Sat.pure ?_
          have := fromOptional_weight W hn.convOpt hf r.val
          have e : weight g (.opt r.val) = r.own g := by unfold R.own; cases r.val <;> rfl
          simp only [R.own]
          omega
        · split
          · exact Sat.pure hr
          · rename_i v hv
            refine Sat.bind (convert_weight W hn.conv _ _ v) fun w hw' => Sat.pure ?_
            simp only [R.own, hv] at hr ⊢
            omega

theorem Parse_weight [LinearOrder α] (W : Weighs g) {p : Parser α} (hc : Compiles C p) (hT : C.Typed)
    (hn : CopiesNone C p) (s : Span) : Sat (Parse C p s) (fun r => r.own g + g r.rem ≤ g s) anyErr := by
  refine Parse_sat fun n => ?_
  have : ∀ n (p : Parser α), CopiesNone C p → tyOK C p = true → parseOK C p = true → ParseWeighs g (sem C n p) := by
    intro n
    induction n with
    | zero => exact fun _ _ _ _ _ => Sat.diverge
    | succ n ih =>
      exact fun p => step_weight W hT hc.ctx.ty hc.ctx.parse n (fun q => sem_typed hT hc.ctx.ty hc.ctx.parse n q) ih p
  exact this n p hn hc.ty hc.parse s

end

end Tok3n
