import Verif.Proof.EffortBound
import Verif.Proof.Ranked
/-
Proofs for C65: a bound for grammars that recurse.
-/

namespace Tok3n

variable {α β : Type} {C : Ctx α β}

/-! ### Sums -/

/-- `f 0 + … + f (n - 1)` -/
def sumTo (f : Nat → Nat) : Nat → Nat
  | 0 => 0
  | n + 1 => sumTo f n + f n

theorem sumTo_mono (f : Nat → Nat) {n m : Nat} (h : n ≤ m) : sumTo f n ≤ sumTo f m := by
  induction h with
  | refl => exact Nat.le_refl _
  | step _ ih => exact Nat.le_trans ih (Nat.le_add_right ..)

theorem le_sumTo (f : Nat → Nat) {m n : Nat} (h : m < n) : f m ≤ sumTo f n :=
  Nat.le_trans (Nat.le_add_left ..) (sumTo_mono f (Nat.succ_le_of_lt h))

theorem sumTo_le {f g : Nat → Nat} {n : Nat} (h : ∀ m < n, f m ≤ g m) : sumTo f n ≤ sumTo g n := by
  induction n with
  | zero => exact Nat.le_refl _
  | succ n ih => exact Nat.add_le_add (ih fun m hm => h m (by omega)) (h n (by omega))

theorem sumTo_add (f g : Nat → Nat) (n : Nat) : sumTo (fun m => f m + g m) n = sumTo f n + sumTo g n := by
  induction n with
  | zero => rfl
  | succ n ih => simp only [sumTo, ih]; omega

theorem sumTo_pow {K : Nat} (hK : 2 ≤ K) (n : Nat) : sumTo (fun m => K ^ (m + 1)) n ≤ 2 * K ^ n := by
  induction n with
  | zero => exact Nat.zero_le _
  | succ n ih =>
    have h : 2 * K ^ n ≤ K ^ (n + 1) := by rw [Nat.pow_succ, Nat.mul_comm]; exact Nat.mul_le_mul_left _ hK
    simp only [sumTo]; omega

/-! ### What the functions cost on inputs of each length -/

/-- on readable inputs of length at most `n` the functions cost at most what `f` says for the length -/
structure CostsUpTo (C : Ctx α β) (P : Sub) (n : Nat) (f : Nat → Nat) : Prop where
  parse : ∀ s : Span, s.Valid C.mem → s.len ≤ n → Costs (P.parse s) (f s.len)
  look : ∀ s : Span, s.Valid C.mem → s.len ≤ n → Costs (P.look s) (f s.len)

section loops
variable {P D : Sub} {n e : Nat} {f g : Nat → Nat}

theorem exactlyLoop_upTo (h : CostsUpTo C P n fun _ => e) (hg : SubGood P) (T : Ty) (o : Span) (k i : Nat) (s : Span) (v : Val)
    (hs : s.Valid C.mem) (hn : s.len ≤ n) : Costs (exactlyLoop T P o k i s v) (k * e) := by
  induction k generalizing i s v with
  | zero => exact .pure
  | succ k ih =>
    refine (Costs.bind (b' := k * e) (h.parse s hs hn) fun l r hr => ?_).mono (by rw [Nat.add_mul]; omega)
    have hl := ((hg.parse s).at hr).suffix
    exact .ite (fun _ => .pure) fun _ => .bind0 (builderArrayAssign_logs ..) fun v =>
      ih _ _ _ (hl.valid hs) (Nat.le_trans hl.len_le hn)

theorem lookExactlyLoop_upTo (h : CostsUpTo C P n fun _ => e) (hg : SubGood P) (o : Span) (k : Nat) (s : Span)
    (hs : s.Valid C.mem) (hn : s.len ≤ n) : Costs (lookExactlyLoop P o k s) (k * e) := by
  induction k generalizing s with
  | zero => exact .pure
  | succ k ih =>
    refine (Costs.bind (b' := k * e) (h.look s hs hn) fun l r hr => ?_).mono (by rw [Nat.add_mul]; omega)
    have hl := ((hg.look s).at hr).suffix
    exact .ite (fun _ => .pure) fun _ => ih _ (hl.valid hs) (Nat.le_trans hl.len_le hn)

theorem oneOrMoreLoop_upTo (h : CostsUpTo C P n f) (hg : SubGood P) (T : Ty) (k : Nat) (b : Bool) (s : Span) (v : Val)
    (hs : s.Valid C.mem) (hn : s.len ≤ n) : Costs (oneOrMoreLoop T P k b s v) (sumTo f (s.len + 1)) := by
  induction k generalizing b s v with
  | zero => exact .diverge
  | succ k ih =>
    refine (Costs.bind (b' := sumTo f s.len) (h.parse s hs hn) fun l r hr => ?_).mono (by simp only [sumTo]; omega)
    refine .ite (fun _ => .pure) fun hv => ?_
    have hv : r.hasValue = true := by simpa using hv
    have hl := ((hg.parse s).at hr).suffix
    by_cases hlt : r.rem.len < s.len
    · exact .bind0 (builderInsertBack_logs ..) fun w =>
        (ih _ r.rem _ (hl.valid hs) (by omega)).mono (sumTo_mono f hlt)
    · have hrs := hl.eq_of_len (Nat.le_antisymm hl.len_le (by omega))
      refine (Costs.bind (b' := sumTo f s.len) (builderInsertBack_logs ..).costs fun l w hw => ?_).mono
        (Nat.le_of_eq (Nat.zero_add _))
      rw [hrs, oneOrMoreLoop_stuck hr hv hrs _ _ _ (insertBack_can hw)]
      exact .diverge

theorem zeroOrMoreLoop_upTo (h : CostsUpTo C P n f) (hg : SubGood P) (T : Ty) (k : Nat) (s : Span) (v : Val)
    (hs : s.Valid C.mem) (hn : s.len ≤ n) : Costs (zeroOrMoreLoop T P k s v) (sumTo f (s.len + 1)) := by
  induction k generalizing s v with
  | zero => exact .diverge
  | succ k ih =>
    refine (Costs.bind (b' := sumTo f s.len) (h.parse s hs hn) fun l r hr => ?_).mono (by simp only [sumTo]; omega)
    refine .ite (fun _ => .pure) fun hv => ?_
    have hv : r.hasValue = true := by simpa using hv
    have hl := ((hg.parse s).at hr).suffix
    by_cases hlt : r.rem.len < s.len
    · exact .bind0 (builderInsertBack_logs ..) fun w =>
        (ih r.rem _ (hl.valid hs) (by omega)).mono (sumTo_mono f hlt)
    · have hrs := hl.eq_of_len (Nat.le_antisymm hl.len_le (by omega))
      refine (Costs.bind (b' := sumTo f s.len) (builderInsertBack_logs ..).costs fun l w hw => ?_).mono
        (Nat.le_of_eq (Nat.zero_add _))
      rw [hrs, zeroOrMoreLoop_stuck hr hv hrs _ _ (insertBack_can hw)]
      exact .diverge

theorem lookOneOrMoreLoop_stuck {s : Span} {l r} (hr : P.look s = .done l (.ok r)) (hv : r.hasValue = true)
    (hs : r.rem = s) (k : Nat) (b : Bool) : lookOneOrMoreLoop P k b s = .diverge := by
  induction k generalizing b with
  | zero => rfl
  | succ k ih =>
    simp only [lookOneOrMoreLoop, M.bind_eq, hr, M.ok_bind, hv, Bool.not_true, Bool.false_eq_true, if_false, hs]
    rw [ih]; rfl

theorem lookZeroOrMoreLoop_stuck {s : Span} {l r} (hr : P.look s = .done l (.ok r)) (hv : r.hasValue = true)
    (hs : r.rem = s) (k : Nat) : lookZeroOrMoreLoop P k s = .diverge := by
  induction k with
  | zero => rfl
  | succ k ih =>
    simp only [lookZeroOrMoreLoop, M.bind_eq, hr, M.ok_bind, hv, Bool.not_true, Bool.false_eq_true, if_false, hs]
    rw [ih]; rfl

theorem lookOneOrMoreLoop_upTo (h : CostsUpTo C P n f) (hg : SubGood P) (k : Nat) (b : Bool) (s : Span)
    (hs : s.Valid C.mem) (hn : s.len ≤ n) : Costs (lookOneOrMoreLoop P k b s) (sumTo f (s.len + 1)) := by
  induction k generalizing b s with
  | zero => exact .diverge
  | succ k ih =>
    refine (Costs.bind (b' := sumTo f s.len) (h.look s hs hn) fun l r hr => ?_).mono (by simp only [sumTo]; omega)
    refine .ite (fun _ => .pure) fun hv => ?_
    have hv : r.hasValue = true := by simpa using hv
    have hl := ((hg.look s).at hr).suffix
    by_cases hlt : r.rem.len < s.len
    · exact (ih _ r.rem (hl.valid hs) (by omega)).mono (sumTo_mono f hlt)
    · have hrs := hl.eq_of_len (Nat.le_antisymm hl.len_le (by omega))
      rw [hrs, lookOneOrMoreLoop_stuck hr hv hrs]
      exact .diverge

theorem lookZeroOrMoreLoop_upTo (h : CostsUpTo C P n f) (hg : SubGood P) (k : Nat) (s : Span)
    (hs : s.Valid C.mem) (hn : s.len ≤ n) : Costs (lookZeroOrMoreLoop P k s) (sumTo f (s.len + 1)) := by
  induction k generalizing s with
  | zero => exact .diverge
  | succ k ih =>
    refine (Costs.bind (b' := sumTo f s.len) (h.look s hs hn) fun l r hr => ?_).mono (by simp only [sumTo]; omega)
    refine .ite (fun _ => .pure) fun hv => ?_
    have hv : r.hasValue = true := by simpa using hv
    have hl := ((hg.look s).at hr).suffix
    by_cases hlt : r.rem.len < s.len
    · exact (ih r.rem (hl.valid hs) (by omega)).mono (sumTo_mono f hlt)
    · have hrs := hl.eq_of_len (Nat.le_antisymm hl.len_le (by omega))
      rw [hrs, lookZeroOrMoreLoop_stuck hr hv hrs]
      exact .diverge

section delimit
variable {N : Prop} (h : CostsUpTo C P n f) (hf : ∀ a b, a ≤ b → b ≤ n → f a ≤ f b) (hg : SubGood P) (hg' : SubGood D)
include h hf hg hg'

theorem delimitLoop_upTo
    (h' : ∀ s : Span, s.Valid C.mem → s.len ≤ n → (s.len = n → N) → Costs (D.parse s) (g s.len))
    (T tp td : Ty) (k : Nat) (r : R) (o : Span) (v : Val) (hs : r.rem.Valid C.mem) (hn : r.rem.len ≤ n)
    (hr : r.hasValue = true → r.rem.len = n → N) :
    Costs (delimitLoop T tp td P D k r o v) (sumTo (fun m => f m + g m) (r.rem.len + 1)) := by
  induction k generalizing r o v with
  | zero => exact .diverge
  | succ k ih =>
    refine .ite (fun _ => .pure) fun hv => ?_
    have hv : r.hasValue = true := by simpa using hv
    refine (Costs.bind (b' := g r.rem.len + (f r.rem.len + sumTo (fun m => f m + g m) r.rem.len))
      (delimitRecordP_logs ..).costs fun _ w hw => ?_).mono (by simp only [sumTo]; omega)
    refine Costs.bind (h' _ hs hn (hr hv)) fun l d hd => .ite (fun _ => .pure) fun hdv => ?_
    have hdv : d.hasValue = true := by simpa using hdv
    have hl := ((hg'.parse _).at hd).suffix
    refine Costs.bind ((h.parse _ (hl.valid hs) (Nat.le_trans hl.len_le hn)).mono (hf _ _ hl.len_le hn)) fun l' r' hr' => ?_
    have hl' := ((hg.parse _).at hr').suffix
    refine (Costs.bind (b' := sumTo (fun m => f m + g m) r.rem.len) (delimitRecordD_logs ..).costs fun _ u hu => ?_).mono
      (Nat.le_of_eq (Nat.zero_add _))
    by_cases hlt : r'.rem.len < r.rem.len
    · exact (ih _ _ _ (hl'.valid (hl.valid hs)) (by omega) fun _ h => by omega).mono (sumTo_mono _ hlt)
    · cases hv' : r'.hasValue with
      | false =>
        cases k with
        | zero => exact .diverge
        | succ k =>
          unfold delimitLoop
          rw [if_pos (by simp [hv'])]
          exact .pure
      | true =>
        have hrs := (hl'.trans hl).eq_of_len (Nat.le_antisymm (hl'.trans hl).len_le (by omega))
        rw [delimitLoop_stuck hd hdv hr' hv' hrs _ _ _ (canRecord_of hv' hw hu)]
        exact .diverge

theorem lookDelimitLoop_upTo
    (h' : ∀ s : Span, s.Valid C.mem → s.len ≤ n → (s.len = n → N) → Costs (D.look s) (g s.len))
    (k : Nat) (r : R) (o : Span) (hs : r.rem.Valid C.mem) (hn : r.rem.len ≤ n)
    (hr : r.hasValue = true → r.rem.len = n → N) :
    Costs (lookDelimitLoop P D k r o) (sumTo (fun m => f m + g m) (r.rem.len + 1)) := by
  induction k generalizing r o with
  | zero => exact .diverge
  | succ k ih =>
    refine .ite (fun _ => .pure) fun hv => ?_
    have hv : r.hasValue = true := by simpa using hv
    refine (Costs.bind (b' := f r.rem.len + sumTo (fun m => f m + g m) r.rem.len)
      (h' _ hs hn (hr hv)) fun l d hd => .ite (fun _ => .pure) fun hdv => ?_).mono (by simp only [sumTo]; omega)
    have hdv : d.hasValue = true := by simpa using hdv
    have hl := ((hg'.look _).at hd).suffix
    refine Costs.bind ((h.look _ (hl.valid hs) (Nat.le_trans hl.len_le hn)).mono (hf _ _ hl.len_le hn)) fun l' r' hr' => ?_
    have hl' := ((hg.look _).at hr').suffix
    by_cases hlt : r'.rem.len < r.rem.len
    · exact (ih _ _ (hl'.valid (hl.valid hs)) (by omega) fun _ h => by omega).mono (sumTo_mono _ hlt)
    · cases hv' : r'.hasValue with
      | false =>
        cases k with
        | zero => exact .diverge
        | succ k =>
          unfold lookDelimitLoop
          rw [if_pos (by simp [hv'])]
          exact .pure
      | true =>
        have hrs := (hl'.trans hl).eq_of_len (Nat.le_antisymm (hl'.trans hl).len_le (by omega))
        have hstuck : ∀ k o, lookDelimitLoop P D k r' o = .diverge := by
          intro k
          induction k with
          | zero => intro o; rfl
          | succ k ih =>
            intro o
            simp only [lookDelimitLoop, M.bind_eq, hrs, hd, hr', M.ok_bind, hv', hdv, Bool.not_true, Bool.false_eq_true,
              if_false]
            rw [ih]; rfl
        rw [hstuck]
        exact .diverge

end delimit
end loops

/-! ### Choices and sequences -/

section
variable {rec : Parser α → Sub} {n : Nat}

/-- what comes back from a part is what the part gives -/
structure Tells (C : Ctx α β) (P : Sub) (q : Parser α) : Prop where
  good : SubGood P
  parse : ∀ s l r, P.parse s = .done l (.ok r) → ∃ l', Parse C q s = .done l' (.ok r)
  look : ∀ s l r, P.look s = .done l (.ok r) → ∃ l', Look C q s = .done l' (.ok r)

theorem counted_tells (k : Nat) (q : Parser α) : Tells C (counted C k q) q :=
  ⟨counted_good k q,
    fun s l r h => ⟨unmarked l, by rw [← CountedParse_erases, CountedParse_eq_done.2 ⟨k, h⟩]; rfl⟩,
    fun s l r h => ⟨unmarked l, by rw [← CountedLook_erases, CountedLook_eq_done.2 ⟨k, h⟩]; rfl⟩⟩

theorem Tells.null_parse {P : Sub} {q : Parser α} (h : Tells C P q) {s : Span} (hs : s.Valid C.mem) {l r}
    (hr : P.parse s = .done l (.ok r)) (hv : r.hasValue = true) (hl : r.rem.len = s.len) : Nullable C q := by
  obtain ⟨_ | v, rem⟩ := r
  · cases hv
  · obtain ⟨l', h'⟩ := h.parse s l _ hr
    exact .of_parse hs h' hl

theorem Tells.null_look {P : Sub} {q : Parser α} (h : Tells C P q) {s : Span} (hs : s.Valid C.mem) {l r}
    (hr : P.look s = .done l (.ok r)) (hv : r.hasValue = true) (hl : r.rem.len = s.len) : Nullable C q := by
  obtain ⟨_ | v, rem⟩ := r
  · cases hv
  · obtain ⟨l', h'⟩ := h.look s l _ hr
    exact .of_look hs h' hl

theorem execute_null {e : Elem} {q : Parser α} (h : Tells C e.sub q) {T : Ty} {u c : Bool} {st st' : Exec} {l}
    (hs : st.input.Valid C.mem) (hx : execute C T u c e st = .done l (.ok (true, st'))) (hl : st'.input.len = st.input.len) :
    Nullable C q := by
  obtain ⟨P, t, i⟩ := e
  cases i with
  | none =>
    simp only [execute, M.bind_eq, M.bind_eq_ok, M.pure_eq_ok, Prod.mk.injEq] at hx
    obtain ⟨l1, l2, r, h1, ⟨-, hv, rfl⟩, -⟩ := hx
    exact h.null_look hs h1 hv.symm hl
  | some i =>
    simp only [execute, M.bind_eq, M.bind_eq_ok] at hx
    obtain ⟨l1, l2, r, h1, h2, -⟩ := hx
    cases hv : r.hasValue with
    | false => simp [hv] at h2
    | true =>
      simp only [hv, Bool.not_true, Bool.false_eq_true, if_false, M.bind_eq_ok] at h2
      obtain ⟨l3, l4, w, -, h4, -⟩ := h2
      simp only [M.pure_eq_ok, Prod.mk.injEq] at h4
      obtain ⟨-, -, rfl⟩ := h4
      exact h.null_parse hs h1 hv hl

/-- costs at one input -/
def CostsAt (P : Sub) (s : Span) (b : Nat) : Prop := Costs (P.parse s) b ∧ Costs (P.look s) b

theorem execute_at {e : Elem} {b : Nat} (T : Ty) (u c : Bool) (st : Exec) (h : CostsAt e.sub st.input b) :
    Costs (execute C T u c e st) b := by
  obtain ⟨P, t, i⟩ := e
  cases i with
  | none => exact .bindr h.2 fun _ => .pure
  | some i =>
    refine .bindr h.1 fun r => .ite .pure (.bind0 ?_ fun _ => .pure)
    exact .ite (builderAssign_logs ..) (.ite (builderEmplaceAt_logs ..) (builderGetAssign_logs ..))

/-- the elements run the parsers in turn -/
inductive RunsBy (rec : Parser α → Sub) : List Elem → List (Parser α) → Prop where
  | nil {ps} : RunsBy rec [] ps
  | cons {t i es q ps} : RunsBy rec es ps → RunsBy rec (⟨rec q, t, i⟩ :: es) (q :: ps)

theorem runsBy_mkElems (ps : List (Parser α)) (is : List (Option Nat)) : RunsBy rec (mkElems rec C ps is) ps := by
  induction ps generalizing is with
  | nil => cases is <;> exact .nil
  | cons p ps ih =>
    cases is with
    | nil => exact .nil
    | cons i is => exact .cons (ih is)

theorem runsBy_mkLookElems (ps : List (Parser α)) : RunsBy rec (mkLookElems rec C ps) ps := by
  induction ps with
  | nil => exact .nil
  | cons p ps ih => exact .cons ih

theorem foldOr_at (ht : ∀ q, Tells C (rec q) q) {es : List Elem} {ps : List (Parser α)} (he : RunsBy rec es ps) {e : Parser α → Nat} (T : Ty) (u c : Bool)
    (st : Exec) (hs : st.input.Valid C.mem) (hn : st.input.len ≤ n)
    (h : ∀ q ∈ ps, ∀ s : Span, s.Valid C.mem → s.len ≤ n → CostsAt (rec q) s (e q)) :
    Costs (foldOr (execute C T u c) es st) (ps.map e).sum := by
  induction he generalizing st with
  | nil => exact .pure
  | @cons t i es q ps _ ih =>
    rw [List.map_cons, List.sum_cons]
    refine Costs.bind (execute_at T u c st (h q (.head _) _ hs hn)) fun l y hy => ?_
    have := (execute_suffix (C := C) (e := ⟨rec q, t, i⟩) (ht q).good T u c st).at hy
    exact .ite (fun _ => .pure) fun _ => ih _ (this.valid hs) (Nat.le_trans this.len_le hn) fun r hr => h r (.tail _ hr)

theorem foldAnd_at (ht : ∀ q, Tells C (rec q) q) {es : List Elem} {ps : List (Parser α)} (he : RunsBy rec es ps) {e : Parser α → Nat} (T : Ty)
    (u c : Bool) (st : Exec) (hs : st.input.Valid C.mem) (hn : st.input.len ≤ n)
    (hlt : ∀ q ∈ ps, ∀ s : Span, s.Valid C.mem → s.len < n → CostsAt (rec q) s (e q))
    (heq : st.input.len = n → ∀ qs q rs, ps = qs ++ q :: rs → (∀ x ∈ qs, Nullable C x) →
      ∀ s : Span, s.Valid C.mem → s.len = n → CostsAt (rec q) s (e q)) :
    Costs (foldAnd (execute C T u c) es st) (ps.map e).sum := by
  induction he generalizing st with
  | nil => exact .pure
  | @cons t i es q ps _ ih =>
    rw [List.map_cons, List.sum_cons]
    have hr : CostsAt (rec q) st.input (e q) := by
      rcases Nat.lt_or_ge st.input.len n with h | h
      · exact hlt q (.head _) _ hs h
      · exact heq (by omega) [] q ps rfl nofun _ hs (by omega)
    refine Costs.bind (execute_at T u c st hr) fun l y hy => ?_
    have hsuf := (execute_suffix (C := C) (e := ⟨rec q, t, i⟩) (ht q).good T u c st).at hy
    have hle := hsuf.len_le
    obtain ⟨b, st'⟩ := y
    simp only at hsuf hle
    refine .ite (fun hb => ?_) fun _ => .pure
    obtain rfl : b = true := hb
    refine ih st' (hsuf.valid hs) (by omega) (fun r hr => hlt r (.tail _ hr)) fun hst => ?_
    intro qs r rs hps hqs
    have hnq : Nullable C q := execute_null (e := ⟨rec q, t, i⟩) (ht q) hs hy (by omega)
    refine heq (by omega) (q :: qs) r rs (by rw [hps]; rfl) fun x hx => ?_
    rcases List.mem_cons.1 hx with rfl | hx
    · exact hnq
    · exact hqs x hx

theorem joinGeneric_at {P : Sub} {s : Span} {e : Nat} (h : CostsAt P s e) : CostsAt (joinGeneric C P) s e := by
  refine ⟨.bindr h.1 fun r => .ite ?_ .pure, h.2⟩
  refine .bind0 (joinExecutor_logs C r) fun j => ?_
  cases j <;> exact .pure

theorem semJoin_at {p : Parser α} {s : Span} {e : Nat} (h : CostsAt (rec p) s e) (k : Nat) :
    CostsAt (semJoin C rec k p) s e := by
  have native : ∀ {P : Sub}, Logs (P.parse s) 0 → Logs (P.look s) 0 → CostsAt P s e := fun h1 h2 =>
    ⟨h1.costs.mono (Nat.zero_le _), h2.costs.mono (Nat.zero_le _)⟩
  cases p with
  | exactly q n =>
    simp only [semJoin]
    cases asBasic C q with
    | none => exact joinGeneric_at h
    | some b => exact native (joinExactlyLoop_logs ..) (lookJoinExactlyLoop_logs ..)
  | maybe q =>
    simp only [semJoin]
    cases asBasic C q with
    | none => exact joinGeneric_at h
    | some b =>
      refine native ?_ ?_ <;>
      exact .bind0 (failureCondition_logs ..) fun _ => .ite .pure (.bind0 (advance_logs ..) fun _ => .pure)
  | oneOrMore q =>
    simp only [semJoin]
    cases asBasic C q with
    | none => exact joinGeneric_at h
    | some b =>
      refine native ?_ ?_
      · exact .bind0 (failureCondition_logs ..) fun _ => .ite .pure
          (.bind0 (subspan_logs ..) fun _ => .bind0 (joinRepeatLoop_logs ..) fun _ => .pure)
      · exact .bind0 (failureCondition_logs ..) fun _ => .ite .pure
          (.bind0 (subspan_logs ..) fun _ => .bind0 (lookJoinRepeatLoop_logs ..) fun _ => .pure)
  | zeroOrMore q =>
    simp only [semJoin]
    cases asBasic C q with
    | none => exact joinGeneric_at h
    | some b =>
      refine native ?_ ?_
      · exact .bind0 (joinRepeatLoop_logs ..) fun _ => .pure
      · exact .bind0 (lookJoinRepeatLoop_logs ..) fun _ => .pure
  | _ => exact joinGeneric_at h

/-! ### All parsers -/

/-- A bound for the calls of `q` where its parts take `e` on the same input, and all shorter inputs together take `B`. -/
def stepCost (e : Parser α → Nat) (B x : Nat) (q : Parser α) : Nat :=
  1 + match q with
    | .anyOf _ | .noneOf _ | .allOf _ | .anything | .epsilon => 0
    | .choice ps | .sequence ps => (ps.map fun r => e r + B).sum
    | .maybe r | .ignore r | .complete r | .join r | .named r _ => e r + B
    | .map r _ | .filter r _ => e r + B + 1
    | .exactly r k => k * (e r + B)
    | .oneOrMore r | .zeroOrMore r => e r + 2 * B
    | .delimit r d => 2 * e r + e d + 5 * B
    | .custom _ => x

theorem marked_at {P : Sub} {s : Span} {e : Nat} (h : CostsAt P s e) : CostsAt (marked P) s (1 + e) := by
  have hl : Costs (M.log callMark : Run Unit) 1 := .of fun l r h => by cases h; exact Nat.le_refl _
  exact ⟨.bind hl fun _ _ _ => h.1, .bind hl fun _ _ _ => h.2⟩

theorem step_at (ht : ∀ q, Tells C (rec q) q) {F : Nat → Nat} (hF : ∀ a b, a ≤ b → F a ≤ F b) {e : Parser α → Nat} {x : Nat} {q : Parser α}
    {s : Span} (hs : s.Valid C.mem) (hn : s.len = n)
    (part : ∀ r, r ∈ q.parts → (∀ k, Reaches C r k → Reaches C q k) →
      ∀ s : Span, s.Valid C.mem → s.len = n → CostsAt (rec r) s (e r))
    (short : ∀ r, r ∈ q.parts → ∀ s : Span, s.Valid C.mem → s.len < n → CostsAt (rec r) s (F s.len))
    (hk : ∀ k, q = .custom k → CostsAt (rec (C.custom k).body) s x) (k : Nat) :
    CostsAt (marked (step C rec k q)) s (stepCost e (sumTo F n) x q) := by
  have hle : s.len ≤ n := by omega
  -- the cost of a part that is leading, at each length
  let f : Parser α → Nat → Nat := fun r m => if m < n then F m else e r + sumTo F n
  have upto : ∀ r, r ∈ q.parts → (∀ k, Reaches C r k → Reaches C q k) → CostsUpTo C (rec r) n (f r) := by
    intro r hr hre
    have : ∀ s : Span, s.Valid C.mem → s.len ≤ n → CostsAt (rec r) s (f r s.len) := by
      intro s hs hle
      rcases Nat.lt_or_ge s.len n with h | h
      · simp only [f, if_pos h]; exact short r hr s hs h
      · have := part r hr hre s hs (by omega)
        simp only [f, if_neg (Nat.not_lt.2 h)]
        exact ⟨this.1.mono (Nat.le_add_right ..), this.2.mono (Nat.le_add_right ..)⟩
    exact ⟨fun s hs hle => (this s hs hle).1, fun s hs hle => (this s hs hle).2⟩
  have flat : ∀ r m, f r m ≤ e r + sumTo F n := by
    intro r m
    simp only [f]
    split
    · next h => exact Nat.le_trans (le_sumTo F h) (Nat.le_add_left ..)
    · exact Nat.le_refl _
  have every : ∀ r, r ∈ q.parts → (∀ k, Reaches C r k → Reaches C q k) →
      CostsUpTo C (rec r) n (fun _ => e r + sumTo F n) := fun r hr hre =>
    ⟨fun s hs hle => ((upto r hr hre).parse s hs hle).mono (flat _ _),
      fun s hs hle => ((upto r hr hre).look s hs hle).mono (flat _ _)⟩
  have sum : ∀ r, sumTo (f r) (s.len + 1) ≤ e r + 2 * sumTo F n := by
    intro r
    have : sumTo (f r) n ≤ sumTo F n := sumTo_le fun m hm => by simp only [f, if_pos hm]; exact Nat.le_refl _
    have h2 := flat r n
    rw [hn]; simp only [sumTo]; omega
  have one : ∀ r, q.parts = [r] → CostsUpTo C (rec r) n (fun _ => e r + sumTo F n) := fun r hr =>
    every r (by rw [hr]; simp) fun k h => .within hr h
  have one' : ∀ r, q.parts = [r] → CostsUpTo C (rec r) n (f r) := fun r hr =>
    upto r (by rw [hr]; simp) fun k h => .within hr h
  refine marked_at ?_
  cases q with
  | anyOf _ | noneOf _ | allOf _ | anything => exact ⟨(parseBasic_logs ..).costs, (lookBasic_logs ..).costs⟩
  | epsilon => exact ⟨.pure, .pure⟩
  | choice ps =>
    have h : ∀ q ∈ ps, ∀ s : Span, s.Valid C.mem → s.len ≤ n → CostsAt (rec q) s (e q + sumTo F n) := fun q hq s hs hle =>
      ⟨(every q hq fun k => .choice hq).parse s hs hle, (every q hq fun k => .choice hq).look s hs hle⟩
    exact ⟨.bind0 (builderInit_logs ..) fun v => .bindr (foldOr_at ht (runsBy_mkElems ..) (e := fun r => e r + sumTo F n) _ _ _ _ hs hle h)
        fun x => .ite .pure .pure,
      .bindr (foldOr_at ht (runsBy_mkLookElems ..) (e := fun r => e r + sumTo F n) _ _ _ _ hs hle h) fun x => .ite .pure .pure⟩
  | sequence ps =>
    have hlt : ∀ q ∈ ps, ∀ s : Span, s.Valid C.mem → s.len < n → CostsAt (rec q) s (e q + sumTo F n) := fun q hq s hs hlt =>
      have h := short q hq s hs hlt
      have hm : F s.len ≤ e q + sumTo F n := Nat.le_trans (le_sumTo F hlt) (Nat.le_add_left ..)
      ⟨h.1.mono hm, h.2.mono hm⟩
    have heq : ∀ qs q rs, ps = qs ++ q :: rs → (∀ x ∈ qs, Nullable C x) →
        ∀ s : Span, s.Valid C.mem → s.len = n → CostsAt (rec q) s (e q + sumTo F n) := by
      intro qs r rs hps hqs s hs hn
      subst hps
      have h := part r (by simp [Parser.parts]) (fun k => .sequence hqs) s hs hn
      exact ⟨h.1.mono (Nat.le_add_right ..), h.2.mono (Nat.le_add_right ..)⟩
    exact ⟨.bind0 (builderInit_logs ..) fun v => .bindr (foldAnd_at ht (runsBy_mkElems ..) (e := fun r => e r + sumTo F n) _ _ _ _ hs hle hlt fun _ => heq)
        fun x => .ite .pure .pure,
      .bindr (foldAnd_at ht (runsBy_mkLookElems ..) (e := fun r => e r + sumTo F n) _ _ _ _ hs hle hlt fun _ => heq) fun x => .ite .pure .pure⟩
  | maybe p =>
    have h := one p rfl
    exact ⟨.bind0 (builderInit_logs ..) fun v => .bindr (h.parse s hs hle) fun r =>
        .bind0 (.ite (builderEmplace_logs ..) .pure) fun w => .pure,
      .bindr (h.look s hs hle) fun r => .ite .pure .pure⟩
  | exactly p m =>
    have h := one p rfl
    exact ⟨.bind0 (builderInit_logs ..) fun v => exactlyLoop_upTo h (ht p).good _ _ _ _ _ _ hs hle,
      lookExactlyLoop_upTo h (ht p).good _ _ _ hs hle⟩
  | oneOrMore p =>
    have h := one' p rfl
    exact ⟨.bind0 (builderInit_logs ..) fun v => .bindr
        ((oneOrMoreLoop_upTo h (ht p).good _ _ _ _ _ hs hle).mono (sum p)) fun x => .ite .pure .pure,
      .bindr ((lookOneOrMoreLoop_upTo h (ht p).good _ _ _ hs hle).mono (sum p)) fun x => .ite .pure .pure⟩
  | zeroOrMore p =>
    have h := one' p rfl
    exact ⟨.bind0 (builderInit_logs ..) fun v => .bindr
        ((zeroOrMoreLoop_upTo h (ht p).good _ _ _ _ hs hle).mono (sum p)) fun x => .pure,
      .bindr ((lookZeroOrMoreLoop_upTo h (ht p).good _ _ hs hle).mono (sum p)) fun x => .pure⟩
  | delimit p d =>
    have h1 := upto p (.head _) fun k => .element
    have hmono : ∀ a b, a ≤ b → b ≤ n → f p a ≤ f p b := by
      intro a b hab hb
      rcases Nat.lt_or_ge b n with h | h
      · simp only [f, if_pos h, if_pos (Nat.lt_of_le_of_lt hab h)]; exact hF a b hab
      · have : f p b = e p + sumTo F n := by simp only [f, if_neg (Nat.not_lt.2 h)]
        rw [this]; exact flat p a
    have h2 : ∀ s : Span, s.Valid C.mem → s.len ≤ n → (s.len = n → Nullable C p) → CostsAt (rec d) s (f d s.len) := by
      intro s hs hle hN
      rcases Nat.lt_or_ge s.len n with h | h
      · simp only [f, if_pos h]; exact short d (.tail _ (.head _)) s hs h
      · have := part d (.tail _ (.head _)) (fun k => .delimiter (hN (by omega))) s hs (by omega)
        simp only [f, if_neg (Nat.not_lt.2 h)]
        exact ⟨this.1.mono (Nat.le_add_right ..), this.2.mono (Nat.le_add_right ..)⟩
    have hcost : ∀ m, m ≤ n → f p s.len + sumTo (fun m => f p m + f d m) (m + 1) ≤ 2 * e p + e d + 5 * sumTo F n := by
      intro m hm
      have h1 := flat p s.len
      have h2 := sum p
      have h3 := sum d
      have h4 := sumTo_mono (fun m => f p m + f d m) (show m + 1 ≤ s.len + 1 by omega)
      rw [sumTo_add _ _ (s.len + 1)] at h4
      omega
    refine ⟨?_, ?_⟩
    · refine .bind0 (builderInit_logs ..) fun v => ?_
      refine (Costs.bind (b' := sumTo (fun m => f p m + f d m) (n + 1)) (h1.parse s hs hle) fun l r hr =>
        .ite (fun _ => .pure) fun hv => ?_).mono (hcost n (Nat.le_refl _))
      have hl := (((ht p).good.parse s).at hr).suffix
      refine .bindr ((delimitLoop_upTo (N := Nullable C p) h1 hmono (ht p).good (ht d).good
        (fun s hs hle hN => (h2 s hs hle hN).1)
        _ _ _ _ _ _ _ (hl.valid hs)
        (Nat.le_trans hl.len_le hle) fun hv hl => (ht p).null_parse hs hr hv (by omega)).mono
        (sumTo_mono _ (by have := hl.len_le; omega))) fun _ => .pure
    · refine (Costs.bind (b' := sumTo (fun m => f p m + f d m) (n + 1)) (h1.look s hs hle) fun l r hr =>
        .ite (fun _ => .pure) fun hv => ?_).mono (hcost n (Nat.le_refl _))
      have hl := (((ht p).good.look s).at hr).suffix
      refine .bindr ((lookDelimitLoop_upTo (N := Nullable C p) h1 hmono (ht p).good (ht d).good
        (fun s hs hle hN => (h2 s hs hle hN).2) _ _ _ (hl.valid hs)
        (Nat.le_trans hl.len_le hle) fun hv hl => (ht p).null_look hs hr hv (by omega)).mono
        (sumTo_mono _ (by have := hl.len_le; omega))) fun _ => .pure
  | ignore p => exact ⟨(one p rfl).look s hs hle, (one p rfl).look s hs hle⟩
  | complete p =>
    exact ⟨.bindr ((one p rfl).parse s hs hle) fun _ => .ite .pure .pure,
      .bindr ((one p rfl).look s hs hle) fun _ => .ite .pure .pure⟩
  | join p => exact semJoin_at ⟨(one p rfl).parse s hs hle, (one p rfl).look s hs hle⟩ k
  | map p f =>
    have h := one p rfl
    refine ⟨.bind (h.parse s hs hle) fun l r hr => .ite (fun _ => .pure) fun _ => Logs.costs ?_,
      (h.look s hs hle).mono (Nat.le_add_right ..)⟩
    exact .bind0 (argVals_logs ..) fun _ => Logs.bind (b' := 0) (invoke_logs ..) fun _ => .ite .pure .pure
  | filter p f =>
    have h := one p rfl
    refine ⟨.bind (h.parse s hs hle) fun l r hr => .ite (fun _ => .pure) fun _ => Logs.costs ?_,
      (h.look s hs hle).mono (Nat.le_add_right ..)⟩
    exact .bind0 (argVals_logs ..) fun _ => Logs.bind (b' := 0) (invoke_logs ..) fun _ => .ite .pure .pure
  | named p _ => exact ⟨(one p rfl).parse s hs hle, (one p rfl).look s hs hle⟩
  | custom j => exact ⟨.bindr (hk j rfl).1 fun r => convertResult_logs .., (hk j rfl).2⟩

end

/-! ### Weights -/

mutual
/-- what an expression costs when a custom parser costs `x`, in units that grow with the input -/
def Parser.weight (x : Nat) : Parser α → Nat
  | .anyOf _ | .noneOf _ | .allOf _ | .anything | .epsilon => 1
  | .choice ps | .sequence ps => 1 + weights x ps
  | .maybe p | .ignore p | .complete p | .join p | .named p _ => 1 + (p.weight x + 2)
  | .map p _ | .filter p _ => 1 + (p.weight x + 2 + 1)
  | .exactly p k => 1 + (p.weight x + k * (p.weight x + 2))
  | .oneOrMore p | .zeroOrMore p => 1 + (p.weight x + 4)
  | .delimit p d => 1 + (2 * p.weight x + d.weight x + 10)
  | .custom _ => 1 + x
def weights (x : Nat) : List (Parser α) → Nat
  | [] => 0
  | p :: ps => p.weight x + 2 + weights x ps
end

theorem weights_eq (x : Nat) (ps : List (Parser α)) : weights x ps = (ps.map fun r => r.weight x + 2).sum := by
  induction ps with
  | nil => rfl
  | cons p ps ih => simp only [weights, List.map_cons, List.sum_cons, ih]

theorem weight_part {x : Nat} {p q : Parser α} (h : q ∈ p.parts) : q.weight x ≤ p.weight x := by
  have list : ∀ ps : List (Parser α), q ∈ ps → q.weight x ≤ weights x ps := by
    intro ps h
    induction ps with
    | nil => cases h
    | cons p ps ih =>
      simp only [weights]
      rcases List.mem_cons.1 h with rfl | h
      · omega
      · have := ih h; omega
  cases p <;> simp only [Parser.parts, List.mem_cons, List.not_mem_nil, or_false] at h
  case choice ps => have := list ps h; simp only [Parser.weight]; omega
  case sequence ps => have := list ps h; simp only [Parser.weight]; omega
  case delimit p d => rcases h with rfl | rfl <;> simp only [Parser.weight] <;> omega
  all_goals (subst h; simp only [Parser.weight]; omega)

theorem stepCost_weight {x U B : Nat} (hU : 1 ≤ U) (hB : B ≤ 2 * U) (q : Parser α) :
    stepCost (fun r => r.weight x * U) B (x * U) q ≤ q.weight x * U := by
  have e : ∀ r : Parser α, r.weight x * U + B ≤ (r.weight x + 2) * U := fun r => by rw [Nat.add_mul]; omega
  have list : ∀ ps : List (Parser α), (ps.map fun r => r.weight x * U + B).sum ≤ weights x ps * U := by
    intro ps
    induction ps with
    | nil => simp [weights]
    | cons p ps ih =>
      have := e p
      simp only [List.map_cons, List.sum_cons, weights]
      rw [Nat.add_mul]; omega
  cases q <;> simp only [stepCost, Parser.weight] <;> try rw [Nat.add_mul 1, Nat.one_mul]
  case choice ps => have := list ps; omega
  case sequence ps => have := list ps; omega
  case exactly p k =>
    have := Nat.mul_le_mul_left k (e p)
    rw [Nat.add_mul, Nat.mul_assoc]; omega
  case oneOrMore p => rw [Nat.add_mul]; omega
  case zeroOrMore p => rw [Nat.add_mul]; omega
  case delimit p d => rw [Nat.add_mul, Nat.add_mul, Nat.mul_assoc]; omega
  case map p f => have := e p; rw [Nat.add_mul (p.weight x + 2)]; omega
  case filter p f => have := e p; rw [Nat.add_mul (p.weight x + 2)]; omega
  case maybe p => have := e p; omega
  case ignore p => have := e p; omega
  case complete p => have := e p; omega
  case join p => have := e p; omega
  case named p _ => have := e p; omega
  all_goals omega

/-! ### Recursive grammars -/

/-- what custom parsers of rank below `r` cost -/
def rankCost (C : Ctx α β) (ks : List Nat) : Nat → Nat
  | 0 => 1
  | r + 1 => ks.foldr (fun k m => max ((C.custom k).body.weight (rankCost C ks r)) m) (rankCost C ks r)

theorem rankCost_mono (ks : List Nat) {r r' : Nat} (h : r ≤ r') : rankCost C ks r ≤ rankCost C ks r' := by
  induction h with
  | refl => exact Nat.le_refl _
  | step _ ih => exact Nat.le_trans ih (foldr_max_ge _ _ _)

theorem Uses.of_custom {C C' : Ctx α β} (h : C'.custom = C.custom) {p q : Parser α} (hq : Uses C' p q) : Uses C p q := by
  induction hq with
  | self => exact .self
  | part hm _ ih => exact .part hm ih
  | custom _ ih => exact .custom (h ▸ ih)

end Tok3n
