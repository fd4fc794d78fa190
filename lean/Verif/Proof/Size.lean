import Verif.Proof.EffortRecursive
import Verif.Spec.Size
/-
Proofs for C71: the size of a result grows linearly with what was consumed.

What is consumed pays for the parts of the result, at `A` for each element.  A part that is run before anything is
consumed is run by the expression or by a custom parser of lower rank; the first part that consumes something leaves
`S` of what it is paid, `S` being larger for lower ranks, and this pays for the rest of the expression.
-/

namespace Tok3n

variable {α β : Type} {C : Ctx α β}

theorem Sat.bind_run {A B : Type} {m : Run A} {f : A → Run B} {Q : A → Prop} {Q' : B → Prop} (h : Sat m Q anyErr)
    (hf : ∀ l a, m = .done l (.ok a) → Q a → Sat (f a) Q' anyErr) : Sat (M.bind m f) Q' anyErr :=
  (h.and (Sat.intro (Q := fun a => ∃ l, m = .done l (.ok a)) (E := anyErr) (fun l _ h => ⟨l, h⟩) fun _ _ _ => trivial)).mono
    (fun _ h => h) (fun _ _ => trivial) |>.bind fun a ⟨hq, l, hl⟩ => hf l a hl hq

/-! ### Values -/

/-- the size of the value of a result -/
def R.size (r : R) : Nat := match r.val with | some v => v.size | none => 0

@[simp] theorem sizes_cons (v : Val) (vs : List Val) : sizes (v :: vs) = v.size + sizes vs := rfl
@[simp] theorem sizes_nil : sizes [] = 0 := rfl
theorem sizes_append (vs ws : List Val) : sizes (vs ++ ws) = sizes vs + sizes ws := by
  induction vs with
  | nil => simp
  | cons v vs ih => simp only [List.cons_append, sizes_cons, ih]; omega

theorem sizes_set (vs : List Val) (i : Nat) (v : Val) : sizes (vs.set i v) ≤ sizes vs + v.size := by
  induction vs generalizing i with
  | nil => simp
  | cons w vs ih =>
    cases i with
    | zero => simp only [List.set_cons_zero, sizes_cons]; omega
    | succ i => have := ih i; simp only [List.set_cons_succ, sizes_cons]; omega

@[simp] theorem size_failure (s : Span) : (R.failure s).size = 0 := rfl
@[simp] theorem size_success (v : Val) (s : Span) : (R.success v s).size = v.size := rfl
@[simp] theorem size_successVoid (s : Span) : (R.successVoid s).size = 0 := rfl

section builder
variable {T : Ty} {v : Val} {r : R}

theorem deref_size (r : R) : Sat r.deref (fun w => w.size = r.size) anyErr := by
  unfold R.deref
  cases h : r.val with
  | none => exact Sat.fail trivial
  | some v => exact Sat.pure (by simp [R.size, h])

theorem builderAssign_size : Sat (builderAssign T v r) (fun w => w.size ≤ v.size + r.size) anyErr := by
  unfold builderAssign
  split
  · exact Sat.pure (by omega)
  · exact (deref_size r).post fun w hw => by omega

theorem builderArrayAssign_size (i : Nat) :
    Sat (builderArrayAssign T v i r) (fun w => w.size ≤ v.size + r.size) anyErr := by
  unfold builderArrayAssign
  split
  · exact Sat.pure (by omega)
  · split
    · rename_i vs
      refine Sat.bind (deref_size r) fun w hw => ?_
      split
      · exact Sat.pure (by have := sizes_set vs i w; simp only [Val.size]; omega)
      · exact Sat.fail trivial
    · exact Sat.fail trivial

theorem builderGetAssign_size (i : Nat) :
    Sat (builderGetAssign T v i r) (fun w => w.size ≤ v.size + r.size) anyErr := by
  unfold builderGetAssign
  split
  · exact Sat.pure (by omega)
  · split
    · rename_i vs
      refine Sat.bind (deref_size r) fun w hw => ?_
      split
      · exact Sat.pure (by have := sizes_set vs i w; simp only [Val.size]; omega)
      · exact Sat.fail trivial
    · exact Sat.fail trivial

theorem builderEmplace_size : Sat (builderEmplace T v r) (fun w => w.size ≤ v.size + r.size + 1) anyErr := by
  unfold builderEmplace
  split
  · exact Sat.pure (by omega)
  · split
    · exact Sat.bind (deref_size r) fun w hw => Sat.pure (by simp only [Val.size]; omega)
    · exact Sat.fail trivial

theorem convert_size {F : Nat} (hconv : ∀ src dst f v, C.conv src dst = some f → (f v).size ≤ v.size + F) (a b : Ty)
    (v : Val) : Sat (convert C a b v) (fun w => w.size ≤ v.size + F) anyErr := by
  unfold convert
  split
  · exact Sat.pure (by omega)
  · split
    · rename_i f hf
      exact Sat.pure (hconv _ _ _ v hf)
    · exact Sat.fail trivial

theorem builderEmplaceAt_size {F : Nat} (hconv : ∀ src dst f v, C.conv src dst = some f → (f v).size ≤ v.size + F)
    (i : Nat) (src : Ty) :
    Sat (builderEmplaceAt C T i src v r) (fun w => w.size ≤ v.size + r.size + (1 + F)) anyErr := by
  unfold builderEmplaceAt
  split
  · exact Sat.pure (by omega)
  · split
    · refine Sat.bind (deref_size r) fun w hw => Sat.bind (convert_size hconv _ _ w) fun w' hw' => ?_
      exact Sat.pure (by simp only [Val.size]; omega)
    · exact Sat.fail trivial
  · exact Sat.fail trivial

theorem builderInsertBack_size : Sat (builderInsertBack T v r) (fun w => w.size ≤ v.size + r.size) anyErr := by
  unfold builderInsertBack
  split
  · exact Sat.pure (by omega)
  · split
    · exact Sat.bind (deref_size r) fun w hw => Sat.pure (by simp only [Val.size, sizes_append, sizes_cons, sizes_nil]; omega)
    · exact Sat.fail trivial

theorem builderInsertBackFirst_size :
    Sat (builderInsertBackFirst T v r) (fun w => w.size ≤ v.size + r.size) anyErr := by
  unfold builderInsertBackFirst
  split
  · exact Sat.pure (by omega)
  · split
    · exact Sat.bind (deref_size r) fun w hw => Sat.pure (by simp only [Val.size, sizes_append, sizes_cons, sizes_nil]; omega)
    · exact Sat.fail trivial

theorem builderInsertBackSecond_size :
    Sat (builderInsertBackSecond T v r) (fun w => w.size ≤ v.size + r.size) anyErr := by
  unfold builderInsertBackSecond
  split
  · exact Sat.pure (by omega)
  · split
    · exact Sat.bind (deref_size r) fun w hw => Sat.pure (by simp only [Val.size, sizes_append, sizes_cons, sizes_nil]; omega)
    · exact Sat.fail trivial

theorem build_size (s : Span) : (builderBuild T v s).size ≤ v.size := by
  unfold builderBuild
  split
  · simp
  · simp

theorem build_rem (s : Span) : (builderBuild T v s).rem = s := by
  unfold builderBuild
  split <;> rfl

theorem delimitRecordP_size (tp td : Ty) :
    Sat (delimitRecordP T tp td v r) (fun w => w.size ≤ v.size + r.size) anyErr := by
  unfold delimitRecordP
  split
  · split
    · exact builderInsertBack_size
    · exact builderInsertBackFirst_size
  · exact Sat.pure (by omega)

theorem delimitRecordD_size (tp td : Ty) (d : R) :
    Sat (delimitRecordD T tp td v r d) (fun w => w.size ≤ v.size + d.size ∧
      (r.hasValue = false → w.size ≤ v.size)) anyErr := by
  unfold delimitRecordD
  split
  · split
    · rename_i hr
      split
      · exact builderInsertBack_size.post fun w hw => ⟨hw, fun h => by simp [hr] at h⟩
      · exact builderInsertBackSecond_size.post fun w hw => ⟨hw, fun h => by simp [hr] at h⟩
    · exact Sat.pure ⟨by omega, fun _ => Nat.le_refl _⟩
  · exact Sat.pure ⟨by omega, fun _ => Nat.le_refl _⟩

theorem fromOptional_size {F : Nat} (hconv : ∀ src dst f o, C.convOpt src dst = some f → (f o).size ≤ (Val.opt o).size + F)
    {a b : Ty} {f : Option Val → Val} (hf : fromOptional C a b = some f) (o : Option Val) :
    (f o).size ≤ (Val.opt o).size + F := by
  unfold fromOptional at hf
  split at hf
  · cases hf; omega
  · exact hconv _ _ _ _ hf

theorem convertResult_size {F : Nat} (hconv : ∀ src dst f v, C.conv src dst = some f → (f v).size ≤ v.size + F)
    (hopt : ∀ src dst f o, C.convOpt src dst = some f → (f o).size ≤ (Val.opt o).size + F) (a b : Ty) :
    Sat (convertResult C a b r) (fun x => x.size ≤ r.size + (1 + F) ∧ x.rem = r.rem) anyErr := by
  unfold convertResult
  split
  · exact Sat.pure ⟨by omega, rfl⟩
  · split
    · exact Sat.fail trivial
    · split
      · rename_i f hf
        refine Sat.pure ⟨?_, rfl⟩
        have := fromOptional_size hopt hf r.val
        have e : (Val.opt r.val).size = 1 + r.size := by unfold R.size; cases r.val <;> rfl
        simp only [R.size] at e ⊢
        omega
      · split
        · exact Sat.pure ⟨by omega, rfl⟩
        · rename_i v hv
          refine Sat.bind (convert_size hconv _ _ v) fun w hw' => Sat.pure ⟨?_, rfl⟩
          simp only [R.size, hv]
          omega

end builder

/-! ### What is paid for -/

/-- A result of size `t`, where the input had length `n` and what is left has length `m`: without consuming anything at
most `x`, otherwise at most `y` more than what is paid for what was consumed, `S` being left. -/
structure Small (A S x y n t m : Nat) : Prop where
  stay : m = n → t ≤ x
  move : m < n → t + S + A * m ≤ A * n + y

section
variable {A S K x y n t m : Nat}

theorem pays (hA : S ≤ A) (h : m < n) : S + A * m ≤ A * n := by
  have : A * (m + 1) ≤ A * n := Nat.mul_le_mul_left _ h
  rw [Nat.mul_succ] at this
  omega

theorem Small.mono (h : Small A S x y n t m) {S' x' y' t' : Nat} (hS : S' ≤ S) (hx : x ≤ x') (hy : y ≤ y') (ht : t' ≤ t) :
    Small A S' x' y' n t' m :=
  ⟨fun e => by have := h.stay e; omega, fun e => by have := h.move e; omega⟩

theorem Small.add (h : Small A S x y n t m) {e t' : Nat} (ht : t' ≤ t + e) : Small A S (x + e) (y + e) n t' m :=
  ⟨fun e => by have := h.stay e; omega, fun e => by have := h.move e; omega⟩

theorem Small.free (hA : S ≤ A) (hx : t ≤ x) (hy : t ≤ y) : Small A S x y n t m :=
  ⟨fun _ => hx, fun e => by have := pays hA e; omega⟩

/-- one part after another -/
theorem Small.seq {X Y t' m' : Nat} (h : Small A S x y n t m) (hxy : x ≤ y) (hm : m ≤ n) (hm' : m' ≤ m)
    (lead : m = n → Small A S X Y n t' m') (short : m < n → Small A 0 Y Y m t' m') :
    Small A S (x + X) (y + Y) n (t + t') m' := by
  rcases Nat.lt_or_ge m n with hlt | hge
  · have h1 := h.move hlt
    have h2 := short hlt
    refine ⟨fun e => by omega, fun _ => ?_⟩
    rcases Nat.lt_or_ge m' m with h3 | h3
    · have := h2.move h3; omega
    · obtain rfl : m' = m := by omega
      have := h2.stay rfl; omega
  · obtain rfl : m = n := by omega
    have h1 := h.stay rfl
    have h2 := lead rfl
    exact ⟨fun e => by have := h2.stay e; omega, fun e => by have := h2.move e; omega⟩

end

/-! ### Loops -/

section loops
variable {P D : Sub} {A S K X Y XD YD n : Nat}

/-- what `P` makes of inputs that are shorter than `n` -/
def Short (C : Ctx α β) (A K Y n : Nat) (P : Sub) : Prop :=
  ∀ s : Span, s.Valid C.mem → s.len < n → Sat (P.parse s) (fun r => Small A K Y Y s.len r.size r.rem.len) anyErr

/-- what `P` makes of the input `o`, of length `n` -/
def Lead (A S X Y n : Nat) (o : Span) (P : Sub) : Prop :=
  Sat (P.parse o) (fun r => Small A S X Y n r.size r.rem.len) anyErr

theorem Lead.of {s o : Span} (h : Lead A S X Y n o P) (ho : o.len = n) (hs : s.SuffixOf o) (hn : s.len = n) :
    Lead A S X Y n s P := by
  rwa [hs.eq_of_len (by omega)]

theorem Short.weaken {K' : Nat} (h : Short C A K Y n P) (hK : K' ≤ K) : Short C A K' Y n P := fun s hs hl =>
  (h s hs hl).post fun _ h => h.mono hK (Nat.le_refl _) (Nat.le_refl _) (Nat.le_refl _)

variable (hg : SubGood P) (hg' : SubGood D)
include hg

theorem exactlyLoop_size (hXY : X ≤ Y) (hA : S ≤ A) (T : Ty) (o : Span) (h : Lead A S X Y n o P) (hs : Short C A 0 Y n P) (k i : Nat) (s : Span) (v : Val)
    (x y : Nat) (hxy : x ≤ y) (ho : o.len = n) (hso : s.SuffixOf o) (hv : s.Valid C.mem) (hn : s.len ≤ n) (hsm : Small A S x y n v.size s.len) :
    Sat (exactlyLoop T P o k i s v) (fun r => Small A S (x + k * X) (y + k * Y) n r.size r.rem.len) anyErr := by
  induction k generalizing i s v x y with
  | zero =>
    refine Sat.pure ?_
    rw [build_rem]
    exact hsm.mono (Nat.le_refl _) (by omega) (by omega) (build_size _)
  | succ k ih =>
    unfold exactlyLoop
    have hrun : Sat (P.parse s) (fun r => (s.len = n → Small A S X Y n r.size r.rem.len) ∧
        (s.len < n → Small A 0 Y Y s.len r.size r.rem.len)) anyErr := by
      rcases Nat.lt_or_ge s.len n with hlt | hge
      · exact (hs s hv hlt).post fun r hr => ⟨fun e => by omega, fun _ => hr⟩
      · exact (h.of ho hso (by omega)).post fun r hr => ⟨fun _ => hr, fun e => by omega⟩
    refine Sat.bind_run hrun fun l r hr hq => ?_
    have hl := ((hg.parse s).ok hr).suffix
    split
    · exact Sat.pure (Small.free hA (by simp) (by simp))
    · refine Sat.bind (builderArrayAssign_size _) fun w hw => ?_
      refine (ih (i + 1) r.rem w (x + X) (y + Y) (by omega) (hl.trans hso) (hl.valid hv) (Nat.le_trans hl.len_le hn) ?_).post fun r hr =>
        hr.mono (Nat.le_refl _) (by rw [Nat.add_mul]; omega) (by rw [Nat.add_mul]; omega) (Nat.le_refl _)
      exact (hsm.seq hxy hn hl.len_le hq.1 hq.2).mono (Nat.le_refl _) (Nat.le_refl _) (Nat.le_refl _) hw

/-- each round is paid for by what it consumes -/
theorem oneOrMoreLoop_paid (hK : Y ≤ K) (hs : Short C A K Y n P) (T : Ty) (k : Nat) (b : Bool) (s : Span) (v : Val)
    (hv : s.Valid C.mem) (hn : s.len < n) :
    Sat (oneOrMoreLoop T P k b s v) (fun x => x.2.1.len ≤ s.len ∧ x.2.2.size + A * x.2.1.len ≤ v.size + A * s.len) anyErr := by
  induction k generalizing b s v with
  | zero => exact Sat.diverge
  | succ k ih =>
    unfold oneOrMoreLoop
    refine Sat.bind_run (hs s hv hn) fun l r hr hq => ?_
    have hgood := (hg.parse s).ok hr
    have hl := hgood.suffix
    dsimp only
    refine Sat.ite (fun hno => Sat.pure ?_) fun hyes => ?_
    · have : r.rem = s := hgood.of_not_hasValue (by simpa using hno)
      simp [this]
    · have hyes : r.hasValue = true := by simpa using hyes
      refine Sat.bind_run builderInsertBack_size fun l' w hw hsz => ?_
      by_cases hlt : r.rem.len < s.len
      · have := hq.move hlt
        exact (ih _ _ _ (hl.valid hv) (by omega)).post fun x hx => ⟨by omega, by omega⟩
      · have hrs := hl.eq_of_len (Nat.le_antisymm hl.len_le (by omega))
        rw [hrs, oneOrMoreLoop_stuck hr hyes hrs _ _ _ (insertBack_can hw)]
        exact Sat.diverge

theorem zeroOrMoreLoop_paid (hK : Y ≤ K) (hs : Short C A K Y n P) (T : Ty) (k : Nat) (s : Span) (v : Val)
    (hv : s.Valid C.mem) (hn : s.len < n) :
    Sat (zeroOrMoreLoop T P k s v) (fun x => x.1.len ≤ s.len ∧ x.2.size + A * x.1.len ≤ v.size + A * s.len) anyErr := by
  induction k generalizing s v with
  | zero => exact Sat.diverge
  | succ k ih =>
    unfold zeroOrMoreLoop
    refine Sat.bind_run (hs s hv hn) fun l r hr hq => ?_
    have hgood := (hg.parse s).ok hr
    have hl := hgood.suffix
    dsimp only
    refine Sat.ite (fun hno => Sat.pure ?_) fun hyes => ?_
    · have : r.rem = s := hgood.of_not_hasValue (by simpa using hno)
      simp [this]
    · have hyes : r.hasValue = true := by simpa using hyes
      refine Sat.bind_run builderInsertBack_size fun l' w hw hsz => ?_
      by_cases hlt : r.rem.len < s.len
      · have := hq.move hlt
        exact (ih _ _ (hl.valid hv) (by omega)).post fun x hx => ⟨by omega, by omega⟩
      · have hrs := hl.eq_of_len (Nat.le_antisymm hl.len_le (by omega))
        rw [hrs, zeroOrMoreLoop_stuck hr hyes hrs _ _ (insertBack_can hw)]
        exact Sat.diverge

theorem oneOrMoreLoop_size (hA : S ≤ A) (hK : Y ≤ K) (s : Span) (h : Lead A S X Y n s P) (hs : Short C A K Y n P) (T : Ty) (k : Nat)
    (b : Bool) (v : Val) (hv : s.Valid C.mem) (hn : s.len = n) :
    Sat (oneOrMoreLoop T P k b s v) (fun x => Small A S (v.size + X) (v.size + Y) n x.2.2.size x.2.1.len) anyErr := by
  cases k with
  | zero => exact Sat.diverge
  | succ k =>
    unfold oneOrMoreLoop
    refine Sat.bind_run h fun l r hr hq => ?_
    have hgood := (hg.parse s).ok hr
    have hl := hgood.suffix
    dsimp only
    refine Sat.ite (fun hno => Sat.pure ?_) fun hyes => ?_
    · exact Small.free hA (by simp) (by simp)
    · have hyes : r.hasValue = true := by simpa using hyes
      refine Sat.bind_run builderInsertBack_size fun l' w hw hsz => ?_
      by_cases hlt : r.rem.len < s.len
      · have := hq.move (by omega)
        exact (oneOrMoreLoop_paid hg hK hs T k _ _ _ (hl.valid hv) (by omega)).post fun x hx =>
          ⟨fun e => by omega, fun _ => by omega⟩
      · have hrs := hl.eq_of_len (Nat.le_antisymm hl.len_le (by omega))
        rw [hrs, oneOrMoreLoop_stuck hr hyes hrs _ _ _ (insertBack_can hw)]
        exact Sat.diverge

theorem zeroOrMoreLoop_size (hA : S ≤ A) (hK : Y ≤ K) (s : Span) (h : Lead A S X Y n s P) (hs : Short C A K Y n P) (T : Ty) (k : Nat)
    (v : Val) (hv : s.Valid C.mem) (hn : s.len = n) :
    Sat (zeroOrMoreLoop T P k s v) (fun x => Small A S (v.size + X) (v.size + Y) n x.2.size x.1.len) anyErr := by
  cases k with
  | zero => exact Sat.diverge
  | succ k =>
    unfold zeroOrMoreLoop
    refine Sat.bind_run h fun l r hr hq => ?_
    have hgood := (hg.parse s).ok hr
    have hl := hgood.suffix
    dsimp only
    refine Sat.ite (fun hno => Sat.pure ?_) fun hyes => ?_
    · exact Small.free hA (by simp) (by simp)
    · have hyes : r.hasValue = true := by simpa using hyes
      refine Sat.bind_run builderInsertBack_size fun l' w hw hsz => ?_
      by_cases hlt : r.rem.len < s.len
      · have := hq.move (by omega)
        exact (zeroOrMoreLoop_paid hg hK hs T k _ _ (hl.valid hv) (by omega)).post fun x hx =>
          ⟨fun e => by omega, fun _ => by omega⟩
      · have hrs := hl.eq_of_len (Nat.le_antisymm hl.len_le (by omega))
        rw [hrs, zeroOrMoreLoop_stuck hr hyes hrs _ _ (insertBack_can hw)]
        exact Sat.diverge

include hg'

/-- each round of delimiter and element is paid for by what it consumes -/
theorem delimitLoop_paid (hK : Y + YD ≤ K) (hs : Short C A K Y n P) (hd : Short C A K YD n D) (T tp td : Ty) (k : Nat)
    (r : R) (o : Span) (v : Val) (hr : r.hasValue = true) (hv : r.rem.Valid C.mem) (hn : r.rem.len < n) :
    Sat (delimitLoop T tp td P D k r o v)
      (fun x => x.1.len ≤ r.rem.len ∧ x.2.size + A * x.1.len ≤ v.size + r.size + A * r.rem.len) anyErr := by
  induction k generalizing r o v with
  | zero => exact Sat.diverge
  | succ k ih =>
    unfold delimitLoop
    rw [if_neg (by simp [hr])]
    dsimp only
    refine Sat.bind_run (delimitRecordP_size _ _) fun l1 w hw hsw => Sat.bind_run (hd _ hv hn) fun l2 d hdr hqd => ?_
    have hgd := (hg'.parse _).ok hdr
    have hld := hgd.suffix
    refine Sat.ite (fun hno => Sat.pure ⟨Nat.le_refl _, by dsimp only; omega⟩) fun hyes => ?_
    have hyes : d.hasValue = true := by simpa using hyes
    have hlen := hld.len_le
    refine Sat.bind_run (hs _ (hld.valid hv) (by omega)) fun l3 r' hr' hqr => ?_
    have hgr := (hg.parse _).ok hr'
    have hlr := hgr.suffix
    have hlen' := hlr.len_le
    refine Sat.bind_run (delimitRecordD_size _ _ _) fun l4 u hu hsu => ?_
    cases hv' : r'.hasValue with
    | false =>
      have := hsu.2 hv'
      cases k with
      | zero => exact Sat.diverge
      | succ k =>
        unfold delimitLoop
        rw [if_pos (by simp [hv'])]
        exact Sat.pure ⟨Nat.le_refl _, by dsimp only; omega⟩
    | true =>
      by_cases hlt : r'.rem.len < r.rem.len
      · have h1 := hsu.1
        have h2 : d.size + r'.size + A * r'.rem.len ≤ A * r.rem.len := by
          rcases Nat.lt_or_ge d.rem.len r.rem.len with h | h
          · have h3 := hqd.move h
            rcases Nat.lt_or_ge r'.rem.len d.rem.len with h' | h'
            · have := hqr.move h'; omega
            · have e : r'.rem.len = d.rem.len := by omega
              have := hqr.stay e
              rw [e]; omega
          · have e : d.rem.len = r.rem.len := by omega
            have h3 := hqd.stay e
            have h4 := hqr.move (by omega)
            rw [e] at h4; omega
        exact (ih r' _ u hv' (hlr.valid (hld.valid hv)) (by omega)).post fun x hx => ⟨by omega, by omega⟩
      · have hrs := (hlr.trans hld).eq_of_len (Nat.le_antisymm (hlr.trans hld).len_le (by omega))
        rw [delimitLoop_stuck hdr hyes hr' hv' hrs _ _ _ (canRecord_of hv' hw hu)]
        exact Sat.diverge

theorem delimitLoop_size (hXY : X ≤ Y) (hXYD : XD ≤ YD) (hA : S ≤ A) (hK : Y + YD ≤ K) (i : Span) (h : Lead A S X Y n i P)
    (hs : Short C A K Y n P) (hd : Short C A K YD n D) (T tp td : Ty) (k : Nat) (r : R) (o : Span) (v : Val) (hi : i.len = n)
    (hri : r.rem.SuffixOf i) (hr : r.hasValue = true) (hv : r.rem.Valid C.mem) (hn : r.rem.len ≤ n)
    (hdl : r.rem.len = n → Lead A S XD YD n i D) (hsm : Small A S X Y n r.size r.rem.len) :
    Sat (delimitLoop T tp td P D k r o v)
      (fun x => Small A S (v.size + (2 * X + XD)) (v.size + (2 * Y + YD)) n x.2.size x.1.len) anyErr := by
  rcases Nat.lt_or_ge r.rem.len n with hlt | hge
  · have := hsm.move hlt
    exact (delimitLoop_paid hg hg' hK hs hd T tp td k r o v hr hv hlt).post fun x hx =>
      ⟨fun e => by omega, fun _ => by omega⟩
  have hn : r.rem.len = n := by omega
  have hrs := hsm.stay hn
  cases k with
  | zero => exact Sat.diverge
  | succ k =>
    unfold delimitLoop
    rw [if_neg (by simp [hr])]
    dsimp only
    refine Sat.bind_run (delimitRecordP_size _ _) fun l1 w hw hsw => Sat.bind_run ((hdl hn).of hi hri hn) fun l2 d hdr hqd => ?_
    have hgd := (hg'.parse _).ok hdr
    have hld := hgd.suffix
    refine Sat.ite (fun hno => Sat.pure (Small.free hA (by dsimp only; omega) (by dsimp only; omega))) fun hyes => ?_
    have hyes : d.hasValue = true := by simpa using hyes
    have hlen := hld.len_le
    have hrun : Sat (P.parse d.rem) (fun r => (d.rem.len = n → Small A S X Y n r.size r.rem.len) ∧
        (d.rem.len < n → Small A K Y Y d.rem.len r.size r.rem.len)) anyErr := by
      rcases Nat.lt_or_ge d.rem.len n with hlt | hge
      · exact (hs _ (hld.valid hv) hlt).post fun r hr => ⟨fun e => by omega, fun _ => hr⟩
      · exact (h.of hi (hld.trans hri) (by omega)).post fun r hr => ⟨fun _ => hr, fun e => by omega⟩
    refine Sat.bind_run hrun fun l3 r' hr' hqr => ?_
    have hgr := (hg.parse _).ok hr'
    have hlr := hgr.suffix
    have hlen' := hlr.len_le
    refine Sat.bind_run (delimitRecordD_size _ _ _) fun l4 u hu hsu => ?_
    cases hv' : r'.hasValue with
    | false =>
      have := hsu.2 hv'
      cases k with
      | zero => exact Sat.diverge
      | succ k =>
        unfold delimitLoop
        rw [if_pos (by simp [hv'])]
        exact Sat.pure (Small.free hA (by dsimp only; omega) (by dsimp only; omega))
    | true =>
      by_cases hlt : r'.rem.len < r.rem.len
      · have h1 := hsu.1
        have h2 : d.size + r'.size + S + A * r'.rem.len ≤ A * n + (Y + YD) := by
          rcases Nat.lt_or_ge d.rem.len n with h | h
          · have h3 := hqd.move h
            rcases Nat.lt_or_ge r'.rem.len d.rem.len with h' | h'
            · have := (hqr.2 h).move h'; omega
            · have e : r'.rem.len = d.rem.len := by omega
              have := (hqr.2 h).stay e
              rw [e]; omega
          · have e : d.rem.len = n := by omega
            have h3 := hqd.stay e
            have h4 := (hqr.1 e).move (by omega)
            omega
        exact (delimitLoop_paid hg hg' hK hs hd T tp td k r' _ u hv' (hlr.valid (hld.valid hv)) (by omega)).post fun x hx =>
          ⟨fun e => by omega, fun _ => by omega⟩
      · have hrs := (hlr.trans hld).eq_of_len (Nat.le_antisymm (hlr.trans hld).len_le (by omega))
        rw [delimitLoop_stuck hdr hyes hr' hv' hrs _ _ _ (canRecord_of hv' hw hu)]
        exact Sat.diverge

end loops

/-! ### Parts -/

theorem look_size {P : Sub} (h : LookQuiet C P) (s : Span) : Sat (P.look s) (fun r => r.size = 0) anyErr := by
  refine (h s).sat.mono (fun r hr => ?_) fun _ _ => trivial
  unfold R.size
  cases hv : r.val with
  | none => rfl
  | some v => rw [hr.unit v hv]; rfl

theorem execute_size {F : Nat} (hconv : ∀ src dst f v, C.conv src dst = some f → (f v).size ≤ v.size + F) {T : Ty}
    {u c : Bool} {e : Elem} (st : Exec) (hg : SubGood e.sub) {G : Nat → Nat → Prop} (h0 : ∀ m, G 0 m)
    (h : Sat (e.sub.parse st.input) (fun r => G r.size r.rem.len) anyErr) :
    Sat (execute C T u c e st) (fun x => (∃ t, G t x.2.input.len ∧ x.2.value.size ≤ st.value.size + (t + (1 + F))) ∧
      (x.1 = false → x.2 = st)) anyErr := by
  unfold execute
  split
  · refine Sat.bind (hg.look _) fun r hr => Sat.pure ⟨⟨0, h0 _, by dsimp only; omega⟩, fun hv => ?_⟩
    rw [hr.of_not_hasValue (by simpa using hv)]
  · rename_i i hi
    refine Sat.bind h fun r hr => ?_
    split
    · exact Sat.pure ⟨⟨0, h0 _, by dsimp only; omega⟩, fun _ => rfl⟩
    · refine Sat.bind (Q := fun w => w.size ≤ st.value.size + (r.size + (1 + F))) ?_ fun w hw =>
        Sat.pure ⟨⟨_, hr, hw⟩, nofun⟩
      split
      · exact builderAssign_size.post fun w hw => by omega
      · split
        · exact (builderEmplaceAt_size hconv _ _).post fun w hw => by omega
        · exact (builderGetAssign_size _).post fun w hw => by omega

section parts
variable {rec : Parser α → Sub} {A S F n : Nat} {X Y : Parser α → Nat}

theorem foldOr_size (hconv : ∀ src dst f v, C.conv src dst = some f → (f v).size ≤ v.size + F) (hg : ∀ q, SubGood (rec q))
    (hA : S ≤ A) {es : List Elem} {ps : List (Parser α)} (he : RunsBy rec es ps) (T : Ty) (u c : Bool) (st : Exec)
    (h : ∀ q ∈ ps, Lead A S (X q) (Y q) n st.input (rec q)) :
    Sat (foldOr (execute C T u c) es st) (fun x => Small A S (st.value.size + (ps.map fun q => X q + (1 + F)).sum)
      (st.value.size + (ps.map fun q => Y q + (1 + F)).sum) n x.2.value.size x.2.input.len) anyErr := by
  induction he with
  | nil => exact Sat.pure (Small.free hA (by dsimp only; omega) (by dsimp only; omega))
  | @cons t i es q ps _ ih =>
    refine Sat.bind (execute_size (T := T) (u := u) (c := c) (e := ⟨rec q, t, i⟩) hconv st (hg q)
      (G := fun t m => Small A S (X q) (Y q) n t m) (fun m => Small.free hA (Nat.zero_le _) (Nat.zero_le _))
      (h q (.head _))) fun ⟨b, st'⟩ ⟨⟨t, ht, hsz⟩, hfail⟩ => ?_
    simp only [List.map_cons, List.sum_cons]
    cases b with
    | true =>
      refine Sat.pure ?_
      have := (ht.add (e := st.value.size + (1 + F)) (t' := st'.value.size) (by dsimp only at hsz; omega))
      exact this.mono (Nat.le_refl _) (by omega) (by omega) (Nat.le_refl _)
    | false =>
      obtain rfl : st' = st := hfail rfl
      exact (ih fun r hr => h r (.tail _ hr)).post fun x hx => hx.mono (Nat.le_refl _) (by omega) (by omega) (Nat.le_refl _)

theorem foldAnd_size (hconv : ∀ src dst f v, C.conv src dst = some f → (f v).size ≤ v.size + F) (hg : ∀ q, SubGood (rec q))
    (hXY : ∀ q, X q ≤ Y q) (hA : S ≤ A) {es : List Elem} {ps : List (Parser α)} (he : RunsBy rec es ps) (T : Ty) (u c : Bool)
    (o : Span) (ho : o.len = n) (st : Exec) (hso : st.input.SuffixOf o) (hs : st.input.Valid C.mem) (hlt : ∀ q ∈ ps, Short C A 0 (Y q) n (rec q))
    (heq : ∀ q ∈ ps, Lead A S (X q) (Y q) n o (rec q))
    (x y : Nat) (hxy : x ≤ y) (h : Small A S x y n st.value.size st.input.len) :
    Sat (foldAnd (execute C T u c) es st) (fun z => Small A S (x + (ps.map fun q => X q + (1 + F)).sum)
      (y + (ps.map fun q => Y q + (1 + F)).sum) n z.2.value.size z.2.input.len) anyErr := by
  induction he generalizing st x y with
  | nil => exact Sat.pure (h.mono (Nat.le_refl _) (by omega) (by omega) (Nat.le_refl _))
  | @cons t i es q ps _ ih =>
    have hn : st.input.len ≤ n := by have := hso.len_le; omega
    have hrun : Sat ((rec q).parse st.input) (fun r => (st.input.len = n → Small A S (X q) (Y q) n r.size r.rem.len) ∧
        (st.input.len < n → Small A 0 (Y q) (Y q) st.input.len r.size r.rem.len)) anyErr := by
      rcases Nat.lt_or_ge st.input.len n with h | h
      · exact (hlt q (.head _) _ hs h).post fun r hr => ⟨fun e => by omega, fun _ => hr⟩
      · exact ((heq q (.head _)).of ho hso (by omega)).post fun r hr => ⟨fun _ => hr, fun e => by omega⟩
    refine Sat.bind_run (execute_size (T := T) (u := u) (c := c) (e := ⟨rec q, t, i⟩) hconv st (hg q)
      (G := fun t m => (st.input.len = n → Small A S (X q) (Y q) n t m) ∧
        (st.input.len < n → Small A 0 (Y q) (Y q) st.input.len t m))
      (fun m => ⟨fun _ => Small.free hA (Nat.zero_le _) (Nat.zero_le _), fun _ => Small.free (Nat.zero_le _) (Nat.zero_le _) (Nat.zero_le _)⟩)
      hrun) fun l z hz hq => ?_
    have hsuf := (execute_suffix (C := C) (e := ⟨rec q, t, i⟩) (hg q) T u c st).at hz
    have hle := hsuf.len_le
    obtain ⟨b, st'⟩ := z
    obtain ⟨⟨a, hG, hsz⟩, -⟩ := hq
    dsimp only at hsuf hle hsz hG
    have hsm := (h.seq hxy hn hle hG.1 hG.2).add (e := 1 + F) (t' := st'.value.size) (by omega)
    simp only [List.map_cons, List.sum_cons]
    refine Sat.ite (fun hb => ?_) fun _ => Sat.pure (hsm.mono (Nat.le_refl _) (by omega) (by omega) (Nat.le_refl _))
    obtain rfl : b = true := hb
    exact (ih st' (hsuf.trans hso) (hsuf.valid hs) (fun r hr => hlt r (.tail _ hr)) (fun r hr => heq r (.tail _ hr)) _ _ (by have := hXY q; omega) hsm).post
      fun z hz => hz.mono (Nat.le_refl _) (by omega) (by omega) (Nat.le_refl _)

end parts

/-! ### Expressions -/

/-- the size of what a value of type `T` starts with -/
def startSize (C : Ctx α β) (T : Ty) : Nat := match defaultVal C T with | some v => v.size | none => 0

theorem builderInit_size (T : Ty) : Sat (builderInit C T) (fun v => v.size = startSize C T) anyErr :=
  Sat.ofOption (fun v h => by simp [startSize, h]) fun _ => trivial

mutual
/-- what an expression adds to a result when a custom parser adds `x` -/
def Parser.bulk (C : Ctx α β) (F x : Nat) : Parser α → Nat
  | .anyOf _ | .noneOf _ | .allOf _ | .anything => 1
  | .epsilon => 0
  | .choice ps => startSize C (choiceTrait (resultsFor C ps)).ty + bulks C F x ps
  | .sequence ps => startSize C (sequenceTrait (resultsFor C ps)).ty + bulks C F x ps
  | .maybe p => p.bulk C F x + (startSize C (resultFor C (.maybe p)) + 1)
  | .exactly p n => startSize C (resultFor C (.exactly p n)) + n * p.bulk C F x + p.bulk C F x
  | .oneOrMore p => startSize C (resultFor C (.oneOrMore p)) + p.bulk C F x
  | .zeroOrMore p => startSize C (resultFor C (.zeroOrMore p)) + p.bulk C F x
  | .delimit p d => startSize C (resultFor C (.delimit p d)) + (2 * p.bulk C F x + d.bulk C F x)
  | .ignore p | .join p => p.bulk C F x + 1
  | .complete p | .named p _ | .filter p _ => p.bulk C F x
  | .map p _ => p.bulk C F x + F
  | .custom _ => x + (1 + F)
def bulks (C : Ctx α β) (F x : Nat) : List (Parser α) → Nat
  | [] => 0
  | p :: ps => p.bulk C F x + (1 + F) + bulks C F x ps
end

theorem bulks_eq (F x : Nat) (ps : List (Parser α)) : bulks C F x ps = (ps.map fun q => q.bulk C F x + (1 + F)).sum := by
  induction ps with
  | nil => rfl
  | cons p ps ih => simp only [bulks, List.map_cons, List.sum_cons, ih]

theorem bulk_part {F x : Nat} {p q : Parser α} (h : q ∈ p.parts) : q.bulk C F x ≤ p.bulk C F x := by
  have list : ∀ ps : List (Parser α), q ∈ ps → q.bulk C F x ≤ bulks C F x ps := by
    intro ps h
    induction ps with
    | nil => cases h
    | cons p ps ih =>
      simp only [bulks]
      rcases List.mem_cons.1 h with rfl | h
      · omega
      · have := ih h; omega
  cases p <;> simp only [Parser.parts, List.mem_cons, List.not_mem_nil, or_false] at h
  case choice ps => have := list ps h; simp only [Parser.bulk]; omega
  case sequence ps => have := list ps h; simp only [Parser.bulk]; omega
  case delimit p d => rcases h with rfl | rfl <;> simp only [Parser.bulk] <;> omega
  all_goals (subst h; simp only [Parser.bulk]; omega)

theorem bulk_mono {F x y : Nat} (h : x ≤ y) (p : Parser α) : p.bulk C F x ≤ p.bulk C F y := by
  refine Parser.rec (motive_1 := fun p => p.bulk C F x ≤ p.bulk C F y) (motive_2 := fun ps => bulks C F x ps ≤ bulks C F y ps)
    ?_ ?_ ?_ ?_ ?_ ?_ ?_ ?_ ?_ ?_ ?_ ?_ ?_ ?_ ?_ ?_ ?_ ?_ ?_ ?_ ?_ p
  case refine_9 => intro p n ih; have := Nat.mul_le_mul_left n ih; simp only [Parser.bulk]; omega
  all_goals (intros; simp only [Parser.bulk, bulks]; omega)

theorem join_size {j : Nat} {q : Parser α} (s : Span) : Sat ((sem C j (.join q)).parse s) (fun r => r.size ≤ 1) anyErr := by
  refine Sat.intro (fun l r h => ?_) fun _ _ _ => trivial
  have h' := Parse_eq_done.2 ⟨j, h⟩
  rw [Parse_join_eq] at h'
  have : Sat (parseJoin C ⟨Parse C q, Look C q⟩ s) (fun r => r.size ≤ 1) anyErr := by
    refine Sat.bind (Q := fun _ => True) (Sat.intro (fun _ _ _ => trivial) fun _ _ _ => trivial) fun r _ => ?_
    split
    · refine Sat.bind (Q := fun _ => True) (Sat.intro (fun _ _ _ => trivial) fun _ _ _ => trivial) fun o _ => ?_
      split
      · exact Sat.pure (by simp [Val.size])
      · exact Sat.pure (by simp)
    · exact Sat.pure (by simp)
  exact this.at h'

theorem step_size {q : Parser α} {F x y A S K n j : Nat}
    (hconv : ∀ src dst f v, C.conv src dst = some f → (f v).size ≤ v.size + F)
    (hopt : ∀ src dst f o, C.convOpt src dst = some f → (f o).size ≤ (Val.opt o).size + F)
    (hfn : ∀ p f, q = .map p f → ∀ args log v, invoke C f args = .done log (.ok v) → v.size ≤ sizes args + F)
    (hxy : x ≤ y) (hA : S ≤ A) (hK : q.bulk C F y ≤ K) {s : Span} (hs : s.Valid C.mem) (hn : s.len = n)
    (part : ∀ r, ParseChild C q r → Lead A S (r.bulk C F x) (r.bulk C F y) n s (sem C j r))
    (short : ∀ r, ParseChild C q r → Short C A K (r.bulk C F y) n (sem C j r))
    (hk : ∀ k, q = .custom k → Sat ((sem C j (C.custom k).body).parse s) (fun r => Small A S x y n r.size r.rem.len) anyErr) :
    Sat ((sem C (j + 1) q).parse s) (fun r => Small A S (q.bulk C F x) (q.bulk C F y) n r.size r.rem.len) anyErr := by
  have free : ∀ {x y t m}, t ≤ x → t ≤ y → Small A S x y n t m := fun h1 h2 => Small.free hA h1 h2
  cases q with
  | anyOf _ | noneOf _ | allOf _ | anything =>
    refine (parseBasic_quiet (C := C) _ s).sat.mono (fun r hr => ?_) fun _ _ => trivial
    have : r.size ≤ 1 := by
      unfold R.size
      cases hv : r.val with
      | none => exact Nat.zero_le _
      | some v => obtain ⟨k, rfl, -⟩ := hr.val v hv; exact Nat.le_refl _
    exact free this this
  | epsilon => exact Sat.pure (free (by simp) (by simp))
  | choice ps =>
    simp only [Parser.bulk, bulks_eq]
    show Sat (parseChoice ..) _ _
    refine Sat.bind (builderInit_size _) fun v hv => Sat.bind (foldOr_size (X := fun q => q.bulk C F x) (Y := fun q => q.bulk C F y)
      hconv (fun q => sem_good j q) hA (runsBy_mkElems ..) _ _ _ ⟨s, v⟩ fun q hq => part q (.choice hq)) fun ⟨b, st⟩ hx => ?_
    refine Sat.ite (fun _ => Sat.pure (free (by simp) (by simp))) fun _ => Sat.pure ?_
    rw [build_rem, ← hv]
    exact hx.mono (Nat.le_refl _) (Nat.le_refl _) (Nat.le_refl _) (build_size _)
  | sequence ps =>
    simp only [Parser.bulk, bulks_eq]
    show Sat (parseSequence ..) _ _
    refine Sat.bind (builderInit_size _) fun v hv => Sat.bind (foldAnd_size (X := fun q => q.bulk C F x) (Y := fun q => q.bulk C F y)
      hconv (fun q => sem_good j q) (fun q => bulk_mono hxy q) hA (runsBy_mkElems ..) _ _ _ s hn ⟨s, v⟩ (.refl _) hs
      (fun q hq => (short q (.sequence hq)).weaken (Nat.zero_le _)) (fun q hq => part q (.sequence hq)) v.size v.size (Nat.le_refl _)
      (free (Nat.le_refl _) (Nat.le_refl _))) fun ⟨b, st⟩ hx => ?_
    refine Sat.ite (fun _ => Sat.pure (free (by simp) (by simp))) fun _ => Sat.pure ?_
    rw [build_rem, ← hv]
    exact hx.mono (Nat.le_refl _) (Nat.le_refl _) (Nat.le_refl _) (build_size _)
  | maybe q =>
    simp only [Parser.bulk]
    refine Sat.bind (builderInit_size _) fun v hv => Sat.bind (part q .maybe) fun r hr =>
      Sat.bind (Q := fun w => w.size ≤ r.size + (v.size + 1)) ?_ fun w hw => Sat.pure ?_
    · exact Sat.ite (fun _ => builderEmplace_size.post fun w hw => by omega) fun _ => Sat.pure (by omega)
    · rw [build_rem, ← hv]
      exact hr.add (Nat.le_trans (build_size _) hw)
  | exactly q m =>
    simp only [Parser.bulk]
    refine Sat.bind (builderInit_size _) fun v hv => ?_
    refine (exactlyLoop_size (sem_good j q) (bulk_mono hxy q) hA _ s (part q .exactly) ((short q .exactly).weaken (Nat.zero_le _)) m 0 s v
      v.size v.size (Nat.le_refl _) hn (.refl _) hs (Nat.le_of_eq hn) (free (Nat.le_refl _) (Nat.le_refl _))).post fun r hr =>
        hr.mono (Nat.le_refl _) ?_ ?_ (Nat.le_refl _)
    all_goals rw [hv]; omega
  | oneOrMore q =>
    simp only [Parser.bulk]
    refine Sat.bind (builderInit_size _) fun v hv => Sat.bind (oneOrMoreLoop_size (sem_good j q) hA (Nat.le_trans (bulk_part (.head _)) hK) s (part q .oneOrMore) (short q .oneOrMore)
      _ _ _ v hs hn) fun ⟨b, s', w⟩ hx => Sat.ite (fun _ => Sat.pure ?_) fun _ => Sat.pure (free (by simp) (by simp))
    rw [build_rem, ← hv]
    exact hx.mono (Nat.le_refl _) (Nat.le_refl _) (Nat.le_refl _) (build_size _)
  | zeroOrMore q =>
    simp only [Parser.bulk]
    refine Sat.bind (builderInit_size _) fun v hv => Sat.bind (zeroOrMoreLoop_size (sem_good j q) hA (Nat.le_trans (bulk_part (.head _)) hK) s (part q .zeroOrMore) (short q .zeroOrMore)
      _ _ v hs hn) fun ⟨s', w⟩ hx => Sat.pure ?_
    rw [build_rem, ← hv]
    exact hx.mono (Nat.le_refl _) (Nat.le_refl _) (Nat.le_refl _) (build_size _)
  | delimit q d =>
    have hK' : q.bulk C F y + d.bulk C F y ≤ K := by simp only [Parser.bulk] at hK; omega
    simp only [Parser.bulk]
    have h1 := part q .delimit
    refine Sat.bind (builderInit_size _) fun v hv => Sat.bind_run h1 fun l r hr hq => ?_
    have hl := (((sem_good j q).parse s).ok hr).suffix
    refine Sat.ite (fun _ => Sat.pure (free (by simp) (by simp))) fun hyes => ?_
    have hyes : r.hasValue = true := by simpa using hyes
    refine Sat.bind (delimitLoop_size (sem_good j q) (sem_good j d) (bulk_mono hxy q) (bulk_mono hxy d) hA hK' s h1 (short q .delimit)
      (short d .delimiter) _ _ _ _ r _ v hn hl hyes (hl.valid hs) (by have := hl.len_le; omega)
      (fun _ => part d .delimiter) hq) fun ⟨s', w⟩ hx => Sat.pure ?_
    rw [build_rem, ← hv]
    exact hx.mono (Nat.le_refl _) (Nat.le_refl _) (Nat.le_refl _) (build_size _)
  | ignore q => exact (look_size (sem_quiet j q) s).post fun r hr => free (by omega) (by omega)
  | complete q =>
    exact Sat.bind (part q .complete) fun r hr => Sat.ite (fun _ => Sat.pure (free (by simp) (by simp))) fun _ => Sat.pure hr
  | join q => exact (join_size s).post fun r hr => free (by simp only [Parser.bulk]; omega) (by simp only [Parser.bulk]; omega)
  | map q f =>
    refine Sat.bind (part q .map) fun r hr => Sat.ite (fun _ => Sat.pure (free (by simp) (by simp))) fun _ => ?_
    refine Sat.bind (Q := fun args => sizes args ≤ r.size) ?_ fun args ha => ?_
    · unfold argVals
      split
      · exact Sat.pure (by simp)
      · exact Sat.bind (deref_size r) fun w hw => Sat.pure (by simp [hw])
    · refine Sat.bind (Q := fun v => v.size ≤ sizes args + F) (Sat.intro (fun l v hv => hfn q f rfl args l v hv) fun _ _ _ => trivial)
        fun v hv => Sat.ite (fun _ => Sat.pure ?_) fun _ => Sat.pure ?_
      · exact hr.add (by simp)
      · exact hr.add (by simp only [size_success]; omega)
  | filter q f =>
    refine Sat.bind (part q .filter) fun r hr => Sat.ite (fun _ => Sat.pure (free (by simp) (by simp))) fun _ => ?_
    refine Sat.bind (Q := fun _ => True) (Sat.intro (fun _ _ _ => trivial) fun _ _ _ => trivial) fun args _ => ?_
    refine Sat.bind (Q := fun _ => True) (Sat.intro (fun _ _ _ => trivial) fun _ _ _ => trivial) fun v _ => ?_
    exact Sat.ite (fun _ => Sat.pure hr) fun _ => Sat.pure (free (by simp) (by simp))
  | named q _ => exact part q .named
  | custom k =>
    exact Sat.bind (hk k rfl) fun r hr => (convertResult_size hconv hopt _ _).post fun z hz => by
      rw [hz.2]; exact hr.add hz.1

/-! ### Grammars -/

theorem ParseReach.snoc {p q r : Parser α} (h : ParseReach C p q) (hc : ParseChild C q r) : ParseReach C p r := by
  induction h with
  | refl => exact .step hc .refl
  | step h _ ih => exact .step h (ih hc)


/-- what custom parsers of rank below `r` add -/
def rankBulk (C : Ctx α β) (F : Nat) (ks : List Nat) : Nat → Nat
  | 0 => 0
  | r + 1 => ks.foldr (fun k m => max ((C.custom k).body.bulk C F (rankBulk C F ks r)) m) (rankBulk C F ks r)

theorem rankBulk_mono (F : Nat) (ks : List Nat) {r r' : Nat} (h : r ≤ r') : rankBulk C F ks r ≤ rankBulk C F ks r' := by
  induction h with
  | refl => exact Nat.le_refl _
  | step _ ih => exact Nat.le_trans ih (foldr_max_ge _ _ _)

theorem convertResult_returns (a b : Ty) (r : R) : convertResult C a b r ≠ .diverge := by
  unfold convertResult
  split
  · nofun
  · split
    · nofun
    · split
      · nofun
      · split
        · nofun
        · unfold convert
          split
          · nofun
          · split <;> nofun

theorem sem_diverges {p : Parser α} {s : Span} {i j : Nat} (h : i ≤ j) (hd : (sem C j p).parse s = .diverge) :
    (sem C i p).parse s = .diverge := by
  have := (sem_mono_parse (C := C) p s).le h
  cases hi : (sem C i p).parse s with
  | diverge => rfl
  | done l r => have := this (by rw [hi]; nofun); rw [hd, hi] at this; cases this

/-- A run that ends does not get back to a custom parser at the same place: `todo` has those it can get to. -/
theorem sem_size {p : Parser α} {F : Nat} {ks : List Nat} {K : Nat} (ha : AddsAtMost C F p)
    (hks : ∀ k, ParseReach C p (.custom k) → k ∈ ks)
    (hw : ∀ q, ParseReach C p q → q.bulk C F (rankBulk C F ks ks.toFinset.card) ≤ K)
    (j : Nat) (q : Parser α) (hq : ParseReach C p q) (todo : Finset Nat) (hsub : todo ⊆ ks.toFinset) (s : Span)
    (htodo : ∀ k, ParseReach C p (.custom k) → k ∉ todo → (sem C j (.custom k)).parse s = .diverge) (hs : s.Valid C.mem) :
    Sat ((sem C j q).parse s) (fun r => Small (K * (ks.toFinset.card + 1)) (K * (ks.toFinset.card + 1 - todo.card))
      (q.bulk C F (rankBulk C F ks todo.card)) (q.bulk C F (rankBulk C F ks ks.toFinset.card)) s.len r.size r.rem.len) anyErr := by
  induction j using Nat.strong_induction_on generalizing q todo s with
  | _ j ih =>
  cases j with
  | zero => exact Sat.diverge
  | succ j =>
    have hcard := Finset.card_le_card hsub
    refine step_size ha.conv ha.convOpt (fun r f h => by subst h; exact ha.fns r f hq) (rankBulk_mono F ks hcard)
      (Nat.mul_le_mul_left _ (by omega)) (hw q hq) hs rfl ?_ ?_ ?_
    · intro r hm
      exact ih j (by omega) r (hq.snoc hm) todo hsub s (fun k hk hn => sem_diverges (by omega) (htodo k hk hn)) hs
    · intro r hm s' hs' hl
      refine (ih j (by omega) r (hq.snoc hm) ks.toFinset (fun _ h => h) s'
        (fun k hk hn => absurd (List.mem_toFinset.2 (hks k hk)) hn) hs').post fun o ho => ?_
      exact ho.mono (by simp) (Nat.le_refl _) (Nat.le_refl _) (Nat.le_refl _)
    · intro k hk
      subst hk
      have hu : ParseReach C p (C.custom k).body := hq.snoc .custom
      refine Sat.intro (fun l o ho => ?_) fun _ _ _ => trivial
      have hex : ∃ i, (sem C i (C.custom k).body).parse s ≠ .diverge := ⟨j, by rw [ho]; nofun⟩
      classical
      obtain ⟨i, hi⟩ : ∃ i, i = Nat.find hex := ⟨_, rfl⟩
      have hne := Nat.find_spec hex
      have hmin : ∀ i', i' < i → (sem C i' (C.custom k).body).parse s = .diverge := fun i' h => by
        simpa using Nat.find_min hex (hi ▸ h)
      have hij : i ≤ j := hi ▸ Nat.find_min' hex (by rw [ho]; nofun)
      rw [← hi] at hne
      have hio : (sem C i (C.custom k).body).parse s = .done l (.ok o) := by
        cases h : (sem C i (C.custom k).body).parse s with
        | diverge => exact absurd h hne
        | done l' r' => rw [← ho, (sem_mono_parse (C := C) _ s).le hij hne, h]
      have hself : (sem C i (.custom k)).parse s = .diverge := by
        cases i with
        | zero => rfl
        | succ i =>
          show parseCustom C _ _ (sem C i (C.custom k).body) s = _
          unfold parseCustom
          rw [hmin i (by omega)]; rfl
      have hmem : k ∈ todo := by
        by_contra hnot
        have := htodo k hq hnot
        have : parseCustom C (resultFor C (C.custom k).body) (C.custom k).ty (sem C j (C.custom k).body) s = .diverge := this
        unfold parseCustom at this
        rw [ho] at this
        have hc := convertResult_returns (C := C) (resultFor C (C.custom k).body) (C.custom k).ty o
        cases h : convertResult C (resultFor C (C.custom k).body) (C.custom k).ty o with
        | diverge => exact hc h
        | done l' r' =>
          simp only [M.bind_eq, M.bind, h] at this
          cases this
      have key := (ih i (by omega) _ hu (todo.erase k) (fun x hx => hsub (Finset.mem_of_mem_erase hx)) s (fun k' hk' hn => by
        by_cases h : k' = k
        · rw [h]; exact hself
        · exact sem_diverges (by omega) (htodo k' hk' fun hm => hn (Finset.mem_erase.2 ⟨h, hm⟩))) hs).ok hio
      have hpos : 0 < todo.card := Finset.card_pos.2 ⟨k, hmem⟩
      rw [Finset.card_erase_of_mem hmem] at key
      have hm : (C.custom k).body.bulk C F (rankBulk C F ks (todo.card - 1)) ≤ rankBulk C F ks todo.card := by
        have := le_foldr_max (fun k' => (C.custom k').body.bulk C F (rankBulk C F ks (todo.card - 1)))
          (rankBulk C F ks (todo.card - 1)) (hks k hq)
        rw [show todo.card = todo.card - 1 + 1 by omega]
        exact this
      have hS : K * (ks.toFinset.card + 1 - todo.card) + K ≤ K * (ks.toFinset.card + 1 - (todo.card - 1)) := by
        rw [← Nat.mul_succ]; exact Nat.mul_le_mul_left _ (by omega)
      have := hw _ hu
      exact ⟨fun e => Nat.le_trans (key.stay e) hm, fun e => by have := key.move e; omega⟩

/-- the size that is allowed for each consumed element: it depends on the grammar only -/
def perElement (C : Ctx α β) (F : Nat) (ks : List Nat) (p : Parser α) : Nat :=
  let W := rankBulk C F ks ks.toFinset.card
  ks.foldr (fun k m => max ((C.custom k).body.bulk C F W) m) (p.bulk C F W)

theorem perElement_bulk {F : Nat} {p : Parser α} {ks : List Nat} (hks : ∀ k, ParseReach C p (.custom k) → k ∈ ks) {q : Parser α}
    (hq : ParseReach C p q) : q.bulk C F (rankBulk C F ks ks.toFinset.card) ≤ perElement C F ks p := by
  generalize hW : rankBulk C F ks ks.toFinset.card = W
  have hp : p.bulk C F W ≤ perElement C F ks p := by
    subst hW; exact foldr_max_ge _ _ _
  have hb : ∀ k ∈ ks, (C.custom k).body.bulk C F W ≤ perElement C F ks p := fun k hk => by
    subst hW
    exact le_foldr_max (fun k' => (C.custom k').body.bulk C F _) _ hk
  suffices H : ∀ x, ParseReach C p x → x.bulk C F W ≤ perElement C F ks p → ∀ {q}, ParseReach C x q → q.bulk C F W ≤ perElement C F ks p from
    H p .refl hp hq
  intro x hx hxh q hq
  induction hq with
  | refl => exact hxh
  | step hc _ ih =>
    refine ih (hx.snoc hc) ?_
    cases hc with
    | custom => exact hb _ (hks _ hx)
    | choice h => exact Nat.le_trans (bulk_part (p := .choice _) h) hxh
    | sequence h => exact Nat.le_trans (bulk_part (p := .sequence _) h) hxh
    | delimiter => exact Nat.le_trans (bulk_part (.tail _ (.head _))) hxh
    | _ => exact Nat.le_trans (bulk_part (.head _)) hxh

/-- The size of a result is bounded by what was consumed. -/
theorem Parse_size {p : Parser α} {F : Nat} {ks : List Nat} (ha : AddsAtMost C F p) (hks : ∀ k, ParseReach C p (.custom k) → k ∈ ks)
    {s : Span} (hs : s.Valid C.mem) {log v s'} (h : Parses C p s log v s') :
    v.size ≤ perElement C F ks p * (ks.toFinset.card + 1) * (s.len - s'.len) + perElement C F ks p := by
  obtain ⟨j, hj⟩ := Parse_eq_done.1 h
  have hp := perElement_bulk (F := F) hks .refl
  have key := (sem_size ha hks (fun q hq => perElement_bulk hks hq) j p .refl ks.toFinset (fun _ h => h) s
    (fun k hk hn => absurd (List.mem_toFinset.2 (hks k hk)) hn) hs).at hj
  have hl := ((Parse_good p s).ok h).suffix.len_le
  rcases Nat.lt_or_ge s'.len s.len with hlt | hge
  · have := key.move hlt
    rw [Nat.mul_sub]
    dsimp only [R.size] at this
    omega
  · have := key.stay (Nat.le_antisymm hl hge)
    dsimp only [R.size] at this
    omega

end Tok3n
