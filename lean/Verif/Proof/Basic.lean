import Verif.Proof.Equations
/-
Basic parsers on valid inputs: closed forms.
-/

namespace Tok3n

variable {α β L : Type}

/-- pointer arithmetic without bounds check -/
def Ptr.shift : Ptr → Nat → Ptr
  | .null, _ => .null
  | .at b o, n => .at b (o + n)

/-- the span without its first `n` elements -/
def Span.drop (s : Span) (n : Nat) : Span := ⟨s.ptr.shift n, s.len - n⟩

@[simp] theorem Ptr.shift_zero (p : Ptr) : p.shift 0 = p := by cases p <;> rfl
@[simp] theorem Span.drop_zero (s : Span) : s.drop 0 = s := by simp [Span.drop]
theorem Ptr.shift_shift (p : Ptr) (m n : Nat) : (p.shift m).shift n = p.shift (m + n) := by
  cases p <;> simp [Ptr.shift, Nat.add_assoc]
theorem Span.drop_drop (s : Span) (m n : Nat) : (s.drop m).drop n = s.drop (m + n) := by
  simp [Span.drop, Ptr.shift_shift, Nat.sub_sub]
@[simp] theorem Span.drop_len (s : Span) (n : Nat) : (s.drop n).len = s.len - n := rfl
@[simp] theorem Span.drop_ptr (s : Span) (n : Nat) : (s.drop n).ptr = s.ptr.shift n := rfl

section
variable {mem : Mem β} {s : Span}

theorem Span.Valid.drop (h : s.Valid mem) {n : Nat} (hn : n ≤ s.len) : (s.drop n).Valid mem := by
  obtain ⟨p, len⟩ := s
  cases p with
  | null => simp only [Span.Valid, Span.drop, Ptr.shift] at *; omega
  | «at» b o => simp only [Span.Valid, Span.drop, Ptr.shift] at *; omega

theorem Span.Valid.elems_length (h : s.Valid mem) : (s.elems mem).length = s.len := by
  obtain ⟨p, len⟩ := s
  cases p with
  | null => simp only [Span.Valid] at h; simp [Span.elems, h]
  | «at» b o => simp only [Span.Valid] at h; simp [Span.elems]; omega

theorem Span.elems_drop (n : Nat) : (s.drop n).elems mem = (s.elems mem).drop n := by
  obtain ⟨p, len⟩ := s
  cases p with
  | null => simp [Span.elems, Span.drop, Ptr.shift]
  | «at» b o => simp [Span.elems, Span.drop, Ptr.shift, List.drop_take, List.drop_drop]

theorem Span.elems_take {n : Nat} (hn : n ≤ s.len) :
    Span.elems mem ⟨s.ptr, n⟩ = (s.elems mem).take n := by
  obtain ⟨p, len⟩ := s
  cases p with
  | null => simp [Span.elems]
  | «at» b o => simp only [Span.elems, List.take_take]; congr 1; simp only at hn; omega

theorem Span.Valid.advanced (h : s.Valid mem) {n : Nat} (hn : n ≤ s.len) : s.Advanced n (s.drop n) := by
  refine ⟨by simp; omega, ?_⟩
  obtain ⟨p, len⟩ := s
  cases p with
  | null => simp only [Span.Valid] at h; simp only at hn; exact .inl ⟨by omega, rfl⟩
  | «at» b o => exact .inr ⟨b, o, rfl, rfl⟩

theorem Span.Advanced.eq_drop {s s' : Span} {k : Nat} (h : s.Advanced k s') : s' = s.drop k := by
  obtain ⟨p, n⟩ := s; obtain ⟨p', n'⟩ := s'
  have hs := h.size
  simp only at hs
  simp only [Span.drop, Span.mk.injEq]
  refine ⟨?_, by omega⟩
  rcases h.start with ⟨rfl, e⟩ | ⟨b, o, e, e'⟩
  · simpa using e
  · simp only at e e'; rw [e, e']; rfl

theorem Span.Advanced.le {s s' : Span} {k : Nat} (h : s.Advanced k s') : k ≤ s.len := by
  have := h.size; omega

theorem Span.SuffixOf.valid {s' : Span} (hs : s'.SuffixOf s) (h : s.Valid mem) : s'.Valid mem := by
  obtain ⟨k, hk⟩ := hs
  rw [hk.eq_drop]; exact h.drop hk.le

theorem Span.SuffixOf.len_le {s' : Span} (hs : s'.SuffixOf s) : s'.len ≤ s.len := by
  obtain ⟨k, hk⟩ := hs; have := hk.size; omega

theorem Span.SuffixOf.eq_of_len {s' : Span} (hs : s'.SuffixOf s) (h : s'.len = s.len) : s' = s := by
  obtain ⟨k, hk⟩ := hs
  have := hk.size
  have hk0 : k = 0 := by omega
  subst hk0
  simpa using hk.eq_drop

theorem Span.Valid.ptrAdd (h : s.Valid mem) {n : Nat} (hn : n ≤ s.len) :
    (s.ptr.add mem n : M L Ptr) = M.pure (s.ptr.shift n) := by
  obtain ⟨p, len⟩ := s
  cases p with
  | null =>
    simp only [Span.Valid] at h; simp only at hn
    have : n = 0 := by omega
    simp [Ptr.add, this, Ptr.shift]
  | «at» b o => simp only [Span.Valid] at h; simp only at hn; simp [Ptr.add, Ptr.shift]; omega

theorem Span.Valid.read (h : s.Valid mem) {i : Nat} (hi : i < s.len) :
    (s.ptr.read mem i : M L β) =
      M.pure ((s.elems mem)[i]'(by rw [h.elems_length]; exact hi)) := by
  obtain ⟨p, len⟩ := s
  cases p with
  | null => simp only [Span.Valid] at h; simp only at hi; omega
  | «at» b o =>
    simp only [Span.Valid] at h; simp only at hi
    simp only [Ptr.read, Span.elems]
    rw [List.getElem?_eq_getElem (by omega)]
    simp [M.ofOption]

theorem Span.Valid.advance {C : Ctx α β} (h : s.Valid C.mem) {n : Nat} (hn : n ≤ s.len) :
    Tok3n.advance C s n = M.pure (s.drop n) := by
  simp only [Tok3n.advance, M.bind_eq, h.ptrAdd hn, M.pure_bind, sizeSub, if_pos hn]
  rfl

theorem Span.Valid.subspan (h : s.Valid mem) {n : Nat} (hn : n ≤ s.len) :
    (Span.subspan mem s n : M L Span) = M.pure (s.drop n) := by
  simp only [Span.subspan, if_pos hn, M.bind_eq, h.ptrAdd hn, M.pure_bind]
  rfl

end

/-! ### span equality -/

/-- pairwise comparison of two lists -/
def pairwise (eqv : α → β → Bool) : List α → List β → Bool
  | [], [] => true
  | a :: as, b :: bs => eqv a b && pairwise eqv as bs
  | _, _ => false

theorem equalLoop_eq (eqv : α → β → Bool) (as : List α) (bs : List β) (hl : as.length = bs.length)
    (readL : Nat → M L α) (readR : Nat → M L β)
    (hL : ∀ i (h : i < as.length), readL i = M.pure as[i])
    (hR : ∀ i (h : i < bs.length), readR i = M.pure bs[i])
    (todo i : Nat) (hi : i + todo = as.length) :
    Span.equalLoop readL readR eqv todo i = M.pure (pairwise eqv (as.drop i) (bs.drop i)) := by
  induction todo generalizing i with
  | zero =>
    have h1 : as.drop i = [] := List.drop_eq_nil_of_le (by omega)
    have h2 : bs.drop i = [] := List.drop_eq_nil_of_le (by omega)
    simp [Span.equalLoop, h1, h2, pairwise]
  | succ n ih =>
    have hi' : i < as.length := by omega
    have hib : i < bs.length := by omega
    simp only [Span.equalLoop, M.bind_eq, hL i hi', hR i hib, M.pure_bind]
    rw [List.drop_eq_getElem_cons hi', List.drop_eq_getElem_cons hib, pairwise]
    cases h : eqv as[i] bs[i] with
    | false => simp
    | true => simp only [Bool.not_true, Bool.false_eq_true, if_false, Bool.true_and]; exact ih (i + 1) (by omega)

theorem Span.equal_eq (eqv : α → β → Bool) {memL : Mem α} {memR : Mem β} {a b : Span}
    (ha : a.Valid memL) (hb : b.Valid memR) :
    (Span.equal memL memR eqv a b : M L Bool) =
      M.pure (pairwise eqv (a.elems memL) (b.elems memR)) := by
  unfold Span.equal
  by_cases h : a.len = b.len
  · rw [if_neg (by simpa using h)]
    have hl : (a.elems memL).length = (b.elems memR).length := by
      rw [ha.elems_length, hb.elems_length, h]
    have := equalLoop_eq (L := L) eqv (a.elems memL) (b.elems memR) hl (a.ptr.read memL) (b.ptr.read memR)
      (fun i hi => ha.read (by rwa [ha.elems_length] at hi))
      (fun i hi => hb.read (by rwa [hb.elems_length] at hi)) a.len 0 (by rw [ha.elems_length]; omega)
    simpa using this
  · rw [if_pos h]
    have : (a.elems memL).length ≠ (b.elems memR).length := by
      rw [ha.elems_length, hb.elems_length]; exact h
    congr 1
    generalize a.elems memL = as at this
    generalize b.elems memR = bs at this
    clear h ha hb
    induction as generalizing bs with
    | nil => cases bs with
      | nil => simp at this
      | cons => rfl
    | cons x as ih => cases bs with
      | nil => rfl
      | cons y bs =>
        simp only [pairwise]
        rw [← ih bs (by simpa using this)]; simp

/-! ### matching -/

/-- does the text start with elements equal to those of the list? -/
def startsWith (eqv : α → β → Bool) : List α → List β → Bool
  | [], _ => true
  | _ :: _, [] => false
  | a :: as, x :: xs => eqv a x && startsWith eqv as xs

/-- acceptance of a basic parser, as a function of the text -/
def BasicP.accepts (eqv : α → β → Bool) : BasicP α → List β → Bool
  | .anyOf arr, x :: _ => arr.any (eqv · x)
  | .anyOf _, [] => false
  | .noneOf arr, x :: _ => !arr.any (eqv · x)
  | .noneOf _, [] => false
  | .allOf arr, xs => startsWith eqv arr xs
  | .anything, xs => !xs.isEmpty

theorem contains_eq (eqv : α → β → Bool) (arr : List α) (x : β) :
    contains eqv arr x = arr.any (eqv · x) := by
  induction arr with
  | nil => rfl
  | cons a as ih => simp only [contains, ih, List.any_cons]; cases eqv a x <;> simp

theorem startsWith_eq_pairwise (eqv : α → β → Bool) (arr : List α) (xs : List β)
    (h : arr.length ≤ xs.length) : startsWith eqv arr xs = pairwise eqv arr (xs.take arr.length) := by
  induction arr generalizing xs with
  | nil => rfl
  | cons a as ih => cases xs with
    | nil => simp at h
    | cons x xs => simp only [startsWith, List.length_cons, List.take_succ_cons, pairwise]
                   rw [ih xs (by simpa using h)]

theorem startsWith_length {eqv : α → β → Bool} {arr : List α} {xs : List β}
    (h : startsWith eqv arr xs = true) : arr.length ≤ xs.length := by
  induction arr generalizing xs with
  | nil => simp
  | cons a as ih => cases xs with
    | nil => simp [startsWith] at h
    | cons x xs =>
      simp only [startsWith, Bool.and_eq_true] at h
      simpa using ih h.2

theorem BasicP.accepts_length {eqv : α → β → Bool} {b : BasicP α} {xs : List β}
    (h : b.accepts eqv xs = true) : b.length ≤ xs.length := by
  cases b with
  | anyOf arr => cases xs <;> simp [BasicP.accepts, BasicP.length] at *
  | noneOf arr => cases xs <;> simp [BasicP.accepts, BasicP.length] at *
  | allOf arr => exact startsWith_length h
  | anything => cases xs <;> simp [BasicP.accepts, BasicP.length] at *

section
variable {C : Ctx α β} {s : Span} (h : s.Valid C.mem)
include h

theorem failureCondition_eq (b : BasicP α) :
    failureCondition C b s = M.pure (!b.accepts C.eqv (s.elems C.mem)) := by
  have hl := h.elems_length
  cases b with
  | anyOf arr =>
    simp only [failureCondition, Span.empty]
    by_cases h0 : s.len = 0
    · have : s.elems C.mem = [] := by rw [← List.length_eq_zero_iff, hl, h0]
      simp [h0, this, BasicP.accepts]
    · have hr := h.read (L := Call) (i := 0) (by omega)
      obtain ⟨x, xs, hx⟩ : ∃ x xs, s.elems C.mem = x :: xs := by
        cases he : s.elems C.mem with
        | nil => rw [he] at hl; simp at hl; omega
        | cons x xs => exact ⟨x, xs, rfl⟩
      simp [h0, Span.front, hr, hx, BasicP.accepts, contains_eq]
  | noneOf arr =>
    simp only [failureCondition, Span.empty]
    by_cases h0 : s.len = 0
    · have : s.elems C.mem = [] := by rw [← List.length_eq_zero_iff, hl, h0]
      simp [h0, this, BasicP.accepts]
    · have hr := h.read (L := Call) (i := 0) (by omega)
      obtain ⟨x, xs, hx⟩ : ∃ x xs, s.elems C.mem = x :: xs := by
        cases he : s.elems C.mem with
        | nil => rw [he] at hl; simp at hl; omega
        | cons x xs => exact ⟨x, xs, rfl⟩
      simp [h0, Span.front, hr, hx, BasicP.accepts, contains_eq]
  | allOf arr =>
    simp only [failureCondition]
    by_cases hlt : s.len < arr.length
    · rw [if_pos hlt]
      cases hs : startsWith C.eqv arr (s.elems C.mem) with
      | false => simp [BasicP.accepts, hs]
      | true => have := startsWith_length hs; omega
    · rw [if_neg hlt]
      have hle : arr.length ≤ s.len := by omega
      simp only [M.bind_eq, Span.first, if_pos hle, M.pure_bind, arrNotEqual]
      have hv : (Span.mk s.ptr arr.length).Valid C.mem := by
        obtain ⟨p, len⟩ := s
        cases p <;> simp only [Span.Valid] at * <;> omega
      have ha : (Span.mk (.at 0 0) arr.length).Valid (fun _ => arr) := by simp [Span.Valid]
      rw [Span.equal_eq C.eqv ha hv, M.pure_bind, Span.elems_take hle]
      simp only [BasicP.accepts]
      rw [startsWith_eq_pairwise _ _ _ (by omega)]
      simp [Span.elems]
  | anything =>
    simp only [failureCondition, Span.empty, BasicP.accepts]
    cases he : s.elems C.mem with
    | nil => rw [he] at hl; simp at hl; simp [← hl]
    | cons x xs => rw [he] at hl; simp at hl; simp [← hl]

theorem parseBasic_eq (b : BasicP α) :
    parseBasic C b s = M.pure
      (if b.accepts C.eqv (s.elems C.mem) then R.success (.span ⟨s.ptr, b.length⟩) (s.drop b.length)
       else R.failure s) := by
  simp only [parseBasic, M.bind_eq, failureCondition_eq h, M.pure_bind]
  cases ha : b.accepts C.eqv (s.elems C.mem) with
  | false => simp
  | true =>
    have := BasicP.accepts_length ha
    rw [h.elems_length] at this
    simp [h.advance this]

theorem lookBasic_eq (b : BasicP α) :
    lookBasic C b s = M.pure
      (if b.accepts C.eqv (s.elems C.mem) then R.successVoid (s.drop b.length) else R.failure s) := by
  simp only [lookBasic, M.bind_eq, failureCondition_eq h, M.pure_bind]
  cases ha : b.accepts C.eqv (s.elems C.mem) with
  | false => simp
  | true =>
    have := BasicP.accepts_length ha
    rw [h.elems_length] at this
    simp [h.advance this]

end

end Tok3n
