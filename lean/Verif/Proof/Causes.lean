import Verif.Spec.Causes
import Verif.Proof.StackReturns
import Verif.Proof.Recorded
import Verif.Proof.Typing
import Verif.Proof.Agree
/-
Proofs for C73: why a run goes on for ever.
-/

namespace Tok3n

open Relation (ReflTransGen TransGen)

variable {α β : Type} {C : Ctx α β}

theorem RunIn_eq (m : Bool) (p : Parser α) (s : Span) : RunIn C m p s = (den C p).fn m s := by cases m <;> rfl

theorem Takes_iff {m : Bool} {p : Parser α} {s t : Span} :
    Takes C m p s t ↔ ∃ log v, (den C p).fn m s = .done log (.ok ⟨some v, t⟩) := by simp only [Takes, RunIn_eq]

theorem fn_good (m : Bool) (p : Parser α) (s : Span) : Sat ((den C p).fn m s) (Good s) anyErr := by
  cases m
  · exact Look_good p s
  · exact Parse_good p s

theorem Takes.suffix {m : Bool} {p : Parser α} {s t : Span} (h : Takes C m p s t) : t.SuffixOf s := by
  obtain ⟨l, v, h⟩ := Takes_iff.1 h
  exact ((fn_good m p s).ok h).suffix

theorem Takes.suffixes {m : Bool} {p : Parser α} {s t : Span} (h : ReflTransGen (Takes C m p) s t) : t.SuffixOf s := by
  induction h with
  | refl => exact Span.SuffixOf.refl _
  | tail _ h ih => exact h.suffix.trans ih

theorem TakesBoth.suffix {m : Bool} {p d : Parser α} {s t : Span} (h : TakesBoth C m d p s t) : t.SuffixOf s := by
  obtain ⟨u, h1, h2⟩ := h
  exact h2.suffix.trans h1.suffix

theorem TakesBoth.suffixes {m : Bool} {p d : Parser α} {s t : Span} (h : ReflTransGen (TakesBoth C m d p) s t) :
    t.SuffixOf s := by
  induction h with
  | refl => exact Span.SuffixOf.refl _
  | tail _ h ih => exact h.suffix.trans ih

theorem TakesAll.suffix {xs : List (Bool × Parser α)} {s t : Span} (h : TakesAll C xs s t) : t.SuffixOf s := by
  induction h with
  | nil => exact Span.SuffixOf.refl _
  | cons h _ ih => exact ih.trans h.suffix

theorem Tries.suffix {v w : Visit α} (h : Tries C v w) : w.place.SuffixOf v.place := by
  cases h with
  | choice => exact Span.SuffixOf.refl _
  | sequence _ h => exact h.suffix
  | exactly _ h => exact h.suffix
  | oneOrMore h => exact Takes.suffixes h
  | zeroOrMore h => exact Takes.suffixes h
  | delimiter h h' => exact (TakesBoth.suffixes h').trans h.suffix
  | next h h' h'' => exact h''.suffix.trans ((TakesBoth.suffixes h').trans h.suffix)
  | _ => exact Span.SuffixOf.refl _

/-- a call calls a part, or it is a custom parser's and calls the body -/
theorem Tries.part {v w : Visit α} (h : Tries C v w) :
    w.what ∈ v.what.parts ∨ ∃ k, v.what = .custom k ∧ w.what = (C.custom k).body := by
  cases h with
  | @choice m ps s is before m' p after hr hz hb =>
    refine .inl ?_
    have : (m', p) ∈ (is.map fun i => m && i.isSome).zip ps := by rw [hz]; simp
    exact (List.of_mem_zip this).2
  | @sequence m ps s before m' p after t hz _ =>
    refine .inl ?_
    have : (m', p) ∈ (ps.map fun p => (m && decide (resultFor C p ≠ .void), p)) := by rw [hz]; simp
    obtain ⟨q, hq, h⟩ := List.mem_map.1 this
    cases h
    exact hq
  | custom => exact .inr ⟨_, rfl, rfl⟩
  | _ => exact .inl (by simp [Parser.parts])

theorem Tries.uses {v w : Visit α} (h : Tries C v w) : Uses C v.what w.what := by
  rcases h.part with h | ⟨k, h1, h2⟩
  · exact .part h .self
  · rw [h1, h2]; exact .custom .self

theorem tries_uses {v w : Visit α} (h : ReflTransGen (Tries C) v w) : Uses C v.what w.what := by
  induction h with
  | refl => exact .self
  | tail _ h ih => exact ih.trans h.uses

/-! ### What does not return makes what calls it not return -/

/-- not returning (or not a program) -/
def Dead {A : Type} (m : Run A) : Prop := m = .diverge ∨ ∃ l, m = .done l (.err .ill)

/-- returning, and normally unless it is not a program -/
def Soft {A : Type} (m : Run A) : Prop := (∃ l v, m = .done l (.ok v)) ∨ ∃ l, m = .done l (.err .ill)

section
variable {A B : Type} {m m0 : Run A} {f : A → Run B}

theorem Dead.bind (h : Dead m) : Dead (M.bind m f) := by
  rcases h with rfl | ⟨l, rfl⟩
  · exact .inl rfl
  · exact .inr ⟨l, rfl⟩

theorem Dead.after (h : Dead m) (l : List Call) : Dead (m.after l) := by
  rcases h with rfl | ⟨l', rfl⟩
  · exact .inl rfl
  · exact .inr ⟨l ++ l', rfl⟩

theorem Dead.ok_bind {l v} (h : m = .done l (.ok v)) (hf : Dead (f v)) : Dead (M.bind m f) := by
  subst h
  rw [M.ok_bind]
  exact hf.after l

/-- past what returns -/
theorem Dead.past {l v} (hm : m.le m0) (h : m0 = .done l (.ok v)) (hf : Dead (f v)) : Dead (M.bind m f) := by
  cases hd : m with
  | diverge => exact .inl rfl
  | done l' r => exact Dead.ok_bind (by rw [← hd, ← hm (by rw [hd]; nofun)]; exact h) hf

theorem Dead.soft (hm : Soft m) (hf : ∀ l v, m = .done l (.ok v) → Dead (f v)) : Dead (M.bind m f) := by
  rcases hm with ⟨l, v, h⟩ | ⟨l, rfl⟩
  · exact Dead.ok_bind h (hf l v h)
  · exact .inr ⟨l, rfl⟩

theorem Soft.ne (h : Soft m) : m ≠ .diverge := by
  rcases h with ⟨l, v, rfl⟩ | ⟨l, rfl⟩ <;> nofun

theorem Dead.lim {ms : Nat → Run A} {x : Run A} (hl : Lim ms x) (h : ∀ n, Dead (ms n)) : Dead x := by
  cases x with
  | diverge => exact .inl rfl
  | done l r =>
    obtain ⟨n, hn⟩ := (hl.iff l r).1 rfl
    rcases h n with h | ⟨l', h⟩
    · rw [h] at hn; cases hn
    · rw [h] at hn; cases hn; exact .inr ⟨_, rfl⟩

theorem Dead.of_le (hm : m.le m0) (h : Dead m0) : Dead m := by
  cases hd : m with
  | diverge => exact .inl rfl
  | done l' r => rw [← hd, ← hm (by rw [hd]; nofun)]; exact h

end

theorem soft_pure {A : Type} (v : A) : Soft (M.pure v : Run A) := .inl ⟨_, _, rfl⟩
theorem soft_ill {A : Type} : Soft (M.fail .ill : Run A) := .inr ⟨_, rfl⟩

theorem soft_bind {A B : Type} {m : Run A} {f : A → Run B} (hm : Soft m) (hf : ∀ v, Soft (f v)) : Soft (M.bind m f) := by
  rcases hm with ⟨l, v, rfl⟩ | ⟨l, rfl⟩
  · rcases hf v with ⟨l', w, h⟩ | ⟨l', h⟩
    · rw [M.ok_bind, h]; exact .inl ⟨_, _, rfl⟩
    · rw [M.ok_bind, h]; exact .inr ⟨_, rfl⟩
  · exact .inr ⟨l, rfl⟩

theorem soft_init (T : Ty) : Soft (builderInit C T) := by
  unfold builderInit M.ofOption
  split
  · exact soft_pure _
  · exact soft_ill

theorem soft_convert (a b : Ty) (v : Val) : Soft (convert C a b v) := by
  unfold convert
  split
  · exact soft_pure _
  · split
    · exact soft_pure _
    · exact soft_ill

theorem soft_deref (v : Val) (t : Span) : Soft (R.deref ⟨some v, t⟩) := soft_pure v

theorem soft_assign (T : Ty) (w v : Val) (t : Span) : Soft (builderAssign T w ⟨some v, t⟩) := by
  unfold builderAssign
  split
  · exact soft_pure _
  · exact soft_deref v t

theorem soft_getAssign (T : Ty) (w : Val) (i : Nat) (v : Val) (t : Span) : Soft (builderGetAssign T w i ⟨some v, t⟩) := by
  unfold builderGetAssign
  split
  · exact soft_pure _
  · split
    · refine soft_bind (soft_deref v t) fun x => ?_
      split
      · exact soft_pure _
      · exact soft_ill
    · exact soft_ill

theorem soft_emplaceAt (T : Ty) (i : Nat) (src : Ty) (w v : Val) (t : Span) :
    Soft (builderEmplaceAt C T i src w ⟨some v, t⟩) := by
  unfold builderEmplaceAt
  split
  · exact soft_pure _
  · split
    · exact soft_bind (soft_deref v t) fun x => soft_bind (soft_convert _ _ _) fun _ => soft_pure _
    · exact soft_ill
  · exact soft_ill

theorem soft_insertBack (T : Ty) (w v : Val) (t : Span) : Soft (builderInsertBack T w ⟨some v, t⟩) := by
  unfold builderInsertBack
  split
  · exact soft_pure _
  · split
    · exact soft_bind (soft_deref v t) fun _ => soft_pure _
    · exact soft_ill

theorem soft_recordP (T tp td : Ty) (w v : Val) (t : Span) : Soft (delimitRecordP T tp td w ⟨some v, t⟩) := by
  unfold delimitRecordP
  split
  · split
    · exact soft_insertBack T w v t
    · unfold builderInsertBackFirst
      split
      · exact soft_pure _
      · split
        · exact soft_bind (soft_deref v t) fun _ => soft_pure _
        · exact soft_ill
  · exact soft_pure _

theorem soft_recordD (T tp td : Ty) (w v v' : Val) (t t' : Span) :
    Soft (delimitRecordD T tp td w ⟨some v', t'⟩ ⟨some v, t⟩) := by
  unfold delimitRecordD
  split
  · split
    · split
      · exact soft_insertBack T w v t
      · unfold builderInsertBackSecond
        split
        · exact soft_pure _
        · split
          · exact soft_bind (soft_deref v t) fun _ => soft_pure _
          · exact soft_ill
    · exact soft_pure _
  · exact soft_pure _

/-! ### Choices and sequences -/

/-- the element stands for a call of this function of this parser -/
structure Stands (rec : Parser α → Sub) (x : Bool × Parser α) (e : Elem) : Prop where
  sub : e.sub = rec x.2
  mode : e.idx.isSome = x.1

section
variable {rec : Parser α → Sub} {x : Bool × Parser α} {e : Elem} {T : Ty} {u c : Bool} {st : Exec}

theorem exec_dead (hx : Stands rec x e) (h : Dead ((rec x.2).fn x.1 st.input)) : Dead (execute C T u c e st) := by
  obtain ⟨hs, hm⟩ := hx
  unfold execute
  rw [← hm, ← hs] at h
  cases hi : e.idx with
  | none => rw [hi] at h; exact Dead.bind h
  | some i => rw [hi] at h; exact Dead.bind h

theorem exec_takes {A : Type} {f : Bool × Exec → Run A} {l v t} (hx : Stands rec x e)
    (hle : ((rec x.2).fn x.1 st.input).le ((den C x.2).fn x.1 st.input))
    (h : (den C x.2).fn x.1 st.input = .done l (.ok ⟨some v, t⟩))
    (hf : ∀ w, Dead (f (true, ⟨t, w⟩))) : Dead (M.bind (execute C T u c e st) f) := by
  obtain ⟨hs, hm⟩ := hx
  unfold execute
  rw [← hm, ← hs] at hle
  rw [← hm] at h
  cases hi : e.idx with
  | none =>
    rw [hi] at hle h
    simp only [M.bind_eq, M.bind_assoc, M.pure_bind]
    exact Dead.past hle h (hf _)
  | some i =>
    rw [hi] at hle h
    simp only [M.bind_eq, M.bind_assoc]
    refine Dead.past hle h ?_
    simp only [R.hasValue, Option.isSome_some, Bool.not_true, Bool.false_eq_true, if_false, M.bind_assoc, M.pure_bind]
    refine Dead.soft ?_ fun _ w _ => hf w
    split
    · exact soft_assign _ _ _ _
    · split
      · exact soft_emplaceAt _ _ _ _ _ _
      · exact soft_getAssign _ _ _ _ _

theorem exec_declines {A : Type} {f : Bool × Exec → Run A} {l t} (hx : Stands rec x e)
    (hle : ((rec x.2).fn x.1 st.input).le ((den C x.2).fn x.1 st.input))
    (h : (den C x.2).fn x.1 st.input = .done l (.ok ⟨none, t⟩))
    (hf : Dead (f (false, st))) : Dead (M.bind (execute C T u c e st) f) := by
  have ht : t = st.input := ((fn_good _ _ _).ok h).2 rfl
  subst ht
  obtain ⟨hs, hm⟩ := hx
  unfold execute
  rw [← hm, ← hs] at hle
  rw [← hm] at h
  cases hi : e.idx with
  | none =>
    rw [hi] at hle h
    simp only [M.bind_eq, M.bind_assoc, M.pure_bind]
    exact Dead.past hle h hf
  | some i =>
    rw [hi] at hle h
    simp only [M.bind_eq, M.bind_assoc]
    refine Dead.past hle h ?_
    simpa [R.hasValue, M.pure_bind] using hf

theorem exec_diverge (hx : Stands rec x e) (h : execute C T u c e st = .diverge) :
    (rec x.2).fn x.1 st.input = .diverge := by
  obtain ⟨hs, hm⟩ := hx
  unfold execute at h
  rw [← hm, ← hs]
  cases hi : e.idx with
  | none =>
    simp only [hi, M.bind_eq] at h
    exact bind_pure_diverge.1 h
  | some i =>
    simp only [hi, M.bind_eq] at h
    rcases M.bind_eq_diverge.1 h with h | ⟨l, ⟨rv, t⟩, -, h⟩
    · exact h
    · exfalso
      cases rv with
      | none => simp [R.hasValue] at h
      | some v =>
        simp only [R.hasValue, Option.isSome_some, Bool.not_true, Bool.false_eq_true, if_false] at h
        rcases M.bind_eq_diverge.1 h with h | ⟨_, _, -, h⟩
        · refine Soft.ne ?_ h
          split
          · exact soft_assign _ _ _ _
          · split
            · exact soft_emplaceAt _ _ _ _ _ _
            · exact soft_getAssign _ _ _ _ _
        · simp at h

theorem exec_ok {l st'} (hx : Stands (den C) x e) (h : execute C T u c e st = .done l (.ok (true, st'))) :
    Takes C x.1 x.2 st.input st'.input := by
  obtain ⟨hs, hm⟩ := hx
  unfold execute at h
  rw [Takes_iff, ← hm, ← hs]
  cases hi : e.idx with
  | none =>
    simp only [hi, M.bind_eq] at h
    obtain ⟨l1, l2, ⟨rv, t⟩, h1, h2, -⟩ := M.bind_eq_ok.1 h
    simp only [M.pure_eq_ok, Prod.mk.injEq] at h2
    obtain ⟨-, hv, rfl⟩ := h2
    cases rv with
    | none => simp [R.hasValue] at hv
    | some v => exact ⟨l1, v, h1⟩
  | some i =>
    simp only [hi, M.bind_eq] at h
    obtain ⟨l1, l2, ⟨rv, t⟩, h1, h2, -⟩ := M.bind_eq_ok.1 h
    cases rv with
    | none => simp [R.hasValue] at h2
    | some v =>
      simp only [R.hasValue, Option.isSome_some, Bool.not_true, Bool.false_eq_true, if_false] at h2
      obtain ⟨_, _, w, -, h3, -⟩ := M.bind_eq_ok.1 h2
      simp only [M.pure_eq_ok, Prod.mk.injEq, true_and] at h3
      obtain ⟨-, rfl⟩ := h3
      exact ⟨l1, v, h1⟩

theorem exec_no {l st'} (hx : Stands (den C) x e) (h : execute C T u c e st = .done l (.ok (false, st'))) :
    Declines C x.1 x.2 st.input ∧ st' = st := by
  obtain ⟨hs, hm⟩ := hx
  unfold execute at h
  rw [Declines, RunIn_eq]
  have hb := fn_good (C := C) x.1 x.2 st.input
  rw [← hm, ← hs] at hb ⊢
  cases hi : e.idx with
  | none =>
    simp only [hi, M.bind_eq] at h
    rw [hi] at hb
    obtain ⟨l1, l2, ⟨rv, t⟩, h1, h2, -⟩ := M.bind_eq_ok.1 h
    simp only [M.pure_eq_ok, Prod.mk.injEq] at h2
    obtain ⟨-, hv, rfl⟩ := h2
    cases rv with
    | some v => simp [R.hasValue] at hv
    | none =>
      refine ⟨⟨l1, t, h1⟩, ?_⟩
      have : t = st.input := (hb.ok h1).2 rfl
      subst this
      rfl
  | some i =>
    simp only [hi, M.bind_eq] at h
    obtain ⟨l1, l2, ⟨rv, t⟩, h1, h2, -⟩ := M.bind_eq_ok.1 h
    cases rv with
    | none =>
      simp only [R.hasValue, Option.isSome_none, Bool.not_false, if_true, M.pure_eq_ok, Prod.mk.injEq, true_and] at h2
      exact ⟨⟨l1, t, h1⟩, h2.2⟩
    | some v =>
      simp only [R.hasValue, Option.isSome_some, Bool.not_true, Bool.false_eq_true, if_false] at h2
      obtain ⟨_, _, w, -, h3, -⟩ := M.bind_eq_ok.1 h2
      simp at h3

end

section
variable {rec : Parser α → Sub} {T : Ty} {u c : Bool}

theorem foldOr_dead (hle : ∀ q m s, ((rec q).fn m s).le ((den C q).fn m s)) {before after : List (Bool × Parser α)}
    {x : Bool × Parser α} {es : List Elem} (hs : List.Forall₂ (Stands rec) (before ++ x :: after) es) (st : Exec)
    (hb : ∀ y ∈ before, Declines C y.1 y.2 st.input) (hx : Dead ((rec x.2).fn x.1 st.input)) :
    Dead (foldOr (execute C T u c) es st) := by
  induction before generalizing es with
  | nil =>
    rw [List.nil_append, List.forall₂_cons_left_iff] at hs
    obtain ⟨e, es, h, -, rfl⟩ := hs
    exact Dead.bind (exec_dead h hx)
  | cons y before ih =>
    rw [List.cons_append, List.forall₂_cons_left_iff] at hs
    obtain ⟨e, es, h, hs, rfl⟩ := hs
    obtain ⟨l, t, hd⟩ := hb y (by simp)
    rw [RunIn_eq] at hd
    refine exec_declines h (hle _ _ _) hd ?_
    simpa using ih hs fun y hy => hb y (by simp [hy])

theorem foldAnd_dead (hle : ∀ q m s, ((rec q).fn m s).le ((den C q).fn m s)) {before after : List (Bool × Parser α)}
    {x : Bool × Parser α} {es : List Elem} (hs : List.Forall₂ (Stands rec) (before ++ x :: after) es) (st : Exec) {t : Span}
    (hb : TakesAll C before st.input t) (hx : Dead ((rec x.2).fn x.1 t)) :
    Dead (foldAnd (execute C T u c) es st) := by
  induction before generalizing es st with
  | nil =>
    cases hb
    rw [List.nil_append, List.forall₂_cons_left_iff] at hs
    obtain ⟨e, es, h, -, rfl⟩ := hs
    exact Dead.bind (exec_dead h hx)
  | cons y before ih =>
    rw [List.cons_append, List.forall₂_cons_left_iff] at hs
    obtain ⟨e, es, h, hs, rfl⟩ := hs
    generalize hi : st.input = i at hb
    cases hb with
    | @cons m p _ _ t' _ h1 h2 =>
      subst hi
      obtain ⟨l, v, hd⟩ := Takes_iff.1 h1
      refine exec_takes h (hle _ _ _) hd fun w => ?_
      simpa using ih hs ⟨t', w⟩ h2

theorem foldOr_diverge {xs : List (Bool × Parser α)} {es : List Elem} (hs : List.Forall₂ (Stands (den C)) xs es) (st : Exec)
    (h : foldOr (execute C T u c) es st = .diverge) :
    ∃ before x after, xs = before ++ x :: after ∧ (∀ y ∈ before, Declines C y.1 y.2 st.input) ∧
      (den C x.2).fn x.1 st.input = .diverge := by
  induction hs with
  | nil => simp [foldOr] at h
  | @cons x e xs es hx _ ih =>
    simp only [foldOr, M.bind_eq] at h
    rcases M.bind_eq_diverge.1 h with h | ⟨l, ⟨b, st'⟩, h1, h2⟩
    · exact ⟨[], x, xs, rfl, nofun, exec_diverge hx h⟩
    · cases b with
      | true => simp at h2
      | false =>
        obtain ⟨hd, rfl⟩ := exec_no hx h1
        obtain ⟨before, y, after, rfl, hb, hy⟩ := ih (by simpa using h2)
        refine ⟨x :: before, y, after, rfl, fun z hz => ?_, hy⟩
        rcases List.mem_cons.1 hz with rfl | hz
        · exact hd
        · exact hb z hz

theorem foldAnd_diverge {xs : List (Bool × Parser α)} {es : List Elem} (hs : List.Forall₂ (Stands (den C)) xs es) (st : Exec)
    (h : foldAnd (execute C T u c) es st = .diverge) :
    ∃ before x after t, xs = before ++ x :: after ∧ TakesAll C before st.input t ∧
      (den C x.2).fn x.1 t = .diverge := by
  induction hs generalizing st with
  | nil => simp [foldAnd] at h
  | @cons x e xs es hx _ ih =>
    simp only [foldAnd, M.bind_eq] at h
    rcases M.bind_eq_diverge.1 h with h | ⟨l, ⟨b, st'⟩, h1, h2⟩
    · exact ⟨[], x, xs, _, rfl, .nil, exec_diverge hx h⟩
    · cases b with
      | false => simp at h2
      | true =>
        obtain ⟨before, y, after, t, rfl, hb, hy⟩ := ih st' (by simpa using h2)
        exact ⟨x :: before, y, after, t, rfl, .cons (exec_ok hx h1) hb, hy⟩

end

section
variable (rec : Parser α → Sub)

theorem stands_elems {ps : List (Parser α)} {is : List (Option Nat)} :
    List.Forall₂ (Stands rec) ((is.map fun i => true && i.isSome).zip ps) (mkElems rec C ps is) := by
  induction ps generalizing is with
  | nil => cases is <;> simp [mkElems]
  | cons p ps ih =>
    cases is with
    | nil => simp [mkElems]
    | cons i is => simp only [mkElems, List.map_cons, List.zip_cons_cons]; exact .cons ⟨rfl, by simp⟩ ih

theorem stands_look {ps : List (Parser α)} {is : List (Option Nat)} (h : is.length = ps.length) :
    List.Forall₂ (Stands rec) ((is.map fun i => false && i.isSome).zip ps) (mkLookElems rec C ps) := by
  induction ps generalizing is with
  | nil => cases is <;> simp [mkLookElems]
  | cons p ps ih =>
    cases is with
    | nil => simp at h
    | cons i is =>
      simp only [mkLookElems, List.map_cons, List.zip_cons_cons]
      exact .cons ⟨rfl, by simp⟩ (ih (by simpa using h))

theorem stands_positions {ps : List (Parser α)} (n : Nat) :
    List.Forall₂ (Stands rec) (ps.map fun p => (true && decide (resultFor C p ≠ .void), p))
      (mkElems rec C ps (positions n (resultsFor C ps))) := by
  induction ps generalizing n with
  | nil => simp [mkElems]
  | cons p ps ih =>
    simp only [resultsFor, positions, List.map_cons]
    split
    · next h => exact .cons ⟨rfl, by simp [h]⟩ (ih n)
    · next h => exact .cons ⟨rfl, by simp [h]⟩ (ih (n + 1))

theorem stands_lookSeq {ps : List (Parser α)} :
    List.Forall₂ (Stands rec) (ps.map fun p => (false && decide (resultFor C p ≠ .void), p)) (mkLookElems rec C ps) := by
  induction ps with
  | nil => simp [mkLookElems]
  | cons p ps ih => exact .cons ⟨rfl, by simp⟩ ih

end

/-! ### `exactly` -/

/-- the builder's value has room for `n` more elements from `i` on -/
def Room (T : Ty) (i n : Nat) (v : Val) : Prop := T = .void ∨ ∃ vs, v = .arr vs ∧ i + n ≤ vs.length

theorem soft_arrayAssign {T : Ty} {i n : Nat} {w : Val} (h : Room T i (n + 1) w) (v : Val) (t : Span) :
    Soft (builderArrayAssign T w i ⟨some v, t⟩) ∧
      ∀ l w', builderArrayAssign T w i ⟨some v, t⟩ = .done l (.ok w') → Room T (i + 1) n w' := by
  unfold builderArrayAssign
  split
  · next hT => exact ⟨soft_pure _, fun _ _ _ => .inl hT⟩
  · next hT =>
    rcases h with h | ⟨vs, rfl, hl⟩
    · exact absurd h hT
    · have hi : i < vs.length := by omega
      simp only [M.bind_eq, R.deref, M.pure_bind, if_pos hi]
      refine ⟨soft_pure _, fun l w' h => .inr ?_⟩
      simp only [M.pure_eq_ok] at h
      obtain ⟨-, rfl⟩ := h
      exact ⟨_, rfl, by simp only [List.length_set]; omega⟩

section
variable {P D : Sub} {p d : Parser α}

theorem exactlyLoop_dead {T : Ty} (hle : ∀ s, (P.parse s).le (Parse C p s)) (s0 : Span) {j : Nat} {n i : Nat} {s t : Span}
    {v : Val} (hj : j < n) (ht : TakesAll C (List.replicate j (true, p)) s t) (hd : Dead (P.parse t)) (hr : Room T i n v) :
    Dead (exactlyLoop T P s0 n i s v) := by
  induction j generalizing n i s v with
  | zero =>
    cases ht
    obtain ⟨n, rfl⟩ : ∃ n', n = n' + 1 := ⟨n - 1, by omega⟩
    exact Dead.bind hd
  | succ j ih =>
    obtain ⟨n, rfl⟩ : ∃ n', n = n' + 1 := ⟨n - 1, by omega⟩
    rw [List.replicate_succ] at ht
    cases ht with
    | cons h1 h2 =>
      obtain ⟨l, w, hd⟩ := h1
      refine Dead.past (hle s) hd ?_
      simp only [R.hasValue, Option.isSome_some, Bool.not_true, Bool.false_eq_true, if_false, M.bind_eq]
      have hs := soft_arrayAssign hr w
      exact Dead.soft (hs _).1 fun l w' hw => ih (by omega) h2 ((hs _).2 l w' hw)

theorem lookExactlyLoop_dead (hle : ∀ s, (P.look s).le (Look C p s)) (s0 : Span) {j : Nat} {n : Nat} {s t : Span}
    (hj : j < n) (ht : TakesAll C (List.replicate j (false, p)) s t) (hd : Dead (P.look t)) :
    Dead (lookExactlyLoop P s0 n s) := by
  induction j generalizing n s with
  | zero =>
    cases ht
    obtain ⟨n, rfl⟩ : ∃ n', n = n' + 1 := ⟨n - 1, by omega⟩
    exact Dead.bind hd
  | succ j ih =>
    obtain ⟨n, rfl⟩ : ∃ n', n = n' + 1 := ⟨n - 1, by omega⟩
    rw [List.replicate_succ] at ht
    cases ht with
    | cons h1 h2 =>
      obtain ⟨l, w, hd⟩ := h1
      refine Dead.past (hle s) hd ?_
      simpa [R.hasValue] using ih (by omega) h2

theorem exactlyLoop_diverge {T : Ty} {s0 : Span} {n i : Nat} {s : Span} {v : Val}
    (h : exactlyLoop T (den C p) s0 n i s v = .diverge) :
    ∃ j t, j < n ∧ TakesAll C (List.replicate j (true, p)) s t ∧ Parse C p t = .diverge := by
  induction n generalizing i s v with
  | zero => simp [exactlyLoop] at h
  | succ n ih =>
    simp only [exactlyLoop, M.bind_eq] at h
    rcases M.bind_eq_diverge.1 h with h | ⟨l, ⟨rv, t⟩, h1, h2⟩
    · exact ⟨0, s, by omega, .nil, h⟩
    · cases rv with
      | none => simp [R.hasValue] at h2
      | some w =>
        simp only [R.hasValue, Option.isSome_some, Bool.not_true, Bool.false_eq_true, if_false] at h2
        rcases M.bind_eq_diverge.1 h2 with h2 | ⟨_, w', -, h2⟩
        · exact absurd h2 (builderArrayAssign_ne _ _ _ _)
        · obtain ⟨j, t', hj, ht, hd⟩ := ih h2
          exact ⟨j + 1, t', by omega, .cons ⟨l, w, h1⟩ ht, hd⟩

theorem lookExactlyLoop_diverge {s0 : Span} {n : Nat} {s : Span} (h : lookExactlyLoop (den C p) s0 n s = .diverge) :
    ∃ j t, j < n ∧ TakesAll C (List.replicate j (false, p)) s t ∧ Look C p t = .diverge := by
  induction n generalizing s with
  | zero => simp [lookExactlyLoop] at h
  | succ n ih =>
    simp only [lookExactlyLoop, M.bind_eq] at h
    rcases M.bind_eq_diverge.1 h with h | ⟨l, ⟨rv, t⟩, h1, h2⟩
    · exact ⟨0, s, by omega, .nil, h⟩
    · cases rv with
      | none => simp [R.hasValue] at h2
      | some w =>
        simp only [R.hasValue, Option.isSome_some, Bool.not_true, Bool.false_eq_true, if_false] at h2
        obtain ⟨j, t', hj, ht, hd⟩ := ih h2
        exact ⟨j + 1, t', by omega, .cons ⟨l, w, h1⟩ ht, hd⟩

/-! ### Repetitions -/

theorem oneOrMoreLoop_dead {T : Ty} (hle : ∀ s, (P.parse s).le (Parse C p s)) {s t : Span}
    (h : ReflTransGen (Takes C true p) s t) (hd : Dead (P.parse t)) (k : Nat) (b : Bool) (v : Val) :
    Dead (oneOrMoreLoop T P k b s v) := by
  induction h using ReflTransGen.head_induction_on generalizing k b v with
  | refl =>
    cases k with
    | zero => exact .inl rfl
    | succ k => exact Dead.bind hd
  | head h1 _ ih =>
    cases k with
    | zero => exact .inl rfl
    | succ k =>
      obtain ⟨l, w, h1⟩ := h1
      refine Dead.past (hle _) h1 ?_
      simp only [R.hasValue, Option.isSome_some, Bool.not_true, Bool.false_eq_true, if_false, M.bind_eq]
      exact Dead.soft (soft_insertBack _ _ _ _) fun _ _ _ => ih _ _ _

theorem zeroOrMoreLoop_dead {T : Ty} (hle : ∀ s, (P.parse s).le (Parse C p s)) {s t : Span}
    (h : ReflTransGen (Takes C true p) s t) (hd : Dead (P.parse t)) (k : Nat) (v : Val) :
    Dead (zeroOrMoreLoop T P k s v) := by
  induction h using ReflTransGen.head_induction_on generalizing k v with
  | refl =>
    cases k with
    | zero => exact .inl rfl
    | succ k => exact Dead.bind hd
  | head h1 _ ih =>
    cases k with
    | zero => exact .inl rfl
    | succ k =>
      obtain ⟨l, w, h1⟩ := h1
      refine Dead.past (hle _) h1 ?_
      simp only [R.hasValue, Option.isSome_some, Bool.not_true, Bool.false_eq_true, if_false, M.bind_eq]
      exact Dead.soft (soft_insertBack _ _ _ _) fun _ _ _ => ih _ _

theorem lookOneOrMoreLoop_dead (hle : ∀ s, (P.look s).le (Look C p s)) {s t : Span}
    (h : ReflTransGen (Takes C false p) s t) (hd : Dead (P.look t)) (k : Nat) (b : Bool) :
    Dead (lookOneOrMoreLoop P k b s) := by
  induction h using ReflTransGen.head_induction_on generalizing k b with
  | refl =>
    cases k with
    | zero => exact .inl rfl
    | succ k => exact Dead.bind hd
  | head h1 _ ih =>
    cases k with
    | zero => exact .inl rfl
    | succ k =>
      obtain ⟨l, w, h1⟩ := h1
      refine Dead.past (hle _) h1 ?_
      simpa [R.hasValue] using ih _ _

theorem lookZeroOrMoreLoop_dead (hle : ∀ s, (P.look s).le (Look C p s)) {s t : Span}
    (h : ReflTransGen (Takes C false p) s t) (hd : Dead (P.look t)) (k : Nat) :
    Dead (lookZeroOrMoreLoop P k s) := by
  induction h using ReflTransGen.head_induction_on generalizing k with
  | refl =>
    cases k with
    | zero => exact .inl rfl
    | succ k => exact Dead.bind hd
  | head h1 _ ih =>
    cases k with
    | zero => exact .inl rfl
    | succ k =>
      obtain ⟨l, w, h1⟩ := h1
      refine Dead.past (hle _) h1 ?_
      simpa [R.hasValue] using ih _

/-- the delimiter after these, or the element after this delimiter, does not return -/
def PairDead (C : Ctx α β) (m : Bool) (P D : Sub) (d : Parser α) (u : Span) : Prop :=
  Dead (D.fn m u) ∨ ∃ u', Takes C m d u u' ∧ Dead (P.fn m u')

theorem delimitLoop_dead {T tp td : Ty} (hp : ∀ s, (P.parse s).le (Parse C p s)) (hd : ∀ s, (D.parse s).le (Parse C d s))
    {t u : Span} (h : ReflTransGen (TakesBoth C true d p) t u) (hu : PairDead C true P D d u) (k : Nat) (s : Span) (w v : Val) :
    Dead (delimitLoop T tp td P D k ⟨some w, t⟩ s v) := by
  induction h using ReflTransGen.head_induction_on generalizing k s w v with
  | refl =>
    cases k with
    | zero => exact .inl rfl
    | succ k =>
      simp only [delimitLoop, R.hasValue, Option.isSome_some, Bool.not_true, Bool.false_eq_true, if_false, M.bind_eq]
      refine Dead.soft (soft_recordP _ _ _ _ _ _) fun _ v' _ => ?_
      rcases hu with hu | ⟨u', ⟨l, x, h1⟩, h2⟩
      · exact Dead.bind hu
      · refine Dead.past (hd _) h1 ?_
        simp only [Option.isSome_some, Bool.not_true, Bool.false_eq_true, if_false]
        exact Dead.bind h2
  | head h1 _ ih =>
    cases k with
    | zero => exact .inl rfl
    | succ k =>
      obtain ⟨a, ⟨l, x, h1⟩, l', y, h2⟩ := h1
      simp only [delimitLoop, R.hasValue, Option.isSome_some, Bool.not_true, Bool.false_eq_true, if_false, M.bind_eq]
      refine Dead.soft (soft_recordP _ _ _ _ _ _) fun _ v' _ => ?_
      refine Dead.past (hd _) h1 ?_
      simp only [Option.isSome_some, Bool.not_true, Bool.false_eq_true, if_false]
      refine Dead.past (hp _) h2 ?_
      exact Dead.soft (soft_recordD _ _ _ _ _ _ _ _) fun _ v'' _ => ih _ _ _ _

theorem lookDelimitLoop_dead (hp : ∀ s, (P.look s).le (Look C p s)) (hd : ∀ s, (D.look s).le (Look C d s))
    {t u : Span} (h : ReflTransGen (TakesBoth C false d p) t u) (hu : PairDead C false P D d u) (k : Nat) (s : Span) (w : Val) :
    Dead (lookDelimitLoop P D k ⟨some w, t⟩ s) := by
  induction h using ReflTransGen.head_induction_on generalizing k s w with
  | refl =>
    cases k with
    | zero => exact .inl rfl
    | succ k =>
      simp only [lookDelimitLoop, R.hasValue, Option.isSome_some, Bool.not_true, Bool.false_eq_true, if_false, M.bind_eq]
      rcases hu with hu | ⟨u', ⟨l, x, h1⟩, h2⟩
      · exact Dead.bind hu
      · refine Dead.past (hd _) h1 ?_
        simp only [Option.isSome_some, Bool.not_true, Bool.false_eq_true, if_false]
        exact Dead.bind h2
  | head h1 _ ih =>
    cases k with
    | zero => exact .inl rfl
    | succ k =>
      obtain ⟨a, ⟨l, x, h1⟩, l', y, h2⟩ := h1
      simp only [lookDelimitLoop, R.hasValue, Option.isSome_some, Bool.not_true, Bool.false_eq_true, if_false, M.bind_eq]
      refine Dead.past (hd _) h1 ?_
      simp only [Option.isSome_some, Bool.not_true, Bool.false_eq_true, if_false]
      exact Dead.past (hp _) h2 (ih _ _ _)

end

/-- A repetition that does not end gets to a step that does not return, or to one that leaves what it got. -/
theorem repeatAll_cause {A : Type} {step : Step A} (hsuf : ∀ s l x t, step s = .done l (.ok (some (x, t))) → t.SuffixOf s)
    {s : Span} (h : repeatAll step s = .diverge) :
    ∃ l xs t, Chain step s l xs t ∧ (step t = .diverge ∨ ∃ l' x, step t = .done l' (.ok (some (x, t)))) := by
  rcases repeatAll_diverge.1 h with ⟨l, xs, t, hc, hd⟩ | h
  · exact ⟨l, xs, t, hc, .inl hd⟩
  · by_contra hno
    have key : ∀ n s', (∃ l xs, Chain step s l xs s') → ∀ l xs t, Chain step s' l xs t → xs.length = n →
        t.len + n ≤ s'.len := by
      intro n
      induction n with
      | zero =>
        rintro s' - l xs t hc hl
        cases hc with
        | nil => simp
        | cons => simp at hl
      | succ n ih =>
        rintro s' ⟨l0, xs0, h0⟩ l xs t hc hl
        cases hc with
        | nil => simp at hl
        | @cons _ l1 x s1 log xs' _ h1 h2 =>
          have hle := ih s1 ⟨_, _, h0.append (.cons h1 .nil)⟩ _ _ _ h2 (by simpa using hl)
          have hs := hsuf _ _ _ _ h1
          have hne : s1 ≠ s' := by
            rintro rfl
            exact hno ⟨l0, xs0, s1, h0, .inr ⟨l1, x, h1⟩⟩
          have hlt : s1.len < s'.len := by
            rcases Nat.lt_or_ge s1.len s'.len with h | h
            · exact h
            · exact absurd (hs.eq_of_len (Nat.le_antisymm hs.len_le h)) hne
          omega
    obtain ⟨l, xs, t, hl, hc⟩ := h (s.len + 1)
    have := key _ s ⟨_, _, .nil⟩ _ _ _ hc hl
    omega

/-! ### All parsers -/

theorem choice_indices {ps : List (Parser α)} {is : List (Option Nat)} (h : Recorded (ps.map (resultFor C)) is) :
    is = (choiceTrait (resultsFor C ps)).seq ∧ is.length = ps.length := by
  refine ⟨?_, by simpa using h.length⟩
  rw [choiceTrait_seq, resultsFor_eq]
  exact h.unique (recorded _)

theorem init_room (n : Nat) (t : Ty) {l v} (h : builderInit C (voidOr (.arr · n) t) = .done l (.ok v)) :
    Room (voidOr (.arr · n) t) 0 n v := by
  by_cases ht : t = .void
  · exact .inl (by simp [voidOr, ht])
  · refine .inr ?_
    simp only [voidOr, ht, if_false, builderInit, defaultVal] at h
    cases hd : defaultVal C t with
    | none => simp [hd, M.ofOption] at h
    | some d =>
      simp only [hd, Option.map_some, M.ofOption, M.pure_eq_ok] at h
      obtain ⟨-, rfl⟩ := h
      exact ⟨_, rfl, by simp⟩

/-- A call that makes a call which does not return does not return. -/
theorem step_dead {rec : Parser α → Sub} (hle : ∀ q m s, ((rec q).fn m s).le ((den C q).fn m s)) {v w : Visit α}
    (h : Tries C v w) (hj : ∀ p, v.what = .join p → ¬ JoinSpec C p) (hd : Dead ((rec w.what).fn w.parsing w.place)) (k : Nat) :
    Dead ((step C rec k v.what).fn v.parsing v.place) := by
  have hp : ∀ q s, ((rec q).parse s).le (Parse C q s) := fun q s => hle q true s
  have hl : ∀ q s, ((rec q).look s).le (Look C q s) := fun q s => hle q false s
  cases h with
  | @choice m ps s is before m' p after hr hz hb =>
    obtain ⟨rfl, hlen⟩ := choice_indices hr
    cases m with
    | true =>
      refine Dead.soft (soft_init _) fun _ v _ => Dead.bind ?_
      have := stands_elems rec (C := C) (ps := ps) (is := (choiceTrait (resultsFor C ps)).seq)
      rw [hz] at this
      exact foldOr_dead hle this ⟨s, v⟩ hb hd
    | false =>
      refine Dead.bind ?_
      have := stands_look rec (C := C) hlen
      rw [hz] at this
      exact foldOr_dead hle this ⟨s, .unit⟩ hb hd
  | @sequence m ps s before m' p after t hz hb =>
    cases m with
    | true =>
      refine Dead.soft (soft_init _) fun _ v _ => Dead.bind ?_
      have := stands_positions rec (C := C) (ps := ps) 0
      rw [hz, ← sequenceTrait_seq] at this
      exact foldAnd_dead hle this ⟨s, v⟩ hb hd
    | false =>
      refine Dead.bind ?_
      have := stands_lookSeq rec (C := C) (ps := ps)
      rw [hz] at this
      exact foldAnd_dead hle this ⟨s, .unit⟩ hb hd
  | @maybe m p s =>
    cases m with
    | true => exact Dead.soft (soft_init _) fun _ v _ => Dead.bind hd
    | false => exact Dead.bind hd
  | @exactly m p n s i t hi ht =>
    cases m with
    | true =>
      show Dead (parseExactly C (resultFor C (.exactly p n)) n (rec p) s)
      have hT : resultFor C (.exactly p n) = voidOr (.arr · n) (resultFor C p) := by rw [resultFor]
      rw [hT]
      exact Dead.soft (soft_init _) fun _ v hv => exactlyLoop_dead (hp p) s hi ht hd (init_room n _ hv)
    | false => exact lookExactlyLoop_dead (hl p) s hi ht hd
  | @oneOrMore m p s t ht =>
    cases m with
    | true => exact Dead.soft (soft_init _) fun _ v _ => Dead.bind (oneOrMoreLoop_dead (hp p) ht hd _ _ _)
    | false => exact Dead.bind (lookOneOrMoreLoop_dead (hl p) ht hd _ _)
  | @zeroOrMore m p s t ht =>
    cases m with
    | true => exact Dead.soft (soft_init _) fun _ v _ => Dead.bind (zeroOrMoreLoop_dead (hp p) ht hd _ _)
    | false => exact Dead.bind (lookZeroOrMoreLoop_dead (hl p) ht hd _)
  | @first m p d s =>
    cases m with
    | true => exact Dead.soft (soft_init _) fun _ v _ => Dead.bind hd
    | false => exact Dead.bind hd
  | @delimiter m p d s t u h1 h2 =>
    obtain ⟨l, w, h1⟩ := h1
    cases m with
    | true =>
      refine Dead.soft (soft_init _) fun _ v _ => Dead.past (hp p s) h1 ?_
      exact Dead.bind (delimitLoop_dead (hp p) (hp d) h2 (.inl hd) _ _ _ _)
    | false =>
      refine Dead.past (hl p s) h1 ?_
      exact Dead.bind (lookDelimitLoop_dead (hl p) (hl d) h2 (.inl hd) _ _ _)
  | @next m p d s t u u' h1 h2 h3 =>
    obtain ⟨l, w, h1⟩ := h1
    cases m with
    | true =>
      refine Dead.soft (soft_init _) fun _ v _ => Dead.past (hp p s) h1 ?_
      exact Dead.bind (delimitLoop_dead (hp p) (hp d) h2 (.inr ⟨u', h3, hd⟩) _ _ _ _)
    | false =>
      refine Dead.past (hl p s) h1 ?_
      exact Dead.bind (lookDelimitLoop_dead (hl p) (hl d) h2 (.inr ⟨u', h3, hd⟩) _ _ _)
  | @ignore m p s => cases m <;> exact hd
  | @complete m p s => cases m <;> exact Dead.bind hd
  | @join m p s =>
    have := hj p rfl
    simp only [step, semJoin_generic p this]
    cases m with
    | true => exact Dead.bind hd
    | false => exact hd
  | @map m p f s =>
    cases m with
    | true => exact Dead.bind hd
    | false => exact hd
  | @filter m p f s =>
    cases m with
    | true => exact Dead.bind hd
    | false => exact hd
  | named => exact hd
  | @custom m k s =>
    cases m with
    | true => exact Dead.bind hd
    | false => exact hd

theorem sem_le_fn (n : Nat) (q : Parser α) (m : Bool) (s : Span) : ((sem C n q).fn m s).le ((den C q).fn m s) := by
  cases m with
  | true => exact ((sem_lim q).parse s).le n
  | false => exact ((sem_lim q).look s).le n

theorem sem_lim_fn (q : Parser α) (m : Bool) (s : Span) : Lim (fun n => (sem C n q).fn m s) ((den C q).fn m s) := by
  cases m with
  | true => exact (sem_lim q).parse s
  | false => exact (sem_lim q).look s

theorem den_dead {v w : Visit α} (h : Tries C v w) (hd : Dead ((den C w.what).fn w.parsing w.place)) :
    Dead ((den C v.what).fn v.parsing v.place) := by
  by_cases hj : ∀ p, v.what = .join p → ¬ JoinSpec C p
  · refine Dead.lim (sem_lim_fn _ _ _) fun n => ?_
    cases n with
    | zero => cases v.parsing <;> exact .inl rfl
    | succ n => exact step_dead (sem_le_fn n) h hj (Dead.of_le (sem_le_fn n _ _ _) hd) n
  · push Not at hj
    obtain ⟨p, hp, -⟩ := hj
    obtain ⟨m, q, s⟩ := v
    cases hp
    cases h
    cases m with
    | true =>
      show Dead (Parse C (.join p) s)
      rw [Parse_join_eq]
      exact Dead.bind hd
    | false =>
      show Dead (Look C (.join p) s)
      rw [Look_join_eq]
      exact hd

theorem den_dead_trans {v w : Visit α} (h : ReflTransGen (Tries C) v w) (hd : Dead ((den C w.what).fn w.parsing w.place)) :
    Dead ((den C v.what).fn v.parsing v.place) := by
  induction h using ReflTransGen.head_induction_on with
  | refl => exact hd
  | head h _ ih => exact den_dead h ih

/-! ### Causes -/

theorem chain_of_takes {m : Bool} {p : Parser α} {s t : Span} (h : ReflTransGen (Takes C m p) s t) :
    ∃ l xs, Chain (stepOf ((den C p).fn m)) s l xs t := by
  induction h using ReflTransGen.head_induction_on with
  | refl => exact ⟨_, _, .nil⟩
  | head h _ ih =>
    obtain ⟨l, xs, ih⟩ := ih
    obtain ⟨l', v, h⟩ := Takes_iff.1 h
    exact ⟨_, _, .cons (stepOf_some.2 h) ih⟩

theorem takes_of_chain {m : Bool} {p : Parser α} {s t : Span} {l xs} (h : Chain (stepOf ((den C p).fn m)) s l xs t) :
    ReflTransGen (Takes C m p) s t := by
  induction h with
  | nil => exact .refl
  | cons h _ ih => exact .head (Takes_iff.2 ⟨_, _, stepOf_some.1 h⟩) ih

theorem chain_of_both {m : Bool} {p d : Parser α} {s t : Span} (h : ReflTransGen (TakesBoth C m d p) s t) :
    ∃ l xs, Chain (stepPair ((den C d).fn m) ((den C p).fn m)) s l xs t := by
  induction h using ReflTransGen.head_induction_on with
  | refl => exact ⟨_, _, .nil⟩
  | head h _ ih =>
    obtain ⟨l, xs, ih⟩ := ih
    obtain ⟨u, h1, h2⟩ := h
    obtain ⟨l1, v1, h1⟩ := Takes_iff.1 h1
    obtain ⟨l2, v2, h2⟩ := Takes_iff.1 h2
    exact ⟨_, _, .cons (stepPair_some.2 ⟨_, _, _, h1, h2, rfl⟩) ih⟩

theorem both_of_step {m : Bool} {p d : Parser α} {s t : Span} {l x}
    (h : stepPair ((den C d).fn m) ((den C p).fn m) s = .done l (.ok (some (x, t)))) : TakesBoth C m d p s t := by
  obtain ⟨l1, l2, u, h1, h2, -⟩ := stepPair_some.1 (show _ = M.done l (.ok (some ((x.1, x.2), t))) from h)
  exact ⟨u, Takes_iff.2 ⟨_, _, h1⟩, Takes_iff.2 ⟨_, _, h2⟩⟩

theorem both_of_chain {m : Bool} {p d : Parser α} {s t : Span} {l xs}
    (h : Chain (stepPair ((den C d).fn m) ((den C p).fn m)) s l xs t) : ReflTransGen (TakesBoth C m d p) s t := by
  induction h with
  | nil => exact .refl
  | cons h _ ih => exact .head (both_of_step h) ih

/-- A repetition that makes no progress does not end. -/
theorem Spins.diverges {v : Visit α} (h : Spins C v) : (den C v.what).fn v.parsing v.place = .diverge := by
  cases h with
  | @oneOrMore m p s t h1 h2 =>
    obtain ⟨l, xs, hc⟩ := chain_of_takes h1
    obtain ⟨l', x, h2⟩ := Takes_iff.1 h2
    have := repeatAll_stuck hc (stepOf_some.2 h2)
    cases m with
    | true =>
      show Parse C (.oneOrMore p) s = _
      rw [Parse_oneOrMore_eq, show repeatAll (stepOf (Parse C p)) s = _ from this]; rfl
    | false =>
      show Look C (.oneOrMore p) s = _
      rw [Look_oneOrMore_eq, show repeatAll (stepOf (Look C p)) s = _ from this]; rfl
  | @zeroOrMore m p s t h1 h2 =>
    obtain ⟨l, xs, hc⟩ := chain_of_takes h1
    obtain ⟨l', x, h2⟩ := Takes_iff.1 h2
    have := repeatAll_stuck hc (stepOf_some.2 h2)
    cases m with
    | true =>
      show Parse C (.zeroOrMore p) s = _
      rw [Parse_zeroOrMore_eq, show repeatAll (stepOf (Parse C p)) s = _ from this]; rfl
    | false =>
      show Look C (.zeroOrMore p) s = _
      rw [Look_zeroOrMore_eq, show repeatAll (stepOf (Look C p)) s = _ from this]; rfl
  | @delimit m p d s t u h0 h1 h2 =>
    obtain ⟨l0, v0, h0⟩ := Takes_iff.1 h0
    obtain ⟨l, xs, hc⟩ := chain_of_both h1
    obtain ⟨u', h2, h3⟩ := h2
    obtain ⟨l2, v2, h2⟩ := Takes_iff.1 h2
    obtain ⟨l3, v3, h3⟩ := Takes_iff.1 h3
    have := repeatAll_stuck hc (stepPair_some.2 ⟨_, _, _, h2, h3, rfl⟩)
    cases m with
    | true =>
      show Parse C (.delimit p d) s = _
      rw [Parse_delimit_eq, show Parse C p s = _ from h0, M.ok_bind]
      simp only
      rw [show repeatAll (stepPair (Parse C d) (Parse C p)) t = _ from this]; rfl
    | false =>
      show Look C (.delimit p d) s = _
      rw [Look_delimit_eq, show Look C p s = _ from h0, M.ok_bind]
      simp only
      rw [show repeatAll (stepPair (Look C d) (Look C p)) t = _ from this]; rfl

theorem spec_uses {p : Parser α} (h : JoinSpec C p) (k : Nat) : ¬ Uses C p (.custom k) := by
  have hb : ∀ {q b}, asBasic C q = some b → ¬ Uses C q (.custom k) := by
    intro q b hq hu
    cases q <;> simp only [asBasic, reduceCtorEq] at hq
    all_goals
      cases hu with
      | part hm _ => simp [Parser.parts] at hm
  have hc : ∀ {q b r}, asBasic C q = some b → r.parts = [q] → (∀ j, r ≠ .custom j) → ¬ Uses C r (.custom k) := by
    intro q b r hq hr hn hu
    cases hu with
    | self => exact hn k rfl
    | part hm hu => rw [hr] at hm; cases List.mem_singleton.1 hm; exact hb hq hu
    | custom hu => exact hn _ rfl
  cases h with
  | exactly h => exact hc h rfl nofun
  | maybe h => exact hc h rfl nofun
  | oneOrMore h => exact hc h rfl nofun
  | zeroOrMore h => exact hc h rfl nofun

/-- Getting back to the same call of a custom parser is getting nowhere. -/
theorem reenters_dead {w : Visit α} (hw : Reenters C w) {v : Visit α} (h : ReflTransGen (Tries C) v w) (n : Nat) :
    Dead ((sem C n v.what).fn v.parsing v.place) := by
  induction n generalizing v with
  | zero => cases v.parsing <;> exact .inl rfl
  | succ n ih =>
    obtain ⟨⟨k, hk⟩, hc⟩ := hw
    obtain ⟨x, hx, hxw⟩ : ∃ x, Tries C v x ∧ ReflTransGen (Tries C) x w := by
      rcases ReflTransGen.cases_head h with rfl | h
      · exact Relation.TransGen.head'_iff.1 hc
      · exact h
    refine step_dead (sem_le_fn n) hx (fun p hp hs => ?_) (ih hxw) n
    obtain ⟨m, q, s⟩ := v
    cases hp
    have := hx.part
    simp only [Parser.parts, List.mem_singleton, reduceCtorEq, false_and, exists_false, or_false] at this
    have hu := tries_uses hxw
    rw [this, hk] at hu
    exact spec_uses hs k hu

/-- What makes a call not return. -/
theorem cause_dead {v w : Visit α} (h : ReflTransGen (Tries C) v w) (hw : Spins C w ∨ Reenters C w) :
    Dead ((den C v.what).fn v.parsing v.place) := by
  rcases hw with hw | hw
  · exact den_dead_trans h (.inl hw.diverges)
  · exact Dead.lim (sem_lim_fn _ _ _) fun n => reenters_dead hw h n

theorem read_ne {γ : Type} (mem : Mem γ) (p : Ptr) (i : Nat) : (p.read mem i : Run γ) ≠ .diverge := by
  unfold Ptr.read
  split
  · exact fail_ne _
  · exact ofOption_ne _ _

theorem equalLoop_ne {γ δ : Type} {readL : Nat → Run γ} {readR : Nat → Run δ} (hl : ∀ i, readL i ≠ .diverge)
    (hr : ∀ i, readR i ≠ .diverge) (eqv : γ → δ → Bool) (n i : Nat) : Span.equalLoop readL readR eqv n i ≠ .diverge := by
  induction n generalizing i with
  | zero => exact pure_ne _
  | succ n ih => exact bind_ne (hl i) fun _ => bind_ne (hr i) fun _ => ite_ne (pure_ne _) (ih _)

theorem failureCondition_ne (b : BasicP α) (s : Span) : failureCondition C b s ≠ .diverge := by
  unfold failureCondition
  split
  · exact ite_ne (pure_ne _) (bind_ne (ite_ne (fail_ne _) (read_ne _ _ _)) fun _ => pure_ne _)
  · exact ite_ne (pure_ne _) (bind_ne (ite_ne (fail_ne _) (read_ne _ _ _)) fun _ => pure_ne _)
  · refine ite_ne (pure_ne _) (bind_ne (ite_ne (pure_ne _) (fail_ne _)) fun f => bind_ne ?_ fun _ => pure_ne _)
    exact ite_ne (pure_ne _) (equalLoop_ne (read_ne _ _) (read_ne _ _) _ _ _)
  · exact pure_ne _

theorem basic_ne (b : BasicP α) (s : Span) : parseBasic C b s ≠ .diverge ∧ lookBasic C b s ≠ .diverge := by
  have ha : advance C s b.length ≠ .diverge :=
    bind_ne (ptrAdd_ne _ _ _) fun _ => bind_ne (ite_ne (pure_ne _) (fail_ne _)) fun _ => pure_ne _
  exact ⟨bind_ne (failureCondition_ne b s) fun _ => ite_ne (pure_ne _) (bind_ne ha fun _ => pure_ne _),
    bind_ne (failureCondition_ne b s) fun _ => ite_ne (pure_ne _) (bind_ne ha fun _ => pure_ne _)⟩

/-- A call that does not return spins, or makes a call that does not return. -/
theorem diverge_cause {m : Bool} {p : Parser α} {s : Span} (h : (den C p).fn m s = .diverge) :
    Spins C ⟨m, p, s⟩ ∨ ∃ w, Tries C ⟨m, p, s⟩ w ∧ (den C w.what).fn w.parsing w.place = .diverge := by
  cases p with
  | anyOf a =>
    cases m with
    | true => exact absurd ((Parse_anyOf s a).symm.trans h) (basic_ne _ _).1
    | false => exact absurd ((Look_anyOf s a).symm.trans h) (basic_ne _ _).2
  | noneOf a =>
    cases m with
    | true => exact absurd ((Parse_noneOf s a).symm.trans h) (basic_ne _ _).1
    | false => exact absurd ((Look_noneOf s a).symm.trans h) (basic_ne _ _).2
  | allOf a =>
    cases m with
    | true => exact absurd ((Parse_allOf s a).symm.trans h) (basic_ne _ _).1
    | false => exact absurd ((Look_allOf s a).symm.trans h) (basic_ne _ _).2
  | anything =>
    cases m with
    | true => exact absurd ((Parse_anything s).symm.trans h) (basic_ne _ _).1
    | false => exact absurd ((Look_anything s).symm.trans h) (basic_ne _ _).2
  | epsilon =>
    cases m with
    | true => exact absurd ((Parse_epsilon s).symm.trans h) nofun
    | false => exact absurd ((Look_epsilon s).symm.trans h) nofun
  | choice ps =>
    refine .inr ?_
    have hr : Recorded (ps.map (resultFor C)) (choiceTrait (resultsFor C ps)).seq := by
      rw [choiceTrait_seq, resultsFor_eq]; exact recorded _
    cases m with
    | true =>
      have h := (Parse_choice s ps).symm.trans h
      unfold parseChoice at h
      rcases M.bind_eq_diverge.1 h with h | ⟨l, v, -, h⟩
      · exact absurd h (soft_init _).ne
      · rcases M.bind_eq_diverge.1 h with h | ⟨l, ⟨b, st⟩, -, h⟩
        · obtain ⟨before, x, after, hz, hb, hx⟩ := foldOr_diverge (stands_elems _) _ h
          exact ⟨⟨x.1, x.2, s⟩, .choice hr hz hb, hx⟩
        · cases b <;> simp at h
    | false =>
      have h := (Look_choice s ps).symm.trans h
      unfold lookChoice at h
      rcases M.bind_eq_diverge.1 h with h | ⟨l, ⟨b, st⟩, -, h⟩
      · obtain ⟨before, x, after, hz, hb, hx⟩ := foldOr_diverge (stands_look _ (by simpa using hr.length)) _ h
        exact ⟨⟨x.1, x.2, s⟩, .choice hr hz hb, hx⟩
      · cases b <;> simp at h
  | sequence ps =>
    refine .inr ?_
    cases m with
    | true =>
      have h := (Parse_sequence s ps).symm.trans h
      unfold parseSequence at h
      rcases M.bind_eq_diverge.1 h with h | ⟨l, v, -, h⟩
      · exact absurd h (soft_init _).ne
      · rcases M.bind_eq_diverge.1 h with h | ⟨l, ⟨b, st⟩, -, h⟩
        · rw [sequenceTrait_seq] at h
          obtain ⟨before, x, after, t, hz, hb, hx⟩ := foldAnd_diverge (stands_positions _ 0) _ h
          exact ⟨⟨x.1, x.2, t⟩, .sequence hz hb, hx⟩
        · cases b <;> simp at h
    | false =>
      have h := (Look_sequence s ps).symm.trans h
      unfold lookSequence at h
      rcases M.bind_eq_diverge.1 h with h | ⟨l, ⟨b, st⟩, -, h⟩
      · obtain ⟨before, x, after, t, hz, hb, hx⟩ := foldAnd_diverge (stands_lookSeq _) _ h
        exact ⟨⟨x.1, x.2, t⟩, .sequence hz hb, hx⟩
      · cases b <;> simp at h
  | maybe p =>
    refine .inr ⟨_, .maybe, ?_⟩
    cases m with
    | true => exact bind_pure_diverge.1 ((Parse_maybe_eq p s).symm.trans h)
    | false => exact bind_pure_diverge.1 ((Look_maybe_eq p s).symm.trans h)
  | exactly p n =>
    refine .inr ?_
    cases m with
    | true =>
      have h := (Parse_exactly s p n).symm.trans h
      unfold parseExactly at h
      rcases M.bind_eq_diverge.1 h with h | ⟨l, v, -, h⟩
      · exact absurd h (soft_init _).ne
      · obtain ⟨j, t, hj, ht, hd⟩ := exactlyLoop_diverge h
        exact ⟨_, .exactly hj ht, hd⟩
    | false =>
      obtain ⟨j, t, hj, ht, hd⟩ := lookExactlyLoop_diverge ((Look_exactly s p n).symm.trans h)
      exact ⟨_, .exactly hj ht, hd⟩
  | oneOrMore p =>
    have h : repeatAll (stepOf ((den C p).fn m)) s = .diverge := by
      cases m with
      | true => exact bind_pure_diverge.1 ((Parse_oneOrMore_eq p s).symm.trans h)
      | false => exact bind_pure_diverge.1 ((Look_oneOrMore_eq p s).symm.trans h)
    obtain ⟨l, xs, t, hc, h⟩ := repeatAll_cause (fun s l x t h => (Takes_iff.2 ⟨l, x, stepOf_some.1 h⟩).suffix) h
    rcases h with h | ⟨l', x, h⟩
    · exact .inr ⟨_, .oneOrMore (takes_of_chain hc), stepOf_diverge.1 h⟩
    · exact .inl (.oneOrMore (takes_of_chain hc) (Takes_iff.2 ⟨_, _, stepOf_some.1 h⟩))
  | zeroOrMore p =>
    have h : repeatAll (stepOf ((den C p).fn m)) s = .diverge := by
      cases m with
      | true => exact bind_pure_diverge.1 ((Parse_zeroOrMore_eq p s).symm.trans h)
      | false => exact bind_pure_diverge.1 ((Look_zeroOrMore_eq p s).symm.trans h)
    obtain ⟨l, xs, t, hc, h⟩ := repeatAll_cause (fun s l x t h => (Takes_iff.2 ⟨l, x, stepOf_some.1 h⟩).suffix) h
    rcases h with h | ⟨l', x, h⟩
    · exact .inr ⟨_, .zeroOrMore (takes_of_chain hc), stepOf_diverge.1 h⟩
    · exact .inl (.zeroOrMore (takes_of_chain hc) (Takes_iff.2 ⟨_, _, stepOf_some.1 h⟩))
  | delimit p d =>
    have h : (den C p).fn m s = .diverge ∨
        ∃ l v t, (den C p).fn m s = .done l (.ok ⟨some v, t⟩) ∧
          repeatAll (stepPair ((den C d).fn m) ((den C p).fn m)) t = .diverge := by
      cases m with
      | true =>
        have h := (Parse_delimit_eq p d s).symm.trans h
        rcases M.bind_eq_diverge.1 h with h | ⟨l, ⟨rv, t⟩, h1, h⟩
        · exact .inl h
        · cases rv with
          | none => simp at h
          | some v => exact .inr ⟨l, v, t, h1, bind_pure_diverge.1 h⟩
      | false =>
        have h := (Look_delimit_eq p d s).symm.trans h
        rcases M.bind_eq_diverge.1 h with h | ⟨l, ⟨rv, t⟩, h1, h⟩
        · exact .inl h
        · cases rv with
          | none => simp at h
          | some v => exact .inr ⟨l, v, t, h1, bind_pure_diverge.1 h⟩
    rcases h with h | ⟨l, v, t, h1, h⟩
    · exact .inr ⟨_, .first, h⟩
    · have h1 : Takes C m p s t := Takes_iff.2 ⟨_, _, h1⟩
      obtain ⟨l, xs, u, hc, h⟩ := repeatAll_cause (fun s l x t h => (both_of_step h).suffix) h
      have hc := both_of_chain hc
      rcases h with h | ⟨l', x, h⟩
      · refine .inr ?_
        rcases M.bind_eq_diverge.1 h with h | ⟨l, ⟨rv, u'⟩, h2, h⟩
        · exact ⟨_, .delimiter h1 hc, h⟩
        · cases rv with
          | none => simp at h
          | some v => exact ⟨_, .next h1 hc (Takes_iff.2 ⟨_, _, h2⟩), bind_pure_diverge.1 h⟩
      · exact .inl (.delimit h1 hc (both_of_step h))
  | ignore p =>
    refine .inr ⟨_, .ignore, ?_⟩
    cases m with
    | true => exact (Parse_ignore s p).symm.trans h
    | false => exact (Look_ignore s p).symm.trans h
  | complete p =>
    refine .inr ⟨_, .complete, ?_⟩
    cases m with
    | true =>
      have h := (Parse_complete s p).symm.trans h
      unfold parseComplete at h
      rcases M.bind_eq_diverge.1 h with h | ⟨l, r, -, h⟩
      · exact h
      · split at h <;> simp at h
    | false =>
      have h := (Look_complete s p).symm.trans h
      unfold lookComplete at h
      rcases M.bind_eq_diverge.1 h with h | ⟨l, r, -, h⟩
      · exact h
      · split at h <;> simp at h
  | join p =>
    refine .inr ⟨_, .join, ?_⟩
    cases m with
    | true =>
      have h := (Parse_join_eq p s).symm.trans h
      unfold parseJoin at h
      rcases M.bind_eq_diverge.1 h with h | ⟨l, r, -, h⟩
      · exact h
      · split at h
        · rcases M.bind_eq_diverge.1 h with h | ⟨l, j, -, h⟩
          · exact absurd h (joinExecutor_ne _ _)
          · cases j <;> simp at h
        · simp at h
    | false => exact (Look_join_eq p s).symm.trans h
  | map p f =>
    refine .inr ⟨_, .map, ?_⟩
    cases m with
    | true =>
      have h := (Parse_map s p f).symm.trans h
      unfold parseMap at h
      rcases M.bind_eq_diverge.1 h with h | ⟨l, r, -, h⟩
      · exact h
      · split at h
        · simp at h
        · exact absurd h (bind_ne (argVals_ne _ _) fun _ => bind_ne (invoke_ne _ _ _) fun _ => ite_ne nofun nofun)
    | false => exact (Look_map s p f).symm.trans h
  | filter p f =>
    refine .inr ⟨_, .filter, ?_⟩
    cases m with
    | true =>
      have h := (Parse_filter s p f).symm.trans h
      unfold parseFilter at h
      rcases M.bind_eq_diverge.1 h with h | ⟨l, r, -, h⟩
      · exact h
      · split at h
        · simp at h
        · exact absurd h (bind_ne (argVals_ne _ _) fun _ => bind_ne (invoke_ne _ _ _) fun _ => ite_ne nofun nofun)
    | false => exact (Look_filter s p f).symm.trans h
  | named p n =>
    refine .inr ⟨_, .named, ?_⟩
    cases m with
    | true => exact (Parse_named s p n).symm.trans h
    | false => exact (Look_named s p n).symm.trans h
  | custom k =>
    refine .inr ⟨_, .custom, ?_⟩
    cases m with
    | true =>
      have h := (Parse_custom s k).symm.trans h
      unfold parseCustom at h
      rcases M.bind_eq_diverge.1 h with h | ⟨l, r, -, h⟩
      · exact h
      · exact absurd h (convertResult_returns _ _ _)
    | false => exact (Look_custom s k).symm.trans h

/-- A call that does not return gets to a cause.  `seen` has the functions of custom parsers being called at this
place. -/
theorem diverge_causes {p : Parser α} {ks : List Nat} (hks : ∀ k, Uses C p (.custom k) → k ∈ ks) (d N h : Nat)
    (m : Bool) (q : Parser α) (hq : Uses C p q) (s : Span) (hd : s.len ≤ d) (hh : q.height ≤ h)
    (seen : Finset (Nat × Bool)) (hsub : seen ⊆ ks.toFinset ×ˢ {true, false})
    (hN : (ks.toFinset ×ˢ {true, false} : Finset (Nat × Bool)).card ≤ N + seen.card)
    (hseen : ∀ x ∈ seen, TransGen (Tries C) ⟨x.2, .custom x.1, s⟩ ⟨m, q, s⟩) (hdiv : (den C q).fn m s = .diverge) :
    ∃ w, ReflTransGen (Tries C) ⟨m, q, s⟩ w ∧ (Spins C w ∨ Reenters C w) := by
  induction d using Nat.strong_induction_on generalizing N h m q s seen with
  | _ d ihd =>
  induction N using Nat.strong_induction_on generalizing h m q seen with
  | _ N ihN =>
  induction h using Nat.strong_induction_on generalizing m q seen with
  | _ h ihh =>
  rcases diverge_cause hdiv with hs | ⟨⟨m', r, t⟩, ht, hdiv'⟩
  · exact ⟨_, .refl, .inl hs⟩
  · have hr : Uses C p r := hq.trans ht.uses
    have next : (∃ w, ReflTransGen (Tries C) ⟨m', r, t⟩ w ∧ (Spins C w ∨ Reenters C w)) →
        ∃ w, ReflTransGen (Tries C) ⟨m, q, s⟩ w ∧ (Spins C w ∨ Reenters C w) := by
      rintro ⟨w, hw, hc⟩
      exact ⟨w, .head ht hw, hc⟩
    have hsuf : t.SuffixOf s := ht.suffix
    by_cases hlt : t.len < s.len
    · refine next (ihd t.len (by omega) _ r.height m' r hr t (Nat.le_refl _) (Nat.le_refl _) ∅ (by simp) (Nat.le_add_right _ _) ?_ hdiv')
      simp
    · have hts : t = s := hsuf.eq_of_len (Nat.le_antisymm hsuf.len_le (by omega))
      subst hts
      rcases ht.part with hpart | ⟨k, hk, hb⟩
      · have := height_part hpart
        exact next (ihh r.height (by dsimp only at this; omega) m' r hr (Nat.le_refl _) seen hsub hN
          (fun x hx => (hseen x hx).tail ht) hdiv')
      · dsimp only at hk hb
        subst hk hb
        cases ht
        by_cases hmem : (k, m) ∈ seen
        · exact ⟨_, .refl, .inr ⟨⟨k, rfl⟩, hseen _ hmem⟩⟩
        · have hin : (k, m) ∈ ks.toFinset ×ˢ {true, false} := by
            have := hks k hq
            cases m <;> simp [this]
          have hsub' : insert (k, m) seen ⊆ ks.toFinset ×ˢ {true, false} := Finset.insert_subset hin hsub
          have hcard := Finset.card_insert_of_notMem hmem
          have hle := Finset.card_le_card hsub'
          refine next (ihN (N - 1) (by omega) _ m _ hr (Nat.le_refl _) (insert (k, m) seen) hsub' (by omega) ?_ hdiv')
          intro x hx
          rcases Finset.mem_insert.1 hx with rfl | hx
          · exact .single .custom
          · exact (hseen x hx).tail .custom

/-- Why a call does not return. -/
theorem loops_cause {p : Parser α} (hfin : ∃ ks : List Nat, ∀ k, Uses C p (.custom k) → k ∈ ks) {m : Bool} {s : Span}
    (h : RunIn C m p s = .diverge) : ∃ w, ReflTransGen (Tries C) ⟨m, p, s⟩ w ∧ (Spins C w ∨ Reenters C w) := by
  obtain ⟨ks, hks⟩ := hfin
  rw [RunIn_eq] at h
  exact diverge_causes hks s.len _ p.height m p .self s (Nat.le_refl _) (Nat.le_refl _) ∅ (by simp) (Nat.le_add_right _ _) (by simp) h

end Tok3n
