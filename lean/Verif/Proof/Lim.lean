import Verif.Model.Denote
/-
Order and limits of outcomes; fuel monotonicity; the fixed-point equation of the
fuel-free semantics.
-/

namespace Tok3n

variable {α β L A B : Type}

/-! ### Monad laws -/

namespace M

@[simp] theorem pure_eq (a : A) : (Pure.pure a : M L A) = M.pure a := rfl
@[simp] theorem bind_eq (m : M L A) (f : A → M L B) : (m >>= f) = M.bind m f := rfl

@[simp] theorem after_nil (m : M L A) : m.after [] = m := by cases m <;> rfl
@[simp] theorem after_diverge (l : List L) : (M.diverge : M L A).after l = .diverge := rfl
@[simp] theorem after_done (l l' : List L) (r : Res A) :
    (M.done l' r).after l = .done (l ++ l') r := rfl
theorem after_after (l l' : List L) (m : M L A) : (m.after l').after l = m.after (l ++ l') := by
  cases m <;> simp

@[simp] theorem after_eq_diverge {l : List L} {m : M L A} : m.after l = .diverge ↔ m = .diverge := by
  cases m <;> simp

theorem after_eq_done {l l' : List L} {m : M L A} {r : Res A} :
    m.after l = .done l' r ↔ ∃ l₂, m = .done l₂ r ∧ l' = l ++ l₂ := by
  cases m with
  | diverge => simp
  | done l₂ r' =>
    simp only [after_done, M.done.injEq]
    constructor
    · rintro ⟨rfl, rfl⟩; exact ⟨l₂, ⟨rfl, rfl⟩, rfl⟩
    · rintro ⟨_, ⟨rfl, rfl⟩, rfl⟩; exact ⟨rfl, rfl⟩

@[simp] theorem pure_bind (a : A) (f : A → M L B) : M.bind (M.pure a) f = f a := by
  simp [M.bind, M.pure]

@[simp] theorem fail_bind (e : Err) (f : A → M L B) : M.bind (M.fail e) f = M.fail e := rfl
@[simp] theorem diverge_bind (f : A → M L B) : M.bind M.diverge f = M.diverge := rfl
@[simp] theorem ok_bind (l : List L) (a : A) (f : A → M L B) :
    M.bind (M.done l (.ok a)) f = (f a).after l := rfl
@[simp] theorem err_bind (l : List L) (e : Err) (f : A → M L B) :
    M.bind (M.done l (.err e)) f = M.done l (.err e) := rfl

@[simp] theorem bind_pure (m : M L A) : M.bind m M.pure = m := by
  rcases m with _ | ⟨l, a | e⟩ <;> simp [M.pure]

theorem after_bind (l : List L) (m : M L A) (f : A → M L B) :
    (M.bind m f).after l = M.bind (m.after l) f := by
  rcases m with _ | ⟨l', a | e⟩ <;> simp [after_after]

theorem bind_assoc {D : Type} (m : M L A) (f : A → M L B) (g : B → M L D) :
    M.bind (M.bind m f) g = M.bind m (fun a => M.bind (f a) g) := by
  rcases m with _ | ⟨l, a | e⟩ <;> simp [after_bind]

/-- When a bind returns normally. -/
theorem bind_eq_ok {m : M L A} {f : A → M L B} {l : List L} {b : B} :
    M.bind m f = .done l (.ok b) ↔
      ∃ l₁ l₂ a, m = .done l₁ (.ok a) ∧ f a = .done l₂ (.ok b) ∧ l = l₁ ++ l₂ := by
  rcases m with _ | ⟨l₁, a | e⟩
  · simp
  · simp only [ok_bind, after_eq_done, M.done.injEq, Res.ok.injEq]
    constructor
    · rintro ⟨l₂, h, rfl⟩; exact ⟨l₁, l₂, a, ⟨rfl, rfl⟩, h, rfl⟩
    · rintro ⟨_, l₂, _, ⟨rfl, rfl⟩, h, rfl⟩; exact ⟨l₂, h, rfl⟩
  · simp

theorem bind_eq_err {m : M L A} {f : A → M L B} {l : List L} {e : Err} :
    M.bind m f = .done l (.err e) ↔
      m = .done l (.err e) ∨
      ∃ l₁ l₂ a, m = .done l₁ (.ok a) ∧ f a = .done l₂ (.err e) ∧ l = l₁ ++ l₂ := by
  rcases m with _ | ⟨l₁, a | e⟩
  · simp
  · simp only [ok_bind, after_eq_done, M.done.injEq, Res.ok.injEq]
    constructor
    · rintro ⟨l₂, h, rfl⟩; exact Or.inr ⟨l₁, l₂, a, ⟨rfl, rfl⟩, h, rfl⟩
    · rintro (h | ⟨_, l₂, _, ⟨rfl, rfl⟩, h, rfl⟩)
      · simp at h
      · exact ⟨l₂, h, rfl⟩
  · simp

theorem bind_eq_diverge {m : M L A} {f : A → M L B} :
    M.bind m f = .diverge ↔ m = .diverge ∨ ∃ l a, m = .done l (.ok a) ∧ f a = .diverge := by
  rcases m with _ | ⟨l₁, a | e⟩
  · simp
  · simp only [ok_bind, after_eq_diverge, reduceCtorEq, M.done.injEq, Res.ok.injEq, false_or]
    constructor
    · intro h; exact ⟨l₁, a, ⟨rfl, rfl⟩, h⟩
    · rintro ⟨_, _, ⟨rfl, rfl⟩, h⟩; exact h
  · simp

theorem bind_congr {m : M L A} {f g : A → M L B} (h : ∀ a, f a = g a) : M.bind m f = M.bind m g := by
  congr; funext a; exact h a

/-- Congruence under what the first computation can return. -/
theorem bind_congr' {m : M L A} {f g : A → M L B} (h : ∀ l a, m = .done l (.ok a) → f a = g a) :
    M.bind m f = M.bind m g := by
  rcases m with _ | ⟨l, a | e⟩
  · rfl
  · simp only [ok_bind, h l a rfl]
  · rfl

@[simp] theorem pure_eq_ok (a : A) {l : List L} {b : A} :
    (M.pure a : M L A) = .done l (.ok b) ↔ l = [] ∧ b = a := by
  simp [M.pure, eq_comm]

@[simp] theorem pure_ne_err (a : A) {l : List L} {e : Err} :
    (M.pure a : M L A) ≠ .done l (.err e) := by
  simp [M.pure]

@[simp] theorem pure_ne_diverge (a : A) : (M.pure a : M L A) ≠ .diverge := by simp [M.pure]

@[simp] theorem fail_ne_ok (e : Err) {l : List L} {b : A} :
    (M.fail e : M L A) ≠ .done l (.ok b) := by
  simp [M.fail]

@[simp] theorem fail_eq_err (e : Err) {l : List L} {e' : Err} :
    (M.fail e : M L A) = .done l (.err e') ↔ l = [] ∧ e' = e := by
  simp [M.fail, eq_comm]

@[simp] theorem fail_ne_diverge (e : Err) : (M.fail e : M L A) ≠ .diverge := by simp [M.fail]

theorem bind_ite {c : Prop} [Decidable c] {m m' : M L A} {f : A → M L B} :
    M.bind (if c then m else m') f = if c then M.bind m f else M.bind m' f := by
  split <;> rfl

end M

/-! ### Order -/

/-- `m` is `m'` with possibly less fuel. -/
def M.le (m m' : M L A) : Prop := m ≠ .diverge → m' = m

theorem M.le_refl (m : M L A) : m.le m := fun _ => rfl
theorem M.le_trans {a b c : M L A} (h : a.le b) (h' : b.le c) : a.le c := by
  intro ha
  have hb := h ha
  rw [← hb]; apply h'; rw [hb]; exact ha
theorem M.diverge_le (m : M L A) : (M.diverge : M L A).le m := fun h => absurd rfl h

theorem M.le_antisymm {a b : M L A} (h : a.le b) (h' : b.le a) : a = b := by
  cases a with
  | diverge => cases b with
    | diverge => rfl
    | done l r => exact h' (by simp)
  | done l r => exact (h (by simp)).symm

theorem M.le.done {m m' : M L A} (h : m.le m') {l r} (hm : m = .done l r) : m' = .done l r := by
  rw [h (by simp [hm]), hm]

theorem M.after_le {m m' : M L A} (l : List L) (h : m.le m') : (m.after l).le (m'.after l) := by
  intro hm
  rw [h (by simpa using hm)]

theorem M.bind_le {m m' : M L A} {f f' : A → M L B} (h : m.le m') (hf : ∀ a, (f a).le (f' a)) :
    (M.bind m f).le (M.bind m' f') := by
  rcases m with _ | ⟨l, a | e⟩
  · exact M.diverge_le _
  · rw [h.done rfl]; exact M.after_le _ (hf a)
  · rw [h.done rfl]; exact M.le_refl _

/-- A chain of outcomes for increasing fuel. -/
def Mono (m : Nat → M L A) : Prop := ∀ n, (m n).le (m (n + 1))

theorem Mono.le {m : Nat → M L A} (h : Mono m) {n k : Nat} (hnk : n ≤ k) : (m n).le (m k) := by
  induction hnk with
  | refl => exact M.le_refl _
  | step _ ih => exact M.le_trans ih (h _)

/-- `a` is the limit of the chain `m`. -/
structure Lim (m : Nat → M L A) (a : M L A) : Prop where
  mono : Mono m
  iff : ∀ l r, a = .done l r ↔ ∃ n, m n = .done l r

theorem Lim.unique {m : Nat → M L A} {a b : M L A} (h : Lim m a) (h' : Lim m b) : a = b := by
  apply M.le_antisymm
  · cases a with
    | diverge => exact M.diverge_le _
    | done l r => intro _; exact (h'.iff l r).2 ((h.iff l r).1 rfl)
  · cases b with
    | diverge => exact M.diverge_le _
    | done l r => intro _; exact (h.iff l r).2 ((h'.iff l r).1 rfl)

theorem Lim.le {m : Nat → M L A} {a : M L A} (h : Lim m a) (n : Nat) : (m n).le a := by
  cases hm : m n with
  | diverge => exact M.diverge_le _
  | done l r => intro _; exact (h.iff l r).2 ⟨n, hm⟩

theorem Mono.lim {m : Nat → M L A} (h : Mono m) : Lim m (lim m) := by
  refine ⟨h, fun l r => ?_⟩
  unfold Tok3n.lim
  split
  · rename_i hex
    have hc := hex.choose_spec
    constructor
    · intro hx; exact ⟨_, hx⟩
    · rintro ⟨n, hn⟩
      have h1 := (h.le (Nat.le_max_left n hex.choose)).done hn
      have h2 := h.le (Nat.le_max_right n hex.choose) hc
      rw [← h2, h1]
  · rename_i hex
    constructor
    · intro hx; cases hx
    · rintro ⟨n, hn⟩
      exact absurd ⟨n, by rw [hn]; simp⟩ hex

theorem Lim.const (a : M L A) : Lim (fun _ => a) a :=
  ⟨fun _ => M.le_refl _, fun _ _ => ⟨fun h => ⟨0, h⟩, fun ⟨_, h⟩ => h⟩⟩

theorem Lim.after {m : Nat → M L A} {a : M L A} (l : List L) (h : Lim m a) :
    Lim (fun n => (m n).after l) (a.after l) := by
  refine ⟨fun n => M.after_le _ (h.mono n), fun l' r => ?_⟩
  simp only [M.after_eq_done, h.iff]
  constructor
  · rintro ⟨l₂, ⟨n, hn⟩, rfl⟩; exact ⟨n, l₂, hn, rfl⟩
  · rintro ⟨n, l₂, hn, rfl⟩; exact ⟨l₂, ⟨n, hn⟩, rfl⟩

theorem Lim.bind {m : Nat → M L A} {a : M L A} {f : Nat → A → M L B} {g : A → M L B}
    (h : Lim m a) (hf : ∀ x, Lim (fun n => f n x) (g x)) :
    Lim (fun n => M.bind (m n) (f n)) (M.bind a g) := by
  refine ⟨fun n => M.bind_le (h.mono n) (fun x => (hf x).mono n), fun l' r => ?_⟩
  constructor
  · intro hy
    rcases a with _ | ⟨l, x | e⟩
    · simp at hy
    · obtain ⟨n, hn⟩ := (h.iff _ _).1 rfl
      obtain ⟨k, hk⟩ := (((hf x).after l).iff _ _).1 hy
      refine ⟨max n k, ?_⟩
      have h1 := (h.mono.le (Nat.le_max_left n k)).done hn
      have h2 := (((hf x).after l).mono.le (Nat.le_max_right n k)).done hk
      rw [h1]; exact h2
    · obtain ⟨n, hn⟩ := (h.iff _ _).1 rfl
      exact ⟨n, by rw [hn]; exact hy⟩
  · rintro ⟨n, hn⟩
    exact (M.bind_le (h.le n) (fun x => (hf x).le n)).done hn

theorem Lim.shift {m : Nat → M L A} {a : M L A} (h : Lim (fun n => m (n + 1)) a)
    (h0 : (m 0).le (m 1)) : Lim m a := by
  have hm : Mono m := by
    intro n
    cases n with
    | zero => exact h0
    | succ n => exact h.mono n
  refine ⟨hm, fun l r => ?_⟩
  rw [h.iff]
  constructor
  · rintro ⟨n, hn⟩; exact ⟨n + 1, hn⟩
  · rintro ⟨n, hn⟩; exact ⟨n, (hm n).done hn⟩

theorem Lim.tail {m : Nat → M L A} {a : M L A} (h : Lim m a) : Lim (fun n => m (n + 1)) a := by
  refine ⟨fun n => h.mono (n + 1), fun l r => ?_⟩
  rw [h.iff]
  constructor
  · rintro ⟨n, hn⟩; exact ⟨n, (h.mono n).done hn⟩
  · rintro ⟨n, hn⟩; exact ⟨n + 1, hn⟩

theorem Lim.diag {a : Nat → Nat → M L A} {b : Nat → M L A} (h : ∀ k, Lim (fun n => a n k) (b k))
    (hm : ∀ n, Mono (a n)) : Lim (fun n => a n n) (lim b) := by
  have hb : Mono b := by
    intro k
    cases hbk : b k with
    | diverge => exact M.diverge_le _
    | done l r =>
      intro _
      obtain ⟨n, hn⟩ := ((h k).iff l r).1 hbk
      exact ((h (k + 1)).iff l r).2 ⟨n, (hm n k).done hn⟩
  refine ⟨fun n => M.le_trans ((h n).mono n) (hm (n + 1) n), fun l r => ?_⟩
  rw [hb.lim.iff]
  constructor
  · rintro ⟨k, hk⟩
    obtain ⟨n, hn⟩ := ((h k).iff l r).1 hk
    exact ⟨max n k, ((hm _).le (Nat.le_max_right n k)).done
      (((h k).mono.le (Nat.le_max_left n k)).done hn)⟩
  · rintro ⟨n, hn⟩
    exact ⟨n, ((h n).iff l r).2 ⟨n, hn⟩⟩

/-! ### Sub-parsers -/

def Sub.le (P Q : Sub) : Prop := ∀ s, (P.parse s).le (Q.parse s) ∧ (P.look s).le (Q.look s)

structure SubLim (P : Nat → Sub) (Q : Sub) : Prop where
  parse : ∀ s, Lim (fun n => (P n).parse s) (Q.parse s)
  look : ∀ s, Lim (fun n => (P n).look s) (Q.look s)

end Tok3n
