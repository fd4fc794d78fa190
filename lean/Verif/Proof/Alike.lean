import Verif.Proof.Like
/-
Runs that differ only in where their spans point: the case of `Proof/Like.lean` in which user values
are looked into.
-/

namespace Tok3n

variable {α β A B : Type} {T : Span → Span → Prop}

theorem Alikes.nil : Alikes T [] [] := by simp [Alikes]
theorem Alikes.cons {v w : Val} {vs ws : List Val} (h : Alike T v w) (h' : Alikes T vs ws) :
    Alikes T (v :: vs) (w :: ws) := by simp only [Alikes]; exact ⟨w, ws, rfl, h, h'⟩
theorem Alikes.one {v w : Val} (h : Alike T v w) : Alikes T [v] [w] := .cons h .nil

mutual
theorem like_iff_alike : ∀ v w : Val, Like T (Alike T) v w ↔ Alike T v w
  | .unit, w => by simp [Like, Alike]
  | .span s, w => by simp [Like, Alike]
  | .vec vs, w | .arr vs, w | .tup vs, w => by simp [Like, Alike, likes_iff_alikes vs]
  | .opt none, w => by simp [Like, Alike]
  | .opt (some v), w => by simp [Like, Alike, like_iff_alike v]
  | .var i v, w => by simp [Like, Alike, like_iff_alike v]
  | .pair a b, w => by simp [Like, Alike, like_iff_alike a, like_iff_alike b]
  | .user k t vs, w => by
    simp only [Like, Alike]
    constructor
    · rintro ⟨t', ws, rfl, ws', h, h'⟩; cases h; exact ⟨_, rfl, h'⟩
    · rintro ⟨ws, rfl, h⟩; exact ⟨t, ws, rfl, ws, rfl, h⟩
theorem likes_iff_alikes : ∀ vs ws : List Val, Likes T (Alike T) vs ws ↔ Alikes T vs ws
  | [], ws => by simp [Likes, Alikes]
  | v :: vs, ws => by simp [Likes, Alikes, like_iff_alike v, likes_iff_alikes vs]
end

theorem like_alike : Like T (Alike T) = Alike T := funext fun v => funext fun w => propext (like_iff_alike v w)
theorem likes_alikes : Likes T (Alike T) = Alikes T := funext fun v => funext fun w => propext (likes_iff_alikes v w)

theorem likeLog_alikeLog : LikeLog T (Alike T) = AlikeLog T := by
  have : LikeCall T (Alike T) = AlikeCall T := by
    funext c c'
    simp only [LikeCall, AlikeCall, likes_alikes]
  funext l l'
  simp only [LikeLog, AlikeLog, this]

theorem likeR_alikeR : LikeR T (Alike T) = AlikeR T := by
  funext ⟨v, s⟩ ⟨v', s'⟩
  refine propext ⟨fun h => ⟨?_, h.2⟩, fun h => ⟨?_, h.2⟩⟩
  · have := h.1
    cases v <;> cases v' <;> simpa only [like_alike] using this
  · have := h.1
    cases v <;> cases v' <;> simpa only [like_alike] using this

/-! ### Equal spans -/

mutual
theorem alike_eq (hT : ∀ s s', T s s' → s = s') : ∀ v w, Alike T v w → v = w
  | .unit, w, h => by simp only [Alike] at h; exact h.symm
  | .span s, w, h => by
    simp only [Alike] at h; obtain ⟨s', rfl, h⟩ := h; rw [hT _ _ h]
  | .vec vs, w, h | .arr vs, w, h | .tup vs, w, h | .user _ _ vs, w, h => by
    simp only [Alike] at h; obtain ⟨s', rfl, h⟩ := h; rw [alikes_eq hT _ _ h]
  | .opt none, w, h => by simp only [Alike] at h; exact h.symm
  | .opt (some v), w, h => by
    simp only [Alike] at h; obtain ⟨s', rfl, h⟩ := h; rw [alike_eq hT _ _ h]
  | .var _ v, w, h => by
    simp only [Alike] at h; obtain ⟨s', rfl, h⟩ := h; rw [alike_eq hT _ _ h]
  | .pair a b, w, h => by
    simp only [Alike] at h; obtain ⟨a', b', rfl, h, h'⟩ := h; rw [alike_eq hT _ _ h, alike_eq hT _ _ h']
theorem alikes_eq (hT : ∀ s s', T s s' → s = s') : ∀ vs ws, Alikes T vs ws → vs = ws
  | [], ws, h => by simp only [Alikes] at h; exact h.symm
  | v :: vs, ws, h => by
    simp only [Alikes] at h; obtain ⟨w, ws', rfl, h, h'⟩ := h; rw [alike_eq hT _ _ h, alikes_eq hT _ _ h']
end

theorem alikeLog_eq (hT : ∀ s s', T s s' → s = s') {l l' : List Call} (h : AlikeLog T l l') : l = l' := by
  rw [← likeLog_alikeLog] at h
  exact likeLog_eq hT (alike_eq hT) h

/-! ### Runs -/

theorem AlikeRun.below {Q : A → B → Prop} {m : Run A} {m' : Run B} (h : AlikeRun T Q m m') :
    Below T (Alike T) Q m m' := by
  cases m with
  | diverge => exact .diverge
  | done l r =>
    cases m' with
    | diverge => cases r <;> exact h.elim
    | done l' r' => cases r <;> cases r' <;> simpa only [Below, AlikeRun, likeLog_alikeLog] using h

/-- `m'` does not return either if `m` does not -/
theorem Below.run {T' : Span → Span → Prop} {U U' : Val → Val → Prop} {Q : A → B → Prop} {Q' : B → A → Prop}
    {m : Run A} {m' : Run B} (h : Below T U Q m m') (h' : Below T' U' Q' m' m) : LikeRun T U Q m m' := by
  cases m with
  | diverge =>
    cases m' with
    | diverge => trivial
    | done l r => cases r <;> exact h'.elim
  | done l r =>
    cases m' with
    | diverge => cases r <;> exact h.elim
    | done l' r' => cases r <;> cases r' <;> exact h

theorem likeRun_alikeRun {Q : A → B → Prop} : LikeRun T (Alike T) Q = AlikeRun T Q := by
  funext m m'
  cases m with
  | diverge => cases m' <;> rfl
  | done l r => cases m' <;> cases r <;> first | rfl | (rename_i r' _; cases r' <;> simp only [LikeRun, AlikeRun, likeLog_alikeLog])

/-! ### Everything equal -/

theorem OptRel.swap {Q : A → B → Prop} {Q' : B → A → Prop} (hQ : ∀ a b, Q a b → Q' b a) {a : Option A}
    {b : Option B} (h : OptRel Q a b) : OptRel Q' b a := by
  cases a <;> cases b
  · trivial
  · exact h.elim
  · exact h.elim
  · exact hQ _ _ h

theorem LikeR.eq {r r' : R} (h : LikeR Eq Eq r r') : r = r' := by
  obtain ⟨v, s⟩ := r; obtain ⟨v', s'⟩ := r'
  obtain ⟨h1, h2⟩ := h
  cases v <;> cases v'
  · rw [show s = s' from h2]
  · exact h1.elim
  · exact h1.elim
  · rw [show s = s' from h2, like_eq (fun _ _ h => h) (fun _ _ h => h) _ _ h1]

theorem LikeRun.eq {Q : A → A → Prop} (hQ : ∀ a b, Q a b → a = b)
    {m m' : Run A} (h : LikeRun Eq Eq Q m m') : m = m' := by
  cases m with
  | diverge =>
    cases m' with
    | diverge => rfl
    | done l r => cases r <;> exact h.elim
  | done l r =>
    cases m' with
    | diverge => cases r <;> exact h.elim
    | done l' r' =>
      cases r <;> cases r'
      · rw [likeLog_eq (fun _ _ h => h) (fun _ _ h => h) h.1, hQ _ _ h.2]
      · exact h.elim
      · exact h.elim
      · rw [likeLog_eq (fun _ _ h => h) (fun _ _ h => h) h.1, h.2]

theorem AlikeR.eq {r r' : R} (h : AlikeR Eq r r') : r = r' := by
  obtain ⟨v, s⟩ := r; obtain ⟨v', s'⟩ := r'
  obtain ⟨h1, h2⟩ := h
  cases v <;> cases v'
  · rw [show s = s' from h2]
  · exact h1.elim
  · exact h1.elim
  · rw [show s = s' from h2, alike_eq (fun _ _ h => h) _ _ h1]

theorem AlikeRun.eq {Q : A → A → Prop} (hQ : ∀ a b, Q a b → a = b) (hT : ∀ s s', T s s' → s = s')
    {m m' : Run A} (h : AlikeRun T Q m m') : m = m' := by
  cases m with
  | diverge =>
    cases m' with
    | diverge => rfl
    | done l r => cases r <;> exact h.elim
  | done l r =>
    cases m' with
    | diverge => cases r <;> exact h.elim
    | done l' r' =>
      cases r <;> cases r'
      · rw [alikeLog_eq hT h.1, hQ _ _ h.2]
      · exact h.elim
      · exact h.elim
      · rw [alikeLog_eq hT h.1, h.2]

end Tok3n
