import Verif.Spec.Opaque
import Verif.Proof.Alike
/-
The user's types are parameters of a grammar.
-/

namespace Tok3n

variable {α β A B : Type} {C C' : Ctx α β} {T : Span → Span → Prop} {U : Val → Val → Prop}

/-! ### User code -/

theorem Below.quiet {Q : A → A → Prop} {m : Run A} (hm : ∀ l r, m = .done l r → l = []) (h : ∀ a, Q a a) :
    Below T U Q m m := by
  cases m with
  | diverge => exact .diverge
  | done l r =>
    have := hm l r rfl
    subst this
    cases r with
    | ok a => exact ⟨.nil, h a⟩
    | err e => exact ⟨.nil, rfl⟩

theorem Ptr.add_quiet (m : Mem β) (p : Ptr) (n : Nat) (l r) (h : (p.add m n : Run Ptr) = .done l r) : l = [] := by
  unfold Ptr.add at h
  split at h <;> split at h <;> cases h <;> rfl

theorem adjacent_quiet (C : Ctx α β) (a b : Span) (l r) (h : adjacent C a b = .done l r) : l = [] := by
  have key : ∀ {m : Run Bool} {m' : Run Bool}, m = m' → m = .done l r → m' = .done l r := fun h h' => h ▸ h'
  unfold adjacent at h
  split at h
  · rw [M.bind_eq] at h
    cases hp : (Ptr.add C.mem a.ptr a.len : Run Ptr) with
    | diverge => rw [hp] at h; cases h
    | done l' r' =>
      have := Ptr.add_quiet _ _ _ _ _ hp
      subst this
      rw [hp] at h
      cases r' with
      | err e => cases h; rfl
      | ok p =>
        rw [M.ok_bind] at h
        split at h
        · split at h <;> cases h <;> rfl
        · cases h; rfl
        · cases h; rfl
  · split at h
    · split at h <;> cases h <;> rfl
    · cases h; rfl
    · cases h; rfl
  · split at h
    · split at h <;> cases h <;> rfl
    · cases h; rfl
    · cases h; rfl

theorem adjacent_congr (hm : C.mem = C'.mem) (ht : C.toolchain = C'.toolchain) (hp : C.ptrEq = C'.ptrEq)
    (j o : Span) : adjacent C j o = adjacent C' j o := by
  unfold adjacent; rw [hm, ht, hp]

theorem Represents.simulates (hg : SameGrammar C C') (h : Represents U C C') : Simulates Eq U C C' where
  eqv := hg.eqv
  fnRet := hg.fnRet
  constTy := hg.constTy
  ctorOk := hg.ctorOk
  dflt := h.dflt
  conv := h.conv
  convOpt := h.convOpt
  toSpan := h.toSpan
  customTy k := by rw [hg.custom]
  body k := by rw [hg.custom]
  null := rfl
  len := by rintro s s' rfl; rfl
  read := by rintro s s' rfl i -; rw [hg.mem]
  add := by
    rintro s s' rfl n -
    rw [hg.mem]
    exact .quiet (Ptr.add_quiet _ _ _) fun _ => rfl
  take := by rintro s s' rfl n -; rfl
  adj := by
    rintro j j' o o' rfl rfl - -
    rw [adjacent_congr hg.mem hg.toolchain hg.ptrEq]
    exact .quiet (adjacent_quiet _ _ _) fun _ => ⟨rfl, fun _ => rfl⟩

theorem componentsOf_like {v w : Val} (h : Like T U v w) :
    OptRel (Likes T U) (componentsOf v) (componentsOf w) := by
  cases v with
  | unit => simp only [Like] at h; subst h; trivial
  | span s => simp only [Like] at h; obtain ⟨_, rfl, -⟩ := h; trivial
  | vec vs => simp only [Like] at h; obtain ⟨_, rfl, -⟩ := h; trivial
  | arr vs => simp only [Like] at h; obtain ⟨_, rfl, h⟩ := h; exact h
  | opt o =>
    cases o with
    | none => simp only [Like] at h; subst h; trivial
    | some v => simp only [Like] at h; obtain ⟨_, rfl, -⟩ := h; trivial
  | tup vs => simp only [Like] at h; obtain ⟨_, rfl, h⟩ := h; exact h
  | var i v => simp only [Like] at h; obtain ⟨_, rfl, -⟩ := h; trivial
  | pair a b => simp only [Like] at h; obtain ⟨_, _, rfl, h, h'⟩ := h; exact .cons h (.one h')
  | user k t vs => simp only [Like] at h; obtain ⟨_, _, rfl, -⟩ := h; trivial

theorem liftCall_below {Q : Val → Val → Prop} {x y : Except Nat Val} (h : ExceptRel Q x y) :
    Below T U Q (liftCall x) (liftCall y) := by
  cases x <;> cases y
  · rw [show _ = _ from h]; exact .fail _
  · exact h.elim
  · exact h.elim
  · exact .pure h

theorem log_below {c c' : Call} (h : LikeCall T U c c') : Below T U (fun _ _ => True) (M.log c) (M.log c') :=
  ⟨.cons h .nil, trivial⟩

theorem Represents.invoke (hg : SameGrammar C C') (h : Represents U C C') (f : Fn) (args args' : List Val)
    (ha : Likes Eq U args args') : Below Eq U (Like Eq U) (invoke C f args) (Tok3n.invoke C' f args') := by
  induction f generalizing args args' with
  | user k => exact (log_below (c := ⟨.user k, args⟩) (c' := ⟨.user k, args'⟩) ⟨rfl, ha⟩).bind fun _ _ _ => liftCall_below (h.fn k args args' ha)
  | apply f ih =>
    simp only [Tok3n.invoke]
    cases args with
    | nil => simp only [Likes] at ha; subst ha; exact .fail _
    | cons v vs =>
      simp only [Likes] at ha
      obtain ⟨w, ws, rfl, hv, hvs⟩ := ha
      cases vs with
      | cons v' vs => simp only [Likes] at hvs; obtain ⟨_, _, rfl, -⟩ := hvs; exact .fail _
      | nil =>
        simp only [Likes] at hvs; subst hvs
        have := componentsOf_like hv
        simp only
        cases h1 : componentsOf v <;> cases h2 : componentsOf w <;> rw [h1, h2] at this
        · exact .fail _
        · exact this.elim
        · exact this.elim
        · exact ih _ _ this
  | const k => exact (log_below (c := ⟨.const k, args⟩) (c' := ⟨.const k, args'⟩) ⟨rfl, ha⟩).bind fun _ _ _ => .pure (h.const k)
  | construct t => exact (log_below (c := ⟨.construct t, args⟩) (c' := ⟨.construct t, args'⟩) ⟨rfl, ha⟩).bind fun _ _ _ => liftCall_below (h.ctor t args args' ha)
  | deflt t =>
    simp only [Tok3n.invoke, M.bind_eq]
    refine (log_below (c := ⟨.deflt t, args⟩) (c' := ⟨.deflt t, args'⟩) ⟨rfl, ha⟩).bind fun _ _ _ => ?_
    have := defaultVal_alike (h.simulates hg) t
    cases h1 : defaultVal C t <;> cases h2 : defaultVal C' t <;> rw [h1, h2] at this
    · exact .fail _
    · exact this.elim
    · exact this.elim
    · exact .pure this

theorem Represents.calls (hg : SameGrammar C C') (h : Represents U C C') (p : Parser α) : CallsAlike Eq U C C' p :=
  ⟨fun _ f _ args args' ha => h.invoke hg f args args' ha,
    fun _ f _ args args' ha => (h.invoke hg f args args' ha).mono fun v w hv => h.truthy v w hv⟩

/-! ### The other direction -/

mutual
theorem Like.swap {T' : Span → Span → Prop} {U' : Val → Val → Prop} (hT : ∀ a b, T a b → T' b a)
    (hU : ∀ a b, U a b → U' b a) : ∀ v w, Like T U v w → Like T' U' w v
  | .unit, w, h => by simp only [Like] at h; subst h; simp [Like]
  | .span s, w, h => by
    simp only [Like] at h; obtain ⟨s', rfl, h⟩ := h; simp only [Like]; exact ⟨_, rfl, hT _ _ h⟩
  | .vec vs, w, h | .arr vs, w, h | .tup vs, w, h => by
    simp only [Like] at h; obtain ⟨ws, rfl, h⟩ := h; simp only [Like]; exact ⟨_, rfl, Likes.swap hT hU _ _ h⟩
  | .user _ _ vs, w, h => by
    simp only [Like] at h; obtain ⟨t', ws, rfl, h⟩ := h; simp only [Like]; exact ⟨_, _, rfl, hU _ _ h⟩
  | .opt none, w, h => by simp only [Like] at h; subst h; simp [Like]
  | .opt (some v), w, h => by
    simp only [Like] at h; obtain ⟨s', rfl, h⟩ := h; simp only [Like]; exact ⟨_, rfl, Like.swap hT hU _ _ h⟩
  | .var _ v, w, h => by
    simp only [Like] at h; obtain ⟨s', rfl, h⟩ := h; simp only [Like]; exact ⟨_, rfl, Like.swap hT hU _ _ h⟩
  | .pair a b, w, h => by
    simp only [Like] at h; obtain ⟨a', b', rfl, h, h'⟩ := h
    simp only [Like]; exact ⟨_, _, rfl, Like.swap hT hU _ _ h, Like.swap hT hU _ _ h'⟩
theorem Likes.swap {T' : Span → Span → Prop} {U' : Val → Val → Prop} (hT : ∀ a b, T a b → T' b a)
    (hU : ∀ a b, U a b → U' b a) : ∀ vs ws, Likes T U vs ws → Likes T' U' ws vs
  | [], ws, h => by simp only [Likes] at h; subst h; exact .nil
  | v :: vs, ws, h => by
    simp only [Likes] at h; obtain ⟨w, ws', rfl, h, h'⟩ := h
    exact .cons (Like.swap hT hU _ _ h) (Likes.swap hT hU _ _ h')
end

theorem ExceptRel.swap {Q : A → B → Prop} {Q' : B → A → Prop} (hQ : ∀ a b, Q a b → Q' b a)
    {x : Except Nat A} {y : Except Nat B} (h : ExceptRel Q x y) : ExceptRel Q' y x := by
  cases x <;> cases y
  · exact (show _ = _ from h).symm
  · exact h.elim
  · exact h.elim
  · exact hQ _ _ h

theorem SameGrammar.symm (h : SameGrammar C C') : SameGrammar C' C :=
  ⟨h.1.symm, h.2.symm, h.3.symm, h.4.symm, h.5.symm, h.6.symm, h.7.symm, h.8.symm⟩

theorem Represents.swap (h : Represents U C C') : Represents (fun a b => U b a) C' C := by
  have s1 : ∀ v w, Like Eq U v w → Like Eq (fun a b => U b a) w v :=
    Like.swap (fun _ _ h => h.symm) fun _ _ h => h
  have s2 : ∀ v w, Like Eq (fun a b => U b a) v w → Like Eq U w v :=
    Like.swap (fun _ _ h => h.symm) fun _ _ h => h
  have s3 : ∀ v w, Likes Eq (fun a b => U b a) v w → Likes Eq U w v :=
    Likes.swap (fun _ _ h => h.symm) fun _ _ h => h
  exact {
    fn := fun k args args' ha => (h.fn k _ _ (s3 _ _ ha)).swap s1
    const := fun k => s1 _ _ (h.const k)
    ctor := fun t args args' ha => (h.ctor t _ _ (s3 _ _ ha)).swap s1
    dflt := fun k => (h.dflt k).swap s1
    conv := fun a b => (h.conv a b).swap fun f g hf v w hv => s1 _ _ (hf w v (s2 _ _ hv))
    convOpt := fun a b => (h.convOpt a b).swap fun f g hf v w hv => s1 _ _ (hf w v (hv.swap s2))
    toSpan := fun k => (h.toSpan k).swap fun f g hf v w hv => (hf w v (s2 _ _ hv)).symm
    truthy := fun v w hv => (h.truthy w v (s2 _ _ hv)).symm }

theorem Represents.parse (hg : SameGrammar C C') (h : Represents U C C') (p : Parser α) (s : Span) :
    LikeRun Eq U (LikeR Eq U) (Parse C p s) (Parse C' p s) :=
  (Parse_below (h.simulates hg) rfl (h.calls hg p) rfl).run
    (Parse_below (h.swap.simulates hg.symm) rfl (h.swap.calls hg.symm p) rfl)

/-! ### Invariants -/

section
variable {I : Val → Prop}

mutual
theorem like_every : ∀ v w : Val, Like Eq (fun a b => a = b ∧ I a) v w ↔ v = w ∧ v.Every I
  | .unit, w => by simp [Like, Val.Every, eq_comm]
  | .span s, w => by simp [Like, Val.Every, eq_comm]
  | .vec vs, w | .arr vs, w | .tup vs, w => by
    simp only [Like, Val.Every, likes_every vs]
    constructor
    · rintro ⟨_, rfl, rfl, h⟩; exact ⟨rfl, h⟩
    · rintro ⟨rfl, h⟩; exact ⟨_, rfl, rfl, h⟩
  | .opt none, w => by simp [Like, Val.Every, eq_comm]
  | .opt (some v), w => by
    simp only [Like, Val.Every, like_every v]
    constructor
    · rintro ⟨_, rfl, rfl, h⟩; exact ⟨rfl, h⟩
    · rintro ⟨rfl, h⟩; exact ⟨_, rfl, rfl, h⟩
  | .var i v, w => by
    simp only [Like, Val.Every, like_every v]
    constructor
    · rintro ⟨_, rfl, rfl, h⟩; exact ⟨rfl, h⟩
    · rintro ⟨rfl, h⟩; exact ⟨_, rfl, rfl, h⟩
  | .pair a b, w => by
    simp only [Like, Val.Every, like_every a, like_every b]
    constructor
    · rintro ⟨_, _, rfl, ⟨rfl, h⟩, rfl, h'⟩; exact ⟨rfl, h, h'⟩
    · rintro ⟨rfl, h, h'⟩; exact ⟨_, _, rfl, ⟨rfl, h⟩, rfl, h'⟩
  | .user k t vs, w => by
    simp only [Like, Val.Every]
    constructor
    · rintro ⟨_, _, rfl, h, h'⟩; exact ⟨h, h'⟩
    · rintro ⟨rfl, h⟩; exact ⟨_, _, rfl, rfl, h⟩
theorem likes_every : ∀ vs ws : List Val, Likes Eq (fun a b => a = b ∧ I a) vs ws ↔ vs = ws ∧ EveryAll I vs
  | [], ws => by simp [Likes, EveryAll, eq_comm]
  | v :: vs, ws => by
    simp only [Likes, EveryAll, like_every v, likes_every vs]
    constructor
    · rintro ⟨_, _, rfl, ⟨rfl, h⟩, rfl, h'⟩; exact ⟨rfl, h, h'⟩
    · rintro ⟨rfl, h, h'⟩; exact ⟨_, _, rfl, ⟨rfl, h⟩, rfl, h'⟩
end

theorem SameGrammar.refl (C : Ctx α β) : SameGrammar C C := ⟨rfl, rfl, rfl, rfl, rfl, rfl, rfl, rfl⟩

theorem Establishes.represents (h : Establishes I C) : Represents (fun a b => a = b ∧ I a) C C where
  fn k args args' ha := by
    obtain ⟨rfl, ha'⟩ := (likes_every _ _).1 ha
    cases hc : C.fnCall k args with
    | error e => rfl
    | ok v => exact (like_every _ _).2 ⟨rfl, h.fn k args v ha' hc⟩
  const k := (like_every _ _).2 ⟨rfl, h.const k⟩
  ctor t args args' ha := by
    obtain ⟨rfl, ha'⟩ := (likes_every _ _).1 ha
    cases hc : C.ctor t args with
    | error e => rfl
    | ok v => exact (like_every _ _).2 ⟨rfl, h.ctor t args v ha' hc⟩
  dflt k := by
    cases hc : C.userDefault k with
    | none => trivial
    | some v => exact (like_every _ _).2 ⟨rfl, h.dflt k v hc⟩
  conv a b := by
    cases hc : C.conv a b with
    | none => trivial
    | some f =>
      intro v w hv
      obtain ⟨rfl, hv'⟩ := (like_every _ _).1 hv
      exact (like_every _ _).2 ⟨rfl, h.conv a b f v hc hv'⟩
  convOpt a b := by
    cases hc : C.convOpt a b with
    | none => trivial
    | some f =>
      intro v w hv
      refine (like_every _ _).2 ?_
      cases v <;> cases w
      · exact ⟨rfl, h.convOpt a b f _ hc trivial⟩
      · exact hv.elim
      · exact hv.elim
      · obtain ⟨rfl, hv'⟩ := (like_every _ _).1 hv
        exact ⟨rfl, h.convOpt a b f _ hc hv'⟩
  toSpan k := by
    cases hc : C.userSpan k with
    | none => trivial
    | some f =>
      intro v w hv
      obtain ⟨rfl, hv'⟩ := (like_every _ _).1 hv
      rfl
  truthy v w hv := by
    obtain ⟨rfl, hv'⟩ := (like_every _ _).1 hv
    rfl

end

/-! ### Evaluating -/

section
variable {h : Val → Val}

mutual
theorem like_onUsers (hk : KeepsType h) : ∀ v w : Val, Like Eq (fun a b => b = h a) v w ↔ w = v.onUsers h
  | .unit, w => by simp [Like, Val.onUsers]
  | .span s, w => by simp [Like, Val.onUsers]
  | .vec vs, w | .arr vs, w | .tup vs, w => by simp [Like, Val.onUsers, likes_onUsers hk vs]
  | .opt none, w => by simp [Like, Val.onUsers]
  | .opt (some v), w => by simp [Like, Val.onUsers, like_onUsers hk v]
  | .var i v, w => by simp [Like, Val.onUsers, like_onUsers hk v]
  | .pair a b, w => by
    simp only [Like, Val.onUsers, like_onUsers hk a, like_onUsers hk b]
    constructor
    · rintro ⟨_, _, rfl, rfl, rfl⟩; rfl
    · rintro rfl; exact ⟨_, _, rfl, rfl, rfl⟩
  | .user k t vs, w => by
    simp only [Like, Val.onUsers]
    constructor
    · rintro ⟨_, _, rfl, h⟩; exact h
    · rintro rfl
      obtain ⟨t', ws, he⟩ := hk k t vs
      exact ⟨t', ws, he, he.symm⟩
theorem likes_onUsers (hk : KeepsType h) :
    ∀ vs ws : List Val, Likes Eq (fun a b => b = h a) vs ws ↔ ws = onUsersAll h vs
  | [], ws => by simp [Likes, onUsersAll]
  | v :: vs, ws => by
    simp only [Likes, onUsersAll, like_onUsers hk v, likes_onUsers hk vs]
    constructor
    · rintro ⟨_, _, rfl, rfl, rfl⟩; rfl
    · rintro rfl; exact ⟨_, _, rfl, rfl, rfl⟩
end

theorem Evaluates.represents (hk : KeepsType h) (he : Evaluates h C C') : Represents (fun a b => b = h a) C C' where
  fn k args args' ha := by
    rw [(likes_onUsers hk _ _).1 ha, he.fn]
    cases hc : C.fnCall k args with
    | error e => rfl
    | ok v => exact (like_onUsers hk _ _).2 rfl
  const k := (like_onUsers hk _ _).2 (he.const k)
  ctor t args args' ha := by
    rw [(likes_onUsers hk _ _).1 ha, he.ctor]
    cases hc : C.ctor t args with
    | error e => rfl
    | ok v => exact (like_onUsers hk _ _).2 rfl
  dflt k := by
    rw [he.dflt]
    cases hc : C.userDefault k with
    | none => trivial
    | some v => exact (like_onUsers hk _ _).2 rfl
  conv a b := by
    have := he.conv a b
    cases hc : C.conv a b <;> cases hc' : C'.conv a b <;> rw [hc, hc'] at this
    · trivial
    · exact this.elim
    · exact this.elim
    · intro v w hv
      rw [(like_onUsers hk _ _).1 hv]
      exact (like_onUsers hk _ _).2 (this v)
  convOpt a b := by
    have := he.convOpt a b
    cases hc : C.convOpt a b <;> cases hc' : C'.convOpt a b <;> rw [hc, hc'] at this
    · trivial
    · exact this.elim
    · exact this.elim
    · intro v w hv
      refine (like_onUsers hk _ _).2 ?_
      rw [← this v]
      cases v <;> cases w
      · rfl
      · exact hv.elim
      · exact hv.elim
      · rw [(like_onUsers hk _ _).1 hv]; rfl
  toSpan k := by
    have := he.toSpan k
    cases hc : C.userSpan k <;> cases hc' : C'.userSpan k <;> rw [hc, hc'] at this
    · trivial
    · exact this.elim
    · exact this.elim
    · intro v w hv
      rw [(like_onUsers hk _ _).1 hv]
      exact (this v).symm
  truthy v w hv := by
    rw [(like_onUsers hk _ _).1 hv]
    exact (he.truthy v).symm

theorem likeLog_onUsers (hk : KeepsType h) {l l' : List Call} (hl : LikeLog Eq (fun a b => b = h a) l l') :
    l' = l.map (Call.onUsers h) := by
  induction hl with
  | nil => rfl
  | @cons c c' l l' hc _ ih =>
    obtain ⟨f, args⟩ := c
    obtain ⟨f', args'⟩ := c'
    obtain ⟨h1, h2⟩ := hc
    simp only at h1 h2
    subst h1
    rw [(likes_onUsers hk _ _).1 h2, ih]
    rfl

end

end Tok3n
