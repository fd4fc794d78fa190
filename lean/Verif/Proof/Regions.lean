import Verif.Proof.Quiet
import Verif.Spec.Values
/-
Lemmas on types of values, regions, builders and joins, for the induction of
`Proof/Typing.lean`.
-/

namespace Tok3n

variable {α β L A B : Type}

/-! ### regions -/

theorem Within.mono {s s' t o o' : Span} (h : Within s s' t) (hs : s.SuffixOf o) (hs' : o'.SuffixOf s') :
    Within o o' t := by
  obtain ⟨b, i, j, e, h1, h2, h3, h4, h5⟩ := h
  obtain ⟨k, hk⟩ := hs
  obtain ⟨k', hk'⟩ := hs'
  have e1 : ∃ i', o.ptr = .at b i' ∧ i' ≤ i := by
    rcases hk.start with ⟨rfl, e⟩ | ⟨b', o', e, e'⟩
    · exact ⟨i, by rw [← e, h1], le_refl _⟩
    · rw [h1] at e'; cases e'; exact ⟨_, e, by omega⟩
  have e2 : ∃ i', o'.ptr = .at b i' ∧ e ≤ i' := by
    rcases hk'.start with ⟨rfl, e⟩ | ⟨b', o', e, e'⟩
    · exact ⟨_, by rw [e, h2], le_refl _⟩
    · rw [h2] at e; cases e; exact ⟨_, e', by omega⟩
  obtain ⟨i', he1, hle1⟩ := e1
  obtain ⟨i2, he2, hle2⟩ := e2
  exact ⟨b, i', j, i2, he1, he2, h3, by omega, by omega⟩

theorem InRegion.mono {s s' t o o' : Span} (h : InRegion s s' t) (hs : s.SuffixOf o) (hs' : o'.SuffixOf s') :
    InRegion o o' t := h.imp id fun h => h.mono hs hs'

theorem Span.Advanced.inRegion {s s' : Span} {n : Nat} (h : s.Advanced n s') : InRegion s s' ⟨s.ptr, n⟩ := by
  rcases h.start with ⟨rfl, e⟩ | ⟨b, o, e, e'⟩
  · cases hp : s.ptr with
    | null => exact .inl rfl
    | «at» b o => exact .inr ⟨b, o, o, o, hp, by rw [e, hp], rfl, le_refl _, le_refl _⟩
  · exact .inr ⟨b, o, o, o + n, e, e', e, le_refl _, le_refl _⟩

theorem InRegion.empty_at {s s' : Span} (h : s'.SuffixOf s) : InRegion s s' ⟨s'.ptr, 0⟩ := by
  obtain ⟨k, h⟩ := h
  rcases h.start with ⟨rfl, e⟩ | ⟨b, o, e, e'⟩
  · cases hp : s.ptr with
    | null => rw [e, hp]; exact .inl rfl
    | «at» b o => exact .inr ⟨b, o, o, o, hp, by rw [e, hp], by rw [e, hp], le_refl _, le_refl _⟩
  · exact .inr ⟨b, o, o + k, o + k, e, e', e', by omega, by simp⟩

/-! ### spans of lists of values -/

theorem spansList_append (a b : List Val) : spansList (a ++ b) = spansList a ++ spansList b := by
  induction a with
  | nil => rfl
  | cons v a ih => simp [spansList, ih]

theorem mem_spansList {x : Span} {vs : List Val} : x ∈ spansList vs ↔ ∃ v ∈ vs, x ∈ v.spans := by
  induction vs with
  | nil => simp [spansList]
  | cons v vs ih => simp [spansList, ih]

/-! ### default values -/

mutual
theorem defaultVal_hasTy {C : Ctx α β} (hT : C.Typed) :
    ∀ (t : Ty) (v : Val), defaultVal C t = some v → HasTy t v
  | .void, v, h => by simp [defaultVal] at h; subst h; rfl
  | .span, v, h => by simp [defaultVal] at h; subst h; exact ⟨_, rfl⟩
  | .vec t, v, h => by simp [defaultVal] at h; subst h; exact ⟨_, rfl, nofun⟩
  | .arr t n, v, h => by
    simp only [defaultVal, Option.map_eq_some_iff] at h
    obtain ⟨w, hw, rfl⟩ := h
    refine ⟨_, rfl, by simp, fun x hx => ?_⟩
    rw [List.eq_of_mem_replicate hx]; exact defaultVal_hasTy hT t w hw
  | .opt t, v, h => by simp [defaultVal] at h; subst h; exact .inl rfl
  | .tup ts, v, h => by
    simp only [defaultVal, Option.map_eq_some_iff] at h
    obtain ⟨w, hw, rfl⟩ := h
    exact ⟨_, rfl, defaultVals_hasTys hT ts w hw⟩
  | .var ts, v, h => by
    simp only [defaultVal, Option.map_eq_some_iff] at h
    obtain ⟨w, hw, rfl⟩ := h
    exact ⟨_, _, rfl, defaultHead_hasTyAt hT ts w hw⟩
  | .pair a b, v, h => by
    simp only [defaultVal] at h
    cases ha : defaultVal C a with
    | none => simp [ha] at h
    | some x =>
      cases hb : defaultVal C b with
      | none => simp [ha, hb] at h
      | some y =>
        simp [ha, hb] at h; subst h
        exact ⟨x, y, rfl, defaultVal_hasTy hT a x ha, defaultVal_hasTy hT b y hb⟩
  | .user k, v, h => hT.dflt k v h
theorem defaultVals_hasTys {C : Ctx α β} (hT : C.Typed) :
    ∀ (ts : List Ty) (vs : List Val), defaultVals C ts = some vs → HasTys ts vs
  | [], vs, h => by simp [defaultVals] at h; subst h; rfl
  | t :: ts, vs, h => by
    simp only [defaultVals] at h
    cases ha : defaultVal C t with
    | none => simp [ha] at h
    | some x =>
      cases hb : defaultVals C ts with
      | none => simp [ha, hb] at h
      | some y =>
        simp [ha, hb] at h; subst h
        exact ⟨x, y, rfl, defaultVal_hasTy hT t x ha, defaultVals_hasTys hT ts y hb⟩
theorem defaultHead_hasTyAt {C : Ctx α β} (hT : C.Typed) :
    ∀ (ts : List Ty) (v : Val), defaultHead C ts = some v → HasTyAt ts 0 v
  | [], v, h => by simp [defaultHead] at h
  | t :: ts, v, h => defaultVal_hasTy hT t v h
end

mutual
theorem defaultVal_spans {C : Ctx α β} (hT : C.Local) :
    ∀ (t : Ty) (v : Val), defaultVal C t = some v → ∀ x ∈ v.spans, x = Span.default
  | .void, v, h => by simp [defaultVal] at h; subst h; simp [Val.spans]
  | .span, v, h => by simp [defaultVal] at h; subst h; simp [Val.spans]
  | .vec t, v, h => by simp [defaultVal] at h; subst h; simp [Val.spans, spansList]
  | .arr t n, v, h => by
    simp only [defaultVal, Option.map_eq_some_iff] at h
    obtain ⟨w, hw, rfl⟩ := h
    intro x hx
    simp only [Val.spans, mem_spansList] at hx
    obtain ⟨v, hv, hx⟩ := hx
    rw [List.eq_of_mem_replicate hv] at hx; exact defaultVal_spans hT t w hw x hx
  | .opt t, v, h => by simp [defaultVal] at h; subst h; simp [Val.spans]
  | .tup ts, v, h => by
    simp only [defaultVal, Option.map_eq_some_iff] at h
    obtain ⟨w, hw, rfl⟩ := h
    exact defaultVals_spans hT ts w hw
  | .var ts, v, h => by
    simp only [defaultVal, Option.map_eq_some_iff] at h
    obtain ⟨w, hw, rfl⟩ := h
    exact defaultHead_spans hT ts w hw
  | .pair a b, v, h => by
    simp only [defaultVal] at h
    cases ha : defaultVal C a with
    | none => simp [ha] at h
    | some x =>
      cases hb : defaultVal C b with
      | none => simp [ha, hb] at h
      | some y =>
        simp [ha, hb] at h; subst h
        intro t ht
        rcases List.mem_append.1 ht with h | h
        · exact defaultVal_spans hT a x ha t h
        · exact defaultVal_spans hT b y hb t h
  | .user k, v, h => hT.dflt k v h
theorem defaultVals_spans {C : Ctx α β} (hT : C.Local) :
    ∀ (ts : List Ty) (vs : List Val), defaultVals C ts = some vs → ∀ x ∈ spansList vs, x = Span.default
  | [], vs, h => by simp [defaultVals] at h; subst h; simp [spansList]
  | t :: ts, vs, h => by
    simp only [defaultVals] at h
    cases ha : defaultVal C t with
    | none => simp [ha] at h
    | some x =>
      cases hb : defaultVals C ts with
      | none => simp [ha, hb] at h
      | some y =>
        simp [ha, hb] at h; subst h
        intro t' ht
        rcases List.mem_append.1 ht with h | h
        · exact defaultVal_spans hT t x ha t' h
        · exact defaultVals_spans hT ts y hb t' h
theorem defaultHead_spans {C : Ctx α β} (hT : C.Local) :
    ∀ (ts : List Ty) (v : Val), defaultHead C ts = some v → ∀ x ∈ v.spans, x = Span.default
  | [], v, h => by simp [defaultHead] at h
  | t :: ts, v, h => defaultVal_spans hT t v h
end

/-! ### good values -/

/-- well-typed, with all spans satisfying `reg` -/
structure Vok (reg : Span → Prop) (t : Ty) (v : Val) : Prop where
  ty : HasTy t v
  spans : ∀ x ∈ v.spans, reg x

theorem Vok.mono {reg reg' : Span → Prop} {t : Ty} {v : Val} (h : Vok reg t v)
    (hr : ∀ x, reg x → reg' x) : Vok reg' t v := ⟨h.ty, fun x hx => hr x (h.spans x hx)⟩

theorem Vok.unit {reg : Span → Prop} : Vok reg .void .unit := ⟨rfl, nofun⟩

theorem HasTys.get {ts : List Ty} {vs : List Val} (h : HasTys ts vs) {i : Nat} {u : Ty} (hu : ts[i]? = some u) :
    i < vs.length := by
  induction ts generalizing vs i with
  | nil => simp at hu
  | cons t ts ih =>
    obtain ⟨w, ws, rfl, hw, hws⟩ := h
    cases i with
    | zero => simp
    | succ i => simpa using ih hws (by simpa using hu)

theorem HasTys.set {ts : List Ty} {vs : List Val} (h : HasTys ts vs) {i : Nat} {u : Ty} (hu : ts[i]? = some u)
    {x : Val} (hx : HasTy u x) : HasTys ts (vs.set i x) := by
  induction ts generalizing vs i with
  | nil => simp at hu
  | cons t ts ih =>
    obtain ⟨w, ws, rfl, hw, hws⟩ := h
    cases i with
    | zero =>
      simp only [List.getElem?_cons_zero, Option.some.injEq] at hu; subst hu
      exact ⟨x, ws, rfl, hx, hws⟩
    | succ i => exact ⟨w, ws.set i x, rfl, hw, ih hws (by simpa using hu)⟩

theorem HasTyAt.of_get {ts : List Ty} {i : Nat} {u : Ty} (hu : ts[i]? = some u) {x : Val} (hx : HasTy u x) :
    HasTyAt ts i x := by
  induction ts generalizing i with
  | nil => simp at hu
  | cons t ts ih =>
    cases i with
    | zero => simp only [List.getElem?_cons_zero, Option.some.injEq] at hu; subst hu; exact hx
    | succ i => exact ih (by simpa using hu)

theorem mem_spansList_set {vs : List Val} {i : Nat} {w : Val} {x : Span} (hx : x ∈ spansList (vs.set i w)) :
    x ∈ spansList vs ∨ x ∈ w.spans := by
  rw [mem_spansList] at hx
  obtain ⟨v, hv, hx⟩ := hx
  rcases List.mem_or_eq_of_mem_set hv with h | rfl
  · exact .inl (mem_spansList.2 ⟨v, h, hx⟩)
  · exact .inr hx

section builders
variable {reg : Span → Prop} {r : R} {w : Val} (hr : r.val = some w)
include hr

theorem R.deref_eq : r.deref = M.pure w := by simp [R.deref, hr]

theorem builderAssign_ok {T : Ty} {v : Val} (hv : Vok reg T v) (hw : Vok reg T w) :
    ∃ v', builderAssign T v r = M.pure v' ∧ Vok reg T v' := by
  unfold builderAssign; split
  · exact ⟨v, rfl, hv⟩
  · exact ⟨w, R.deref_eq hr, hw⟩

theorem builderArrayAssign_ok {t : Ty} {n i : Nat} {v : Val} (hi : i < n)
    (hv : Vok reg (voidOr (.arr · n) t) v) (hw : Vok reg t w) :
    ∃ v', builderArrayAssign (voidOr (.arr · n) t) v i r = M.pure v' ∧ Vok reg (voidOr (.arr · n) t) v' := by
  by_cases ht : t = .void
  · subst ht; exact ⟨v, by simp [builderArrayAssign, voidOr], hv⟩
  · simp only [voidOr, if_neg ht] at *
    obtain ⟨vs, rfl, hl, hvs⟩ := hv.ty
    refine ⟨.arr (vs.set i w), ?_, ⟨_, rfl, by simpa using hl, fun x hx => ?_⟩, fun x hx => ?_⟩
    · simp only [builderArrayAssign]
      rw [if_neg (by nofun), R.deref_eq hr]
      simp only [M.bind_eq, M.pure_bind]
      rw [if_pos (by omega)]
    · rcases List.mem_or_eq_of_mem_set hx with h | rfl
      · exact hvs x h
      · exact hw.ty
    · rcases mem_spansList_set hx with h | h
      · exact hv.spans x h
      · exact hw.spans x h

theorem builderGetAssign_ok {ts : List Ty} {u : Ty} {i : Nat} {v : Val} (hu : ts[i]? = some u)
    (hv : Vok reg (.tup ts) v) (hw : Vok reg u w) :
    ∃ v', builderGetAssign (.tup ts) v i r = M.pure v' ∧ Vok reg (.tup ts) v' := by
  obtain ⟨vs, rfl, hvs⟩ := hv.ty
  refine ⟨.tup (vs.set i w), ?_, ⟨_, rfl, hvs.set hu hw.ty⟩, fun x hx => ?_⟩
  · simp only [builderGetAssign]
    rw [if_neg (by nofun), R.deref_eq hr]
    simp only [M.bind_eq, M.pure_bind]
    rw [if_pos (hvs.get hu)]
  · rcases mem_spansList_set hx with h | h
    · exact hv.spans x h
    · exact hw.spans x h

theorem builderEmplace_ok {t : Ty} {v : Val} (hv : Vok reg (voidOr .opt t) v) (hw : Vok reg t w) :
    ∃ v', builderEmplace (voidOr .opt t) v r = M.pure v' ∧ Vok reg (voidOr .opt t) v' := by
  by_cases ht : t = .void
  · subst ht; exact ⟨v, by simp [builderEmplace, voidOr], hv⟩
  · simp only [voidOr, if_neg ht] at *
    refine ⟨.opt (some w), ?_, .inr ⟨w, rfl, hw.ty⟩, hw.spans⟩
    rcases hv.ty with rfl | ⟨w', rfl, -⟩ <;>
    · simp only [builderEmplace]
      rw [if_neg (by nofun), R.deref_eq hr]; rfl

theorem builderInsertBack_ok {t : Ty} {v : Val} (hv : Vok reg (voidOr .vec t) v) (hw : Vok reg t w) :
    ∃ v', builderInsertBack (voidOr .vec t) v r = M.pure v' ∧ Vok reg (voidOr .vec t) v' := by
  by_cases ht : t = .void
  · subst ht; exact ⟨v, by simp [builderInsertBack, voidOr], hv⟩
  · simp only [voidOr, if_neg ht] at *
    obtain ⟨vs, rfl, hvs⟩ := hv.ty
    refine ⟨.vec (vs ++ [w]), ?_, ⟨_, rfl, fun x hx => ?_⟩, fun x hx => ?_⟩
    · simp only [builderInsertBack]
      rw [if_neg (by nofun), R.deref_eq hr]; rfl
    · rcases List.mem_append.1 hx with h | h
      · exact hvs x h
      · simp at h; subst h; exact hw.ty
    · simp only [Val.spans, spansList_append, List.mem_append] at hx
      rcases hx with h | h
      · exact hv.spans x h
      · simp [spansList] at h; exact hw.spans x h

theorem builderInsertBackFirst_ok {t u : Ty} {v : Val} (hv : Vok reg (.pair (.vec t) u) v) (hw : Vok reg t w) :
    ∃ v', builderInsertBackFirst (.pair (.vec t) u) v r = M.pure v' ∧ Vok reg (.pair (.vec t) u) v' := by
  obtain ⟨a, b, rfl, ⟨vs, rfl, hvs⟩, hb⟩ := hv.ty
  refine ⟨.pair (.vec (vs ++ [w])) b, ?_, ⟨_, _, rfl, ⟨_, rfl, fun x hx => ?_⟩, hb⟩, fun x hx => ?_⟩
  · simp only [builderInsertBackFirst]
    rw [if_neg (by nofun), R.deref_eq hr]; rfl
  · rcases List.mem_append.1 hx with h | h
    · exact hvs x h
    · simp at h; subst h; exact hw.ty
  · simp only [Val.spans, spansList_append, List.mem_append] at hx
    rcases hx with (h | h) | h
    · exact hv.spans x (by simp [Val.spans, h])
    · simp [spansList] at h; exact hw.spans x h
    · exact hv.spans x (by simp [Val.spans, h])

theorem builderInsertBackSecond_ok {t u : Ty} {v : Val} (hv : Vok reg (.pair u (.vec t)) v) (hw : Vok reg t w) :
    ∃ v', builderInsertBackSecond (.pair u (.vec t)) v r = M.pure v' ∧ Vok reg (.pair u (.vec t)) v' := by
  obtain ⟨a, b, rfl, ha, ⟨vs, rfl, hvs⟩⟩ := hv.ty
  refine ⟨.pair a (.vec (vs ++ [w])), ?_, ⟨_, _, rfl, ha, ⟨_, rfl, fun x hx => ?_⟩⟩, fun x hx => ?_⟩
  · simp only [builderInsertBackSecond]
    rw [if_neg (by nofun), R.deref_eq hr]; rfl
  · rcases List.mem_append.1 hx with h | h
    · exact hvs x h
    · simp at h; subst h; exact hw.ty
  · simp only [Val.spans, spansList_append, List.mem_append] at hx
    rcases hx with h | h | h
    · exact hv.spans x (by simp [Val.spans, h])
    · exact hv.spans x (by simp [Val.spans, h])
    · simp [spansList] at h; exact hw.spans x h

end builders

/-! ### join -/

/-- `try_join` over a list of spans -/
def tryJoinList (C : Ctx α β) : Option Span → List Span → Run (Bool × Option Span)
  | j, [] => M.pure (true, j)
  | j, x :: xs => M.bind (tryJoinSpan C j x) fun r =>
      if r.1 then tryJoinList C r.2 xs else M.pure (false, r.2)

theorem tryJoinList_append (C : Ctx α β) (j : Option Span) (xs ys : List Span) :
    tryJoinList C j (xs ++ ys) = M.bind (tryJoinList C j xs) fun r =>
      if r.1 then tryJoinList C r.2 ys else M.pure (false, r.2) := by
  induction xs generalizing j with
  | nil => simp [tryJoinList]
  | cons x xs ih =>
    simp only [List.cons_append, tryJoinList, M.bind_assoc]
    congr 1; funext r
    split
    · exact ih _
    · simp

mutual
theorem tryJoin_eq {C : Ctx α β} (j : Option Span) :
    ∀ (t : Ty) (v : Val), joinable C t = true → HasTy t v → tryJoin C j v = tryJoinList C j (joinLeaves C v)
  | .span, v, _, h => by
    obtain ⟨s, rfl⟩ := h
    simp only [tryJoin, joinLeaves, tryJoinList]
    exact tryJoinSpan_bind
  | .vec t, v, hj, h => by
    obtain ⟨vs, rfl, hvs⟩ := h
    simp only [tryJoin, joinLeaves]
    exact tryJoins_eq_all j t hj vs hvs
  | .arr t n, v, hj, h => by
    obtain ⟨vs, rfl, -, hvs⟩ := h
    simp only [tryJoin, joinLeaves]
    exact tryJoins_eq_all j t hj vs hvs
  | .opt t, v, hj, h => by
    rcases h with rfl | ⟨w, rfl, hw⟩
    · simp [tryJoin, joinLeaves, tryJoinList]
    · simp only [tryJoin, joinLeaves]; exact tryJoin_eq j t w hj hw
  | .tup ts, v, hj, h => by
    obtain ⟨vs, rfl, hvs⟩ := h
    simp only [tryJoin, joinLeaves]
    simp only [joinable, Bool.and_eq_true] at hj
    exact tryJoins_eq j ts vs hj.2 hvs
  | .user k, v, hj, h => by
    obtain ⟨tag, vs, rfl⟩ := h
    simp only [joinable] at hj
    obtain ⟨f, hf⟩ := Option.isSome_iff_exists.1 hj
    simp only [tryJoin, joinLeaves, hf, tryJoinList]
    exact tryJoinSpan_bind
  | .void, v, hj, h => by simp [joinable] at hj
  | .var ts, v, hj, h => by simp [joinable] at hj
  | .pair a b, v, hj, h => by simp [joinable] at hj
theorem tryJoins_eq {C : Ctx α β} (j : Option Span) :
    ∀ (ts : List Ty) (vs : List Val), joinable.joinables C ts = true → HasTys ts vs →
      tryJoins C j vs = tryJoinList C j (joinLeavesList C vs)
  | [], vs, _, h => by cases h; simp [tryJoins, joinLeavesList, tryJoinList]
  | t :: ts, vs, hj, h => by
    obtain ⟨w, ws, rfl, hw, hws⟩ := h
    simp only [joinable.joinables, Bool.and_eq_true] at hj
    simp only [tryJoins, joinLeavesList, tryJoinList_append, M.bind_eq]
    rw [tryJoin_eq j t w hj.1 hw]
    congr 1; funext ⟨ok, j'⟩
    dsimp only
    split
    · exact tryJoins_eq j' ts ws hj.2 hws
    · rfl
theorem tryJoins_eq_all {C : Ctx α β} (j : Option Span) (t : Ty) (hj : joinable C t = true) :
    ∀ (vs : List Val), (∀ w ∈ vs, HasTy t w) → tryJoins C j vs = tryJoinList C j (joinLeavesList C vs) := by
  intro vs h
  induction vs generalizing j with
  | nil => simp [tryJoins, joinLeavesList, tryJoinList]
  | cons w ws ih =>
    simp only [tryJoins, joinLeavesList, tryJoinList_append, M.bind_eq]
    rw [tryJoin_eq j t w hj (h w (by simp))]
    congr 1; funext ⟨ok, j'⟩
    dsimp only
    split
    · exact ih j' (fun x hx => h x (by simp [hx]))
    · rfl
theorem tryJoinSpan_bind {C : Ctx α β} {j : Option Span} {s : Span} :
    tryJoinSpan C j s = M.bind (tryJoinSpan C j s) fun r =>
      if r.1 then M.pure (true, r.2) else M.pure (false, r.2) := by
  conv_lhs => rw [← M.bind_pure (tryJoinSpan C j s)]
  congr 1; funext ⟨b, r⟩; cases b <;> rfl
end

mutual
theorem joinLeaves_local {C : Ctx α β} (hL : C.Local) :
    ∀ v : Val, ∀ x ∈ joinLeaves C v, x = Span.default ∨ x ∈ v.spans
  | .unit => by simp [joinLeaves]
  | .span s => by simp [joinLeaves, Val.spans]
  | .vec vs => joinLeavesList_local hL vs
  | .arr vs => joinLeavesList_local hL vs
  | .opt none => by simp [joinLeaves]
  | .opt (some v) => joinLeaves_local hL v
  | .tup vs => joinLeavesList_local hL vs
  | .var _ v => by simp [joinLeaves]
  | .pair a b => by simp [joinLeaves]
  | .user k t vs => by
    intro x hx
    simp only [joinLeaves] at hx
    cases hf : C.userSpan k with
    | none => simp [hf] at hx
    | some f => simp [hf] at hx; subst hx; exact hL.toSpan k f _ hf
theorem joinLeavesList_local {C : Ctx α β} (hL : C.Local) :
    ∀ vs : List Val, ∀ x ∈ joinLeavesList C vs, x = Span.default ∨ x ∈ spansList vs
  | [] => by simp [joinLeavesList]
  | v :: vs => by
    intro x hx
    simp only [joinLeavesList, List.mem_append] at hx
    simp only [spansList, List.mem_append]
    rcases hx with h | h
    · exact (joinLeaves_local hL v x h).imp id .inl
    · exact (joinLeavesList_local hL vs x h).imp id .inr
end

/-- two non-empty spans in one array: the second starts where the first ends -/
def touches (a b : Span) : Bool :=
  match a.ptr, b.ptr with
  | .at b o, .at b' o' => b == b' && o + a.len == o'
  | _, _ => false

/-- join, as a pure function -/
def joinAll : Option Span → List Span → Bool × Option Span
  | j, [] => (true, j)
  | j, x :: xs =>
    if x.len = 0 then joinAll j xs
    else match j with
      | none => joinAll (some x) xs
      | some j => if touches j x then joinAll (some ⟨j.ptr, j.len + x.len⟩) xs else (false, none)

/-- a span inside one array that is readable up to `hi` -/
def InArr (b hi : Nat) (x : Span) : Prop := ∃ i, x.ptr = .at b i ∧ i + x.len ≤ hi

theorem adjacent_eq {C : Ctx α β} {b hi : Nat} (hhi : hi ≤ (C.mem b).length) {j x : Span}
    (hj : InArr b hi j) (hx : InArr b hi x) : adjacent C j x = M.pure (touches j x) := by
  obtain ⟨i, hi, hle⟩ := hj
  obtain ⟨i', hi', hle'⟩ := hx
  have h1 : i + j.len ≤ (C.mem b).length := by omega
  unfold adjacent touches
  cases C.toolchain with
  | msvc => simp [hi, hi', Ptr.add, h1]
  | gnuRuntime =>
    simp only [hi, hi', if_true]
    congr 1
    rw [Bool.eq_iff_iff]; simp; omega
  | gnuConstexpr =>
    simp only [hi, hi', if_true]
    congr 1
    rw [Bool.eq_iff_iff]; simp; omega

theorem touches_inArr {b hi : Nat} {j x : Span} (hj : InArr b hi j) (hx : InArr b hi x)
    (h : touches j x = true) : InArr b hi ⟨j.ptr, j.len + x.len⟩ := by
  obtain ⟨i, hi, hle⟩ := hj
  obtain ⟨i', hi', hle'⟩ := hx
  refine ⟨i, hi, ?_⟩
  simp [touches, hi, hi'] at h
  show i + (j.len + x.len) ≤ _
  omega

theorem tryJoinList_eq {C : Ctx α β} {b hi : Nat} (hhi : hi ≤ (C.mem b).length) (xs : List Span)
    (hxs : ∀ x ∈ xs, x.len ≠ 0 → InArr b hi x) (j : Option Span) (hj : ∀ y, j = some y → InArr b hi y) :
    tryJoinList C j xs = M.pure (joinAll j xs) := by
  induction xs generalizing j with
  | nil => rfl
  | cons x xs ih =>
    have hxs' : ∀ x ∈ xs, x.len ≠ 0 → InArr b hi x := fun y hy => hxs y (by simp [hy])
    simp only [tryJoinList, tryJoinSpan, Span.empty, joinAll]
    by_cases h0 : x.len = 0
    · simp [h0, ih hxs' j hj]
    · have hx := hxs x (by simp) h0
      simp only [beq_iff_eq, h0, if_false]
      cases j with
      | none => simp [ih hxs' (some x) (by rintro y ⟨⟩; exact hx)]
      | some j =>
        have hj' := hj j rfl
        simp only [M.bind_eq, adjacent_eq hhi hj' hx, M.pure_bind]
        cases ht : touches j x with
        | false => simp
        | true =>
          simp only [if_true, M.pure_bind]
          exact ih hxs' _ (by rintro y ⟨⟩; exact touches_inArr hj' hx ht)

/-- Without assumptions the only error of a join is undefined behaviour. -/
theorem adjacent_ub (C : Ctx α β) (j x : Span) : Quiet (adjacent C j x) (fun _ => True) (· = .ub) := by
  unfold adjacent
  split
  · refine Quiet.bind (ptrAdd_quiet _ _ _) fun p _ => ?_
    split
    · exact Quiet.ite (fun _ => Quiet.pure trivial) fun _ => Quiet.pure trivial
    · exact Quiet.pure trivial
    · exact Quiet.pure trivial
  · split
    · exact Quiet.ite (fun _ => Quiet.pure trivial) fun _ => Quiet.fail rfl
    · exact Quiet.pure trivial
    · exact Quiet.fail rfl
  · split
    · exact Quiet.ite (fun _ => Quiet.pure trivial) fun _ => Quiet.pure trivial
    · exact Quiet.pure trivial
    · exact Quiet.pure trivial

theorem tryJoinSpan_ub (C : Ctx α β) (j : Option Span) (x : Span) :
    Quiet (tryJoinSpan C j x) (fun _ => True) (· = .ub) := by
  refine Quiet.ite (fun _ => Quiet.pure trivial) fun _ => ?_
  cases j with
  | none => exact Quiet.pure trivial
  | some j =>
    exact Quiet.bind (adjacent_ub C j x) fun _ _ =>
      Quiet.ite (fun _ => Quiet.pure trivial) fun _ => Quiet.pure trivial

theorem tryJoinList_ub (C : Ctx α β) (j : Option Span) (xs : List Span) :
    Quiet (tryJoinList C j xs) (fun _ => True) (· = .ub) := by
  induction xs generalizing j with
  | nil => exact Quiet.pure trivial
  | cons x xs ih =>
    exact Quiet.bind (tryJoinSpan_ub C j x) fun _ _ => Quiet.ite (fun _ => ih _) fun _ => Quiet.pure trivial

/-- A join of spans of one region gives a span of that region (or nothing). -/
theorem adjacent_region {C : Ctx α β} {s s' j x : Span} (hj : Within s s' j) (hx : Within s s' x) :
    Quiet (adjacent C j x) (fun a => a = touches j x) (· = .ub) := by
  obtain ⟨b, o, i, o', h1, h2, h3, h4, h5⟩ := hj
  obtain ⟨b', o2, i', o2', h1', h2', h3', h4', h5'⟩ := hx
  rw [h1] at h1'; cases h1'
  unfold adjacent touches
  rw [h3, h3']
  split
  · refine Quiet.bind (ptrAdd_quiet _ _ _) fun p hp => ?_
    have : p = .at b (i + j.len) := by
      rcases hp with ⟨h0, rfl⟩ | ⟨b', o, e, rfl⟩
      · simp [h0]
      · cases e; rfl
    subst this
    simp [Quiet.pure]
  · simp only [if_true]
    refine Quiet.pure ?_
    rw [Bool.eq_iff_iff]; simp; omega
  · simp only [if_true]
    refine Quiet.pure ?_
    rw [Bool.eq_iff_iff]; simp; omega

theorem touches_within {s s' j x : Span} (hj : Within s s' j) (hx : Within s s' x)
    (h : touches j x = true) : Within s s' ⟨j.ptr, j.len + x.len⟩ := by
  obtain ⟨b, o, i, o', h1, h2, h3, h4, h5⟩ := hj
  obtain ⟨b', o2, i', o2', h1', h2', h3', h4', h5'⟩ := hx
  rw [h1] at h1'; cases h1'
  rw [h2] at h2'; cases h2'
  simp [touches, h3, h3'] at h
  exact ⟨b, o, i, o', h1, h2, h3, h4, by show i + (j.len + x.len) ≤ o'; omega⟩

theorem tryJoinList_region {C : Ctx α β} {s s' : Span} (xs : List Span)
    (hxs : ∀ x ∈ xs, InRegion s s' x) (j : Option Span) (hj : ∀ y, j = some y → Within s s' y) :
    Quiet (tryJoinList C j xs) (fun r => ∀ y, r.2 = some y → Within s s' y) (· = .ub) := by
  induction xs generalizing j with
  | nil => exact Quiet.pure hj
  | cons x xs ih =>
    have hxs' : ∀ x ∈ xs, InRegion s s' x := fun y hy => hxs y (by simp [hy])
    refine Quiet.bind (Q := fun r => ∀ y, r.2 = some y → Within s s' y) ?_ fun r hr =>
      Quiet.ite (fun _ => ih hxs' _ hr) fun _ => Quiet.pure hr
    refine Quiet.ite (fun _ => Quiet.pure hj) fun h0 => ?_
    have hx : Within s s' x := by
      rcases hxs x (by simp) with rfl | h
      · simp [Span.empty, Span.default] at h0
      · exact h
    cases j with
    | none => exact Quiet.pure (by rintro y ⟨⟩; exact hx)
    | some j =>
      refine Quiet.bind (adjacent_region (hj j rfl) hx) fun a ha => ?_
      subst ha
      exact Quiet.ite (fun h => Quiet.pure (by rintro y ⟨⟩; exact touches_within (hj j rfl) hx h))
        fun _ => Quiet.pure nofun

/-- readable array holding all non-empty spans of a region -/
theorem region_inArr {C : Ctx α β} {s s' : Span} (hs : s.Valid C.mem) (h' : s'.SuffixOf s) :
    ∃ b hi, hi ≤ (C.mem b).length ∧ ∀ x, InRegion s s' x → x.len ≠ 0 → InArr b hi x := by
  have hv := h'.valid hs
  cases hp : s'.ptr with
  | null =>
    refine ⟨0, 0, by omega, fun x hx h0 => ?_⟩
    rcases hx with rfl | ⟨b, o, i, o', h1, h2, h3, h4, h5⟩
    · exact absurd rfl h0
    · rw [hp] at h2; cases h2
  | «at» b o =>
    refine ⟨b, o, ?_, fun x hx h0 => ?_⟩
    · simp only [Span.Valid, hp] at hv; omega
    · rcases hx with rfl | ⟨b', o2, i, o', h1, h2, h3, h4, h5⟩
      · exact absurd rfl h0
      · rw [hp] at h2; cases h2; exact ⟨i, h3, h5⟩

end Tok3n
