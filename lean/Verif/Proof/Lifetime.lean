import Verif.Spec.Lifetime
import Verif.Proof.Like
import Verif.Proof.Effort
import Verif.Props.Independence
/-
Lifetimes: no span into an object of the user leaves `parse`, except by way of `join`.
-/

namespace Tok3n

variable {α β : Type} {owned : Nat → Bool} {C : Ctx α β}

/-! ### What `join` makes -/

/-- where the joined span starts -/
def StartsAt (j : Option Span) (xs : List Span) (j' : Option Span) : Prop :=
  match j with
  | some x => ∃ y, j' = some y ∧ y.ptr = x.ptr
  | none => j'.map Span.ptr = (nonEmpty xs).head?.map Span.ptr

theorem StartsAt.append {j j1 j2 : Option Span} {xs ys : List Span} (h1 : StartsAt j xs j1)
    (h2 : StartsAt j1 ys j2) : StartsAt j (xs ++ ys) j2 := by
  cases j with
  | some x =>
    obtain ⟨y, rfl, hy⟩ := h1
    obtain ⟨z, rfl, hz⟩ := h2
    exact ⟨z, rfl, hz.trans hy⟩
  | none =>
    simp only [StartsAt] at h1 ⊢
    have e : nonEmpty (xs ++ ys) = nonEmpty xs ++ nonEmpty ys := by simp [nonEmpty]
    rw [e]
    cases hx : nonEmpty xs with
    | nil =>
      rw [hx] at h1
      cases j1 with
      | none => simpa [StartsAt] using h2
      | some y => simp at h1
    | cons x xs' =>
      rw [hx] at h1
      cases j1 with
      | none => simp at h1
      | some y =>
        obtain ⟨z, rfl, hz⟩ := h2
        simpa [hz] using h1

theorem StartsAt.nil (j : Option Span) : StartsAt j [] j := by
  cases j with
  | none => simp [StartsAt, nonEmpty]
  | some x => exact ⟨x, rfl, rfl⟩

theorem tryJoinSpan_starts (j : Option Span) (s : Span) {l b j'}
    (h : tryJoinSpan C j s = .done l (.ok (b, j'))) : (b = true → StartsAt j [s] j') ∧ (b = false → j' = none) := by
  simp only [tryJoinSpan, Span.empty, beq_iff_eq] at h
  split at h
  · next he =>
    simp only [M.pure_eq_ok, Prod.mk.injEq] at h
    obtain ⟨-, rfl, rfl⟩ := h
    refine ⟨fun _ => ?_, nofun⟩
    cases j' with
    | none => simp [StartsAt, nonEmpty, he]
    | some x => exact ⟨x, rfl, rfl⟩
  · next he =>
    cases j with
    | none =>
      simp only [M.pure_eq_ok, Prod.mk.injEq] at h
      obtain ⟨-, rfl, rfl⟩ := h
      refine ⟨fun _ => ?_, nofun⟩
      simp [StartsAt, nonEmpty, he]
    | some x =>
      simp only [M.bind_eq, M.bind_eq_ok] at h
      obtain ⟨l1, l2, a, -, h, -⟩ := h
      split at h <;> simp only [M.pure_eq_ok, Prod.mk.injEq] at h <;> obtain ⟨-, rfl, rfl⟩ := h
      · exact ⟨fun _ => ⟨_, rfl, rfl⟩, nofun⟩
      · exact ⟨nofun, fun _ => rfl⟩

mutual
theorem tryJoin_starts (j : Option Span) : ∀ (v : Val) {l b j'}, tryJoin C j v = .done l (.ok (b, j')) →
    (b = true → StartsAt j (joinLeaves C v) j') ∧ (b = false → j' = none)
  | .span s, l, b, j', h => by
    simp only [tryJoin, joinLeaves] at h ⊢; exact tryJoinSpan_starts j s h
  | .vec vs, l, b, j', h | .arr vs, l, b, j', h | .tup vs, l, b, j', h => by
    simp only [tryJoin, joinLeaves] at h ⊢; exact tryJoins_starts j vs h
  | .opt none, l, b, j', h => by
    simp only [tryJoin, joinLeaves, M.pure_eq_ok, Prod.mk.injEq] at h ⊢
    obtain ⟨-, rfl, rfl⟩ := h
    exact ⟨fun _ => .nil _, nofun⟩
  | .opt (some v), l, b, j', h => by
    simp only [tryJoin, joinLeaves] at h ⊢; exact tryJoin_starts j v h
  | .user k t vs, l, b, j', h => by
    simp only [tryJoin, joinLeaves] at h ⊢
    cases hk : C.userSpan k with
    | none => rw [hk] at h; cases h
    | some f => rw [hk] at h; exact tryJoinSpan_starts j _ h
  | .unit, l, b, j', h => by simp only [tryJoin] at h; cases h
  | .var .., l, b, j', h => by simp only [tryJoin] at h; cases h
  | .pair .., l, b, j', h => by simp only [tryJoin] at h; cases h
theorem tryJoins_starts (j : Option Span) : ∀ (vs : List Val) {l b j'}, tryJoins C j vs = .done l (.ok (b, j')) →
    (b = true → StartsAt j (joinLeavesList C vs) j') ∧ (b = false → j' = none)
  | [], l, b, j', h => by
    simp only [tryJoins, joinLeavesList, M.pure_eq_ok, Prod.mk.injEq] at h ⊢
    obtain ⟨-, rfl, rfl⟩ := h
    exact ⟨fun _ => .nil _, nofun⟩
  | v :: vs, l, b, j', h => by
    simp only [tryJoins, joinLeavesList, M.bind_eq, M.bind_eq_ok] at h ⊢
    obtain ⟨l1, l2, ⟨b1, j1⟩, h1, h2, -⟩ := h
    obtain ⟨h3, h4⟩ := tryJoin_starts j v h1
    cases b1 with
    | true =>
      obtain ⟨h5, h6⟩ := tryJoins_starts j1 vs h2
      exact ⟨fun hb => (h3 rfl).append (h5 hb), h6⟩
    | false =>
      simp only [Bool.false_eq_true, if_false, M.pure_eq_ok, Prod.mk.injEq] at h2
      obtain ⟨-, rfl, rfl⟩ := h2
      exact ⟨nofun, fun _ => h4 rfl⟩
end

/-- the joined span is at the first non-empty span joined, or where the rest begins if there is
none -/
theorem joinExecutor_starts {v : Val} {s' j : Span} {l} (h : joinExecutor C ⟨some v, s'⟩ = .done l (.ok (some j))) :
    match (nonEmpty (joinLeaves C v)).head? with
    | some t => j.ptr = t.ptr ∧ j.len ≠ 0
    | none => j = ⟨s'.ptr, 0⟩ := by
  simp only [joinExecutor, R.deref, M.bind_eq, M.pure_bind, M.bind_eq_ok] at h
  obtain ⟨l1, l2, ⟨b, j1⟩, h1, h2, -⟩ := h
  obtain ⟨h3, h4⟩ := tryJoin_starts none v h1
  have hlen := tryJoin_len C none nofun v h1
  cases b with
  | false =>
    rw [h4 rfl] at h2
    simp [M.pure_eq_ok] at h2
  | true =>
    have h3 := h3 rfl
    simp only [StartsAt] at h3
    cases j1 with
    | none =>
      simp only [Option.isNone_none, Bool.and_self, if_true, M.pure_eq_ok, Option.some.injEq] at h2
      obtain ⟨-, rfl⟩ := h2
      cases hh : (nonEmpty (joinLeaves C v)).head? with
      | none => rfl
      | some t => rw [hh] at h3; simp at h3
    | some y =>
      simp only [Option.isNone_some, Bool.and_false, Bool.false_eq_true, if_false, M.pure_eq_ok, Option.some.injEq] at h2
      obtain ⟨-, rfl⟩ := h2
      cases hh : (nonEmpty (joinLeaves C v)).head? with
      | none => rw [hh] at h3; simp at h3
      | some t => rw [hh] at h3; simp at h3; exact ⟨h3, hlen _ rfl⟩

/-! ### The invariant as a simulation of the program by itself -/

/-- the same span, and not one into an object -/
abbrev OutS (owned : Nat → Bool) (s s' : Span) : Prop := s = s' ∧ ¬ s.IntoObject owned
/-- the same value, with no such span in it -/
abbrev OutV (owned : Nat → Bool) (v w : Val) : Prop := v = w ∧ v.Outside owned

theorem outside_list {vs : List Val} : (∀ t ∈ spansList vs, ¬ t.IntoObject owned) ↔ ∀ v ∈ vs, v.Outside owned := by
  induction vs with
  | nil => simp [spansList]
  | cons v vs ih =>
    rw [List.forall_mem_cons, ← ih]
    simp only [spansList, List.mem_append, Val.Outside]
    exact ⟨fun h => ⟨fun t ht => h t (.inl ht), fun t ht => h t (.inr ht)⟩,
      fun h t ht => ht.elim (h.1 t) (h.2 t)⟩

mutual
theorem like_outside : ∀ v w : Val, Like (OutS owned) (OutV owned) v w ↔ v = w ∧ v.Outside owned
  | .unit, w => by simp [Like, Val.Outside, Val.spans, eq_comm]
  | .span s, w => by
    simp only [Like, Val.Outside, Val.spans, List.mem_singleton, forall_eq]
    constructor
    · rintro ⟨_, rfl, rfl, h⟩; exact ⟨rfl, h⟩
    · rintro ⟨rfl, h⟩; exact ⟨_, rfl, rfl, h⟩
  | .vec vs, w | .arr vs, w | .tup vs, w => by
    simp only [Like, Val.Outside, Val.spans, likes_outside vs, outside_list]
    constructor
    · rintro ⟨_, rfl, rfl, h⟩; exact ⟨rfl, h⟩
    · rintro ⟨rfl, h⟩; exact ⟨_, rfl, rfl, h⟩
  | .opt none, w => by simp [Like, Val.Outside, Val.spans, eq_comm]
  | .opt (some v), w => by
    simp only [Like, like_outside v]
    constructor
    · rintro ⟨_, rfl, rfl, h⟩; exact ⟨rfl, h⟩
    · rintro ⟨rfl, h⟩; exact ⟨_, rfl, rfl, h⟩
  | .var i v, w => by
    simp only [Like, like_outside v]
    constructor
    · rintro ⟨_, rfl, rfl, h⟩; exact ⟨rfl, h⟩
    · rintro ⟨rfl, h⟩; exact ⟨_, rfl, rfl, h⟩
  | .pair a b, w => by
    simp only [Like, like_outside a, like_outside b]
    have e : (Val.pair a b).Outside owned ↔ a.Outside owned ∧ b.Outside owned := by
      simp only [Val.Outside, Val.spans, List.mem_append]
      exact ⟨fun h => ⟨fun t ht => h t (.inl ht), fun t ht => h t (.inr ht)⟩,
        fun h t ht => ht.elim (h.1 t) (h.2 t)⟩
    rw [e]
    constructor
    · rintro ⟨_, _, rfl, ⟨rfl, h⟩, rfl, h'⟩; exact ⟨rfl, h, h'⟩
    · rintro ⟨rfl, h, h'⟩; exact ⟨_, _, rfl, ⟨rfl, h⟩, rfl, h'⟩
  | .user k t vs, w => by
    simp only [Like]
    constructor
    · rintro ⟨_, _, rfl, h, h'⟩; exact ⟨h, h'⟩
    · rintro ⟨rfl, h⟩; exact ⟨_, _, rfl, rfl, h⟩
theorem likes_outside : ∀ vs ws : List Val,
    Likes (OutS owned) (OutV owned) vs ws ↔ vs = ws ∧ ∀ v ∈ vs, v.Outside owned
  | [], ws => by simp [Likes, eq_comm]
  | v :: vs, ws => by
    simp only [Likes, like_outside v, likes_outside vs, List.forall_mem_cons]
    constructor
    · rintro ⟨_, _, rfl, ⟨rfl, h⟩, rfl, h'⟩; exact ⟨rfl, h, h'⟩
    · rintro ⟨rfl, h, h'⟩; exact ⟨_, _, rfl, ⟨rfl, h⟩, rfl, h'⟩
end

theorem likeR_outside {r r' : R} : LikeR (OutS owned) (OutV owned) r r' ↔
    r = r' ∧ (∀ v, r.val = some v → v.Outside owned) ∧ ¬ r.rem.IntoObject owned := by
  obtain ⟨v, s⟩ := r
  obtain ⟨v', s'⟩ := r'
  constructor
  · rintro ⟨hv, rfl, hs⟩
    refine ⟨?_, ?_, hs⟩
    · cases v <;> cases v'
      · rfl
      · exact hv.elim
      · exact hv.elim
      · obtain ⟨rfl, -⟩ := (like_outside _ _).1 hv; rfl
    · intro w hw
      cases hw
      cases v' with
      | none => exact hv.elim
      | some v' => exact ((like_outside _ _).1 hv).2
  · rintro ⟨he, h1, h2⟩
    cases he
    refine ⟨?_, rfl, h2⟩
    cases v with
    | none => trivial
    | some v => exact (like_outside _ _).2 ⟨rfl, h1 v rfl⟩

/-- the program without the conversions to spans, which only `join` uses -/
abbrev Ctx.noSpans (C : Ctx α β) : Ctx α β := { C with userSpan := fun _ => none }

set_option smartUnfolding false in
theorem step_noSpans (rec : Parser α → Sub) (n : Nat) {p : Parser α} (hj : ∀ r, p ≠ .join r) :
    step C.noSpans rec n p = step C rec n p := by
  cases p with
  | join r => exact absurd rfl (hj r)
  | _ => with_unfolding_all rfl

set_option smartUnfolding false in
theorem invoke_noSpans : ∀ (f : Fn) (args : List Val), invoke C.noSpans f args = invoke C f args := by
  with_unfolding_all exact fun _ _ => rfl

theorem child_noSpans {p q : Parser α} (h : ParseChild C.noSpans p q) : ParseChild C p q := by
  cases h with
  | choice h => exact .choice h
  | sequence h => exact .sequence h
  | maybe => exact .maybe
  | exactly => exact .exactly
  | oneOrMore => exact .oneOrMore
  | zeroOrMore => exact .zeroOrMore
  | delimit => exact .delimit
  | delimiter => exact .delimiter
  | complete => exact .complete
  | join => exact .join
  | map => exact .map
  | filter => exact .filter
  | named => exact .named
  | custom => exact .custom

theorem reach_noSpans {p q : Parser α} (h : ParseReach C.noSpans p q) : ParseReach C p q := by
  induction h with
  | refl => exact .refl
  | step hc _ ih => exact .step (child_noSpans hc) ih

theorem below_called {Q : Val → Val → Prop} {c : Call} {r : Res Val} (hc : ∀ a ∈ c.args, a.Outside owned)
    (hr : ∀ log v, (.done [c] r : Run Val) = .done log (.ok v) → Q v v) :
    Below (OutS owned) (OutV owned) Q (.done [c] r : Run Val) (.done [c] r) := by
  have hl : LikeLog (OutS owned) (OutV owned) [c] [c] := .cons ⟨rfl, (likes_outside _ _).2 ⟨rfl, hc⟩⟩ .nil
  cases r with
  | ok v => exact ⟨hl, hr _ _ rfl⟩
  | err e => exact ⟨hl, rfl⟩

/-- the arguments of the calls contain no such spans, and the result is related to itself -/
theorem invoke_outside {Q : Val → Val → Prop} : ∀ (f : Fn) (args : List Val), (∀ a ∈ args, a.Outside owned) →
    (∀ log v, invoke C f args = .done log (.ok v) → Q v v) →
    Below (OutS owned) (OutV owned) Q (invoke C f args) (invoke C f args)
  | .apply f, args, ha, hr => by
    unfold invoke at hr ⊢
    split
    · next v =>
      split
      · next vs hv =>
        simp only [hv] at hr
        refine invoke_outside f vs (fun a h => ?_) hr
        have hv' : v.Outside owned := ha v (by simp)
        cases v <;> simp only [componentsOf, Option.some.injEq, reduceCtorEq] at hv
        · subst hv; exact outside_list.1 hv' a h
        · subst hv; exact outside_list.1 hv' a h
        · subst hv
          simp only [List.mem_cons, List.not_mem_nil, or_false] at h
          rcases h with rfl | rfl
          · exact fun t ht => hv' t (by simp [Val.spans, ht])
          · exact fun t ht => hv' t (by simp [Val.spans, ht])
      · exact .fail _
    · exact .fail _
  | .user k, args, ha, hr => by
    unfold invoke at hr ⊢
    cases hk : C.fnCall k args with
    | ok v => rw [hk] at hr; exact below_called ha hr
    | error e => rw [hk] at hr; exact below_called ha hr
  | .construct t, args, ha, hr => by
    unfold invoke at hr ⊢
    cases hk : C.ctor t args with
    | ok v => rw [hk] at hr; exact below_called ha hr
    | error e => rw [hk] at hr; exact below_called ha hr
  | .const k, args, ha, hr => by
    unfold invoke at hr ⊢
    exact below_called ha hr
  | .deflt t, args, ha, hr => by
    unfold invoke at hr ⊢
    cases hk : defaultVal C t with
    | some v => rw [hk] at hr; exact below_called ha hr
    | none => rw [hk] at hr; exact below_called ha hr

theorem noSpans_simulates {p : Parser α} (h : KeepsNone owned C p) :
    Simulates (OutS owned) (OutV owned) C.noSpans C.noSpans where
  eqv := rfl
  fnRet := rfl
  constTy := rfl
  ctorOk := rfl
  dflt k := by
    show OptRel _ (C.userDefault k) (C.userDefault k)
    cases hc : C.userDefault k with
    | none => trivial
    | some v => exact (like_outside _ _).2 ⟨rfl, h.dflt k v hc⟩
  conv a b := by
    show OptRel _ (C.conv a b) (C.conv a b)
    cases hc : C.conv a b with
    | none => trivial
    | some f =>
      intro v w hv
      obtain ⟨rfl, hv'⟩ := (like_outside _ _).1 hv
      exact (like_outside _ _).2 ⟨rfl, h.conv a b f v hc hv'⟩
  convOpt a b := by
    show OptRel _ (C.convOpt a b) (C.convOpt a b)
    cases hc : C.convOpt a b with
    | none => trivial
    | some f =>
      intro v w hv
      refine (like_outside _ _).2 ?_
      cases v <;> cases w
      · exact ⟨rfl, h.convOpt a b f _ hc (by simp [Val.Outside, Val.spans])⟩
      · exact hv.elim
      · exact hv.elim
      · obtain ⟨rfl, hv'⟩ := (like_outside _ _).1 hv
        exact ⟨rfl, h.convOpt a b f _ hc hv'⟩
  toSpan k := trivial
  customTy _ := rfl
  body _ := rfl
  null := ⟨rfl, by rintro ⟨b, o, h, -⟩; cases h⟩
  len := by rintro s s' ⟨rfl, -⟩; rfl
  read := by rintro s s' ⟨rfl, -⟩ i -; rfl
  add := by
    rintro s s' ⟨rfl, hs⟩ n -
    obtain ⟨ptr, len⟩ := s
    cases ptr with
    | null =>
      exact .ite .rfl (fun _ => .pure ⟨rfl, by rintro ⟨b, o, h, -⟩; cases h⟩) fun _ => .fail _
    | «at» b o =>
      refine .ite .rfl (fun _ => .pure ⟨rfl, ?_⟩) fun _ => .fail _
      rintro ⟨b', o', h, hb⟩
      cases h
      exact hs ⟨_, _, rfl, hb⟩
  take := by rintro s s' ⟨rfl, hs⟩ n -; exact ⟨rfl, fun ⟨b, o, h, hb⟩ => hs ⟨b, o, h, hb⟩⟩
  adj := by
    rintro j j' o o' ⟨rfl, hj⟩ ⟨rfl, -⟩ - -
    have hl := adjacent_logs C.noSpans j o
    cases he : adjacent C.noSpans j o with
    | diverge => exact .diverge
    | done l r =>
      obtain rfl : l = [] := List.length_eq_zero_iff.1 (Nat.le_zero.1 (hl.on _ _ he).1)
      cases r with
      | ok b => exact ⟨.nil, rfl, fun _ => ⟨rfl, fun ⟨b, o, h, hb⟩ => hj ⟨b, o, h, hb⟩⟩⟩
      | err e => exact ⟨.nil, rfl⟩

theorem noSpans_calls {p : Parser α} (h : KeepsNone owned C p) :
    CallsAlike (OutS owned) (OutV owned) C.noSpans C.noSpans p := by
  constructor
  · intro q f hq args args' ha
    obtain ⟨rfl, ha'⟩ := (likes_outside _ _).1 ha
    rw [invoke_noSpans]
    exact invoke_outside f args ha' fun log v hv =>
      (like_outside _ _).2 ⟨rfl, h.maps q f (reach_noSpans hq) args log v ha' hv⟩
  · intro q f hq args args' ha
    obtain ⟨rfl, ha'⟩ := (likes_outside _ _).1 ha
    rw [invoke_noSpans]
    exact invoke_outside f args ha' fun _ _ _ => rfl

theorem KeepsNone.child {p q : Parser α} (h : KeepsNone owned C p) (hc : ParseChild C p q) :
    KeepsNone owned C q :=
  ⟨fun r f hr => h.maps r f (.step hc hr), h.conv, h.convOpt, h.dflt⟩

theorem JoinsViews.child {p q : Parser α} (h : JoinsViews owned C p) (hc : ParseChild C p q) :
    JoinsViews owned C q := fun r hr => h r (.step hc hr)

/-! ### Joins -/

theorem parseJoin_outside {r : Parser α} {P P' : Sub} (hle : ∀ s, (P.parse s).le (Parse C r s))
    (hb : BelowP (OutS owned) (OutV owned) P P') (hj : JoinsViews owned C (.join r)) {s s' : Span}
    (hs : OutS owned s s') :
    Below (OutS owned) (OutV owned) (LikeR (OutS owned) (OutV owned)) (parseJoin C P s) (parseJoin C P' s') := by
  obtain ⟨rfl, hs'⟩ := hs
  have hb1 := hb s s ⟨rfl, hs'⟩
  cases hp : P.parse s with
  | diverge =>
    have : parseJoin C P s = .diverge := by simp only [parseJoin, M.bind_eq, hp]; rfl
    rw [this]; exact .diverge
  | done l rr =>
    have hpr := (hle s).done hp
    simp only [parseJoin, M.bind_eq]
    rw [hp] at hb1 ⊢
    cases hp' : P'.parse s with
    | diverge => rw [hp'] at hb1; cases rr <;> exact hb1.elim
    | done l' rr' =>
      rw [hp'] at hb1
      cases rr with
      | err e =>
        cases rr' with
        | ok x => exact hb1.elim
        | err e' => exact hb1
      | ok x =>
        cases rr' with
        | err e' => exact hb1.elim
        | ok x' =>
          obtain ⟨rfl, hv, hr⟩ := likeR_outside.1 hb1.2
          refine .after hb1.1 ?_
          obtain ⟨v, t⟩ := x
          cases v with
          | none => exact .pure (likeR_outside.2 ⟨rfl, nofun, hs'⟩)
          | some v =>
            show Below _ _ _ (M.bind (joinExecutor C ⟨some v, t⟩) _) (M.bind (joinExecutor C ⟨some v, t⟩) _)
            have hl := joinExecutor_logs C ⟨some v, t⟩
            cases he : joinExecutor C ⟨some v, t⟩ with
            | diverge => exact .diverge
            | done l2 r2 =>
              obtain rfl : l2 = [] := List.length_eq_zero_iff.1 (Nat.le_zero.1 (hl.on _ _ he).1)
              cases r2 with
              | err e => exact ⟨.nil, rfl⟩
              | ok j =>
                refine .after .nil ?_
                cases j with
                | none => exact .pure (likeR_outside.2 ⟨rfl, nofun, hs'⟩)
                | some j =>
                  refine .pure (likeR_outside.2 ⟨rfl, ?_, hr⟩)
                  intro w hw
                  cases hw
                  have hst := joinExecutor_starts he
                  have hleaf := hj r .refl s l v t hpr (hv v rfl)
                  simp only [Val.Outside, Val.spans, List.mem_singleton, forall_eq]
                  rintro ⟨b, o, h, hb⟩
                  cases hh : (nonEmpty (joinLeaves C v)).head? with
                  | none =>
                    rw [hh] at hst
                    simp only at hst
                    subst hst
                    exact hr ⟨b, o, h, hb⟩
                  | some x =>
                    rw [hh] at hst
                    have hx : x ∈ nonEmpty (joinLeaves C v) := List.mem_of_mem_head? hh
                    exact hleaf x (List.mem_of_mem_filter hx) ⟨b, o, hst.1 ▸ h, hb⟩

/-- what a specialised `join` is made of uses no conversions to spans -/
theorem sem_joinSpec (n : Nat) {p : Parser α} (hp : JoinSpec C p) : sem C.noSpans n p = sem C n p := by
  have basic : ∀ (n : Nat) (p : Parser α) b, asBasic C p = some b → sem C.noSpans n p = sem C n p := by
    intro n p b hb
    cases n with
    | zero => rfl
    | succ n =>
      show step _ _ _ _ = step _ _ _ _
      rw [step_noSpans _ _ (by rintro r rfl; simp [asBasic] at hb)]
      cases p <;> first | rfl | simp [asBasic] at hb
  cases n with
  | zero => rfl
  | succ n =>
    show step _ _ _ _ = step _ _ _ _
    rw [step_noSpans _ _ (by rintro r rfl; cases hp)]
    cases hp with
    | exactly h | maybe h | oneOrMore h | zeroOrMore h => simp only [step, basic n _ _ h]

theorem den_joinSpec {p : Parser α} (hp : JoinSpec C p) : den C.noSpans p = den C p := by
  have h1 : ∀ s, Parse C.noSpans p s = Parse C p s := fun s => by
    refine Lim.unique (m := fun n => (sem C n p).parse s) ?_ ((sem_lim p).parse s)
    have := (sem_lim (C := C.noSpans) p).parse s
    simp only [sem_joinSpec _ hp] at this
    exact this
  have h2 : ∀ s, Look C.noSpans p s = Look C p s := fun s => by
    refine Lim.unique (m := fun n => (sem C n p).look s) ?_ ((sem_lim p).look s)
    have := (sem_lim (C := C.noSpans) p).look s
    simp only [sem_joinSpec _ hp] at this
    exact this
  show Sub.mk _ _ = Sub.mk _ _
  congr 1
  · exact funext h1
  · exact funext h2

theorem joinSpec_noSpans {p : Parser α} (hp : JoinSpec C p) : JoinSpec C.noSpans p := by
  have e : ∀ q : Parser α, asBasic C.noSpans q = asBasic C q := fun q => by cases q <;> rfl
  cases hp with
  | exactly h => exact .exactly ((e _).trans h)
  | maybe h => exact .maybe ((e _).trans h)
  | oneOrMore h => exact .oneOrMore ((e _).trans h)
  | zeroOrMore h => exact .zeroOrMore ((e _).trans h)

/-! ### The induction -/

theorem den_unnamed {p q : Parser α} (h : p.unnamed = q.unnamed) : den C p = den C q := by
  have h1 := C33_names C.custom (fun _ => rfl) (fun _ => rfl) q p h.symm (C := C)
  show Sub.mk _ _ = Sub.mk _ _
  congr 1
  · exact funext h1.1
  · exact funext h1.2.1

theorem sem_outside (h : Simulates (OutS owned) (OutV owned) C.noSpans C.noSpans) (n : Nat) : ∀ p : Parser α,
    BelowL (OutS owned) (OutV owned) (sem C n p) (den C p) ∧
    (CallsAlike (OutS owned) (OutV owned) C.noSpans C.noSpans p → JoinsViews owned C p →
      BelowP (OutS owned) (OutV owned) (sem C n p) (den C p)) := by
  induction n with
  | zero => exact fun p => ⟨fun _ _ _ => .diverge, fun _ _ _ _ _ => .diverge⟩
  | succ n ih =>
    intro p
    by_cases hn : ∃ r m, p = .named r m
    · obtain ⟨r, m, rfl⟩ := hn
      rw [den_unnamed (show (Parser.named r m).unnamed = r.unnamed by rw [Parser.unnamed])]
      exact ⟨(ih r).1, fun hc hj => (ih r).2 (hc.child .named) (hj.child .named)⟩
    have h1 : ∀ r m, p ≠ .named r m := fun r m he => hn ⟨r, m, he⟩
    by_cases hj : ∃ r, p = .join r
    · obtain ⟨r, rfl⟩ := hj
      by_cases hs : JoinSpec C r
      · obtain ⟨b1, b2⟩ := joinSpec_below h (joinSpec_noSpans hs) (p := r) (q := r) rfl
        rw [den_joinSpec hs] at b1 b2
        refine ⟨fun s s' hs => ?_, fun _ hj s s' hs => ?_⟩
        · show Below _ _ _ _ (Look C (.join r) s')
          rw [Look_join_eq]
          refine .ge (b1 s s' hs) ?_
          have := (sem_le_den (C := C) (n + 1) (.join r) s).2
          rwa [show (den C (.join r)).look s = Look C r s from Look_join_eq r s] at this
        · show Below _ _ _ _ (Parse C (.join r) s')
          rw [Parse_join_eq]
          refine .ge (parseJoin_outside (r := r) (fun s => M.le_refl _) b2 hj hs) ?_
          have := (sem_le_den (C := C) (n + 1) (.join r) s).1
          rwa [show (den C (.join r)).parse s = _ from Parse_join_eq r s] at this
      · have hg : sem C (n + 1) (.join r) = joinGeneric C (sem C n r) := semJoin_generic r hs
        rw [hg]
        refine ⟨fun s s' hs => ?_, fun hc hj s s' hs => ?_⟩
        · show Below _ _ _ _ (Look C (.join r) s')
          rw [Look_join_eq]
          exact (ih r).1 s s' hs
        · show Below _ _ _ _ (Parse C (.join r) s')
          rw [Parse_join_eq]
          exact parseJoin_outside (fun s => (sem_le_den n r s).1)
            ((ih r).2 (hc.child .join) (hj.child .join)) hj hs
    have h2 : ∀ r, p ≠ .join r := fun r he => hj ⟨r, he⟩
    have e1 : sem C (n + 1) p = step C.noSpans (sem C n) n p := (step_noSpans _ _ h2).symm
    have e2 : (step C.noSpans (den C) n p).le (den C p) := by
      rw [step_noSpans _ _ h2]; exact step_le_den n p
    have hL : ∀ p', LookChild C.noSpans p p' → ∀ q' : Parser α, p'.unnamed = q'.unnamed →
        BelowL (OutS owned) (OutV owned) (sem C n p') (den C q') :=
      fun p' _ q' hq => den_unnamed hq ▸ (ih p').1
    rw [e1]
    refine ⟨(step_belowL h n h1 h1 h2 rfl hL).le e2, fun hc hj => ?_⟩
    exact (step_belowP h n h1 h1 h2 rfl hc hL fun p' hp q' hq =>
      den_unnamed hq ▸ (ih p').2 (hc.child hp) (hj.child (child_noSpans hp))).le e2

/-- No span into an object of the user leaves `parse` or reaches a callback. -/
theorem Parse_outside {p : Parser α} (hk : KeepsNone owned C p) (hj : JoinsViews owned C p) {s : Span}
    (hs : ¬ s.IntoObject owned) :
    Below (OutS owned) (OutV owned) (LikeR (OutS owned) (OutV owned)) (Parse C p s) (Parse C p s) :=
  .lim ((sem_lim p).parse s) fun n =>
    (sem_outside (noSpans_simulates hk) n p).2 (noSpans_calls hk) hj s s ⟨rfl, hs⟩

end Tok3n
