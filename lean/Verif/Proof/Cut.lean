import Verif.Spec.Cut
import Verif.Proof.Order
import Verif.Props.Peg
/-
PEG expressions on a text of which the end is cut off (C78).
-/

namespace Tok3n

variable {α β : Type}

/-- What `a` says of the outcome `o` on `xs` and the outcome `o'` on the first `n` elements of `xs`. -/
structure Cuts (a : AtCut β) (xs : List β) (n : Nat) (o o' : Option Nat) : Prop where
  steady : a.steady → ∀ k, o = some k → k ≤ n → o' = some k
  hopeless : a.hopeless → o = none → o' = none
  ready : a.ready → ∀ k, o = some k → n < k → n ≠ 0 → o' ≠ none
  short : ∀ k m, o = some k → n < k → o' = some m → m < n → ∃ x, xs[m]? = some x ∧ a.short x

/-- weaker knowledge -/
theorem Cuts.imp {a b : AtCut β} {xs : List β} {n : Nat} {o o' : Option Nat} (h : Cuts a xs n o o')
    (h1 : b.steady → a.steady) (h2 : b.hopeless → a.hopeless) (h3 : b.ready → a.ready)
    (h4 : ∀ x, a.short x → b.short x) : Cuts b xs n o o' :=
  ⟨fun hb => h.steady (h1 hb), fun hb => h.hopeless (h2 hb), fun hb => h.ready (h3 hb),
    fun k m e hk e' hm => let ⟨x, ex, hx⟩ := h.short k m e hk e' hm; ⟨x, ex, h4 x hx⟩⟩

theorem take_drop_ge (xs : List β) {n k : Nat} (h : k ≤ n) : (xs.take n).drop k = (xs.drop k).take (n - k) :=
  List.drop_take

theorem take_drop_self (xs : List β) (n k : Nat) : (xs.take n).drop n = (xs.drop k).take 0 := by simp

section
variable {eqv : α → β → Bool} {body : Nat → Parser α}

/-- a parser that is `certain` does not fail -/
theorem Peg.certain {p : Parser α} {xs : List β} {o : Option Nat} (h : Peg eqv body p xs o) :
    p.certain = true → o ≠ none := by
  induction h with
  | @miss p xs hb hm =>
    intro hc
    cases p with
    | allOf arr =>
      rw [Parser.certain, List.isEmpty_iff] at hc
      subst hc
      exact (hm 0 ⟨rfl, [], xs, rfl, .nil⟩).elim
    | _ => first | exact hb.elim | cases hc
  | choiceNil => exact fun hc => nomatch hc
  | @choiceMiss p ps xs o _ _ ih ih' =>
    intro hc
    simp only [Parser.certain, someCertain, Bool.or_eq_true] at hc
    exact hc.elim (fun h => (ih h rfl).elim) fun h => ih' h
  | @sequenceMore p ps xs k o _ _ ih ih' =>
    intro hc
    simp only [Parser.certain, allCertain, Bool.and_eq_true] at hc
    have := ih' hc.2
    cases o <;> simp_all
  | @sequenceMiss p ps xs _ ih =>
    intro hc
    simp only [Parser.certain, allCertain, Bool.and_eq_true] at hc
    exact (ih hc.1 rfl).elim
  | @exactlyMore p n xs k o _ _ ih ih' =>
    intro hc
    have := ih' (by simp_all [Parser.certain])
    cases o <;> simp_all
  | @exactlyMiss p n xs _ ih =>
    intro hc
    simp only [Parser.certain, Bool.or_eq_true, beq_iff_eq, Nat.add_eq_zero_iff, Nat.one_ne_zero, and_false, false_or] at hc
    exact (ih hc rfl).elim
  | oneMiss _ ih => exact fun hc => (ih hc rfl).elim
  | delimitMiss _ ih => exact fun hc => (ih hc rfl).elim
  | completeShort => exact fun hc => nomatch hc
  | completeMiss => exact fun hc => nomatch hc
  | ignore _ ih => exact ih
  | join _ ih => exact ih
  | map _ ih => exact ih
  | filter _ ih => exact ih
  | named _ ih => exact ih
  | custom => exact fun hc => nomatch hc
  | _ => exact fun _ => nofun

/-- a repetition does not end where something empty matches -/
theorem Peg.star_progress {p : Parser α} {xs : List β} {o : Option Nat} (h : Peg eqv body (.zeroOrMore p) xs o) :
    ¬ Peg eqv body p xs (some 0) := by
  generalize hq : Parser.zeroOrMore p = q at h
  induction h with
  | zeroStop h => cases hq; exact fun h' => nomatch C45_deterministic _ _ _ _ _ _ h h'
  | @zeroMore p' xs k j h _ _ ih =>
    cases hq
    intro h'
    cases C45_deterministic _ _ _ _ _ _ h h'
    exact ih rfl h'
  | hit hb => subst hq; exact hb.elim
  | miss hb => subst hq; exact hb.elim
  | _ => cases hq

/-! how an outcome of a compound comes about -/

theorem seq_inv {p : Parser α} {ps : List (Parser α)} {xs : List β} {out : Option Nat}
    (h : Peg eqv body (.sequence (p :: ps)) xs out) :
    ∃ o, Peg eqv body p xs o ∧ ((o = none ∧ out = none) ∨
      ∃ k q, o = some k ∧ Peg eqv body (.sequence ps) (xs.drop k) q ∧ out = q.map (k + ·)) := by
  cases h with
  | hit hb => exact hb.elim
  | miss hb => exact hb.elim
  | sequenceMore h h' => exact ⟨_, h, .inr ⟨_, _, rfl, h', rfl⟩⟩
  | sequenceMiss h => exact ⟨_, h, .inl ⟨rfl, rfl⟩⟩

theorem exactly_inv {p : Parser α} {n : Nat} {xs : List β} {out : Option Nat}
    (h : Peg eqv body (.exactly p (n + 1)) xs out) :
    ∃ o, Peg eqv body p xs o ∧ ((o = none ∧ out = none) ∨
      ∃ k q, o = some k ∧ Peg eqv body (.exactly p n) (xs.drop k) q ∧ out = q.map (k + ·)) := by
  cases h with
  | hit hb => exact hb.elim
  | miss hb => exact hb.elim
  | exactlyMore h h' => exact ⟨_, h, .inr ⟨_, _, rfl, h', rfl⟩⟩
  | exactlyMiss h => exact ⟨_, h, .inl ⟨rfl, rfl⟩⟩

theorem one_inv {p : Parser α} {xs : List β} {out : Option Nat} (h : Peg eqv body (.oneOrMore p) xs out) :
    ∃ o, Peg eqv body p xs o ∧ ((o = none ∧ out = none) ∨
      ∃ k q, o = some k ∧ Peg eqv body (.zeroOrMore p) (xs.drop k) q ∧ out = q.map (k + ·)) := by
  cases h with
  | hit hb => exact hb.elim
  | miss hb => exact hb.elim
  | oneMore h h' => exact ⟨_, h, .inr ⟨_, _, rfl, h', rfl⟩⟩
  | oneMiss h => exact ⟨_, h, .inl ⟨rfl, rfl⟩⟩

theorem delimit_inv {p d : Parser α} {xs : List β} {out : Option Nat} (h : Peg eqv body (.delimit p d) xs out) :
    ∃ o, Peg eqv body p xs o ∧ ((o = none ∧ out = none) ∨
      ∃ k q, o = some k ∧ Peg eqv body (.zeroOrMore (.sequence [d, p])) (xs.drop k) q ∧ out = q.map (k + ·)) := by
  cases h with
  | hit hb => exact hb.elim
  | miss hb => exact hb.elim
  | delimitMore h h' => exact ⟨_, h, .inr ⟨_, _, rfl, h', rfl⟩⟩
  | delimitMiss h => exact ⟨_, h, .inl ⟨rfl, rfl⟩⟩

theorem star_inv {p : Parser α} {xs : List β} {out : Option Nat} (h : Peg eqv body (.zeroOrMore p) xs out) :
    ∃ o, Peg eqv body p xs o ∧ ((o = none ∧ out = some 0) ∨
      ∃ k j, o = some k ∧ Peg eqv body (.zeroOrMore p) (xs.drop k) (some j) ∧ out = some (k + j)) := by
  cases h with
  | hit hb => exact hb.elim
  | miss hb => exact hb.elim
  | zeroMore h h' => exact ⟨_, h, .inr ⟨_, _, rfl, h', rfl⟩⟩
  | zeroStop h => exact ⟨_, h, .inl ⟨rfl, rfl⟩⟩

/-- basic parsers look at what they match -/
theorem matches_take {p : Parser α} {xs : List β} {n k : Nat} : Matches eqv p (xs.take n) k ↔ Matches eqv p xs k ∧ k ≤ n := by
  have key : ∀ (Q : β → Prop), (k = 1 ∧ ∃ x rest, xs.take n = x :: rest ∧ Q x) ↔
      (k = 1 ∧ ∃ x rest, xs = x :: rest ∧ Q x) ∧ k ≤ n := by
    intro Q
    cases xs with
    | nil => simp
    | cons x xs =>
      cases n with
      | zero => simp; omega
      | succ n => simp; omega
  cases p with
  | anyOf arr => exact key _
  | noneOf arr => exact key _
  | anything => simpa [Matches] using key fun _ => True
  | allOf arr =>
    constructor
    · rintro ⟨rfl, front, rest, e, hf⟩
      have hl := hf.length_eq
      refine ⟨⟨rfl, front, rest ++ xs.drop n, ?_, hf⟩, ?_⟩
      · rw [← List.append_assoc, ← e, List.take_append_drop]
      · have := congrArg List.length e
        simp only [List.length_take, List.length_append] at this
        omega
    · rintro ⟨⟨rfl, front, rest, rfl, hf⟩, hn⟩
      have hl := hf.length_eq
      refine ⟨rfl, front, rest.take (n - front.length), ?_, hf⟩
      rw [List.take_append, List.take_of_length_le (by omega)]
  | _ => exact ⟨False.elim, fun h => h.1.elim⟩

theorem matches_unique {p : Parser α} {xs : List β} {k j : Nat} (h : Matches eqv p xs k) (h' : Matches eqv p xs j) : k = j := by
  cases p <;> first | exact h.1.trans h'.1.symm | exact h.elim
end

section
variable {C : Ctx α β} {null : Nat → Bool} {begin' : Nat → β → Bool} {cuts : Nat → AtCut β}
  (ht : CutTable C null begin' cuts)

include ht

theorem CutTable.nullable {p : Parser α} {xs : List β} (h : PegC C p xs (some 0)) : p.nullable null = true :=
  (peg_begins ht.toBeginTable h _ rfl).1 rfl

theorem CutTable.head {p : Parser α} {xs : List β} {k : Nat} {x : β} (h : PegC C p xs (some k)) (hk : 0 < k)
    (hx : xs[0]? = some x) : p.begins C.eqv null begin' x = true := by
  obtain ⟨y, rest, rfl, hb⟩ := (peg_begins ht.toBeginTable h _ rfl).2 hk
  cases hx
  exact hb

/-- one thing after another -/
theorem Cuts.andThen {a b : AtCut β} {p r : Parser α} {xs : List β} {n : Nat} {o o' out out' : Option Nat}
    (hp : PegC C p xs o) (hp' : PegC C p (xs.take n) o') (h1 : Cuts a xs n o o')
    (h2 : ∀ k q n' q', o = some k → PegC C r (xs.drop k) q → PegC C r ((xs.drop k).take n') q' →
      Cuts b (xs.drop k) n' q q')
    (ho : (o = none ∧ out = none) ∨ ∃ k q, o = some k ∧ PegC C r (xs.drop k) q ∧ out = q.map (k + ·))
    (ho' : (o' = none ∧ out' = none) ∨ ∃ k q, o' = some k ∧ PegC C r ((xs.take n).drop k) q ∧ out' = q.map (k + ·)) :
    Cuts (a.andThen b (r.nullable null) (fun x => r.begins C.eqv null begin' x) r.certain) xs n out out' := by
  -- what `r` does where `p` stops short
  have atShort : ∀ {m q x}, PegC C r ((xs.take n).drop m) q → m < n → xs[m]? = some x →
      q = none ∨ (q = some 0 ∧ r.nullable null = true) ∨ r.begins C.eqv null begin' x = true := by
    intro m q x hr hm hx
    cases q with
    | none => exact .inl rfl
    | some j =>
      cases j with
      | zero => exact .inr (.inl ⟨rfl, ht.nullable hr⟩)
      | succ j =>
        refine .inr (.inr (ht.head hr (by omega) ?_))
        rw [List.getElem?_drop, Nat.add_zero, List.getElem?_take, if_pos hm, hx]
  have hle' : ∀ k, o' = some k → k ≤ n := fun k e => by
    subst e
    have := hp'.le k rfl
    rw [List.length_take] at this
    omega
  constructor
  · rintro ⟨ha, hb⟩ k rfl hk
    rcases ho with ⟨-, h⟩ | ⟨k1, q, rfl, hr, e⟩
    · cases h
    cases q with
    | none => cases e
    | some j =>
      simp only [Option.map_some, Option.some.injEq] at e
      subst e
      have e1 := h1.steady ha _ rfl (by omega)
      subst e1
      rcases ho' with ⟨h, -⟩ | ⟨k1', q', e', hr', e2⟩
      · cases h
      cases e'
      rw [take_drop_ge _ (by omega)] at hr'
      have := (h2 _ _ _ _ rfl hr hr').steady hb j rfl (by omega)
      subst this
      exact e2
  · rintro ⟨ha, hb⟩ rfl
    rcases ho with ⟨rfl, -⟩ | ⟨k1, q, rfl, hr, e⟩
    · have := h1.hopeless ha rfl
      subst this
      rcases ho' with ⟨-, h⟩ | ⟨_, _, h, _⟩
      · exact h
      · cases h
    cases q with
    | some j => cases e
    | none =>
      rcases hb with hb | ⟨hs, hb, hx⟩
      · exact (hr.certain hb rfl).elim
      rcases ho' with ⟨-, h⟩ | ⟨k1', q', rfl, hr', rfl⟩
      · exact h
      by_cases hk : k1 ≤ n
      · cases h1.steady hs _ rfl hk
        rw [take_drop_ge _ hk] at hr'
        cases (h2 _ _ _ _ rfl hr hr').hopeless hb rfl
        rfl
      · have := hle' _ rfl
        rcases Nat.lt_or_ge k1' n with hlt | hge
        · obtain ⟨x, ex, sx⟩ := h1.short _ _ rfl (by omega) rfl hlt
          rcases atShort hr' hlt ex with rfl | ⟨-, h⟩ | h
          · rfl
          · rw [(hx x sx).1] at h; cases h
          · exact Bool.noConfusion (h.symm.trans (hx x sx).2)
        · have : k1' = n := by omega
          subst this
          rw [take_drop_self xs k1' k1] at hr'
          cases (h2 _ _ _ _ rfl hr hr').hopeless hb rfl
          rfl
  · rintro ⟨ha, hs, hc⟩ k rfl hn h0 rfl
    rcases ho with ⟨-, h⟩ | ⟨k1, q, rfl, hr, e⟩
    · cases h
    rcases ho' with ⟨rfl, -⟩ | ⟨k1', q', rfl, hr', e'⟩
    · by_cases hk : k1 ≤ n
      · cases h1.steady hs _ rfl hk
      · exact h1.ready ha _ rfl (by omega) h0 rfl
    · cases q' with
      | none => exact hr'.certain hc rfl
      | some j => cases e'
  · rintro k m rfl hn rfl hm
    rcases ho with ⟨-, h⟩ | ⟨k1, q, rfl, hr, e⟩
    · cases h
    rcases ho' with ⟨-, h⟩ | ⟨k1', q', rfl, hr', e'⟩
    · cases h
    cases q with
    | none => cases e
    | some j =>
    cases q' with
    | none => cases e'
    | some j' =>
    simp only [Option.map_some, Option.some.injEq] at e e'
    subst e e'
    by_cases hs : a.steady
    swap
    · have hl : k1' + j' < xs.length := by
        have := hp.le _ rfl
        have := hr.le _ rfl
        simp only [List.length_drop] at this
        omega
      exact ⟨_, List.getElem?_eq_getElem hl, .inr (.inr (.inl hs))⟩
    by_cases hk : k1 ≤ n
    · cases h1.steady hs _ rfl hk
      rw [take_drop_ge _ hk] at hr'
      obtain ⟨x, ex, sx⟩ := (h2 _ _ _ _ rfl hr hr').short _ _ rfl (by omega) rfl (by omega)
      rw [List.getElem?_drop] at ex
      exact ⟨x, ex, .inl sx⟩
    · have := hle' _ rfl
      obtain ⟨x, ex, sx⟩ := h1.short _ _ rfl (by omega) rfl (by omega)
      rcases atShort hr' (by omega) ex with h | ⟨h, hn⟩ | h
      · cases h
      · cases h
        exact ⟨x, ex, .inr (.inl ⟨hn, sx⟩)⟩
      · have hl : k1' + j' < xs.length := by
          have := hp.le _ rfl
          have := hr.le _ rfl
          simp only [List.length_drop] at this
          omega
        exact ⟨_, List.getElem?_eq_getElem hl, .inr (.inr (.inr ⟨x, sx, h⟩))⟩

theorem Cuts.orElse {a b : AtCut β} {p r : Parser α} {xs : List β} {n : Nat} {o o' q q' : Option Nat} {apart : Prop}
    (hp : PegC C p xs o) (hp' : PegC C p (xs.take n) o') (h1 : Cuts a xs n o o')
    (hq : o = none → PegC C r xs q) (hq' : o' = none → PegC C r (xs.take n) q')
    (h2 : o = none → PegC C r (xs.take n) q' → Cuts b xs n q q')
    (hapart : apart → (∀ ys j, ¬ PegC C r ys (some j)) ∨ (p.nullable null = false ∧ r.nullable null = false ∧
      ∀ x, ¬ (p.begins C.eqv null begin' x = true ∧ r.begins C.eqv null begin' x = true)))
    (ho : o ≠ none → q = o) (ho' : o' ≠ none → q' = o') :
    Cuts (a.orElse b apart) xs n q q' := by
  have hle' : ∀ k, o' = some k → k ≤ n := fun k e => by
    subst e
    have := hp'.le k rfl
    rw [List.length_take] at this
    omega
  -- not both of them match, one of them all and the other what is left
  have notBoth : apart → ∀ k j, o = some k → o' = none → q' = some j → n < k → n ≠ 0 → False := by
    rintro ha k j rfl rfl rfl hk h0
    have hr := hq' rfl
    rcases hapart ha with h | ⟨-, h, hx⟩
    · exact h _ _ hr
    rcases Nat.eq_zero_or_pos j with rfl | hj
    · rw [ht.nullable hr] at h; cases h
    · obtain ⟨x, rest, rfl, hb⟩ := (peg_begins ht.toBeginTable hp _ rfl).2 (by omega)
      refine hx x ⟨hb, ht.head hr hj ?_⟩
      cases n with
      | zero => exact (h0 rfl).elim
      | succ n => rfl
  have notBoth' : apart → ∀ k j, o = none → q = some k → o' = some j → False := by
    rintro ha k j rfl rfl rfl
    have hr := hq rfl
    rcases hapart ha with h | ⟨h, h', hx⟩
    · exact h _ _ hr
    rcases Nat.eq_zero_or_pos j with rfl | hj
    · rw [ht.nullable hp'] at h; cases h
    rcases Nat.eq_zero_or_pos k with rfl | hk
    · rw [ht.nullable hr] at h'; cases h'
    obtain ⟨x, rest, rfl, hb⟩ := (peg_begins ht.toBeginTable hr _ rfl).2 hk
    refine hx x ⟨ht.head hp' hj ?_, hb⟩
    have := hle' _ rfl
    cases n with
    | zero => omega
    | succ n => rfl
  constructor
  · rintro ⟨ha, hb, hc⟩ k rfl hk
    cases o with
    | some k1 =>
      cases ho nofun
      have := h1.steady ha _ rfl hk
      subst this
      exact ho' nofun
    | none =>
      cases o' with
      | none => exact (h2 rfl (hq' rfl)).steady hb _ rfl hk
      | some j =>
        rcases hc with hc | hc
        · cases h1.hopeless hc rfl
        · exact (notBoth' hc _ _ rfl rfl rfl).elim
  · rintro ⟨ha, hb⟩ rfl
    cases o with
    | some k1 => cases ho nofun
    | none =>
      cases h1.hopeless ha rfl
      exact (h2 rfl (hq' rfl)).hopeless hb rfl
  · rintro ⟨ha, hb⟩ k rfl hk h0 rfl
    cases o' with
    | some j => cases ho' nofun
    | none =>
      cases o with
      | some k1 => cases ho nofun; exact h1.ready ha _ rfl hk h0 rfl
      | none => exact (h2 rfl (hq' rfl)).ready hb _ rfl hk h0 rfl
  · rintro k m rfl hk rfl hm
    have hl : m < xs.length := by
      cases o with
      | some k1 =>
        cases ho nofun
        have := hp.le _ rfl
        omega
      | none =>
        have := (hq rfl).le _ rfl
        omega
    have other : ¬ ((a.ready ∨ apart) ∧ (a.hopeless ∨ apart)) → ∃ x, xs[m]? = some x ∧ (a.orElse b apart).short x :=
      fun h => ⟨_, List.getElem?_eq_getElem hl, .inr (.inr h)⟩
    cases o with
    | some k1 =>
      cases ho nofun
      cases o' with
      | some j =>
        cases ho' nofun
        obtain ⟨x, ex, sx⟩ := h1.short _ _ rfl hk rfl hm
        exact ⟨x, ex, .inl sx⟩
      | none =>
        refine other ?_
        rintro ⟨h | h, -⟩
        · exact h1.ready h _ rfl hk (by omega) rfl
        · exact notBoth h _ _ rfl rfl rfl hk (by omega)
    | none =>
      cases o' with
      | none =>
        obtain ⟨x, ex, sx⟩ := (h2 rfl (hq' rfl)).short _ _ rfl hk rfl hm
        exact ⟨x, ex, .inr (.inl sx)⟩
      | some j =>
        refine other ?_
        rintro ⟨-, h | h⟩
        · cases h1.hopeless h rfl
        · exact notBoth' h _ _ rfl rfl rfl

theorem Cuts.optional {a : AtCut β} {p : Parser α} {xs : List β} {n : Nat} {o o' : Option Nat}
    (hp : PegC C p xs o) (hp' : PegC C p (xs.take n) o') (h1 : Cuts a xs n o o') :
    Cuts (a.optional fun x => p.begins C.eqv null begin' x) xs n (some (o.getD 0)) (some (o'.getD 0)) := by
  constructor
  · rintro ⟨ha, hb⟩ k ⟨⟩ hk
    cases o with
    | none => cases h1.hopeless hb rfl; rfl
    | some k => cases h1.steady ha _ rfl hk; rfl
  · rintro - ⟨⟩
  · rintro - k - - - ⟨⟩
  · rintro k m ⟨⟩ hk ⟨⟩ hm
    cases o with
    | none => exact (Nat.not_lt_zero _ hk).elim
    | some k =>
      cases o' with
      | some m =>
        obtain ⟨x, ex, sx⟩ := h1.short _ _ rfl hk rfl hm
        exact ⟨x, ex, .inl sx⟩
      | none =>
        have hk : n < k := hk
        obtain ⟨x, rest, rfl, hb⟩ := (peg_begins ht.toBeginTable hp _ rfl).2 (by omega)
        have hm : 0 < n := hm
        exact ⟨x, rfl, .inr ⟨fun h => h1.ready h _ rfl hk (by omega) rfl, hb⟩⟩

theorem peg_cuts {p : Parser α} {xs : List β} {o : Option Nat} (h : PegC C p xs o) :
    ∀ n o', PegC C p (xs.take n) o' → Cuts (p.atCut C.eqv null begin' cuts) xs n o o' := by
  induction h with
  | @hit p xs k hb hm =>
    intro n o' h'
    have e : o' = if k ≤ n then some k else none := by
      refine C45_deterministic _ _ _ _ _ _ h' ?_
      split
      · exact .hit hb (matches_take.2 ⟨hm, ‹_›⟩)
      · refine .miss hb fun j hj => ?_
        obtain ⟨h1, h2⟩ := matches_take.1 hj
        cases matches_unique h1 hm
        omega
    subst e
    refine ⟨fun _ k e hk => by cases e; rw [if_pos hk], fun _ e => (by cases e), fun hr k e hk h0 => ?_, fun k m e hk e' hm => ?_⟩
    · cases e
      exfalso
      cases p with
      | allOf arr =>
        have hr : arr.length ≤ 1 := hr
        have : k = arr.length := hm.1
        omega
      | anyOf => have : k = 1 := hm.1; omega
      | noneOf => have : k = 1 := hm.1; omega
      | anything => have : k = 1 := hm.1; omega
      | _ => exact hb.elim
    · cases e
      rw [if_neg (by omega)] at e'
      cases e'
  | @miss p xs hb hm =>
    intro n o' h'
    have e : o' = none := C45_deterministic _ _ _ _ _ _ h' (.miss hb fun j hj => hm j (matches_take.1 hj).1)
    exact ⟨nofun, fun _ _ => e, nofun, nofun⟩
  | epsilon =>
    intro n o' h'
    cases C45_deterministic _ _ _ _ _ _ h' .epsilon
    exact ⟨fun _ _ h _ => h, nofun, fun _ k e hk => by cases e; omega, fun k m e hk => by cases e; omega⟩
  | choiceNil =>
    intro n o' h'
    cases C45_deterministic _ _ _ _ _ _ h' .choiceNil
    exact ⟨nofun, fun _ h => h, nofun, nofun⟩
  | @choiceHit p ps xs k h ih =>
    intro n o' h'
    show Cuts ((p.atCut _ _ _ _).orElse (choiceCut _ _ _ _ ps) _) _ _ _ _
    cases h' with
    | hit hb => exact hb.elim
    | miss hb => exact hb.elim
    | choiceHit h' =>
      exact Cuts.orElse (r := .choice ps) ht h h' (ih _ _ h') nofun nofun nofun
        (fun ha => ha.imp (fun e => by subst e; exact fun ys j hj => by cases hj with | hit hb => exact hb.elim) id) (fun _ => rfl) fun _ => rfl
    | choiceMiss h' h'' =>
      exact Cuts.orElse (r := .choice ps) ht h h' (ih _ _ h') nofun (fun _ => h'') nofun
        (fun ha => ha.imp (fun e => by subst e; exact fun ys j hj => by cases hj with | hit hb => exact hb.elim) id) (fun _ => rfl) fun h => (h rfl).elim
  | @choiceMiss p ps xs o h h2 ih ih2 =>
    intro n o' h'
    show Cuts ((p.atCut _ _ _ _).orElse (choiceCut _ _ _ _ ps) _) _ _ _ _
    cases h' with
    | hit hb => exact hb.elim
    | miss hb => exact hb.elim
    | choiceHit h' =>
      exact Cuts.orElse (r := .choice ps) ht h h' (ih _ _ h') (fun _ => h2) nofun (fun _ h => ih2 _ _ h)
        (fun ha => ha.imp (fun e => by subst e; exact fun ys j hj => by cases hj with | hit hb => exact hb.elim) id) (fun h => (h rfl).elim) fun _ => rfl
    | choiceMiss h' h'' =>
      exact Cuts.orElse (r := .choice ps) ht h h' (ih _ _ h') (fun _ => h2) (fun _ => h'') (fun _ h => ih2 _ _ h)
        (fun ha => ha.imp (fun e => by subst e; exact fun ys j hj => by cases hj with | hit hb => exact hb.elim) id) (fun h => (h rfl).elim) fun h => (h rfl).elim
  | sequenceNil =>
    intro n o' h'
    cases C45_deterministic _ _ _ _ _ _ h' .sequenceNil
    exact ⟨fun _ _ h _ => h, nofun, fun _ k e hk => by cases e; omega, fun k m e hk => by cases e; omega⟩
  | @sequenceMore p ps xs k o h h2 ih ih2 =>
    intro n o' h'
    obtain ⟨o1, hp, hr⟩ := seq_inv h'
    exact Cuts.andThen (r := .sequence ps) (b := sequenceCut _ _ _ _ ps) ht h hp (ih _ _ hp)
      (fun k' q n' q' e hq hq' => by
        cases e
        cases C45_deterministic _ _ _ _ _ _ hq h2
        exact ih2 _ _ hq') (.inr ⟨_, _, rfl, h2, rfl⟩) hr
  | @sequenceMiss p ps xs h ih =>
    intro n o' h'
    obtain ⟨o1, hp, hr⟩ := seq_inv h'
    exact Cuts.andThen (r := .sequence ps) (b := sequenceCut _ _ _ _ ps) ht h hp (ih _ _ hp) nofun (.inl ⟨rfl, rfl⟩) hr
  | @maybeHit p xs k h ih =>
    intro n o' h'
    cases h' with
    | hit hb => exact hb.elim
    | miss hb => exact hb.elim
    | maybeHit h' => exact Cuts.optional ht h h' (ih _ _ h')
    | maybeMiss h' => exact Cuts.optional ht h h' (ih _ _ h')
  | @maybeMiss p xs h ih =>
    intro n o' h'
    cases h' with
    | hit hb => exact hb.elim
    | miss hb => exact hb.elim
    | maybeHit h' => exact Cuts.optional ht h h' (ih _ _ h')
    | maybeMiss h' => exact Cuts.optional ht h h' (ih _ _ h')
  | exactlyNil =>
    intro n o' h'
    cases C45_deterministic _ _ _ _ _ _ h' .exactlyNil
    exact ⟨fun _ _ h _ => h, nofun, fun _ k e hk => by cases e; omega, fun k m e hk => by cases e; omega⟩
  | @exactlyMore p m xs k o h h2 ih ih2 =>
    intro n o' h'
    obtain ⟨o1, hp, hr⟩ := exactly_inv h'
    exact Cuts.andThen (r := .exactly p m) (b := exactlyCut _ _ _ _ _ m) ht h hp (ih _ _ hp)
      (fun k' q n' q' e hq hq' => by
        cases e
        cases C45_deterministic _ _ _ _ _ _ hq h2
        exact ih2 _ _ hq') (.inr ⟨_, _, rfl, h2, rfl⟩) hr
  | @exactlyMiss p m xs h ih =>
    intro n o' h'
    obtain ⟨o1, hp, hr⟩ := exactly_inv h'
    exact Cuts.andThen (r := .exactly p m) (b := exactlyCut _ _ _ _ _ m) ht h hp (ih _ _ hp) nofun (.inl ⟨rfl, rfl⟩) hr
  | @zeroStop p xs h ih =>
    intro n o' h'
    obtain ⟨o1, hp, hr⟩ := star_inv h'
    refine ⟨fun ⟨_, hb⟩ k e hk => ?_, nofun, fun _ k e hk => by cases e; omega, fun k m e hk => by cases e; omega⟩
    cases e
    cases (ih _ _ hp).hopeless hb rfl
    rcases hr with ⟨-, h⟩ | ⟨_, _, h, _⟩
    · exact h
    · cases h
  | @zeroMore p xs k j h h2 ih ih2 =>
    intro n o' h'
    obtain ⟨o1, hp, hr⟩ := star_inv h'
    have h1 := ih _ _ hp
    have hle' : ∀ k, o1 = some k → k ≤ n := fun k e => by
      subst e
      have := hp.le k rfl
      rw [List.length_take] at this
      omega
    refine ⟨fun ⟨ha, hb⟩ k' e hk => ?_, nofun, fun _ k _ _ _ e => ?_, fun k' m e hk e' hm => ?_⟩
    · cases e
      cases h1.steady ha _ rfl (by omega)
      rcases hr with ⟨h, -⟩ | ⟨_, j', e, hr, rfl⟩
      · cases h
      cases e
      rw [take_drop_ge _ (by omega)] at hr
      cases (ih2 _ _ hr).steady ⟨ha, hb⟩ _ rfl (by omega)
      rfl
    · subst e
      rcases hr with ⟨-, h⟩ | ⟨_, _, _, _, h⟩ <;> cases h
    · cases e
      subst e'
      have hl : m < xs.length := by
        have := h.le _ rfl
        have := h2.le _ rfl
        simp only [List.length_drop] at this
        omega
      by_cases hs : (p.atCut C.eqv null begin' cuts).steady
      swap
      · exact ⟨_, List.getElem?_eq_getElem hl, .inr (.inr (.inl hs))⟩
      by_cases hkn : k ≤ n
      · cases h1.steady hs _ rfl hkn
        rcases hr with ⟨h, -⟩ | ⟨_, j', e, hr, e'⟩
        · cases h
        cases e
        cases e'
        rw [take_drop_ge _ hkn] at hr
        obtain ⟨x, ex, sx⟩ := (ih2 _ _ hr).short _ _ rfl (by omega) rfl (by omega)
        rw [List.getElem?_drop] at ex
        exact ⟨x, ex, sx⟩
      · rcases hr with ⟨rfl, e⟩ | ⟨k1, j', rfl, hr, e'⟩
        · cases e
          obtain ⟨x, rest, rfl, hb⟩ := (peg_begins ht.toBeginTable h _ rfl).2 (by omega)
          exact ⟨x, rfl, .inr (.inl ⟨fun h => h1.ready h _ rfl (by omega) (by omega) rfl, hb⟩)⟩
        · cases e'
          have := hle' _ rfl
          obtain ⟨x, ex, sx⟩ := h1.short _ _ rfl (by omega) rfl (show k1 < n by omega)
          obtain ⟨o2, hp2, hr2⟩ := star_inv hr
          rcases hr2 with ⟨-, e⟩ | ⟨k2, _, rfl, _, _⟩
          · cases e
            exact ⟨x, ex, .inl sx⟩
          · rcases Nat.eq_zero_or_pos k2 with rfl | h0
            · exact (hr.star_progress hp2).elim
            · refine ⟨_, List.getElem?_eq_getElem hl, .inr (.inr (.inr ⟨x, sx, ht.head hp2 h0 ?_⟩))⟩
              rw [List.getElem?_drop, Nat.add_zero, List.getElem?_take, if_pos (by omega), ex]
  | @oneMiss p xs h ih =>
    intro n o' h'
    obtain ⟨o1, hp, hr⟩ := one_inv h'
    exact Cuts.andThen (r := .zeroOrMore p) (b := AtCut.repeated _ _) ht h hp (ih _ _ hp) nofun (.inl ⟨rfl, rfl⟩) hr
  | @oneMore p xs k j h h2 ih ih2 =>
    intro n o' h'
    obtain ⟨o1, hp, hr⟩ := one_inv h'
    exact Cuts.andThen (r := .zeroOrMore p) (b := AtCut.repeated _ _) ht h hp (ih _ _ hp)
      (fun k' q n' q' e hq hq' => by
        cases e
        cases C45_deterministic _ _ _ _ _ _ hq h2
        exact ih2 _ _ hq') (.inr ⟨_, _, rfl, h2, rfl⟩) hr
  | @delimitMiss p d xs h ih =>
    intro n o' h'
    obtain ⟨o1, hp, hr⟩ := delimit_inv h'
    exact Cuts.andThen (r := .zeroOrMore (.sequence [d, p])) (b := AtCut.repeated _ _) ht h hp (ih _ _ hp) nofun
      (.inl ⟨rfl, rfl⟩) hr
  | @delimitMore p d xs k j h h2 ih ih2 =>
    intro n o' h'
    obtain ⟨o1, hp, hr⟩ := delimit_inv h'
    exact Cuts.andThen (r := .zeroOrMore (.sequence [d, p])) (b := AtCut.repeated _ _) ht h hp (ih _ _ hp)
      (fun k' q n' q' e hq hq' => by
        cases e
        cases C45_deterministic _ _ _ _ _ _ hq h2
        exact ih2 _ _ hq') (.inr ⟨_, _, rfl, h2, rfl⟩) hr
  | @completeHit p xs h ih =>
    intro n o' h'
    refine ⟨fun _ k e hk => ?_, nofun, nofun, fun k m e hk e' hm => ?_⟩
    · cases e
      rw [List.take_of_length_le hk] at h'
      exact C45_deterministic _ _ _ _ _ _ h' (.completeHit h)
    · cases e
      subst e'
      cases h' with
      | hit hb => exact hb.elim
      | completeHit => rw [List.length_take] at hm; omega
  | completeShort => exact fun n o' _ => ⟨nofun, nofun, nofun, nofun⟩
  | completeMiss => exact fun n o' _ => ⟨nofun, nofun, nofun, nofun⟩
  | ignore _ ih => intro n o' h'; cases h' with
    | hit hb => exact hb.elim
    | miss hb => exact hb.elim
    | ignore h' => exact ih _ _ h'
  | join _ ih => intro n o' h'; cases h' with
    | hit hb => exact hb.elim
    | miss hb => exact hb.elim
    | join h' => exact ih _ _ h'
  | map _ ih => intro n o' h'; cases h' with
    | hit hb => exact hb.elim
    | miss hb => exact hb.elim
    | map h' => exact ih _ _ h'
  | filter _ ih => intro n o' h'; cases h' with
    | hit hb => exact hb.elim
    | miss hb => exact hb.elim
    | filter h' => exact ih _ _ h'
  | named _ ih => intro n o' h'; cases h' with
    | hit hb => exact hb.elim
    | miss hb => exact hb.elim
    | named h' => exact ih _ _ h'
  | @custom k xs o _ ih => intro n o' h'; cases h' with
    | hit hb => exact hb.elim
    | miss hb => exact hb.elim
    | custom h' => exact (ih _ _ h').imp (ht.steady k) (ht.hopeless k) (ht.ready k) (ht.short k)

end

end Tok3n
