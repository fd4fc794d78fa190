import Verif.Spec.Order
import Verif.Spec.Peg
/-
What a PEG expression consumes begins with (`Parser.begins`), and choices in another order (C69).
-/

namespace Tok3n

variable {α β : Type}

/-- what the two checks say about a match of the first `k` elements -/
def BeginsOK (eqv : α → β → Bool) (null : Nat → Bool) (begin' : Nat → β → Bool) (p : Parser α) (xs : List β) (k : Nat) : Prop :=
  (k = 0 → p.nullable null = true) ∧ (0 < k → ∃ x rest, xs = x :: rest ∧ p.begins eqv null begin' x = true)

section
variable {C : Ctx α β} {null : Nat → Bool} {begin' : Nat → β → Bool} (ht : BeginTable C null begin')

theorem BeginsOK.imp {p q : Parser α} {xs : List β} {k : Nat} (h : BeginsOK C.eqv null begin' p xs k)
    (hn : p.nullable null = true → q.nullable null = true)
    (hb : ∀ x, p.begins C.eqv null begin' x = true → q.begins C.eqv null begin' x = true) :
    BeginsOK C.eqv null begin' q xs k :=
  ⟨fun h0 => hn (h.1 h0), fun h0 => let ⟨x, rest, e, hx⟩ := h.2 h0; ⟨x, rest, e, hb x hx⟩⟩

/-- one thing after another -/
theorem BeginsOK.andThen {p q r : Parser α} {xs : List β} {k j : Nat} (hp : BeginsOK C.eqv null begin' p xs k)
    (hq : BeginsOK C.eqv null begin' q (xs.drop k) j)
    (hn : p.nullable null = true → q.nullable null = true → r.nullable null = true)
    (hb : ∀ x, p.begins C.eqv null begin' x = true → r.begins C.eqv null begin' x = true)
    (hb' : ∀ x, p.nullable null = true → q.begins C.eqv null begin' x = true → r.begins C.eqv null begin' x = true) :
    BeginsOK C.eqv null begin' r xs (k + j) := by
  refine ⟨fun h0 => hn (hp.1 (by omega)) (hq.1 (by omega)), fun h0 => ?_⟩
  by_cases hk : k = 0
  · subst hk
    obtain ⟨x, rest, e, hx⟩ := hq.2 (by omega)
    exact ⟨x, rest, by simpa using e, hb' x (hp.1 rfl) hx⟩
  · obtain ⟨x, rest, e, hx⟩ := hp.2 (by omega)
    exact ⟨x, rest, e, hb x hx⟩

include ht

theorem peg_begins {p : Parser α} {xs : List β} {o : Option Nat} (h : Peg C.eqv (fun k => (C.custom k).body) p xs o) :
    ∀ k, o = some k → BeginsOK C.eqv null begin' p xs k := by
  induction h with
  | @hit p xs k hb hm =>
    rintro k ⟨⟩
    cases p with
    | anyOf arr =>
      obtain ⟨rfl, x, rest, rfl, a, ha, hx⟩ := hm
      exact ⟨nofun, fun _ => ⟨x, rest, rfl, by simpa [Parser.begins] using ⟨a, ha, hx⟩⟩⟩
    | noneOf arr =>
      obtain ⟨rfl, x, rest, rfl, hx⟩ := hm
      exact ⟨nofun, fun _ => ⟨x, rest, rfl, by simpa [Parser.begins] using hx⟩⟩
    | anything =>
      obtain ⟨rfl, x, rest, rfl⟩ := hm
      exact ⟨nofun, fun _ => ⟨x, rest, rfl, by simp [Parser.begins]⟩⟩
    | allOf arr =>
      obtain ⟨rfl, front, rest, rfl, hf⟩ := hm
      cases hf with
      | nil => exact ⟨fun _ => by simp [Parser.nullable], fun h => absurd h (Nat.lt_irrefl _)⟩
      | @cons a x arr front hx hf => exact ⟨nofun, fun _ => ⟨x, front ++ rest, rfl, by simpa [Parser.begins] using hx⟩⟩
    | _ => exact hb.elim
  | epsilon => rintro k ⟨⟩; exact ⟨fun _ => rfl, fun h => absurd h (Nat.lt_irrefl _)⟩
  | choiceHit _ ih =>
    rintro k ⟨⟩
    exact (ih _ rfl).imp (fun h => by simp [Parser.nullable, someNullable, h])
      fun x h => by simp [Parser.begins, someBegins, h]
  | choiceMiss _ _ _ ih =>
    rintro k ⟨⟩
    exact (ih _ rfl).imp (fun h => by simp only [Parser.nullable] at h; simp [Parser.nullable, someNullable, h])
      fun x h => by simp only [Parser.begins] at h; simp [Parser.begins, someBegins, h]
  | sequenceNil => rintro k ⟨⟩; exact ⟨fun _ => rfl, fun h => absurd h (Nat.lt_irrefl _)⟩
  | @sequenceMore p ps xs k o _ _ ih ih' =>
    rintro n e
    cases o with
    | none => simp at e
    | some j =>
      simp only [Option.map_some, Option.some.injEq] at e
      subst e
      refine (ih _ rfl).andThen (ih' _ rfl) (fun h h' => ?_) (fun x h => ?_) fun x h h' => ?_
      · simp only [Parser.nullable] at h'; simp [Parser.nullable, allNullable, h, h']
      · simp [Parser.begins, sequenceBegins, h]
      · simp only [Parser.begins] at h'; simp [Parser.begins, sequenceBegins, h, h']
  | maybeHit _ ih =>
    rintro k ⟨⟩
    exact (ih _ rfl).imp (fun h => by simp [Parser.nullable]) fun x h => by simp [Parser.begins, h]
  | maybeMiss => rintro k ⟨⟩; exact ⟨fun _ => by simp [Parser.nullable], fun h => absurd h (Nat.lt_irrefl _)⟩
  | exactlyNil => rintro k ⟨⟩; exact ⟨fun _ => by simp [Parser.nullable], fun h => absurd h (Nat.lt_irrefl _)⟩
  | @exactlyMore p n xs k o _ _ ih ih' =>
    rintro n e
    cases o with
    | none => simp at e
    | some j =>
      simp only [Option.map_some, Option.some.injEq] at e
      subst e
      refine (ih _ rfl).andThen (ih' _ rfl) (fun h h' => ?_) (fun x h => ?_) fun x h h' => ?_
      · simp [Parser.nullable, h]
      · simp [Parser.begins, h]
      · simpa [Parser.begins] using h'
  | zeroStop => rintro k ⟨⟩; exact ⟨fun _ => by simp [Parser.nullable], fun h => absurd h (Nat.lt_irrefl _)⟩
  | zeroMore _ _ ih ih' =>
    rintro k ⟨⟩
    exact (ih _ rfl).andThen (ih' _ rfl) (fun h h' => by simp [Parser.nullable]) (fun x h => by simp [Parser.begins, h])
      fun x h h' => h'
  | oneMore _ _ ih ih' =>
    rintro k ⟨⟩
    exact (ih _ rfl).andThen (ih' _ rfl) (fun h h' => by simp [Parser.nullable, h])
      (fun x h => by simp [Parser.begins, h]) fun x h h' => by simpa [Parser.begins] using h'
  | delimitMore _ _ ih ih' =>
    rintro k ⟨⟩
    refine (ih _ rfl).andThen (ih' _ rfl) (fun h h' => by simp [Parser.nullable, h])
      (fun x h => by simp [Parser.begins, h]) fun x h h' => ?_
    simp only [Parser.begins, sequenceBegins, Bool.and_false, Bool.or_false, Bool.or_eq_true, Bool.and_eq_true] at h' ⊢
    rcases h' with h' | ⟨-, h'⟩
    · exact .inr ⟨h, h'⟩
    · exact .inl h'
  | completeHit _ ih =>
    rintro k ⟨⟩
    exact (ih _ rfl).imp (fun h => by simpa [Parser.nullable] using h) fun x h => by simpa [Parser.begins] using h
  | custom _ ih =>
    rintro k rfl
    exact (ih _ rfl).imp (fun h => ht.nulls _ h) fun x h => ht.begins _ x h
  | ignore _ ih | join _ ih | map _ ih | filter _ ih | named _ ih =>
    rintro k rfl
    exact (ih _ rfl).imp (fun h => by simpa [Parser.nullable] using h) fun x h => by simpa [Parser.begins] using h
  | _ => nofun

end

/-! ### Choices -/

section
variable {eqv : α → β → Bool} {body : Nat → Parser α}

theorem peg_choice_none {ps : List (Parser α)} {xs : List β} :
    Peg eqv body (.choice ps) xs none ↔ ∀ p ∈ ps, Peg eqv body p xs none := by
  induction ps with
  | nil => exact ⟨fun _ => nofun, fun _ => .choiceNil⟩
  | cons p ps ih =>
    rw [List.forall_mem_cons, ← ih]
    constructor
    · intro h
      cases h with
      | miss hb => exact hb.elim
      | choiceMiss h h' => exact ⟨h, h'⟩
    · exact fun ⟨h, h'⟩ => .choiceMiss h h'

theorem peg_choice_some {ps : List (Parser α)} {xs : List β} {k : Nat} :
    Peg eqv body (.choice ps) xs (some k) ↔
      ∃ before p after, ps = before ++ p :: after ∧ (∀ q ∈ before, Peg eqv body q xs none) ∧ Peg eqv body p xs (some k) := by
  induction ps with
  | nil =>
    constructor
    · intro h
      cases h with
      | hit hb => exact hb.elim
    · rintro ⟨before, p, after, h, -⟩
      cases before <;> exact nomatch h
  | cons p ps ih =>
    constructor
    · intro h
      cases h with
      | hit hb => exact hb.elim
      | choiceHit h => exact ⟨[], p, ps, rfl, nofun, h⟩
      | choiceMiss h h' =>
        obtain ⟨before, q, after, rfl, hb, hq⟩ := ih.1 h'
        exact ⟨p :: before, q, after, rfl, List.forall_mem_cons.2 ⟨h, hb⟩, hq⟩
    · rintro ⟨before, q, after, e, hb, hq⟩
      cases before with
      | nil =>
        obtain ⟨rfl, rfl⟩ := List.cons.inj e
        exact .choiceHit hq
      | cons r before =>
        obtain ⟨rfl, rfl⟩ := List.cons.inj e
        rw [List.forall_mem_cons] at hb
        exact .choiceMiss hb.1 (ih.2 ⟨before, q, after, rfl, hb.2, hq⟩)

end

end Tok3n
