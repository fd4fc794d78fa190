import Verif.Spec.Language
import Verif.Proof.Order
import Verif.Props.Literals
/-
Parser expressions and the words they describe (C85).
-/

namespace Tok3n

variable {α β : Type}

section
variable {eqv : α → β → Bool} {body : Nat → Parser α}

theorem matches_word {p : Parser α} (hb : IsBasic p) {xs : List β} {k : Nat} (h : Matches eqv p xs k) :
    k ≤ xs.length ∧ Matches eqv p (xs.take k) k := by
  cases p with
  | anyOf arr => obtain ⟨rfl, x, rest, rfl, a, ha, hx⟩ := h; exact ⟨by simp, rfl, x, [], rfl, a, ha, hx⟩
  | noneOf arr => obtain ⟨rfl, x, rest, rfl, hx⟩ := h; exact ⟨by simp, rfl, x, [], rfl, hx⟩
  | anything => obtain ⟨rfl, x, rest, rfl⟩ := h; exact ⟨by simp, rfl, x, [], rfl⟩
  | allOf arr =>
    obtain ⟨rfl, front, rest, rfl, h⟩ := h
    have hl := h.length_eq
    exact ⟨by simp [hl], rfl, front, [], by rw [hl, List.take_left, List.append_nil], h⟩
  | _ => cases hb

theorem word_matches {p : Parser α} (hb : IsBasic p) {w : List β} (xs : List β) (h : Matches eqv p w w.length) :
    Matches eqv p (w ++ xs) w.length := by
  cases p with
  | anyOf arr => obtain ⟨h1, x, rest, rfl, a, ha, hx⟩ := h; exact ⟨h1, x, _, rfl, a, ha, hx⟩
  | noneOf arr => obtain ⟨h1, x, rest, rfl, hx⟩ := h; exact ⟨h1, x, _, rfl, hx⟩
  | anything => obtain ⟨h1, x, rest, rfl⟩ := h; exact ⟨h1, x, _, rfl⟩
  | allOf arr => obtain ⟨h1, front, rest, rfl, h⟩ := h; exact ⟨h1, front, rest ++ xs, List.append_assoc .., h⟩
  | _ => cases hb

/-- what matches is a word -/
theorem word_of_peg {p : Parser α} {xs : List β} {o : Option Nat} (h : Peg eqv body p xs o) :
    ∀ k, o = some k → k ≤ xs.length ∧ Word eqv body p (xs.take k) := by
  induction h with
  | hit hb hm =>
    rintro k ⟨⟩
    obtain ⟨h1, h2⟩ := matches_word hb hm
    exact ⟨h1, .basic hb (by rwa [List.length_take, Nat.min_eq_left h1])⟩
  | epsilon => rintro k ⟨⟩; exact ⟨Nat.zero_le _, .epsilon⟩
  | choiceHit _ ih => rintro k ⟨⟩; obtain ⟨h1, h2⟩ := ih _ rfl; exact ⟨h1, .choice (.head _) h2⟩
  | choiceMiss _ _ _ ih =>
    rintro k rfl
    obtain ⟨h1, h2⟩ := ih _ rfl
    cases h2 with
    | basic hb => cases hb
    | choice hm hw => exact ⟨h1, .choice (.tail _ hm) hw⟩
  | sequenceNil => rintro k ⟨⟩; exact ⟨Nat.zero_le _, .sequenceNil⟩
  | @sequenceMore p ps xs k o _ _ ih1 ih2 =>
    intro n hn
    cases o with
    | none => cases hn
    | some j =>
      cases hn
      obtain ⟨h1, h2⟩ := ih1 _ rfl
      obtain ⟨h3, h4⟩ := ih2 _ rfl
      rw [List.length_drop] at h3
      exact ⟨show k + j ≤ _ by omega, by rw [List.take_add]; exact .sequenceMore h2 h4⟩
  | maybeHit _ ih => rintro k ⟨⟩; obtain ⟨h1, h2⟩ := ih _ rfl; exact ⟨h1, .maybe h2⟩
  | maybeMiss => rintro k ⟨⟩; exact ⟨Nat.zero_le _, .maybeNot⟩
  | exactlyNil => rintro k ⟨⟩; exact ⟨Nat.zero_le _, .exactlyNil⟩
  | @exactlyMore p n xs k o _ _ ih1 ih2 =>
    intro n hn
    cases o with
    | none => cases hn
    | some j =>
      cases hn
      obtain ⟨h1, h2⟩ := ih1 _ rfl
      obtain ⟨h3, h4⟩ := ih2 _ rfl
      rw [List.length_drop] at h3
      exact ⟨show k + j ≤ _ by omega, by rw [List.take_add]; exact .exactlyMore h2 h4⟩
  | zeroStop => rintro k ⟨⟩; exact ⟨Nat.zero_le _, .zeroNil⟩
  | zeroMore _ _ ih1 ih2 =>
    rintro n ⟨⟩
    obtain ⟨h1, h2⟩ := ih1 _ rfl
    obtain ⟨h3, h4⟩ := ih2 _ rfl
    rw [List.length_drop] at h3
    exact ⟨by omega, by rw [List.take_add]; exact .zeroMore h2 h4⟩
  | oneMore _ _ ih1 ih2 =>
    rintro n ⟨⟩
    obtain ⟨h1, h2⟩ := ih1 _ rfl
    obtain ⟨h3, h4⟩ := ih2 _ rfl
    rw [List.length_drop] at h3
    exact ⟨by omega, by rw [List.take_add]; exact .oneOrMore h2 h4⟩
  | delimitMore _ _ ih1 ih2 =>
    rintro n ⟨⟩
    obtain ⟨h1, h2⟩ := ih1 _ rfl
    obtain ⟨h3, h4⟩ := ih2 _ rfl
    rw [List.length_drop] at h3
    exact ⟨by omega, by rw [List.take_add]; exact .delimit h2 h4⟩
  | completeHit _ ih => rintro k ⟨⟩; obtain ⟨h1, h2⟩ := ih _ rfl; exact ⟨h1, .complete h2⟩
  | ignore _ ih => rintro k rfl; obtain ⟨h1, h2⟩ := ih _ rfl; exact ⟨h1, .ignore h2⟩
  | join _ ih => rintro k rfl; obtain ⟨h1, h2⟩ := ih _ rfl; exact ⟨h1, .join h2⟩
  | map _ ih => rintro k rfl; obtain ⟨h1, h2⟩ := ih _ rfl; exact ⟨h1, .map h2⟩
  | filter _ ih => rintro k rfl; obtain ⟨h1, h2⟩ := ih _ rfl; exact ⟨h1, .filter h2⟩
  | named _ ih => rintro k rfl; obtain ⟨h1, h2⟩ := ih _ rfl; exact ⟨h1, .named h2⟩
  | custom _ ih => rintro k rfl; obtain ⟨h1, h2⟩ := ih _ rfl; exact ⟨h1, .custom h2⟩
  | _ => nofun

end

section
variable {C : Ctx α β} {null : Nat → Bool} {begin' : Nat → β → Bool} (ht : BeginTable C null begin')

/-- what the checks say about a word -/
def WordOK (C : Ctx α β) (null : Nat → Bool) (begin' : Nat → β → Bool) (p : Parser α) : List β → Prop
  | [] => p.nullable null = true
  | x :: _ => p.begins C.eqv null begin' x = true

theorem WordOK.imp {p q : Parser α} {w : List β} (h : WordOK C null begin' p w)
    (hn : p.nullable null = true → q.nullable null = true)
    (hb : ∀ x, p.begins C.eqv null begin' x = true → q.begins C.eqv null begin' x = true) : WordOK C null begin' q w := by
  cases w with
  | nil => exact hn h
  | cons x w => exact hb x h

theorem WordOK.andThen {p q r : Parser α} {u v : List β} (hp : WordOK C null begin' p u) (hq : WordOK C null begin' q v)
    (hn : p.nullable null = true → q.nullable null = true → r.nullable null = true)
    (hb : ∀ x, p.begins C.eqv null begin' x = true → r.begins C.eqv null begin' x = true)
    (hb' : ∀ x, p.nullable null = true → q.begins C.eqv null begin' x = true → r.begins C.eqv null begin' x = true) :
    WordOK C null begin' r (u ++ v) := by
  cases u with
  | nil =>
    cases v with
    | nil => exact hn hp hq
    | cons x v => exact hb' x hp hq
  | cons x u => exact hb x hp

include ht

theorem word_begins {p : Parser α} {w : List β} (h : Word C.eqv (fun k => (C.custom k).body) p w) :
    WordOK C null begin' p w := by
  induction h with
  | @basic p w hb hm =>
    have h := peg_begins ht (.hit (body := fun k => (C.custom k).body) hb hm) _ rfl
    cases w with
    | nil => exact h.1 rfl
    | cons x w => obtain ⟨y, r, e, hy⟩ := h.2 (Nat.succ_pos _); cases e; exact hy
  | epsilon => rfl
  | @choice p ps w hm _ ih =>
    refine ih.imp (fun h => ?_) fun x h => ?_
    · show someNullable null ps = true
      clear ih
      induction ps with
      | nil => cases hm
      | cons q qs ih =>
        cases hm with
        | head => simp [someNullable, h]
        | tail _ hm => simp [someNullable, ih hm]
    · show someBegins C.eqv null begin' x ps = true
      clear ih
      induction ps with
      | nil => cases hm
      | cons q qs ih =>
        cases hm with
        | head => simp [someBegins, h]
        | tail _ hm => simp [someBegins, ih hm]
  | sequenceNil => rfl
  | @sequenceMore p ps u v _ _ ih1 ih2 =>
    refine ih1.andThen ih2 (fun h1 h2 => ?_) (fun x h => ?_) fun x h1 h2 => ?_
    · simp only [Parser.nullable] at h2; simp [Parser.nullable, allNullable, h1, h2]
    · simp [Parser.begins, sequenceBegins, h]
    · simp only [Parser.begins] at h2; simp [Parser.begins, sequenceBegins, h1, h2]
  | maybeNot => rfl
  | maybe _ ih => exact ih.imp (fun _ => rfl) fun x h => by simpa [Parser.begins] using h
  | exactlyNil => rfl
  | exactlyMore _ _ ih1 ih2 =>
    refine ih1.andThen ih2 (fun h1 h2 => ?_) (fun x h => ?_) fun x h1 h2 => ?_
    · simp [Parser.nullable, h1]
    · simpa [Parser.begins] using h
    · simpa [Parser.begins] using h2
  | zeroNil => rfl
  | zeroMore _ _ ih1 ih2 =>
    refine ih1.andThen ih2 (fun h1 h2 => rfl) (fun x h => ?_) fun x h1 h2 => ?_
    · simpa [Parser.begins] using h
    · simpa [Parser.begins] using h2
  | oneOrMore _ _ ih1 ih2 =>
    refine ih1.andThen ih2 (fun h1 h2 => ?_) (fun x h => ?_) fun x h1 h2 => ?_
    · simpa [Parser.nullable] using h1
    · simpa [Parser.begins] using h
    · simpa [Parser.begins] using h2
  | delimit _ _ ih1 ih2 =>
    refine ih1.andThen ih2 (fun h1 h2 => ?_) (fun x h => ?_) fun x h1 h2 => ?_
    · simpa [Parser.nullable] using h1
    · simp [Parser.begins, h]
    · simp only [Parser.begins, sequenceBegins, Bool.and_false, Bool.or_false, Bool.or_eq_true, Bool.and_eq_true] at h2 ⊢
      rcases h2 with h2 | ⟨_, h2⟩
      · exact .inr ⟨h1, h2⟩
      · exact .inl h2
  | complete _ ih | ignore _ ih | join _ ih | map _ ih | filter _ ih | named _ ih =>
    exact ih.imp (fun h => by simpa [Parser.nullable] using h) fun x h => by simpa [Parser.begins] using h
  | custom _ ih => exact ih.imp (ht.nulls _) (ht.begins _)

theorem goesOn_behind {ps : List (Parser α)} {w xs : List β} {F : β → Prop}
    (h : Word C.eqv (fun k => (C.custom k).body) (.sequence ps) w) (hF : GoesOn F xs) :
    GoesOn (behind C null begin' ps F) (w ++ xs) := by
  have hw := word_begins ht h
  cases w with
  | nil => exact fun x hx => .inr ⟨by simpa [WordOK, Parser.nullable] using hw, hF x hx⟩
  | cons y w =>
    rintro x ⟨⟩
    exact .inl (by simpa [WordOK, Parser.begins] using hw)

theorem goesOn_or {p : Parser α} {w xs : List β} {F : β → Prop} (h : Word C.eqv (fun k => (C.custom k).body) p w)
    (hF : GoesOn F xs) : GoesOn (fun x => p.begins C.eqv null begin' x = true ∨ F x) (w ++ xs) := by
  have hw := word_begins ht h
  cases w with
  | nil => exact fun x hx => .inr (hF x hx)
  | cons y w => rintro x ⟨⟩; exact .inl hw

end

/-- a word of a clear grammar is what matches -/
theorem peg_of_word {C : Ctx α β} {null : Nat → Bool} {begin' : Nat → β → Bool} {follow : Nat → β → Prop}
    (ht : ClearTable C null begin' follow) {p : Parser α} {w : List β}
    (h : Word C.eqv (fun k => (C.custom k).body) p w) : ∀ (F : β → Prop) (xs : List β), Clear C null begin' follow p F →
    GoesOn F xs → Peg C.eqv (fun k => (C.custom k).body) p (w ++ xs) (some w.length) := by
  induction h with
  | basic hb hm => exact fun F xs _ _ => .hit hb (word_matches hb xs hm)
  | epsilon => exact fun F xs _ _ => .epsilon
  | @choice p ps w hm hw ih =>
    intro F xs hc hF
    simp only [Clear] at hc
    obtain ⟨hc, hp⟩ := hc
    induction ps with
    | nil => cases hm
    | cons q qs ihs =>
      cases hm with
      | head => exact .choiceHit (ih F xs hc.1 hF)
      | tail _ hm =>
        rw [List.pairwise_cons] at hp
        exact .choiceMiss (hp.1 _ hm w xs hw hF) (ihs hm hc.2 hp.2)
  | sequenceNil => exact fun F xs _ _ => .sequenceNil
  | @sequenceMore p ps u v hu hv ih1 ih2 =>
    intro F xs hc hF
    simp only [Clear, clearParts] at hc
    have h1 := ih1 _ _ hc.1 (goesOn_behind ht.toBeginTable hv hF)
    have h2 := ih2 F xs hc.2 hF
    rw [List.append_assoc, List.length_append]
    exact .sequenceMore (o := some v.length) h1 (by rwa [List.drop_left])
  | maybeNot => exact fun F xs hc hF => .maybeMiss (hc.2 xs hF)
  | maybe _ ih => exact fun F xs hc hF => .maybeHit (ih F xs hc.1 hF)
  | exactlyNil => exact fun F xs _ _ => .exactlyNil
  | @exactlyMore p n u v hu hv ih1 ih2 =>
    intro F xs hc hF
    have h1 := ih1 _ (v ++ xs) hc (by
      have := goesOn_or ht.toBeginTable hv hF
      exact fun x hx => (this x hx).imp (fun h => by simpa [Parser.begins] using h) id)
    have h2 := ih2 F xs hc hF
    rw [List.append_assoc, List.length_append]
    exact .exactlyMore (o := some v.length) h1 (by rwa [List.drop_left])
  | zeroNil => exact fun F xs hc hF => .zeroStop (hc.2 xs hF)
  | @zeroMore p u v hu hv ih1 ih2 =>
    intro F xs hc hF
    have h1 := ih1 _ (v ++ xs) hc.1 (by
      have := goesOn_or ht.toBeginTable hv hF
      exact fun x hx => (this x hx).imp (fun h => by simpa [Parser.begins] using h) id)
    have h2 := ih2 F xs hc hF
    rw [List.append_assoc, List.length_append]
    exact .zeroMore h1 (by rwa [List.drop_left])
  | @oneOrMore p u v hu hv ih1 ih2 =>
    intro F xs hc hF
    have h1 := ih1 _ (v ++ xs) hc.1 (by
      have := goesOn_or ht.toBeginTable hv hF
      exact fun x hx => (this x hx).imp (fun h => by simpa [Parser.begins] using h) id)
    have h2 := ih2 F xs hc hF
    rw [List.append_assoc, List.length_append]
    exact .oneMore h1 (by rwa [List.drop_left])
  | @delimit p d u v hu hv ih1 ih2 =>
    intro F xs hc hF
    have h1 := ih1 _ (v ++ xs) hc.1 (by
      have := goesOn_or ht.toBeginTable hv hF
      exact fun x hx => (this x hx).imp (fun h => by simpa [Parser.begins] using h) id)
    have e : behind C null begin' [] (fun x => sequenceBegins C.eqv null begin' x [d, p] = true ∨ F x) =
        fun x => sequenceBegins C.eqv null begin' x [d, p] = true ∨ F x := by
      funext x
      simp only [behind, sequenceBegins, allNullable, Bool.false_eq_true, true_and, false_or]
    have h2 := ih2 F xs ⟨⟨hc.2.1, show Clear C null begin' follow p
        (behind C null begin' [] fun x => sequenceBegins C.eqv null begin' x [d, p] = true ∨ F x) by
      rw [e]; exact hc.1, trivial⟩, hc.2.2⟩ hF
    rw [List.append_assoc, List.length_append]
    exact .delimitMore h1 (by rwa [List.drop_left])
  | complete _ ih =>
    intro F xs hc hF
    obtain rfl : xs = [] := by
      cases xs with
      | nil => rfl
      | cons x xs => exact absurd (hF x rfl) (hc.2 x)
    have := ih F [] hc.1 hF
    rw [List.append_nil] at this ⊢
    exact .completeHit this
  | ignore _ ih => exact fun F xs hc hF => .ignore (ih F xs hc hF)
  | join _ ih => exact fun F xs hc hF => .join (ih F xs hc hF)
  | map _ ih => exact fun F xs hc hF => .map (ih F xs hc hF)
  | filter _ ih => exact fun F xs hc hF => .filter (ih F xs hc hF)
  | named _ ih => exact fun F xs hc hF => .named (ih F xs hc hF)
  | custom _ ih => exact fun F xs hc hF => .custom (ih _ xs (ht.clear _) fun x hx => hc x (hF x hx))

end Tok3n
