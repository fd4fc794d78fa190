import Verif.Spec.OneAhead
import Verif.Proof.LanguageParse
import Verif.Proof.Laws
/-
Where one element tells what to do, the grammar is clear.
-/

namespace Tok3n

variable {α β : Type} {C : Ctx α β} {null : Nat → Bool} {begin' : Nat → β → Bool} {follow : Nat → β → Prop}

/-- a match or a failure, on every text -/
abbrev Total (C : Ctx α β) (p : Parser α) : Prop := ∀ xs, ∃ o, PegC C p xs o

theorem Total.zeroOrMore (ht : BeginTable C null begin') {p : Parser α} (h : Total C p) (hn : p.nullable null = false) :
    Total C (.zeroOrMore p) := fun xs => by
  induction hl : xs.length using Nat.strongRecOn generalizing xs with
  | ind m ih =>
    obtain ⟨o, ho⟩ := h xs
    cases o with
    | none => exact ⟨_, .zeroStop ho⟩
    | some k =>
      have hb := peg_begins ht ho k rfl
      have hk : 0 < k := Nat.pos_of_ne_zero fun h0 => by have := hb.1 h0; rw [hn] at this; cases this
      have hle := ho.le _ rfl
      obtain ⟨o', ho'⟩ := ih (xs.drop k).length (by simp; omega) (xs.drop k) rfl
      cases o' with
      | none => exact (peg_zeroOrMore_none ho').elim
      | some j => exact ⟨_, .zeroMore ho ho'⟩

theorem Total.sequenceCons {p : Parser α} {ps : List (Parser α)} (h : Total C p) (h' : Total C (.sequence ps)) :
    Total C (.sequence (p :: ps)) := fun xs => by
  obtain ⟨o, ho⟩ := h xs
  cases o with
  | none => exact ⟨_, .sequenceMiss ho⟩
  | some k =>
    obtain ⟨o', ho'⟩ := h' (xs.drop k)
    exact ⟨_, .sequenceMore ho ho'⟩

theorem Total.choiceCons {p : Parser α} {ps : List (Parser α)} (h : Total C p) (h' : Total C (.choice ps)) :
    Total C (.choice (p :: ps)) := fun xs => by
  obtain ⟨o, ho⟩ := h xs
  cases o with
  | none =>
    obtain ⟨o', ho'⟩ := h' xs
    exact ⟨_, .choiceMiss ho ho'⟩
  | some k => exact ⟨_, .choiceHit ho⟩

theorem total_basic {p : Parser α} (hp : IsBasic p) : Total C p := fun xs => by
  by_cases h : ∃ k, Matches C.eqv p xs k
  · exact ⟨_, .hit hp h.choose_spec⟩
  · exact ⟨_, .miss hp fun k hk => h ⟨k, hk⟩⟩

theorem Total.exactly {p : Parser α} (h : Total C p) : ∀ n, Total C (.exactly p n)
  | 0, _ => ⟨_, .exactlyNil⟩
  | n + 1, xs => by
    obtain ⟨o, ho⟩ := h xs
    cases o with
    | none => exact ⟨_, .exactlyMiss ho⟩
    | some k =>
      obtain ⟨o', ho'⟩ := Total.exactly h n (xs.drop k)
      exact ⟨_, .exactlyMore ho ho'⟩

theorem Total.refuses (ht : BeginTable C null begin') {p : Parser α} (h : Total C p) (hn : p.nullable null = false)
    {F : β → Prop} (hF : ∀ x, F x → p.begins C.eqv null begin' x = false) : Refuses C p F := by
  intro xs hx
  obtain ⟨o, ho⟩ := h xs
  cases o with
  | none => exact ho
  | some k =>
    have hb := peg_begins ht ho k rfl
    have hk : 0 < k := Nat.pos_of_ne_zero fun h0 => by have := hb.1 h0; rw [hn] at this; cases this
    obtain ⟨x, rest, rfl, hb'⟩ := hb.2 hk
    rw [hF x (hx x rfl)] at hb'
    cases hb'

theorem Total.leaves (ht : BeginTable C null begin') {p q : Parser α} (h : Total C p) {F : β → Prop}
    (hn : p.nullable null = false)
    (hF : ∀ x, (q.begins C.eqv null begin' x = true ∨ (q.nullable null = true ∧ F x)) → p.begins C.eqv null begin' x = false) :
    Leaves C F p q := by
  intro w xs hw hx
  have hb := word_begins ht hw
  refine h.refuses ht hn hF _ ?_
  cases w with
  | nil => exact fun x h => .inr ⟨hb, hx x h⟩
  | cons y w => rintro x ⟨⟩; exact .inl hb

mutual
theorem OneAhead.total (ht : BeginTable C null begin') (hc : ∀ k, Total C (.custom k)) : ∀ (p : Parser α) (F : β → Prop),
    OneAhead C null begin' follow p F → Total C p
  | .anyOf _, _, _ | .noneOf _, _, _ | .allOf _, _, _ | .anything, _, _ => total_basic trivial
  | .epsilon, _, _ => fun _ => ⟨_, .epsilon⟩
  | .choice ps, F, h => oneAheadAll_total ht hc ps F h.1
  | .sequence ps, F, h => oneAheadParts_total ht hc ps F h
  | .maybe p, F, h => fun xs => by
    obtain ⟨o, ho⟩ := OneAhead.total ht hc p F h.1 xs
    cases o with
    | none => exact ⟨_, .maybeMiss ho⟩
    | some k => exact ⟨_, .maybeHit ho⟩
  | .exactly p n, F, h => (OneAhead.total ht hc p _ h).exactly n
  | .zeroOrMore p, F, h => (OneAhead.total ht hc p _ h.1).zeroOrMore ht h.2.1
  | .oneOrMore p, F, h => fun xs => by
    obtain ⟨o, ho⟩ := OneAhead.total ht hc p _ h.1 xs
    cases o with
    | none => exact ⟨_, .oneMiss ho⟩
    | some k =>
      obtain ⟨o', ho'⟩ := (OneAhead.total ht hc p _ h.1).zeroOrMore ht h.2.1 (xs.drop k)
      cases o' with
      | none => exact (peg_zeroOrMore_none ho').elim
      | some j => exact ⟨_, .oneMore ho ho'⟩
  | .delimit p d, F, h => fun xs => by
    have hp := OneAhead.total ht hc p _ h.1
    have hd := OneAhead.total ht hc d _ h.2.1
    have hs : Total C (.sequence [d, p]) := hd.sequenceCons (hp.sequenceCons fun _ => ⟨_, .sequenceNil⟩)
    obtain ⟨o, ho⟩ := hp xs
    cases o with
    | none => exact ⟨_, .delimitMiss ho⟩
    | some k =>
      obtain ⟨o', ho'⟩ := hs.zeroOrMore ht h.2.2.1 (xs.drop k)
      cases o' with
      | none => exact (peg_zeroOrMore_none ho').elim
      | some j => exact ⟨_, .delimitMore ho ho'⟩
  | .complete p, F, h => fun xs => by
    obtain ⟨o, ho⟩ := OneAhead.total ht hc p F h.1 xs
    cases o with
    | none => exact ⟨_, .completeMiss ho⟩
    | some k =>
      have hle := ho.le _ rfl
      by_cases hk : k = xs.length
      · subst hk; exact ⟨_, .completeHit ho⟩
      · exact ⟨_, .completeShort ho (by omega)⟩
  | .ignore p, F, h => fun xs => (OneAhead.total ht hc p F h xs).imp fun _ => .ignore
  | .join p, F, h => fun xs => (OneAhead.total ht hc p F h xs).imp fun _ => .join
  | .map p _, F, h => fun xs => (OneAhead.total ht hc p F h xs).imp fun _ => .map
  | .filter p _, F, h => fun xs => (OneAhead.total ht hc p F h xs).imp fun _ => .filter
  | .named p _, F, h => fun xs => (OneAhead.total ht hc p F h xs).imp fun _ => .named
  | .custom k, _, _ => hc k
theorem oneAheadAll_total (ht : BeginTable C null begin') (hc : ∀ k, Total C (.custom k)) : ∀ (ps : List (Parser α)) (F : β → Prop),
    oneAheadAll C null begin' follow ps F → Total C (.choice ps)
  | [], _, _ => fun _ => ⟨_, .choiceNil⟩
  | p :: ps, F, h => (OneAhead.total ht hc p F h.1).choiceCons (oneAheadAll_total ht hc ps F h.2)
theorem oneAheadParts_total (ht : BeginTable C null begin') (hc : ∀ k, Total C (.custom k)) : ∀ (ps : List (Parser α)) (F : β → Prop),
    oneAheadParts C null begin' follow ps F → Total C (.sequence ps)
  | [], _, _ => fun _ => ⟨_, .sequenceNil⟩
  | p :: ps, F, h => (OneAhead.total ht hc p _ h.1).sequenceCons (oneAheadParts_total ht hc ps F h.2)
end

theorem oneAheadAll_mem {F : β → Prop} {p : Parser α} : ∀ {ps : List (Parser α)}, oneAheadAll C null begin' follow ps F → p ∈ ps →
    OneAhead C null begin' follow p F
  | _ :: _, h, .head _ => h.1
  | _ :: _, h, .tail _ hp => oneAheadAll_mem h.2 hp

mutual
theorem OneAhead.clear (ht : BeginTable C null begin') (hc : ∀ k, Total C (.custom k)) : ∀ (p : Parser α) (F : β → Prop),
    OneAhead C null begin' follow p F → Clear C null begin' follow p F
  | .anyOf _, _, _ | .noneOf _, _, _ | .allOf _, _, _ | .anything, _, _ | .epsilon, _, _ => trivial
  | .choice ps, F, h => ⟨oneAheadAll_clear ht hc ps F h.1, h.2.imp_of_mem fun hp _ hpq =>
      ((oneAheadAll_mem h.1 hp).total ht hc).leaves ht hpq.1 hpq.2⟩
  | .sequence ps, F, h => oneAheadParts_clear ht hc ps F h
  | .maybe p, F, h => ⟨OneAhead.clear ht hc p F h.1, (h.1.total ht hc).refuses ht h.2.1 h.2.2⟩
  | .exactly p _, F, h => OneAhead.clear ht hc p _ h
  | .zeroOrMore p, F, h => ⟨OneAhead.clear ht hc p _ h.1, (h.1.total ht hc).refuses ht h.2.1 h.2.2⟩
  | .oneOrMore p, F, h => ⟨OneAhead.clear ht hc p _ h.1, (h.1.total ht hc).refuses ht h.2.1 h.2.2⟩
  | .delimit p d, F, h => ⟨OneAhead.clear ht hc p _ h.1, OneAhead.clear ht hc d _ h.2.1,
      ((h.2.1.total ht hc).sequenceCons ((h.1.total ht hc).sequenceCons fun _ => ⟨_, .sequenceNil⟩)).refuses ht h.2.2.1 h.2.2.2⟩
  | .complete p, F, h => ⟨OneAhead.clear ht hc p F h.1, h.2⟩
  | .ignore p, F, h | .join p, F, h | .map p _, F, h | .filter p _, F, h | .named p _, F, h => OneAhead.clear ht hc p F h
  | .custom _, _, h => h
theorem oneAheadAll_clear (ht : BeginTable C null begin') (hc : ∀ k, Total C (.custom k)) : ∀ (ps : List (Parser α)) (F : β → Prop),
    oneAheadAll C null begin' follow ps F → clearAll C null begin' follow ps F
  | [], _, _ => trivial
  | p :: ps, F, h => ⟨OneAhead.clear ht hc p F h.1, oneAheadAll_clear ht hc ps F h.2⟩
theorem oneAheadParts_clear (ht : BeginTable C null begin') (hc : ∀ k, Total C (.custom k)) : ∀ (ps : List (Parser α)) (F : β → Prop),
    oneAheadParts C null begin' follow ps F → clearParts C null begin' follow ps F
  | [], _, _ => trivial
  | p :: ps, F, h => ⟨OneAhead.clear ht hc p _ h.1, oneAheadParts_clear ht hc ps F h.2⟩
end

theorem OneAheadTable.clear [LinearOrder α] (ht : OneAheadTable C null begin' follow) : ClearTable C null begin' follow where
  toBeginTable := ht.toBeginTable
  clear k := (ht.ahead k).clear ht.toBeginTable fun k xs => let ⟨_, _, _, h⟩ := ht.returns k; peg_total h xs

theorem OneAheadTable.total [LinearOrder α] (ht : OneAheadTable C null begin' follow) (k : Nat) : Total C (.custom k) :=
  fun xs => let ⟨_, _, _, h⟩ := ht.returns k; peg_total h xs

end Tok3n
