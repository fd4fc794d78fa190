import Verif.Spec.Templates
import Verif.Spec.Terminate
/-
Proofs about substitution in the arguments of users' class templates.
-/

namespace Tok3n

variable {α : Type} {T : Templates α} {n : Name} {mod : Parser α → Option (Term α)}

mutual
theorem SubstOne.unique : ∀ {p q : Parser α}, SubstOne T n mod p q → ∀ {q'}, SubstOne T n mod p q' → q = q'
  | _, _, .here h hm, _, h' => by
    cases h' with
    | here h2 hm2 => rw [h.unique h2, hm2] at hm; cases hm; rfl
    | other _ hn => exact (hn rfl).elim
    | otherChar hn => exact (hn rfl).elim
  | _, _, .other hc hn h, _, h' => by
    cases h' with
    | here h2 hm2 => exact (hn rfl).elim
    | other _ _ h2 => rw [h.unique h2]
    | otherChar hc' => exact (hc' hc).elim
  | _, _, .otherChar hc, _, h' => by
    cases h' with
    | here h2 hm2 => exact (hc rfl).elim
    | other hc' => exact (hc hc').elim
    | otherChar => rfl
  | _, _, .anyOf, _, h' => by cases h'; rfl
  | _, _, .noneOf, _, h' => by cases h'; rfl
  | _, _, .allOf, _, h' => by cases h'; rfl
  | _, _, .anything, _, h' => by cases h'; rfl
  | _, _, .epsilon, _, h' => by cases h'; rfl
  | _, _, .choice h, _, h' => by cases h' with | choice h2 => rw [h.unique h2]
  | _, _, .sequence h, _, h' => by cases h' with | sequence h2 => rw [h.unique h2]
  | _, _, .maybe h, _, h' => by cases h' with | maybe h2 => rw [h.unique h2]
  | _, _, .exactly h, _, h' => by cases h' with | exactly h2 => rw [h.unique h2]
  | _, _, .oneOrMore h, _, h' => by cases h' with | oneOrMore h2 => rw [h.unique h2]
  | _, _, .zeroOrMore h, _, h' => by cases h' with | zeroOrMore h2 => rw [h.unique h2]
  | _, _, .delimit h g, _, h' => by cases h' with | delimit h2 g2 => rw [h.unique h2, g.unique g2]
  | _, _, .ignore h, _, h' => by cases h' with | ignore h2 => rw [h.unique h2]
  | _, _, .complete h, _, h' => by cases h' with | complete h2 => rw [h.unique h2]
  | _, _, .join h, _, h' => by cases h' with | join h2 => rw [h.unique h2]
  | _, _, .map h, _, h' => by cases h' with | map h2 => rw [h.unique h2]
  | _, _, .filter h, _, h' => by cases h' with | filter h2 => rw [h.unique h2]
  | _, _, .custom hk, _, h' => by
    cases h' with
    | custom => rfl
    | template hk' => rw [hk] at hk'; cases hk'
  | _, _, .template hk h hk', _, h' => by
    cases h' with
    | custom h2 => rw [hk] at h2; cases h2
    | template h2 g2 h3 =>
      rw [hk] at h2
      cases h2
      rw [h.unique g2] at hk'
      rw [T.inj _ _ _ _ hk' h3]
theorem SubstMany.unique : ∀ {ps qs : List (Parser α)}, SubstMany T n mod ps qs → ∀ {qs'}, SubstMany T n mod ps qs' → qs = qs'
  | _, _, .nil, _, h' => by cases h'; rfl
  | _, _, .cons h g, _, h' => by cases h' with | cons h2 g2 => rw [h.unique h2, g.unique g2]
end

mutual
/-- what `substituteOne` gives is what the rules give, if there are no templates -/
theorem substOne_of (hT : ∀ k, T.of k = none) : ∀ (p q : Parser α), substituteOne n mod p = some q → SubstOne T n mod p q
  | .named p m, q, h => by
    rw [substituteOne] at h
    by_cases hc : n.char = m.char
    · rw [if_pos hc] at h
      cases hp : substituteOne n mod p with
      | none => rw [hp] at h; cases h
      | some p' =>
        rw [hp] at h
        have ih := substOne_of hT p p' hp
        by_cases hn : n = m
        · subst hn
          simp only [if_true] at h
          cases hm : mod p' with
          | none => rw [hm] at h; cases h
          | some t =>
            rw [hm] at h
            cases t with
            | parser r => cases h; exact .here ih hm
            | modifier _ => cases h
        · simp only [if_neg hn] at h
          cases h
          exact .other hc hn ih
    · rw [if_neg hc] at h
      cases h
      exact .otherChar hc
  | .anyOf _, _, h => by rw [substituteOne] at h; cases h; exact .anyOf
  | .noneOf _, _, h => by rw [substituteOne] at h; cases h; exact .noneOf
  | .allOf _, _, h => by rw [substituteOne] at h; cases h; exact .allOf
  | .anything, _, h => by rw [substituteOne] at h; cases h; exact .anything
  | .epsilon, _, h => by rw [substituteOne] at h; cases h; exact .epsilon
  | .custom k, _, h => by rw [substituteOne] at h; cases h; exact .custom (hT k)
  | .choice ps, _, h => by
    rw [substituteOne, Option.map_eq_some_iff] at h
    obtain ⟨q, h, rfl⟩ := h
    exact .choice (substMany_of hT ps q h)
  | .sequence ps, _, h => by
    rw [substituteOne, Option.map_eq_some_iff] at h
    obtain ⟨q, h, rfl⟩ := h
    exact .sequence (substMany_of hT ps q h)
  | .maybe p, _, h => by
    rw [substituteOne, Option.map_eq_some_iff] at h
    obtain ⟨q, h, rfl⟩ := h
    exact .maybe (substOne_of hT p q h)
  | .exactly p _, _, h => by
    rw [substituteOne, Option.map_eq_some_iff] at h
    obtain ⟨q, h, rfl⟩ := h
    exact .exactly (substOne_of hT p q h)
  | .oneOrMore p, _, h => by
    rw [substituteOne, Option.map_eq_some_iff] at h
    obtain ⟨q, h, rfl⟩ := h
    exact .oneOrMore (substOne_of hT p q h)
  | .zeroOrMore p, _, h => by
    rw [substituteOne, Option.map_eq_some_iff] at h
    obtain ⟨q, h, rfl⟩ := h
    exact .zeroOrMore (substOne_of hT p q h)
  | .ignore p, _, h => by
    rw [substituteOne, Option.map_eq_some_iff] at h
    obtain ⟨q, h, rfl⟩ := h
    exact .ignore (substOne_of hT p q h)
  | .complete p, _, h => by
    rw [substituteOne, Option.map_eq_some_iff] at h
    obtain ⟨q, h, rfl⟩ := h
    exact .complete (substOne_of hT p q h)
  | .join p, _, h => by
    rw [substituteOne, Option.map_eq_some_iff] at h
    obtain ⟨q, h, rfl⟩ := h
    exact .join (substOne_of hT p q h)
  | .map p _, _, h => by
    rw [substituteOne, Option.map_eq_some_iff] at h
    obtain ⟨q, h, rfl⟩ := h
    exact .map (substOne_of hT p q h)
  | .filter p _, _, h => by
    rw [substituteOne, Option.map_eq_some_iff] at h
    obtain ⟨q, h, rfl⟩ := h
    exact .filter (substOne_of hT p q h)
  | .delimit p d, r, h => by
    rw [substituteOne] at h
    cases hp : substituteOne n mod p with
    | none => rw [hp] at h; cases h
    | some p' =>
      cases hd : substituteOne n mod d with
      | none => rw [hp, hd] at h; cases h
      | some d' =>
        rw [hp, hd] at h
        cases h
        exact .delimit (substOne_of hT p p' hp) (substOne_of hT d d' hd)
theorem substMany_of (hT : ∀ k, T.of k = none) : ∀ (ps qs : List (Parser α)), substituteOnes n mod ps = some qs →
    SubstMany T n mod ps qs
  | [], _, h => by rw [substituteOnes] at h; cases h; exact .nil
  | p :: ps, r, h => by
    rw [substituteOnes] at h
    cases hp : substituteOne n mod p with
    | none => rw [hp] at h; cases h
    | some p' =>
      cases hd : substituteOnes n mod ps with
      | none => rw [hp, hd] at h; cases h
      | some d' =>
        rw [hp, hd] at h
        cases h
        exact .cons (substOne_of hT p p' hp) (substMany_of hT ps d' hd)
end

mutual
theorem SubstOne.computed (hT : ∀ k, T.of k = none) : ∀ {p q : Parser α}, SubstOne T n mod p q → substituteOne n mod p = some q
  | _, _, .here h hm => by rw [substituteOne, if_pos rfl, h.computed hT]; simp [hm]
  | _, _, .other hc hn h => by rw [substituteOne, if_pos hc, h.computed hT]; simp [hn]
  | _, _, .otherChar hc => by rw [substituteOne, if_neg hc]
  | _, _, .anyOf => by rw [substituteOne]
  | _, _, .noneOf => by rw [substituteOne]
  | _, _, .allOf => by rw [substituteOne]
  | _, _, .anything => by rw [substituteOne]
  | _, _, .epsilon => by rw [substituteOne]
  | _, _, .choice h => by rw [substituteOne, h.computed hT]; rfl
  | _, _, .sequence h => by rw [substituteOne, h.computed hT]; rfl
  | _, _, .maybe h => by rw [substituteOne, h.computed hT]; rfl
  | _, _, .exactly h => by rw [substituteOne, h.computed hT]; rfl
  | _, _, .oneOrMore h => by rw [substituteOne, h.computed hT]; rfl
  | _, _, .zeroOrMore h => by rw [substituteOne, h.computed hT]; rfl
  | _, _, .delimit h g => by rw [substituteOne, h.computed hT, g.computed hT]
  | _, _, .ignore h => by rw [substituteOne, h.computed hT]; rfl
  | _, _, .complete h => by rw [substituteOne, h.computed hT]; rfl
  | _, _, .join h => by rw [substituteOne, h.computed hT]; rfl
  | _, _, .map h => by rw [substituteOne, h.computed hT]; rfl
  | _, _, .filter h => by rw [substituteOne, h.computed hT]; rfl
  | _, _, .custom _ => by rw [substituteOne]
  | _, _, .template hk _ _ => by rw [hT] at hk; cases hk
theorem SubstMany.computed (hT : ∀ k, T.of k = none) : ∀ {ps qs : List (Parser α)}, SubstMany T n mod ps qs →
    substituteOnes n mod ps = some qs
  | _, _, .nil => by rw [substituteOnes]
  | _, _, .cons h g => by rw [substituteOnes, h.computed hT, g.computed hT]
end

mutual
/-- in what is written around the parameters nothing is replaced -/
theorem substOne_withArgs {σ σ' : Nat → Parser α} {ok : Nat → Bool}
    (hσ : ∀ i, ok i = true → SubstOne T n mod (σ i) (σ' i)) : ∀ (p : Parser α), p.customs ok = true →
    (∀ m ∈ p.names, m.char = n.char ∧ m ≠ n) → SubstOne T n mod (p.withArgs σ) (p.withArgs σ')
  | .named p m, hk, h => by
    simp only [Parser.names, List.mem_cons, forall_eq_or_imp] at h
    rw [Parser.withArgs, Parser.withArgs]
    exact .other h.1.1.symm (Ne.symm h.1.2) (substOne_withArgs hσ p (by simpa [Parser.customs] using hk) h.2)
  | .anyOf _, hk, _ => by rw [Parser.withArgs, Parser.withArgs]; exact .anyOf
  | .noneOf _, hk, _ => by rw [Parser.withArgs, Parser.withArgs]; exact .noneOf
  | .allOf _, hk, _ => by rw [Parser.withArgs, Parser.withArgs]; exact .allOf
  | .anything, hk, _ => by rw [Parser.withArgs, Parser.withArgs]; exact .anything
  | .epsilon, hk, _ => by rw [Parser.withArgs, Parser.withArgs]; exact .epsilon
  | .custom k, hk, _ => by rw [Parser.withArgs, Parser.withArgs]; exact hσ k (by simpa [Parser.customs] using hk)
  | .choice ps, hk, h => by
    rw [Parser.withArgs, Parser.withArgs]; exact .choice (substMany_withArgs hσ ps (by simpa [Parser.customs] using hk) (by simpa [Parser.names] using h))
  | .sequence ps, hk, h => by
    rw [Parser.withArgs, Parser.withArgs]; exact .sequence (substMany_withArgs hσ ps (by simpa [Parser.customs] using hk) (by simpa [Parser.names] using h))
  | .maybe p, hk, h => by
    rw [Parser.withArgs, Parser.withArgs]; exact .maybe (substOne_withArgs hσ p (by simpa [Parser.customs] using hk) (by simpa [Parser.names] using h))
  | .exactly p _, hk, h => by
    rw [Parser.withArgs, Parser.withArgs]; exact .exactly (substOne_withArgs hσ p (by simpa [Parser.customs] using hk) (by simpa [Parser.names] using h))
  | .oneOrMore p, hk, h => by
    rw [Parser.withArgs, Parser.withArgs]; exact .oneOrMore (substOne_withArgs hσ p (by simpa [Parser.customs] using hk) (by simpa [Parser.names] using h))
  | .zeroOrMore p, hk, h => by
    rw [Parser.withArgs, Parser.withArgs]; exact .zeroOrMore (substOne_withArgs hσ p (by simpa [Parser.customs] using hk) (by simpa [Parser.names] using h))
  | .delimit p d, hk, h => by
    simp only [Parser.names, List.mem_append] at h
    simp only [Parser.customs, Bool.and_eq_true] at hk
    rw [Parser.withArgs, Parser.withArgs]
    exact .delimit (substOne_withArgs hσ p hk.1 fun m hm => h m (.inl hm)) (substOne_withArgs hσ d hk.2 fun m hm => h m (.inr hm))
  | .ignore p, hk, h => by
    rw [Parser.withArgs, Parser.withArgs]; exact .ignore (substOne_withArgs hσ p (by simpa [Parser.customs] using hk) (by simpa [Parser.names] using h))
  | .complete p, hk, h => by
    rw [Parser.withArgs, Parser.withArgs]; exact .complete (substOne_withArgs hσ p (by simpa [Parser.customs] using hk) (by simpa [Parser.names] using h))
  | .join p, hk, h => by
    rw [Parser.withArgs, Parser.withArgs]; exact .join (substOne_withArgs hσ p (by simpa [Parser.customs] using hk) (by simpa [Parser.names] using h))
  | .map p _, hk, h => by
    rw [Parser.withArgs, Parser.withArgs]; exact .map (substOne_withArgs hσ p (by simpa [Parser.customs] using hk) (by simpa [Parser.names] using h))
  | .filter p _, hk, h => by
    rw [Parser.withArgs, Parser.withArgs]; exact .filter (substOne_withArgs hσ p (by simpa [Parser.customs] using hk) (by simpa [Parser.names] using h))
theorem substMany_withArgs {σ σ' : Nat → Parser α} {ok : Nat → Bool}
    (hσ : ∀ i, ok i = true → SubstOne T n mod (σ i) (σ' i)) : ∀ (ps : List (Parser α)), allCustoms ok ps = true →
    (∀ m ∈ Parser.namesAll ps, m.char = n.char ∧ m ≠ n) →
    SubstMany T n mod (Parser.withArgsAll σ ps) (Parser.withArgsAll σ' ps)
  | [], hk, _ => by rw [Parser.withArgsAll, Parser.withArgsAll]; exact .nil
  | p :: ps, hk, h => by
    simp only [Parser.namesAll, List.mem_append] at h
    simp only [allCustoms, Bool.and_eq_true] at hk
    rw [Parser.withArgsAll, Parser.withArgsAll]
    exact .cons (substOne_withArgs hσ p hk.1 fun m hm => h m (.inl hm)) (substMany_withArgs hσ ps hk.2 fun m hm => h m (.inr hm))
end

theorem SubstMany.getD {ps qs : List (Parser α)} (h : SubstMany T n mod ps qs) (i : Nat) :
    (i < ps.length ∧ ∃ p q, (∀ d, ps.getD i d = p) ∧ (∀ d, qs.getD i d = q) ∧ SubstOne T n mod p q) ∨
    (ps.length ≤ i ∧ (∀ d, ps.getD i d = d) ∧ ∀ d, qs.getD i d = d) := by
  match ps, qs, h, i with
  | _, _, .nil, i => exact .inr ⟨by simp, by simp, by simp⟩
  | _, _, .cons h g, 0 => exact .inl ⟨by simp, _, _, by simp, by simp, h⟩
  | _, _, .cons h g, i + 1 =>
    rcases g.getD i with ⟨h1, p, q, h2, h3, h4⟩ | ⟨h1, h2, h3⟩
    · exact .inl ⟨by simpa using h1, p, q, by simpa using h2, by simpa using h3, h4⟩
    · exact .inr ⟨by simpa using h1, by simpa using h2, by simpa using h3⟩

mutual
/-- there is a result, if there is one for all custom parsers in it -/
theorem substOne_exists (hm : ∀ q, ∃ r, mod q = some (.parser r)) (ok : Nat → Bool)
    (hc : ∀ k, ok k = true → ∃ q, SubstOne T n mod (.custom k) q) : ∀ (p : Parser α), p.customs ok = true →
    ∃ q, SubstOne T n mod p q
  | .named p m, h => by
    obtain ⟨q, hq⟩ := substOne_exists hm ok hc p (by simpa [Parser.customs] using h)
    by_cases hc : n.char = m.char
    · by_cases hn : n = m
      · subst hn
        obtain ⟨r, hr⟩ := hm q
        exact ⟨r, .here hq hr⟩
      · exact ⟨_, .other hc hn hq⟩
    · exact ⟨_, .otherChar hc⟩
  | .anyOf _, _ => ⟨_, .anyOf⟩
  | .noneOf _, _ => ⟨_, .noneOf⟩
  | .allOf _, _ => ⟨_, .allOf⟩
  | .anything, _ => ⟨_, .anything⟩
  | .epsilon, _ => ⟨_, .epsilon⟩
  | .custom k, h => hc k (by simpa [Parser.customs] using h)
  | .choice ps, h => (substMany_exists hm ok hc ps (by simpa [Parser.customs] using h)).imp' _ fun _ => .choice
  | .sequence ps, h => (substMany_exists hm ok hc ps (by simpa [Parser.customs] using h)).imp' _ fun _ => .sequence
  | .maybe p, h => (substOne_exists hm ok hc p (by simpa [Parser.customs] using h)).imp' _ fun _ => .maybe
  | .exactly p _, h => (substOne_exists hm ok hc p (by simpa [Parser.customs] using h)).imp' _ fun _ => .exactly
  | .oneOrMore p, h => (substOne_exists hm ok hc p (by simpa [Parser.customs] using h)).imp' _ fun _ => .oneOrMore
  | .zeroOrMore p, h => (substOne_exists hm ok hc p (by simpa [Parser.customs] using h)).imp' _ fun _ => .zeroOrMore
  | .ignore p, h => (substOne_exists hm ok hc p (by simpa [Parser.customs] using h)).imp' _ fun _ => .ignore
  | .complete p, h => (substOne_exists hm ok hc p (by simpa [Parser.customs] using h)).imp' _ fun _ => .complete
  | .join p, h => (substOne_exists hm ok hc p (by simpa [Parser.customs] using h)).imp' _ fun _ => .join
  | .map p _, h => (substOne_exists hm ok hc p (by simpa [Parser.customs] using h)).imp' _ fun _ => .map
  | .filter p _, h => (substOne_exists hm ok hc p (by simpa [Parser.customs] using h)).imp' _ fun _ => .filter
  | .delimit p d, h => by
    simp only [Parser.customs, Bool.and_eq_true] at h
    obtain ⟨q, hq⟩ := substOne_exists hm ok hc p h.1
    obtain ⟨e, he⟩ := substOne_exists hm ok hc d h.2
    exact ⟨_, .delimit hq he⟩
theorem substMany_exists (hm : ∀ q, ∃ r, mod q = some (.parser r)) (ok : Nat → Bool)
    (hc : ∀ k, ok k = true → ∃ q, SubstOne T n mod (.custom k) q) : ∀ (ps : List (Parser α)), allCustoms ok ps = true →
    ∃ qs, SubstMany T n mod ps qs
  | [], _ => ⟨_, .nil⟩
  | p :: ps, h => by
    simp only [allCustoms, Bool.and_eq_true] at h
    obtain ⟨q, hq⟩ := substOne_exists hm ok hc p h.1
    obtain ⟨qs, hqs⟩ := substMany_exists hm ok hc ps h.2
    exact ⟨_, .cons hq hqs⟩
end

mutual
theorem customs_true : ∀ p : Parser α, p.customs (fun _ => true) = true
  | .anyOf _ | .noneOf _ | .allOf _ | .anything | .epsilon | .custom _ => by rw [Parser.customs]
  | .choice ps | .sequence ps => by rw [Parser.customs]; exact allCustoms_true ps
  | .delimit p d => by rw [Parser.customs, customs_true p, customs_true d]; rfl
  | .oneOrMore p | .zeroOrMore p | .maybe p | .exactly p _ | .ignore p | .complete p | .join p | .map p _
  | .filter p _ | .named p _ => by rw [Parser.customs]; exact customs_true p
theorem allCustoms_true : ∀ ps : List (Parser α), allCustoms (fun _ => true) ps = true
  | [] => by rw [allCustoms]
  | p :: ps => by rw [allCustoms, customs_true p, allCustoms_true ps]; rfl
end

end Tok3n
