import Verif.Spec.Names
import Verif.Spec.Example
/-
Properties C34–C36: substitution and composition of modifiers.
-/

namespace Tok3n

variable {α : Type}

/-! ## C34 Several substitutions -/

theorem substituteAll_append (a b : List (Subst α)) (p : Parser α) :
    substituteAll (a ++ b) p = (substituteAll a p).bind (substituteAll b) := by
  induction a generalizing p with
  | nil => simp [substituteAll]
  | cons x a ih =>
    obtain ⟨n, m⟩ := x
    simp only [List.cons_append, substituteAll]
    cases substituteOne n (callMod m) p with
    | none => rfl
    | some p' => exact ih p'

theorem callMods_subs (subs : List (Subst α)) (p : Parser α) :
    callMods (subs.map fun x => .subInner [x]) (.parser p) = (substituteAll subs p).map .parser := by
  induction subs generalizing p with
  | nil => simp [callMods, substituteAll]
  | cons x subs ih =>
    obtain ⟨n, m⟩ := x
    simp only [List.map_cons, callMods, callMod, substituteAll]
    cases substituteOne n (callMod m) p with
    | none => rfl
    | some p' => exact ih p'

/-- `p % sub(s1, ..., sn)`, `sub(p, s1, ..., sn)`, `p % sub(s1) % ... % sub(sn)` and
`p % (sub(s1) % ... % sub(sn))` are the same parser; if one does not compile, none does.
Splitting the list in any other way makes no difference either. -/
theorem C34_one_by_one (p : Parser α) (subs : List (Subst α)) (hn : subs ≠ []) :
    percent (.parser p) (.modifier (subApi₁ subs)) = (subApi p subs).map .parser ∧
    (subs.map fun s => Term.modifier (subApi₁ [s])).foldl (fun t m => t.bind (percent · m)) (some (.parser p)) =
      (subApi p subs).map .parser ∧
    percent (.parser p) (.modifier (.multi (subs.map fun s => subApi₁ [s]))) = (subApi p subs).map .parser ∧
    ∀ a b, subs = a ++ b → a ≠ [] → b ≠ [] → subApi p subs = (subApi p a).bind (subApi · b) := by
  refine ⟨?_, ?_, ?_, ?_⟩
  · simp [percent, subApi₁, callMod, subApi, hn]
  · rw [subApi, if_neg hn, ← callMods_subs]
    clear hn
    have hnone : ∀ subs : List (Subst α),
        (subs.map fun s => Term.modifier (subApi₁ [s])).foldl (fun t m => t.bind (percent · m)) none = none := by
      intro subs; induction subs with
      | nil => rfl
      | cons _ _ ih => exact ih
    induction subs generalizing p with
    | nil => simp [callMods]
    | cons s subs ih =>
      simp only [List.map_cons, List.foldl_cons, Option.bind_some, percent, callMods]
      cases h : callMod (subApi₁ [s]) p with
      | none => rw [subApi₁] at h; rw [h]; exact hnone _
      | some t =>
        have h' := h
        rw [subApi₁] at h; rw [h]
        cases t with
        | parser q => exact ih q
        | modifier m => simp [callMod, Option.map_eq_some_iff] at h
  · rw [subApi, if_neg hn]
    simp only [percent, callMod, subApi₁, callMods_subs]
    cases substituteAll subs p <;> rfl
  · rintro a b rfl ha hb
    rw [subApi, if_neg hn, substituteAll_append, subApi, if_neg ha]
    congr 1
    funext q
    rw [subApi, if_neg hb]

-- two substitutions, the second reaching the name the first one introduces
example : let x : Name := ⟨0, [1]⟩; let y : Name := ⟨0, [2]⟩
    subApi (.maybe (.named (Ex.all "a") x)) [(x, .name y), (y, .ignore)] = some (.maybe (.ignore (Ex.all "a"))) ∧
    subApi (.maybe (.named (Ex.all "a") x)) [(y, .ignore), (x, .name y)] =
      some (.maybe (.named (Ex.all "a") y)) := ⟨rfl, rfl⟩

/-! ## C35 What a substitution reaches -/

mutual
theorem replaceNamed_absent {n : Name} {f : Parser α → Parser α} : ∀ p : Parser α, n ∉ p.names → p.replaceNamed n f = p
  | .named p m, h => by
    simp only [Parser.names, List.mem_cons, not_or] at h
    rw [Parser.replaceNamed, replaceNamed_absent p h.2, if_neg (Ne.symm h.1)]
  | .choice ps, h => by rw [Parser.replaceNamed, replaceNamedAll_absent ps (by simpa [Parser.names] using h)]
  | .sequence ps, h => by rw [Parser.replaceNamed, replaceNamedAll_absent ps (by simpa [Parser.names] using h)]
  | .maybe p, h => by rw [Parser.replaceNamed, replaceNamed_absent p (by simpa [Parser.names] using h)]
  | .exactly p _, h => by rw [Parser.replaceNamed, replaceNamed_absent p (by simpa [Parser.names] using h)]
  | .oneOrMore p, h => by rw [Parser.replaceNamed, replaceNamed_absent p (by simpa [Parser.names] using h)]
  | .zeroOrMore p, h => by rw [Parser.replaceNamed, replaceNamed_absent p (by simpa [Parser.names] using h)]
  | .ignore p, h => by rw [Parser.replaceNamed, replaceNamed_absent p (by simpa [Parser.names] using h)]
  | .complete p, h => by rw [Parser.replaceNamed, replaceNamed_absent p (by simpa [Parser.names] using h)]
  | .join p, h => by rw [Parser.replaceNamed, replaceNamed_absent p (by simpa [Parser.names] using h)]
  | .map p _, h => by rw [Parser.replaceNamed, replaceNamed_absent p (by simpa [Parser.names] using h)]
  | .filter p _, h => by rw [Parser.replaceNamed, replaceNamed_absent p (by simpa [Parser.names] using h)]
  | .delimit p d, h => by
    simp only [Parser.names, List.mem_append, not_or] at h
    rw [Parser.replaceNamed, replaceNamed_absent p h.1, replaceNamed_absent d h.2]
  | .anyOf _, _ | .noneOf _, _ | .allOf _, _ | .anything, _ | .epsilon, _ | .custom _, _ => by rw [Parser.replaceNamed]
theorem replaceNamedAll_absent {n : Name} {f : Parser α → Parser α} : ∀ ps : List (Parser α),
    n ∉ Parser.namesAll ps → Parser.replaceNamedAll n f ps = ps
  | [], _ => by rw [Parser.replaceNamedAll]
  | p :: ps, h => by
    simp only [Parser.namesAll, List.mem_append, not_or] at h
    rw [Parser.replaceNamedAll, replaceNamed_absent p h.1, replaceNamedAll_absent ps h.2]
end

mutual
theorem substituteOne_spec {n : Name} {mod : Parser α → Option (Term α)} {f : Parser α → Parser α}
    (hm : ∀ q, mod q = some (.parser (f q))) : ∀ p : Parser α, n ∉ p.hidden n.char →
    substituteOne n mod p = some (p.replaceNamed n f)
  | .named p m, h => by
    rw [substituteOne, Parser.replaceNamed]
    by_cases h2 : n.char = m.char
    · simp only [Parser.hidden, if_pos h2.symm] at h
      rw [if_pos h2, substituteOne_spec hm p h]
      simp only [hm]
      by_cases he : n = m
      · rw [if_pos he, if_pos he.symm]
      · rw [if_neg he, if_neg (Ne.symm he)]
    · simp only [Parser.hidden, if_neg (Ne.symm h2)] at h
      rw [if_neg h2, replaceNamed_absent p h, if_neg fun e => h2 (by rw [e])]
  | .choice ps, h => by
    rw [substituteOne, Parser.replaceNamed, substituteOnes_spec hm ps (by simpa [Parser.hidden] using h)]; rfl
  | .sequence ps, h => by
    rw [substituteOne, Parser.replaceNamed, substituteOnes_spec hm ps (by simpa [Parser.hidden] using h)]; rfl
  | .maybe p, h => by
    rw [substituteOne, Parser.replaceNamed, substituteOne_spec hm p (by simpa [Parser.hidden] using h)]; rfl
  | .exactly p _, h => by
    rw [substituteOne, Parser.replaceNamed, substituteOne_spec hm p (by simpa [Parser.hidden] using h)]; rfl
  | .oneOrMore p, h => by
    rw [substituteOne, Parser.replaceNamed, substituteOne_spec hm p (by simpa [Parser.hidden] using h)]; rfl
  | .zeroOrMore p, h => by
    rw [substituteOne, Parser.replaceNamed, substituteOne_spec hm p (by simpa [Parser.hidden] using h)]; rfl
  | .ignore p, h => by
    rw [substituteOne, Parser.replaceNamed, substituteOne_spec hm p (by simpa [Parser.hidden] using h)]; rfl
  | .complete p, h => by
    rw [substituteOne, Parser.replaceNamed, substituteOne_spec hm p (by simpa [Parser.hidden] using h)]; rfl
  | .join p, h => by
    rw [substituteOne, Parser.replaceNamed, substituteOne_spec hm p (by simpa [Parser.hidden] using h)]; rfl
  | .map p _, h => by
    rw [substituteOne, Parser.replaceNamed, substituteOne_spec hm p (by simpa [Parser.hidden] using h)]; rfl
  | .filter p _, h => by
    rw [substituteOne, Parser.replaceNamed, substituteOne_spec hm p (by simpa [Parser.hidden] using h)]; rfl
  | .delimit p d, h => by
    simp only [Parser.hidden, List.mem_append, not_or] at h
    rw [substituteOne, Parser.replaceNamed, substituteOne_spec hm p h.1, substituteOne_spec hm d h.2]
  | .anyOf _, _ | .noneOf _, _ | .allOf _, _ | .anything, _ | .epsilon, _ | .custom _, _ => by
    rw [substituteOne, Parser.replaceNamed]
theorem substituteOnes_spec {n : Name} {mod : Parser α → Option (Term α)} {f : Parser α → Parser α}
    (hm : ∀ q, mod q = some (.parser (f q))) : ∀ ps : List (Parser α), n ∉ Parser.hiddenAll n.char ps →
    substituteOnes n mod ps = some (Parser.replaceNamedAll n f ps)
  | [], _ => by rw [substituteOnes, Parser.replaceNamedAll]
  | p :: ps, h => by
    simp only [Parser.hiddenAll, List.mem_append, not_or] at h
    rw [substituteOnes, Parser.replaceNamedAll, substituteOne_spec hm p h.1, substituteOnes_spec hm ps h.2]
end

/-- `p % sub(name<n> = m)` is `p` with `m` applied to every sub-parser named `n`, whatever
its place, and everything else as it was.  Missing are expressions in which `n` occurs
below a name of another character type: there nothing is substituted
(`C35_refuted_character_type`, `C35_exactly`). -/
theorem C35_everywhere_partial (p : Parser α) (n : Name) (m : Modifier α) (f : Parser α → Parser α)
    (hm : ∀ q, callMod m q = some (.parser (f q))) (h : n ∉ p.hidden n.char) :
    subApi p [(n, m)] = some (p.replaceNamed n f) := by
  rw [subApi, if_neg (by simp), substituteAll, substituteOne_spec hm p h]
  simp [substituteAll]

mutual
theorem substituteOne_absent {n : Name} {mod : Parser α → Option (Term α)} : ∀ p : Parser α, n ∉ p.names →
    substituteOne n mod p = some p
  | .named p m, h => by
    simp only [Parser.names, List.mem_cons, not_or] at h
    rw [substituteOne, substituteOne_absent p h.2]
    split
    · simp [h.1]
    · rfl
  | .choice ps, h => by rw [substituteOne, substituteOnes_absent ps (by simpa [Parser.names] using h)]; rfl
  | .sequence ps, h => by rw [substituteOne, substituteOnes_absent ps (by simpa [Parser.names] using h)]; rfl
  | .maybe p, h => by rw [substituteOne, substituteOne_absent p (by simpa [Parser.names] using h)]; rfl
  | .exactly p _, h => by rw [substituteOne, substituteOne_absent p (by simpa [Parser.names] using h)]; rfl
  | .oneOrMore p, h => by rw [substituteOne, substituteOne_absent p (by simpa [Parser.names] using h)]; rfl
  | .zeroOrMore p, h => by rw [substituteOne, substituteOne_absent p (by simpa [Parser.names] using h)]; rfl
  | .ignore p, h => by rw [substituteOne, substituteOne_absent p (by simpa [Parser.names] using h)]; rfl
  | .complete p, h => by rw [substituteOne, substituteOne_absent p (by simpa [Parser.names] using h)]; rfl
  | .join p, h => by rw [substituteOne, substituteOne_absent p (by simpa [Parser.names] using h)]; rfl
  | .map p _, h => by rw [substituteOne, substituteOne_absent p (by simpa [Parser.names] using h)]; rfl
  | .filter p _, h => by rw [substituteOne, substituteOne_absent p (by simpa [Parser.names] using h)]; rfl
  | .delimit p d, h => by
    simp only [Parser.names, List.mem_append, not_or] at h
    rw [substituteOne, substituteOne_absent p h.1, substituteOne_absent d h.2]
  | .anyOf _, _ | .noneOf _, _ | .allOf _, _ | .anything, _ | .epsilon, _ | .custom _, _ => by rw [substituteOne]
theorem substituteOnes_absent {n : Name} {mod : Parser α → Option (Term α)} : ∀ ps : List (Parser α),
    n ∉ Parser.namesAll ps → substituteOnes n mod ps = some ps
  | [], _ => by rw [substituteOnes]
  | p :: ps, h => by
    simp only [Parser.namesAll, List.mem_append, not_or] at h
    rw [substituteOnes, substituteOne_absent p h.1, substituteOnes_absent ps h.2]
end

/-- A parser in which the name does not occur is left alone, whatever the modifier. -/
theorem C35_absent (p : Parser α) (n : Name) (m : Modifier α) (h : n ∉ p.names) :
    subApi p [(n, m)] = some p := by
  rw [subApi, if_neg (by simp), substituteAll, substituteOne_absent p h]
  simp [substituteAll]

mutual
theorem substituteOne_names {n : Name} {mod : Parser α → Option (Term α)}
    (hm : ∀ q r, mod q = some (.parser r) → r.names = q.names) : ∀ p p' : Parser α,
    n ∉ p.hidden n.char → substituteOne n mod p = some p' → p'.names = p.names.filter (· ≠ n)
  | .named p m, p', h, hs => by
    rw [substituteOne] at hs
    by_cases hc : n.char = m.char
    · simp only [Parser.hidden, if_pos hc.symm] at h
      rw [if_pos hc] at hs
      cases h1 : substituteOne n mod p with
      | none => simp [h1] at hs
      | some q =>
        have ih := substituteOne_names hm p q h h1
        simp only [h1] at hs
        by_cases he : n = m
        · rw [if_pos he] at hs
          subst he
          cases h2 : mod q with
          | none => simp [h2] at hs
          | some t =>
            cases t with
            | modifier _ => simp [h2] at hs
            | parser r =>
              simp only [h2, Option.some.injEq] at hs
              subst hs
              rw [hm _ _ h2, ih, Parser.names]
              simp
        · rw [if_neg he] at hs
          cases hs
          rw [Parser.names, Parser.names, ih]
          simp [Ne.symm he]
    · simp only [Parser.hidden, if_neg (Ne.symm hc)] at h
      rw [if_neg hc] at hs
      cases hs
      refine (List.filter_eq_self.2 fun k hk => ?_).symm
      simp only [Parser.names, List.mem_cons] at hk
      rcases hk with rfl | hk
      · simp only [decide_eq_true_eq]; exact fun e => hc (by rw [e])
      · simp only [decide_eq_true_eq]; exact fun e => h (e ▸ hk)
  | .choice ps, p', h, hs => by
    simp only [substituteOne, Option.map_eq_some_iff] at hs
    obtain ⟨q, hq, rfl⟩ := hs
    simpa only [Parser.names] using substituteOnes_names hm ps q (by simpa [Parser.hidden] using h) hq
  | .sequence ps, p', h, hs => by
    simp only [substituteOne, Option.map_eq_some_iff] at hs
    obtain ⟨q, hq, rfl⟩ := hs
    simpa only [Parser.names] using substituteOnes_names hm ps q (by simpa [Parser.hidden] using h) hq
  | .maybe p, p', h, hs => by
    simp only [substituteOne, Option.map_eq_some_iff] at hs
    obtain ⟨q, hq, rfl⟩ := hs
    simpa only [Parser.names] using substituteOne_names hm p q (by simpa [Parser.hidden] using h) hq
  | .exactly p _, p', h, hs => by
    simp only [substituteOne, Option.map_eq_some_iff] at hs
    obtain ⟨q, hq, rfl⟩ := hs
    simpa only [Parser.names] using substituteOne_names hm p q (by simpa [Parser.hidden] using h) hq
  | .oneOrMore p, p', h, hs => by
    simp only [substituteOne, Option.map_eq_some_iff] at hs
    obtain ⟨q, hq, rfl⟩ := hs
    simpa only [Parser.names] using substituteOne_names hm p q (by simpa [Parser.hidden] using h) hq
  | .zeroOrMore p, p', h, hs => by
    simp only [substituteOne, Option.map_eq_some_iff] at hs
    obtain ⟨q, hq, rfl⟩ := hs
    simpa only [Parser.names] using substituteOne_names hm p q (by simpa [Parser.hidden] using h) hq
  | .ignore p, p', h, hs => by
    simp only [substituteOne, Option.map_eq_some_iff] at hs
    obtain ⟨q, hq, rfl⟩ := hs
    simpa only [Parser.names] using substituteOne_names hm p q (by simpa [Parser.hidden] using h) hq
  | .complete p, p', h, hs => by
    simp only [substituteOne, Option.map_eq_some_iff] at hs
    obtain ⟨q, hq, rfl⟩ := hs
    simpa only [Parser.names] using substituteOne_names hm p q (by simpa [Parser.hidden] using h) hq
  | .join p, p', h, hs => by
    simp only [substituteOne, Option.map_eq_some_iff] at hs
    obtain ⟨q, hq, rfl⟩ := hs
    simpa only [Parser.names] using substituteOne_names hm p q (by simpa [Parser.hidden] using h) hq
  | .map p _, p', h, hs => by
    simp only [substituteOne, Option.map_eq_some_iff] at hs
    obtain ⟨q, hq, rfl⟩ := hs
    simpa only [Parser.names] using substituteOne_names hm p q (by simpa [Parser.hidden] using h) hq
  | .filter p _, p', h, hs => by
    simp only [substituteOne, Option.map_eq_some_iff] at hs
    obtain ⟨q, hq, rfl⟩ := hs
    simpa only [Parser.names] using substituteOne_names hm p q (by simpa [Parser.hidden] using h) hq
  | .delimit p d, p', h, hs => by
    rw [substituteOne] at hs
    cases h1 : substituteOne n mod p with
    | none => simp [h1] at hs
    | some q =>
      cases h2 : substituteOne n mod d with
      | none => simp [h1, h2] at hs
      | some e =>
        simp only [h1, h2, Option.some.injEq] at hs
        subst hs
        simp only [Parser.names, List.filter_append]
        simp only [Parser.hidden, List.mem_append, not_or] at h
        rw [substituteOne_names hm p q h.1 h1, substituteOne_names hm d e h.2 h2]
  | .anyOf _, _, _, hs | .noneOf _, _, _, hs | .allOf _, _, _, hs | .anything, _, _, hs | .epsilon, _, _, hs
  | .custom _, _, _, hs => by
    rw [substituteOne] at hs
    cases hs
    simp [Parser.names]
theorem substituteOnes_names {n : Name} {mod : Parser α → Option (Term α)}
    (hm : ∀ q r, mod q = some (.parser r) → r.names = q.names) : ∀ ps ps' : List (Parser α),
    n ∉ Parser.hiddenAll n.char ps → substituteOnes n mod ps = some ps' →
    Parser.namesAll ps' = (Parser.namesAll ps).filter (· ≠ n)
  | [], ps', _, hs => by
    rw [substituteOnes] at hs
    cases hs
    simp [Parser.namesAll]
  | p :: ps, ps', h, hs => by
    rw [substituteOnes] at hs
    cases h1 : substituteOne n mod p with
    | none => simp [h1] at hs
    | some q =>
      cases h2 : substituteOnes n mod ps with
      | none => simp [h1, h2] at hs
      | some e =>
        simp only [h1, h2, Option.some.injEq] at hs
        subst hs
        simp only [Parser.namesAll, List.filter_append]
        simp only [Parser.hiddenAll, List.mem_append, not_or] at h
        rw [substituteOne_names hm p q h.1 h1, substituteOnes_names hm ps e h.2 h2]
end

/-- The names in `p % sub(name<n> = m)` are those in `p` without `n`, in the same order, for
every modifier that neither introduces nor removes names. -/
theorem C35_names_partial (p p' : Parser α) (n : Name) (m : Modifier α)
    (hm : ∀ q r, callMod m q = some (.parser r) → r.names = q.names) (h : n ∉ p.hidden n.char)
    (hs : subApi p [(n, m)] = some p') : p'.names = p.names.filter (· ≠ n) ∧ n ∉ p'.names := by
  have hn : p'.names = p.names.filter (· ≠ n) := by
    rw [subApi, if_neg (by simp), substituteAll] at hs
    cases h1 : substituteOne n (callMod m) p with
    | none => simp [h1] at hs
    | some q =>
      simp only [h1, substituteAll, Option.some.injEq] at hs
      subst hs
      exact substituteOne_names hm p q h h1
  exact ⟨hn, by rw [hn]; simp⟩

mutual
theorem substituteOne_mem {n k : Name} {mod : Parser α → Option (Term α)}
    (hm : ∀ q r, mod q = some (.parser r) → r.names = q.names) : ∀ p p' : Parser α,
    substituteOne n mod p = some p' → (k ∈ p'.names ↔ if k = n then n ∈ p.hidden n.char else k ∈ p.names)
  | .named p m, p', hs => by
    rw [substituteOne] at hs
    by_cases hc : n.char = m.char
    · rw [if_pos hc] at hs
      cases h1 : substituteOne n mod p with
      | none => simp [h1] at hs
      | some q =>
        have ih := substituteOne_mem (k := k) hm p q h1
        simp only [h1] at hs
        simp only [Parser.hidden, if_pos hc.symm, Parser.names]
        by_cases he : n = m
        · rw [if_pos he] at hs
          cases h2 : mod q with
          | none => simp [h2] at hs
          | some t =>
            cases t with
            | modifier _ => simp [h2] at hs
            | parser r =>
              simp only [h2, Option.some.injEq] at hs
              subst hs
              rw [hm _ _ h2, ih]
              by_cases hk : k = n
              · simp [hk]
              · simp [hk, ← he]
        · rw [if_neg he] at hs
          cases hs
          simp only [Parser.names, List.mem_cons, ih]
          by_cases hk : k = n
          · simp [hk, he]
          · simp [hk]
    · rw [if_neg hc] at hs
      cases hs
      simp only [Parser.hidden, if_neg (Ne.symm hc), Parser.names]
      by_cases hk : k = n
      · subst hk
        have : k ≠ m := fun e => hc (by rw [e])
        simp [this]
      · simp [hk]
  | .choice ps, p', hs => by
    simp only [substituteOne, Option.map_eq_some_iff] at hs
    obtain ⟨q, hq, rfl⟩ := hs
    simpa only [Parser.names, Parser.hidden] using substituteOnes_mem hm ps q hq
  | .sequence ps, p', hs => by
    simp only [substituteOne, Option.map_eq_some_iff] at hs
    obtain ⟨q, hq, rfl⟩ := hs
    simpa only [Parser.names, Parser.hidden] using substituteOnes_mem hm ps q hq
  | .maybe p, p', hs => by
    simp only [substituteOne, Option.map_eq_some_iff] at hs
    obtain ⟨q, hq, rfl⟩ := hs
    simpa only [Parser.names, Parser.hidden] using substituteOne_mem hm p q hq
  | .exactly p _, p', hs => by
    simp only [substituteOne, Option.map_eq_some_iff] at hs
    obtain ⟨q, hq, rfl⟩ := hs
    simpa only [Parser.names, Parser.hidden] using substituteOne_mem hm p q hq
  | .oneOrMore p, p', hs => by
    simp only [substituteOne, Option.map_eq_some_iff] at hs
    obtain ⟨q, hq, rfl⟩ := hs
    simpa only [Parser.names, Parser.hidden] using substituteOne_mem hm p q hq
  | .zeroOrMore p, p', hs => by
    simp only [substituteOne, Option.map_eq_some_iff] at hs
    obtain ⟨q, hq, rfl⟩ := hs
    simpa only [Parser.names, Parser.hidden] using substituteOne_mem hm p q hq
  | .ignore p, p', hs => by
    simp only [substituteOne, Option.map_eq_some_iff] at hs
    obtain ⟨q, hq, rfl⟩ := hs
    simpa only [Parser.names, Parser.hidden] using substituteOne_mem hm p q hq
  | .complete p, p', hs => by
    simp only [substituteOne, Option.map_eq_some_iff] at hs
    obtain ⟨q, hq, rfl⟩ := hs
    simpa only [Parser.names, Parser.hidden] using substituteOne_mem hm p q hq
  | .join p, p', hs => by
    simp only [substituteOne, Option.map_eq_some_iff] at hs
    obtain ⟨q, hq, rfl⟩ := hs
    simpa only [Parser.names, Parser.hidden] using substituteOne_mem hm p q hq
  | .map p _, p', hs => by
    simp only [substituteOne, Option.map_eq_some_iff] at hs
    obtain ⟨q, hq, rfl⟩ := hs
    simpa only [Parser.names, Parser.hidden] using substituteOne_mem hm p q hq
  | .filter p _, p', hs => by
    simp only [substituteOne, Option.map_eq_some_iff] at hs
    obtain ⟨q, hq, rfl⟩ := hs
    simpa only [Parser.names, Parser.hidden] using substituteOne_mem hm p q hq
  | .delimit p d, p', hs => by
    rw [substituteOne] at hs
    cases h1 : substituteOne n mod p with
    | none => simp [h1] at hs
    | some q =>
      cases h2 : substituteOne n mod d with
      | none => simp [h1, h2] at hs
      | some e =>
        simp only [h1, h2, Option.some.injEq] at hs
        subst hs
        simp only [Parser.names, Parser.hidden, List.mem_append, substituteOne_mem hm p q h1, substituteOne_mem hm d e h2]
        by_cases hk : k = n <;> simp [hk]
  | .anyOf _, _, hs | .noneOf _, _, hs | .allOf _, _, hs | .anything, _, hs | .epsilon, _, hs | .custom _, _, hs => by
    rw [substituteOne] at hs
    cases hs
    simp [Parser.names, Parser.hidden]
theorem substituteOnes_mem {n k : Name} {mod : Parser α → Option (Term α)}
    (hm : ∀ q r, mod q = some (.parser r) → r.names = q.names) : ∀ ps ps' : List (Parser α),
    substituteOnes n mod ps = some ps' →
    (k ∈ Parser.namesAll ps' ↔ if k = n then n ∈ Parser.hiddenAll n.char ps else k ∈ Parser.namesAll ps)
  | [], ps', hs => by
    rw [substituteOnes] at hs
    cases hs
    simp [Parser.namesAll, Parser.hiddenAll]
  | p :: ps, ps', hs => by
    rw [substituteOnes] at hs
    cases h1 : substituteOne n mod p with
    | none => simp [h1] at hs
    | some q =>
      cases h2 : substituteOnes n mod ps with
      | none => simp [h1, h2] at hs
      | some e =>
        simp only [h1, h2, Option.some.injEq] at hs
        subst hs
        simp only [Parser.namesAll, Parser.hiddenAll, List.mem_append, substituteOne_mem hm p q h1,
          substituteOnes_mem hm ps e h2]
        by_cases hk : k = n <;> simp [hk]
end

/-- Which names are left in `p % sub(name<n> = m)`, in general: all others, and `n` exactly if it occurs in `p` below a
name of another character type. -/
theorem C35_exactly (p p' : Parser α) (n : Name) (m : Modifier α)
    (hm : ∀ q r, callMod m q = some (.parser r) → r.names = q.names) (hs : subApi p [(n, m)] = some p') :
    (n ∈ p'.names ↔ n ∈ p.hidden n.char) ∧ ∀ k, k ≠ n → (k ∈ p'.names ↔ k ∈ p.names) := by
  rw [subApi, if_neg (by simp), substituteAll] at hs
  cases h1 : substituteOne n (callMod m) p with
  | none => simp [h1] at hs
  | some q =>
    simp only [h1, substituteAll, Option.some.injEq] at hs
    subst hs
    refine ⟨?_, fun k hk => ?_⟩
    · simpa using substituteOne_mem (k := n) hm p q h1
    · simpa [hk] using substituteOne_mem (k := k) hm p q h1

/-- Such modifiers are all but `name`, `sub`, `delimit(d)`, `delimit_keep(d)` (names in `d`)
and combinations of them. -/
theorem C35_modifiers (m : Modifier α) (h : m = .complete ∨ m = .ignore ∨ m = .join ∨ (∃ k, m = .exactly k) ∨
    (∃ k, m = .map k) ∨ (∃ k, m = .filter k) ∨ (∃ k, m = .apply k) ∨ (∃ k, m = .applyFilter k) ∨ (∃ t, m = .into t) ∨
    (∃ t, m = .applyInto t) ∨ (∃ k, m = .constant k) ∨ ∃ t, m = .defaulted t) :
    ∃ f : Parser α → Parser α, ∀ q, callMod m q = some (.parser (f q)) ∧ (f q).names = q.names := by
  rcases h with rfl | rfl | rfl | ⟨k, rfl⟩ | ⟨k, rfl⟩ | ⟨k, rfl⟩ | ⟨k, rfl⟩ | ⟨k, rfl⟩ | ⟨k, rfl⟩ | ⟨k, rfl⟩ | ⟨k, rfl⟩ |
    ⟨k, rfl⟩
  all_goals
    refine ⟨_, fun q => ⟨by rw [callMod], ?_⟩⟩
    first
      | (split <;> simp [Parser.names])
      | simp [Parser.names]

-- names at three depths, one of them left
example : let x : Name := ⟨0, [1]⟩; let y : Name := ⟨0, [2]⟩
    let p : Parser Nat := .named (.sequence [.zeroOrMore (.named (Ex.all "a") x), .ignore (.named (Ex.all "b") y)]) x
    p.names = [x, x, y] ∧ x ∉ p.hidden x.char ∧
    subApi p [(x, .ignore)] =
      some (.ignore (.sequence [.zeroOrMore (.ignore (Ex.all "a")), .ignore (.named (Ex.all "b") y)])) :=
  ⟨rfl, by decide, rfl⟩

-- a name of another character type that hides nothing
example : let x : Name := ⟨0, [1]⟩; let w : Name := ⟨1, [1]⟩
    let p : Parser Nat := .named (.sequence [.named (Ex.all "a") w, Ex.all "b"]) x
    x ∉ p.hidden x.char ∧ subApi p [(x, .ignore)] = some (.ignore (.sequence [.named (Ex.all "a") w, Ex.all "b"])) :=
  ⟨by decide, rfl⟩

/-- Below a name of another character type nothing is substituted:
`p % name<"x"> % name<L"y"> % sub(name<"x"> = ignore)` still contains the name. -/
theorem C35_refuted_character_type (p : Parser α) (x y : Name) (h : x.char ≠ y.char) :
    subApi (.named (.named p x) y) [(x, .ignore)] = some (.named (.named p x) y) := by
  rw [subApi, if_neg (by simp), substituteAll, substituteOne, if_neg h]
  simp [substituteAll]

/-! ## C36 Composition of modifiers -/

theorem callMods_append (as bs : List (Modifier α)) (t : Term α) :
    callMods (as ++ bs) t = (callMods as t).bind (callMods bs) := by
  induction as generalizing t with
  | nil => simp [callMods]
  | cons a as ih =>
    cases t with
    | parser p =>
      simp only [List.cons_append, callMods]
      cases callMod a p with
      | none => rfl
      | some t => exact ih t
    | modifier m => simp only [List.cons_append, callMods]; exact ih _

theorem callMods_modifier (ms : List (Modifier α)) (m : Modifier α) : ∃ m', callMods ms (.modifier m) = some (.modifier m') := by
  induction ms generalizing m with
  | nil => exact ⟨m, by simp [callMods]⟩
  | cons a ms ih => simp only [callMods]; exact ih _

/-- the modifiers a modifier consists of -/
def Modifier.parts : Modifier α → List (Modifier α)
  | .multi ms => ms
  | m => [m]

theorem modMod_parts (a b : Modifier α) : modMod a b = .multi (a.parts ++ b.parts) := by
  cases a <;> cases b <;> rfl

theorem callMod_parts (m : Modifier α) (p q : Parser α) :
    callMod m p = some (.parser q) ↔ callMods m.parts (.parser p) = some (.parser q) := by
  have single : ∀ m : Modifier α, callMods [m] (.parser p) = callMod m p := by
    intro m
    simp only [callMods]
    cases callMod m p <;> rfl
  unfold Modifier.parts
  split
  · rename_i ms
    rw [callMod]
    cases h : callMods ms (.parser p) with
    | none => simp
    | some t => cases t <;> simp
  · rw [single]

/-- `(m1 % m2) % m3` and `m1 % (m2 % m3)` are the same modifier. -/
theorem C36_modifiers (m1 m2 m3 : Modifier α) :
    (percent (.modifier m1) (.modifier m2)).bind (percent · (.modifier m3)) =
      (percent (.modifier m2) (.modifier m3)).bind (percent (.modifier m1)) := by
  simp only [percent, Option.bind_some, Option.some.injEq, Term.modifier.injEq]
  simp only [modMod_parts, Modifier.parts, List.append_assoc]

/-- `(p % m1) % m2` and `p % (m1 % m2)` are the same parser: if either is a parser (and
`p % m1` is one), so is the other, and it is the same. -/
theorem C36_parser (p q r : Parser α) (m1 m2 : Modifier α)
    (h : percent (.parser p) (.modifier m1) = some (.parser q)) :
    percent (.parser q) (.modifier m2) = some (.parser r) ↔
      (percent (.modifier m1) (.modifier m2)).bind (percent (.parser p)) = some (.parser r) := by
  simp only [percent, Option.bind_some] at h ⊢
  rw [modMod_parts, callMod_parts (.multi _), Modifier.parts, callMods_append, (callMod_parts m1 p q).1 h,
    callMod_parts m2]
  rfl

/-- If `p % m1` is not a parser, neither is `p % (m1 % m2)`; and the restriction to parsers
is needed: `p % m1 % delimit` is a modifier, `p % (m1 % delimit)` does not compile. -/
theorem C36_limits (p : Parser α) (m1 m2 : Modifier α) :
    ((∀ q, percent (.parser p) (.modifier m1) ≠ some (.parser q)) →
      (percent (.modifier m1) (.modifier m2)).bind (percent (.parser p)) = none) ∧
    (∀ q, percent (.parser p) (.modifier m1) = some (.parser q) →
      percent (.parser q) (.modifier .delimit) = some (.modifier (.delimitInner q)) ∧
      (percent (.modifier m1) (.modifier .delimit)).bind (percent (.parser p)) = none) := by
  have pm : ∀ m : Modifier α, percent (.modifier m1) (.modifier m) = some (.modifier (modMod m1 m)) := fun _ => rfl
  simp only [pm, Option.bind_some]
  constructor
  · intro h
    have key : ∀ q, callMods m1.parts (.parser p) ≠ some (.parser q) := fun q hq =>
      h q ((callMod_parts m1 p q).2 hq)
    rw [modMod_parts, percent, callMod, callMods_append]
    cases hc : callMods m1.parts (.parser p) with
    | none => rfl
    | some t =>
      cases t with
      | parser q => exact absurd hc (key q)
      | modifier m =>
        obtain ⟨m', hm'⟩ := callMods_modifier m2.parts m
        simp [hm']
  · intro q hq
    refine ⟨rfl, ?_⟩
    rw [percent] at hq
    rw [modMod_parts, percent, callMod, callMods_append, (callMod_parts m1 p q).1 hq]
    rfl

-- ("a" % (exactly<2> % join)) % ignore
example : (percent (.modifier (.exactly 2)) (.modifier .join)).bind (percent (.parser (Ex.all "a"))) =
      some (.parser (.join (.exactly (Ex.all "a") 2))) ∧
    ((percent (.modifier (.exactly 2)) (.modifier .join)).bind (percent · (.modifier .ignore))).bind
        (percent (.parser (Ex.all "a"))) =
      some (.parser (.ignore (.join (.exactly (Ex.all "a") 2)))) := ⟨rfl, rfl⟩

end Tok3n
