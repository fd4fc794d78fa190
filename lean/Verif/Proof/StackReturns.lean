import Verif.Proof.Stack
import Verif.Proof.Replace
import Verif.Proof.Size
import Mathlib.Data.Finset.Prod
/-
Proofs for C64: how deep the calls of a run nest that returns.

A run that returns does not get back to a custom parser at the same place, in the same function.
-/

namespace Tok3n

variable {α β : Type} {C : Ctx α β}

section
variable {V : Span → Prop} {P P' D D' : Sub}

theorem delimitLoop_same (h : SameP V P P') (hd : SameP V D D') (T tp td : Ty) (k : Nat) (r : R) (s : Span) (v : Val)
    (hr : V r.rem) : delimitLoop T tp td P D k r s v = delimitLoop T tp td P' D' k r s v := by
  induction k generalizing r s v with
  | zero => rfl
  | succ k ih =>
    simp only [delimitLoop, M.bind_eq]
    split
    · rfl
    · refine M.bind_congr fun w => ?_
      rw [hd.eq _ hr]
      refine M.bind_congr' fun l x hx => ?_
      split
      · rfl
      · have hxr := hd.stay _ hr _ _ hx
        rw [h.eq _ hxr]
        refine M.bind_congr' fun l y hy => ?_
        exact M.bind_congr fun w => ih _ _ _ (h.stay _ hxr _ _ hy)

theorem lookDelimitLoop_same (h : SameL V P P') (hd : SameL V D D') (k : Nat) (r : R) (s : Span) (hr : V r.rem) :
    lookDelimitLoop P D k r s = lookDelimitLoop P' D' k r s := by
  induction k generalizing r s with
  | zero => rfl
  | succ k ih =>
    simp only [lookDelimitLoop, M.bind_eq]
    split
    · rfl
    · rw [hd.eq _ hr]
      refine M.bind_congr' fun l x hx => ?_
      split
      · rfl
      · have hxr := hd.stay _ hr _ _ hx
        rw [h.eq _ hxr]
        refine M.bind_congr' fun l y hy => ?_
        exact ih _ _ (h.stay _ hxr _ _ hy)

variable {rec rec' : Parser α → Sub}

theorem mkElems_sameAt {ps : List (Parser α)} (h : ∀ q ∈ ps, SameP V (rec q) (rec' q) ∧ SameL V (rec q) (rec' q))
    (is : List (Option Nat)) : List.Forall₂ (SameE V) (mkElems rec C ps is) (mkElems rec' C ps is) := by
  induction ps generalizing is with
  | nil => cases is <;> exact .nil
  | cons p ps ih =>
    cases is with
    | nil => exact .nil
    | cons i is =>
      have hp := h p (by simp)
      exact .cons ⟨rfl, fun _ => rfl, fun _ => hp.1, fun _ => hp.2⟩ (ih (fun q hq => h q (by simp [hq])) is)

theorem mkLookElems_sameAt {ps : List (Parser α)} (h : ∀ q ∈ ps, SameP V (rec q) (rec' q) ∧ SameL V (rec q) (rec' q)) :
    List.Forall₂ (SameE V) (mkLookElems rec C ps) (mkLookElems rec' C ps) := by
  induction ps with
  | nil => exact .nil
  | cons p ps ih =>
    have hp := h p (by simp)
    exact .cons ⟨rfl, fun _ => rfl, fun _ => hp.1, fun _ => hp.2⟩ (ih fun q hq => h q (by simp [hq]))

/-- What a function does on `s` depends on what its parts do on the places it can get to. -/
theorem step_same {q : Parser α} (h : ∀ r ∈ q.parts, SameP V (rec r) (rec' r) ∧ SameL V (rec r) (rec' r))
    (hq : ∀ k, q ≠ .custom k) {s : Span} (hs : V s) (k : Nat) :
    (step C rec k q).parse s = (step C rec' k q).parse s ∧ (step C rec k q).look s = (step C rec' k q).look s := by
  cases q with
  | anyOf a => exact ⟨rfl, rfl⟩
  | noneOf a => exact ⟨rfl, rfl⟩
  | allOf a => exact ⟨rfl, rfl⟩
  | anything => exact ⟨rfl, rfl⟩
  | epsilon => exact ⟨rfl, rfl⟩
  | custom j => exact absurd rfl (hq j)
  | choice ps =>
    have h : ∀ r ∈ ps, SameP V (rec r) (rec' r) ∧ SameL V (rec r) (rec' r) := h
    simp only [step, parseChoice, lookChoice, M.bind_eq]
    refine ⟨M.bind_congr fun v => ?_, ?_⟩
    · rw [foldOr_same C _ _ _ (mkElems_sameAt h _) (fun _ _ _ => rfl) _ hs]
    · rw [foldOr_same C _ _ _ (mkLookElems_sameAt h) (fun _ _ _ => rfl) _ hs]
  | sequence ps =>
    have h : ∀ r ∈ ps, SameP V (rec r) (rec' r) ∧ SameL V (rec r) (rec' r) := h
    simp only [step, parseSequence, lookSequence, M.bind_eq]
    refine ⟨M.bind_congr fun v => ?_, ?_⟩
    · rw [foldAnd_same C _ _ _ (mkElems_sameAt h _) (fun _ _ _ => rfl) _ hs]
    · rw [foldAnd_same C _ _ _ (mkLookElems_sameAt h) (fun _ _ _ => rfl) _ hs]
  | maybe r =>
    have h := h r (by simp [Parser.parts])
    simp only [step, parseMaybe, lookMaybe, M.bind_eq]
    rw [h.1.eq _ hs, h.2.eq _ hs]; exact ⟨rfl, rfl⟩
  | exactly r m =>
    have h := h r (by simp [Parser.parts])
    simp only [step, parseExactly, lookExactly, M.bind_eq]
    exact ⟨M.bind_congr fun v => exactlyLoop_same h.1 _ _ _ _ _ hs, lookExactlyLoop_same h.2 _ _ _ hs⟩
  | oneOrMore r =>
    have h := h r (by simp [Parser.parts])
    simp only [step, parseOneOrMore, lookOneOrMore, M.bind_eq]
    refine ⟨M.bind_congr fun v => ?_, ?_⟩
    · rw [oneOrMoreLoop_same h.1 _ _ _ _ hs]
    · rw [lookOneOrMoreLoop_same h.2 _ _ _ hs]
  | zeroOrMore r =>
    have h := h r (by simp [Parser.parts])
    simp only [step, parseZeroOrMore, lookZeroOrMore, M.bind_eq]
    refine ⟨M.bind_congr fun v => ?_, ?_⟩
    · rw [zeroOrMoreLoop_same h.1 _ _ _ hs]
    · rw [lookZeroOrMoreLoop_same h.2 _ _ hs]
  | delimit r d =>
    have hr := h r (by simp [Parser.parts])
    have hd := h d (by simp [Parser.parts])
    simp only [step, parseDelimit, lookDelimit, M.bind_eq]
    refine ⟨M.bind_congr fun v => ?_, ?_⟩
    · rw [hr.1.eq _ hs]
      refine M.bind_congr' fun l x hx => ?_
      split
      · rfl
      · rw [delimitLoop_same hr.1 hd.1 _ _ _ _ _ _ _ (hr.1.stay _ hs _ _ hx)]
    · rw [hr.2.eq _ hs]
      refine M.bind_congr' fun l x hx => ?_
      split
      · rfl
      · rw [lookDelimitLoop_same hr.2 hd.2 _ _ _ (hr.2.stay _ hs _ _ hx)]
  | ignore r =>
    have h := h r (by simp [Parser.parts])
    exact ⟨h.2.eq _ hs, h.2.eq _ hs⟩
  | complete r =>
    have h := h r (by simp [Parser.parts])
    simp only [step, parseComplete, lookComplete, M.bind_eq]
    rw [h.1.eq _ hs, h.2.eq _ hs]; exact ⟨rfl, rfl⟩
  | join r =>
    have h := h r (by simp [Parser.parts])
    have hg : (joinGeneric C (rec r)).parse s = (joinGeneric C (rec' r)).parse s ∧
        (joinGeneric C (rec r)).look s = (joinGeneric C (rec' r)).look s := by
      refine ⟨?_, h.2.eq _ hs⟩
      simp only [joinGeneric, parseJoin, M.bind_eq]
      rw [h.1.eq _ hs]
    show (semJoin C rec k r).parse s = (semJoin C rec' k r).parse s ∧ (semJoin C rec k r).look s = (semJoin C rec' k r).look s
    unfold semJoin
    split <;> first | exact hg | (split <;> first | exact ⟨rfl, rfl⟩ | exact hg)
  | map r f =>
    have h := h r (by simp [Parser.parts])
    simp only [step, parseMap, M.bind_eq]
    rw [h.1.eq _ hs]; exact ⟨rfl, h.2.eq _ hs⟩
  | filter r f =>
    have h := h r (by simp [Parser.parts])
    simp only [step, parseFilter, M.bind_eq]
    rw [h.1.eq _ hs]; exact ⟨rfl, h.2.eq _ hs⟩
  | named r m =>
    have h := h r (by simp [Parser.parts])
    exact ⟨h.1.eq _ hs, h.2.eq _ hs⟩

end

/-- one of the two functions -/
def Sub.fn (P : Sub) : Bool → Span → Run R
  | true => P.parse
  | false => P.look

/-- Where parts return, other parts that do the same there make the whole do the same. -/
theorem step_le_at {A B : Parser α → Sub} (hA : ∀ r, SubGood (A r)) {q : Parser α} (hq : ∀ k, q ≠ .custom k) {s : Span}
    (h : ∀ r ∈ q.parts, ∀ s' : Span, s'.SuffixOf s → ∀ m, ((A r).fn m s').le ((B r).fn m s')) (k : Nat) (m : Bool) :
    ((step C A k q).fn m s).le ((step C B k q).fn m s) := by
  classical
  let A' : Parser α → Sub := fun r => if r ∈ q.parts then
    ⟨fun s' => if s'.SuffixOf s then (A r).parse s' else .diverge, fun s' => if s'.SuffixOf s then (A r).look s' else .diverge⟩
    else ⟨fun _ => .diverge, fun _ => .diverge⟩
  have h1 : ∀ r, (A' r).le (B r) := by
    intro r s'
    simp only [A']
    split
    · next hr =>
      dsimp only
      split
      · next hs => exact ⟨h r hr s' hs true, h r hr s' hs false⟩
      · exact ⟨M.diverge_le _, M.diverge_le _⟩
    · exact ⟨M.diverge_le _, M.diverge_le _⟩
  have h2 := step_same (C := C) (V := fun s' => s'.SuffixOf s) (rec := A') (rec' := A) (q := q) (fun r hr => by
    simp only [A', if_pos hr]
    refine ⟨⟨fun s' hs => by simp [hs], fun s' hs l x hx => ?_⟩, ⟨fun s' hs => by simp [hs], fun s' hs l x hx => ?_⟩⟩
    · exact (((hA r).parse s').ok hx).suffix.trans hs
    · exact (((hA r).look s').ok hx).suffix.trans hs) hq (Span.SuffixOf.refl s) k
  have h3 := step_rec_le (C := C) h1 k q s
  cases m with
  | true => have := h3.1; rw [h2.1] at this; exact this
  | false => have := h3.2; rw [h2.2] at this; exact this

theorem sem_mono_fn (p : Parser α) (m : Bool) (s : Span) : Mono (fun n => (sem C n p).fn m s) := by
  cases m with
  | true => exact sem_mono_parse p s
  | false => exact sem_mono_look p s

theorem sem_diverges_fn {p : Parser α} {s : Span} {i j : Nat} {m : Bool} (h : i ≤ j) (hd : (sem C j p).fn m s = .diverge) :
    (sem C i p).fn m s = .diverge := by
  have := (sem_mono_fn (C := C) p m s).le h
  cases hi : (sem C i p).fn m s with
  | diverge => rfl
  | done l r => have := this (by rw [hi]; nofun); rw [hd, hi] at this; cases this

theorem convertResult_ne (src dst : Ty) {l : List Call} {x : Res R} :
    M.bind (M.done l x) (convertResult C src dst) ≠ .diverge := by
  cases x with
  | err e => nofun
  | ok o =>
    have hc := convertResult_returns (C := C) src dst o
    cases h : convertResult C src dst o with
    | diverge => exact absurd h hc
    | done l' r' => simp [M.bind, h, M.after]

/-- What a custom parser does is what its body does, but for the conversion. -/
theorem custom_fn {rec rec' : Parser α → Sub} {k : Nat} {s : Span} {m : Bool} (n n' : Nat)
    (h : (rec (C.custom k).body).fn m s = (rec' (C.custom k).body).fn m s) :
    (step C rec n (.custom k)).fn m s = (step C rec' n' (.custom k)).fn m s := by
  cases m with
  | true =>
    show parseCustom C _ _ (rec _) s = parseCustom C _ _ (rec' _) s
    unfold parseCustom
    rw [show (rec (C.custom k).body).parse s = (rec' (C.custom k).body).parse s from h]
  | false => exact h

theorem custom_diverges {rec : Parser α → Sub} {k : Nat} {s : Span} {m : Bool} (n : Nat) :
    (step C rec n (.custom k)).fn m s = .diverge ↔ (rec (C.custom k).body).fn m s = .diverge := by
  cases m with
  | true =>
    show parseCustom C _ _ (rec _) s = _ ↔ (rec _).parse s = _
    unfold parseCustom
    cases h : (rec (C.custom k).body).parse s with
    | diverge => exact ⟨fun _ => rfl, fun _ => rfl⟩
    | done l r => exact ⟨fun h => absurd h (convertResult_ne _ _), nofun⟩
  | false => exact Iff.rfl

/-- `todo` has the functions of custom parsers a run can get to at this place. -/
theorem sem_nests {p : Parser α} {ks : List Nat} {h : Nat} (hks : ∀ k, Uses C p (.custom k) → k ∈ ks)
    (hh : ∀ q, Uses C p q → q.height ≤ h) (o : Sub) (N : Nat) (hN : N = 2 * ks.toFinset.card)
    (j : Nat) (q : Parser α) (hq : Uses C p q) (todo : Finset (Nat × Bool)) (hsub : todo ⊆ ks.toFinset ×ˢ {true, false}) (s : Span)
    (htodo : ∀ k m, Uses C p (.custom k) → (k, m) ∉ todo → (sem C j (.custom k)).fn m s = .diverge)
    (m : Bool) (d : Nat) (hd : s.len * ((N + 1) * (h + 1)) + todo.card * (h + 1) + q.height ≤ d) :
    ((sem C j q).fn m s).le ((budget C o d q).fn m s) := by
  have hfull : (ks.toFinset ×ˢ {true, false} : Finset (Nat × Bool)).card = N := by
    rw [Finset.card_product, hN, Nat.mul_comm]; rfl
  induction j using Nat.strong_induction_on generalizing q todo s m d with
  | _ j ih =>
  cases j with
  | zero => cases m <;> exact M.diverge_le _
  | succ j =>
    obtain ⟨d, rfl⟩ : ∃ d', d = d' + 1 := ⟨d - 1, by have := height_pos q; omega⟩
    have fuel : ∀ {k r l}, (step C (budget C o d) k q).fn m s = .done l r → (budget C o (d + 1) q).fn m s = .done l r := by
      intro k r l hr
      cases m with
      | true => exact ((Mono.lim (m := fun k => (step C (budget C o d) k q).parse s) fun k => (step_fuel_le _ k q s).1).le k).done hr
      | false => exact ((Mono.lim (m := fun k => (step C (budget C o d) k q).look s) fun k => (step_fuel_le _ k q s).2).le k).done hr
    suffices H : ((step C (sem C j) j q).fn m s).le ((step C (budget C o d) j q).fn m s) by
      intro hne
      cases hr : (sem C (j + 1) q).fn m s with
      | diverge => exact absurd hr hne
      | done l r => exact fuel (H.done hr)
    by_cases hc : ∃ k, q = .custom k
    · obtain ⟨k, rfl⟩ := hc
      intro hne
      have hb : (sem C j (C.custom k).body).fn m s ≠ .diverge := fun h => hne ((custom_diverges j).2 h)
      have hu : Uses C p (C.custom k).body := hq.trans (.custom .self)
      have hex : ∃ i, (sem C i (C.custom k).body).fn m s ≠ .diverge := ⟨j, hb⟩
      classical
      obtain ⟨i, hi⟩ : ∃ i, i = Nat.find hex := ⟨_, rfl⟩
      have hne' := Nat.find_spec hex
      have hmin : ∀ i', i' < i → (sem C i' (C.custom k).body).fn m s = .diverge := fun i' h => by
        simpa using Nat.find_min hex (hi ▸ h)
      have hij : i ≤ j := hi ▸ Nat.find_min' hex hb
      rw [← hi] at hne'
      have hself : (sem C i (.custom k)).fn m s = .diverge := by
        cases i with
        | zero => cases m <;> rfl
        | succ i => exact (custom_diverges i).2 (hmin i (by omega))
      have hmem : (k, m) ∈ todo := by
        by_contra hnot
        exact hne (htodo k m hq hnot)
      have hpos : 0 < todo.card := Finset.card_pos.2 ⟨_, hmem⟩
      have key := ih i (by omega) _ hu (todo.erase (k, m)) (fun x hx => hsub (Finset.mem_of_mem_erase hx)) s
        (fun k' m' hk' hn => by
          by_cases h : (k', m') = (k, m)
          · cases h; exact hself
          · exact sem_diverges_fn (by omega) (htodo k' m' hk' fun hm => hn (Finset.mem_erase.2 ⟨h, hm⟩))) m d (by
            rw [Finset.card_erase_of_mem hmem, Nat.sub_mul, Nat.one_mul]
            have := hh _ hu
            have : 1 * (h + 1) ≤ todo.card * (h + 1) := Nat.mul_le_mul_right _ hpos
            simp only [Parser.height] at hd
            omega)
      exact (custom_fn _ _ ((key hne').trans ((sem_mono_fn (C := C) _ m s).le hij hne').symm))
    · refine step_le_at (fun r => sem_good j r) (fun k hk => hc ⟨k, hk⟩) (fun r hr s' hs' m' => ?_) j m
      have hu := hq.child hr
      have hlt := height_part hr
      rcases Nat.lt_or_ge s'.len s.len with hl | hl
      · refine ih j (by omega) r hu _ (fun _ h => h) s' (fun k m hk hn => ?_) m' d ?_
        · refine absurd (Finset.mem_product.2 ⟨List.mem_toFinset.2 (hks k hk), ?_⟩) hn
          cases m <;> simp
        · rw [hfull]
          have h1 := hh r hu
          have h2 : (s'.len + 1) * ((N + 1) * (h + 1)) ≤ s.len * ((N + 1) * (h + 1)) := Nat.mul_le_mul_right _ hl
          have h3 : (s'.len + 1) * ((N + 1) * (h + 1)) = s'.len * ((N + 1) * (h + 1)) + (N * (h + 1) + (h + 1)) := by
            rw [Nat.add_mul, Nat.one_mul, Nat.add_mul N 1, Nat.one_mul]
          have h4 := height_pos q
          omega
      · obtain rfl := hs'.eq_of_len (Nat.le_antisymm hs'.len_le hl)
        exact ih j (by omega) r hu todo hsub s' (fun k m hk hn => sem_diverges_fn (by omega) (htodo k m hk hn)) m' d (by omega)

theorem uses_height {p : Parser α} {ks : List Nat} (hks : ∀ k, Uses C p (.custom k) → k ∈ ks) {q : Parser α} (hq : Uses C p q) :
    q.height ≤ ks.foldr (fun k m => max (C.custom k).body.height m) p.height := by
  suffices H : ∀ x, Uses C p x → x.height ≤ ks.foldr (fun k m => max (C.custom k).body.height m) p.height →
      ∀ {q}, Uses C x q → q.height ≤ ks.foldr (fun k m => max (C.custom k).body.height m) p.height from
    H p .self (foldr_max_ge _ _ _) hq
  intro x hx hxh q hq
  induction hq with
  | self => exact hxh
  | part hm _ ih => exact ih (hx.child hm) (Nat.le_trans (Nat.le_of_lt (height_part hm)) hxh)
  | custom _ ih => exact ih (hx.trans (.custom .self)) (le_foldr_max (fun k => (C.custom k).body.height) _ (hks _ hx))

theorem returns_nests {p : Parser α} {ks : List Nat} (hks : ∀ k, Uses C p (.custom k) → k ∈ ks) (o : Sub) (m : Bool) (s : Span)
    (hr : (den C p).fn m s ≠ .diverge) (d : Nat)
    (hd : (s.len + 1) * ((2 * ks.toFinset.card + 1) * (ks.foldr (fun k m => max (C.custom k).body.height m) p.height + 1)) ≤ d) :
    (budget C o d p).fn m s = (den C p).fn m s := by
  cases hx : (den C p).fn m s with
  | diverge => exact absurd hx hr
  | done l r =>
    obtain ⟨j, hj⟩ : ∃ j, (sem C j p).fn m s = .done l r := by
      cases m with
      | true => exact Parse_eq_done.1 hx
      | false => exact Look_eq_done.1 hx
    refine (sem_nests hks (fun q hq => uses_height hks hq) o _ rfl j p .self _ (fun _ h => h) s (fun k m hk hn => ?_) m d ?_).done hj
    · refine absurd (Finset.mem_product.2 ⟨List.mem_toFinset.2 (hks k hk), ?_⟩) hn
      cases m <;> simp
    · have hfull : (ks.toFinset ×ˢ {true, false} : Finset (Nat × Bool)).card = 2 * ks.toFinset.card := by
        rw [Finset.card_product, Nat.mul_comm]; rfl
      rw [hfull]
      have h1 := uses_height (C := C) hks .self
      generalize ks.foldr (fun k m => max (C.custom k).body.height m) p.height = h at *
      generalize 2 * ks.toFinset.card = N at *
      have h3 : (s.len + 1) * ((N + 1) * (h + 1)) = s.len * ((N + 1) * (h + 1)) + (N * (h + 1) + (h + 1)) := by
        rw [Nat.add_mul, Nat.one_mul, Nat.add_mul N 1, Nat.one_mul]
      omega

end Tok3n
