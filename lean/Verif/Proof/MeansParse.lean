import Verif.Proof.Means
import Verif.Proof.Laws
/-
In a clear grammar `parse` finds what a text means, whatever filters and joins do (C87).
-/

namespace Tok3n

variable {α β : Type} {C : Ctx α β}

/-! ### Parsers that match wherever they are -/

/-- it never fails to match -/
def Never (C : Ctx α β) (p : Parser α) : Prop := ∀ ys, ¬ Peg C.eqv (fun k => (C.custom k).body) p ys none

namespace Never
variable {p q d : Parser α} {ps : List (Parser α)}

theorem choice (hm : q ∈ ps) (h : Never C q) : Never C (.choice ps) := by
  intro ys hn
  induction ps with
  | nil => cases hm
  | cons p ps ih =>
    cases hn with
    | miss hb => cases hb
    | choiceMiss h1 h2 =>
      cases hm with
      | head => exact h _ h1
      | tail _ hm => exact ih hm h2

theorem nil : Never C (.sequence []) := fun ys h => by
  cases h with
  | miss hb => cases hb

theorem cons (h : Never C p) (h' : Never C (.sequence ps)) : Never C (.sequence (p :: ps)) := by
  intro ys hn
  rcases peg_sequence.1 hn with ⟨k, o, ho, -, h2⟩ | ⟨-, h2⟩
  · cases o with
    | none => exact h' _ h2
    | some j => cases ho
  · exact h _ h2

theorem maybe : Never C (.maybe p) := fun ys h => by
  cases h with
  | miss hb => cases hb

theorem zeroOrMore : Never C (.zeroOrMore p) := fun ys h => by
  cases h with
  | miss hb => cases hb

theorem zero : Never C (.exactly p 0) := fun ys h => by
  cases h with
  | miss hb => cases hb

theorem more {n : Nat} (h : Never C p) (h' : Never C (.exactly p n)) : Never C (.exactly p (n + 1)) := by
  intro ys hn
  rcases peg_exactly.1 hn with ⟨k, o, ho, -, h2⟩ | ⟨-, h2⟩
  · cases o with
    | none => exact h' _ h2
    | some j => cases ho
  · exact h _ h2

theorem oneOrMore (h : Never C p) : Never C (.oneOrMore p) := fun ys hn => by
  cases hn with
  | miss hb => cases hb
  | oneMiss hn => exact h _ hn

theorem delimit (h : Never C p) : Never C (.delimit p d) := fun ys hn => by
  cases hn with
  | miss hb => cases hb
  | delimitMiss hn => exact h _ hn

theorem ignore (h : Never C p) : Never C (.ignore p) := fun ys hn => by
  cases hn with
  | miss hb => cases hb
  | ignore hn => exact h _ hn

theorem join (h : Never C p) : Never C (.join p) := fun ys hn => by
  cases hn with
  | miss hb => cases hb
  | join hn => exact h _ hn

theorem map {f : Fn} (h : Never C p) : Never C (.map p f) := fun ys hn => by
  cases hn with
  | miss hb => cases hb
  | map hn => exact h _ hn

theorem filter {f : Fn} (h : Never C p) : Never C (.filter p f) := fun ys hn => by
  cases hn with
  | miss hb => cases hb
  | filter hn => exact h _ hn

theorem named {n : Name} (h : Never C p) : Never C (.named p n) := fun ys hn => by
  cases hn with
  | miss hb => cases hb
  | named hn => exact h _ hn

theorem custom {k : Nat} (h : Never C (C.custom k).body) : Never C (.custom k) := fun ys hn => by
  cases hn with
  | miss hb => cases hb
  | custom hn => exact h _ hn

theorem basic {xs : List β} (hb : IsBasic p) (hm : Matches C.eqv p xs 0) : Never C p := by
  intro ys hn
  have h0 : Matches C.eqv p ys 0 := by
    cases p <;> first | exact hm.elim | (cases hm.1) | skip
    obtain ⟨h, -⟩ := hm
    cases List.length_eq_zero_iff.1 h.symm
    exact ⟨rfl, [], ys, rfl, .nil⟩
  cases C45_deterministic _ _ _ _ _ _ (Peg.hit (body := fun k => (C.custom k).body) hb h0) hn

end Never

/-- what matches nothing although there is something always matches -/
theorem never_of_peg {p : Parser α} {xs : List β} {o : Option Nat} (h : Peg C.eqv (fun k => (C.custom k).body) p xs o)
    (ho : o = some 0) (hx : xs ≠ []) : Never C p := by
  induction h with
  | hit hb hm => cases ho; exact .basic hb hm
  | miss => cases ho
  | epsilon => intro ys h; cases h with | miss hb => cases hb
  | choiceNil => cases ho
  | choiceHit _ ih => exact .choice (.head _) (ih ho hx)
  | @choiceMiss p ps xs o _ _ _ ih =>
    intro ys hn
    cases hn with
    | miss hb => cases hb
    | choiceMiss h1 h2 => exact ih ho hx _ h2
  | sequenceNil => exact .nil
  | @sequenceMore p ps xs k o _ _ ih ih' =>
    cases o with
    | none => cases ho
    | some j =>
      simp only [Option.map_some, Option.some.injEq] at ho
      obtain ⟨rfl, rfl⟩ : k = 0 ∧ j = 0 := by omega
      exact .cons (ih rfl hx) (ih' rfl (by simpa using hx))
  | sequenceMiss => cases ho
  | maybeHit => exact .maybe
  | maybeMiss => exact .maybe
  | exactlyNil => exact .zero
  | @exactlyMore p n xs k o _ _ ih ih' =>
    cases o with
    | none => cases ho
    | some j =>
      simp only [Option.map_some, Option.some.injEq] at ho
      obtain ⟨rfl, rfl⟩ : k = 0 ∧ j = 0 := by omega
      exact .more (ih rfl hx) (ih' rfl (by simpa using hx))
  | exactlyMiss => cases ho
  | zeroStop => exact .zeroOrMore
  | zeroMore => exact .zeroOrMore
  | oneMiss => cases ho
  | @oneMore p xs k j _ _ ih _ =>
    simp only [Option.some.injEq] at ho
    exact .oneOrMore (ih (by congr; omega) hx)
  | delimitMiss => cases ho
  | @delimitMore p d xs k j _ _ ih _ =>
    simp only [Option.some.injEq] at ho
    exact .delimit (ih (by congr; omega) hx)
  | completeHit =>
    simp only [Option.some.injEq] at ho
    exact absurd (List.length_eq_zero_iff.1 ho) hx
  | completeShort => cases ho
  | completeMiss => cases ho
  | ignore _ ih => exact .ignore (ih ho hx)
  | join _ ih => exact .join (ih ho hx)
  | map _ ih => exact .map (ih ho hx)
  | filter _ ih => exact .filter (ih ho hx)
  | named _ ih => exact .named (ih ho hx)
  | custom _ ih => exact .custom (ih ho hx)

theorem Strides.len {P : List β → Prop} {s s' : Span} (h : Strides C P s s') : s'.len ≤ s.len := by
  obtain ⟨k, ha, -⟩ := h
  have := ha.size
  omega

/-- if nothing was consumed although there was something -/
def Idle (s s' : Span) (P : Prop) : Prop := s'.len = s.len → s.len ≠ 0 → P

theorem idle_peg {p : Parser α} {s s' : Span} {k : Nat} (hs : s.Valid C.mem)
    (h : Peg C.eqv (fun k => (C.custom k).body) p (s.elems C.mem) (some k)) (ha : s.Advanced k s') :
    Idle s s' (Never C p) := by
  intro h1 h2
  have := ha.size
  refine never_of_peg h (by congr; omega) fun e => h2 ?_
  rw [← hs.elems_length, e]
  rfl

theorem Only.both {A : Type} {P Q : A → Span → Prop} {o : Ending A} (h : Only P o) (h' : Only Q o) :
    Only (fun a s' => P a s' ∧ Q a s') o := by
  cases h with
  | ok h => exact .ok ⟨h, h'.get⟩
  | no => exact .no
  | throws => exact .throws

section
variable (hp : ∀ k, ¬ Pretends C k)
include hp

theorem Gives.stride {p : Parser α} {s s' : Span} {log : List Call} {v : Val} (h : Gives C p s log (.ok v s')) :
    Strides C (Word C.eqv (fun k => (C.custom k).body) p) s s' := (h.means hp).get.strides

mutual
theorem Gives.idle : ∀ {p : Parser α} {s log o}, Gives C p s log o → s.Valid C.mem →
    Only (fun _ s' => Idle s s' (Never C p)) o
  | _, _, _, _, .hit hb hm ha, hs => .ok (idle_peg hs (.hit hb hm) ha)
  | _, _, _, _, .miss _ _, _ => .no
  | _, _, _, _, .epsilon, _ => .ok fun _ _ => fun ys h => by cases h with | miss hb => cases hb
  | _, _, _, _, .choice _ _ h, hs => (h.idle hs).imp fun _ _ h h1 h2 =>
      have ⟨_, hm, h⟩ := h h1 h2
      .choice hm h
  | _, _, _, _, .sequence h, hs => (h.idle hs).map fun _ _ h => h
  | _, _, _, _, .maybe _, _ => .ok fun _ _ => .maybe
  | _, _, _, _, .maybeNot _, _ => .ok fun _ _ => .maybe
  | _, _, _, _, .maybeThrows _, _ => .throws
  | _, _, _, _, .exactly h, hs => (h.idle hs).map fun _ _ h => h
  | _, _, _, _, .zeroOrMore h, _ => (h.means hp).map fun _ _ _ _ _ => .zeroOrMore
  | _, _, _, _, .oneOrMore h h', hs => (h'.means hp).map fun _ _ hm h1 h2 =>
      .oneOrMore ((h.idle hs).get (by have := (h.stride hp).len; have := hm.strides.len; omega) h2)
  | _, _, _, _, .oneStops _ h, _ => .stops h
  | _, _, _, _, .delimit h h', hs => (h'.means hp).map fun _ _ hm h1 h2 =>
      .delimit ((h.idle hs).get (by have := (h.stride hp).len; have := hm.strides.len; omega) h2)
  | _, _, _, _, .delimitStops _ h, _ => .stops h
  | _, _, _, _, .ignore h ha, hs => .ok fun h1 h2 => .ignore (idle_peg hs h ha h1 h2)
  | _, _, _, _, .ignoreNot _, _ => .no
  | _, _, _, _, .complete _ hl, _ => .ok fun h1 h2 => absurd (h1.symm.trans hl) h2
  | _, _, _, _, .completeShort _ _, _ => .no
  | _, _, _, _, .completeStops _ h, _ => .stops h
  | _, _, _, _, .join h _, hs => .ok fun h1 h2 => .join ((h.idle hs).get h1 h2)
  | _, _, _, _, .joinGap _ _, _ => .no
  | _, _, _, _, .joinStops _ h, _ => .stops h
  | _, _, _, _, .map h _, hs => .ok fun h1 h2 => .map ((h.idle hs).get h1 h2)
  | _, _, _, _, .mapThrows _ _, _ => .throws
  | _, _, _, _, .mapStops _ h, _ => .stops h
  | _, _, _, _, .filter h _ _, hs => .ok fun h1 h2 => .filter ((h.idle hs).get h1 h2)
  | _, _, _, _, .filterOut _ _ _, _ => .no
  | _, _, _, _, .filterThrows _ _, _ => .throws
  | _, _, _, _, .filterStops _ h, _ => .stops h
  | _, _, _, _, .named h, hs => (h.idle hs).imp fun _ _ h h1 h2 => .named (h h1 h2)
  | _, _, _, _, .custom _ h, hs => (h.idle hs).map fun _ _ h h1 h2 => .custom (h h1 h2)
  | _, _, _, _, .pretended hk _ _, _ => absurd hk (hp _)
  | _, _, _, _, .pretendedNot hk _ _, _ => absurd hk (hp _)
  | _, _, _, _, .pretendedThrows _ _, _ => .throws
theorem GivesFirst.idle : ∀ {us d} {ps : List (Parser α)} {is s log o}, GivesFirst C us d ps is s log o → s.Valid C.mem →
    Only (fun _ s' => Idle s s' (∃ q ∈ ps, Never C q)) o
  | _, _, _, _, _, _, _, .nil, _ => .no
  | _, _, _, _, _, _, _, .looked h ha, hs => .ok fun h1 h2 => ⟨_, .head _, idle_peg hs h ha h1 h2⟩
  | _, _, _, _, _, _, _, .lookedNot _ h, hs => (h.idle hs).imp fun _ _ h h1 h2 =>
      have ⟨q, hm, h⟩ := h h1 h2
      ⟨q, .tail _ hm, h⟩
  | _, _, _, _, _, _, _, .parsed h, hs => .ok fun h1 h2 => ⟨_, .head _, (h.idle hs).get h1 h2⟩
  | _, _, _, _, _, _, _, .parsedNot _ h, hs => (h.idle hs).imp fun _ _ h h1 h2 =>
      have ⟨q, hm, h⟩ := h h1 h2
      ⟨q, .tail _ hm, h⟩
  | _, _, _, _, _, _, _, .throws _, _ => .throws
theorem GivesParts.idle : ∀ {ps : List (Parser α)} {s log o}, GivesParts C ps s log o → s.Valid C.mem →
    Only (fun _ s' => Idle s s' (Never C (.sequence ps))) o
  | _, _, _, _, .nil, _ => .ok fun _ _ => .nil
  | _, _, _, _, .value _ h h', hs => ((h'.idle ((h.stride hp).valid hs)).both (h'.means hp)).map fun _ _ hm h1 h2 =>
      have l1 := (h.stride hp).len
      have l2 := hm.2.strides.len
      .cons ((h.idle hs).get (by omega) h2) (hm.1 (by omega) (by omega))
  | _, _, _, _, .stops _ _ h, _ => .stops h
  | _, _, _, _, .void _ h ha h', hs => ((h'.idle (Strides.valid (wordFrom_peg h ha) hs)).both (h'.means hp)).imp fun _ _ hm h1 h2 =>
      have l1 := Strides.len (wordFrom_peg h ha)
      have l2 := hm.2.strides.len
      .cons (idle_peg hs h ha (by omega) h2) (hm.1 (by omega) (by omega))
  | _, _, _, _, .voidNot _ _, _ => .no
theorem GivesTimes.idle : ∀ {p : Parser α} {n s log o}, GivesTimes C p n s log o → s.Valid C.mem →
    Only (fun _ s' => Idle s s' (Never C (.exactly p n))) o
  | _, _, _, _, _, .zero, _ => .ok fun _ _ => .zero
  | _, _, _, _, _, .more h h', hs => ((h'.idle ((h.stride hp).valid hs)).both (h'.means hp)).map fun _ _ hm h1 h2 =>
      have l1 := (h.stride hp).len
      have l2 := hm.2.strides.len
      .more ((h.idle hs).get (by omega) h2) (hm.1 (by omega) (by omega))
  | _, _, _, _, _, .stops _ h, _ => .stops h
end

/-! ### Where `parse` succeeds, `lookahead` does not fail -/

section
variable {null : Nat → Bool} {begin' : Nat → β → Bool} {follow : Nat → β → Prop} (ht : ClearTable C null begin' follow)
include ht

omit hp in
/-- what is consumed shows at once, unless there is nothing -/
theorem begins_strides {p : Parser α} {s s' : Span} (hs : s.Valid C.mem)
    (h : Strides C (Word C.eqv (fun k => (C.custom k).body) p) s s') (hi : ¬ (s'.len = s.len ∧ s.len ≠ 0)) :
    GoesOn (fun x => p.begins C.eqv null begin' x = true) (s.elems C.mem) := by
  have hl := h.len
  have hs' := h.valid hs
  obtain ⟨w, e, hw, -⟩ := h.word hs
  have hb := word_begins ht.toBeginTable hw
  have hn := congrArg List.length e
  rw [List.length_append, hs.elems_length, hs'.elems_length] at hn
  rw [e]
  cases w with
  | nil =>
    have : s'.elems C.mem = [] := List.length_eq_zero_iff.1 (by rw [hs'.elems_length]; simp at hn; omega)
    rw [this]
    nofun
  | cons x w => rintro y ⟨⟩; exact hb

omit hp in
/-- the first part is read as it was, or the others match anywhere -/
theorem not_miss_more {p q r : Parser α} {G : β → Prop} {s s1 s' : Span} (hc : Clear C null begin' follow p G)
    (hs : s.Valid C.mem) (h : Strides C (Word C.eqv (fun k => (C.custom k).body) p) s s1)
    (h' : Strides C (Word C.eqv (fun k => (C.custom k).body) q) s1 s')
    (hG : ∀ x, q.begins C.eqv null begin' x = true → G x)
    (hp1 : ¬ Peg C.eqv (fun k => (C.custom k).body) p (s.elems C.mem) none)
    (hq : ¬ Peg C.eqv (fun k => (C.custom k).body) q (s1.elems C.mem) none)
    (hi : Idle s1 s' (Never C q))
    (hr : Peg C.eqv (fun k => (C.custom k).body) r (s.elems C.mem) none →
      (∃ k, Peg C.eqv (fun k => (C.custom k).body) p (s.elems C.mem) (some k) ∧
        Peg C.eqv (fun k => (C.custom k).body) q ((s.elems C.mem).drop k) none) ∨
      Peg C.eqv (fun k => (C.custom k).body) p (s.elems C.mem) none) :
    ¬ Peg C.eqv (fun k => (C.custom k).body) r (s.elems C.mem) none := by
  intro hn
  rcases hr hn with ⟨k, hk, hn⟩ | hn
  · by_cases hl : s'.len = s1.len ∧ s1.len ≠ 0
    · exact hi hl.1 hl.2 _ hn
    · obtain ⟨j, hj, e⟩ := strides_peg ht hc hs h fun x hx => hG x (begins_strides ht (h.valid hs) h' hl x hx)
      cases C45_deterministic _ _ _ _ _ _ hk hj
      rw [e, Span.elems_drop] at hq
      exact hq hn
  · exact hp1 hn

omit hp ht in
theorem miss_cons {p : Parser α} {ps : List (Parser α)} {xs : List β}
    (h : Peg C.eqv (fun k => (C.custom k).body) (.sequence (p :: ps)) xs none) :
    (∃ k, Peg C.eqv (fun k => (C.custom k).body) p xs (some k) ∧
      Peg C.eqv (fun k => (C.custom k).body) (.sequence ps) (xs.drop k) none) ∨
    Peg C.eqv (fun k => (C.custom k).body) p xs none := by
  rcases peg_sequence.1 h with ⟨k, o, ho, hk, h2⟩ | ⟨-, h2⟩
  · cases o with
    | none => exact .inl ⟨k, hk, h2⟩
    | some j => cases ho
  · exact .inr h2

omit hp ht in
theorem miss_more {p : Parser α} {n : Nat} {xs : List β}
    (h : Peg C.eqv (fun k => (C.custom k).body) (.exactly p (n + 1)) xs none) :
    (∃ k, Peg C.eqv (fun k => (C.custom k).body) p xs (some k) ∧
      Peg C.eqv (fun k => (C.custom k).body) (.exactly p n) (xs.drop k) none) ∨
    Peg C.eqv (fun k => (C.custom k).body) p xs none := by
  rcases peg_exactly.1 h with ⟨k, o, ho, hk, h2⟩ | ⟨-, h2⟩
  · cases o with
    | none => exact .inl ⟨k, hk, h2⟩
    | some j => cases ho
  · exact .inr h2

omit hp ht in
theorem not_miss {p : Parser α} {xs : List β} {k : Nat} (h : Peg C.eqv (fun k => (C.custom k).body) p xs (some k)) :
    ¬ Peg C.eqv (fun k => (C.custom k).body) p xs none :=
  fun h' => by cases C45_deterministic _ _ _ _ _ _ h h'

mutual
theorem Gives.notMiss : ∀ {p : Parser α} {s log o}, Gives C p s log o → ∀ {F : β → Prop}, Clear C null begin' follow p F →
    s.Valid C.mem → Only (fun _ _ => ¬ Peg C.eqv (fun k => (C.custom k).body) p (s.elems C.mem) none) o
  | _, _, _, _, .hit hb hm _, _, _, _ => .ok (not_miss (.hit hb hm))
  | _, _, _, _, .miss _ _, _, _, _ => .no
  | _, _, _, _, .epsilon, _, _, _ => .ok (not_miss .epsilon)
  | _, _, _, _, .choice _ _ h, _, hc, hs => h.notMiss hc.1 hs
  | _, _, _, _, .sequence h, _, hc, hs => (h.notMiss hc hs).map fun _ _ => id
  | _, _, _, _, .maybe _, _, _, _ => .ok (Never.maybe _)
  | _, _, _, _, .maybeNot _, _, _, _ => .ok (Never.maybe _)
  | _, _, _, _, .maybeThrows _, _, _, _ => .throws
  | _, _, _, _, .exactly h, _, hc, hs => (h.notMiss hc hs).map fun _ _ => id
  | _, _, _, _, .zeroOrMore h, _, _, _ => (h.means hp).map fun _ _ _ => Never.zeroOrMore _
  | _, _, _, _, .oneOrMore h h', _, hc, hs => (h'.means hp).map fun _ _ _ hn => by
      cases hn with
      | miss hb => cases hb
      | oneMiss hn => exact (h.notMiss hc.1 hs).get hn
  | _, _, _, _, .oneStops _ h, _, _, _ => .stops h
  | _, _, _, _, .delimit h h', _, hc, hs => (h'.means hp).map fun _ _ _ hn => by
      cases hn with
      | miss hb => cases hb
      | delimitMiss hn => exact (h.notMiss hc.1 hs).get hn
  | _, _, _, _, .delimitStops _ h, _, _, _ => .stops h
  | _, _, _, _, .ignore h _, _, _, _ => .ok (not_miss (.ignore h))
  | _, _, _, _, .ignoreNot _, _, _, _ => .no
  | _, _, _, _, .complete h hl, _, hc, hs => .ok fun hn => by
      cases hn with
      | miss hb => cases hb
      | completeMiss hn => exact (h.notMiss hc.1 hs).get hn
      | completeShort hk hlt =>
        have hw := h.stride hp
        have e0 : _ = [] := List.length_eq_zero_iff.1 ((hw.valid hs).elems_length.trans hl)
        obtain ⟨j, hj, e⟩ := strides_peg ht hc.1 hs hw (by rw [e0]; nofun)
        cases C45_deterministic _ _ _ _ _ _ hk hj
        rw [hs.elems_length] at hlt
        rw [e] at hl
        have hl : _ - _ = 0 := hl
        omega
  | _, _, _, _, .completeShort _ _, _, _, _ => .no
  | _, _, _, _, .completeStops _ h, _, _, _ => .stops h
  | _, _, _, _, .join h _, _, hc, hs => .ok fun hn => by
      cases hn with
      | miss hb => cases hb
      | join hn => exact (h.notMiss hc hs).get hn
  | _, _, _, _, .joinGap _ _, _, _, _ => .no
  | _, _, _, _, .joinStops _ h, _, _, _ => .stops h
  | _, _, _, _, .map h _, _, hc, hs => .ok fun hn => by
      cases hn with
      | miss hb => cases hb
      | map hn => exact (h.notMiss hc hs).get hn
  | _, _, _, _, .mapThrows _ _, _, _, _ => .throws
  | _, _, _, _, .mapStops _ h, _, _, _ => .stops h
  | _, _, _, _, .filter h _ _, _, hc, hs => .ok fun hn => by
      cases hn with
      | miss hb => cases hb
      | filter hn => exact (h.notMiss hc hs).get hn
  | _, _, _, _, .filterOut _ _ _, _, _, _ => .no
  | _, _, _, _, .filterThrows _ _, _, _, _ => .throws
  | _, _, _, _, .filterStops _ h, _, _, _ => .stops h
  | _, _, _, _, .named h, _, hc, hs => (h.notMiss hc hs).imp fun _ _ h hn => by
      cases hn with
      | miss hb => cases hb
      | named hn => exact h hn
  | _, _, _, _, .custom _ h, _, _, hs => (h.notMiss (ht.clear _) hs).map fun _ _ h hn => by
      cases hn with
      | miss hb => cases hb
      | custom hn => exact h hn
  | _, _, _, _, .pretended hk _ _, _, _, _ => absurd hk (hp _)
  | _, _, _, _, .pretendedNot hk _ _, _, _, _ => absurd hk (hp _)
  | _, _, _, _, .pretendedThrows _ _, _, _, _ => .throws
theorem GivesFirst.notMiss : ∀ {us d} {ps : List (Parser α)} {is s log o}, GivesFirst C us d ps is s log o →
    ∀ {F : β → Prop}, clearAll C null begin' follow ps F → s.Valid C.mem →
    Only (fun _ _ => ¬ Peg C.eqv (fun k => (C.custom k).body) (.choice ps) (s.elems C.mem) none) o
  | _, _, _, _, _, _, _, .nil, _, _, _ => .no
  | _, _, _, _, _, _, _, .looked h _, _, _, _ => .ok (not_miss (.choiceHit h))
  | _, _, _, _, _, _, _, .lookedNot _ h, _, hc, hs => (h.notMiss hc.2 hs).imp fun _ _ h hn => by
      cases hn with
      | miss hb => cases hb
      | choiceMiss _ hn => exact h hn
  | _, _, _, _, _, _, _, .parsed h, _, hc, hs => .ok fun hn => by
      cases hn with
      | miss hb => cases hb
      | choiceMiss hn _ => exact (h.notMiss hc.1 hs).get hn
  | _, _, _, _, _, _, _, .parsedNot _ h, _, hc, hs => (h.notMiss hc.2 hs).imp fun _ _ h hn => by
      cases hn with
      | miss hb => cases hb
      | choiceMiss _ hn => exact h hn
  | _, _, _, _, _, _, _, .throws _, _, _, _ => .throws
theorem GivesParts.notMiss : ∀ {ps : List (Parser α)} {s log o}, GivesParts C ps s log o → ∀ {F : β → Prop},
    clearParts C null begin' follow ps F → s.Valid C.mem →
    Only (fun _ _ => ¬ Peg C.eqv (fun k => (C.custom k).body) (.sequence ps) (s.elems C.mem) none) o
  | _, _, _, _, .nil, _, _, _ => .ok (Never.nil _)
  | _, _, _, _, .value _ h h', _, hc, hs =>
      have hs1 := (h.stride hp).valid hs
      (((h'.idle hp hs1).both (h'.means hp)).both (h'.notMiss hc.2 hs1)).map fun _ _ hm =>
        not_miss_more ht hc.1 hs (h.stride hp) hm.1.2.strides (fun _ => .inl) ((h.notMiss hc.1 hs).get) hm.2 hm.1.1 miss_cons
  | _, _, _, _, .stops _ _ h, _, _, _ => .stops h
  | _, _, _, _, .void _ h ha h', _, hc, hs =>
      have hw := wordFrom_peg h ha
      have hs1 := Strides.valid hw hs
      (((h'.idle hp hs1).both (h'.means hp)).both (h'.notMiss hc.2 hs1)).imp fun _ _ hm =>
        not_miss_more ht hc.1 hs hw hm.1.2.strides (fun _ => .inl) (not_miss h) hm.2 hm.1.1 miss_cons
  | _, _, _, _, .voidNot _ _, _, _, _ => .no
theorem GivesTimes.notMiss : ∀ {p : Parser α} {n s log o}, GivesTimes C p n s log o → ∀ {F : β → Prop},
    (Clear C null begin' follow p fun x => p.begins C.eqv null begin' x = true ∨ F x) → s.Valid C.mem →
    Only (fun _ _ => ¬ Peg C.eqv (fun k => (C.custom k).body) (.exactly p n) (s.elems C.mem) none) o
  | _, _, _, _, _, .zero, _, _, _ => .ok (Never.zero _)
  | _, _, _, _, _, .more h h', _, hc, hs =>
      have hs1 := (h.stride hp).valid hs
      (((h'.idle hp hs1).both (h'.means hp)).both (h'.notMiss hc hs1)).map fun _ _ hm =>
        not_miss_more ht hc hs (h.stride hp) hm.1.2.strides (fun _ h => .inl (by simpa only [Parser.begins] using h))
          ((h.notMiss hc hs).get) hm.2 hm.1.1 miss_more
  | _, _, _, _, _, .stops _ h, _, _, _ => .stops h
end

/-! ### `parse` finds what the text means -/

omit hp ht in
/-- it succeeds like this, or throws -/
inductive Settles {A : Type} (a : A) (s' : Span) : Ending A → Prop where
  | ok : Settles a s' (.ok a s')
  | throws {e} : Settles a s' (.throws e)

omit hp ht in
theorem Settles.map {A B : Type} {a : A} {s' : Span} {o : Ending A} (f : A → B) (h : Settles a s' o) :
    Settles (f a) s' (o.map f) := by
  cases h with
  | ok => exact .ok
  | throws => exact .throws

omit hp ht in
theorem Settles.stops {A B : Type} {a : A} {b : B} {s' s'' : Span} {o : Ending A} {o' : Ending B} (h : Settles a s' o)
    (hs : StopsLike o o') : Settles b s'' o' := by
  cases h with
  | ok => cases hs
  | throws => cases hs; exact .throws

omit hp in
/-- where a word is, `lookahead` ends at its end -/
theorem word_end {p : Parser α} {F : β → Prop} {s s1 s2 : Span} {k : Nat} (hc : Clear C null begin' follow p F)
    (hs : s.Valid C.mem) (h : Strides C (Word C.eqv (fun k => (C.custom k).body) p) s s1) (hF : GoesOn F (s1.elems C.mem))
    (hk : Peg C.eqv (fun k => (C.custom k).body) p (s.elems C.mem) (some k)) (ha : s.Advanced k s2) : s2 = s1 := by
  obtain ⟨j, hj, e⟩ := strides_peg ht hc hs h hF
  cases C45_deterministic _ _ _ _ _ _ hk hj
  rw [e, ha.eq_drop]

mutual
theorem Means.found : ∀ {p : Parser α} {s v s1}, Means C p s v s1 → ∀ {F : β → Prop} {log o}, Clear C null begin' follow p F →
    s.Valid C.mem → GoesOn F (s1.elems C.mem) → Gives C p s log o → Settles v s1 o
  | _, _, _, _, .basic hb hm ha, F, log, o, hc, hs, hF, hg => by
    cases hg with
    | hit hb' hm' ha' =>
      cases C45_deterministic _ _ _ _ _ _ (Peg.hit (body := fun k => (C.custom k).body) hb hm) (.hit hb' hm')
      rw [ha.eq_drop, ha'.eq_drop]
      exact .ok
    | miss hb' hm' => exact absurd hm (hm' _)
    | _ => cases hb
  | _, _, _, _, .epsilon, F, log, o, hc, hs, hF, hg => by
    cases hg with
    | hit hb => cases hb
    | miss hb => cases hb
    | epsilon => exact .ok
  | _, _, _, _, .choice hr hd h, F, log, o, hc, hs, hF, hg => by
    cases hg with
    | hit hb => cases hb
    | miss hb => cases hb
    | choice hr' hd' hg =>
      rw [← hr.unique hr', ← Option.some.inj (((isDefault_iff C _ _).1 hd).symm.trans ((isDefault_iff C _ _).1 hd'))] at hg
      exact h.found hc.1 hc.2 hs hF hg
  | _, _, _, _, .sequence h, F, log, o, hc, hs, hF, hg => by
    cases hg with
    | hit hb => cases hb
    | miss hb => cases hb
    | sequence hg => exact (h.found hc hs hF hg).map _
  | _, _, _, _, .maybe h, F, log, o, hc, hs, hF, hg => by
    cases hg with
    | hit hb => cases hb
    | miss hb => cases hb
    | maybe hg => cases h.found hc.1 hs hF hg; exact .ok
    | maybeNot hg => cases h.found hc.1 hs hF hg
    | maybeThrows _ => exact .throws
  | _, _, _, _, .maybeNot, F, log, o, hc, hs, hF, hg => by
    cases hg with
    | hit hb => cases hb
    | miss hb => cases hb
    | maybe hg => exact absurd (hc.2 _ hF) (hg.notMiss hp ht hc.1 hs).get
    | maybeNot hg => exact .ok
    | maybeThrows _ => exact .throws
  | _, _, _, _, .exactly h, F, log, o, hc, hs, hF, hg => by
    cases hg with
    | hit hb => cases hb
    | miss hb => cases hb
    | exactly hg => exact (h.found hc hs hF hg).map _
  | _, _, _, _, .zeroOrMore h, F, log, o, hc, hs, hF, hg => by
    cases hg with
    | hit hb => cases hb
    | miss hb => cases hb
    | zeroOrMore hg => exact (h.found hc.1 hc.2 hs hF hg).map _
  | _, _, _, _, .oneOrMore h h', F, log, o, hc, hs, hF, hg => by
    have g := goesOn_again ht (h.strides.valid hs) h'.strides hF fun _ h => by simpa [Parser.begins] using h
    cases hg with
    | hit hb => cases hb
    | miss hb => cases hb
    | oneOrMore hg hg' =>
      have e := h.found hc.1 hs g hg
      cases e with
      | ok => exact Settles.map (fun vs => vectorValue _ (_ :: vs)) (h'.found hc.1 hc.2 (h.strides.valid hs) hF hg')
    | oneStops hg hst => exact (h.found hc.1 hs g hg).stops hst
  | _, _, _, _, .delimit h h', F, log, o, hc, hs, hF, hg => by
    have g := goesOn_again ht (h.strides.valid hs) h'.strides hF fun _ h => by simpa only [Parser.begins] using h
    cases hg with
    | hit hb => cases hb
    | miss hb => cases hb
    | delimit hg hg' =>
      have e := h.found hc.1 hs g hg
      cases e with
      | ok => exact Settles.map (fun xs => delimitValue _ _ (_ :: xs.map (·.2)) (xs.map (·.1))) (h'.found hc (h.strides.valid hs) hF hg')
    | delimitStops hg hst => exact (h.found hc.1 hs g hg).stops hst
  | .ignore p, _, _, _, .ignore h, F, log, o, hc, hs, hF, hg => by
    cases hg with
    | hit hb => cases hb
    | miss hb => cases hb
    | ignore hk ha => rw [word_end ht (p := p) hc hs h hF hk ha]; exact .ok
    | ignoreNot hn => exact (strides_not ht (p := p) hc hs h hF hn).elim
  | _, _, _, _, .complete h, F, log, o, hc, hs, hF, hg => by
    cases hg with
    | hit hb => cases hb
    | miss hb => cases hb
    | complete hg _ => exact h.found hc.1 hs hF hg
    | completeShort hg hl =>
      cases h.found hc.1 hs hF hg
      refine absurd ?_ hl
      rw [← (h.strides.valid hs).elems_length, List.length_eq_zero_iff]
      match e : Span.elems C.mem _ with
      | [] => rfl
      | x :: _ => exact (hc.2 x (hF x (by rw [e]; rfl))).elim
    | completeStops hg hst => exact (h.found hc.1 hs hF hg).stops hst
  | .join p, _, _, _, .join h hj, F, log, o, hc, hs, hF, hg => by
    cases hg with
    | hit hb => cases hb
    | miss hb => cases hb
    | join hg _ => cases h.found hc hs hF hg; exact .ok
    | joinGap hg hj' => cases h.found hc hs hF hg; exact absurd hj hj'
    | joinStops hg hst => exact (h.found hc hs hF hg).stops hst
  | _, _, _, _, .map h hf, F, log, o, hc, hs, hF, hg => by
    cases hg with
    | hit hb => cases hb
    | miss hb => cases hb
    | map hg hf' => cases h.found hc hs hF hg; cases invokes_unique hf hf'; exact .ok
    | mapThrows _ _ => exact .throws
    | mapStops hg hst => exact (h.found hc hs hF hg).stops hst
  | _, _, _, _, .filter h hf htr, F, log, o, hc, hs, hF, hg => by
    cases hg with
    | hit hb => cases hb
    | miss hb => cases hb
    | filter hg _ _ => exact h.found hc hs hF hg
    | filterOut hg hf' hfa =>
      cases h.found hc hs hF hg
      cases invokes_unique hf hf'
      rw [htr] at hfa
      cases hfa
    | filterThrows _ _ => exact .throws
    | filterStops hg hst => exact (h.found hc hs hF hg).stops hst
  | _, _, _, _, .named h, F, log, o, hc, hs, hF, hg => by
    cases hg with
    | hit hb => cases hb
    | miss hb => cases hb
    | named hg => exact h.found hc hs hF hg
  | _, _, _, _, .custom h, F, log, o, hc, hs, hF, hg => by
    cases hg with
    | hit hb => cases hb
    | miss hb => cases hb
    | custom _ hg => exact (h.found (ht.clear _) hs (fun x hx => hc x (hF x hx)) hg).map _
    | pretended hk => exact absurd hk (hp _)
    | pretendedNot hk => exact absurd hk (hp _)
    | pretendedThrows hk => exact absurd hk (hp _)
termination_by structural _ _ _ _ h => h
theorem MeansAny.found : ∀ {us d} {ps : List (Parser α)} {is s v s1}, MeansAny C us d ps is s v s1 →
    ∀ {F : β → Prop} {log o}, clearAll C null begin' follow ps F → ps.Pairwise (Leaves C F) → s.Valid C.mem →
    GoesOn F (s1.elems C.mem) → GivesFirst C us d ps is s log o → Settles v s1 o
  | _, _, _, _, _, _, _, .void h, F, log, o, hc, hl, hs, hF, hg => by
    cases hg with
    | looked hk ha => rw [word_end ht hc.1 hs h hF hk ha]; exact .ok
    | lookedNot hn _ => exact (strides_not ht hc.1 hs h hF hn).elim
  | _, _, _, _, _, _, _, .value h, F, log, o, hc, hl, hs, hF, hg => by
    cases hg with
    | parsed hg => cases h.found hc.1 hs hF hg; exact .ok
    | parsedNot hg _ => cases h.found hc.1 hs hF hg
    | throws _ => exact .throws
  | _, _, _, _, _, _, _, .later h, F, log, o, hc, hl, hs, hF, hg => by
    obtain ⟨w, e, ⟨q, hq, hw⟩, -⟩ := h.strides.word hs
    have hn := fun {p} (hp : ∀ q ∈ _, Leaves C F p q) => hp q hq w _ hw hF
    rw [← e] at hn
    cases hg with
    | looked hk _ => exact absurd (hn (List.pairwise_cons.1 hl).1) (not_miss hk)
    | lookedNot _ hg => exact h.found hc.2 (List.pairwise_cons.1 hl).2 hs hF hg
    | parsed hg => exact absurd (hn (List.pairwise_cons.1 hl).1) (hg.notMiss hp ht hc.1 hs).get
    | parsedNot _ hg => exact h.found hc.2 (List.pairwise_cons.1 hl).2 hs hF hg
    | throws _ => exact .throws
termination_by structural _ _ _ _ _ _ _ h => h
theorem MeansParts.found : ∀ {ps : List (Parser α)} {s vs s1}, MeansParts C ps s vs s1 →
    ∀ {F : β → Prop} {log o}, clearParts C null begin' follow ps F → s.Valid C.mem →
    GoesOn F (s1.elems C.mem) → GivesParts C ps s log o → Settles vs s1 o
  | _, _, _, _, .nil, F, log, o, hc, hs, hF, hg => by cases hg; exact .ok
  | _, _, _, _, .value hv h h', F, log, o, hc, hs, hF, hg => by
    have g := goesOn_strides ht (h.strides.valid hs) h'.strides hF
    cases hg with
    | value _ hg hg' =>
      have e := h.found hc.1 hs g hg
      cases e with
      | ok => exact (h'.found hc.2 (h.strides.valid hs) hF hg').map _
    | stops _ hg hst => exact (h.found hc.1 hs g hg).stops hst
    | void hv' => exact absurd hv' hv
    | voidNot hv' => exact absurd hv' hv
  | _, _, _, _, .void hv h h', F, log, o, hc, hs, hF, hg => by
    have g := goesOn_strides ht (Strides.valid h hs) h'.strides hF
    cases hg with
    | value hv' => exact absurd hv hv'
    | stops hv' => exact absurd hv hv'
    | void _ hk ha hg' =>
      rw [word_end ht hc.1 hs h g hk ha] at hg'
      exact h'.found hc.2 (Strides.valid h hs) hF hg'
    | voidNot _ hn => exact (strides_not ht hc.1 hs h g hn).elim
termination_by structural _ _ _ _ h => h
theorem MeansTimes.found : ∀ {p : Parser α} {n s vs s1}, MeansTimes C p n s vs s1 →
    ∀ {F : β → Prop} {log o}, (Clear C null begin' follow p fun x => p.begins C.eqv null begin' x = true ∨ F x) →
    s.Valid C.mem → GoesOn F (s1.elems C.mem) → GivesTimes C p n s log o → Settles vs s1 o
  | _, _, _, _, _, .zero, F, log, o, hc, hs, hF, hg => by cases hg; exact .ok
  | _, _, _, _, _, .more h h', F, log, o, hc, hs, hF, hg => by
    have g := goesOn_again ht (h.strides.valid hs) h'.strides hF fun _ h => by simpa [Parser.begins] using h
    cases hg with
    | more hg hg' =>
      have e := h.found hc hs g hg
      cases e with
      | ok => exact (h'.found hc (h.strides.valid hs) hF hg').map _
    | stops hg hst => exact (h.found hc hs g hg).stops hst
termination_by structural _ _ _ _ _ h => h
theorem MeansMany.found : ∀ {p : Parser α} {s vs s1}, MeansMany C p s vs s1 →
    ∀ {F : β → Prop} {log o}, (Clear C null begin' follow p fun x => p.begins C.eqv null begin' x = true ∨ F x) →
    Refuses C p F → s.Valid C.mem → GoesOn F (s1.elems C.mem) → GivesMany C p s log o → Settles vs s1 o
  | _, _, _, _, .over, F, log, o, hc, hr, hs, hF, hg => by
    cases hg with
    | more hg _ => exact absurd (hr _ hF) (hg.notMiss hp ht hc hs).get
    | over _ => exact .ok
    | throws _ => exact .throws
  | _, _, _, _, .more h h', F, log, o, hc, hr, hs, hF, hg => by
    have g := goesOn_again ht (h.strides.valid hs) h'.strides hF fun _ h => by simpa [Parser.begins] using h
    cases hg with
    | more hg hg' =>
      have e := h.found hc hs g hg
      cases e with
      | ok => exact (h'.found hc hr (h.strides.valid hs) hF hg').map _
    | over hg => cases h.found hc hs g hg
    | throws _ => exact .throws
termination_by structural _ _ _ _ h => h
theorem MeansPairs.found : ∀ {d p : Parser α} {s xs s1}, MeansPairs C d p s xs s1 →
    ∀ {F : β → Prop} {log o}, Clear C null begin' follow (.delimit p d) F →
    s.Valid C.mem → GoesOn F (s1.elems C.mem) → GivesPairs C d p s log o → Settles xs s1 o
  | d, p, _, _, _, .over, F, log, o, hc, hs, hF, hg => by
    cases hg with
    | more hg hg' _ =>
      have hs1 := (hg.stride hp).valid hs
      have hw : Strides C (Word C.eqv (fun k => (C.custom k).body) (.sequence [p])) _ _ := (hg'.stride hp).imp fun w hw => by
        have := Word.sequenceMore hw .sequenceNil
        rwa [List.append_nil] at this
      refine absurd (hc.2.2 _ hF) (not_miss_more ht hc.2.1 hs (hg.stride hp) hw (fun _ => .inl)
        (hg.notMiss hp ht hc.2.1 hs).get ?_ ?_ miss_cons)
      · intro hn
        rcases miss_cons hn with ⟨k, _, hn⟩ | hn
        · exact Never.nil _ hn
        · exact (hg'.notMiss hp ht hc.1 hs1).get hn
      · exact fun h1 h2 => .cons ((hg'.idle hp hs1).get h1 h2) .nil
    | noDelimiter _ => exact .ok
    | noElement _ _ => exact .ok
    | delimiterThrows _ => exact .throws
    | elementThrows _ _ => exact .throws
  | _, _, _, _, _, .more h h' h'', F, log, o, hc, hs, hF, hg => by
    have hw := h.strides.andThen (R := Word C.eqv (fun k => (C.custom k).body) (.sequence [_, _])) h'.strides fun _ _ => word_pair
    have g := goesOn_again ht (hw.valid hs) h''.strides hF fun _ h => by simpa only [Parser.begins] using h
    have b := goesOn_strides ht (ps := [_]) (h.strides.valid hs)
      (h'.strides.imp fun w hw => by have := Word.sequenceMore hw .sequenceNil; rwa [List.append_nil] at this) g
    cases hg with
    | more hg hg' hg'' =>
      have e := h.found hc.2.1 hs b hg
      cases e with
      | ok =>
        have e' := h'.found hc.1 (h.strides.valid hs) g hg'
        cases e' with
        | ok => exact (h''.found hc (h'.strides.valid (h.strides.valid hs)) hF hg'').map _
    | noDelimiter hg => cases h.found hc.2.1 hs b hg
    | noElement hg hg' =>
      have e := h.found hc.2.1 hs b hg
      cases e with
      | ok => cases h'.found hc.1 (h.strides.valid hs) g hg'
    | delimiterThrows _ => exact .throws
    | elementThrows _ _ => exact .throws
termination_by structural _ _ _ _ _ h => h
end
end
end

end Tok3n
