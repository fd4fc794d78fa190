import Verif.Spec.Predict
import Verif.Proof.Cut
import Verif.Proof.PegSteps
/-
Grammars in which the next element decides make linearly many calls.
-/

namespace Tok3n

variable {α β : Type}

/-- The account of a run: it stops at once, or predict_pays with what it consumes, or else something was given up late, which the
next element tells. -/
inductive Pays (A q v : Nat) (late : Prop) (stuck : β → Prop) (begins : β → Bool) (xs : List β) (n : Nat) :
    Option Nat → Prop where
  | fails : n ≤ q → Pays A q v late stuck begins xs n none
  | nothing : n ≤ q → Pays A q v late stuck begins xs n (some 0)
  | eats {k} : n ≤ A * (2 * k + 1) + v → Pays A q v late stuck begins xs n (some (k + 1))
  | late {x} : late → xs[0]? = some x → begins x = true → n ≤ A * (2 * xs.length) + v →
      Pays A q v late stuck begins xs n none
  | stuck {k x} : xs[k]? = some x → stuck x → (k = 0 → begins x = true) → n ≤ A * (2 * xs.length) + v →
      Pays A q v late stuck begins xs n (some k)

theorem Pays.imp {A q v q' v' : Nat} {l l' : Prop} {st st' : β → Prop} {bg bg' : β → Bool} {xs : List β} {n n' : Nat}
    {o : Option Nat} (h : Pays A q v l st bg xs n o) (e : Nat) (hn : n' ≤ n + e) (hq : q + e ≤ q') (hv : v + e ≤ v')
    (hl : o = none → l → l') (hs : ∀ x, st x → st' x) (hb : ∀ x, bg x = true → bg' x = true) :
    Pays A q' v' l' st' bg' xs n' o := by
  cases h with
  | fails h => exact .fails (by omega)
  | nothing h => exact .nothing (by omega)
  | eats h => exact .eats (by omega)
  | late h1 h2 h3 h4 => exact .late (hl rfl h1) h2 (hb _ h3) (by omega)
  | stuck h1 h2 h3 h4 => exact .stuck h1 (hs _ h2) (fun h => hb _ (h3 h)) (by omega)

/-- What a successful run says about the beginning of the text. -/
structure Starts (null : Bool) (begins : β → Bool) (xs : List β) (k : Nat) : Prop where
  null : k = 0 → null = true
  begins : 0 < k → ∃ x, xs[0]? = some x ∧ begins x = true
  le : k ≤ xs.length

/-- Where it does not begin it stops at once. -/
theorem Pays.quick {A q v : Nat} {l : Prop} {st : β → Prop} {bg : β → Bool} {nl : Bool} {xs : List β} {n : Nat}
    {o : Option Nat} (h : Pays A q v l st bg xs n o) (hs : ∀ k, o = some k → Starts nl bg xs k) {x : β}
    (hx : xs[0]? = some x) (hb : bg x = false) : (o = none ∨ o = some 0) ∧ n ≤ q := by
  cases h with
  | fails h => exact ⟨.inl rfl, h⟩
  | nothing h => exact ⟨.inr rfl, h⟩
  | eats h =>
    obtain ⟨y, h1, h2⟩ := (hs _ rfl).begins (Nat.succ_pos _)
    rw [hx] at h1; cases h1; rw [hb] at h2; cases h2
  | late _ h2 h3 => rw [hx] at h2; cases h2; rw [hb] at h3; cases h3
  | @stuck k y h1 _ h3 =>
    rcases Nat.eq_zero_or_pos k with rfl | hk
    · rw [hx] at h1; cases h1; rw [hb] at h3; cases h3 rfl
    · obtain ⟨y, h1, h2⟩ := (hs _ rfl).begins hk
      rw [hx] at h1; cases h1; rw [hb] at h2; cases h2

theorem two_mul_le {A k n : Nat} (h : k ≤ n) : A * k ≤ A * n := Nat.mul_le_mul_left A h

/-- One after the other. -/
theorem Pays.andThen {A q v q1 v1 q2 v2 : Nat} {l l1 l2 : Prop} {st st1 st2 : β → Prop} {bg bg1 bg2 : β → Bool}
    {nl1 nl2 : Bool} {xs : List β} {n m k : Nat} {o : Option Nat}
    (h1 : Pays A q1 v1 l1 st1 bg1 xs n (some k)) (h2 : Pays A q2 v2 l2 st2 bg2 (xs.drop k) m o)
    (s1 : Starts nl1 bg1 xs k) (s2 : ∀ j, o = some j → Starts nl2 bg2 (xs.drop k) j)
    (hst : ∀ x, st1 x → bg2 x = false) (hl : o = none → l) (hs2 : ∀ x, st2 x → st x)
    (hs1 : ∀ x, nl2 = true → st1 x → st x) (hb1 : ∀ x, bg1 x = true → bg x = true)
    (hb2 : ∀ x, nl1 = true → bg2 x = true → bg x = true)
    (hq : nl1 = true → q1 + 1 + q2 ≤ q) (hv1 : v1 + 1 + q2 ≤ v) (hv2 : nl1 = true → q1 + 1 + v2 ≤ v) (hA : v2 ≤ A) :
    Pays A q v l st bg xs (n + 1 + m) (o.map (k + ·)) := by
  have hd : (xs.drop k).length = xs.length - k := List.length_drop
  have hx0 : ∀ {x}, (xs.drop k)[0]? = some x → xs[k]? = some x := by
    intro x hx; simpa using hx
  cases h1 with
  | nothing h1 =>
    have hn := s1.null rfl
    have e : xs.drop 0 = xs := rfl
    rw [e] at h2 s2
    have := hq hn; have := hv2 hn
    have eo : o.map (0 + ·) = o := by cases o <;> simp
    rw [eo]
    cases h2 with
    | fails h => exact .fails (by omega)
    | nothing h => exact .nothing (by omega)
    | eats h => exact .eats (by omega)
    | late a b c d => exact .late (hl rfl) b (hb2 _ hn c) (by omega)
    | stuck a b c d => exact .stuck a (hs2 _ b) (fun h => hb2 _ hn (c h)) (by omega)
  | @eats k h1 =>
    obtain ⟨x, hx, hbx⟩ := s1.begins (Nat.succ_pos _)
    have hle := s1.le
    have c1 : A * (2 * k + 1) ≤ A * (2 * xs.length) := two_mul_le (by omega)
    have c2 : A * (2 * k + 1) + A * (2 * (xs.length - (k + 1))) + A ≤ A * (2 * xs.length) := by
      rw [← Nat.mul_add, ← Nat.mul_succ]; exact two_mul_le (by omega)
    cases h2 with
    | fails h => exact .late (hl rfl) hx (hb1 _ hbx) (by omega)
    | nothing h => exact .eats (k := k) (by omega)
    | @eats j h =>
      have c3 : A * (2 * k + 1) + A * (2 * j + 1) + A ≤ A * (2 * (k + 1 + j) + 1) := by
        rw [← Nat.mul_add, ← Nat.mul_succ]; exact two_mul_le (by omega)
      exact .eats (k := k + 1 + j) (by omega)
    | late a b c d => exact .late (hl rfl) hx (hb1 _ hbx) (by rw [hd] at d; omega)
    | @stuck j y a b c d =>
      exact .stuck (k := k + 1 + j) (by rwa [List.getElem?_drop] at a) (hs2 _ b) (fun h => by omega) (by rw [hd] at d; omega)
  | @stuck _ x a b c d =>
    have a' : (xs.drop k)[0]? = some x := by simpa using a
    obtain ⟨h3, h4⟩ := h2.quick s2 a' (hst _ b)
    have hx : ∃ y, xs[0]? = some y ∧ bg y = true := by
      rcases Nat.eq_zero_or_pos k with rfl | hk
      · exact ⟨x, a, hb1 _ (c rfl)⟩
      · obtain ⟨y, h5, h6⟩ := s1.begins hk
        exact ⟨y, h5, hb1 _ h6⟩
    rcases h3 with rfl | rfl
    · obtain ⟨y, h5, h6⟩ := hx
      exact .late (hl rfl) h5 h6 (by omega)
    · exact .stuck (k := k) a (hs1 _ ((s2 _ rfl).null rfl) b) (fun h => hb1 _ (c h)) (by omega)

/-- The first of several fails. -/
theorem Pays.miss {A q v q1 v1 : Nat} {l l1 : Prop} {st st1 : β → Prop} {bg bg1 : β → Bool} {xs : List β} {n : Nat}
    (h : Pays A q1 v1 l1 st1 bg1 xs n none) (hq : q1 + 1 ≤ q) (hv : v1 + 1 ≤ v) (hl : l1 → l)
    (hb : ∀ x, bg1 x = true → bg x = true) : Pays A q v l st bg xs (n + 1) none := by
  cases h with
  | fails h => exact .fails (by omega)
  | late a b c d => exact .late (hl a) b (hb _ c) (by omega)

/-- Something optional fails. -/
theorem Pays.stop {A q v q1 v1 : Nat} {l l1 : Prop} {st st1 : β → Prop} {bg bg1 : β → Bool} {xs : List β} {n : Nat}
    (h : Pays A q1 v1 l1 st1 bg1 xs n none) (hq : q1 + 1 ≤ q) (hv : v1 + 1 ≤ v)
    (hs : ∀ x, l1 → bg1 x = true → st x) (hb : ∀ x, bg1 x = true → bg x = true) : Pays A q v l st bg xs (n + 1) (some 0) := by
  cases h with
  | fails h => exact .nothing (by omega)
  | late a b c d => exact .stuck b (hs _ a c) (fun _ => hb _ c) (by omega)

/-- One alternative fails, then the others. -/
theorem Pays.orElse {A q v q1 v1 q2 v2 : Nat} {l l1 l2 : Prop} {st st1 st2 : β → Prop} {bg bg1 bg2 : β → Bool}
    {nl2 : Bool} {xs : List β} {n m : Nat} {o : Option Nat}
    (h1 : Pays A q1 v1 l1 st1 bg1 xs n none) (h2 : Pays A q2 v2 l2 st2 bg2 xs m o)
    (s2 : ∀ j, o = some j → Starts nl2 bg2 xs j) (hap : l1 → ∀ x, bg1 x = true → bg2 x = false)
    (hl1 : l1 → l) (hl2 : l2 → l) (hs2 : ∀ x, st2 x → st x) (hs1 : ∀ x, l1 → bg1 x = true → nl2 = true → st x)
    (hb1 : ∀ x, bg1 x = true → bg x = true) (hb2 : ∀ x, bg2 x = true → bg x = true)
    (hq : q1 + 1 + q2 ≤ q) (hv1 : v1 + 1 + q2 ≤ v) (hv2 : q1 + 1 + v2 ≤ v) : Pays A q v l st bg xs (n + 1 + m) o := by
  cases h1 with
  | fails h1 =>
    cases h2 with
    | fails h => exact .fails (by omega)
    | nothing h => exact .nothing (by omega)
    | eats h => exact .eats (by omega)
    | late a b c d => exact .late (hl2 a) b (hb2 _ c) (by omega)
    | stuck a b c d => exact .stuck a (hs2 _ b) (fun h => hb2 _ (c h)) (by omega)
  | late a b c d =>
    obtain ⟨h3, h4⟩ := h2.quick s2 b (hap a _ c)
    rcases h3 with rfl | rfl
    · exact .late (hl1 a) b (hb1 _ c) (by omega)
    · exact .stuck b (hs1 _ a c ((s2 _ rfl).null rfl)) (fun _ => hb1 _ c) (by omega)

/-- The whole account. -/
theorem Pays.bound {A q v : Nat} {l : Prop} {st : β → Prop} {bg : β → Bool} {xs : List β} {n : Nat} {o : Option Nat}
    (h : Pays A q v l st bg xs n o) (hq : q ≤ v) (hk : ∀ k, o = some k → k ≤ xs.length) :
    n ≤ A * (2 * xs.length) + v := by
  cases h with
  | fails h | nothing h => omega
  | @eats k h =>
    have := hk _ rfl
    have : A * (2 * k + 1) ≤ A * (2 * xs.length) := two_mul_le (by omega)
    omega
  | late _ _ _ h | stuck _ _ _ h => exact h

/-! ### The constants -/

section
variable (null : Nat → Bool) (qc : Nat → Nat)

mutual
/-- how many calls are made at most before something is consumed or found missing -/
def Parser.quick : Parser α → Nat
  | .anyOf _ | .noneOf _ | .allOf _ | .anything | .epsilon => 0
  | .choice ps => choiceQuick ps
  | .sequence ps => sequenceQuick ps
  | .maybe p | .zeroOrMore p | .oneOrMore p | .complete p | .ignore p | .join p | .map p _ | .filter p _ | .named p _ =>
    p.quick + 1
  | .exactly p i => i * (p.quick + 1)
  | .delimit p d => p.quick + 1 + if p.nullable null then d.quick + 1 + p.quick + 1 else 0
  | .custom k => qc k
def choiceQuick : List (Parser α) → Nat
  | [] => 0
  | p :: ps => p.quick + 1 + choiceQuick ps
def sequenceQuick : List (Parser α) → Nat
  | [] => 0
  | p :: ps => p.quick + 1 + if p.nullable null || (p.flat && allFlat ps) then sequenceQuick ps else 0
end

variable (vc : Nat → Nat)

mutual
/-- how many calls are made at most that are not paid for by what is consumed -/
def Parser.most : Parser α → Nat
  | .anyOf _ | .noneOf _ | .allOf _ | .anything | .epsilon => 0
  | .choice ps => choiceMost ps
  | .sequence ps => sequenceMost ps
  | .maybe p | .complete p | .ignore p | .join p | .map p _ | .filter p _ | .named p _ => p.most + 1
  | .zeroOrMore p | .oneOrMore p => p.most + p.quick null qc + 2
  | .exactly p i => i * (p.most + p.quick null qc + 1)
  | .delimit p d => p.most + 1 + (d.quick null qc + 1 + p.quick null qc + 1) +
      if p.nullable null then d.most + 1 + p.quick null qc + p.most + 1 + (d.quick null qc + 1 + p.quick null qc + 1) else 0
  | .custom k => vc k
def choiceMost : List (Parser α) → Nat
  | [] => 0
  | p :: ps => p.most + 1 + choiceMost ps
def sequenceMost : List (Parser α) → Nat
  | [] => 0
  | p :: ps => p.most + 1 + sequenceQuick null qc ps + if p.nullable null then sequenceMost ps else 0
end

mutual
/-- more than every part of an expression needs -/
def Parser.peak : Parser α → Nat
  | .anyOf _ | .noneOf _ | .allOf _ | .anything | .epsilon => 0
  | .choice ps => choicePeak ps
  | .sequence ps => sequencePeak ps
  | .maybe p | .complete p | .ignore p | .join p | .map p _ | .filter p _ | .named p _ => p.peak
  | .zeroOrMore p | .oneOrMore p => p.peak + (p.most null qc vc + p.quick null qc + 2)
  | .exactly p i => p.peak + i * (p.most null qc vc + p.quick null qc + 1)
  | .delimit p d => p.peak + d.peak + (d.most null qc vc + 1 + p.quick null qc + p.most null qc vc + 1 +
      (d.quick null qc + 1 + p.quick null qc + 1))
  | .custom _ => 0
def choicePeak : List (Parser α) → Nat
  | [] => 0
  | p :: ps => p.peak + choicePeak ps
def sequencePeak : List (Parser α) → Nat
  | [] => 0
  | p :: ps => p.peak + sequencePeak ps + sequenceMost null qc vc ps
end
end

section
variable {null : Nat → Bool} {qc vc : Nat → Nat}

mutual
theorem Parser.quick_le (h : ∀ k, qc k ≤ vc k) : ∀ p : Parser α, p.quick null qc ≤ p.most null qc vc
  | .anyOf _ | .noneOf _ | .allOf _ | .anything | .epsilon => Nat.le_refl _
  | .choice ps => choiceQuick_le h ps
  | .sequence ps => sequenceQuick_le h ps
  | .maybe p | .complete p | .ignore p | .join p | .map p _ | .filter p _ | .named p _ => Nat.succ_le_succ (p.quick_le h)
  | .zeroOrMore p | .oneOrMore p => by simp only [Parser.quick, Parser.most]; omega
  | .exactly p i => by simp only [Parser.quick, Parser.most]; exact Nat.mul_le_mul_left _ (by omega)
  | .delimit p d => by
    have := p.quick_le h; have := d.quick_le h
    simp only [Parser.quick, Parser.most]; split <;> omega
  | .custom k => h k
theorem choiceQuick_le (h : ∀ k, qc k ≤ vc k) : ∀ ps : List (Parser α), choiceQuick null qc ps ≤ choiceMost null qc vc ps
  | [] => Nat.le_refl _
  | p :: ps => by
    have := p.quick_le h; have := choiceQuick_le h ps
    simp only [choiceQuick, choiceMost]; omega
theorem sequenceQuick_le (h : ∀ k, qc k ≤ vc k) : ∀ ps : List (Parser α),
    sequenceQuick null qc ps ≤ sequenceMost null qc vc ps
  | [] => Nat.le_refl _
  | p :: ps => by
    have := p.quick_le h; have := sequenceQuick_le h ps
    simp only [sequenceQuick, sequenceMost]; split <;> split <;> omega
end
end

section
variable {C : Ctx α β} {null : Nat → Bool} {begin' : Nat → β → Bool} {tab : Nat → Predicts β} {qc vc : Nat → Nat}

/-- without repetitions and custom parsers there are never more -/
theorem PegSteps.flat {p : Parser α} {xs : List β} {n o} (h : PegSteps C p xs n o) : p.flat = true → n ≤ p.quick null qc := by
  induction h with
  | hit | miss | epsilon | choiceNil | sequenceNil | exactlyNil => exact fun _ => Nat.zero_le _
  | choiceHit _ ih =>
    intro hf
    simp only [Parser.flat, allFlat, Bool.and_eq_true] at hf
    have := ih hf.1
    simp only [Parser.quick, choiceQuick]; omega
  | choiceMiss _ _ ih1 ih2 =>
    intro hf
    simp only [Parser.flat, allFlat, Bool.and_eq_true] at hf
    have := ih1 hf.1
    have := ih2 hf.2
    simp only [Parser.quick, choiceQuick] at this ⊢; omega
  | sequenceMore _ _ ih1 ih2 =>
    intro hf
    simp only [Parser.flat, allFlat, Bool.and_eq_true] at hf
    have := ih1 hf.1
    have := ih2 hf.2
    simp only [Parser.quick, sequenceQuick, hf.1, hf.2, Bool.and_self, Bool.or_true, if_true] at this ⊢; omega
  | sequenceMiss _ ih =>
    intro hf
    simp only [Parser.flat, allFlat, Bool.and_eq_true] at hf
    have := ih hf.1
    simp only [Parser.quick, sequenceQuick]; omega
  | exactlyMore _ _ ih1 ih2 =>
    intro hf
    have := ih1 hf
    have := ih2 hf
    simp only [Parser.quick, Nat.add_mul] at this ⊢; omega
  | exactlyMiss _ ih =>
    intro hf
    have := ih hf
    simp only [Parser.quick, Nat.add_mul]; omega
  | zeroStop | zeroMore | oneMiss | oneMore | delimitMiss | delimitStop | delimitLast | delimitMore | custom => exact nofun
  | maybeHit _ ih | maybeMiss _ ih | completeHit _ ih | completeShort _ _ ih | completeMiss _ ih | ignore _ ih | join _ ih
  | map _ ih | filter _ ih | named _ ih =>
    intro hf
    exact Nat.succ_le_succ (ih hf)

/-- The account of a parser. -/
abbrev PaysFor (C : Ctx α β) (null : Nat → Bool) (begin' : Nat → β → Bool) (tab : Nat → Predicts β) (qc vc : Nat → Nat)
    (A : Nat) (p : Parser α) (xs : List β) (n : Nat) (o : Option Nat) : Prop :=
  Pays A (p.quick null qc) (p.most null qc vc) (p.predicts C.eqv null begin' tab).late
    (p.predicts C.eqv null begin' tab).stuck (fun x => p.begins C.eqv null begin' x) xs n o

variable (ht : PredictTable C null begin' tab)
include ht

theorem PredictTable.starts {p : Parser α} {xs : List β} {o : Option Nat} (h : PegC C p xs o) :
    ∀ k, o = some k → Starts (p.nullable null) (fun x => p.begins C.eqv null begin' x) xs k := by
  rintro k rfl
  obtain ⟨h1, h2⟩ := peg_begins ht.toBeginTable h _ rfl
  refine ⟨h1, fun hk => ?_, h.le _ rfl⟩
  obtain ⟨x, rest, rfl, hb⟩ := h2 hk
  exact ⟨x, rfl, hb⟩

theorem pays_flat {p : Parser α} {xs : List β} {n o} {A : Nat} (hqv : ∀ k, qc k ≤ vc k) (h : PegSteps C p xs n o)
    (hf : p.flat = true) : PaysFor C null begin' tab qc vc A p xs n o := by
  have h1 := h.flat (null := null) (qc := qc) hf
  have h2 := p.quick_le (null := null) hqv
  match o with
  | none => exact .fails h1
  | some 0 => exact .nothing h1
  | some (k + 1) => exact .eats (by omega)

/-- the account of what follows the first element of a `delimit` -/
abbrev PaysMore (C : Ctx α β) (null : Nat → Bool) (begin' : Nat → β → Bool) (tab : Nat → Predicts β) (qc vc : Nat → Nat)
    (A : Nat) (p d : Parser α) (xs : List β) (n : Nat) (o : Option Nat) : Prop :=
  Pays A (d.quick null qc + 1 + p.quick null qc + 1)
    (d.most null qc vc + 1 + p.quick null qc + p.most null qc vc + 1 + (d.quick null qc + 1 + p.quick null qc + 1)) False
    (fun x => (((d.predicts C.eqv null begin' tab).andThen (p.predicts C.eqv null begin' tab) (p.nullable null)
      (fun x => p.begins C.eqv null begin' x) p.certain (d.flat && p.flat)).repeated
        fun x => d.begins C.eqv null begin' x || (d.nullable null && p.begins C.eqv null begin' x)).stuck x)
    (fun x => d.begins C.eqv null begin' x || (d.nullable null && p.begins C.eqv null begin' x)) xs n o

omit ht in
/-- once more -/
theorem Pays.again {A q v q1 v1 : Nat} {l l1 : Prop} {st st1 : β → Prop} {bg : β → Bool}
    {xs : List β} {n m k j : Nat} {nl : Bool} (h1 : Pays A q1 v1 l1 st1 bg xs n (some k))
    (h2 : Pays A q v l st bg (xs.drop k) m (some j)) (s1 : Starts nl bg xs k) (hk : 0 < k) (s2 : Starts true bg (xs.drop k) j)
    (hst : ∀ x, st1 x → bg x = false) (hs1 : ∀ x, st1 x → st x) (hv1 : v1 + 1 + q ≤ v) (hA : v ≤ A) :
    Pays A q v l st bg xs (n + 1 + m) (some (k + j)) :=
  Pays.andThen (nl1 := false) (nl2 := true) (o := some j) h1 h2 ⟨fun h => absurd h (by omega), s1.begins, s1.le⟩
    (by rintro _ ⟨⟩; exact s2) hst nofun (fun _ => id) (fun x _ => hs1 x) (fun _ => id) nofun nofun hv1 nofun hA

/-- what a `delimit` is made of -/
def Splits (C : Ctx α β) (null : Nat → Bool) (begin' : Nat → β → Bool) (tab : Nat → Predicts β) (qc vc : Nat → Nat) (A : Nat)
    (p d : Parser α) (xs : List β) (n : Nat) (o : Option Nat) : Prop :=
  (∃ n1, PegSteps C p xs n1 none ∧ PaysFor C null begin' tab qc vc A p xs n1 none ∧ n = n1 + 1 ∧ o = none) ∨
  ∃ n1 k n2 j, PegSteps C p xs n1 (some k) ∧ PaysFor C null begin' tab qc vc A p xs n1 (some k) ∧
    PegC C (.zeroOrMore (.sequence [d, p])) (xs.drop k) (some j) ∧
    PaysMore C null begin' tab qc vc A p d (xs.drop k) n2 (some j) ∧ n = n1 + 1 + n2 ∧ o = some (k + j)

theorem pays_delimit {p d : Parser α} {xs : List β} {n o} {A : Nat} (hqv : ∀ k, qc k ≤ vc k)
    (hs : Splits C null begin' tab qc vc A p d xs n o) (hok : ((Parser.delimit p d).predicts C.eqv null begin' tab).ok)
    (hA : (Parser.delimit p d).peak null qc vc ≤ A) : PaysFor C null begin' tab qc vc A (.delimit p d) xs n o := by
  obtain ⟨h1, h2, h3⟩ := hok
  simp only [Parser.peak] at hA
  have hp0 := p.quick_le (null := null) hqv
  rcases hs with ⟨n1, -, hp, rfl, rfl⟩ | ⟨n1, k, n2, j, hc, hp, hc2, hm, rfl, rfl⟩
  · refine hp.miss ?_ ?_ .inl ?_
    · simp only [Parser.quick]; omega
    · simp only [Parser.most]; omega
    · intro x hx; simp [Parser.begins, hx]
  · refine Pays.andThen (nl1 := p.nullable null) (nl2 := true) hp hm (ht.starts hc.peg _ rfl) ?_ h3 nofun
      (fun _ => .inl) (fun _ _ h => .inr ⟨rfl, h⟩) ?_ ?_ ?_ ?_ ?_ ?_
    · rintro j' ⟨⟩
      have := ht.starts hc2 _ rfl
      simpa [Parser.begins, Parser.nullable, sequenceBegins] using this
    · intro x hx; simp [Parser.begins, hx]
    · intro x hn hx
      simp only [Bool.or_eq_true, Bool.and_eq_true] at hx
      rcases hx with hx | ⟨_, hx⟩
      · simp [Parser.begins, hn, hx]
      · simp [Parser.begins, hx]
    · intro hn; simp only [Parser.quick, hn, if_true]; omega
    · simp only [Parser.most]; omega
    · intro hn; simp only [Parser.most, hn, if_true]; omega
    · omega

/-- a delimiter, then an element -/
theorem pays_pair {p d : Parser α} {xs : List β} {n m j : Nat} {o} {A : Nat} (hqv : ∀ k, qc k ≤ vc k)
    (hd : PegSteps C d xs n (some j)) (pd : PaysFor C null begin' tab qc vc A d xs n (some j))
    (hp : PegSteps C p (xs.drop j) m o) (pp : PaysFor C null begin' tab qc vc A p (xs.drop j) m o)
    (hok : ((Parser.delimit p d).predicts C.eqv null begin' tab).ok) (hA : (Parser.delimit p d).peak null qc vc ≤ A) :
    Pays A (d.quick null qc + 1 + p.quick null qc) (d.most null qc vc + 1 + p.quick null qc + p.most null qc vc)
      ((d.predicts C.eqv null begin' tab).andThen (p.predicts C.eqv null begin' tab) (p.nullable null)
        (fun x => p.begins C.eqv null begin' x) p.certain (d.flat && p.flat)).late
      ((d.predicts C.eqv null begin' tab).andThen (p.predicts C.eqv null begin' tab) (p.nullable null)
        (fun x => p.begins C.eqv null begin' x) p.certain (d.flat && p.flat)).stuck
      (fun x => d.begins C.eqv null begin' x || (d.nullable null && p.begins C.eqv null begin' x)) xs (n + 1 + m)
      (o.map (j + ·)) := by
  obtain ⟨h1, ⟨⟨h2, h3, h4⟩, h5⟩, h6⟩ := hok
  simp only [Parser.peak] at hA
  have hd0 := d.quick_le (null := null) hqv
  by_cases hf : (d.flat && p.flat) = true
  · have hf' := hf
    simp only [Bool.and_eq_true] at hf'
    have e1 := hd.flat (null := null) (qc := qc) hf'.1
    have e2 := hp.flat (null := null) (qc := qc) hf'.2
    cases o with
    | none => exact .fails (by omega)
    | some i =>
      show Pays _ _ _ _ _ _ _ _ (some (j + i))
      cases hji : j + i with
      | zero => exact .nothing (by omega)
      | succ l => exact .eats (by omega)
  · refine Pays.andThen pd pp (ht.starts hd.peg _ rfl) (ht.starts hp.peg) h4 ?_ (fun _ => .inl) (fun _ a b => .inr ⟨a, b⟩)
      ?_ ?_ ?_ ?_ ?_ ?_
    · rintro rfl
      refine .inr ⟨?_, by simpa using hf⟩
      cases hc : p.certain with
      | true => exact absurd rfl (hp.peg.certain hc)
      | false => rfl
    · intro x hx; simp [hx]
    · intro x hn hx; simp [hn, hx]
    · intro; omega
    · omega
    · intro; omega
    · omega

/-- Every run keeps the account. -/
theorem predict_pays {ks : List Nat} {A : Nat} (hqv : ∀ k, qc k ≤ vc k)
    (hq : ∀ k ∈ ks, (C.custom k).body.quick null qc + 1 ≤ qc k) (hv : ∀ k ∈ ks, (C.custom k).body.most null qc vc + 1 ≤ vc k)
    (hA : ∀ k ∈ ks, (C.custom k).body.peak null qc vc ≤ A) (hks : ∀ k ∈ ks, (C.custom k).body.customs ks.contains = true)
    {p : Parser α} {xs : List β} {n o} (h : PegSteps C p xs n o) :
    (p.predicts C.eqv null begin' tab).ok → p.customs ks.contains = true → p.peak null qc vc ≤ A →
      PaysFor C null begin' tab qc vc A p xs n o ∧
      ∀ q d, p = .delimit q d → Splits C null begin' tab qc vc A q d xs n o := by
  have quick : ∀ q : Parser α, q.quick null qc ≤ q.most null qc vc := fun q => q.quick_le hqv
  have squick : ∀ qs : List (Parser α), sequenceQuick null qc qs ≤ sequenceMost null qc vc qs := sequenceQuick_le hqv
  have delimit : ∀ {p d : Parser α} {xs n o}, ((Parser.delimit p d).predicts C.eqv null begin' tab).ok →
      (Parser.delimit p d).peak null qc vc ≤ A → Splits C null begin' tab qc vc A p d xs n o →
      PaysFor C null begin' tab qc vc A (.delimit p d) xs n o ∧
        ∀ q e, Parser.delimit p d = .delimit q e → Splits C null begin' tab qc vc A q e xs n o :=
    fun h1 h2 h3 => ⟨pays_delimit ht hqv h3 h1 h2, by rintro _ _ ⟨⟩; exact h3⟩
  induction h with
  | @hit p xs k hb =>
    refine fun _ _ _ => ⟨?_, by rintro q d rfl; cases hb⟩
    cases k with
    | zero => exact .nothing (Nat.zero_le _)
    | succ k => exact .eats (Nat.zero_le _)
  | miss hb => exact fun _ _ _ => ⟨.fails (Nat.zero_le _), by rintro q d rfl; cases hb⟩
  | epsilon | sequenceNil | exactlyNil => exact fun _ _ _ => ⟨.nothing (Nat.zero_le _), nofun⟩
  | choiceNil => exact fun _ _ _ => ⟨.fails (Nat.zero_le _), nofun⟩
  | choiceHit h ih =>
    rintro ⟨h1, h2, h3⟩ hk hp
    simp only [Parser.customs, allCustoms, Bool.and_eq_true] at hk
    simp only [Parser.peak, choicePeak] at hp
    refine ⟨(ih h1 hk.1 (by omega)).1.imp 1 (by omega) ?_ ?_ (fun _ => .inl) (fun _ => .inl) ?_, nofun⟩
    · simp only [Parser.quick, choiceQuick]; omega
    · simp only [Parser.most, choiceMost]; omega
    · intro x hx; simp [Parser.begins, someBegins, hx]
  | @choiceMiss p ps xs n m o h h' ih ih' =>
    rintro ⟨h1, h2, h3⟩ hk hp
    simp only [Parser.customs, allCustoms, Bool.and_eq_true] at hk
    simp only [Parser.peak, choicePeak] at hp
    refine ⟨Pays.orElse (ih h1 hk.1 (by omega)).1 (ih' h2 hk.2 (by simp only [Parser.peak]; omega)).1
      (ht.starts h'.peg) h3 .inl .inr (fun _ => .inr ∘ .inl) (fun _ a b c => .inr (.inr ⟨a, b, c⟩)) ?_ ?_ ?_ ?_ ?_, nofun⟩
    · intro x hx; simp [Parser.begins, someBegins, hx]
    · intro x hx; simp only [Parser.begins] at hx; simp [Parser.begins, someBegins, hx]
    · simp only [Parser.quick, choiceQuick]; omega
    · have := choiceQuick_le (null := null) hqv ps
      simp only [Parser.quick, Parser.most, choiceMost]; omega
    · have := quick p
      simp only [Parser.most, choiceMost]; omega
  | @sequenceMore p ps xs n m k o h h' ih ih' =>
    rintro hok hk hp
    by_cases hf : (p.flat && allFlat ps) = true
    · exact ⟨pays_flat ht hqv (.sequenceMore h h') hf, nofun⟩
    obtain ⟨h1, h2, h3⟩ := hok
    simp only [Parser.customs, allCustoms, Bool.and_eq_true] at hk
    simp only [Parser.peak, sequencePeak] at hp
    have := quick p
    have := squick ps
    refine ⟨Pays.andThen (ih h1 hk.1 (by omega)).1 (ih' h2 hk.2 (by simp only [Parser.peak]; omega)).1
      (ht.starts h.peg _ rfl) (ht.starts h'.peg) h3 ?_ (fun _ => .inl) (fun _ a b => .inr ⟨a, b⟩) ?_ ?_ ?_ ?_ ?_ ?_, nofun⟩
    · rintro rfl
      refine .inr ⟨?_, by simpa using hf⟩
      cases hc : allCertain ps with
      | true => exact absurd rfl (h'.peg.certain hc)
      | false => rfl
    · intro x hx; simp [Parser.begins, sequenceBegins, hx]
    · intro x hn hx; simp only [Parser.begins] at hx; simp [Parser.begins, sequenceBegins, hn, hx]
    · intro hn; simp only [Parser.quick, sequenceQuick, hn, Bool.true_or, if_true]; omega
    · simp only [Parser.quick, Parser.most, sequenceMost]; omega
    · intro hn; simp only [Parser.most, sequenceMost, hn, if_true]; omega
    · simp only [Parser.most]; omega
  | @sequenceMiss p ps xs n h ih =>
    rintro ⟨h1, h2, h3⟩ hk hp
    simp only [Parser.customs, allCustoms, Bool.and_eq_true] at hk
    simp only [Parser.peak, sequencePeak] at hp
    refine ⟨(ih h1 hk.1 (by omega)).1.miss ?_ ?_ .inl ?_, nofun⟩
    · simp only [Parser.quick, sequenceQuick]; omega
    · simp only [Parser.most, sequenceMost]; omega
    · intro x hx; simp [Parser.begins, sequenceBegins, hx]
  | maybeHit h ih =>
    rintro hok hk hp
    exact ⟨(ih hok hk hp).1.imp 1 (by omega) (Nat.le_refl _) (Nat.le_refl _) nofun (fun _ => .inl) fun _ => id, nofun⟩
  | maybeMiss h ih =>
    rintro hok hk hp
    exact ⟨(ih hok hk hp).1.stop (Nat.le_refl _) (Nat.le_refl _) (fun _ a b => .inr ⟨a, b⟩) fun _ => id, nofun⟩
  | @exactlyMore p i xs n m k o h h' ih ih' =>
    rintro hok hk hp
    by_cases hf : p.flat = true
    · exact ⟨pays_flat ht hqv (.exactlyMore h h') hf, nofun⟩
    obtain ⟨h1, h2, h3⟩ := hok
    simp only [Parser.peak, Nat.add_mul] at hp
    have := quick p
    have hle : i * (p.quick null qc + 1) ≤ i * (p.most null qc vc + p.quick null qc + 1) := Nat.mul_le_mul_left _ (by omega)
    refine ⟨Pays.andThen (ih h1 hk (by omega)).1 (ih' h2 hk (by simp only [Parser.peak]; omega)).1
      (ht.starts h.peg _ rfl) (ht.starts h'.peg) h3 ?_ (fun _ => .inl) (fun _ a b => .inr ⟨a, b⟩) (fun _ => id) (fun _ _ => id)
      ?_ ?_ ?_ ?_, nofun⟩
    · rintro rfl
      refine .inr ⟨?_, by simpa using hf⟩
      cases hc : (Parser.exactly p i).certain with
      | true => exact absurd rfl (h'.peg.certain hc)
      | false => rfl
    · intro; simp only [Parser.quick, Nat.add_mul]; omega
    · simp only [Parser.quick, Parser.most, Nat.add_mul] at hle ⊢; omega
    · intro; simp only [Parser.most, Nat.add_mul]; omega
    · simp only [Parser.most]; omega
  | @exactlyMiss p i xs n h ih =>
    rintro ⟨h1, h2, h3⟩ hk hp
    simp only [Parser.peak] at hp
    refine ⟨(ih h1 hk (by omega)).1.miss ?_ ?_ .inl fun _ => id, nofun⟩
    · simp only [Parser.quick, Nat.add_mul]; omega
    · simp only [Parser.most, Nat.add_mul]; omega
  | @zeroStop p xs n h ih =>
    rintro ⟨h1, h2⟩ hk hp
    simp only [Parser.peak] at hp
    refine ⟨(ih h1 hk (by omega)).1.stop (Nat.le_refl _) ?_ (fun _ a b => .inr ⟨a, b⟩) fun _ => id, nofun⟩
    simp only [Parser.most]; omega
  | @zeroMore p xs n m k j h h' ih ih' =>
    rintro ⟨h1, h2⟩ hk hp
    have hp' := hp
    simp only [Parser.peak] at hp
    have hk0 : 0 < k := by
      rcases Nat.eq_zero_or_pos k with rfl | h0
      · exact absurd h.peg (Peg.star_progress h'.peg)
      · exact h0
    refine ⟨Pays.again (ih h1 hk (by omega)).1 (ih' ⟨h1, h2⟩ hk hp').1 (ht.starts h.peg _ rfl) hk0 (ht.starts h'.peg _ rfl)
      h2 (fun _ => .inl) ?_ ?_, nofun⟩
    · simp only [Parser.quick, Parser.most]; omega
    · simp only [Parser.most]; omega
  | @oneMiss p xs n h ih =>
    rintro ⟨h1, -⟩ hk hp
    simp only [Parser.peak] at hp
    refine ⟨(ih h1 hk (by omega)).1.miss (Nat.le_refl _) ?_ .inl fun _ => id, nofun⟩
    simp only [Parser.most]; omega
  | @oneMore p xs n m k j h h' ih ih' =>
    rintro ⟨h1, h2, h3⟩ hk hp
    have hp' := hp
    simp only [Parser.peak] at hp
    have hk0 : 0 < k := by
      rcases Nat.eq_zero_or_pos k with rfl | h0
      · exact absurd h.peg (Peg.star_progress h'.peg)
      · exact h0
    refine ⟨(Pays.again (ih h1 hk (by omega)).1 (ih' h2 hk hp').1 (ht.starts h.peg _ rfl) hk0 (ht.starts h'.peg _ rfl)
      h3 (fun _ => .inl) ?_ ?_).imp 0 (Nat.le_refl _) (Nat.le_refl _) (Nat.le_refl _) nofun (fun _ => .inl) fun _ => id, nofun⟩
    · simp only [Parser.quick, Parser.most]; omega
    · simp only [Parser.most]; omega
  | @delimitMiss p d xs n h ih =>
    rintro hok hk hp
    simp only [Parser.customs, Bool.and_eq_true] at hk
    have hp' := hp
    simp only [Parser.peak] at hp
    exact delimit hok hp' (.inl ⟨_, h, (ih hok.1 hk.1 (by omega)).1, rfl, rfl⟩)
  | @delimitStop p d xs n m k h h' ih ih' =>
    rintro hok hk hp
    simp only [Parser.customs, Bool.and_eq_true] at hk
    have hp' := hp
    simp only [Parser.peak] at hp
    refine delimit hok hp' (.inr ⟨_, _, _, 0, h, (ih hok.1 hk.1 (by omega)).1, .zeroStop (.sequenceMiss h'.peg),
      (ih' hok.2.1.1.1 hk.2 (by omega)).1.stop (by omega) (by omega) (fun _ a b => .inr ⟨.inl a, by simp [b]⟩)
        (fun x hx => by simp [hx]), rfl, rfl⟩)
  | @delimitLast p d xs n m i k j h h' h'' ih ih' ih'' =>
    rintro hok hk hp
    have hk' := hk
    simp only [Parser.customs, Bool.and_eq_true] at hk
    have hp' := hp
    simp only [Parser.peak] at hp
    rcases (ih'' hok hk' hp').2 _ _ rfl with ⟨n1, c1, c2, rfl, -⟩ | ⟨_, _, _, _, _, _, _, _, _, h0⟩
    · rw [← List.drop_drop] at c1 c2
      have t := pays_pair ht hqv h' (ih' hok.2.1.1.1 hk.2 (by omega)).1 c1 c2 hok hp'
      refine delimit hok hp' (.inr ⟨_, _, m + 1 + n1 + 1, 0, h, (ih hok.1 hk.1 (by omega)).1,
        .zeroStop (.sequenceMore h'.peg (.sequenceMiss c1.peg)), ?_, rfl, rfl⟩)
      exact Pays.stop t (by omega) (by omega) (fun _ a b => .inr ⟨a, b⟩) fun _ => id
    · cases h0
  | @delimitMore p d xs n m i k j l h h' h'' ih ih' ih'' =>
    rintro hok hk hp
    have hk' := hk
    simp only [Parser.customs, Bool.and_eq_true] at hk
    have hp' := hp
    simp only [Parser.peak] at hp
    rcases (ih'' hok hk' hp').2 _ _ rfl with ⟨_, _, _, _, h0⟩ | ⟨n1, k', n2, j', c1, c2, c3, c4, rfl, h0⟩
    · cases h0
    · cases h0
      rw [← List.drop_drop] at c1 c2 c3 c4
      have t := pays_pair ht hqv h' (ih' hok.2.1.1.1 hk.2 (by omega)).1 c1 c2 hok hp'
      have pt : PegC C (.sequence [d, p]) (xs.drop k) (some (j + k')) := by
        have := Peg.sequenceMore h'.peg (.sequenceMore c1.peg .sequenceNil)
        simpa using this
      rw [List.drop_drop (i := k')] at c3 c4
      have ps : PegC C (.zeroOrMore (.sequence [d, p])) (xs.drop k) (some (j + k' + j')) := .zeroMore pt c3
      have hk0 : 0 < j + k' := by
        rcases Nat.eq_zero_or_pos (j + k') with e | h0
        · rw [e] at pt c3
          exact absurd pt (Peg.star_progress c3)
        · exact h0
      have s1 := ht.starts pt _ rfl
      have s2 := ht.starts c3 _ rfl
      refine delimit hok hp' (.inr ⟨n, k, m + 1 + n1 + 1 + n2, j + k' + j', h, (ih hok.1 hk.1 (by omega)).1, ps, ?_, ?_, ?_⟩)
      · refine Pays.again (nl := (Parser.sequence [d, p]).nullable null) t c4 ⟨s1.null, ?_, s1.le⟩ hk0 ⟨s2.null, ?_, s2.le⟩
          hok.2.1.2 (fun _ => .inl) (by omega) (by omega)
        · simpa [Parser.begins, sequenceBegins] using s1.begins
        · simpa [Parser.begins, sequenceBegins] using s2.begins
      · omega
      · simp only [Option.some.injEq]; omega
  | @completeHit p xs n h ih =>
    rintro hok hk hp
    have := (ih hok hk hp).1
    refine ⟨?_, nofun⟩
    generalize hl : some xs.length = o at this ⊢
    cases this with
    | fails h => cases hl
    | late => cases hl
    | nothing h => exact .nothing (Nat.succ_le_succ h)
    | eats h => exact .eats (by simp only [Parser.most]; omega)
    | stuck a => cases hl; simp at a
  | @completeShort p xs n k h hlt ih =>
    rintro hok hk hp
    by_cases hf : p.flat = true
    · exact ⟨pays_flat ht hqv (.completeShort h hlt) hf, nofun⟩
    refine ⟨?_, nofun⟩
    have := (ih hok hk hp).1
    have s := ht.starts h.peg _ rfl
    have hf' : p.flat = false := by simpa using hf
    cases this with
    | nothing h0 => exact .fails (Nat.succ_le_succ h0)
    | @eats k h =>
      obtain ⟨x, hx, hb⟩ := s.begins (Nat.succ_pos _)
      have : A * (2 * k + 1) ≤ A * (2 * xs.length) := two_mul_le (by omega)
      exact .late hf' hx hb (by simp only [Parser.most]; omega)
    | @stuck _ x a b c e =>
      rcases Nat.eq_zero_or_pos k with rfl | h0
      · exact .late hf' a (c rfl) (by simp only [Parser.most]; omega)
      · obtain ⟨x, hx, hb⟩ := s.begins h0
        exact .late hf' hx hb (by simp only [Parser.most]; omega)
  | @completeMiss p xs n h ih =>
    rintro hok hk hp
    by_cases hf : p.flat = true
    · exact ⟨pays_flat ht hqv (.completeMiss h) hf, nofun⟩
    exact ⟨(ih hok hk hp).1.miss (Nat.le_refl _) (Nat.le_refl _) (fun _ => show p.flat = false by simpa using hf)
      fun _ => id, nofun⟩
  | ignore h ih | join h ih | map h ih | filter h ih | named h ih =>
    rintro hok hk hp
    exact ⟨(ih hok hk hp).1.imp 1 (Nat.le_refl _) (Nat.le_refl _) (Nat.le_refl _) (fun _ => id) (fun _ => id) fun _ => id, nofun⟩
  | @custom k xs n o h ih =>
    rintro hok hk hp
    have hk' : k ∈ ks := by simpa [Parser.customs] using hk
    exact ⟨(ih (ht.ok k hok) (hks k hk') (hA k hk')).1.imp 1 (Nat.le_refl _) (hq k hk') (hv k hk') (fun _ => ht.late k)
      (ht.stuck k) (ht.begins k), nofun⟩

end

/-! ### The constants exist -/

section
variable {null : Nat → Bool}

mutual
theorem Parser.flat_quick {q1 q2 : Nat → Nat} : ∀ p : Parser α, p.flat = true → p.quick null q1 = p.quick null q2
  | .anyOf _, _ | .noneOf _, _ | .allOf _, _ | .anything, _ | .epsilon, _ => rfl
  | .choice ps, h => flat_choiceQuick ps h
  | .sequence ps, h => flat_sequenceQuick ps h
  | .maybe p, h | .complete p, h | .ignore p, h | .join p, h | .map p _, h | .filter p _, h | .named p _, h =>
    congrArg (· + 1) (p.flat_quick h)
  | .exactly p i, h => congrArg (fun x => i * (x + 1)) (p.flat_quick h)
theorem flat_choiceQuick {q1 q2 : Nat → Nat} : ∀ ps : List (Parser α), allFlat ps = true →
    choiceQuick null q1 ps = choiceQuick null q2 ps
  | [], _ => rfl
  | p :: ps, h => by
    simp only [allFlat, Bool.and_eq_true] at h
    simp only [choiceQuick, p.flat_quick (q1 := q1) (q2 := q2) h.1, flat_choiceQuick (q1 := q1) (q2 := q2) ps h.2]
theorem flat_sequenceQuick {q1 q2 : Nat → Nat} : ∀ ps : List (Parser α), allFlat ps = true →
    sequenceQuick null q1 ps = sequenceQuick null q2 ps
  | [], _ => rfl
  | p :: ps, h => by
    simp only [allFlat, Bool.and_eq_true] at h
    simp only [sequenceQuick, p.flat_quick (q1 := q1) (q2 := q2) h.1, flat_sequenceQuick (q1 := q1) (q2 := q2) ps h.2]
end

mutual
theorem Parser.quick_congr {ok : Nat → Bool} {q1 q2 : Nat → Nat} (hq : ∀ j, ok j = true → q1 j = q2 j) :
    ∀ p : Parser α, p.firsts null ok = true → p.quick null q1 = p.quick null q2
  | .anyOf _, _ | .noneOf _, _ | .allOf _, _ | .anything, _ | .epsilon, _ => rfl
  | .choice ps, h => choiceQuick_congr hq ps h
  | .sequence ps, h => sequenceQuick_congr hq ps h
  | .maybe p, h | .complete p, h | .ignore p, h | .join p, h | .map p _, h | .filter p _, h | .named p _, h
  | .zeroOrMore p, h | .oneOrMore p, h => congrArg (· + 1) (p.quick_congr hq h)
  | .exactly p i, h => congrArg (fun x => i * (x + 1)) (p.quick_congr hq h)
  | .delimit p d, h => by
    simp only [Parser.firsts, Bool.and_eq_true, Bool.or_eq_true, Bool.not_eq_true'] at h
    simp only [Parser.quick, p.quick_congr hq h.1]
    rcases h.2 with h2 | h2
    · simp [h2]
    · rw [d.quick_congr hq h2]
  | .custom k, h => hq k h
theorem choiceQuick_congr {ok : Nat → Bool} {q1 q2 : Nat → Nat} (hq : ∀ j, ok j = true → q1 j = q2 j) :
    ∀ ps : List (Parser α), allFirsts null ok ps = true → choiceQuick null q1 ps = choiceQuick null q2 ps
  | [], _ => rfl
  | p :: ps, h => by
    simp only [allFirsts, Bool.and_eq_true] at h
    simp only [choiceQuick, p.quick_congr hq h.1, choiceQuick_congr hq ps h.2]
theorem sequenceQuick_congr {ok : Nat → Bool} {q1 q2 : Nat → Nat} (hq : ∀ j, ok j = true → q1 j = q2 j) :
    ∀ ps : List (Parser α), sequenceFirsts null ok ps = true → sequenceQuick null q1 ps = sequenceQuick null q2 ps
  | [], _ => rfl
  | p :: ps, h => by
    simp only [sequenceFirsts, Bool.and_eq_true, Bool.or_eq_true, Bool.not_eq_true'] at h
    simp only [sequenceQuick, p.quick_congr hq h.1]
    by_cases hf : (p.flat && allFlat ps) = true
    · simp only [Bool.and_eq_true] at hf
      rw [flat_sequenceQuick (q1 := q1) (q2 := q2) ps hf.2]
    · rcases h.2 with h2 | h2
      · rw [h2]
        simp only [Bool.false_or, if_neg hf]
      · rw [sequenceQuick_congr hq ps h2]
end

mutual
theorem Parser.most_congr {ok : Nat → Bool} {qc v1 v2 : Nat → Nat} (hv : ∀ j, ok j = true → v1 j = v2 j) :
    ∀ p : Parser α, p.firsts null ok = true → p.most null qc v1 = p.most null qc v2
  | .anyOf _, _ | .noneOf _, _ | .allOf _, _ | .anything, _ | .epsilon, _ => rfl
  | .choice ps, h => choiceMost_congr hv ps h
  | .sequence ps, h => sequenceMost_congr hv ps h
  | .maybe p, h | .complete p, h | .ignore p, h | .join p, h | .map p _, h | .filter p _, h | .named p _, h =>
    congrArg (· + 1) (p.most_congr hv h)
  | .zeroOrMore p, h | .oneOrMore p, h => congrArg (· + p.quick null qc + 2) (p.most_congr hv h)
  | .exactly p i, h => congrArg (fun x => i * (x + p.quick null qc + 1)) (p.most_congr hv h)
  | .delimit p d, h => by
    simp only [Parser.firsts, Bool.and_eq_true, Bool.or_eq_true, Bool.not_eq_true'] at h
    simp only [Parser.most, p.most_congr (qc := qc) hv h.1]
    rcases h.2 with h2 | h2
    · simp [h2]
    · rw [d.most_congr hv h2]
  | .custom k, h => hv k h
theorem choiceMost_congr {ok : Nat → Bool} {qc v1 v2 : Nat → Nat} (hv : ∀ j, ok j = true → v1 j = v2 j) :
    ∀ ps : List (Parser α), allFirsts null ok ps = true → choiceMost null qc v1 ps = choiceMost null qc v2 ps
  | [], _ => rfl
  | p :: ps, h => by
    simp only [allFirsts, Bool.and_eq_true] at h
    simp only [choiceMost, p.most_congr (qc := qc) hv h.1, choiceMost_congr (qc := qc) hv ps h.2]
theorem sequenceMost_congr {ok : Nat → Bool} {qc v1 v2 : Nat → Nat} (hv : ∀ j, ok j = true → v1 j = v2 j) :
    ∀ ps : List (Parser α), sequenceFirsts null ok ps = true → sequenceMost null qc v1 ps = sequenceMost null qc v2 ps
  | [], _ => rfl
  | p :: ps, h => by
    simp only [sequenceFirsts, Bool.and_eq_true, Bool.or_eq_true, Bool.not_eq_true'] at h
    simp only [sequenceMost, p.most_congr (qc := qc) hv h.1]
    rcases h.2 with h2 | h2
    · simp [h2]
    · rw [sequenceMost_congr hv ps h2]
end

mutual
theorem Parser.firsts_and {ok ok' : Nat → Bool} : ∀ p : Parser α, p.customs ok = true → p.firsts null ok' = true →
    p.firsts null (fun j => ok j && ok' j) = true
  | .anyOf _, _, _ | .noneOf _, _, _ | .allOf _, _, _ | .anything, _, _ | .epsilon, _, _ => rfl
  | .choice ps, h, h' => allFirsts_and ps h h'
  | .sequence ps, h, h' => sequenceFirsts_and ps h h'
  | .maybe p, h, h' | .complete p, h, h' | .ignore p, h, h' | .join p, h, h' | .map p _, h, h' | .filter p _, h, h'
  | .named p _, h, h' | .zeroOrMore p, h, h' | .oneOrMore p, h, h' | .exactly p _, h, h' => p.firsts_and h h'
  | .delimit p d, h, h' => by
    simp only [Parser.customs, Bool.and_eq_true] at h
    simp only [Parser.firsts, Bool.and_eq_true, Bool.or_eq_true, Bool.not_eq_true'] at h' ⊢
    exact ⟨p.firsts_and h.1 h'.1, h'.2.imp id fun h2 => d.firsts_and h.2 h2⟩
  | .custom k, h, h' => by
    simp only [Parser.customs, Parser.firsts] at h h' ⊢
    simp [h, h']
theorem allFirsts_and {ok ok' : Nat → Bool} : ∀ ps : List (Parser α), allCustoms ok ps = true →
    allFirsts null ok' ps = true → allFirsts null (fun j => ok j && ok' j) ps = true
  | [], _, _ => rfl
  | p :: ps, h, h' => by
    simp only [allCustoms, allFirsts, Bool.and_eq_true] at h h' ⊢
    exact ⟨p.firsts_and h.1 h'.1, allFirsts_and ps h.2 h'.2⟩
theorem sequenceFirsts_and {ok ok' : Nat → Bool} : ∀ ps : List (Parser α), allCustoms ok ps = true →
    sequenceFirsts null ok' ps = true → sequenceFirsts null (fun j => ok j && ok' j) ps = true
  | [], _, _ => rfl
  | p :: ps, h, h' => by
    simp only [allCustoms, Bool.and_eq_true] at h
    simp only [sequenceFirsts, Bool.and_eq_true, Bool.or_eq_true, Bool.not_eq_true'] at h' ⊢
    exact ⟨p.firsts_and h.1 h'.1, h'.2.imp id fun h2 => sequenceFirsts_and ps h.2 h2⟩
end
end

theorem exists_above (f : Nat → Nat) (ks : List Nat) (m : Nat) : ∃ R, m ≤ R ∧ ∀ k ∈ ks, f k ≤ R := by
  induction ks with
  | nil => exact ⟨m, Nat.le_refl _, nofun⟩
  | cons k ks ih =>
    obtain ⟨R, h1, h2⟩ := ih
    refine ⟨R + f k, by omega, fun j hj => ?_⟩
    rcases List.mem_cons.1 hj with rfl | hj
    · omega
    · have := h2 j hj; omega

/-- Numbers that depend only on those of lower rank can be found. -/
theorem rank_fix (F : (Nat → Nat) → Nat → Nat) (ks : List Nat) (rank : Nat → Nat)
    (hc : ∀ k ∈ ks, ∀ q1 q2 : Nat → Nat, (∀ j ∈ ks, rank j < rank k → q1 j = q2 j) → F q1 k = F q2 k) :
    ∃ q, (∀ k ∈ ks, F q k = q k) ∧ ∀ k, ∃ q', q k = F q' k := by
  let T : Nat → Nat → Nat := fun r => Nat.rec (fun _ => 0) (fun _ q => F q) r
  have key : ∀ r, ∀ k ∈ ks, rank k < r → T (r + 1) k = T r k := by
    intro r
    induction r with
    | zero => exact fun k _ h => absurd h (Nat.not_lt_zero _)
    | succ r ih => exact fun k hk hr => hc k hk (T (r + 1)) (T r) fun j hj hjk => ih j hj (by omega)
  obtain ⟨R, -, hR⟩ := exists_above rank ks 0
  exact ⟨T (R + 1), fun k hk => key (R + 1) k hk (by have := hR k hk; omega), fun k => ⟨T R, rfl⟩⟩

/-- The constants of a grammar, which do not depend on the input. -/
theorem exists_costs {custom : Nat → Parser α} {ks : List Nat} {null : Nat → Bool} {rank : Nat → Nat} (p : Parser α)
    (hks : ∀ k ∈ ks, (custom k).customs ks.contains = true)
    (hr : ∀ k ∈ ks, (custom k).firsts null (fun j => rank j < rank k) = true) :
    ∃ (qc vc : Nat → Nat) (A : Nat), (∀ k, qc k ≤ vc k) ∧ (∀ k ∈ ks, (custom k).quick null qc + 1 ≤ qc k) ∧
      (∀ k ∈ ks, (custom k).most null qc vc + 1 ≤ vc k) ∧ (∀ k ∈ ks, (custom k).peak null qc vc ≤ A) ∧
      p.peak null qc vc ≤ A := by
  have hf : ∀ k ∈ ks, (custom k).firsts null (fun j => ks.contains j && decide (rank j < rank k)) = true :=
    fun k hk => (custom k).firsts_and (hks k hk) (hr k hk)
  obtain ⟨qc, hq, -⟩ := rank_fix (fun q k => (custom k).quick null q + 1) ks rank fun k hk q1 q2 h =>
    congrArg (· + 1) ((custom k).quick_congr (fun j hj => by
      simp only [Bool.and_eq_true, List.contains_iff_mem, decide_eq_true_eq] at hj
      exact h j hj.1 hj.2) (hf k hk))
  obtain ⟨vc, hv, hv'⟩ := rank_fix (fun v k => (custom k).most null qc v + 1 + qc k) ks rank fun k hk v1 v2 h =>
    congrArg (· + 1 + qc k) ((custom k).most_congr (fun j hj => by
      simp only [Bool.and_eq_true, List.contains_iff_mem, decide_eq_true_eq] at hj
      exact h j hj.1 hj.2) (hf k hk))
  obtain ⟨A, h1, h2⟩ := exists_above (fun k => (custom k).peak null qc vc) ks (p.peak null qc vc)
  refine ⟨qc, vc, A, fun k => ?_, fun k hk => Nat.le_of_eq (hq k hk), fun k hk => ?_, h2, h1⟩
  · obtain ⟨v', h⟩ := hv' k
    omega
  · have := hv k hk
    omega

/-- Linearly many calls, whatever the input. -/
theorem pegSteps_linear {C : Ctx α β} {null : Nat → Bool} {begin' : Nat → β → Bool} {tab : Nat → Predicts β}
    (ht : PredictTable C null begin' tab) {ks : List Nat} {rank : Nat → Nat} (p : Parser α)
    (hp : p.customs ks.contains = true) (hks : ∀ k ∈ ks, (C.custom k).body.customs ks.contains = true)
    (hr : ∀ k ∈ ks, (C.custom k).body.firsts null (fun j => rank j < rank k) = true)
    (hok : (p.predicts C.eqv null begin' tab).ok) :
    ∃ c, ∀ (C' : Ctx α β), C'.custom = C.custom → C'.eqv = C.eqv → ∀ xs n o, PegSteps C' p xs n o → n + 1 ≤ c * (xs.length + 1) := by
  obtain ⟨qc, vc, A, h1, h2, h3, h4, h5⟩ := exists_costs (custom := fun k => (C.custom k).body) (null := null) (rank := rank) p hks hr
  refine ⟨2 * A + p.most null qc vc + 1, fun C' e1 e2 xs n o h => ?_⟩
  have ht' : PredictTable C' null begin' tab := by
    refine ⟨⟨?_, ?_⟩, ?_, ?_, ?_⟩ <;> (try rw [e1]) <;> (try rw [e2])
    · exact ht.nulls
    · exact ht.begins
    · exact ht.ok
    · exact ht.late
    · exact ht.stuck
  have := (predict_pays (C := C') ht' (ks := ks) (A := A) h1 (by rw [e1]; exact h2) (by rw [e1]; exact h3) (by rw [e1]; exact h4)
    (by rw [e1]; exact hks) h (by rw [e2]; exact hok) hp h5).1.bound (p.quick_le h1) fun k hk => h.peg.le k hk
  have e : (2 * A + p.most null qc vc + 1) * (xs.length + 1) =
      A * (2 * xs.length) + 2 * A + (p.most null qc vc) * (xs.length + 1) + (xs.length + 1) := by
    rw [Nat.add_mul, Nat.add_mul, Nat.one_mul, Nat.mul_add, Nat.mul_one, Nat.mul_comm 2 A, Nat.mul_assoc]
  have : p.most null qc vc ≤ (p.most null qc vc) * (xs.length + 1) := Nat.le_mul_of_pos_right _ (Nat.succ_pos _)
  omega

theorem pegCalls_linear {C : Ctx α β} {null : Nat → Bool} {begin' : Nat → β → Bool} {tab : Nat → Predicts β}
    (ht : PredictTable C null begin' tab) {ks : List Nat} {rank : Nat → Nat} (p : Parser α)
    (hp : p.customs ks.contains = true) (hks : ∀ k ∈ ks, (C.custom k).body.customs ks.contains = true)
    (hr : ∀ k ∈ ks, (C.custom k).body.firsts null (fun j => rank j < rank k) = true)
    (hok : (p.predicts C.eqv null begin' tab).ok) :
    ∃ c, ∀ (C' : Ctx α β), C'.custom = C.custom → C'.eqv = C.eqv → ∀ xs n o, PegCalls C' p xs n o → n + 1 ≤ c * (xs.length + 1) := by
  obtain ⟨c, hc⟩ := pegSteps_linear ht p hp hks hr hok
  refine ⟨c, fun C' e1 e2 xs n o h => ?_⟩
  obtain ⟨m, hm, h⟩ := h.steps
  have := hc C' e1 e2 xs m o h
  omega

end Tok3n
