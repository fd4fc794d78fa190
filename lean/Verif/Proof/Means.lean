import Verif.Spec.Means
import Verif.Proof.LanguageParse
/-
What a text means: what `parse` returns is one of its meanings, and in a clear grammar there is only one (C87).
-/

namespace Tok3n

variable {α β : Type} {C : Ctx α β}

/-- what is between `s` and `s'` is in `P` -/
def Strides (C : Ctx α β) (P : List β → Prop) (s s' : Span) : Prop :=
  ∃ k, s.Advanced k s' ∧ P ((s.elems C.mem).take k)

namespace Strides
variable {P Q R : List β → Prop} {s s1 s' : Span}

theorem imp (h : Strides C P s s') (f : ∀ w, P w → Q w) : Strides C Q s s' := by
  obtain ⟨k, ha, hk⟩ := h
  exact ⟨k, ha, f _ hk⟩

theorem nothing (h : P []) : Strides C P s s := ⟨0, .refl s, h⟩

theorem andThen (h : Strides C P s s1) (h' : Strides C Q s1 s') (f : ∀ u v, P u → Q v → R (u ++ v)) : Strides C R s s' := by
  obtain ⟨k, ha, hk⟩ := h
  obtain ⟨j, hb, hj⟩ := h'
  refine ⟨k + j, ha.trans hb, ?_⟩
  rw [List.take_add]
  rw [ha.eq_drop, Span.elems_drop] at hj
  exact f _ _ hk hj

theorem valid (h : Strides C P s s') (hs : s.Valid C.mem) : s'.Valid C.mem := by
  obtain ⟨k, ha, -⟩ := h
  rw [ha.eq_drop]
  exact hs.drop ha.le

theorem word (h : Strides C P s s') (hs : s.Valid C.mem) :
    ∃ w, s.elems C.mem = w ++ s'.elems C.mem ∧ P w ∧ s' = s.drop w.length := by
  obtain ⟨k, ha, hk⟩ := h
  have e := ha.eq_drop
  refine ⟨_, ?_, hk, ?_⟩
  · rw [e, Span.elems_drop, List.take_append_drop]
  · rw [List.length_take, hs.elems_length, Nat.min_eq_left ha.le]
    exact e

end Strides

mutual
theorem Means.strides : ∀ {p : Parser α} {s v s'}, Means C p s v s' →
    Strides C (Word C.eqv (fun k => (C.custom k).body) p) s s'
  | _, s, _, _, .basic hb hm ha => ⟨_, ha, (word_of_peg (.hit hb hm) _ rfl).2⟩
  | _, _, _, _, .epsilon => .nothing .epsilon
  | _, _, _, _, .choice _ _ h => h.strides.imp fun _ ⟨_, hm, hw⟩ => .choice hm hw
  | _, _, _, _, .sequence h => h.strides
  | _, _, _, _, .maybe h => h.strides.imp fun _ => .maybe
  | _, _, _, _, .maybeNot => .nothing .maybeNot
  | _, _, _, _, .exactly h => h.strides
  | _, _, _, _, .zeroOrMore h => h.strides
  | _, _, _, _, .oneOrMore h h' => h.strides.andThen h'.strides fun _ _ => .oneOrMore
  | _, _, _, _, .delimit h h' => h.strides.andThen h'.strides fun _ _ => .delimit
  | _, _, _, _, .ignore h => Strides.imp h fun _ => .ignore
  | _, _, _, _, .complete h => h.strides.imp fun _ => .complete
  | _, _, _, _, .join h _ => h.strides.imp fun _ => .join
  | _, _, _, _, .map h _ => h.strides.imp fun _ => .map
  | _, _, _, _, .filter h _ _ => h.strides.imp fun _ => .filter
  | _, _, _, _, .named h => h.strides.imp fun _ => .named
  | _, _, _, _, .custom h => h.strides.imp fun _ => .custom
theorem MeansAny.strides : ∀ {us d} {ps : List (Parser α)} {is s v s'}, MeansAny C us d ps is s v s' →
    Strides C (fun w => ∃ p ∈ ps, Word C.eqv (fun k => (C.custom k).body) p w) s s'
  | _, _, _, _, _, _, _, .void h => Strides.imp h fun _ hw => ⟨_, .head _, hw⟩
  | _, _, _, _, _, _, _, .value h => h.strides.imp fun _ hw => ⟨_, .head _, hw⟩
  | _, _, _, _, _, _, _, .later h => h.strides.imp fun _ ⟨q, hm, hw⟩ => ⟨q, .tail _ hm, hw⟩
theorem MeansParts.strides : ∀ {ps : List (Parser α)} {s vs s'}, MeansParts C ps s vs s' →
    Strides C (Word C.eqv (fun k => (C.custom k).body) (.sequence ps)) s s'
  | _, _, _, _, .nil => .nothing .sequenceNil
  | _, _, _, _, .value _ h h' => h.strides.andThen h'.strides fun _ _ => .sequenceMore
  | _, _, _, _, .void _ h h' => Strides.andThen h h'.strides fun _ _ => .sequenceMore
theorem MeansTimes.strides : ∀ {p : Parser α} {n s vs s'}, MeansTimes C p n s vs s' →
    Strides C (Word C.eqv (fun k => (C.custom k).body) (.exactly p n)) s s'
  | _, _, _, _, _, .zero => .nothing .exactlyNil
  | _, _, _, _, _, .more h h' => h.strides.andThen h'.strides fun _ _ => .exactlyMore
theorem MeansMany.strides : ∀ {p : Parser α} {s vs s'}, MeansMany C p s vs s' →
    Strides C (Word C.eqv (fun k => (C.custom k).body) (.zeroOrMore p)) s s'
  | _, _, _, _, .over => .nothing .zeroNil
  | _, _, _, _, .more h h' => h.strides.andThen h'.strides fun _ _ => .zeroMore
theorem MeansPairs.strides : ∀ {d p : Parser α} {s xs s'}, MeansPairs C d p s xs s' →
    Strides C (Word C.eqv (fun k => (C.custom k).body) (.zeroOrMore (.sequence [d, p]))) s s'
  | _, _, _, _, _, .over => .nothing .zeroNil
  | _, _, _, _, _, .more h h' h'' =>
    (h.strides.andThen (R := Word C.eqv (fun k => (C.custom k).body) (.sequence [_, _])) h'.strides fun _ _ => word_pair).andThen
      h''.strides fun _ _ => .zeroMore
end

/-! ### What `parse` returns is a meaning -/

/-- if it succeeds, it is with one of `P` -/
inductive Only {A : Type} (P : A → Span → Prop) : Ending A → Prop where
  | ok {a s'} : P a s' → Only P (.ok a s')
  | no : Only P .no
  | throws {e} : Only P (.throws e)

theorem Only.get {A : Type} {P : A → Span → Prop} {a : A} {s' : Span} (h : Only P (.ok a s')) : P a s' := by
  cases h; assumption

theorem Only.map {A B : Type} {P : A → Span → Prop} {Q : B → Span → Prop} {g : A → B} {o : Ending A} (h : Only P o)
    (f : ∀ a s', P a s' → Q (g a) s') : Only Q (o.map g) := by
  cases h with
  | ok h => exact .ok (f _ _ h)
  | no => exact .no
  | throws => exact .throws

theorem Only.imp {A : Type} {P Q : A → Span → Prop} {o : Ending A} (h : Only P o) (f : ∀ a s', P a s' → Q a s') :
    Only Q o := by
  cases h with
  | ok h => exact .ok (f _ _ h)
  | no => exact .no
  | throws => exact .throws

theorem Only.stops {A B : Type} {P : B → Span → Prop} {o : Ending A} {o' : Ending B} (h : StopsLike o o') : Only P o' := by
  cases h with
  | no => exact .no
  | throws => exact .throws

theorem wordFrom_peg {p : Parser α} {s s' : Span} {k : Nat}
    (h : Peg C.eqv (fun k => (C.custom k).body) p (s.elems C.mem) (some k)) (ha : s.Advanced k s') : WordFrom C p s s' :=
  ⟨k, ha, (word_of_peg h _ rfl).2⟩

section
variable (hp : ∀ k, ¬ Pretends C k)
include hp
mutual
theorem Gives.means : ∀ {p : Parser α} {s log o}, Gives C p s log o → Only (Means C p s) o
  | _, _, _, _, .hit hb hm ha => .ok (.basic hb hm ha)
  | _, _, _, _, .miss _ _ => .no
  | _, _, _, _, .epsilon => .ok .epsilon
  | _, _, _, _, .choice hr hd h => h.means.imp fun _ _ h => .choice hr hd h
  | _, _, _, _, .sequence h => h.means.map fun _ _ => .sequence
  | _, _, _, _, .maybe h => .ok (.maybe h.means.get)
  | _, _, _, _, .maybeNot _ => .ok .maybeNot
  | _, _, _, _, .maybeThrows _ => .throws
  | _, _, _, _, .exactly h => h.means.map fun _ _ => .exactly
  | _, _, _, _, .zeroOrMore h => h.means.map fun _ _ => .zeroOrMore
  | _, _, _, _, .oneOrMore h h' => h'.means.map fun _ _ => .oneOrMore h.means.get
  | _, _, _, _, .oneStops _ h => .stops h
  | _, _, _, _, .delimit h h' => h'.means.map fun _ _ => .delimit h.means.get
  | _, _, _, _, .delimitStops _ h => .stops h
  | _, _, _, _, .ignore h ha => .ok (.ignore (wordFrom_peg h ha))
  | _, _, _, _, .ignoreNot _ => .no
  | _, _, _, _, .complete h _ => .ok (.complete h.means.get)
  | _, _, _, _, .completeShort _ _ => .no
  | _, _, _, _, .completeStops _ h => .stops h
  | _, _, _, _, .join h hj => .ok (.join h.means.get hj)
  | _, _, _, _, .joinGap _ _ => .no
  | _, _, _, _, .joinStops _ h => .stops h
  | _, _, _, _, .map h hf => .ok (.map h.means.get hf)
  | _, _, _, _, .mapThrows _ _ => .throws
  | _, _, _, _, .mapStops _ h => .stops h
  | _, _, _, _, .filter h hf ht => .ok (.filter h.means.get hf ht)
  | _, _, _, _, .filterOut _ _ _ => .no
  | _, _, _, _, .filterThrows _ _ => .throws
  | _, _, _, _, .filterStops _ h => .stops h
  | _, _, _, _, .named h => h.means.imp fun _ _ => .named
  | _, _, _, _, .custom _ h => h.means.map fun _ _ => .custom
  | _, _, _, _, .pretended hk _ _ => absurd hk (hp _)
  | _, _, _, _, .pretendedNot hk _ _ => absurd hk (hp _)
  | _, _, _, _, .pretendedThrows _ _ => .throws
theorem GivesFirst.means : ∀ {us d} {ps : List (Parser α)} {is s log o}, GivesFirst C us d ps is s log o →
    Only (MeansAny C us d ps is s) o
  | _, _, _, _, _, _, _, .nil => .no
  | _, _, _, _, _, _, _, .looked h ha => .ok (.void (wordFrom_peg h ha))
  | _, _, _, _, _, _, _, .lookedNot _ h => h.means.imp fun _ _ => .later
  | _, _, _, _, _, _, _, .parsed h => .ok (.value h.means.get)
  | _, _, _, _, _, _, _, .parsedNot _ h => h.means.imp fun _ _ => .later
  | _, _, _, _, _, _, _, .throws _ => .throws
theorem GivesParts.means : ∀ {ps : List (Parser α)} {s log o}, GivesParts C ps s log o → Only (MeansParts C ps s) o
  | _, _, _, _, .nil => .ok .nil
  | _, _, _, _, .value hv h h' => h'.means.map fun _ _ => .value hv h.means.get
  | _, _, _, _, .stops _ _ h => .stops h
  | _, _, _, _, .void hv h ha h' => h'.means.imp fun _ _ => .void hv (wordFrom_peg h ha)
  | _, _, _, _, .voidNot _ _ => .no
theorem GivesTimes.means : ∀ {p : Parser α} {n s log o}, GivesTimes C p n s log o → Only (MeansTimes C p n s) o
  | _, _, _, _, _, .zero => .ok .zero
  | _, _, _, _, _, .more h h' => h'.means.map fun _ _ => .more h.means.get
  | _, _, _, _, _, .stops _ h => .stops h
theorem GivesMany.means : ∀ {p : Parser α} {s log o}, GivesMany C p s log o → Only (MeansMany C p s) o
  | _, _, _, _, .more h h' => h'.means.map fun _ _ => .more h.means.get
  | _, _, _, _, .over _ => .ok .over
  | _, _, _, _, .throws _ => .throws
theorem GivesPairs.means : ∀ {d p : Parser α} {s log o}, GivesPairs C d p s log o → Only (MeansPairs C d p s) o
  | _, _, _, _, _, .more h h' h'' => h''.means.map fun _ _ => .more h.means.get h'.means.get
  | _, _, _, _, _, .noDelimiter _ => .ok .over
  | _, _, _, _, _, .noElement _ _ => .ok .over
  | _, _, _, _, _, .delimiterThrows _ => .throws
  | _, _, _, _, _, .elementThrows _ _ => .throws
end
end

/-! ### A clear grammar gives a text one meaning -/

theorem invokes_unique {f : Fn} {args : List Val} {l l' : List Call} {x y : Except Nat Val} (h : Invokes C f args l x)
    (h' : Invokes C f args l' y) : x = y := by
  induction h generalizing l' y with
  | user => cases h'; rfl
  | apply hc _ ih =>
    cases h' with
    | apply hc' h' =>
      have e := (componentsOf_iff.2 hc).symm.trans (componentsOf_iff.2 hc')
      cases e
      exact ih h'
  | const => cases h'; rfl
  | construct => cases h'; rfl
  | deflt hd =>
    cases h' with
    | deflt hd' =>
      have e := ((isDefault_iff C _ _).1 hd).symm.trans ((isDefault_iff C _ _).1 hd')
      cases e
      rfl

theorem clearAll_mem {null : Nat → Bool} {begin' : Nat → β → Bool} {follow : Nat → β → Prop} {F : β → Prop} {p : Parser α} :
    ∀ {ps : List (Parser α)}, clearAll C null begin' follow ps F → p ∈ ps → Clear C null begin' follow p F
  | _ :: _, h, .head _ => h.1
  | _ :: _, h, .tail _ hm => clearAll_mem h.2 hm

/-- delimiters and elements, as a repetition -/
theorem clear_pairs {null : Nat → Bool} {begin' : Nat → β → Bool} {follow : Nat → β → Prop} {F : β → Prop}
    {p d : Parser α} (hc : Clear C null begin' follow (.delimit p d) F) :
    Clear C null begin' follow (.zeroOrMore (.sequence [d, p])) F := by
  have e : behind C null begin' [] (fun x => sequenceBegins C.eqv null begin' x [d, p] = true ∨ F x) =
      fun x => sequenceBegins C.eqv null begin' x [d, p] = true ∨ F x := by
    funext x
    simp only [behind, sequenceBegins, allNullable, Bool.false_eq_true, true_and, false_or]
  exact ⟨⟨hc.2.1, show Clear C null begin' follow p
      (behind C null begin' [] fun x => sequenceBegins C.eqv null begin' x [d, p] = true ∨ F x) by
    rw [e]; exact hc.1, trivial⟩, hc.2.2⟩

section
variable {null : Nat → Bool} {begin' : Nat → β → Bool} {follow : Nat → β → Prop} (ht : ClearTable C null begin' follow)
include ht

/-- where a word of a clear grammar is, `Peg` matches it -/
theorem strides_peg {p : Parser α} {F : β → Prop} {s s1 : Span} (hp : Clear C null begin' follow p F) (hs : s.Valid C.mem)
    (h : Strides C (Word C.eqv (fun k => (C.custom k).body) p) s s1) (hF : GoesOn F (s1.elems C.mem)) :
    ∃ k, Peg C.eqv (fun k => (C.custom k).body) p (s.elems C.mem) (some k) ∧ s1 = s.drop k := by
  obtain ⟨w, e, hw, hd⟩ := h.word hs
  exact ⟨w.length, by rw [e]; exact peg_of_word ht hw F _ hp hF, hd⟩

/-- a word of a clear grammar has one end -/
theorem strides_unique {p : Parser α} {F : β → Prop} {s s1 s2 : Span} (hp : Clear C null begin' follow p F)
    (hs : s.Valid C.mem) (h : Strides C (Word C.eqv (fun k => (C.custom k).body) p) s s1) (hF : GoesOn F (s1.elems C.mem))
    (h' : Strides C (Word C.eqv (fun k => (C.custom k).body) p) s s2) (hF' : GoesOn F (s2.elems C.mem)) : s1 = s2 := by
  obtain ⟨k, hk, e⟩ := strides_peg ht hp hs h hF
  obtain ⟨j, hj, e'⟩ := strides_peg ht hp hs h' hF'
  cases C45_deterministic _ _ _ _ _ _ hk hj
  rw [e, e']

/-- what matches does not fail to match -/
theorem strides_not {p : Parser α} {F : β → Prop} {s s1 : Span} (hp : Clear C null begin' follow p F)
    (hs : s.Valid C.mem) (h : Strides C (Word C.eqv (fun k => (C.custom k).body) p) s s1) (hF : GoesOn F (s1.elems C.mem))
    (hn : Peg C.eqv (fun k => (C.custom k).body) p (s.elems C.mem) none) : False := by
  obtain ⟨k, hk, -⟩ := strides_peg ht hp hs h hF
  cases C45_deterministic _ _ _ _ _ _ hk hn

theorem goesOn_strides {ps : List (Parser α)} {F : β → Prop} {s s1 : Span} (hs : s.Valid C.mem)
    (h : Strides C (Word C.eqv (fun k => (C.custom k).body) (.sequence ps)) s s1) (hF : GoesOn F (s1.elems C.mem)) :
    GoesOn (behind C null begin' ps F) (s.elems C.mem) := by
  obtain ⟨w, e, hw, -⟩ := h.word hs
  rw [e]
  exact goesOn_behind ht.toBeginTable hw hF

theorem goesOn_again {p : Parser α} {F G : β → Prop} {s s1 : Span} (hs : s.Valid C.mem)
    (h : Strides C (Word C.eqv (fun k => (C.custom k).body) p) s s1) (hF : GoesOn F (s1.elems C.mem))
    (hG : ∀ x, p.begins C.eqv null begin' x = true ∨ F x → G x) : GoesOn G (s.elems C.mem) := by
  obtain ⟨w, e, hw, -⟩ := h.word hs
  rw [e]
  exact fun x hx => hG x (goesOn_or ht.toBeginTable hw hF x hx)


mutual
theorem Means.unique : ∀ {p : Parser α} {s v s1}, Means C p s v s1 → ∀ {F : β → Prop} {v' s2}, Clear C null begin' follow p F →
    s.Valid C.mem → GoesOn F (s1.elems C.mem) → Means C p s v' s2 → GoesOn F (s2.elems C.mem) → v = v'
  | _, _, _, _, .basic hb hm ha, F, v', s2, hc, hs, hF, h2, hF2 => by
    cases h2 with
    | basic hb' hm' ha' =>
      cases C45_deterministic _ _ _ _ _ _ (Peg.hit (body := fun k => (C.custom k).body) hb hm) (.hit hb' hm')
      rfl
    | _ => cases hb
  | _, _, _, _, .epsilon, F, v', s2, hc, hs, hF, h2, hF2 => by
    cases h2 with
    | basic hb => cases hb
    | epsilon => rfl
  | _, _, _, _, .choice hr hd h, F, v', s2, hc, hs, hF, h2, hF2 => by
    cases h2 with
    | basic hb => cases hb
    | choice hr' hd' h2 =>
      rw [← hr.unique hr', ← Option.some.inj (((isDefault_iff C _ _).1 hd).symm.trans ((isDefault_iff C _ _).1 hd'))] at h2
      exact h.unique hc.1 hc.2 hs hF h2 hF2
  | _, _, _, _, .sequence h, F, v', s2, hc, hs, hF, h2, hF2 => by
    cases h2 with
    | basic hb => cases hb
    | sequence h2 => rw [h.unique hc hs hF h2 hF2]
  | _, _, _, _, .maybe h, F, v', s2, hc, hs, hF, h2, hF2 => by
    cases h2 with
    | basic hb => cases hb
    | maybe h2 => rw [h.unique hc.1 hs hF h2 hF2]
    | maybeNot => exact (strides_not ht hc.1 hs h.strides hF (hc.2 _ hF2)).elim
  | _, _, _, _, .maybeNot, F, v', s2, hc, hs, hF, h2, hF2 => by
    cases h2 with
    | basic hb => cases hb
    | maybe h2 => exact (strides_not ht hc.1 hs h2.strides hF2 (hc.2 _ hF)).elim
    | maybeNot => rfl
  | _, _, _, _, .exactly h, F, v', s2, hc, hs, hF, h2, hF2 => by
    cases h2 with
    | basic hb => cases hb
    | exactly h2 => rw [h.unique hc hs hF h2 hF2]
  | _, _, _, _, .zeroOrMore h, F, v', s2, hc, hs, hF, h2, hF2 => by
    cases h2 with
    | basic hb => cases hb
    | zeroOrMore h2 => rw [h.unique hc.1 hc.2 hs hF h2 hF2]
  | _, _, _, _, .oneOrMore h h', F, v', s2, hc, hs, hF, h2, hF2 => by
    cases h2 with
    | basic hb => cases hb
    | oneOrMore h2 h2' =>
      have g := goesOn_again ht (h.strides.valid hs) h'.strides hF fun _ h => by simpa [Parser.begins] using h
      have g' := goesOn_again ht (h2.strides.valid hs) h2'.strides hF2 fun _ h => by simpa [Parser.begins] using h
      have e := strides_unique ht hc.1 hs h.strides g h2.strides g'
      rw [← e] at h2'
      rw [h.unique hc.1 hs g h2 g', h'.unique hc.1 hc.2 (h.strides.valid hs) hF h2' hF2]
  | _, _, _, _, .delimit h h', F, v', s2, hc, hs, hF, h2, hF2 => by
    cases h2 with
    | basic hb => cases hb
    | delimit h2 h2' =>
      have g := goesOn_again ht (h.strides.valid hs) h'.strides hF fun _ h => by simpa only [Parser.begins] using h
      have g' := goesOn_again ht (h2.strides.valid hs) h2'.strides hF2 fun _ h => by simpa only [Parser.begins] using h
      have e := strides_unique ht hc.1 hs h.strides g h2.strides g'
      rw [← e] at h2'
      rw [h.unique hc.1 hs g h2 g', h'.unique hc (h.strides.valid hs) hF h2' hF2]
  | _, _, _, _, .ignore _, F, v', s2, hc, hs, hF, h2, hF2 => by
    cases h2 with
    | basic hb => cases hb
    | ignore _ => rfl
  | _, _, _, _, .complete h, F, v', s2, hc, hs, hF, h2, hF2 => by
    cases h2 with
    | basic hb => cases hb
    | complete h2 => exact h.unique hc.1 hs hF h2 hF2
  | .join p, _, _, _, .join h hj, F, v', s2, hc, hs, hF, h2, hF2 => by
    cases h2 with
    | basic hb => cases hb
    | join h2 _ =>
      have e := strides_unique ht (p := p) hc hs h.strides hF h2.strides hF2
      rw [h.unique hc hs hF h2 hF2, e]
  | _, _, _, _, .map h hf, F, v', s2, hc, hs, hF, h2, hF2 => by
    cases h2 with
    | basic hb => cases hb
    | map h2 hf' =>
      cases h.unique hc hs hF h2 hF2
      cases invokes_unique hf hf'
      rfl
  | _, _, _, _, .filter h _ _, F, v', s2, hc, hs, hF, h2, hF2 => by
    cases h2 with
    | basic hb => cases hb
    | filter h2 _ _ => exact h.unique hc hs hF h2 hF2
  | _, _, _, _, .named h, F, v', s2, hc, hs, hF, h2, hF2 => by
    cases h2 with
    | basic hb => cases hb
    | named h2 => exact h.unique hc hs hF h2 hF2
  | _, _, _, _, .custom h, F, v', s2, hc, hs, hF, h2, hF2 => by
    cases h2 with
    | basic hb => cases hb
    | custom h2 =>
      rw [h.unique (ht.clear _) hs (fun x hx => hc x (hF x hx)) h2 fun x hx => hc x (hF2 x hx)]
termination_by structural _ _ _ _ h => h
theorem MeansAny.unique : ∀ {us d} {ps : List (Parser α)} {is s v s1}, MeansAny C us d ps is s v s1 →
    ∀ {F : β → Prop} {v' s2}, clearAll C null begin' follow ps F → ps.Pairwise (Leaves C F) → s.Valid C.mem →
    GoesOn F (s1.elems C.mem) → MeansAny C us d ps is s v' s2 → GoesOn F (s2.elems C.mem) → v = v'
  | _, _, _, _, _, _, _, .void h, F, v', s2, hc, hl, hs, hF, h2, hF2 => by
    cases h2 with
    | void _ => rfl
    | later h2 =>
      obtain ⟨w, e, ⟨q, hq, hw⟩, -⟩ := h2.strides.word hs
      exact (strides_not ht hc.1 hs h hF (by rw [e]; exact (List.pairwise_cons.1 hl).1 q hq w _ hw hF2)).elim
  | _, _, _, _, _, _, _, .value h, F, v', s2, hc, hl, hs, hF, h2, hF2 => by
    cases h2 with
    | value h2 => rw [h.unique hc.1 hs hF h2 hF2]
    | later h2 =>
      obtain ⟨w, e, ⟨q, hq, hw⟩, -⟩ := h2.strides.word hs
      exact (strides_not ht hc.1 hs h.strides hF (by rw [e]; exact (List.pairwise_cons.1 hl).1 q hq w _ hw hF2)).elim
  | _, _, _, _, _, _, _, .later h, F, v', s2, hc, hl, hs, hF, h2, hF2 => by
    obtain ⟨w, e, ⟨q, hq, hw⟩, -⟩ := h.strides.word hs
    have hn := fun {p} (hp : ∀ q ∈ _, Leaves C F p q) => hp q hq w _ hw hF
    rw [← e] at hn
    cases h2 with
    | void h2 => exact (strides_not ht hc.1 hs h2 hF2 (hn (List.pairwise_cons.1 hl).1)).elim
    | value h2 => exact (strides_not ht hc.1 hs h2.strides hF2 (hn (List.pairwise_cons.1 hl).1)).elim
    | later h2 => exact h.unique hc.2 (List.pairwise_cons.1 hl).2 hs hF h2 hF2
termination_by structural _ _ _ _ _ _ _ h => h
theorem MeansParts.unique : ∀ {ps : List (Parser α)} {s vs s1}, MeansParts C ps s vs s1 →
    ∀ {F : β → Prop} {vs' s2}, clearParts C null begin' follow ps F → s.Valid C.mem →
    GoesOn F (s1.elems C.mem) → MeansParts C ps s vs' s2 → GoesOn F (s2.elems C.mem) → vs = vs'
  | _, _, _, _, .nil, F, vs', s2, hc, hs, hF, h2, hF2 => by cases h2; rfl
  | _, _, _, _, .value hv h h', F, vs', s2, hc, hs, hF, h2, hF2 => by
    cases h2 with
    | value _ h2 h2' =>
      have g := goesOn_strides ht (h.strides.valid hs) h'.strides hF
      have g' := goesOn_strides ht (h2.strides.valid hs) h2'.strides hF2
      have e := strides_unique ht hc.1 hs h.strides g h2.strides g'
      rw [← e] at h2'
      rw [h.unique hc.1 hs g h2 g', h'.unique hc.2 (h.strides.valid hs) hF h2' hF2]
    | void hv' => exact absurd hv' hv
  | _, _, _, _, .void hv h h', F, vs', s2, hc, hs, hF, h2, hF2 => by
    cases h2 with
    | value hv' => exact absurd hv hv'
    | void _ h2 h2' =>
      have g := goesOn_strides ht (Strides.valid h hs) h'.strides hF
      have g' := goesOn_strides ht (Strides.valid h2 hs) h2'.strides hF2
      have e := strides_unique ht hc.1 hs h g h2 g'
      rw [← e] at h2'
      exact h'.unique hc.2 (Strides.valid h hs) hF h2' hF2
termination_by structural _ _ _ _ h => h
theorem MeansTimes.unique : ∀ {p : Parser α} {n s vs s1}, MeansTimes C p n s vs s1 →
    ∀ {F : β → Prop} {vs' s2}, (Clear C null begin' follow p fun x => p.begins C.eqv null begin' x = true ∨ F x) →
    s.Valid C.mem → GoesOn F (s1.elems C.mem) → MeansTimes C p n s vs' s2 → GoesOn F (s2.elems C.mem) → vs = vs'
  | _, _, _, _, _, .zero, F, vs', s2, hc, hs, hF, h2, hF2 => by cases h2; rfl
  | _, _, _, _, _, .more h h', F, vs', s2, hc, hs, hF, h2, hF2 => by
    cases h2 with
    | more h2 h2' =>
      have g := goesOn_again ht (h.strides.valid hs) h'.strides hF fun _ h => by simpa [Parser.begins] using h
      have g' := goesOn_again ht (h2.strides.valid hs) h2'.strides hF2 fun _ h => by simpa [Parser.begins] using h
      have e := strides_unique ht hc hs h.strides g h2.strides g'
      rw [← e] at h2'
      rw [h.unique hc hs g h2 g', h'.unique hc (h.strides.valid hs) hF h2' hF2]
termination_by structural _ _ _ _ _ h => h
theorem MeansMany.unique : ∀ {p : Parser α} {s vs s1}, MeansMany C p s vs s1 →
    ∀ {F : β → Prop} {vs' s2}, (Clear C null begin' follow p fun x => p.begins C.eqv null begin' x = true ∨ F x) →
    Refuses C p F → s.Valid C.mem → GoesOn F (s1.elems C.mem) → MeansMany C p s vs' s2 → GoesOn F (s2.elems C.mem) → vs = vs'
  | _, _, _, _, .over, F, vs', s2, hc, hr, hs, hF, h2, hF2 => by
    cases h2 with
    | over => rfl
    | more h2 h2' =>
      have g' := goesOn_again ht (h2.strides.valid hs) h2'.strides hF2 fun _ h => by simpa [Parser.begins] using h
      exact (strides_not ht hc hs h2.strides g' (hr _ hF)).elim
  | _, _, _, _, .more h h', F, vs', s2, hc, hr, hs, hF, h2, hF2 => by
    have g := goesOn_again ht (h.strides.valid hs) h'.strides hF fun _ h => by simpa [Parser.begins] using h
    cases h2 with
    | over => exact (strides_not ht hc hs h.strides g (hr _ hF2)).elim
    | more h2 h2' =>
      have g' := goesOn_again ht (h2.strides.valid hs) h2'.strides hF2 fun _ h => by simpa [Parser.begins] using h
      have e := strides_unique ht hc hs h.strides g h2.strides g'
      rw [← e] at h2'
      rw [h.unique hc hs g h2 g', h'.unique hc hr (h.strides.valid hs) hF h2' hF2]
termination_by structural _ _ _ _ h => h
theorem MeansPairs.unique : ∀ {d p : Parser α} {s xs s1}, MeansPairs C d p s xs s1 →
    ∀ {F : β → Prop} {xs' s2}, Clear C null begin' follow (.delimit p d) F →
    s.Valid C.mem → GoesOn F (s1.elems C.mem) → MeansPairs C d p s xs' s2 → GoesOn F (s2.elems C.mem) → xs = xs'
  | _, _, _, _, _, .over, F, xs', s2, hc, hs, hF, h2, hF2 => by
    cases h2 with
    | over => rfl
    | more h2 h2' h2'' =>
      have hp := h2.strides.andThen (R := Word C.eqv (fun k => (C.custom k).body) (.sequence [_, _])) h2'.strides fun _ _ => word_pair
      have g' := goesOn_again ht (hp.valid hs) h2''.strides hF2 fun _ h => by simpa only [Parser.begins] using h
      exact (strides_not ht (clear_pairs hc).1 hs hp g' (hc.2.2 _ hF)).elim
  | _, _, _, _, _, .more h h' h'', F, xs', s2, hc, hs, hF, h2, hF2 => by
    have hp := h.strides.andThen (R := Word C.eqv (fun k => (C.custom k).body) (.sequence [_, _])) h'.strides fun _ _ => word_pair
    have g := goesOn_again ht (hp.valid hs) h''.strides hF fun _ h => by simpa only [Parser.begins] using h
    cases h2 with
    | over => exact (strides_not ht (clear_pairs hc).1 hs hp g (hc.2.2 _ hF2)).elim
    | more h2 h2' h2'' =>
      have hp2 := h2.strides.andThen (R := Word C.eqv (fun k => (C.custom k).body) (.sequence [_, _])) h2'.strides fun _ _ => word_pair
      have g2 := goesOn_again ht (hp2.valid hs) h2''.strides hF2 fun _ h => by simpa only [Parser.begins] using h
      have hcp := (clear_pairs hc).1
      -- the delimiter ends where it ends, since an element comes
      have b := goesOn_strides ht (ps := [_]) (h.strides.valid hs)
        (h'.strides.imp fun w hw => by have := Word.sequenceMore hw .sequenceNil; rwa [List.append_nil] at this) g
      have b2 := goesOn_strides ht (ps := [_]) (h2.strides.valid hs)
        (h2'.strides.imp fun w hw => by have := Word.sequenceMore hw .sequenceNil; rwa [List.append_nil] at this) g2
      have e := strides_unique ht hc.2.1 hs h.strides b h2.strides b2
      rw [← e] at h2'
      have e' := strides_unique ht hc.1 (h.strides.valid hs) h'.strides g h2'.strides g2
      rw [← e'] at h2''
      rw [h.unique hc.2.1 hs b h2 b2, h'.unique hc.1 (h.strides.valid hs) g h2' g2,
        h''.unique hc (h'.strides.valid (h.strides.valid hs)) hF h2'' hF2]
termination_by structural _ _ _ _ _ h => h
end

end

end Tok3n
