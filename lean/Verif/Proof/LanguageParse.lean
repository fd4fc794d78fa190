import Verif.Proof.Language
import Verif.Proof.Gives
import Verif.Props.Predict
/-
What `parse` consumes is a word (C85), from the rules of C84; and `Peg` on all texts.
-/

namespace Tok3n

variable {α β : Type} {C : Ctx α β}

/-- what was consumed between `s` and `s'` is in `P` -/
def Spelt (C : Ctx α β) (P : List β → Prop) (s s' : Span) : Prop :=
  s'.Valid C.mem ∧ ∃ w, s.elems C.mem = w ++ s'.elems C.mem ∧ P w

theorem Spelt.imp {P Q : List β → Prop} {s s' : Span} (h : Spelt C P s s') (f : ∀ w, P w → Q w) : Spelt C Q s s' :=
  ⟨h.1, h.2.imp fun w hw => ⟨hw.1, f w hw.2⟩⟩

theorem Spelt.nothing {P : List β → Prop} {s : Span} (hs : s.Valid C.mem) (h : P []) : Spelt C P s s := ⟨hs, [], rfl, h⟩

theorem Spelt.andThen {P Q R : List β → Prop} {s s1 s' : Span} (h : Spelt C P s s1) (h' : Spelt C Q s1 s')
    (f : ∀ u v, P u → Q v → R (u ++ v)) : Spelt C R s s' := by
  obtain ⟨_, u, h1, hu⟩ := h
  obtain ⟨h2, v, h3, hv⟩ := h'
  exact ⟨h2, u ++ v, by rw [h1, h3, List.append_assoc], f u v hu hv⟩

theorem spelt_advanced {P : List β → Prop} {s s' : Span} {k : Nat} (hs : s.Valid C.mem) (h : s.Advanced k s')
    (hP : P ((s.elems C.mem).take k)) : Spelt C P s s' := by
  have hk := h.le
  rw [h.eq_drop]
  exact ⟨hs.drop hk, _, by rw [Span.elems_drop, List.take_append_drop], hP⟩

theorem spelt_peg {p : Parser α} {s s' : Span} {k : Nat} (hs : s.Valid C.mem)
    (h : Peg C.eqv (fun k => (C.custom k).body) p (s.elems C.mem) (some k)) (ha : s.Advanced k s') :
    Spelt C (Word C.eqv (fun k => (C.custom k).body) p) s s' :=
  spelt_advanced hs ha (word_of_peg h _ rfl).2

theorem word_pair {eqv : α → β → Bool} {body : Nat → Parser α} {d p : Parser α} {u v : List β}
    (hu : Word eqv body d u) (hv : Word eqv body p v) : Word eqv body (.sequence [d, p]) (u ++ v) := by
  have := Word.sequenceMore hu (.sequenceMore hv .sequenceNil)
  rwa [List.append_nil] at this

/-- if it succeeds, what was consumed from `s` is in `P` -/
inductive Spells (C : Ctx α β) (P : List β → Prop) (s : Span) {A : Type} : Ending A → Prop where
  | ok {a s'} : Spelt C P s s' → Spells C P s (.ok a s')
  | no : Spells C P s .no
  | throws {e} : Spells C P s (.throws e)

theorem Spells.get {P : List β → Prop} {s s' : Span} {A : Type} {a : A} (h : Spells C P s (.ok a s')) : Spelt C P s s' := by
  cases h; assumption

theorem Spells.imp {P Q : List β → Prop} {s : Span} {A : Type} {o : Ending A} (h : Spells C P s o)
    (f : ∀ w, P w → Q w) : Spells C Q s o := by
  cases h with
  | ok h => exact .ok (h.imp f)
  | no => exact .no
  | throws => exact .throws

theorem Spells.map {P : List β → Prop} {s : Span} {A B : Type} {f : A → B} {o : Ending A} (h : Spells C P s o) :
    Spells C P s (o.map f) := by
  cases h with
  | ok h => exact .ok h
  | no => exact .no
  | throws => exact .throws

theorem Spells.stops {P : List β → Prop} {s : Span} {A B : Type} {o : Ending A} {o' : Ending B} (h : StopsLike o o') :
    Spells C P s o' := by
  cases h with
  | no => exact .no
  | throws => exact .throws

theorem Spelt.before {P Q R : List β → Prop} {s s1 : Span} {A : Type} {o : Ending A} (h : Spelt C P s s1)
    (h' : Spells C Q s1 o) (f : ∀ u v, P u → Q v → R (u ++ v)) : Spells C R s o := by
  cases h' with
  | ok h' => exact .ok (h.andThen h' f)
  | no => exact .no
  | throws => exact .throws

section
variable (hp : ∀ k, ¬ Pretends C k)
include hp
mutual
theorem Gives.word : ∀ {p : Parser α} {s log o}, Gives C p s log o → s.Valid C.mem →
    Spells C (Word C.eqv (fun k => (C.custom k).body) p) s o
  | _, _, _, _, .hit hb hm ha, hs => .ok (spelt_peg hs (.hit hb hm) ha)
  | _, _, _, _, .miss _ _, _ => .no
  | _, _, _, _, .epsilon, hs => .ok (.nothing hs .epsilon)
  | _, _, _, _, .choice _ _ h, hs => (h.word hs).imp fun w ⟨_, hm, hw⟩ => .choice hm hw
  | _, _, _, _, .sequence h, hs => (h.word hs).map
  | _, _, _, _, .maybe h, hs => .ok ((h.word hs).get.imp fun _ => .maybe)
  | _, _, _, _, .maybeNot _, hs => .ok (.nothing hs .maybeNot)
  | _, _, _, _, .maybeThrows _, _ => .throws
  | _, _, _, _, .exactly h, hs => (h.word hs).map
  | _, _, _, _, .zeroOrMore h, hs => (h.word hs).map
  | _, _, _, _, .oneOrMore h h', hs =>
    ((h.word hs).get.before (h'.word (h.word hs).get.1) fun _ _ => .oneOrMore).map
  | _, _, _, _, .oneStops _ h, _ => .stops h
  | _, _, _, _, .delimit h h', hs =>
    ((h.word hs).get.before (h'.word (h.word hs).get.1) fun _ _ => .delimit).map
  | _, _, _, _, .delimitStops _ h, _ => .stops h
  | _, _, _, _, .ignore h ha, hs => .ok ((spelt_peg hs h ha).imp fun _ => .ignore)
  | _, _, _, _, .ignoreNot _, _ => .no
  | _, _, _, _, .complete h _, hs => .ok ((h.word hs).get.imp fun _ => .complete)
  | _, _, _, _, .completeShort _ _, _ => .no
  | _, _, _, _, .completeStops _ h, _ => .stops h
  | _, _, _, _, .join h _, hs => .ok ((h.word hs).get.imp fun _ => .join)
  | _, _, _, _, .joinGap _ _, _ => .no
  | _, _, _, _, .joinStops _ h, _ => .stops h
  | _, _, _, _, .map h _, hs => .ok ((h.word hs).get.imp fun _ => .map)
  | _, _, _, _, .mapThrows _ _, _ => .throws
  | _, _, _, _, .mapStops _ h, _ => .stops h
  | _, _, _, _, .filter h _ _, hs => .ok ((h.word hs).get.imp fun _ => .filter)
  | _, _, _, _, .filterOut _ _ _, _ => .no
  | _, _, _, _, .filterThrows _ _, _ => .throws
  | _, _, _, _, .filterStops _ h, _ => .stops h
  | _, _, _, _, .named h, hs => (h.word hs).imp fun _ => .named
  | _, _, _, _, .custom _ h, hs => ((h.word hs).imp fun _ => .custom).map
  | _, _, _, _, .pretended hk _ _, _ => absurd hk (hp _)
  | _, _, _, _, .pretendedNot hk _ _, _ => absurd hk (hp _)
  | _, _, _, _, .pretendedThrows _ _, _ => .throws
theorem GivesFirst.word : ∀ {us d} {ps : List (Parser α)} {is s log o}, GivesFirst C us d ps is s log o → s.Valid C.mem →
    Spells C (fun w => ∃ p ∈ ps, Word C.eqv (fun k => (C.custom k).body) p w) s o
  | _, _, _, _, _, _, _, .nil, _ => .no
  | _, _, _, _, _, _, _, .looked h ha, hs => .ok ((spelt_peg hs h ha).imp fun _ hw => ⟨_, .head _, hw⟩)
  | _, _, _, _, _, _, _, .lookedNot _ h, hs => (h.word hs).imp fun _ ⟨q, hm, hw⟩ => ⟨q, .tail _ hm, hw⟩
  | _, _, _, _, _, _, _, .parsed h, hs => .ok ((h.word hs).get.imp fun _ hw => ⟨_, .head _, hw⟩)
  | _, _, _, _, _, _, _, .parsedNot _ h, hs => (h.word hs).imp fun _ ⟨q, hm, hw⟩ => ⟨q, .tail _ hm, hw⟩
  | _, _, _, _, _, _, _, .throws _, _ => .throws
theorem GivesParts.word : ∀ {ps : List (Parser α)} {s log o}, GivesParts C ps s log o → s.Valid C.mem →
    Spells C (Word C.eqv (fun k => (C.custom k).body) (.sequence ps)) s o
  | _, _, _, _, .nil, hs => .ok (.nothing hs .sequenceNil)
  | _, _, _, _, .value _ h h', hs =>
    ((h.word hs).get.before (h'.word (h.word hs).get.1) fun _ _ => .sequenceMore).map
  | _, _, _, _, .stops _ _ h, _ => .stops h
  | _, _, _, _, .void _ h ha h', hs =>
    (spelt_peg hs h ha).before (h'.word (spelt_peg hs h ha).1) fun _ _ => .sequenceMore
  | _, _, _, _, .voidNot _ _, _ => .no
theorem GivesTimes.word : ∀ {p : Parser α} {n s log o}, GivesTimes C p n s log o → s.Valid C.mem →
    Spells C (Word C.eqv (fun k => (C.custom k).body) (.exactly p n)) s o
  | _, _, _, _, _, .zero, hs => .ok (.nothing hs .exactlyNil)
  | _, _, _, _, _, .more h h', hs =>
    ((h.word hs).get.before (h'.word (h.word hs).get.1) fun _ _ => .exactlyMore).map
  | _, _, _, _, _, .stops _ h, _ => .stops h
theorem GivesMany.word : ∀ {p : Parser α} {s log o}, GivesMany C p s log o → s.Valid C.mem →
    Spells C (Word C.eqv (fun k => (C.custom k).body) (.zeroOrMore p)) s o
  | _, _, _, _, .more h h', hs =>
    ((h.word hs).get.before (h'.word (h.word hs).get.1) fun _ _ => .zeroMore).map
  | _, _, _, _, .over _, hs => .ok (.nothing hs .zeroNil)
  | _, _, _, _, .throws _, _ => .throws
theorem GivesPairs.word : ∀ {d p : Parser α} {s log o}, GivesPairs C d p s log o → s.Valid C.mem →
    Spells C (Word C.eqv (fun k => (C.custom k).body) (.zeroOrMore (.sequence [d, p]))) s o
  | _, _, _, _, _, .more h h' h'', hs =>
    ((((h.word hs).get.before (h'.word (h.word hs).get.1) fun _ _ => word_pair).get).before
      (h''.word (h'.word (h.word hs).get.1).get.1) fun _ _ => .zeroMore).map
  | _, _, _, _, _, .noDelimiter _, hs => .ok (.nothing hs .zeroNil)
  | _, _, _, _, _, .noElement _ _, hs => .ok (.nothing hs .zeroNil)
  | _, _, _, _, _, .delimiterThrows _, _ => .throws
  | _, _, _, _, _, .elementThrows _ _, _ => .throws
end
end

/-- a productive grammar matches or fails on every text -/
theorem peg_total {p : Parser α} {ks : List Nat} {null : Nat → Bool} {rank : Nat → Nat} [LinearOrder α]
    (hp : productive C ks null rank p = true) (xs : List β) : ∃ o, PegC C p xs o := by
  have h := (C39_checked (C.on (fun _ => xs) .msvc true fun _ _ => true) p ks null rank (by rw [productive_on]; exact hp)
    ⟨.at 0 0, xs.length⟩ (by simp [Span.Valid, Ctx.on])).2
  rw [(C45_lookahead _ p _ (by simp [Span.Valid, Ctx.on])).2.2.1] at h
  simpa [Span.elems, Ctx.on] using h

end Tok3n
