import Verif.Proof.Opaque
import Verif.Spec.Example
/-
Property C74: the library hands user values on without looking at them.
-/

namespace Tok3n

variable {α β : Type} {C C' : Ctx α β} {U : Val → Val → Prop} {I : Val → Prop} {h : Val → Val}

/-! ## C74 User values are opaque to the library -/

/-- Two programs with the same grammar whose classes and callbacks correspond under `U` do the same:
neither parse returns, or both do after calling the same callbacks in the same order with corresponding
arguments, throwing the same, or both failing, or both succeeding with corresponding values; and what
remains is the same. -/
theorem C74_opaque (p : Parser α) (s : Span) (hg : SameGrammar C C') (hr : Represents U C C') :
    LikeRun Eq U (LikeR Eq U) (Parse C p s) (Parse C' p s) := hr.parse hg p s

/-- An invariant the user's code establishes holds wherever user values turn up: in the arguments of
every callback, whatever becomes of the parse, and in its value. -/
theorem C74_invariant (p : Parser α) (s : Span) (he : Establishes I C) {log r} (hp : Parse C p s = .done log r) :
    (∀ c ∈ log, EveryAll I c.args) ∧ ∀ v t, r = .ok ⟨some v, t⟩ → v.Every I := by
  have := he.represents.parse (SameGrammar.refl C) p s
  rw [hp] at this
  have hl : LikeLog Eq (fun a b => a = b ∧ I a) log log → ∀ c ∈ log, EveryAll I c.args := by
    intro hl c hc
    exact ((likes_every _ _).1 (List.forall₂_same.mp hl c hc).2).2
  cases r with
  | err e => exact ⟨hl this.1, nofun⟩
  | ok r =>
    refine ⟨hl this.1, fun v t hv => ?_⟩
    cases hv
    exact ((like_every v v).1 this.2.val).2

/-- Computing while parsing gives what building first and computing afterwards does: if the callbacks of
`C'` do to evaluated values what those of `C` do to values, then `C'` parses what `C` does, and returns the
value of `C` evaluated; it fails, throws and goes on for ever where `C` does. -/
theorem C74_evaluation (p : Parser α) (s : Span) (hg : SameGrammar C C') (hk : KeepsType h) (he : Evaluates h C C') :
    (∀ log v t, Parses C p s log v t → Parses C' p s (log.map (Call.onUsers h)) (v.onUsers h) t) ∧
    (∀ log t, ParseFails C p s log t → ParseFails C' p s (log.map (Call.onUsers h)) t) ∧
    (∀ log e, ParseErr C p s log e → ParseErr C' p s (log.map (Call.onUsers h)) e) ∧
    (ParseLoops C p s → ParseLoops C' p s) := by
  have key := (he.represents hk).parse hg p s
  cases hp : Parse C p s with
  | diverge =>
    rw [hp] at key
    refine ⟨?_, ?_, ?_, fun _ => ?_⟩
    · intro log v t h'; unfold Parses at h'; rw [hp] at h'; cases h'
    · intro log t h'; unfold ParseFails at h'; rw [hp] at h'; cases h'
    · intro log e h'; unfold ParseErr at h'; rw [hp] at h'; cases h'
    · unfold ParseLoops
      cases hp' : Parse C' p s with
      | diverge => rfl
      | done l r => rw [hp'] at key; cases r <;> exact key.elim
  | done l r =>
    rw [hp] at key
    cases hp' : Parse C' p s with
    | diverge => rw [hp'] at key; cases r <;> exact key.elim
    | done l' r' =>
      rw [hp'] at key
      cases r <;> cases r'
      · rename_i r r'
        obtain ⟨v, t⟩ := r
        obtain ⟨v', t'⟩ := r'
        obtain ⟨h1, h2, h3⟩ := key
        have e1 := likeLog_onUsers hk h1
        have e2 : t = t' := h3
        subst e1 e2
        refine ⟨?_, ?_, ?_, fun h' => ?_⟩
        · intro log w t h'
          unfold Parses at h'
          rw [hp] at h'
          cases h'
          cases v' with
          | none => exact h2.elim
          | some v' => rw [(like_onUsers hk _ _).1 h2] at hp'; exact hp'
        · intro log t h'
          unfold ParseFails at h'
          rw [hp] at h'
          cases h'
          cases v' with
          | none => exact hp'
          | some v' => exact h2.elim
        · intro log e h'; unfold ParseErr at h'; rw [hp] at h'; cases h'
        · unfold ParseLoops at h'; rw [hp] at h'; cases h'
      · exact key.elim
      · exact key.elim
      · obtain ⟨h1, h2⟩ := key
        have e1 := likeLog_onUsers hk h1
        subst e1 h2
        refine ⟨?_, ?_, ?_, fun h' => ?_⟩
        · intro log v t h'; unfold Parses at h'; rw [hp] at h'; cases h'
        · intro log t h'; unfold ParseFails at h'; rw [hp] at h'; cases h'
        · intro log e h'; unfold ParseErr at h'; rw [hp] at h'; cases h'; exact hp'
        · unfold ParseLoops at h'; rw [hp] at h'; cases h'

/-! ### Examples -/

/-- `"(" >> *custom 0 >> ")"`, the brackets ignored, mapped by callback 0; callback 0 makes a tree -/
def Ex.trees (text : String) : Ctx Nat Nat :=
  { Ex.ctx text with
    fnRet := fun _ _ => some (.user 0)
    fnCall := fun _ vs => .ok (.user 0 0 vs)
    constVal := fun k => .user k 0 []
    ctorOk := fun _ _ => false
    ctor := fun _ vs => .ok (.user 0 0 vs)
    userDefault := fun k => some (.user k 0 [])
    conv := fun _ _ => Option.none
    convOpt := fun _ _ => Option.none
    userSpan := fun _ => Option.none
    truthy := fun _ => true
    custom := fun _ => ⟨.map (.sequence [.ignore (Ex.all "("), .zeroOrMore (.custom 0), .ignore (Ex.all ")")]) (.user 0),
      true, .user 0⟩ }

mutual
/-- the numbers in the user values -/
def Ex.tags : Val → Nat
  | .unit | .span _ | .opt Option.none => 0
  | .vec vs | .arr vs | .tup vs => Ex.tagsAll vs
  | .opt (some v) | .var _ v => Ex.tags v
  | .pair a b => Ex.tags a + Ex.tags b
  | .user _ t _ => t
def Ex.tagsAll : List Val → Nat
  | [] => 0
  | v :: vs => Ex.tags v + Ex.tagsAll vs
end

mutual
/-- the number of nodes of the trees -/
def Ex.nodes : Val → Nat
  | .unit | .span _ | .opt Option.none => 0
  | .vec vs | .arr vs | .tup vs => Ex.nodesAll vs
  | .opt (some v) | .var _ v => Ex.nodes v
  | .pair a b => Ex.nodes a + Ex.nodes b
  | .user _ _ vs => Ex.nodesAll vs + 1
def Ex.nodesAll : List Val → Nat
  | [] => 0
  | v :: vs => Ex.nodes v + Ex.nodesAll vs
end

/-- the same grammar; callback 0 counts -/
def Ex.counts (text : String) : Ctx Nat Nat :=
  { Ex.trees text with
    fnCall := fun _ vs => .ok (.user 0 (Ex.tagsAll vs + 1) [])
    constVal := fun k => .user k 1 []
    ctor := fun _ vs => .ok (.user 0 (Ex.tagsAll vs + 1) [])
    userDefault := fun k => some (.user k 1 []) }

/-- a tree replaced by the number of its nodes -/
def Ex.measure : Val → Val
  | .user k t vs => .user k (Ex.nodes (.user k t vs)) []
  | v => v

mutual
theorem Ex.tags_measure : ∀ v : Val, Ex.tags (v.onUsers Ex.measure) = Ex.nodes v
  | .unit => rfl
  | .span _ => rfl
  | .opt Option.none => rfl
  | .vec vs | .arr vs | .tup vs => by simp only [Val.onUsers, Ex.tags, Ex.nodes, Ex.tagsAll_measure vs]
  | .opt (some v) => by simp only [Val.onUsers, Ex.tags, Ex.nodes, Ex.tags_measure v]
  | .var _ v => by simp only [Val.onUsers, Ex.tags, Ex.nodes, Ex.tags_measure v]
  | .pair a b => by simp only [Val.onUsers, Ex.tags, Ex.nodes, Ex.tags_measure a, Ex.tags_measure b]
  | .user _ _ _ => rfl
theorem Ex.tagsAll_measure : ∀ vs : List Val, Ex.tagsAll (onUsersAll Ex.measure vs) = Ex.nodesAll vs
  | [] => rfl
  | v :: vs => by simp only [onUsersAll, Ex.tagsAll, Ex.nodesAll, Ex.tags_measure v, Ex.tagsAll_measure vs]
end

theorem Ex.measure_keeps : KeepsType Ex.measure := fun _ _ _ => ⟨_, _, rfl⟩

theorem Ex.counts_evaluates (text : String) : Evaluates Ex.measure (Ex.trees text) (Ex.counts text) where
  fn k args := by
    show Except.ok (Val.user 0 (Ex.tagsAll (onUsersAll Ex.measure args) + 1) []) = Except.ok (Val.user 0 _ [])
    rw [Ex.tagsAll_measure]
    rfl
  const k := rfl
  ctor t args := by
    show Except.ok (Val.user 0 (Ex.tagsAll (onUsersAll Ex.measure args) + 1) []) = Except.ok (Val.user 0 _ [])
    rw [Ex.tagsAll_measure]
    rfl
  dflt k := rfl
  conv a b := trivial
  convOpt a b := trivial
  toSpan k := trivial
  truthy v := rfl

theorem Ex.counts_grammar (text : String) : SameGrammar (Ex.trees text) (Ex.counts text) :=
  ⟨rfl, rfl, rfl, rfl, rfl, rfl, rfl, rfl⟩

/-- On every text, what the counting program returns is the number of nodes of the tree the other builds. -/
example (text : String) (log v t) (hv : Parses (Ex.trees text) (.custom 0) (Ex.input text) log v t) :
    Parses (Ex.counts text) (.custom 0) (Ex.input text) (log.map (Call.onUsers Ex.measure)) (v.onUsers Ex.measure) t :=
  (C74_evaluation _ _ (Ex.counts_grammar text) Ex.measure_keeps (Ex.counts_evaluates text)).1 log v t hv

/-- The grammar compiles and parses: the tree of `(()())` has three nodes. -/
example : Compiles (Ex.trees "(()())") (.custom 0) ∧
    (∃ log, Parses (Ex.trees "(()())") (.custom 0) (Ex.input "(()())") log
      (.user 0 0 [.vec [.user 0 0 [.vec []], .user 0 0 [.vec []]]]) ⟨.at 0 6, 0⟩) ∧
    (∃ log, Parses (Ex.counts "(()())") (.custom 0) (Ex.input "(()())") log (.user 0 3 []) ⟨.at 0 6, 0⟩) := by
  have h : ∃ log, Parses (Ex.trees "(()())") (.custom 0) (Ex.input "(()())") log
      (.user 0 0 [.vec [.user 0 0 [.vec []], .user 0 0 [.vec []]]]) ⟨.at 0 6, 0⟩ := ⟨_, Ex.parses _ 20 rfl⟩
  refine ⟨⟨⟨fun _ => rfl, fun _ => rfl, fun _ => rfl, fun _ => nofun⟩, rfl, rfl, rfl⟩, h, ?_⟩
  obtain ⟨log, h⟩ := h
  exact ⟨_, (C74_evaluation _ _ (Ex.counts_grammar _) Ex.measure_keeps (Ex.counts_evaluates _)).1 _ _ _ h⟩

/-- Every number counted is positive: an invariant the callback establishes. -/
theorem Ex.counts_positive (text : String) : Establishes (fun v => ∃ k n vs, v = .user k (n + 1) vs) (Ex.counts text) where
  fn k args v _ hv := by cases hv; exact ⟨_, _, _, rfl⟩
  const k := ⟨_, _, _, rfl⟩
  ctor t args v _ hv := by cases hv; exact ⟨_, _, _, rfl⟩
  dflt k v hv := by cases hv; exact ⟨_, _, _, rfl⟩
  conv a b f v hf := nomatch hf
  convOpt a b f v hf := nomatch hf

example (text : String) (log v t) (hv : Parses (Ex.counts text) (.custom 0) (Ex.input text) log v t) :
    v.Every fun v => ∃ k n vs, v = .user k (n + 1) vs :=
  (C74_invariant _ _ (Ex.counts_positive text) hv).2 v t rfl

/-- What the library does look at is whether a filter's answer is true: if related values answer
differently, the programs differ. -/
theorem C74_needs_truthy : ∃ (C' : Ctx Nat Nat), SameGrammar (Ex.trees "a") C' ∧
    (∀ v : Val, (Ex.trees "a").truthy v = !C'.truthy v) ∧
    ParseFails C' (.filter (Ex.all "a") (.user 0)) (Ex.input "a") [⟨.user 0, [.span (Ex.input "a")]⟩] (Ex.input "a") ∧
    Parses (Ex.trees "a") (.filter (Ex.all "a") (.user 0)) (Ex.input "a") [⟨.user 0, [.span (Ex.input "a")]⟩]
      (.span (Ex.input "a")) ⟨.at 0 1, 0⟩ :=
  ⟨{ Ex.trees "a" with truthy := fun _ => false }, ⟨rfl, rfl, rfl, rfl, rfl, rfl, rfl, rfl⟩, fun _ => rfl,
    Ex.parses _ 5 rfl, Ex.parses _ 5 rfl⟩

end Tok3n
