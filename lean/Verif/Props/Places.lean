import Verif.Proof.PlacesOrder
import Verif.Spec.Example
import Verif.Proof.Reach
/-
C70: the parts of a result do not overlap, and come in the order of the text.
-/

namespace Tok3n

variable {α β : Type}

/-! ## C70 The parts of a result do not overlap -/

theorem weighs_holds (b i : Nat) : Weighs fun t => if t.holds b i then 1 else 0 := by
  refine ⟨fun t h => ?_, fun s k s' t hk ht => ?_⟩
  · obtain ⟨p, n⟩ := t
    simp only at h; subst h
    cases p <;> simp [Span.holds]
  · have hs : s'.holds b i = true → s.holds b i = true := by
      intro h
      obtain ⟨p, n⟩ := s
      obtain ⟨p', n'⟩ := s'
      obtain ⟨h1, h2⟩ := hk
      rcases h2 with ⟨h2, h3⟩ | ⟨b', o, h2, h3⟩
      · simp only at h1 h2 h3; subst h2 h3
        simp only [Nat.zero_add] at h1; rw [← h1]; exact h
      · simp only at h1 h2 h3; subst h2 h3
        simp only [Span.holds, decide_eq_true_eq] at h ⊢
        omega
    rcases ht with rfl | ⟨b', o, j, o', h1, h2, h3, h4, h5⟩
    · have : Span.default.holds b i = false := rfl
      rw [this]
      cases h : s'.holds b i
      · simp
      · simp [hs h]
    · obtain ⟨p, n⟩ := s
      obtain ⟨p', n'⟩ := s'
      obtain ⟨p'', n''⟩ := t
      simp only at h1 h2 h3 h5; subst h1 h2 h3
      obtain ⟨k1, k2⟩ := hk
      simp only at k1 k2
      have : o' = o + k := by
        rcases k2 with ⟨k2, k3⟩ | ⟨b2, o2, k2, k3⟩
        · cases k3; omega
        · cases k2; cases k3; rfl
      simp only [Span.holds, decide_eq_true_eq]
      split <;> split <;> split <;> omega

theorem weighs_len : Weighs Span.len := by
  refine ⟨fun t h => h, fun s k s' t hk ht => ?_⟩
  have := hk.size
  rcases ht with rfl | ⟨b', o, j, o', h1, h2, h3, h4, h5⟩
  · simp only [Span.default]; omega
  · rcases hk.start with ⟨k2, k3⟩ | ⟨b2, o2, k2, k3⟩
    · rw [h1, h2] at k3; cases k3; omega
    · rw [h1] at k2; rw [h2] at k3; cases k2; cases k3; omega

theorem weight_times (b i : Nat) (v : Val) : weight (fun t => if t.holds b i then 1 else 0) v = v.times b i := by
  unfold weight Val.times
  induction v.spans with
  | nil => rfl
  | cons t ts ih => rw [List.map_cons, List.sum_cons, ih, List.countP_cons]; omega

section
variable [LinearOrder α] (C : Ctx α β) (p : Parser α) (s s' : Span) (hc : Compiles C p) (ht : C.Typed)
  (log : List Call) (v : Val) (h : Parses C p s log v s')
include hc ht h

/-- Every element of the input is in at most one of the spans of the result, and only if it
was consumed — for parsers whose callbacks neither invent nor copy spans, in particular for
callback-free parsers. -/
theorem C70_once (hn : CopiesNone C p) (b i : Nat) :
    v.times b i ≤ 1 ∧ (0 < v.times b i → s.holds b i = true ∧ s'.holds b i = false) := by
  have := (Parse_weight (weighs_holds b i) hc ht hn s).ok h
  simp only [R.own, weight_times] at this
  cases h1 : s.holds b i <;> cases h2 : s'.holds b i <;> simp [h1, h2] at this ⊢ <;> omega

/-- No two spans in a result overlap. -/
theorem C70_disjoint (hn : CopiesNone C p) :
    v.spans.Pairwise fun x y => ∀ b i, ¬ (x.holds b i = true ∧ y.holds b i = true) := by
  have key : ∀ b i, v.spans.countP (Span.holds b i) ≤ 1 := fun b i => (C70_once C p s s' hc ht log v h hn b i).1
  generalize v.spans = l at key
  induction l with
  | nil => exact .nil
  | cons x l ih =>
    refine List.Pairwise.cons (fun y hy b i hxy => ?_) (ih fun b i => ?_)
    · have := key b i
      rw [List.countP_cons, if_pos hxy.1] at this
      have : 0 < l.countP (Span.holds b i) := List.countP_pos_iff.2 ⟨y, hy, hxy.2⟩
      omega
    · have := key b i
      rw [List.countP_cons] at this
      omega

/-- Together the spans in a result hold no more elements than were consumed. -/
theorem C70_length (hn : CopiesNone C p) : v.held + s'.len ≤ s.len := by
  have := (Parse_weight weighs_len hc ht hn s).ok h
  exact this

/-- The spans in a result that are not empty, read from left to right, come in the order of
the text — unless a `delimit` keeps its elements and its delimiters in two lists, or a callback
changes the order. -/
theorem C70_in_order (hn : KeepsOrder C p) : (nonEmpty v.spans).Pairwise Before :=
  (((Parse_ord hc ht hn s).ok h).2 v rfl).sorted

end

/-! ### Concrete cases -/

theorem Ex.copiesNone (text : String) (p : Parser Nat)
    (h : ∀ q f, ParseReach (Ex.ctx text) p (.map q f) → f = .user 0) : CopiesNone (Ex.ctx text) p := by
  have hf : ∀ f, f = Fn.user 0 → ∀ args log v, invoke (Ex.ctx text) f args = .done log (.ok v) → v.spans = spansList args := by
    rintro _ rfl args log v hv
    cases hv
    rfl
  refine ⟨⟨Ex.ctx_local _, fun q f hr args log v hv t ht => ?_⟩, ?_, ?_, fun q f hr args log v hv => ?_⟩
  · rw [hf f (h q f hr) args log v hv] at ht
    exact .inr (mem_spansList.1 ht)
  · intro src dst f v h
    simp only [Ex.ctx, Option.ite_none_right_eq_some, Option.some.injEq] at h
    obtain ⟨-, rfl⟩ := h
    have : List.Subperm (nonEmpty v.spans) v.spans := List.filter_sublist.subperm
    simpa [Val.spans, spansList] using this
  · intro src dst f o h
    simp only [Ex.ctx, Option.ite_none_right_eq_some, Option.some.injEq] at h
    obtain ⟨-, rfl⟩ := h
    simp [Val.spans, spansList, nonEmpty]
  · rw [hf f (h q f hr) args log v hv]
    exact List.filter_sublist.subperm

theorem Ex.keepsOrder (text : String) (p : Parser Nat)
    (h : ∀ q f, ParseReach (Ex.ctx text) p (.map q f) → f = .user 0)
    (hd : ∀ q d, ParseReach (Ex.ctx text) p (.delimit q d) →
      resultFor (Ex.ctx text) q = .void ∨ resultFor (Ex.ctx text) d = .void) : KeepsOrder (Ex.ctx text) p := by
  have hc := Ex.copiesNone text p h
  refine ⟨hc.toSpanLocal, ?_, ?_, fun q f hr args log v hv => ?_, hd⟩
  · intro src dst f v h
    simp only [Ex.ctx, Option.ite_none_right_eq_some, Option.some.injEq] at h
    obtain ⟨-, rfl⟩ := h
    have : List.Sublist (nonEmpty v.spans) v.spans := List.filter_sublist
    simpa [Val.spans, spansList] using this
  · intro src dst f o h
    simp only [Ex.ctx, Option.ite_none_right_eq_some, Option.some.injEq] at h
    obtain ⟨-, rfl⟩ := h
    simp [Val.spans, spansList, nonEmpty]
  · have := h q f hr
    subst this
    cases hv
    exact List.filter_sublist

/-- a callback, a repetition and `delimit` that keeps the delimiters -/
def Ex.parts : Parser Nat :=
  .sequence [.map (Ex.all "x") (.user 0), .zeroOrMore (Ex.any "ab"), .delimit (Ex.all "c") (Ex.all ",")]

/-- `xabc,c` is read as `x`, `a`, `b`, two `c` and between them one comma … -/
example : Compiles (Ex.ctx "xabc,c") Ex.parts ∧ CopiesNone (Ex.ctx "xabc,c") Ex.parts ∧
    Parses (Ex.ctx "xabc,c") Ex.parts (Ex.input "xabc,c") [⟨.user 0, [.span ⟨.at 0 0, 1⟩]⟩]
      (.tup [.user 0 0 [.span ⟨.at 0 0, 1⟩], .vec [.span ⟨.at 0 1, 1⟩, .span ⟨.at 0 2, 1⟩],
        .pair (.vec [.span ⟨.at 0 3, 1⟩, .span ⟨.at 0 5, 1⟩]) (.vec [.span ⟨.at 0 4, 1⟩])]) ⟨.at 0 6, 0⟩ := by
  refine ⟨⟨Ex.ctx_ok _, rfl, rfl, rfl⟩, Ex.copiesNone _ _ fun q f h => ?_, Ex.parses _ 9 rfl⟩
  have := reach_ok (ok := fun p => match p with | .map _ f => decide (f = .user 0) | _ => true)
    (fun k => by match k with | 0 => rfl | _ + 1 => rfl) (by rfl) h
  simpa using this

/-- … and here the order is not that of the text: the comma comes last. -/
example : ¬ (nonEmpty (Val.spans (.pair (.vec [.span ⟨.at 0 3, 1⟩, .span ⟨.at 0 5, 1⟩]) (.vec [.span ⟨.at 0 4, 1⟩])))).Pairwise
    Before := by
  intro h
  have h : [(⟨.at 0 3, 1⟩ : Span), ⟨.at 0 5, 1⟩, ⟨.at 0 4, 1⟩].Pairwise Before := h
  simp only [List.pairwise_cons] at h
  obtain ⟨b, i, j, h1, h2, h3⟩ := h.2.1 ⟨.at 0 4, 1⟩ (by simp)
  cases h1; cases h2; omega

/-- with the delimiters dropped it is -/
example : KeepsOrder (Ex.ctx "xabc,c")
    (.sequence [.map (Ex.all "x") (.user 0), .zeroOrMore (Ex.any "ab"), .delimit (Ex.all "c") (.ignore (Ex.all ","))]) := by
  refine Ex.keepsOrder _ _ (fun q f h => ?_) fun q d h => ?_
  · have := reach_ok (ok := fun p => match p with | .map _ f => decide (f = .user 0) | _ => true)
      (fun k => by match k with | 0 => rfl | _ + 1 => rfl) (by rfl) h
    simpa using this
  · have := reach_ok (ok := fun p => match p with | .delimit _ (.ignore _) => true | .delimit _ _ => false | _ => true)
      (fun k => by match k with | 0 => rfl | _ + 1 => rfl) (by rfl) h
    right
    cases d with
    | ignore d => rfl
    | _ => simp at this

/-- A callback that copies its argument makes a result in which a part occurs twice. -/
example : let C := { Ex.ctx "a" with fnCall := fun _ vs => .ok (.user 0 0 (vs ++ vs)) }
    Parses C (.map (Ex.all "a") (.user 0)) (Ex.input "a") [⟨.user 0, [.span ⟨.at 0 0, 1⟩]⟩]
      (.user 0 0 [.span ⟨.at 0 0, 1⟩, .span ⟨.at 0 0, 1⟩]) ⟨.at 0 1, 0⟩ ∧
    Val.times 0 0 (.user 0 0 [.span ⟨.at 0 0, 1⟩, .span ⟨.at 0 0, 1⟩]) = 2 := ⟨Ex.parses _ 3 rfl, rfl⟩

end Tok3n
