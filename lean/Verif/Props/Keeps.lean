import Verif.Proof.Keeps
import Verif.Proof.Reach
import Verif.Props.Modify
import Verif.Props.Lookahead
import Verif.Spec.Example
/-
C30: parsers that drop nothing.
-/

namespace Tok3n

variable {α β : Type}

/-! ## C30 join of a parser that drops nothing returns the whole match -/

/-- If nothing in `p` is dropped (`KeepsAll`), then whenever `p.parse` succeeds, the
non-empty spans in its value, read left to right, follow each other without gap or overlap from
the start of the input to the start of the remaining input. -/
theorem C30_spans [LinearOrder α] (C : Ctx α β) (p : Parser α) (hc : Compiles C p) (ht : C.Typed)
    (hl : C.Local) (hk : KeepsAll C p) (s : Span) (hs : s.Valid C.mem) (log : List Call) (v : Val) (s' : Span)
    (h : Parses C p s log v s') : Tiles s (nonEmpty v.spans) s' :=
  (Parse_keeps hc ht hl hk s hs).ok h v rfl

theorem Tiles.text {mem : Mem β} {s s' : Span} {xs : List Span} (h : Tiles s xs s') :
    xs.flatMap (Span.elems mem) ++ s'.elems mem = s.elems mem := by
  induction h with
  | nil => rfl
  | @cons s x s1 xs s' e a _ ih =>
    obtain ⟨xp, xn⟩ := x
    simp only at e a; subst e
    rw [List.flatMap_cons, List.append_assoc, ih, a.eq_drop, Span.elems_drop, Span.elems_take a.le,
      List.take_append_drop]

theorem nonEmpty_text {mem : Mem β} (xs : List Span) :
    (nonEmpty xs).flatMap (Span.elems mem) = xs.flatMap (Span.elems mem) := by
  induction xs with
  | nil => rfl
  | cons x xs ih =>
    rw [nonEmpty] at ih
    rw [nonEmpty, List.filter_cons]
    split
    · rw [List.flatMap_cons, List.flatMap_cons, ih]
    · rename_i h
      have h0 : x.len = 0 := by simpa using h
      have he : x.elems mem = [] := by
        obtain ⟨xp, xn⟩ := x
        simp only at h0; subst h0
        cases xp <;> simp [Span.elems]
      rw [ih, List.flatMap_cons, he, List.nil_append]

/-- The same in terms of the text: the spans of the value (all of them), concatenated, and the
text that remains make up the text of the input. -/
theorem C30_text [LinearOrder α] (C : Ctx α β) (p : Parser α) (hc : Compiles C p) (ht : C.Typed)
    (hl : C.Local) (hk : KeepsAll C p) (s : Span) (hs : s.Valid C.mem) (log : List Call) (v : Val) (s' : Span)
    (h : Parses C p s log v s') :
    v.spans.flatMap (Span.elems C.mem) ++ s'.elems C.mem = s.elems C.mem := by
  rw [← nonEmpty_text]
  exact (C30_spans C p hc ht hl hk s hs log v s' h).text

/-- Hence `join(p)` succeeds exactly if `p` does, with the same callbacks and remaining
input, and returns the span of exactly what was consumed: it starts where the input does and the
remaining input starts where it ends.  It fails exactly if `p` does. -/
theorem C30_join [LinearOrder α] (C : Ctx α β) (p : Parser α) (hc : Compiles C (.join p)) (ht : C.Typed)
    (hl : C.Local) (hk : KeepsAll C p) (s : Span) (hs : s.Valid C.mem) (log : List Call) (s' : Span) :
    (∀ w, Parses C (.join p) s log w s' ↔
      (∃ v, Parses C p s log v s') ∧ ∃ n, w = .span ⟨s.ptr, n⟩ ∧ s.Advanced n s') ∧
    (ParseFails C (.join p) s log s' ↔ ParseFails C p s log s') := by
  have hok : tyOK C p = true ∧ parseOK C p = true ∧ joinable C (resultFor C p) = true := by
    have := hc.parse
    simp only [parseOK, Bool.and_eq_true] at this
    exact ⟨this.1.1, this.1.2, this.2⟩
  have hcp : Compiles C p := ⟨hc.ctx, by simpa [Parser.wf] using hc.wf, hok.1, hok.2.1⟩
  obtain ⟨j1, j2, -, -⟩ := C28_join C p hc ht (hk.spanLocal hl) s hs s' log
  -- what the join of a value of `p` is
  have key : ∀ v s1, Parses C p s log v s1 → Contiguous (nonEmpty (joinLeaves C v)) ∧
      ∃ n, cover s1 (nonEmpty (joinLeaves C v)) = ⟨s.ptr, n⟩ ∧ s.Advanced n s1 := by
    intro v s1 hv
    have ht' := C30_spans C p hcp ht hl hk s hs log v s1 hv
    have hty : HasTy (resultFor C p) v := (((Parse_typed hcp ht s).ok hv).val v rfl).ty
    rw [joinLeaves_standard _ v (KeepsAll.standard p hk) hok.2.2 hty]
    have hne : ∀ x ∈ nonEmpty v.spans, x.len ≠ 0 := fun x hx => by
      simpa using (List.mem_filter.1 hx).2
    obtain ⟨h1, h2⟩ := ht'.contiguous hne
    exact ⟨h1, _, h2, ht'.advanced⟩
  have adv : ∀ {n m : Nat} {a : Span}, s.Advanced n a → s.Advanced m a → n = m := by
    intro n m a h1 h2
    have := h1.size; have := h2.size
    omega
  constructor
  · intro w
    rw [j1 w]
    constructor
    · rintro ⟨v, hv, -, rfl⟩
      obtain ⟨-, n, hn, ha⟩ := key v s' hv
      exact ⟨⟨v, hv⟩, n, by rw [hn], ha⟩
    · rintro ⟨⟨v, hv⟩, n, rfl, ha⟩
      obtain ⟨h1, m, hm, ha'⟩ := key v s' hv
      exact ⟨v, hv, h1, by rw [hm, adv ha ha']⟩
  · rw [j2]
    constructor
    · rintro ⟨rfl, h | ⟨v, s1, hv, hn⟩⟩
      · exact h
      · exact absurd (key v s1 hv).1 hn
    · intro h
      have : s' = s := ((Parse_good p s).ok h).fail rfl
      subst this
      exact ⟨rfl, .inl h⟩

/-- So `lookahead` tells what `parse` does (C05) for every parser without `filter` whose `join`s are all over parsers
that drop nothing and whose custom parsers do not succeed where their bodies fail. -/
theorem C30_lookahead [LinearOrder α] (C : Ctx α β) (p : Parser α) (ht : C.Typed) (hl : C.Local)
    (hk : ∀ q, ParseReach C p q → (∀ r f, q ≠ .filter r f) ∧ (∀ k, q = .custom k → ¬ Pretends C k) ∧
      ∀ r, q = .join r → Compiles C (.join r) ∧ KeepsAll C r) :
    LookaheadTells C p := by
  refine (C05_never_rejects_partial C p).2 ⟨?_, fun k hq s hs log s' h1 log' v s'' h2 =>
    (hk _ hq).2.1 k rfl (pretends_of h1 h2)⟩ p .refl
  rintro q hq r (rfl | ⟨f, rfl⟩) s hs log v s' h1 log' s'' h2
  · obtain ⟨hcq, hkr⟩ := (hk _ hq).2.2 r rfl
    obtain ⟨-, h3⟩ := C30_join C r hcq ht hl hkr s hs log' s''
    have h3 := h3.1 h2
    unfold Parses at h1
    unfold ParseFails at h3
    rw [h1] at h3
    simp at h3
  · exact ((hk _ hq).1 r f rfl).elim

/-! The hypothesis is checkable -/

/-- the condition of `KeepsHere` as a check -/
def keepsB (C : Ctx α β) : Parser α → Bool
  | .ignore _ | .map _ _ | .delimit _ _ => false
  | .choice ps => decide ((filterOutVoidDeduplicate (resultsFor C ps)).2 =
      (resultsFor C ps).map (wanted (distinct (resultsFor C ps))))
  | .custom k => decide ((C.custom k).ty = resultFor C (C.custom k).body) && (C.custom k).ty.standard
  | _ => true

theorem keepsB_sound {C : Ctx α β} {p : Parser α} (h : keepsB C p = true) : KeepsHere C p := by
  cases p <;> simp only [keepsB, Bool.false_eq_true, Bool.and_eq_true, decide_eq_true_eq] at h <;>
    simp only [KeepsHere]
  · rw [← resultsFor_eq]; exact (filterOutVoidDeduplicate_snd _).1 h
  · exact h

/-- Running `keepsB` on the expression, and on the bodies of the custom parsers, shows
`KeepsAll`. -/
theorem C30_checked (C : Ctx α β) (p : Parser α) (hc : ∀ k, everyNode (keepsB C) (C.custom k).body = true)
    (h : everyNode (keepsB C) p = true) : KeepsAll C p :=
  fun _ hq => keepsB_sound (reach_ok hc h hq)

/-- Example: the custom parser `join("(" >> ~custom >> ")")`. -/
def Ex.parens (text : String) : Ctx Nat Nat := { Ex.ctx text with
  custom := fun _ => ⟨.join (.sequence [Ex.all "(", .maybe (.custom 0), Ex.all ")"]), false, .span⟩ }

theorem Ex.parens_ok (text : String) : (Ex.parens text).OK := ⟨fun _ => rfl, fun _ => rfl, fun _ => rfl, fun _ _ => rfl⟩
theorem Ex.parens_typed (text : String) : (Ex.parens text).Typed :=
  ⟨(Ex.ctx_typed text).fn, (Ex.ctx_typed text).const, (Ex.ctx_typed text).ctor, (Ex.ctx_typed text).dflt, (Ex.ctx_typed text).conv,
    (Ex.ctx_typed text).convOpt⟩
theorem Ex.parens_local (text : String) : (Ex.parens text).Local :=
  ⟨(Ex.ctx_local text).conv, (Ex.ctx_local text).convOpt, (Ex.ctx_local text).dflt, (Ex.ctx_local text).toSpan⟩

/-- `("x" >> *(parens | "ab"_any)) >> ~"z"` -/
def Ex.keeper : Parser Nat := .sequence [Ex.all "x", .zeroOrMore (.choice [.custom 0, Ex.any "ab"]), .maybe (Ex.all "z")]

example : Compiles (Ex.parens "xa(())bz") (.join Ex.keeper) := ⟨Ex.parens_ok _, rfl, rfl, rfl⟩
example : KeepsAll (Ex.parens "xa(())bz") Ex.keeper := C30_checked _ _ (fun _ => rfl) rfl
example : Parses (Ex.parens "xa(())bz!") Ex.keeper (Ex.input "xa(())bz!") []
    (.tup [.span ⟨.at 0 0, 1⟩, .vec [.span ⟨.at 0 1, 1⟩, .span ⟨.at 0 2, 4⟩, .span ⟨.at 0 6, 1⟩], .opt (some (.span ⟨.at 0 7, 1⟩))])
    ⟨.at 0 8, 1⟩ := Ex.parses _ 20 rfl
example : Parses (Ex.parens "xa(())bz!") (.join Ex.keeper) (Ex.input "xa(())bz!") []
    (.span ⟨.at 0 0, 8⟩) ⟨.at 0 8, 1⟩ := Ex.parses _ 20 rfl

example : LookaheadTells (Ex.parens "xa(())bz") (.map (.join Ex.keeper) (.user 0)) := by
  refine C30_lookahead _ _ (Ex.parens_typed _) (Ex.parens_local _) fun q hq => ?_
  have h := reach_ok (ok := fun q => match q with
    | .filter _ _ => false
    | .join r => everyNode (keepsB (Ex.parens "xa(())bz")) r && Parser.wf r && parseOK (Ex.parens "xa(())bz") (.join r)
    | _ => true) (fun _ => rfl) (by rfl) hq
  refine ⟨?_, ?_, ?_⟩
  · rintro r f rfl; exact Bool.noConfusion h
  · rintro k - ⟨h, -⟩; exact h rfl
  · rintro r rfl
    simp only [Bool.and_eq_true] at h
    exact ⟨⟨Ex.parens_ok _, by rw [Parser.wf]; exact h.1.2, rfl, h.2⟩, C30_checked _ _ (fun _ => rfl) h.1.1⟩

/-! What the hypothesis excludes: `ignore`, `delimit`, and a choice with a wrong index. -/

/-- join("a" >> ignore("b") >> "c") fails although the parser in it succeeds. -/
theorem C30_ignore_drops : ∃ (v : Val) (s' : Span),
    Parses (Ex.ctx "abc") (.sequence [Ex.all "a", .ignore (Ex.all "b"), Ex.all "c"]) (Ex.input "abc") [] v s' ∧
    ParseFails (Ex.ctx "abc") (.join (.sequence [Ex.all "a", .ignore (Ex.all "b"), Ex.all "c"]))
      (Ex.input "abc") [] (Ex.input "abc") :=
  ⟨_, _, Ex.parses _ 6 rfl, Ex.parses _ 6 rfl⟩

/-- join("a" % delimit(",")) fails on "a,a": the delimiters are dropped. -/
theorem C30_delimit_drops : ∃ (v : Val) (s' : Span),
    Parses (Ex.ctx "a,a") (.delimit (Ex.all "a") (.ignore (Ex.all ","))) (Ex.input "a,a") [] v s' ∧
    ParseFails (Ex.ctx "a,a") (.join (.delimit (Ex.all "a") (.ignore (Ex.all ",")))) (Ex.input "a,a") [] (Ex.input "a,a") :=
  ⟨_, _, Ex.parses _ 9 rfl, Ex.parses _ 9 rfl⟩

end Tok3n
