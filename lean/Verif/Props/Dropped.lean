import Verif.Props.Modify
import Verif.Props.Safety
import Verif.Props.Compile
import Verif.Proof.Lexical
/-
C61: `join` fails if something between was dropped.
-/

namespace Tok3n

variable {α β : Type}

theorem joinLeavesList_append (C : Ctx α β) (vs ws : List Val) :
    joinLeavesList C (vs ++ ws) = joinLeavesList C vs ++ joinLeavesList C ws := by
  induction vs with
  | nil => simp [joinLeavesList]
  | cons v vs ih => simp [joinLeavesList, ih]

theorem joinLeaves_sequenceValue (C : Ctx α β) (vs : List Val) :
    joinLeaves C (sequenceValue vs) = joinLeavesList C vs := by
  match vs with
  | [] => simp [sequenceValue, joinLeaves, joinLeavesList]
  | [v] => simp [sequenceValue, joinLeavesList]
  | v :: w :: vs => simp [sequenceValue, joinLeaves]

theorem contiguous_middle {xs ys : List Span} {a b : Span} (h : Contiguous (xs ++ a :: b :: ys)) : Touch a b := by
  induction xs with
  | nil => exact h.1
  | cons x xs ih =>
    cases xs with
    | nil => exact h.2.1
    | cons y xs => exact ih h.2

/-- spans before a gap, and spans after it, do not join -/
theorem not_contiguous {s s1 s2 s3 : Span} {xs ys : List Span} (hx : ∀ x ∈ xs, InRegion s s1 x)
    (hy : ∀ y ∈ ys, InRegion s2 s3 y) (hgap : ∃ b o o', s1.ptr = .at b o ∧ s2.ptr = .at b o' ∧ o < o')
    (hxn : nonEmpty xs ≠ []) (hyn : nonEmpty ys ≠ []) : ¬ Contiguous (nonEmpty (xs ++ ys)) := by
  intro h
  rw [nonEmpty_append] at h
  obtain ⟨xs', a, hxs⟩ : ∃ xs' a, nonEmpty xs = xs' ++ [a] := ⟨_, _, (List.dropLast_append_getLast hxn).symm⟩
  obtain ⟨b, ys', hys⟩ := List.exists_cons_of_ne_nil hyn
  have ha : a ∈ nonEmpty xs := by rw [hxs]; simp
  have hb : b ∈ nonEmpty ys := by rw [hys]; simp
  rw [hxs, hys, List.append_assoc, List.singleton_append] at h
  obtain ⟨k, o, h1, h2⟩ := contiguous_middle h
  simp only [nonEmpty, List.mem_filter, decide_eq_true_eq] at ha hb
  have ha' := hx a ha.1
  have hb' := hy b hb.1
  obtain ⟨g, g1, g2, hg1, hg2, hg⟩ := hgap
  rcases ha' with rfl | ⟨b1, o1, i1, o1', e1, e2, e3, e4, e5⟩
  · simp [Span.default] at ha
  · rcases hb' with rfl | ⟨b2, o2, i2, o2', f1, f2, f3, f4, f5⟩
    · simp [Span.default] at hb
    · rw [hg1] at e2; rw [hg2] at f1; rw [h1] at e3; rw [h2] at f3
      cases e2; cases f1; cases e3; cases f3
      omega

section
variable [LinearOrder α] (C : Ctx α β)

/-- If a part of a sequence that has no value (an `ignore`, say) consumes something, and there are non-empty spans
among the values before it and after it, `join` of the sequence fails although the sequence succeeds. -/
theorem C61_gap (before : List (Parser α)) (q : Parser α) (after : List (Parser α))
    (hc : Compiles C (.join (.sequence (before ++ q :: after)))) (ht : C.Typed)
    (hl : SpanLocal C (.sequence (before ++ q :: after))) (hq : resultFor C q = .void)
    (s s1 s2 s3 : Span) (hs : s.Valid C.mem) (bl ql al : List Call) (vs : List Val) (u : Val) (ws : List Val)
    (hb : InTurn (before.map (partRun C)) s bl vs s1) (hqr : partRun C q s1 = .done ql (.ok ⟨some u, s2⟩))
    (hgap : s2.len < s1.len) (ha : InTurn (after.map (partRun C)) s2 al ws s3)
    (hv : nonEmpty (joinLeavesList C (withValue (before.map (resultFor C)) vs)) ≠ [])
    (hw : nonEmpty (joinLeavesList C (withValue (after.map (resultFor C)) ws)) ≠ []) :
    (∃ log v, Parses C (.sequence (before ++ q :: after)) s log v s3) ∧
    ∃ log, ParseFails C (.join (.sequence (before ++ q :: after))) s log s := by
  have hok := hc.parse
  simp only [parseOK, Bool.and_eq_true] at hok
  have hcs : Compiles C (.sequence (before ++ q :: after)) := ⟨hc.ctx, by simpa [Parser.wf] using hc.wf, hok.1.1, by
    simp only [parseOK, Bool.and_eq_true]; exact hok.1.2⟩
  have hcomp := (C57_sequence C hc.ctx _).1 hcs
  have hsub : ∀ ps, ps ≠ [] → (∀ p ∈ ps, p ∈ before ++ q :: after) → Compiles C (.sequence ps) ∧ SpanLocal C (.sequence ps) := by
    intro ps h0 h
    refine ⟨(C57_sequence C hc.ctx _).2 ⟨h0, fun p hp => hcomp.2 p (h p hp)⟩, hl.ctx, fun r f hr => ?_⟩
    cases hr with
    | step h1 h2 =>
      cases h1 with
      | sequence hm => exact hl.maps r f (.step (.sequence (h _ hm)) h2)
  have hvl : vs.length = (before.map (resultFor C)).length := by simpa using hb.length
  have hwhole : Parses C (.sequence (before ++ q :: after)) s (bl ++ (ql ++ al))
      (sequenceValue (withValue (before.map (resultFor C)) vs ++ withValue (after.map (resultFor C)) ws)) s3 := by
    refine ((C15_sequence_partial C _ hcs s s3 _).1 _).2 ⟨vs ++ u :: ws, ?_, ?_⟩
    · rw [List.map_append, List.map_cons, inTurn_append]
      exact ⟨bl, ql ++ al, vs, u :: ws, s1, hb, .cons hqr ha, rfl, rfl⟩
    · rw [List.map_append, withValue_append hvl, List.map_cons, withValue, if_pos hq]
  have hregion : ∀ ps, ps ≠ [] → (∀ p ∈ ps, p ∈ before ++ q :: after) → ∀ t t' l xs,
      InTurn (ps.map (partRun C)) t l xs t' →
      ∀ x ∈ joinLeavesList C (withValue (ps.map (resultFor C)) xs), InRegion t t' x := by
    intro ps h0 h t t' l xs hi x hx
    obtain ⟨h1, h2⟩ := hsub ps h0 h
    have hp := ((C15_sequence_partial C ps h1 t t' l).1 _).2 ⟨xs, hi, rfl⟩
    rw [← joinLeaves_sequenceValue] at hx
    rcases joinLeaves_local hl.ctx _ x hx with h | h
    · exact .inl h
    · exact C04_spans_in_consumed_text C _ t t' h1 ht h2 _ _ hp x h
  refine ⟨⟨_, _, hwhole⟩, _, ((C28_join C _ hc ht hl s hs s _).2.1).2 ⟨rfl, .inr ⟨_, s3, hwhole, ?_⟩⟩⟩
  rw [joinLeaves_sequenceValue, joinLeavesList_append]
  have hb0 : before ≠ [] := by
    rintro rfl
    simp [withValue, joinLeavesList, nonEmpty] at hv
  have ha0 : after ≠ [] := by
    rintro rfl
    simp [withValue, joinLeavesList, nonEmpty] at hw
  refine not_contiguous (hregion before hb0 (by simp +contextual) s s1 _ _ hb)
    (hregion after ha0 (by simp +contextual) s2 s3 _ _ ha) ?_ hv hw
  obtain ⟨k, hk⟩ : s2.SuffixOf s1 := by
    rw [partRun, if_pos hq] at hqr
    exact ((Look_good q s1).ok hqr).suffix
  have := hk.size
  rcases hk.start with ⟨rfl, -⟩ | ⟨b, o, h1, h2⟩
  · omega
  · exact ⟨b, o, o + k, h1, h2, by omega⟩

/-- Hence `join(a >> q >> c)` never succeeds, if `q` has no value and always consumes something when it succeeds, and
`a` and `c` always return something not empty. -/
theorem C61_never (a q c : Parser α) (hc : Compiles C (.join (.sequence [a, q, c]))) (ht : C.Typed)
    (hl : SpanLocal C (.sequence [a, q, c])) (hq : resultFor C q = .void)
    (hqc : ∀ s, s.Valid C.mem → ∀ s', Looks C q s [] s' → s'.len < s.len)
    (hav : resultFor C a ≠ .void) (hcv : resultFor C c ≠ .void)
    (ha : ∀ s, s.Valid C.mem → ∀ log v s', Parses C a s log v s' → nonEmpty (joinLeaves C v) ≠ [])
    (hcc : ∀ s, s.Valid C.mem → ∀ log v s', Parses C c s log v s' → nonEmpty (joinLeaves C v) ≠ [])
    (s : Span) (hs : s.Valid C.mem) (log : List Call) (w : Val) (s' : Span) :
    ¬ Parses C (.join (.sequence [a, q, c])) s log w s' := by
  intro h
  have hok := hc.parse
  simp only [parseOK, Bool.and_eq_true] at hok
  have hcs : Compiles C (.sequence [a, q, c]) := ⟨hc.ctx, by simpa [Parser.wf] using hc.wf, hok.1.1, by
    simp only [parseOK, Bool.and_eq_true]; exact hok.1.2⟩
  obtain ⟨v, hv, -⟩ := ((C28_join C _ hc ht hl s hs s' log).1 w).1 h
  obtain ⟨vs, hi, -⟩ := ((C15_sequence_partial C _ hcs s s' log).1 v).1 hv
  cases hi with
  | @cons _ _ _ la va sa _ _ _ h1 hi =>
    cases hi with
    | @cons _ _ _ lq vq sq _ _ _ h2 hi =>
      cases hi with
      | @cons _ _ _ lc vc sc _ _ _ h3 hi =>
        cases hi
        have hsa : sa.Valid C.mem := accept_valid (p := a) hs (by rw [partVerdict, h1]; rfl)
        have hsq : sq.Valid C.mem := accept_valid (p := q) hsa (by rw [partVerdict, h2]; rfl)
        have h1' := h1
        have h3' := h3
        have h2' := h2
        rw [partRun, if_neg hav] at h1'
        rw [partRun, if_pos hq] at h2'
        rw [partRun, if_neg hcv] at h3'
        obtain ⟨rfl, hu⟩ := Look_unit h2'
        simp only [reduceCtorEq, false_and, Option.some.injEq, false_or] at hu
        subst hu
        obtain ⟨-, l, hf⟩ := C61_gap C [a] q [c] hc ht hl hq s sa sq s' hs (la ++ []) [] (lc ++ []) [va] .unit [vc]
          (.cons h1 .nil) h2 (hqc sa hsa sq h2') (.cons h3 .nil)
          (by simpa [withValue, hav, joinLeavesList] using ha s hs _ _ _ h1')
          (by simpa [withValue, hcv, joinLeavesList] using hcc sq hsq _ _ _ h3')
        change ParseFails C (.join (.sequence [a, q, c])) s l s at hf
        rw [Parses, hf] at h
        simp at h

/-- The README's example, for any three literals or character classes that match at least one element: `join` of
`a >> ignore(b) >> c` never succeeds. -/
theorem C61_readme (a b c : Parser α) (ba bb bc : BasicP α) (hba : a.basic? = some ba) (hbb : b.basic? = some bb)
    (hbc : c.basic? = some bc) (hna : ba.length ≠ 0) (hnb : bb.length ≠ 0) (hnc : bc.length ≠ 0)
    (haw : a.wf = true) (hbw : b.wf = true) (hcw : c.wf = true) (hC : C.OK) (ht : C.Typed) (hl : C.Local)
    (s : Span) (hs : s.Valid C.mem) (log : List Call) (w : Val) (s' : Span) :
    ¬ Parses C (.join (.sequence [a, .ignore b, c])) s log w s' := by
  have hty : ∀ {x : Parser α} {bx : BasicP α}, x.basic? = some bx → resultFor C x = .span ∧ tyOK C x = true ∧ parseOK C x = true := by
    intro x bx h
    cases x <;> first | exact ⟨rfl, rfl, rfl⟩ | cases h
  have hval : ∀ {x : Parser α} {bx : BasicP α}, x.basic? = some bx → bx.length ≠ 0 → ∀ s, s.Valid C.mem →
      ∀ log v s', Parses C x s log v s' → nonEmpty (joinLeaves C v) ≠ [] := by
    intro x bx hx hn s hs log v s' h
    rw [Parses, Parse_class hx hs] at h
    split at h
    · cases h; simp [joinLeaves, nonEmpty, hn]
    · cases h
  have hcs : Compiles C (.sequence [a, .ignore b, c]) := by
    rw [C57_sequence C hC]
    refine ⟨by simp, fun p hp => ?_⟩
    simp only [List.mem_cons, List.not_mem_nil, or_false] at hp
    rcases hp with rfl | rfl | rfl
    · exact ⟨haw, (hty hba).2.1, fun _ => (hty hba).2.2, by rw [(hty hba).1]; exact .span⟩
    · exact ⟨hbw, rfl, fun _ => rfl, by rw [resultFor]; exact .void⟩
    · exact ⟨hcw, (hty hbc).2.1, fun _ => (hty hbc).2.2, by rw [(hty hbc).1]; exact .span⟩
  have hr : resultFor C (.sequence [a, .ignore b, c]) = .tup [.span, .span] := by
    rw [C15_type]
    simp only [List.map_cons, List.map_nil, (hty hba).1, (hty hbc).1]
    rw [show resultFor C (.ignore b) = .void by rw [resultFor]]
    rfl
  have hcj : Compiles C (.join (.sequence [a, .ignore b, c])) := by
    refine ⟨hC, by simpa [Parser.wf] using hcs.wf, rfl, ?_⟩
    · simp only [parseOK, Bool.and_eq_true]
      have := hcs.parse
      simp only [parseOK, Bool.and_eq_true] at this
      refine ⟨⟨hcs.ty, this⟩, ?_⟩
      rw [hr]; rfl
  refine C61_never C a (.ignore b) c hcj ht
    (spanLocal_noMap hl ?_) (by rw [resultFor]) ?_ (by rw [(hty hba).1]; nofun)
    (by rw [(hty hbc).1]; nofun) (hval hba hna) (hval hbc hnc) s hs log w s'
  · have hn : ∀ {x : Parser α} {bx : BasicP α}, x.basic? = some bx → everyNode noMapB x = true := by
      intro x bx h
      cases x <;> first | rfl | cases h
    simp [everyNode, everyNodes, noMapB, hn hba, hn hbb, hn hbc]
  · intro s hs s' h
    rw [Looks, Look_ignore, Look_class hbb hs] at h
    split at h
    next hacc =>
      cases h
      have := BasicP.accepts_length hacc
      rw [hs.elems_length] at this
      simp only [Span.drop]
      omega
    next => cases h

end

/-- "a" >> ignore("b") >> "c" on "abc" meets the hypotheses of `C61_gap`. -/
example : ∃ log, ParseFails (Ex.ctx "abc") (.join (.sequence [Ex.all "a", .ignore (Ex.all "b"), Ex.all "c"]))
    (Ex.input "abc") log (Ex.input "abc") := by
  have h := C61_gap (Ex.ctx "abc") [Ex.all "a"] (.ignore (Ex.all "b")) [Ex.all "c"] ⟨Ex.ctx_ok _, rfl, rfl, rfl⟩
    (Ex.ctx_typed _) (spanLocal_noMap (Ex.ctx_local _) rfl) rfl (Ex.input "abc") ⟨.at 0 1, 2⟩ ⟨.at 0 2, 1⟩ ⟨.at 0 3, 0⟩
    (Ex.input_valid _) [] [] [] [.span ⟨.at 0 0, 1⟩] .unit [.span ⟨.at 0 2, 1⟩]
    (.cons (l := []) (log := []) (Ex.parses _ 6 rfl) .nil) (Ex.looks _ 6 rfl) (by decide)
    (.cons (l := []) (log := []) (Ex.parses _ 6 rfl) .nil) (by decide) (by decide)
  exact h.2

/-- The README's example itself. -/
example (s : Span) (hs : s.Valid (Ex.ctx "abc").mem) (log : List Call) (w : Val) (s' : Span) :
    ¬ Parses (Ex.ctx "abc") (.join (.sequence [Ex.any "xyz", .ignore (Ex.any "xyz"), Ex.any "xyz"])) s log w s' :=
  C61_readme _ _ _ _ _ _ _ rfl rfl rfl (by decide) (by decide) (by decide) rfl rfl rfl (Ex.ctx_ok _) (Ex.ctx_typed _)
    (Ex.ctx_local _) s hs log w s'

end Tok3n
