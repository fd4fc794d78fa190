import Verif.Proof.Means
import Verif.Proof.Cut
/-
What a text means does not depend on what comes behind it (C87).
-/

namespace Tok3n

variable {α β : Type} {C : Ctx α β}

/-- `t` goes on from `t'` as `s` from `s'`, with the same consumed -/
def Besides (s s' t t' : Span) : Prop := t'.ptr = s'.ptr ∧ t.len + s'.len = s.len + t'.len

theorem take_besides {s t : Span} {k : Nat} (hs : s.Valid C.mem) (ht : t.Valid C.mem) (e : t.ptr = s.ptr) (hk : k ≤ s.len)
    (hk' : k ≤ t.len) : (t.elems C.mem).take k = (s.elems C.mem).take k := by
  obtain ⟨p, n⟩ := s
  obtain ⟨q, m⟩ := t
  cases e
  cases p with
  | null => rfl
  | «at» b o =>
    simp only [Span.elems, List.take_take] at hk hk' ⊢
    rw [Nat.min_eq_left hk, Nat.min_eq_left hk']

theorem advanced_besides {s s' t : Span} {k : Nat} (e : t.ptr = s.ptr) (hk : s.Advanced k s') (hr : s.len ≤ t.len + s'.len) :
    k ≤ t.len ∧ t.Advanced k ⟨s'.ptr, t.len - k⟩ ∧ Besides s s' t ⟨s'.ptr, t.len - k⟩ := by
  have h1 := hk.size
  refine ⟨by omega, ⟨by simp only; omega, ?_⟩, rfl, by simp only; omega⟩
  rw [e]
  exact hk.start

theorem WordFrom.besides {p : Parser α} {s s' t : Span} (h : WordFrom C p s s') (hs : s.Valid C.mem) (ht : t.Valid C.mem)
    (e : t.ptr = s.ptr) (hr : s.len ≤ t.len + s'.len) : ∃ t', WordFrom C p t t' ∧ Besides s s' t t' := by
  obtain ⟨k, ha, hw⟩ := h
  obtain ⟨h1, h2, h3⟩ := advanced_besides e ha hr
  exact ⟨_, ⟨k, h2, by rw [take_besides hs ht e ha.le h1]; exact hw⟩, h3⟩

theorem Besides.room {s s1 s' t t1 : Span} (h : Besides s s1 t t1) (hr : s.len ≤ t.len + s'.len) : s1.len ≤ t1.len + s'.len := by
  have := h.2
  omega

theorem Besides.trans {s s1 s' t t1 t' : Span} (h : Besides s s1 t t1) (h' : Besides s1 s' t1 t') : Besides s s' t t' := by
  refine ⟨h'.1, ?_⟩
  have := h.2
  have := h'.2
  omega

theorem Strides.len {P : List β → Prop} {s s' : Span} (h : Strides C P s s') : s'.len ≤ s.len := by
  obtain ⟨k, ha, -⟩ := h
  have := ha.size
  omega

mutual
theorem Means.besides : ∀ {p : Parser α} {s v s'}, Means C p s v s' → ∀ t : Span, s.Valid C.mem → t.Valid C.mem →
    t.ptr = s.ptr → s.len ≤ t.len + s'.len → ∃ t', Means C p t v t' ∧ Besides s s' t t'
  | _, s, _, s', .basic (k := k) hb hm ha, t, hs, ht, e, hr => by
    obtain ⟨h1, h2, h3⟩ := advanced_besides e ha hr
    have hm' := matches_take.2 ⟨hm, Nat.le_refl k⟩
    rw [← take_besides hs ht e ha.le h1] at hm'
    refine ⟨_, ?_, h3⟩
    rw [← e]
    exact .basic hb (matches_take.1 hm').1 h2
  | _, _, _, _, .epsilon, t, _, _, e, _ => ⟨t, .epsilon, e, by omega⟩
  | _, _, _, _, .choice hi hd h, t, hs, ht, e, hr => by
    obtain ⟨t', h', hb⟩ := h.besides t hs ht e hr
    exact ⟨t', .choice hi hd h', hb⟩
  | _, _, _, _, .sequence h, t, hs, ht, e, hr => by
    obtain ⟨t', h', hb⟩ := h.besides t hs ht e hr
    exact ⟨t', .sequence h', hb⟩
  | _, _, _, _, .maybe h, t, hs, ht, e, hr => by
    obtain ⟨t', h', hb⟩ := h.besides t hs ht e hr
    exact ⟨t', .maybe h', hb⟩
  | _, _, _, _, .maybeNot, t, _, _, e, _ => ⟨t, .maybeNot, e, by omega⟩
  | _, _, _, _, .exactly h, t, hs, ht, e, hr => by
    obtain ⟨t', h', hb⟩ := h.besides t hs ht e hr
    exact ⟨t', .exactly h', hb⟩
  | _, _, _, _, .zeroOrMore h, t, hs, ht, e, hr => by
    obtain ⟨t', h', hb⟩ := h.besides t hs ht e hr
    exact ⟨t', .zeroOrMore h', hb⟩
  | _, _, _, _, .oneOrMore h h2, t, hs, ht, e, hr => by
    obtain ⟨t1, h', hb⟩ := h.besides t hs ht e (by have := h2.strides.len; omega)
    obtain ⟨t', h2', hb'⟩ := h2.besides t1 (h.strides.valid hs) (h'.strides.valid ht) hb.1 (hb.room hr)
    exact ⟨t', .oneOrMore h' h2', hb.trans hb'⟩
  | _, _, _, _, .delimit h h2, t, hs, ht, e, hr => by
    obtain ⟨t1, h', hb⟩ := h.besides t hs ht e (by have := h2.strides.len; omega)
    obtain ⟨t', h2', hb'⟩ := h2.besides t1 (h.strides.valid hs) (h'.strides.valid ht) hb.1 (hb.room hr)
    exact ⟨t', .delimit h' h2', hb.trans hb'⟩
  | _, _, _, _, .ignore h, t, hs, ht, e, hr => by
    obtain ⟨t', h', hb⟩ := h.besides hs ht e hr
    exact ⟨t', .ignore h', hb⟩
  | _, _, _, _, .complete h, t, hs, ht, e, hr => by
    obtain ⟨t', h', hb⟩ := h.besides t hs ht e hr
    exact ⟨t', .complete h', hb⟩
  | _, _, _, _, .join (s' := s') (v := v) h hc, t, hs, ht, e, hr => by
    obtain ⟨t', h', hb⟩ := h.besides t hs ht e hr
    refine ⟨t', ?_, hb⟩
    have e' : cover s' (nonEmpty (joinLeaves C v)) = cover t' (nonEmpty (joinLeaves C v)) := by
      unfold cover
      split
      · rw [hb.1]
      · rfl
    rw [e']
    exact .join h' hc
  | _, _, _, _, .map h hi, t, hs, ht, e, hr => by
    obtain ⟨t', h', hb⟩ := h.besides t hs ht e hr
    exact ⟨t', .map h' hi, hb⟩
  | _, _, _, _, .filter h hi hx, t, hs, ht, e, hr => by
    obtain ⟨t', h', hb⟩ := h.besides t hs ht e hr
    exact ⟨t', .filter h' hi hx, hb⟩
  | _, _, _, _, .named h, t, hs, ht, e, hr => by
    obtain ⟨t', h', hb⟩ := h.besides t hs ht e hr
    exact ⟨t', .named h', hb⟩
  | _, _, _, _, .custom h, t, hs, ht, e, hr => by
    obtain ⟨t', h', hb⟩ := h.besides t hs ht e hr
    exact ⟨t', .custom h', hb⟩
theorem MeansAny.besides : ∀ {us d} {ps : List (Parser α)} {is s v s'}, MeansAny C us d ps is s v s' → ∀ t : Span,
    s.Valid C.mem → t.Valid C.mem → t.ptr = s.ptr → s.len ≤ t.len + s'.len →
    ∃ t', MeansAny C us d ps is t v t' ∧ Besides s s' t t'
  | _, _, _, _, _, _, _, .void h, t, hs, ht, e, hr => by
    obtain ⟨t', h', hb⟩ := h.besides hs ht e hr
    exact ⟨t', .void h', hb⟩
  | _, _, _, _, _, _, _, .value h, t, hs, ht, e, hr => by
    obtain ⟨t', h', hb⟩ := h.besides t hs ht e hr
    exact ⟨t', .value h', hb⟩
  | _, _, _, _, _, _, _, .later h, t, hs, ht, e, hr => by
    obtain ⟨t', h', hb⟩ := h.besides t hs ht e hr
    exact ⟨t', .later h', hb⟩
theorem MeansParts.besides : ∀ {ps : List (Parser α)} {s vs s'}, MeansParts C ps s vs s' → ∀ t : Span,
    s.Valid C.mem → t.Valid C.mem → t.ptr = s.ptr → s.len ≤ t.len + s'.len →
    ∃ t', MeansParts C ps t vs t' ∧ Besides s s' t t'
  | _, _, _, _, .nil, t, _, _, e, _ => ⟨t, .nil, e, by omega⟩
  | _, _, _, _, .value hv h h2, t, hs, ht, e, hr => by
    obtain ⟨t1, h', hb⟩ := h.besides t hs ht e (by have := h2.strides.len; omega)
    obtain ⟨t', h2', hb'⟩ := h2.besides t1 (h.strides.valid hs) (h'.strides.valid ht) hb.1 (hb.room hr)
    exact ⟨t', .value hv h' h2', hb.trans hb'⟩
  | _, _, _, _, .void hv h h2, t, hs, ht, e, hr => by
    obtain ⟨t1, h', hb⟩ := h.besides hs ht e (by have := h2.strides.len; omega)
    obtain ⟨t', h2', hb'⟩ := h2.besides t1 (Strides.valid h hs) (Strides.valid h' ht) hb.1 (hb.room hr)
    exact ⟨t', .void hv h' h2', hb.trans hb'⟩
theorem MeansTimes.besides : ∀ {p : Parser α} {n s vs s'}, MeansTimes C p n s vs s' → ∀ t : Span,
    s.Valid C.mem → t.Valid C.mem → t.ptr = s.ptr → s.len ≤ t.len + s'.len →
    ∃ t', MeansTimes C p n t vs t' ∧ Besides s s' t t'
  | _, _, _, _, _, .zero, t, _, _, e, _ => ⟨t, .zero, e, by omega⟩
  | _, _, _, _, _, .more h h2, t, hs, ht, e, hr => by
    obtain ⟨t1, h', hb⟩ := h.besides t hs ht e (by have := h2.strides.len; omega)
    obtain ⟨t', h2', hb'⟩ := h2.besides t1 (h.strides.valid hs) (h'.strides.valid ht) hb.1 (hb.room hr)
    exact ⟨t', .more h' h2', hb.trans hb'⟩
theorem MeansMany.besides : ∀ {p : Parser α} {s vs s'}, MeansMany C p s vs s' → ∀ t : Span,
    s.Valid C.mem → t.Valid C.mem → t.ptr = s.ptr → s.len ≤ t.len + s'.len →
    ∃ t', MeansMany C p t vs t' ∧ Besides s s' t t'
  | _, _, _, _, .over, t, _, _, e, _ => ⟨t, .over, e, by omega⟩
  | _, _, _, _, .more h h2, t, hs, ht, e, hr => by
    obtain ⟨t1, h', hb⟩ := h.besides t hs ht e (by have := h2.strides.len; omega)
    obtain ⟨t', h2', hb'⟩ := h2.besides t1 (h.strides.valid hs) (h'.strides.valid ht) hb.1 (hb.room hr)
    exact ⟨t', .more h' h2', hb.trans hb'⟩
theorem MeansPairs.besides : ∀ {d p : Parser α} {s xs s'}, MeansPairs C d p s xs s' → ∀ t : Span,
    s.Valid C.mem → t.Valid C.mem → t.ptr = s.ptr → s.len ≤ t.len + s'.len →
    ∃ t', MeansPairs C d p t xs t' ∧ Besides s s' t t'
  | _, _, _, _, _, .over, t, _, _, e, _ => ⟨t, .over, e, by omega⟩
  | _, _, _, _, _, .more h h2 h3, t, hs, ht, e, hr => by
    have := h2.strides.len
    have := h3.strides.len
    obtain ⟨t1, h', hb⟩ := h.besides t hs ht e (by omega)
    obtain ⟨t2, h2', hb'⟩ := h2.besides t1 (h.strides.valid hs) (h'.strides.valid ht) hb.1 (hb.room (by omega))
    obtain ⟨t', h3', hb''⟩ := h3.besides t2 (h2.strides.valid (h.strides.valid hs)) (h2'.strides.valid (h'.strides.valid ht)) hb'.1
      ((hb.trans hb').room hr)
    exact ⟨t', .more h' h2' h3', (hb.trans hb').trans hb''⟩
end

end Tok3n
