import Verif.Spec.Algebraic
import Verif.Proof.JsonParts
/-
The algebraic example: its parsers in normal form, and what numbers and operators parse.
-/

namespace Tok3n.Algebraic

open Json (Ws Digit Digits Fraction digitClass mem_digit ws_iff mem_ws digits_iff)

abbrev wsP : Parser Nat := .ignore (.zeroOrMore (.anyOf [9, 10, 13, 32]))
abbrev digitsP : Parser Nat := .oneOrMore (.anyOf digitClass)
abbrev integerP : Parser Nat := .join digitsP
abbrev fractionP : Parser Nat := .join (.sequence [.ignore (.allOf [46]), digitsP])
abbrev powerP : Parser Nat := .sequence [.maybe (.allOf [45]), digitsP]
abbrev exponentP : Parser Nat := .join (.sequence [.ignore (.anyOf [69, 101]), .maybe (.allOf [45]), digitsP])
abbrev numberParts : List (Parser Nat) := [integerP, .maybe fractionP, .maybe exponentP]
/-- one of the characters, after white space -/
abbrev opP (l : List Nat) : Parser Nat := .sequence [wsP, .map (.anyOf l) (.construct (.user 1))]
/-- an operand, after white space -/
abbrev argP (k : Nat) : Parser Nat := .sequence [wsP, .custom k]
abbrev parenP : Parser Nat :=
  .map (.sequence [.ignore (.allOf [40]), wsP, .custom 4, wsP, .ignore (.allOf [41])]) (.construct (.user 3))
abbrev negP : Parser Nat := .map (.sequence [.ignore (.allOf [45]), wsP, .custom 4]) (.construct (.user 4))

theorem numberBody_eq : numberBody = .map (.sequence numberParts) (.apply (.construct (.user 0))) := rfl
theorem factorBody_eq : factorBody = .delimit (argP 1) (.ignore (opP [94])) := rfl
theorem termBody_eq : termBody = .delimit (argP 2) (opP [42, 47]) := rfl
theorem exprBody_eq : exprBody = .delimit (argP 3) (opP [43, 45]) := rfl
theorem powtermBody_eq : powtermBody = .map (.choice [parenP, negP, .custom 0]) (.construct (.user 2)) := rfl
theorem inputBody_eq : inputBody = .complete (.sequence [wsP, .custom 4, wsP]) := rfl

variable {m : Machine} {s s' : Span} {w : Val}

/-! ### The context -/

theorem ctx_ok : (ctx m).OK := by
  refine ⟨fun k => ?_, fun k => ?_, fun k => ?_, fun k hk => ?_⟩ <;>
  match k with
  | 0 =>
    first
    | (simp [ctx] at hk; done)
    | (show _ = true; simp only [ctx, numberBody_eq]; rfl)
  | 1 =>
    first
    | (simp [ctx] at hk; done)
    | (show _ = true; simp only [ctx, powtermBody_eq]; rfl)
  | 2 =>
    first
    | (simp [ctx] at hk; done)
    | (show _ = true; simp only [ctx, factorBody_eq]; rfl)
  | 3 =>
    first
    | (simp [ctx] at hk; done)
    | (show _ = true; simp only [ctx, termBody_eq]; rfl)
  | 4 =>
    first
    | (simp [ctx] at hk; done)
    | (show _ = true; simp only [ctx, exprBody_eq]; rfl)
  | 5 =>
    first
    | (show _ = true; simp only [ctx, inputBody_eq]; rfl)
    | (show ((ctx m).custom 5).ty = _; simp only [ctx, inputBody_eq]; rfl)
  | _ + 6 => rfl

theorem ctx_throws (c : Call) : (ctx m).throws c = none := by
  obtain ⟨f, args⟩ := c
  cases f with
  | construct t =>
    simp only [Ctx.throws, ctx]
    split
    · rename_i h
      split at h <;> cases h
    · rfl
  | _ => rfl

theorem ctx_typed : (ctx m).Typed where
  fn := by intro k ts t args v h; simp [ctx] at h
  const k := ⟨0, [], rfl⟩
  ctor := by
    intro t ts args v h hT hv
    simp only [ctx, Bool.or_eq_true, Bool.and_eq_true, beq_iff_eq] at h
    rcases h with (((⟨rfl, rfl⟩ | ⟨rfl, rfl⟩) | ⟨rfl, rfl⟩) | ⟨rfl, rfl⟩) | ⟨rfl, rfl⟩ <;>
      (simp only [ctx, Except.ok.injEq] at hv; subst hv; exact ⟨0, _, rfl⟩)
  dflt := by intro k v h; simp only [ctx, Option.some.injEq] at h; subst h; exact ⟨0, [], rfl⟩
  conv := by intro src dst f v h hv; simp [ctx] at h
  convOpt := by intro src dst f o h hv; simp [ctx] at h

theorem ctx_local : (ctx m).Local where
  conv := by intro src dst f v h t ht; simp [ctx] at h
  convOpt := by intro src dst f o h; simp [ctx] at h
  dflt := by
    intro k v h t ht
    simp only [ctx, Option.some.injEq] at h; subst h; simp [Val.spans, spansList] at ht
  toSpan := by intro k f v h; simp [ctx] at h

theorem ctx_eqv : (ctx m).eqv = (· == ·) := rfl

/-! ### White space and operators -/

theorem see_ws (hs : s.Valid m.mem) : See (ctx m) wsP s s' ↔
    ∃ a, Reads m.mem s a s' ∧ Ws a ∧ ∀ c ∈ (s'.elems m.mem).head?, ¬ Ws [c] := by
  simp only [Lexical.see_many (C := ctx m) ctx_eqv hs, ws_iff, List.mem_singleton, forall_eq]; rfl

/-- the white space at the front of a text -/
theorem split_ws (xs : List Nat) : ∃ a z, xs = a ++ z ∧ Ws a ∧ ∀ c ∈ z.head?, ¬ Ws [c] := by
  induction xs with
  | nil => exact ⟨[], [], rfl, by simp [Ws], by simp⟩
  | cons c xs ih =>
    by_cases hc : Ws [c]
    · obtain ⟨a, z, rfl, ha, hz⟩ := ih
      refine ⟨c :: a, z, rfl, ?_, hz⟩
      intro d hd
      rcases List.mem_cons.1 hd with rfl | hd
      · exact hc d (by simp)
      · exact ha d hd
    · refine ⟨[], c :: xs, rfl, by simp [Ws], ?_⟩
      intro d hd
      simp at hd; subst hd; exact hc

/-- it is read -/
theorem ws_reads (hs : s.Valid m.mem) : ∃ a s', See (ctx m) wsP s s' ∧ Reads m.mem s a s' ∧ Ws a ∧
    ∀ c ∈ (s'.elems m.mem).head?, ¬ Ws [c] := by
  obtain ⟨a, z, e, ha, hz⟩ := split_ws (s.elems m.mem)
  have r := Reads.of_text hs e
  have e' := r.text
  rw [e, List.append_cancel_left_eq] at e'
  rw [e'] at hz
  exact ⟨_, _, (see_ws hs).2 ⟨_, r, ha, hz⟩, r, ha, hz⟩

theorem view_ok {l : List Nat} (hs : s.Valid m.mem) : Ok (ctx m) (.map (.anyOf l) (.construct (.user 1))) s w s' ↔
    ∃ c ∈ l, Reads m.mem s [c] s' ∧ w = .user 1 0 [.span ⟨s.ptr, 1⟩] := by
  rw [ok_map (by nofun) (by nofun)]
  have e : ∀ v, invoke (ctx m) (.construct (.user 1)) [v] = .done [⟨.construct (.user 1), [v]⟩] (.ok (.user 1 0 [v])) :=
    fun _ => rfl
  simp only [e, Lexical.ok_any (C := ctx m) ctx_eqv hs]
  constructor
  · rintro ⟨v, ⟨c, hc, r, rfl⟩, l, h⟩
    simp at h
    exact ⟨c, hc, r, h.2.symm⟩
  · rintro ⟨c, hc, r, rfl⟩
    exact ⟨_, ⟨c, hc, r, rfl⟩, _, rfl⟩

theorem _root_.Tok3n.Reads.span_valid {mem : Mem Nat} {x : List Nat} (r : Reads mem s x s') (hs : s.Valid mem) :
    (⟨s.ptr, x.length⟩ : Span).Valid mem := by
  have := r.le
  unfold Span.Valid at hs ⊢
  cases hp : s.ptr with
  | null => rw [hp] at hs; simp only at hs ⊢; omega
  | «at» b o => rw [hp] at hs; simp only at hs ⊢; omega

theorem op_split {l : List Nat} (hs : s.Valid m.mem) : Ok (ctx m) (opP l) s w s' ↔
    ∃ s1, See (ctx m) wsP s s1 ∧ ∃ c ∈ l, Reads m.mem s1 [c] s' ∧ w = .user 1 0 [.span ⟨s1.ptr, 1⟩] := by
  rw [ok_sequence rfl]
  simp only [seqOk_skip (C := ctx m) (p := wsP) rfl,
    seqOk_take (C := ctx m) (p := .map (.anyOf l) (.construct (.user 1))) (by nofun), seqOk_nil]
  constructor
  · rintro ⟨_, ⟨s1, h1, v, s2, _, h2, ⟨rfl, rfl⟩, rfl⟩, rfl⟩
    exact ⟨s1, h1, (view_ok (h1.suffix.valid hs)).1 h2⟩
  · rintro ⟨s1, h1, h2⟩
    exact ⟨_, ⟨s1, h1, _, _, _, (view_ok (h1.suffix.valid hs)).2 h2, ⟨rfl, rfl⟩, rfl⟩, rfl⟩

theorem op_ok {l : List Nat} (hs : s.Valid m.mem) (h : Ok (ctx m) (opP l) s w s') :
    ∃ a, ∃ c ∈ l, Reads m.mem s (a ++ [c]) s' ∧ Ws a ∧ RepChar m.mem w c := by
  obtain ⟨s1, h1, c, hc, r, rfl⟩ := (op_split hs).1 h
  obtain ⟨a, ra, ha, -⟩ := (see_ws hs).1 h1
  exact ⟨a, c, hc, ra.trans r, ha, .mk (r.span_valid (ra.valid hs)) r.elems⟩

end Tok3n.Algebraic
