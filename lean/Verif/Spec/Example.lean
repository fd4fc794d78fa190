import Verif.Proof.Typing
import Verif.Proof.Agree
/-
A concrete context, used to show that the hypotheses of the theorems are met by
non-trivial parsers, inputs and callbacks.
-/

namespace Tok3n.Ex

/-- the code points of a string -/
abbrev str (x : String) : List Nat := x.toList.map Char.toNat

/-- `"..."_all` -/
abbrev all (x : String) : Parser Nat := .allOf (str x)
/-- `"..."_any`, for strings that are already sorted -/
abbrev any (x : String) : Parser Nat := .anyOf (str x)
/-- `"..."_none`, for strings that are already sorted -/
abbrev none (x : String) : Parser Nat := .noneOf (str x)

/-- Characters as numbers, two arrays in memory (`text` and a buffer of three `x`).
Callbacks: 0 wraps its arguments in a `user 0`, 1 returns true (`user 1`, tag 1), 2
returns false, 3 throws the exception 7, 4 returns a span of the buffer.
`user 3` is a type made from a span and convertible back (like `std::string_view`).
Custom parser 0 is `"(" >> ~custom 0 >> ")"`, with a declared result type `user 2`
converted from a tuple; the other custom parsers have the type of their body. -/
def ctx (text : String) : Ctx Nat Nat where
  eqv := (· == ·)
  mem := fun b => if b = 0 then str text else [120, 120, 120]
  toolchain := .gnuRuntime
  relaxedTtp := true
  ptrEq := fun _ _ => false
  fnRet := fun k ts => match k with
    | 0 => some (.user 0)
    | 1 => some (.user 1)
    | 2 => some (.user 1)
    | 3 => some (.user 0)
    | _ => if ts = [.span] then some .span else Option.none
  fnCall := fun k vs => match k with
    | 0 => .ok (.user 0 0 vs)
    | 1 => .ok (.user 1 1 [])
    | 2 => .ok (.user 1 0 [])
    | 3 => .error 7
    | _ => .ok (.span ⟨.at 1 0, 3⟩)
  constTy := fun k => .user k
  constVal := fun k => .user k 0 []
  ctorOk := fun t ts => t == .user 3 && ts == [.span]
  ctor := fun _ vs => .ok (.user 3 0 vs)
  userDefault := fun k => some (.user k 0 [])
  conv := fun src dst =>
    if src = .tup [.span, .opt (.user 2), .span] ∧ dst = .user 2 then some (fun v => .user 2 0 [v])
    else Option.none
  convOpt := fun src dst => if src = .user 0 ∧ dst = .user 1 then some (fun _ => .user 1 0 []) else Option.none
  userSpan := fun k => if k = 3 then some (fun v => v.spans.headD Span.default) else Option.none
  boolTy := fun t => t == .user 1
  truthy := fun v => match v with | .user 1 1 _ => true | _ => false
  custom := fun k => match k with
    | 0 => ⟨.sequence [.allOf (str "("), .maybe (.custom 0), .allOf (str ")")], true, .user 2⟩
    | _ => ⟨.allOf (str "x"), false, .span⟩

/-- the whole text -/
def input (text : String) : Span := ⟨.at 0 0, (str text).length⟩

theorem input_valid (text : String) : (input text).Valid (ctx text).mem := by
  show 0 + _ ≤ _
  simp [ctx, input]

theorem ctx_ok (text : String) : (ctx text).OK := by
  refine ⟨fun k => ?_, fun k => ?_, fun k => ?_, fun k => ?_⟩
  · match k with
    | 0 => rfl
    | _ + 1 => rfl
  · match k with
    | 0 => rfl
    | _ + 1 => rfl
  · match k with
    | 0 => rfl
    | _ + 1 => rfl
  · match k with
    | 0 => nofun
    | _ + 1 => exact fun _ => rfl

theorem ctx_typed (text : String) : (ctx text).Typed := by
  refine ⟨?_, fun k => ⟨0, [], rfl⟩, ?_, ?_, ?_, ?_⟩
  · intro k ts t args v h1 h2 h3
    match k with
    | 0 => cases h1; cases h3; exact ⟨_, _, rfl⟩
    | 1 => cases h1; cases h3; exact ⟨_, _, rfl⟩
    | 2 => cases h1; cases h3; exact ⟨_, _, rfl⟩
    | 3 => cases h3
    | n + 4 =>
      simp only [ctx, Option.ite_none_right_eq_some, Option.some.injEq] at h1
      obtain ⟨-, rfl⟩ := h1
      cases h3; exact ⟨_, rfl⟩
  · intro t ts args v h1 h2 h3
    simp only [ctx, Bool.and_eq_true, beq_iff_eq] at h1
    rw [h1.1]; cases h3; exact ⟨_, _, rfl⟩
  · rintro k v ⟨⟩; exact ⟨_, _, rfl⟩
  · intro src dst f v h1 h2
    simp only [ctx, Option.ite_none_right_eq_some, Option.some.injEq] at h1
    obtain ⟨⟨-, rfl⟩, rfl⟩ := h1
    exact ⟨_, _, rfl⟩
  · intro src dst f o h1 h2
    simp only [ctx, Option.ite_none_right_eq_some, Option.some.injEq] at h1
    obtain ⟨⟨-, rfl⟩, rfl⟩ := h1
    exact ⟨_, _, rfl⟩

theorem ctx_local (text : String) : (ctx text).Local := by
  refine ⟨?_, ?_, ?_, ?_⟩
  · intro src dst f v h
    simp only [ctx, Option.ite_none_right_eq_some, Option.some.injEq] at h
    obtain ⟨-, rfl⟩ := h
    intro t ht
    right
    simpa [Val.spans, spansList] using ht
  · intro src dst f o h
    simp only [ctx, Option.ite_none_right_eq_some, Option.some.injEq] at h
    obtain ⟨-, rfl⟩ := h
    intro t ht
    simp [Val.spans, spansList] at ht
  · rintro k v ⟨⟩ t ht
    simp [Val.spans, spansList] at ht
  · intro k f v h
    simp only [ctx, Option.ite_none_right_eq_some, Option.some.injEq] at h
    obtain ⟨-, rfl⟩ := h
    cases hs : v.spans with
    | nil => exact .inl (by simp [hs])
    | cons x xs => exact .inr (by simp [hs])

theorem ctx_plain {text : String} (k : Nat) : plainB ((ctx text).custom k).body = true ∧ ¬ Pretends (ctx text) k := by
  match k with
  | 0 => exact ⟨rfl, fun h => absurd h.2 (show ¬ (false = true) by decide)⟩
  | _ + 1 => exact ⟨rfl, fun h => h.1 rfl⟩

/-- callbacks 0 and 1 invent no spans, callback 4 does -/
theorem local0 (text : String) : FnLocal (ctx text) (.user 0) := by
  rintro args log v h t ht
  cases h
  simp only [Val.spans] at ht
  exact .inr (mem_spansList.1 ht)

theorem not_local4 (text : String) : ¬ FnLocal (ctx text) (.user 4) := by
  intro h
  have := h [] _ _ rfl ⟨.at 1 0, 3⟩ (by simp [Val.spans])
  simp [Span.default] at this

/-- evaluate a run: enough fuel -/
theorem parses (C : Ctx α β) {p : Parser α} {s : Span} {l r} (n : Nat)
    (h : (sem C n p).parse s = .done l r) : Parse C p s = .done l r := Parse_eq_done.2 ⟨n, h⟩
theorem looks (C : Ctx α β) {p : Parser α} {s : Span} {l r} (n : Nat)
    (h : (sem C n p).look s = .done l r) : Look C p s = .done l r := Look_eq_done.2 ⟨n, h⟩

example : Parses (ctx "(())x") (.custom 0) (input "(())x") []
    (.user 2 0 [.tup [.span ⟨.at 0 0, 1⟩,
      .opt (some (.user 2 0 [.tup [.span ⟨.at 0 1, 1⟩, .opt Option.none, .span ⟨.at 0 2, 1⟩]])),
      .span ⟨.at 0 3, 1⟩]])
    ⟨.at 0 4, 1⟩ := parses _ 9 rfl

end Tok3n.Ex
