import Verif.Props.Json
import Verif.Props.Algebraic
import Verif.Props.Trim
/-
C30: in the examples, `lookahead` tells what `parse` does.
-/

namespace Tok3n

namespace Json

/-- In the JSON example, `lookahead` of each parser, and of each part of it, tells what its `parse` does. -/
theorem C30_lookahead_tells (m : Machine) (p : Parser Nat) (hp : p ∈ [jsonValue, jsonObject, jsonArray, string, number]) :
    NeverOverrules (ctx m) p ∧ ∀ q, ParseReach (ctx m) p q → LookaheadTells (ctx m) q := by
  have hb : ∀ k, everyNode (tellsB (ctx m)) ((ctx m).custom k).body = true := by
    intro k
    match k with
    | 0 =>
      show everyNode _ valueBody = true
      rw [valueBody_eq, number_eq, string_eq, chars, validChar_eq, integer_eq, fraction_eq, exponent_eq]; rfl
    | 1 =>
      show everyNode _ objectBody = true
      rw [objectBody_eq, pair_eq, chars, validChar_eq]; rfl
    | 2 =>
      show everyNode _ arrayBody = true
      rw [arrayBody_eq]; rfl
    | _ + 3 => rfl
  refine C30_lookahead_checked (ctx m) p ctx_ok ctx_typed ctx_local hb ?_
  simp only [List.mem_cons, List.not_mem_nil, or_false] at hp
  rcases hp with rfl | rfl | rfl | rfl | rfl
  · rfl
  · rfl
  · rfl
  all_goals
    have h : everyNode (tellsB (ctx m)) valueBody = true := hb 0
    rw [valueBody_eq, everyNode, Bool.and_eq_true] at h
    have h := everyNodes_mem h.2 _ (List.mem_cons_of_mem _ List.mem_cons_self)
    rw [everyNode, Bool.and_eq_true] at h
    refine everyNodes_mem h.2 _ ?_
    simp

end Json

namespace Algebraic

/-- In the algebraic example, `lookahead` of each parser, and of each part of it, tells what its `parse` does. -/
theorem C30_lookahead_tells (m : Machine) (p : Parser Nat) (hp : p ∈ [number, powterm, factor, term, expr, input]) :
    NeverOverrules (ctx m) p ∧ ∀ q, ParseReach (ctx m) p q → LookaheadTells (ctx m) q := by
  have hb : ∀ k, everyNode (tellsB (ctx m)) ((ctx m).custom k).body = true := by
    intro k
    match k with
    | 0 => show everyNode _ numberBody = true; rw [numberBody_eq]; rfl
    | 1 => show everyNode _ powtermBody = true; rw [powtermBody_eq]; rfl
    | 2 => show everyNode _ factorBody = true; rw [factorBody_eq]; rfl
    | 3 => show everyNode _ termBody = true; rw [termBody_eq]; rfl
    | 4 => show everyNode _ exprBody = true; rw [exprBody_eq]; rfl
    | 5 => show everyNode _ inputBody = true; rw [inputBody_eq]; rfl
    | _ + 6 => rfl
  refine C30_lookahead_checked (ctx m) p ctx_ok ctx_typed ctx_local hb ?_
  simp only [List.mem_cons, List.not_mem_nil, or_false] at hp
  rcases hp with rfl | rfl | rfl | rfl | rfl | rfl <;> rfl

end Algebraic

end Tok3n
