import Verif.Spec.Default
/-
`T value{}` is what the model computes.
-/

namespace Tok3n

variable {α β : Type}

mutual
theorem isDefault_iff (C : Ctx α β) : (t : Ty) → (v : Val) → (IsDefault C t v ↔ defaultVal C t = some v)
  | .void, v => ⟨fun h => by cases h; rfl, fun h => by cases h; exact .void⟩
  | .span, v => ⟨fun h => by cases h; rfl, fun h => by cases h; exact .span⟩
  | .vec t, v => ⟨fun h => by cases h; rfl, fun h => by cases h; exact .vec⟩
  | .opt t, v => ⟨fun h => by cases h; rfl, fun h => by cases h; exact .opt⟩
  | .arr t n, v => by
    simp only [defaultVal, Option.map_eq_some_iff, ← isDefault_iff C t]
    exact ⟨fun h => by cases h with | arr h => exact ⟨_, h, rfl⟩, fun ⟨_, h, e⟩ => e ▸ .arr h⟩
  | .pair a b, v => by
    constructor
    · intro h
      cases h with
      | pair h h' => simp [defaultVal, (isDefault_iff C a _).1 h, (isDefault_iff C b _).1 h']
    · intro h
      simp only [defaultVal] at h
      split at h
      · next x y hx hy => cases h; exact .pair ((isDefault_iff C a _).2 hx) ((isDefault_iff C b _).2 hy)
      · cases h
  | .tup ts, v => by
    simp only [defaultVal, Option.map_eq_some_iff, ← areDefault_iff C ts]
    exact ⟨fun h => by cases h with | tup h => exact ⟨_, h, rfl⟩, fun ⟨_, h, e⟩ => e ▸ .tup h⟩
  | .var [], v => by
    constructor
    · intro h; nomatch h
    · intro h; simp [defaultVal, defaultHead] at h
  | .var (t :: ts), v => by
    simp only [defaultVal, defaultHead, Option.map_eq_some_iff, ← isDefault_iff C t]
    exact ⟨fun h => by cases h with | var h => exact ⟨_, h, rfl⟩, fun ⟨_, h, e⟩ => e ▸ .var h⟩
  | .user k, v => ⟨fun h => by cases h with | user h => exact h, .user⟩
theorem areDefault_iff (C : Ctx α β) : (ts : List Ty) → (vs : List Val) →
    (AreDefault C ts vs ↔ defaultVals C ts = some vs)
  | [], vs => ⟨fun h => by cases h; rfl, fun h => by cases h; exact .nil⟩
  | t :: ts, vs => by
    constructor
    · intro h
      cases h with
      | cons h h' => simp [defaultVals, (isDefault_iff C t _).1 h, (areDefault_iff C ts _).1 h']
    · intro h
      simp only [defaultVals] at h
      split at h
      · next x y hx hy => cases h; exact .cons ((isDefault_iff C t _).2 hx) ((areDefault_iff C ts _).2 hy)
      · cases h
end

end Tok3n
