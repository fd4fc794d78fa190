import Verif.Model.TypeLevel
/-
Default constructed values.
-/

namespace Tok3n

variable {α β : Type}

mutual
/-- The value of `T value{}`. -/
inductive IsDefault (C : Ctx α β) : Ty → Val → Prop where
  | void : IsDefault C .void .unit
  | span : IsDefault C .span (.span ⟨.null, 0⟩)
  | vec {t} : IsDefault C (.vec t) (.vec [])
  | opt {t} : IsDefault C (.opt t) (.opt none)
  | arr {t n v} : IsDefault C t v → IsDefault C (.arr t n) (.arr (List.replicate n v))
  | pair {a b v w} : IsDefault C a v → IsDefault C b w → IsDefault C (.pair a b) (.pair v w)
  | tup {ts vs} : AreDefault C ts vs → IsDefault C (.tup ts) (.tup vs)
  | var {t ts v} : IsDefault C t v → IsDefault C (.var (t :: ts)) (.var 0 v)
  | user {k v} : C.userDefault k = some v → IsDefault C (.user k) v
inductive AreDefault (C : Ctx α β) : List Ty → List Val → Prop where
  | nil : AreDefault C [] []
  | cons {t ts v vs} : IsDefault C t v → AreDefault C ts vs → AreDefault C (t :: ts) (v :: vs)
end

end Tok3n
