import Verif.Spec.Combinators
import Verif.Spec.Terminate
/-
What a program must provide for its parser expressions to compile: the vocabulary of C57.
-/

namespace Tok3n

variable {α β : Type}

/-- `T value{};` compiles: a `std::variant` is made with its first alternative, an array, a
pair or a tuple with all its elements; a span, a vector and an optional always can be. -/
inductive HasDefault (C : Ctx α β) : Ty → Prop where
  | void : HasDefault C .void
  | span : HasDefault C .span
  | vec {t} : HasDefault C (.vec t)
  | opt {t} : HasDefault C (.opt t)
  | arr {t n} : HasDefault C t → HasDefault C (.arr t n)
  | pair {a b} : HasDefault C a → HasDefault C b → HasDefault C (.pair a b)
  | tup {ts} : (∀ t ∈ ts, HasDefault C t) → HasDefault C (.tup ts)
  | var {t ts} : HasDefault C t → HasDefault C (.var (t :: ts))
  | user {k v} : C.userDefault k = some v → HasDefault C (.user k)

/-- `join` knows how to put a value of this type together: a span, something that converts to
one, and vectors, arrays, optionals and tuples of these. -/
inductive Joinable (C : Ctx α β) : Ty → Prop where
  | span : Joinable C .span
  | vec {t} : Joinable C t → Joinable C (.vec t)
  | arr {t n} : Joinable C t → Joinable C (.arr t n)
  | opt {t} : Joinable C t → Joinable C (.opt t)
  | tup {t ts} : (∀ u ∈ t :: ts, Joinable C u) → Joinable C (.tup (t :: ts))
  | user {k f} : C.userSpan k = some f → Joinable C (.user k)

/-- The types `std::apply` takes apart, and into what. -/
inductive ComponentTypes : Ty → List Ty → Prop where
  | tup {ts} : ComponentTypes (.tup ts) ts
  | pair {a b} : ComponentTypes (.pair a b) [a, b]
  | arr {t n} : ComponentTypes (.arr t n) (List.replicate n t)

/-- The function can be called with arguments of these types and returns a `t`. -/
inductive Returns (C : Ctx α β) : Fn → List Ty → Ty → Prop where
  | user {k ts t} : C.fnRet k ts = some t → Returns C (.user k) ts t
  | apply {f u ts t} : ComponentTypes u ts → Returns C f ts t → Returns C (.apply f) [u] t
  | const {k ts} : Returns C (.const k) ts (C.constTy k)
  | construct {t ts} : C.ctorOk t ts = true → Returns C (.construct t) ts t
  | deflt {t ts} : HasDefault C t → Returns C (.deflt t) ts t

/-- What a function is called with for a result of type `t`: nothing if there is no value. -/
inductive Given : Ty → List Ty → Prop where
  | nothing : Given .void []
  | value {t} : t ≠ .void → Given t [t]

/-- A `result<T, V>` can be turned into a `result<U, V>`: both are the same type, or neither is
void and `U` is made from a `std::optional<T>` or from a `T`. -/
inductive Converts (C : Ctx α β) : Ty → Ty → Prop where
  | same {t} : Converts C t t
  | engaged {t} : t ≠ .void → Converts C t (.opt t)
  | optional {t u g} : t ≠ .void → u ≠ .void → C.convOpt t u = some g → Converts C t u
  | value {t u g} : t ≠ .void → u ≠ .void → C.conv t u = some g → Converts C t u

/-- What the callbacks return and what the custom parsers produce can be default constructed. -/
structure Ctx.Defaults (C : Ctx α β) : Prop where
  fn : ∀ f ts t, Returns C f ts t → HasDefault C t
  custom : ∀ k, HasDefault C (C.custom k).ty

/-- What the outermost class template of an expression asks for. -/
def Accepts [LinearOrder α] (C : Ctx α β) : Parser α → Prop
  | .anyOf arr | .noneOf arr => arr.Pairwise (· < ·)
  | .choice ps => ps ≠ [] ∧ Indexable (ps.map (resultFor C))
  | .sequence ps => ps ≠ []
  | .exactly _ n => n ≠ 0
  | .join p => Joinable C (resultFor C p)
  | .map p f => ∃ ts t, Given (resultFor C p) ts ∧ Returns C f ts t
  | .filter p f => ∃ ts t, Given (resultFor C p) ts ∧ Returns C f ts t ∧ C.boolTy t = true
  | .custom k => Converts C (resultFor C (C.custom k).body) (C.custom k).ty
  | _ => True

/-- `q` is `p` or a sub-expression of it. -/
abbrev Parser.Contains (p q : Parser α) : Prop := Relation.ReflTransGen (fun p q => q ∈ p.parts) p q

/-- What the class template itself asks for: characters in order and no two the same, parts, a
count that isn't zero. -/
def ClassOK [LinearOrder α] : Parser α → Prop
  | .anyOf arr | .noneOf arr => arr.Pairwise (· < ·)
  | .choice ps | .sequence ps => ps ≠ []
  | .exactly _ n => n ≠ 0
  | _ => True

end Tok3n
