import Verif.Model.Denote
/-
One grammar spelt in two element types.
-/

namespace Tok3n

variable {α α' β β' : Type}

/-- Two readings of a text: `eqv` and `eqv'` compare the elements of the literals with those of the
input, and `E` says which elements of the two inputs correspond. -/
structure Reading (α α' β β' : Type) where
  eqv : α → β → Bool
  eqv' : α' → β' → Bool
  E : β → β' → Prop

/-- One element of a literal compares with corresponding elements alike. -/
def Reading.Letter (D : Reading α α' β β') (a : α) (a' : α') : Prop :=
  ∀ x y, D.E x y → D.eqv a x = D.eqv' a' y

/-- Of two corresponding elements, both are in the set or neither is. -/
def Reading.Set (D : Reading α α' β β') (arr : List α) (arr' : List α') : Prop :=
  ∀ x y, D.E x y → ((∃ a ∈ arr, D.eqv a x) ↔ ∃ a' ∈ arr', D.eqv' a' y)

mutual
/-- `q` is `p` with the literals spelt in the other element type: the same combinators, functions
and custom parsers, words spelt letter by letter, and sets with corresponding elements in any order.
Names may differ. -/
def Respelt (D : Reading α α' β β') : Parser α → Parser α' → Prop
  | .anyOf arr, q => ∃ arr', q = .anyOf arr' ∧ D.Set arr arr'
  | .noneOf arr, q => ∃ arr', q = .noneOf arr' ∧ D.Set arr arr'
  | .allOf arr, q => ∃ arr', q = .allOf arr' ∧ List.Forall₂ D.Letter arr arr'
  | .anything, q => q = .anything
  | .epsilon, q => q = .epsilon
  | .choice ps, q => ∃ qs, q = .choice qs ∧ Respelts D ps qs
  | .sequence ps, q => ∃ qs, q = .sequence qs ∧ Respelts D ps qs
  | .maybe p, q => ∃ p', q = .maybe p' ∧ Respelt D p p'
  | .exactly p n, q => ∃ p', q = .exactly p' n ∧ Respelt D p p'
  | .oneOrMore p, q => ∃ p', q = .oneOrMore p' ∧ Respelt D p p'
  | .zeroOrMore p, q => ∃ p', q = .zeroOrMore p' ∧ Respelt D p p'
  | .delimit p d, q => ∃ p' d', q = .delimit p' d' ∧ Respelt D p p' ∧ Respelt D d d'
  | .ignore p, q => ∃ p', q = .ignore p' ∧ Respelt D p p'
  | .complete p, q => ∃ p', q = .complete p' ∧ Respelt D p p'
  | .join p, q => ∃ p', q = .join p' ∧ Respelt D p p'
  | .map p f, q => ∃ p', q = .map p' f ∧ Respelt D p p'
  | .filter p f, q => ∃ p', q = .filter p' f ∧ Respelt D p p'
  | .named p _, q => ∃ p' name', q = .named p' name' ∧ Respelt D p p'
  | .custom k, q => q = .custom k
/-- part by part -/
def Respelts (D : Reading α α' β β') : List (Parser α) → List (Parser α') → Prop
  | [], qs => qs = []
  | p :: ps, qs => ∃ q qs', qs = q :: qs' ∧ Respelt D p q ∧ Respelts D ps qs'
end

/-- The two programs differ only in their element types: the user's functions and types, the
compiler and its choices are the same; every custom parser is respelt; the inputs correspond element
by element. -/
structure SameButSpelling (E : β → β' → Prop) (C : Ctx α β) (C' : Ctx α' β') : Prop where
  mem : ∀ b, List.Forall₂ E (C.mem b) (C'.mem b)
  toolchain : C.toolchain = C'.toolchain
  relaxedTtp : C.relaxedTtp = C'.relaxedTtp
  ptrEq : C.ptrEq = C'.ptrEq
  fnRet : C.fnRet = C'.fnRet
  fnCall : C.fnCall = C'.fnCall
  constTy : C.constTy = C'.constTy
  constVal : C.constVal = C'.constVal
  ctorOk : C.ctorOk = C'.ctorOk
  ctor : C.ctor = C'.ctor
  userDefault : C.userDefault = C'.userDefault
  conv : C.conv = C'.conv
  convOpt : C.convOpt = C'.convOpt
  userSpan : C.userSpan = C'.userSpan
  boolTy : C.boolTy = C'.boolTy
  truthy : C.truthy = C'.truthy
  declared : ∀ k, (C.custom k).declared = (C'.custom k).declared
  customTy : ∀ k, (C.custom k).ty = (C'.custom k).ty
  body : ∀ k, Respelt ⟨C.eqv, C'.eqv, E⟩ (C.custom k).body (C'.custom k).body

/-! ### Literals converted by a function -/

mutual
/-- the expression with every element of every literal converted -/
def Parser.spell (f : α → α') : Parser α → Parser α'
  | .anyOf arr => .anyOf (arr.map f)
  | .noneOf arr => .noneOf (arr.map f)
  | .allOf arr => .allOf (arr.map f)
  | .anything => .anything
  | .epsilon => .epsilon
  | .choice ps => .choice (Parser.spells f ps)
  | .sequence ps => .sequence (Parser.spells f ps)
  | .maybe p => .maybe (p.spell f)
  | .exactly p n => .exactly (p.spell f) n
  | .oneOrMore p => .oneOrMore (p.spell f)
  | .zeroOrMore p => .zeroOrMore (p.spell f)
  | .delimit p d => .delimit (p.spell f) (d.spell f)
  | .ignore p => .ignore (p.spell f)
  | .complete p => .complete (p.spell f)
  | .join p => .join (p.spell f)
  | .map p g => .map (p.spell f) g
  | .filter p g => .filter (p.spell f) g
  | .named p n => .named (p.spell f) n
  | .custom k => .custom k
def Parser.spells (f : α → α') : List (Parser α) → List (Parser α')
  | [] => []
  | p :: ps => p.spell f :: Parser.spells f ps
end

/-- The program with its literals converted by `f` and its inputs by `g`, elements being compared
with `eqv'`. -/
def Ctx.spell (C : Ctx α β) (f : α → α') (g : β → β') (eqv' : α' → β' → Bool) : Ctx α' β' where
  eqv := eqv'
  mem b := (C.mem b).map g
  toolchain := C.toolchain
  relaxedTtp := C.relaxedTtp
  ptrEq := C.ptrEq
  fnRet := C.fnRet
  fnCall := C.fnCall
  constTy := C.constTy
  constVal := C.constVal
  ctorOk := C.ctorOk
  ctor := C.ctor
  userDefault := C.userDefault
  conv := C.conv
  convOpt := C.convOpt
  userSpan := C.userSpan
  boolTy := C.boolTy
  truthy := C.truthy
  custom k := ⟨(C.custom k).body.spell f, (C.custom k).declared, (C.custom k).ty⟩

/-! ### What the literals can tell apart -/

mutual
/-- the elements of the literals of an expression -/
def Parser.letters : Parser α → List α
  | .anyOf arr | .noneOf arr | .allOf arr => arr
  | .choice ps | .sequence ps => Parser.lettersOf ps
  | .maybe p | .exactly p _ | .oneOrMore p | .zeroOrMore p | .ignore p | .complete p | .join p
  | .map p _ | .filter p _ | .named p _ => p.letters
  | .delimit p d => p.letters ++ d.letters
  | .anything | .epsilon | .custom _ => []
def Parser.lettersOf : List (Parser α) → List α
  | [] => []
  | p :: ps => p.letters ++ Parser.lettersOf ps
end

/-- No literal of the expression or of a custom parser tells the two elements apart. -/
def Indistinguishable (C : Ctx α β) (p : Parser α) (x y : β) : Prop :=
  ∀ a, (a ∈ p.letters ∨ ∃ k, a ∈ (C.custom k).body.letters) → C.eqv a x = C.eqv a y

end Tok3n
