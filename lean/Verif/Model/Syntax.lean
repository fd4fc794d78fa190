import Verif.Model.Basic
/-
The parser *types* of the library as data: one constructor per class template in
`include/k3/tok3n/detail/parsers/`, and the value types they produce.

Parsers are stateless types, so a deep embedding loses nothing.  Things that are
template arguments of kind "function" or "user class" are identifiers, interpreted
by a context (`Ctx` in `Model/TypeLevel.lean`): this gives parser types the decidable
equality that `std::same_as` and overload resolution need.
-/

namespace Tok3n

/-- Result types occurring in `result_for` (the `result_for` aliases of
`detail/parsers/*.h`).  `span` is `output_span<V>`; `user k` is any other type,
e.g. the return type of a callback. -/
inductive Ty where
  | void
  | span
  | vec (t : Ty)
  | arr (t : Ty) (n : Nat)
  | opt (t : Ty)
  | tup (ts : List Ty)
  | var (ts : List Ty)
  | pair (a b : Ty)
  | user (k : Nat)
  deriving Repr

/-- Values of those types, as `result<T, U>` holds them (result.h:14-88).  `unit` is the "value" of a void result.  A
value of a
user type is an opaque tag with components. -/
inductive Val where
  | unit
  | span (s : Span)
  | vec (vs : List Val)
  | arr (vs : List Val)
  | opt (v : Option Val)
  | tup (vs : List Val)
  | var (i : Nat) (v : Val)
  | pair (a b : Val)
  | user (k tag : Nat) (vs : List Val)
  deriving Repr

/-- Function objects given to `map`/`filter`.  `user k` is a user callback; the
others are the wrappers of `detail/functions.h:11-22`. -/
inductive Fn where
  | user (k : Nat)
  /-- `apply_function<f>` (functions.h:11-12) -/
  | apply (f : Fn)
  /-- `constant_function<value>` (functions.h:14-15) -/
  | const (k : Nat)
  /-- `construct_function<T>` (functions.h:17-18) -/
  | construct (t : Ty)
  /-- `default_construct_function<T>` (functions.h:20-22) -/
  | deflt (t : Ty)
  deriving Repr

/-- The `static_array` naming a parser (parsers/named.h:11): its element type
(an identifier) and its elements. -/
structure Name where
  char : Nat
  str : List Nat
  deriving DecidableEq, Repr

/-- The parser class templates.  `α` is `value_type`.
* `anyOf`/`noneOf`/`allOf`: parsers/any_of.h:11-16, none_of.h:11-16, all_of.h:11-15
* `anything`: anything.h:10-14; `epsilon`: epsilon.h:11-12
* `choice`: choice.h:14-15; `sequence`: sequence.h:14-15 (non-empty packs)
* `maybe`: maybe.h:13-14; `exactly`: exactly.h:13-15
* `oneOrMore`: one_or_more.h:13-14; `zeroOrMore`: zero_or_more.h:13-14
* `delimit`: delimit.h:14-15; `ignore`: ignore.h:11-12; `complete`: complete.h:11-12
* `join`: join.h:120-121; `map`: map.h:13-14; `filter`: filter.h:14-15
* `named`: named.h:11-12; `custom`: custom.h:30-31 (the CRTP class is an identifier)

Simplification: all parsers of one expression share one `value_type`; C++ enforces
this with `parser_compatible_with` (parser.h:89-93); see Model/ValueType.lean and C68. -/
inductive Parser (α : Type) where
  | anyOf (arr : List α)
  | noneOf (arr : List α)
  | allOf (arr : List α)
  | anything
  | epsilon
  | choice (ps : List (Parser α))
  | sequence (ps : List (Parser α))
  | maybe (p : Parser α)
  | exactly (p : Parser α) (n : Nat)
  | oneOrMore (p : Parser α)
  | zeroOrMore (p : Parser α)
  | delimit (p d : Parser α)
  | ignore (p : Parser α)
  | complete (p : Parser α)
  | join (p : Parser α)
  | map (p : Parser α) (f : Fn)
  | filter (p : Parser α) (f : Fn)
  | named (p : Parser α) (name : Name)
  | custom (k : Nat)
  deriving Repr

/-- `parser_family` (parser.h:11-36), in order of declaration. -/
inductive ParserFamily where
  | none
  | any_of | none_of | all_of | anything | epsilon | choice | sequence | maybe | exactly
  | one_or_more | zero_or_more | delimit | ignore | complete | join | map | filter | named
  | custom
  | «end»
  deriving DecidableEq, Repr

/-- `P::family`, through the constants of parser.h:38-56.  Note that `join_family`,
`map_family` and `named_family` are *not* the enumerators of the same name
(parser.h:52, 53, 55). -/
def Parser.family {α : Type} : Parser α → ParserFamily
  | .anyOf _ => .any_of
  | .noneOf _ => .none_of
  | .allOf _ => .all_of
  | .anything => .anything
  | .epsilon => .epsilon
  | .choice _ => .choice
  | .sequence _ => .sequence
  | .maybe _ => .maybe
  | .exactly .. => .exactly
  | .oneOrMore _ => .one_or_more
  | .zeroOrMore _ => .zero_or_more
  | .delimit .. => .delimit
  | .ignore _ => .ignore
  | .complete _ => .complete
  | .join _ => .map
  | .map .. => .named
  | .filter .. => .filter
  | .named .. => .join
  | .custom _ => .custom

/-! ### Decidable equality (`std::same_as`, `std::is_same_v`)

`deriving DecidableEq` does not support nested inductive types, so it is spelled
out. -/

mutual
/-- equality of types in the model (for `DecidableEq`; not in /repo) -/
def Ty.beq : Ty → Ty → Bool
  | .void, .void => true
  | .span, .span => true
  | .vec a, .vec b => Ty.beq a b
  | .arr a n, .arr b m => Ty.beq a b && n == m
  | .opt a, .opt b => Ty.beq a b
  | .tup as, .tup bs => Ty.beqs as bs
  | .var as, .var bs => Ty.beqs as bs
  | .pair a b, .pair c d => Ty.beq a c && Ty.beq b d
  | .user k, .user l => k == l
  | _, _ => false
/-- equality of lists of types in the model (for `DecidableEq`; not in /repo) -/
def Ty.beqs : List Ty → List Ty → Bool
  | [], [] => true
  | a :: as, b :: bs => Ty.beq a b && Ty.beqs as bs
  | _, _ => false
end

mutual
theorem Ty.beq_iff : ∀ a b : Ty, Ty.beq a b = true ↔ a = b
  | .void, b => by cases b <;> simp [Ty.beq]
  | .span, b => by cases b <;> simp [Ty.beq]
  | .vec a, b => by cases b <;> simp [Ty.beq, Ty.beq_iff a]
  | .arr a n, b => by cases b <;> simp [Ty.beq, Ty.beq_iff a]
  | .opt a, b => by cases b <;> simp [Ty.beq, Ty.beq_iff a]
  | .tup as, b => by cases b <;> simp [Ty.beq, Ty.beqs_iff as]
  | .var as, b => by cases b <;> simp [Ty.beq, Ty.beqs_iff as]
  | .pair a a', b => by cases b <;> simp [Ty.beq, Ty.beq_iff a, Ty.beq_iff a']
  | .user k, b => by cases b <;> simp [Ty.beq]
theorem Ty.beqs_iff : ∀ as bs : List Ty, Ty.beqs as bs = true ↔ as = bs
  | [], b => by cases b <;> simp [Ty.beqs]
  | a :: as, b => by cases b <;> simp [Ty.beqs, Ty.beq_iff a, Ty.beqs_iff as]
end

instance : DecidableEq Ty := fun a b => decidable_of_iff _ (Ty.beq_iff a b)

mutual
/-- equality of values in the model (for `DecidableEq`; not in /repo) -/
def Val.beq : Val → Val → Bool
  | .unit, .unit => true
  | .span a, .span b => a == b
  | .vec a, .vec b => Val.beqs a b
  | .arr a, .arr b => Val.beqs a b
  | .opt none, .opt none => true
  | .opt (some a), .opt (some b) => Val.beq a b
  | .tup as, .tup bs => Val.beqs as bs
  | .var i a, .var j b => i == j && Val.beq a b
  | .pair a b, .pair c d => Val.beq a c && Val.beq b d
  | .user k t vs, .user l u ws => k == l && t == u && Val.beqs vs ws
  | _, _ => false
/-- equality of lists of values in the model (for `DecidableEq`; not in /repo) -/
def Val.beqs : List Val → List Val → Bool
  | [], [] => true
  | a :: as, b :: bs => Val.beq a b && Val.beqs as bs
  | _, _ => false
end

mutual
theorem Val.beq_iff : ∀ a b : Val, Val.beq a b = true ↔ a = b
  | .unit, b => by cases b <;> simp [Val.beq]
  | .span s, b => by cases b <;> simp [Val.beq]
  | .vec a, b => by cases b <;> simp [Val.beq, Val.beqs_iff a]
  | .arr a, b => by cases b <;> simp [Val.beq, Val.beqs_iff a]
  | .opt none, b => by
    cases b with
    | opt v => cases v <;> simp [Val.beq]
    | _ => simp [Val.beq]
  | .opt (some a), b => by
    cases b with
    | opt v => cases v <;> simp [Val.beq, Val.beq_iff a]
    | _ => simp [Val.beq]
  | .tup as, b => by cases b <;> simp [Val.beq, Val.beqs_iff as]
  | .var i a, b => by cases b <;> simp [Val.beq, Val.beq_iff a]
  | .pair a a', b => by cases b <;> simp [Val.beq, Val.beq_iff a, Val.beq_iff a']
  | .user k t vs, b => by cases b <;> simp [Val.beq, Val.beqs_iff vs, and_assoc]
theorem Val.beqs_iff : ∀ as bs : List Val, Val.beqs as bs = true ↔ as = bs
  | [], b => by cases b <;> simp [Val.beqs]
  | a :: as, b => by cases b <;> simp [Val.beqs, Val.beq_iff a, Val.beqs_iff as]
end

instance : DecidableEq Val := fun a b => decidable_of_iff _ (Val.beq_iff a b)

deriving instance DecidableEq for Fn

mutual
/-- equality of parser classes in the model (for `DecidableEq`; not in /repo) -/
def Parser.beq [DecidableEq α] : Parser α → Parser α → Bool
  | .anyOf a, .anyOf b => a == b
  | .noneOf a, .noneOf b => a == b
  | .allOf a, .allOf b => a == b
  | .anything, .anything => true
  | .epsilon, .epsilon => true
  | .choice a, .choice b => Parser.beqs a b
  | .sequence a, .sequence b => Parser.beqs a b
  | .maybe a, .maybe b => Parser.beq a b
  | .exactly a n, .exactly b m => Parser.beq a b && n == m
  | .oneOrMore a, .oneOrMore b => Parser.beq a b
  | .zeroOrMore a, .zeroOrMore b => Parser.beq a b
  | .delimit a d, .delimit b e => Parser.beq a b && Parser.beq d e
  | .ignore a, .ignore b => Parser.beq a b
  | .complete a, .complete b => Parser.beq a b
  | .join a, .join b => Parser.beq a b
  | .map a f, .map b g => Parser.beq a b && f == g
  | .filter a f, .filter b g => Parser.beq a b && f == g
  | .named a n, .named b m => Parser.beq a b && n == m
  | .custom k, .custom l => k == l
  | _, _ => false
/-- equality of lists of parser classes in the model (for `DecidableEq`; not in /repo) -/
def Parser.beqs [DecidableEq α] : List (Parser α) → List (Parser α) → Bool
  | [], [] => true
  | a :: as, b :: bs => Parser.beq a b && Parser.beqs as bs
  | _, _ => false
end

mutual
theorem Parser.beq_iff [DecidableEq α] : ∀ a b : Parser α, Parser.beq a b = true ↔ a = b
  | .anyOf _, b => by cases b <;> simp [Parser.beq]
  | .noneOf _, b => by cases b <;> simp [Parser.beq]
  | .allOf _, b => by cases b <;> simp [Parser.beq]
  | .anything, b => by cases b <;> simp [Parser.beq]
  | .epsilon, b => by cases b <;> simp [Parser.beq]
  | .choice as, b => by cases b <;> simp [Parser.beq, Parser.beqs_iff as]
  | .sequence as, b => by cases b <;> simp [Parser.beq, Parser.beqs_iff as]
  | .maybe a, b => by cases b <;> simp [Parser.beq, Parser.beq_iff a]
  | .exactly a _, b => by cases b <;> simp [Parser.beq, Parser.beq_iff a]
  | .oneOrMore a, b => by cases b <;> simp [Parser.beq, Parser.beq_iff a]
  | .zeroOrMore a, b => by cases b <;> simp [Parser.beq, Parser.beq_iff a]
  | .delimit a d, b => by cases b <;> simp [Parser.beq, Parser.beq_iff a, Parser.beq_iff d]
  | .ignore a, b => by cases b <;> simp [Parser.beq, Parser.beq_iff a]
  | .complete a, b => by cases b <;> simp [Parser.beq, Parser.beq_iff a]
  | .join a, b => by cases b <;> simp [Parser.beq, Parser.beq_iff a]
  | .map a _, b => by cases b <;> simp [Parser.beq, Parser.beq_iff a]
  | .filter a _, b => by cases b <;> simp [Parser.beq, Parser.beq_iff a]
  | .named a _, b => by cases b <;> simp [Parser.beq, Parser.beq_iff a]
  | .custom _, b => by cases b <;> simp [Parser.beq]
theorem Parser.beqs_iff [DecidableEq α] :
    ∀ as bs : List (Parser α), Parser.beqs as bs = true ↔ as = bs
  | [], b => by cases b <;> simp [Parser.beqs]
  | a :: as, b => by cases b <;> simp [Parser.beqs, Parser.beq_iff a, Parser.beqs_iff as]
end

instance [DecidableEq α] : DecidableEq (Parser α) :=
  fun a b => decidable_of_iff _ (Parser.beq_iff a b)

end Tok3n
