import Verif.Model.Operators
import Verif.Model.Modifiers
import Verif.Model.BasicApi
import Verif.Model.Denote
/-
Models `examples/json/json.cpp`: the parsers of the JSON example and the types they
produce.  Elements are character codes.

Types: `user 0` is `number_type`, `user 1` `std::string`, `user 2` `JsonValue::result_type`, `user 3` `bool`,
`user 4` `std::nullptr_t`.  Simplifications: a `std::string` is represented by the span it was made from (the text in
memory does not change during a parse); its constructor does not throw (no allocation failure).
-/

namespace Tok3n.Json

/-- the codes of the characters of a string literal of the example, e.g. json.cpp:12 -/
abbrev lit (x : String) : List Nat := x.toList.map Char.toNat

/-- `p % m` where `m` makes a parser of a parser (operators/modifier.h:12-17) -/
def apply (m : Modifier Nat) (p : Parser Nat) : Parser Nat :=
  match percent (.parser p) (.modifier m) with
  | some (.parser q) => q
  | _ => p

/-- json.cpp:12 -/
def whitespace : Parser Nat := apply .ignore (zeroOrMoreOp (anyApi (lit " \n\r\t")))

/-- json.cpp:16-21 -/
abbrev numberType : Ty := .user 0
/-- `std::string` (json.cpp:46, 59, 71) -/
abbrev stringType : Ty := .user 1
/-- json.cpp:69-73 -/
abbrev valueType : Ty := .user 2
/-- json.cpp:59 (`value_type` of `JsonObject::result_type`) -/
abbrev pairType : Ty := .pair stringType valueType

/-- json.cpp:25 -/
def digit : Parser Nat := anyApi (lit "0123456789")
/-- json.cpp:27 -/
def naturalNumber : Parser Nat :=
  choiceOp (allApi (lit "0")) (apply .join (sequenceOp (anyApi (lit "123456789")) (zeroOrMoreOp digit)))
/-- json.cpp:28 -/
def integer : Parser Nat := apply .join (sequenceOp (orEps (allApi (lit "-"))) naturalNumber)
/-- json.cpp:30 -/
def fraction : Parser Nat := apply .join (sequenceOp (ignApi (lit ".")) (oneOrMoreOp digit))
/-- json.cpp:32 -/
def exponent : Parser Nat :=
  apply .join (sequenceOp (sequenceOp (apply .ignore (anyApi (lit "Ee"))) (orEps (anyApi (lit "-+")))) (oneOrMoreOp digit))
/-- json.cpp:23-35 -/
def number : Parser Nat :=
  apply (.applyInto numberType) (sequenceOp (sequenceOp integer (maybeOp fraction)) (maybeOp exponent))

/-- json.cpp:41 -/
def hex : Parser Nat :=
  apply .join (sequenceOp (allApi (lit "u")) (apply (.exactly 4) (anyApi (lit "0123456789ABCDEFabcdef"))))
/-- json.cpp:42 -/
def control : Parser Nat := choiceOp (anyApi (lit "\"\\/bfnrt")) hex
/-- json.cpp:44 -/
def validChar : Parser Nat := choiceOp (noneApi (lit "\"\\")) (apply .join (sequenceOp (allApi (lit "\\")) control))
/-- json.cpp:39-47 -/
def string : Parser Nat :=
  sequenceOp (sequenceOp (ignApi (lit "\"")) (apply (.into stringType) (apply .join (zeroOrMoreOp validChar))))
    (ignApi (lit "\""))

/-- the custom parser `JsonValue` (json.cpp:51-55) -/
def jsonValue : Parser Nat := .custom 0
/-- the custom parser `JsonObject` (json.cpp:57-61) -/
def jsonObject : Parser Nat := .custom 1
/-- the custom parser `JsonArray` (json.cpp:63-67) -/
def jsonArray : Parser Nat := .custom 2

/-- json.cpp:77 -/
def pair : Parser Nat :=
  apply (.applyInto pairType) (sequenceOp (sequenceOp (sequenceOp (sequenceOp whitespace string) whitespace)
    (ignApi (lit ":"))) jsonValue)
/-- json.cpp:78 -/
def object : Parser Nat := apply (delimitApi₁ (allApi (lit ","))) pair
/-- json.cpp:75-81 -/
def objectBody : Parser Nat :=
  sequenceOp (sequenceOp (ignApi (lit "{")) (choiceOp object whitespace)) (ignApi (lit "}"))
/-- json.cpp:85 -/
def values : Parser Nat := apply (delimitApi₁ (allApi (lit ","))) jsonValue
/-- json.cpp:83-88 -/
def arrayBody : Parser Nat :=
  sequenceOp (sequenceOp (ignApi (lit "[")) (choiceOp values whitespace)) (ignApi (lit "]"))
/-- json.cpp:92-99; constants 0, 1, 2 are `true`, `false`, `nullptr` -/
def valueParser : Parser Nat :=
  choiceOp (choiceOp (choiceOp (choiceOp (choiceOp (choiceOp string number) jsonObject) jsonArray)
    (apply (.constant 0) (allApi (lit "true")))) (apply (.constant 1) (allApi (lit "false"))))
    (apply (.constant 2) (allApi (lit "null")))
/-- json.cpp:90-102 -/
def valueBody : Parser Nat := sequenceOp (sequenceOp whitespace valueParser) whitespace

/-- `JsonValue::result_type::variant_type` (json.cpp:71) -/
def variantType : Ty :=
  .var [stringType, numberType, .vec pairType, .vec valueType, .user 3, .user 4]

/-- What the example (json.cpp:12-102) does not determine: the memory, the compiler, pointer comparisons. -/
structure Machine where
  mem : Mem Nat
  toolchain : Toolchain
  relaxedTtp : Bool
  ptrEq : Ptr → Ptr → Bool

/-- The example's types and custom parsers (json.cpp:51-102).  `number_type` and the pair are made of their members,
`std::string` of a span; `JsonValue::result_type` is converted from its variant.  It is not made from an optional of
its variant: none of the variant's alternatives can be initialised with one. -/
def ctx (m : Machine) : Ctx Nat Nat where
  eqv := (· == ·)
  mem := m.mem
  toolchain := m.toolchain
  relaxedTtp := m.relaxedTtp
  ptrEq := m.ptrEq
  fnRet := fun _ _ => none
  fnCall := fun _ _ => .ok .unit
  constTy := fun k => match k with | 0 => .user 3 | 1 => .user 3 | _ => .user 4
  constVal := fun k => match k with | 0 => .user 3 1 [] | 1 => .user 3 0 [] | _ => .user 4 0 []
  ctorOk := fun t ts =>
    (t == numberType && ts == [.span, .opt .span, .opt .span]) || (t == stringType && ts == [.span]) ||
    (t == pairType && ts == [stringType, valueType])
  ctor := fun t vs => match t, vs with
    | .pair _ _, [a, b] => .ok (.pair a b)
    | .user k, vs => .ok (.user k 0 vs)
    | _, _ => .ok .unit
  userDefault := fun k => some (.user k 0 [])
  conv := fun src dst => if src = variantType ∧ dst = valueType then some fun v => .user 2 0 [v] else none
  convOpt := fun _ _ => none
  userSpan := fun _ => none
  boolTy := fun _ => false
  truthy := fun _ => false
  custom := fun k => match k with
    | 0 => ⟨valueBody, true, valueType⟩                    -- JsonValue, json.cpp:51-55, 90-102
    | 1 => ⟨objectBody, true, .vec pairType⟩               -- JsonObject, json.cpp:57-61, 75-81
    | 2 => ⟨arrayBody, true, .vec valueType⟩               -- JsonArray, json.cpp:63-67, 83-88
    | _ => ⟨.epsilon, false, .void⟩

end Tok3n.Json
