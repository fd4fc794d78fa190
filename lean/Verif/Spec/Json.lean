import Verif.Spec.Text
/-
The grammar of JSON as given on json.org (the McKeeman form), with the document each text denotes,
and how the example's values represent documents.  Characters are given by code point.

Difference from json.org: there, a character of a string must not be below U+0020; the example accepts those.
-/

namespace Tok3n.Json

/-- JSON documents.  Strings are kept as written (escapes are not replaced), numbers as their parts. -/
inductive Doc where
  | str (raw : List Nat)
  | num (int : List Nat) (frac exp : Option (List Nat))
  | obj (members : List (List Nat × Doc))
  | arr (elements : List Doc)
  | bool (b : Bool)
  | null

/-- space, linefeed, carriage return, horizontal tab -/
def Ws (x : List Nat) : Prop := ∀ c ∈ x, c = 0x20 ∨ c = 0x0A ∨ c = 0x0D ∨ c = 0x09

def Digit (c : Nat) : Prop := 0x30 ≤ c ∧ c ≤ 0x39
def OneNine (c : Nat) : Prop := 0x31 ≤ c ∧ c ≤ 0x39
def Digits (x : List Nat) : Prop := x ≠ [] ∧ ∀ c ∈ x, Digit c
def HexDigit (c : Nat) : Prop := Digit c ∨ (0x41 ≤ c ∧ c ≤ 0x46) ∨ (0x61 ≤ c ∧ c ≤ 0x66)

inductive Integer : List Nat → Prop where
  | digit {c} : Digit c → Integer [c]
  | digits {c x} : OneNine c → Digits x → Integer (c :: x)
  | negDigit {c} : Digit c → Integer [0x2D, c]
  | negDigits {c x} : OneNine c → Digits x → Integer (0x2D :: c :: x)

/-- nothing, or a point and digits -/
inductive Fraction : List Nat → Option (List Nat) → Prop where
  | none : Fraction [] none
  | some {x} : Digits x → Fraction (0x2E :: x) (some x)

/-- nothing, or `E` or `e`, maybe a sign, and digits -/
inductive Exponent : List Nat → Option (List Nat) → Prop where
  | none : Exponent [] none
  | some {e sign x} : e = 0x45 ∨ e = 0x65 → sign = [] ∨ sign = [0x2B] ∨ sign = [0x2D] → Digits x →
      Exponent (e :: (sign ++ x)) (some (sign ++ x))

/-- one character of a string, as written -/
inductive Character : List Nat → Prop where
  | plain {c} : c ≠ 0x22 → c ≠ 0x5C → Character [c]
  /-- `\"` `\\` `\/` `\b` `\f` `\n` `\r` `\t` -/
  | escape {c} : c ∈ [0x22, 0x5C, 0x2F, 0x62, 0x66, 0x6E, 0x72, 0x74] → Character [0x5C, c]
  /-- `\u` and four hexadecimal digits -/
  | unicode {a b c d} : HexDigit a → HexDigit b → HexDigit c → HexDigit d → Character [0x5C, 0x75, a, b, c, d]

inductive Characters : List Nat → Prop where
  | nil : Characters []
  | cons {x y} : Character x → Characters y → Characters (x ++ y)

mutual
inductive Value : List Nat → Doc → Prop where
  | emptyObj {a} : Ws a → Value (0x7B :: (a ++ [0x7D])) (.obj [])
  | obj {x ms} : Members x ms → Value (0x7B :: (x ++ [0x7D])) (.obj ms)
  | emptyArr {a} : Ws a → Value (0x5B :: (a ++ [0x5D])) (.arr [])
  | arr {x es} : Elements x es → Value (0x5B :: (x ++ [0x5D])) (.arr es)
  | str {raw} : Characters raw → Value (0x22 :: (raw ++ [0x22])) (.str raw)
  | num {i f e fo eo} : Integer i → Fraction f fo → Exponent e eo → Value (i ++ (f ++ e)) (.num i fo eo)
  | true : Value [0x74, 0x72, 0x75, 0x65] (.bool true)
  | false : Value [0x66, 0x61, 0x6C, 0x73, 0x65] (.bool false)
  | null : Value [0x6E, 0x75, 0x6C, 0x6C] .null
inductive Element : List Nat → Doc → Prop where
  | mk {a x b d} : Ws a → Value x d → Ws b → Element (a ++ (x ++ b)) d
inductive Elements : List Nat → List Doc → Prop where
  | one {x d} : Element x d → Elements x [d]
  | more {x d y es} : Element x d → Elements y es → Elements (x ++ (0x2C :: y)) (d :: es)
inductive Member : List Nat → List Nat × Doc → Prop where
  | mk {a raw b x d} : Ws a → Characters raw → Ws b → Element x d →
      Member (a ++ (0x22 :: (raw ++ (0x22 :: (b ++ (0x3A :: x)))))) (raw, d)
inductive Members : List Nat → List (List Nat × Doc) → Prop where
  | one {x m} : Member x m → Members x [m]
  | more {x m y ms} : Member x m → Members y ms → Members (x ++ (0x2C :: y)) (m :: ms)
end

/-- The `std::string` holds the text `x`. -/
inductive RepString (mem : Mem Nat) : Val → List Nat → Prop where
  | mk {sp} : RepString mem (.user 1 0 [.span sp]) (sp.elems mem)

/-- The `std::optional<span>` holds that text, or nothing. -/
inductive RepOpt (mem : Mem Nat) : Val → Option (List Nat) → Prop where
  | none : RepOpt mem (.opt none) none
  | some {sp} : RepOpt mem (.opt (some (.span sp))) (some (sp.elems mem))

mutual
/-- The `JsonValue::result_type` represents the document: the alternatives of its variant are string, number, object,
array, `bool`, `nullptr_t`. -/
inductive Rep (mem : Mem Nat) : Val → Doc → Prop where
  | str {v raw} : RepString mem v raw → Rep mem (.user 2 0 [.var 0 v]) (.str raw)
  | num {sp f e fo eo} : RepOpt mem f fo → RepOpt mem e eo →
      Rep mem (.user 2 0 [.var 1 (.user 0 0 [.span sp, f, e])]) (.num (sp.elems mem) fo eo)
  | obj {vs ms} : RepMembers mem vs ms → Rep mem (.user 2 0 [.var 2 (.vec vs)]) (.obj ms)
  | arr {vs es} : RepElements mem vs es → Rep mem (.user 2 0 [.var 3 (.vec vs)]) (.arr es)
  | true : Rep mem (.user 2 0 [.var 4 (.user 3 1 [])]) (.bool true)
  | false : Rep mem (.user 2 0 [.var 4 (.user 3 0 [])]) (.bool false)
  | null : Rep mem (.user 2 0 [.var 5 (.user 4 0 [])]) .null
/-- The vector of pairs represents the members, in order. -/
inductive RepMembers (mem : Mem Nat) : List Val → List (List Nat × Doc) → Prop where
  | nil : RepMembers mem [] []
  | cons {k raw v d vs ms} : RepString mem k raw → Rep mem v d → RepMembers mem vs ms →
      RepMembers mem (.pair k v :: vs) ((raw, d) :: ms)
/-- The vector represents the elements, in order. -/
inductive RepElements (mem : Mem Nat) : List Val → List Doc → Prop where
  | nil : RepElements mem [] []
  | cons {v d vs es} : Rep mem v d → RepElements mem vs es → RepElements mem (v :: vs) (d :: es)
end

/-- The text cannot be read as a continuation of what comes before: it does not start with white space, a digit, a
point or an `e`. -/
def Stops (y : List Nat) : Prop :=
  ∀ c ∈ y.head?, ¬ Ws [c] ∧ ¬ Digit c ∧ c ≠ 0x2E ∧ c ≠ 0x45 ∧ c ≠ 0x65

end Tok3n.Json
