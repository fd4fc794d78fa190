import Verif.Spec.Print
import Verif.Spec.Json
/-
How to write an expression of the algebraic example and a JSON document as text, and which of them can be written.
-/

namespace Tok3n.Algebraic

open Json (Digits)

/-- Digits; maybe digits behind the point; maybe an exponent of digits, maybe with a minus sign. -/
def Number.Proper (n : Number) : Prop :=
  Digits n.int ∧ (∀ f, n.frac = some f → Digits f) ∧
    ∀ e, n.exp = some e → ∃ sign x, (sign = [] ∨ sign = [0x2D]) ∧ Digits x ∧ e = sign ++ x

mutual
/-- Every number in it is a proper one. -/
def Expr.Proper : Expr → Prop
  | .one t => t.Proper
  | .add e t => e.Proper ∧ t.Proper
  | .sub e t => e.Proper ∧ t.Proper
def Term.Proper : Term → Prop
  | .one f => f.Proper
  | .mul t f => t.Proper ∧ f.Proper
  | .div t f => t.Proper ∧ f.Proper
def Factor.Proper : Factor → Prop
  | .one p => p.Proper
  | .pow p f => p.Proper ∧ f.Proper
def Powterm.Proper : Powterm → Prop
  | .paren e => e.Proper
  | .neg e => e.Proper
  | .num n => n.Proper
end

mutual
/-- the expression, without white space -/
def Expr.text : Expr → List Nat
  | .one t => t.text
  | .add e t => e.text ++ 0x2B :: t.text
  | .sub e t => e.text ++ 0x2D :: t.text
def Term.text : Term → List Nat
  | .one f => f.text
  | .mul t f => t.text ++ 0x2A :: f.text
  | .div t f => t.text ++ 0x2F :: f.text
def Factor.text : Factor → List Nat
  | .one p => p.text
  | .pow p f => p.text ++ 0x5E :: f.text
def Powterm.text : Powterm → List Nat
  | .paren e => 0x28 :: (e.text ++ [0x29])
  | .neg e => 0x2D :: e.text
  | .num n => n.text
end

end Tok3n.Algebraic

namespace Tok3n.Json

mutual
/-- Strings and keys consist of characters, and numbers of an integer, digits behind the point and an exponent. -/
inductive Doc.Proper : Doc → Prop where
  | str {raw} : Characters raw → Doc.Proper (.str raw)
  | num {i fo eo} : Integer i → (∀ f, fo = some f → Digits f) →
      (∀ e, eo = some e → ∃ sign x, (sign = [] ∨ sign = [0x2B] ∨ sign = [0x2D]) ∧ Digits x ∧ e = sign ++ x) →
      Doc.Proper (.num i fo eo)
  | obj {ms} : ProperMembers ms → Doc.Proper (.obj ms)
  | arr {es} : ProperElements es → Doc.Proper (.arr es)
  | bool {b} : Doc.Proper (.bool b)
  | null : Doc.Proper .null
inductive ProperMembers : List (List Nat × Doc) → Prop where
  | nil : ProperMembers []
  | cons {raw d ms} : Characters raw → Doc.Proper d → ProperMembers ms → ProperMembers ((raw, d) :: ms)
inductive ProperElements : List Doc → Prop where
  | nil : ProperElements []
  | cons {d es} : Doc.Proper d → ProperElements es → ProperElements (d :: es)
end

mutual
/-- the document, without white space -/
def Doc.text : Doc → List Nat
  | .str raw => 0x22 :: (raw ++ [0x22])
  | .num i f e => i ++ ((match f with | some f => 0x2E :: f | none => []) ++ (match e with | some e => 0x65 :: e | none => []))
  | .obj ms => 0x7B :: (membersText ms ++ [0x7D])
  | .arr es => 0x5B :: (elementsText es ++ [0x5D])
  | .bool true => [0x74, 0x72, 0x75, 0x65]
  | .bool false => [0x66, 0x61, 0x6C, 0x73, 0x65]
  | .null => [0x6E, 0x75, 0x6C, 0x6C]
/-- the members with commas between them -/
def membersText : List (List Nat × Doc) → List Nat
  | [] => []
  | [m] => memberText m
  | m :: ms => memberText m ++ 0x2C :: membersText ms
/-- the key in quotes, a colon and the value -/
def memberText : List Nat × Doc → List Nat
  | (raw, d) => 0x22 :: (raw ++ 0x22 :: 0x3A :: d.text)
/-- the elements with commas between them -/
def elementsText : List Doc → List Nat
  | [] => []
  | [d] => d.text
  | d :: ds => d.text ++ 0x2C :: elementsText ds
end

end Tok3n.Json
