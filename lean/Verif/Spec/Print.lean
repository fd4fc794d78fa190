import Verif.Spec.Algebraic
/-
What the algebraic example's `print` should write for an expression: lines, each with its indentation.
-/

namespace Tok3n.Algebraic

/-- A line: the number of tabs it is indented by, and its text. -/
structure Line where
  tabs : Nat
  text : List Nat

/-- the character codes of a text -/
def codes (x : String) : List Nat := x.toList.map Char.toNat

/-- what a line looks like -/
def Line.written (l : Line) : List Nat := List.replicate l.tabs 9 ++ l.text

/-- The lines are written with a line feed between them. -/
def written : List Line → List Nat
  | [] => []
  | [l] => l.written
  | l :: ls => l.written ++ 10 :: written ls

/-- a comma at the end of the last line -/
def comma : List Line → List Line
  | [] => []
  | [l] => [⟨l.tabs, l.text ++ [0x2C]⟩]
  | l :: ls => l :: comma ls

/-- a title, and the contents in braces -/
def block (n : Nat) (title : String) (contents : List Line) : List Line :=
  ⟨n, codes title ++ codes " :"⟩ :: ⟨n, codes "{"⟩ :: (contents ++ [⟨n, codes "}"⟩])

/-- The number is written as it was, but always with a small `e`. -/
def Number.text (x : Number) : List Nat :=
  x.int ++ ((match x.frac with | some f => 0x2E :: f | none => []) ++ (match x.exp with | some e => 0x65 :: e | none => []))

mutual
/-- the operands of an expression, each indented by `n`, with the operators between them -/
def Expr.lines (n : Nat) : Expr → List Line
  | .one t => block n "Term" (t.lines (n + 1))
  | .add e t => comma (e.lines n) ++ ⟨n, codes "<plus>"⟩ :: block n "Term" (t.lines (n + 1))
  | .sub e t => comma (e.lines n) ++ ⟨n, codes "<minus>"⟩ :: block n "Term" (t.lines (n + 1))
def Term.lines (n : Nat) : Term → List Line
  | .one f => block n "Factor" (f.lines (n + 1))
  | .mul t f => comma (t.lines n) ++ ⟨n, codes "<multiplied by>"⟩ :: block n "Factor" (f.lines (n + 1))
  | .div t f => comma (t.lines n) ++ ⟨n, codes "<divided by>"⟩ :: block n "Factor" (f.lines (n + 1))
/-- nothing is written for `^` but the comma -/
def Factor.lines (n : Nat) : Factor → List Line
  | .one p => block n "Powterm" (p.lines (n + 1))
  | .pow p f => comma (block n "Powterm" (p.lines (n + 1))) ++ f.lines n
def Powterm.lines (n : Nat) : Powterm → List Line
  | .paren e => block n "Bracketed Expr" (block (n + 1) "Expr" (e.lines (n + 2)))
  | .neg e => block n "Negated Expr" (block (n + 1) "Expr" (e.lines (n + 2)))
  | .num x => [⟨n, codes "Number : " ++ x.text⟩]
end

/-- what is printed for an expression, indented by `n` -/
def Expr.printed (n : Nat) (e : Expr) : List Nat := written (block n "Expr" (e.lines (n + 1)))

end Tok3n.Algebraic
