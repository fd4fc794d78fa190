import Mathlib.Data.Nat.Digits.Defs
import Verif.Spec.Json
import Verif.Model.Algebraic
/-
The grammar in the comment of examples/algebraic/parser.h with the expression each text can denote, the value of an
expression, and how the example's values represent expressions.  Characters are given by code point.

    input   ::= ws expr ws eoi;
    expr    ::= ws term [{ws ('+'|'-') ws term}];
    term    ::= ws factor [{ws ('*'|'/') ws factor}];
    factor  ::= ws powterm [{ws '^' ws powterm}];
    powterm ::= '(' ws expr ws ')' | '-' ws expr | number;
    number  ::= {dgt} ['.' {dgt}] [('e'|'E') ['-'] {dgt}];

White space and digits are those of JSON.  The expressions have `+`, `-`, `*`, `/` associating to the left and `^` to
the right, which the grammar leaves open.  The grammar is ambiguous: `-1+2` is both `-(1+2)` and `(-1)+2`.
-/

namespace Tok3n.Algebraic

open Json (Ws Digit Digits Fraction)

/-- A number as written: digits, those after the point, and what is after the `e`. -/
structure Number where
  int : List Nat
  frac : Option (List Nat)
  exp : Option (List Nat)

mutual
inductive Expr where
  | one (t : Term)
  | add (e : Expr) (t : Term)
  | sub (e : Expr) (t : Term)
inductive Term where
  | one (f : Factor)
  | mul (t : Term) (f : Factor)
  | div (t : Term) (f : Factor)
inductive Factor where
  | one (p : Powterm)
  | pow (p : Powterm) (f : Factor)
inductive Powterm where
  | paren (e : Expr)
  | neg (e : Expr)
  | num (n : Number)
end

/-! ### The grammar -/

/-- nothing, or `E` or `e`, maybe a minus sign, and digits -/
inductive Exponent : List Nat → Option (List Nat) → Prop where
  | none : Exponent [] none
  | some {e sign x} : e = 0x45 ∨ e = 0x65 → sign = [] ∨ sign = [0x2D] → Digits x →
      Exponent (e :: (sign ++ x)) (some (sign ++ x))

inductive IsNumber : List Nat → Number → Prop where
  | mk {i f e fo eo} : Digits i → Fraction f fo → Exponent e eo → IsNumber (i ++ (f ++ e)) ⟨i, fo, eo⟩

mutual
inductive IsExpr : List Nat → Expr → Prop where
  | one {a x t} : Ws a → IsTerm x t → IsExpr (a ++ x) (.one t)
  | add {x e a b y t} : IsExpr x e → Ws a → Ws b → IsTerm y t → IsExpr (x ++ (a ++ 0x2B :: (b ++ y))) (.add e t)
  | sub {x e a b y t} : IsExpr x e → Ws a → Ws b → IsTerm y t → IsExpr (x ++ (a ++ 0x2D :: (b ++ y))) (.sub e t)
inductive IsTerm : List Nat → Term → Prop where
  | one {a x f} : Ws a → IsFactor x f → IsTerm (a ++ x) (.one f)
  | mul {x t a b y f} : IsTerm x t → Ws a → Ws b → IsFactor y f → IsTerm (x ++ (a ++ 0x2A :: (b ++ y))) (.mul t f)
  | div {x t a b y f} : IsTerm x t → Ws a → Ws b → IsFactor y f → IsTerm (x ++ (a ++ 0x2F :: (b ++ y))) (.div t f)
inductive IsFactor : List Nat → Factor → Prop where
  | one {a x p} : Ws a → IsPowterm x p → IsFactor (a ++ x) (.one p)
  /-- the text after `^` starts with its own white space -/
  | pow {a x p b y f} : Ws a → IsPowterm x p → Ws b → IsFactor y f → IsFactor (a ++ (x ++ (b ++ 0x5E :: y))) (.pow p f)
inductive IsPowterm : List Nat → Powterm → Prop where
  | paren {a x e b} : Ws a → IsExpr x e → Ws b → IsPowterm (0x28 :: (a ++ (x ++ (b ++ [0x29])))) (.paren e)
  | neg {a x e} : Ws a → IsExpr x e → IsPowterm (0x2D :: (a ++ x)) (.neg e)
  | num {x n} : IsNumber x n → IsPowterm x (.num n)
end

/-- what `input` stands for -/
inductive IsInput : List Nat → Expr → Prop where
  | mk {a x e b} : Ws a → IsExpr x e → Ws b → IsInput (a ++ (x ++ b)) e

/-! ### The choice among the expressions a text can denote

A minus sign takes as much as it can: an operand followed by an operator does not end in a negated expression. -/

mutual
def Expr.endsNeg : Expr → Bool
  | .one t => t.endsNeg
  | .add _ t => t.endsNeg
  | .sub _ t => t.endsNeg
def Term.endsNeg : Term → Bool
  | .one f => f.endsNeg
  | .mul _ f => f.endsNeg
  | .div _ f => f.endsNeg
def Factor.endsNeg : Factor → Bool
  | .one p => p.endsNeg
  | .pow _ f => f.endsNeg
def Powterm.endsNeg : Powterm → Bool
  | .neg _ => true
  | _ => false
end

mutual
def Expr.Greedy : Expr → Prop
  | .one t => t.Greedy
  | .add e t => e.Greedy ∧ e.endsNeg = false ∧ t.Greedy
  | .sub e t => e.Greedy ∧ e.endsNeg = false ∧ t.Greedy
def Term.Greedy : Term → Prop
  | .one f => f.Greedy
  | .mul t f => t.Greedy ∧ t.endsNeg = false ∧ f.Greedy
  | .div t f => t.Greedy ∧ t.endsNeg = false ∧ f.Greedy
def Factor.Greedy : Factor → Prop
  | .one p => p.Greedy
  | .pow p f => p.Greedy ∧ p.endsNeg = false ∧ f.Greedy
def Powterm.Greedy : Powterm → Prop
  | .paren e => e.Greedy
  | .neg e => e.Greedy
  | .num _ => True
end

/-! ### Values

`Arith` (of the model) is what a value is computed with: a number type and its operations. -/

/-- Why an expression has no value. -/
inductive NoValue where
  /-- a number out of range -/
  | number
  /-- an exponent that is no 32-bit integer -/
  | exponent
deriving DecidableEq

/-- the integer that digits, maybe after a minus sign, denote -/
def integerValue : List Nat → Int
  | 0x2D :: x => - ((Nat.ofDigits 10 (x.reverse.map (· - 0x30)) : Nat) : Int)
  | x => ((Nat.ofDigits 10 (x.reverse.map (· - 0x30)) : Nat) : Int)

section
variable {R : Type} (A : Arith R)

/-- `1.5e3` is `1.5` to the power of `3`. -/
def Number.value (n : Number) : Except NoValue R :=
  match A.real (match n.frac with | some f => n.int ++ 0x2E :: f | none => n.int) with
  | none => .error .number
  | some r => match n.exp with
    | none => .ok r
    | some e =>
      if -2147483648 ≤ integerValue e ∧ integerValue e ≤ 2147483647 then .ok (A.pow r (A.ofInt (integerValue e)))
      else .error .exponent

mutual
/-- The operands are evaluated from left to right, except those of `^`. -/
def Expr.value : Expr → Except NoValue R
  | .one t => t.value
  | .add e t => do
    let x ← e.value
    let y ← t.value
    .ok (A.add x y)
  | .sub e t => do
    let x ← e.value
    let y ← t.value
    .ok (A.sub x y)
def Term.value : Term → Except NoValue R
  | .one f => f.value
  | .mul t f => do
    let x ← t.value
    let y ← f.value
    .ok (A.mul x y)
  | .div t f => do
    let x ← t.value
    let y ← f.value
    .ok (A.div x y)
def Factor.value : Factor → Except NoValue R
  | .one p => p.value
  | .pow p f => do
    let y ← f.value
    let x ← p.value
    .ok (A.pow x y)
def Powterm.value : Powterm → Except NoValue R
  | .paren e => e.value
  | .neg e => do
    let x ← e.value
    .ok (A.neg x)
  | .num n => n.value A
end
end

/-! ### Nesting -/

mutual
/-- how deep parentheses and minus signs are nested -/
def Expr.depth : Expr → Nat
  | .one t => t.depth
  | .add e t => max e.depth t.depth
  | .sub e t => max e.depth t.depth
def Term.depth : Term → Nat
  | .one f => f.depth
  | .mul t f => max t.depth f.depth
  | .div t f => max t.depth f.depth
def Factor.depth : Factor → Nat
  | .one p => p.depth
  | .pow p f => max p.depth f.depth
def Powterm.depth : Powterm → Nat
  | .paren e => e.depth + 1
  | .neg e => e.depth + 1
  | .num _ => 0
end

/-! ### Representation -/

/-- The `std::optional<std::string_view>` holds that text, or nothing. -/
inductive RepOpt (mem : Mem Nat) : Val → Option (List Nat) → Prop where
  | none : RepOpt mem (.opt none) none
  | some {sp} : sp.Valid mem → RepOpt mem (.opt (some (.span sp))) (some (sp.elems mem))

/-- The `number::result_type` holds the parts of the number. -/
inductive RepNumber (mem : Mem Nat) : Val → Number → Prop where
  | mk {sp f e fo eo} : sp.Valid mem → RepOpt mem f fo → RepOpt mem e eo →
      RepNumber mem (.user 0 0 [.span sp, f, e]) ⟨sp.elems mem, fo, eo⟩

/-- The `std::string_view` is that character. -/
inductive RepChar (mem : Mem Nat) : Val → Nat → Prop where
  | mk {sp c} : sp.Valid mem → sp.elems mem = [c] → RepChar mem (.user 1 0 [.span sp]) c

mutual
/-- The vectors of an `expr::result_type` hold the terms and the operators, in order. -/
inductive RepExpr (mem : Mem Nat) : List Val → List Val → Expr → Prop where
  | one {v t} : RepTerm mem v t → RepExpr mem [v] [] (.one t)
  | add {vs ds v d e t} : RepExpr mem vs ds e → RepChar mem d 0x2B → RepTerm mem v t →
      RepExpr mem (vs ++ [v]) (ds ++ [d]) (.add e t)
  | sub {vs ds v d e t} : RepExpr mem vs ds e → RepChar mem d 0x2D → RepTerm mem v t →
      RepExpr mem (vs ++ [v]) (ds ++ [d]) (.sub e t)
/-- A `term::result_type` is a pair of vectors. -/
inductive RepTerm (mem : Mem Nat) : Val → Term → Prop where
  | mk {vs ds t} : RepFactors mem vs ds t → RepTerm mem (.pair (.vec vs) (.vec ds)) t
/-- They hold the factors and the operators, in order. -/
inductive RepFactors (mem : Mem Nat) : List Val → List Val → Term → Prop where
  | one {v f} : RepFactor mem v f → RepFactors mem [v] [] (.one f)
  | mul {vs ds v d t f} : RepFactors mem vs ds t → RepChar mem d 0x2A → RepFactor mem v f →
      RepFactors mem (vs ++ [v]) (ds ++ [d]) (.mul t f)
  | div {vs ds v d t f} : RepFactors mem vs ds t → RepChar mem d 0x2F → RepFactor mem v f →
      RepFactors mem (vs ++ [v]) (ds ++ [d]) (.div t f)
/-- A `factor::result_type` is a vector. -/
inductive RepFactor (mem : Mem Nat) : Val → Factor → Prop where
  | mk {vs f} : RepPowterms mem vs f → RepFactor mem (.vec vs) f
/-- It holds the powterms, in order. -/
inductive RepPowterms (mem : Mem Nat) : List Val → Factor → Prop where
  | one {v p} : RepPowterm mem v p → RepPowterms mem [v] (.one p)
  | pow {v p vs f} : RepPowterm mem v p → RepPowterms mem vs f → RepPowterms mem (v :: vs) (.pow p f)
/-- The alternatives of the variant in a `powterm::result_type` are a parenthesised expression, a negated expression
and a number. -/
inductive RepPowterm (mem : Mem Nat) : Val → Powterm → Prop where
  | paren {vs ds e} : RepExpr mem vs ds e →
      RepPowterm mem (.user 2 0 [.var 0 (.user 3 0 [.pair (.vec vs) (.vec ds)])]) (.paren e)
  | neg {vs ds e} : RepExpr mem vs ds e →
      RepPowterm mem (.user 2 0 [.var 1 (.user 4 0 [.pair (.vec vs) (.vec ds)])]) (.neg e)
  | num {v n} : RepNumber mem v n → RepPowterm mem (.user 2 0 [.var 2 v]) (.num n)
end

/-- The `expr::result_type` represents the expression. -/
def Rep (mem : Mem Nat) (v : Val) (e : Expr) : Prop := ∃ vs ds, v = .pair (.vec vs) (.vec ds) ∧ RepExpr mem vs ds e

/-! Two families of inputs (C65) -/

/-- `(-1-` so many times -/
def unclosed : Nat → List Nat
  | 0 => []
  | k + 1 => 40 :: 45 :: 49 :: 45 :: unclosed k

/-- `k` minus signs, a `1` and `k` spaces -/
def padded (k : Nat) : List Nat := List.replicate k 45 ++ 49 :: List.replicate k 32

end Tok3n.Algebraic
