import Verif.Model.Operators
import Verif.Model.Modifiers
import Verif.Model.BasicApi
import Verif.Model.Denote
/-
Models `examples/algebraic/`: the grammar (parser.h), the evaluation of what it parses (evaluate.h) and its printing
(print.h).  Elements are character codes.

Types: `user 0` is `number::result_type`, `user 1` `std::string_view`, `user 2` `powterm::result_type`, `user 3`
`bracketed_expr`, `user 4` `negated_expr`.  A struct is represented by its members, a `std::string_view` (also inside
`number::result_type`) by the span it was made from.
-/

namespace Tok3n.Algebraic

/-- the codes of the characters of a string literal of the example, e.g. parser.h:29 -/
abbrev lit (x : String) : List Nat := x.toList.map Char.toNat

/-- `p % m` where `m` makes a parser of a parser (operators/modifier.h:12-17); `m(p)` is the same -/
def apply (m : Modifier Nat) (p : Parser Nat) : Parser Nat :=
  match percent (.parser p) (.modifier m) with
  | some (.parser q) => q
  | _ => p

/-- parser.h:29 -/
def ws : Parser Nat := apply .ignore (zeroOrMoreOp (anyApi (lit "\t\n\r ")))
/-- parser.h:30 -/
def dgt : Parser Nat := anyApi (lit "0123456789")

/-- `number::result_type` (parser.h:34-39) -/
abbrev numberType : Ty := .user 0
/-- `std::string_view` (parser.h:67, 89) -/
abbrev viewType : Ty := .user 1
/-- `powterm::result_type` (parser.h:77-83) -/
abbrev powtermType : Ty := .user 2
/-- `bracketed_expr` (parser.h:79) -/
abbrev bracketedType : Ty := .user 3
/-- `negated_expr` (parser.h:80) -/
abbrev negatedType : Ty := .user 4
/-- parser.h:61 -/
abbrev factorType : Ty := .vec powtermType
/-- parser.h:67 -/
abbrev termType : Ty := .pair (.vec factorType) (.vec viewType)
/-- parser.h:73 -/
abbrev exprType : Ty := .pair (.vec termType) (.vec viewType)

/-- the custom parser `number` (parser.h:32-49) -/
def number : Parser Nat := .custom 0
/-- the custom parser `powterm` (parser.h:53-57) -/
def powterm : Parser Nat := .custom 1
/-- the custom parser `factor` (parser.h:59-63) -/
def factor : Parser Nat := .custom 2
/-- the custom parser `term` (parser.h:65-69) -/
def term : Parser Nat := .custom 3
/-- the custom parser `expr` (parser.h:71-75) -/
def expr : Parser Nat := .custom 4
/-- the custom parser `input` (parser.h:116-120) -/
def input : Parser Nat := .custom 5

/-- parser.h:43 -/
def integer : Parser Nat := apply .join (oneOrMoreOp dgt)
/-- parser.h:44 -/
def fraction : Parser Nat := apply .join (sequenceOp (ignApi (lit ".")) (oneOrMoreOp dgt))
/-- parser.h:45 -/
def exponent : Parser Nat :=
  apply .join (sequenceOp (sequenceOp (apply .ignore (anyApi (lit "Ee"))) (maybeOp (allApi (lit "-")))) (oneOrMoreOp dgt))
/-- parser.h:41-48 -/
def numberBody : Parser Nat :=
  apply (.applyInto numberType) (sequenceOp (sequenceOp integer (maybeOp fraction)) (maybeOp exponent))

/-- one of the characters, as a `std::string_view`, after white space (parser.h:89, 94, 99) -/
def operator (cs : String) : Parser Nat := sequenceOp ws (apply (.into viewType) (anyApi (lit cs)))
/-- parser.h:87-90 -/
def factorBody : Parser Nat := apply (delimitApi₁ (operator "^")) (sequenceOp ws powterm)
/-- parser.h:92-95 -/
def termBody : Parser Nat := apply (delimitKeepApi₁ (operator "*/")) (sequenceOp ws factor)
/-- parser.h:97-100 -/
def exprBody : Parser Nat := apply (delimitKeepApi₁ (operator "+-")) (sequenceOp ws term)
/-- parser.h:104 -/
def bracketed : Parser Nat :=
  sequenceOp (sequenceOp (sequenceOp (sequenceOp (ignApi (lit "(")) ws) expr) ws) (ignApi (lit ")"))
/-- parser.h:105 -/
def negated : Parser Nat := sequenceOp (sequenceOp (ignApi (lit "-")) ws) expr
/-- parser.h:102-112 -/
def powtermBody : Parser Nat :=
  apply (.into powtermType)
    (choiceOp (choiceOp (apply (.into bracketedType) bracketed) (apply (.into negatedType) negated)) number)
/-- parser.h:118 -/
def inputBody : Parser Nat := apply .complete (sequenceOp (sequenceOp ws expr) ws)

/-- the variant in `powterm::result_type` (parser.h:82) -/
abbrev variantType : Ty := .var [bracketedType, negatedType, numberType]

/-- What the example (parser.h:29-112) does not determine: the memory, the compiler, pointer comparisons. -/
structure Machine where
  mem : Mem Nat
  toolchain : Toolchain
  relaxedTtp : Bool
  ptrEq : Ptr → Ptr → Bool

/-- The example's types and custom parsers.  All structs are aggregates made of their members
(parser.h:34-39, 77-83). -/
def ctx (m : Machine) : Ctx Nat Nat where
  eqv := (· == ·)
  mem := m.mem
  toolchain := m.toolchain
  relaxedTtp := m.relaxedTtp
  ptrEq := m.ptrEq
  fnRet := fun _ _ => none
  fnCall := fun _ _ => .ok .unit
  constTy := fun k => .user k
  constVal := fun k => .user k 0 []
  ctorOk := fun t ts =>
    (t == numberType && ts == [.span, .opt .span, .opt .span]) || (t == viewType && ts == [.span]) ||
    (t == powtermType && ts == [variantType]) || (t == bracketedType && ts == [exprType]) ||
    (t == negatedType && ts == [exprType])
  ctor := fun t vs => match t with
    | .user k => .ok (.user k 0 vs)
    | _ => .ok .unit
  userDefault := fun k => some (.user k 0 [])
  conv := fun _ _ => none
  convOpt := fun _ _ => none
  userSpan := fun _ => none
  boolTy := fun _ => false
  truthy := fun _ => false
  custom := fun k => match k with
    | 0 => ⟨numberBody, true, numberType⟩       -- parser.h:32-49
    | 1 => ⟨powtermBody, true, powtermType⟩     -- parser.h:53-57, 102-112
    | 2 => ⟨factorBody, true, factorType⟩       -- parser.h:59-63, 87-90
    | 3 => ⟨termBody, true, termType⟩           -- parser.h:65-69, 92-95
    | 4 => ⟨exprBody, true, exprType⟩           -- parser.h:71-75, 97-100
    | 5 => ⟨inputBody, false, exprType⟩         -- parser.h:116-120
    | _ => ⟨.epsilon, false, .void⟩

/-! ### evaluate.h -/

/-- How an evaluation (evaluate.h:11-139) or a printing (print.h:9-136) can fail. -/
inductive Failure where
  /-- undefined behaviour: past the end of a vector, of a `std::string_view`, or of the tabs -/
  | ub
  /-- `std::invalid_argument` (evaluate.h:111) -/
  | invalidArgument
  /-- `throw;` without an exception being handled: `std::terminate` -/
  | terminate
  /-- a value of another type, which a C++ program cannot pass -/
  | ill

/-- `double` and the operations evaluate.h applies to it.  `real` is `std::from_chars` for `double` on digits, maybe
with a point and more digits: `none` if the value is out of range (evaluate.h:105-117). -/
structure Arith (R : Type) where
  add : R → R → R
  sub : R → R → R
  mul : R → R → R
  div : R → R → R
  pow : R → R → R
  neg : R → R
  ofInt : Int → R
  real : List Nat → Option R

/-- the value of decimal digits, for `std::from_chars` (evaluate.h:135) -/
def decimal (x : List Nat) : Nat := x.foldl (fun n c => 10 * n + (c - 48)) 0

/-- `std::from_chars` for `int` (evaluate.h:135; [charconv.from.chars]; 32 bits): an optional minus sign and as many
digits as there
are; `none` for an error code (no digits, or out of range). -/
def fromCharsInt (x : List Nat) : Option Int :=
  let (sign, x) := match x with
    | 45 :: x => (-1, x)
    | x => (1, x)
  match x.takeWhile (fun c => 48 ≤ c && c ≤ 57) with
  | [] => none
  | ds =>
    let n : Int := sign * decimal ds
    if -2147483648 ≤ n ∧ n ≤ 2147483647 then some n else none

section
variable {R : Type} (mem : Mem Nat)

/-- reading all of a `std::string_view` (evaluate.h:121, 125, 135; print.h:76-80) -/
def textOf (s : Span) : Except Failure (List Nat) := if s.Valid mem then .ok (s.elems mem) else .error .ub

/-- `d.front()` of a `std::string_view` (evaluate.h:35, 62; print.h:94, 116) -/
def frontOf : Val → Except Failure Nat
  | .user 1 0 [.span s] => match textOf mem s with
    | .ok (c :: _) => .ok c
    | .ok [] => .error .ub
    | .error e => .error e
  | _ => .error .ill

/-- the text of an optional member (evaluate.h:122-126, 131-135; print.h:77-80) -/
def optionalText : Val → Except Failure (Option (List Nat))
  | .opt none => .ok none
  | .opt (some (.span s)) => match textOf mem s with
    | .ok x => .ok (some x)
    | .error e => .error e
  | _ => .error .ill

/-- `evaluate(const number::result_type&)` (evaluate.h:119-139) -/
def evaluateNumber (A : Arith R) : Val → Except Failure R
  | .user 0 0 [.span i, f, e] => do
    let i ← textOf mem i
    let f ← optionalText mem f
    let real := match f with
      | some f => i ++ 46 :: f
      | none => i
    let value ← match A.real real with
      | some r => Except.ok r
      | none => .error .invalidArgument
    let e ← optionalText mem e
    match e with
    | none => .ok value
    | some e => match fromCharsInt e with
      | none => .error .terminate
      | some n => .ok (A.pow value (A.ofInt n))
  | _ => .error .ill

mutual
/-- `evaluate(const powterm::result_type&)`, `(const bracketed_expr&)`, `(const negated_expr&)` (evaluate.h:90-103) -/
def evaluatePowterm (A : Arith R) : Val → Except Failure R
  | .user 2 0 [.var 0 (.user 3 0 [v])] => evaluateExpr A v
  | .user 2 0 [.var 1 (.user 4 0 [v])] => do
    let r ← evaluateExpr A v
    .ok (A.neg r)
  | .user 2 0 [.var 2 v] => evaluateNumber mem A v
  | _ => .error .ill
/-- `evaluate(const factor::result_type&)` (evaluate.h:73-88) -/
def evaluateFactor (A : Arith R) : Val → Except Failure R
  | .vec vs => factorLoop A vs
  | _ => .error .ill
/-- Its loop (evaluate.h:75-85) runs from `rbegin()` to `rend()`: the recursion evaluates what is behind an element
before the element
itself.  `*rbegin()` of an empty vector is undefined. -/
def factorLoop (A : Arith R) : List Val → Except Failure R
  | [] => .error .ub
  | [v] => evaluatePowterm A v
  | v :: vs => do
    let output ← factorLoop A vs
    let r ← evaluatePowterm A v
    .ok (A.pow r output)
/-- `evaluate(const term::result_type&)` (evaluate.h:46-71); `*begin()` of an empty vector is undefined -/
def evaluateTerm (A : Arith R) : Val → Except Failure R
  | .pair (.vec (v :: vs)) (.vec ds) => do
    let output ← evaluateFactor A v
    termLoop A output vs ds
  | .pair (.vec []) (.vec _) => .error .ub
  | _ => .error .ill
/-- its loop (evaluate.h:60-68) -/
def termLoop (A : Arith R) (output : R) : List Val → List Val → Except Failure R
  | v :: vs, d :: ds => do
    let c ← frontOf mem d
    if c = 42 then
      let r ← evaluateFactor A v
      termLoop A (A.mul output r) vs ds
    else if c = 47 then
      let r ← evaluateFactor A v
      termLoop A (A.div output r) vs ds
    else .error .terminate
  | _, _ => .ok output
/-- `evaluate(const expr::result_type&)` (evaluate.h:19-44) -/
def evaluateExpr (A : Arith R) : Val → Except Failure R
  | .pair (.vec (v :: vs)) (.vec ds) => do
    let output ← evaluateTerm A v
    exprLoop A output vs ds
  | .pair (.vec []) (.vec _) => .error .ub
  | _ => .error .ill
/-- its loop (evaluate.h:33-41) -/
def exprLoop (A : Arith R) (output : R) : List Val → List Val → Except Failure R
  | v :: vs, d :: ds => do
    let c ← frontOf mem d
    if c = 43 then
      let r ← evaluateTerm A v
      exprLoop A (A.add output r) vs ds
    else if c = 45 then
      let r ← evaluateTerm A v
      exprLoop A (A.sub output r) vs ds
    else .error .terminate
  | _, _ => .ok output
end

/-! ### print.h -/

/-- `get_tabs` (print.h:9-13): the buffer is 1024 tabs and a terminating null character -/
def getTabs (tabs : Nat) : Except Failure (List Nat) :=
  if tabs ≤ 1025 then .ok ((List.replicate 1024 9 ++ [0]).take tabs) else .error .ub

/-- `print(std::string_view, tabs)` (print.h:15-18): what it adds to the output -/
def printText (x : String) (tabs : Nat) : Except Failure (List Nat) := do
  let t ← getTabs tabs
  .ok (t ++ lit x)

/-- what is printed while an `autoprint` object exists (print.h:20-42) -/
def autoprint (x : String) (tabs : Nat) (inside : Except Failure (List Nat)) : Except Failure (List Nat) := do
  let a ← printText x tabs
  let b ← printText "{\n" tabs
  let i ← inside
  let c ← printText "}" tabs
  .ok (a ++ lit " :\n" ++ b ++ i ++ lit "\n" ++ c)

/-- `print(const number::result_type&, tabs)` (print.h:72-81) -/
def printNumber : Val → Nat → Except Failure (List Nat)
  | .user 0 0 [.span i, f, e], tabs => do
    let a ← printText "Number : " tabs
    let i ← textOf mem i
    let f ← optionalText mem f
    let e ← optionalText mem e
    .ok (a ++ i ++ (match f with | some f => 46 :: f | none => []) ++ (match e with | some e => 101 :: e | none => []))
  | _, _ => .error .ill

mutual
/-- `print(const powterm::result_type&, tabs)` and its alternatives (print.h:52-71) -/
def printPowterm : Val → Nat → Except Failure (List Nat)
  | .user 2 0 [.var 0 (.user 3 0 [v])], tabs =>
    autoprint "Powterm" tabs (autoprint "Bracketed Expr" (tabs + 1) (printExpr v (tabs + 2)))
  | .user 2 0 [.var 1 (.user 4 0 [v])], tabs =>
    autoprint "Powterm" tabs (autoprint "Negated Expr" (tabs + 1) (printExpr v (tabs + 2)))
  | .user 2 0 [.var 2 v], tabs => autoprint "Powterm" tabs (printNumber mem v (tabs + 1))
  | _, _ => .error .ill
/-- `print(const factor::result_type&, tabs)` (print.h:126-136) -/
def printFactor : Val → Nat → Except Failure (List Nat)
  | .vec vs, tabs => autoprint "Factor" tabs (printPowterms vs (tabs + 1))
  | _, _ => .error .ill
/-- its loop (print.h:130-135); `tabs` is that of the elements -/
def printPowterms : List Val → Nat → Except Failure (List Nat)
  | [], _ => .ok []
  | v :: vs, tabs => do
    let a ← printPowterm v tabs
    let b ← printPowterms vs tabs
    .ok (a ++ (if vs.isEmpty then [] else lit ",\n") ++ b)
/-- `print(const term::result_type&, tabs)` (print.h:104-125) -/
def printTerm : Val → Nat → Except Failure (List Nat)
  | .pair (.vec vs) (.vec ds), tabs => autoprint "Term" tabs (printFactors vs ds (tabs + 1))
  | _, _ => .error .ill
/-- its loop (print.h:110-124), by index: `vs` and `ds` are what is behind index `i`, so `delimiters[i]` is undefined
if `ds` is empty -/
def printFactors : List Val → List Val → Nat → Except Failure (List Nat)
  | [], _, _ => .ok []
  | [v], _, tabs => printFactor v tabs
  | _ :: _ :: _, [], _ => .error .ub
  | v :: vs, d :: ds, tabs => do
    let a ← printFactor v tabs
    let c ← frontOf mem d
    let b ← (if c = 42 then printText "<multiplied by>" tabs else if c = 47 then printText "<divided by>" tabs
      else .error .terminate)
    let r ← printFactors vs ds tabs
    .ok (a ++ lit ",\n" ++ b ++ lit "\n" ++ r)
/-- `print(const expr::result_type&, tabs)` (print.h:82-103) -/
def printExpr : Val → Nat → Except Failure (List Nat)
  | .pair (.vec vs) (.vec ds), tabs => autoprint "Expr" tabs (printTerms vs ds (tabs + 1))
  | _, _ => .error .ill
/-- its loop (print.h:88-102) -/
def printTerms : List Val → List Val → Nat → Except Failure (List Nat)
  | [], _, _ => .ok []
  | [v], _, tabs => printTerm v tabs
  | _ :: _ :: _, [], _ => .error .ub
  | v :: vs, d :: ds, tabs => do
    let a ← printTerm v tabs
    let c ← frontOf mem d
    let b ← (if c = 43 then printText "<plus>" tabs else if c = 45 then printText "<minus>" tabs
      else .error .terminate)
    let r ← printTerms vs ds tabs
    .ok (a ++ lit ",\n" ++ b ++ lit "\n" ++ r)
end

end

end Tok3n.Algebraic
