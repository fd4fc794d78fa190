import Verif.Model.Algebraic
/-
Models `examples/algebraic/algebraic.cpp`: the program that reads, prints and evaluates.
-/

namespace Tok3n.Algebraic

/-- What a part of the program has written to `std::cout` (algebraic.cpp:14-25), and how it failed, if it did: then the
program does not go on behind it. -/
structure Shown where
  out : List Nat
  failure : Option Failure

/-- A failure of the parsing itself (algebraic.cpp:11, 20-22): an exception that nothing catches calls `std::terminate`. -/
def ofErr : Err → Failure
  | .ub => .ub
  | .exn _ => .terminate
  | .ill => .ill

section
variable (m : Machine) {R : Type} (A : Arith R) (format : R → List Nat)

/-- algebraic.cpp:11-18, with the text as a parameter: `s` is what `input::parse` sees of its argument.  `format` is how
`std::cout` writes a `double`.  The line feed of line 15 is written before `evaluate` is called ([expr.shift]).  `none`: the
program does not end. -/
noncomputable def reportText (s : Span) : Option Shown :=
  match Parse (ctx m) input s with
  | .diverge => none
  | .done _ (.err e) => some ⟨[], some (ofErr e)⟩
  | .done _ (.ok ⟨none, _⟩) => some ⟨lit "Parse failure.\n", none⟩
  | .done _ (.ok ⟨some v, _⟩) => match printExpr m.mem v 0 with
    | .error f => some ⟨[], some f⟩
    | .ok t => match evaluateExpr m.mem A v with
      | .error f => some ⟨t ++ lit "\n", some f⟩
      | .ok r => some ⟨t ++ lit "\n" ++ format r ++ lit "\n", none⟩

/-- `evaluate(*input::parse(...))` (algebraic.cpp:20-22); `*` of a result without a value is undefined (result.h:49-52) -/
noncomputable def evaluateText (s : Span) : Option (Except Failure R) :=
  match Parse (ctx m) input s with
  | .diverge => none
  | .done _ (.err e) => some (.error (ofErr e))
  | .done _ (.ok ⟨none, _⟩) => some (.error .ub)
  | .done _ (.ok ⟨some v, _⟩) => some (evaluateExpr m.mem A v)

/-- `main` (algebraic.cpp:9-27): `s` to `s3` are what `input::parse` sees of the four string literals -/
noncomputable def program (s s1 s2 s3 : Span) : Option Shown := do
  let a ← reportText m A format s
  if a.failure.isSome then return a
  let r1 ← evaluateText m A s1
  let r2 ← evaluateText m A s2
  let r3 ← evaluateText m A s3
  match r1, r2, r3 with
  | .error f, _, _ => return ⟨a.out, some f⟩
  | .ok _, .error f, _ => return ⟨a.out, some f⟩
  | .ok _, .ok _, .error f => return ⟨a.out, some f⟩
  | .ok a10, .ok a4, .ok a333 =>
    return ⟨a.out ++ (lit "\n" ++ format a10) ++ (lit "\n" ++ format a4) ++ (lit "\n" ++ format a333), none⟩
end

end Tok3n.Algebraic
