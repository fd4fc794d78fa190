import Verif.Spec.Example
import Verif.Model.Operators
import Verif.Model.BasicApi
import Verif.Model.Modifiers
/-
The model against the repository's own tests (/repo/tests).

The modules under `Verif/Tests/Gen` are generated by `tools/tests2lean.py` from the test
files; every assertion of a test becomes an `Assertion` here.  `Assertion.Holds` says what
the macro of the same name asserts (tests/common/include/common/asserts/*.h), about the
model; `Assertion.check` evaluates it, and `Assertion.holds_of_check` shows that what
evaluates to `true` holds.

This validates the model, it proves no property: it shows that on every input the project's
authors wrote down, the model does what they say the library does.  Only the tests' classes and callbacks
(samples/classes.ipp, samples/functions.ipp) are written by hand, below.
-/

namespace Tok3n.Tests

/-! ### The types of the samples (tests/common/include/samples/classes.ipp, common/wrappers.h) -/

abbrev tBool : Ty := .user 0
abbrev tInt : Ty := .user 1
abbrev tSize : Ty := .user 2
abbrev tChar : Ty := .user 3
abbrev tNull : Ty := .user 4
abbrev tWchar : Ty := .user 5
abbrev tClass1 : Ty := .user 11
abbrev tClass2 : Ty := .user 12
abbrev tClass3 : Ty := .user 13
abbrev tClass4 : Ty := .user 14
abbrev tClass5 : Ty := .user 15
abbrev tSink : Ty := .user 16
/-- `MoveOnlyWrapper<T>`, `CopyOnlyWrapper<T>`: the tests use them for one `T` at a time, the
wrapped type is not part of the model's type -/
abbrev tMove (_ : Ty) : Ty := .user 17
abbrev tCopy (_ : Ty) : Ty := .user 18

/-- a scalar -/
abbrev num (t : Nat) (n : Nat) : Val := .user t n []
abbrev bool (b : Bool) : Val := num 0 (if b then 1 else 0)

/-! ### Callbacks (tests/common/include/samples/functions.ipp and lambdas of the tests) -/

abbrev f_func1 : Nat := 0
abbrev f_func2 : Nat := 1
abbrev f_func3 : Nat := 2
abbrev f_func3_apply : Nat := 3
abbrev f_func4 : Nat := 4
abbrev f_func4_apply : Nat := 5
abbrev f_filter_func1 : Nat := 6
abbrev f_filter_func2 : Nat := 7
abbrev f_filter_func3 : Nat := 8
abbrev f_filter_func3_apply : Nat := 9
abbrev f_sink_func : Nat := 10
abbrev f_true_filter : Nat := 11
/-- `[]() { return 0; }`, `[](auto) { return 0; }`, `[]() {}`, `[](auto) {}`, `[]() { return true; }`,
`[](auto) { return true; }` -/
abbrev f_zero : Nat := 12
abbrev f_zero1 : Nat := 13
abbrev f_unit : Nat := 14
abbrev f_unit1 : Nat := 15
abbrev f_true : Nat := 16
abbrev f_true1 : Nat := 17
/-- join_parser.cpp:258-270: a span of "a" if the range has an even number of elements, of "b" else -/
abbrev f_parity : Nat := 18
/-- `MoveOnlyWrapper<T>::make`, `CopyOnlyWrapper<T>::make` -/
abbrev f_move : Nat := 20
abbrev f_copy : Nat := 21
abbrev fMake (t : Ty) : Nat := if t = tMove .span then f_move else f_copy

/-- `constant<...>`: integers, characters, booleans and `nullptr` -/
abbrev cInt (n : Nat) : Nat := 4 * n
abbrev cChar (n : Nat) : Nat := 4 * n + 1
abbrev cBool (b : Bool) : Nat := if b then 6 else 2
abbrev cNull : Nat := 3

/-- `std::invoke_result` of the callbacks -/
def fnRet (k : Nat) (ts : List Ty) : Option Ty :=
  match k, ts with
  | 0, [.vec .span] => some tSize
  | 1, [.opt .span] => some (.vec tChar)
  | 2, [.tup [.span, .vec .span]] => some tBool
  | 3, [.span, .vec .span] => some tBool
  | 4, [.tup [.vec .span, .opt .span]] => some tSize
  | 5, [.vec .span, .opt .span] => some tSize
  | 6, [.vec .span] => some tBool
  | 7, [.opt .span] => some tBool
  | 8, [.tup [.span, .vec .span]] => some tBool
  | 9, [.span, .vec .span] => some tBool
  | 10, _ => some .void
  | 11, _ => some tBool
  | 12, [] => some tInt
  | 13, [_] => some tInt
  | 14, [] => some .void
  | 15, [_] => some .void
  | 16, [] => some tBool
  | 17, [_] => some tBool
  | 18, [.span] => some .span
  | 18, [.vec .span] => some .span
  | 20, [.span] => some (tMove .span)
  | 20, [.span, .span] => some (tMove .span)
  | 20, [.user 17] => some (tMove .span)
  | 21, [.span] => some (tCopy .span)
  | 21, [.span, .span] => some (tCopy .span)
  | 21, [.user 18] => some (tCopy .span)
  | _, _ => none

/-- the contents of the memory: the input, and the string literals "a" and "b" -/
def mem (text : List Nat) : Mem Nat
  | 0 => text
  | 1 => [97]
  | 2 => [98]
  | _ => []

/-- what `MoveOnlyWrapper<T>(args...)` and `CopyOnlyWrapper<T>(args...)` hold: `T(args...)` -/
def wrapped : List Val → List Val
  | [] => [.span Span.default]
  | [v] => [v]
  | l => [.tup l]

/-- the callbacks of the samples -/
def fnCall (text : List Nat) (k : Nat) (vs : List Val) : Val :=
  /- `3 * vec.size() * (not opt ? 1 : *opt == "abc" ? 2 : 3)` -/
  let f4 (vec : List Val) (opt : Option Val) : Val := num 2 (3 * vec.length *
    (match opt with
     | some (.span s) => if s.elems (mem text) = [97, 98, 99] then 2 else 3
     | _ => 1))
  let parity (n : Nat) : Val := if n % 2 = 0 then .span ⟨.at 1 0, 1⟩ else .span ⟨.at 2 0, 1⟩
  match k, vs with
  | 0, [.vec l] => num 2 l.length
  | 1, [.opt (some (.span s))] => .vec ((s.elems (mem text)).map (num 3))
  | 1, _ => .vec []
  | 2, [.tup [_, .vec l]] => bool (l.length % 2 == 0)
  | 3, [_, .vec l] => bool (l.length % 2 == 0)
  | 4, [.tup [.vec l, .opt o]] => f4 l o
  | 5, [.vec l, .opt o] => f4 l o
  | 6, [.vec l] => bool (l.length % 2 == 0)
  | 7, [.opt o] => bool o.isSome
  | 8, [.tup [_, .vec l]] => bool (l.length % 2 == 0)
  | 9, [_, .vec l] => bool (l.length % 2 == 0)
  | 10, _ => .unit
  | 11, _ => bool true
  | 12, _ => num 1 0
  | 13, _ => num 1 0
  | 14, _ => .unit
  | 15, _ => .unit
  | 16, _ => bool true
  | 17, _ => bool true
  | 18, [.span s] => parity s.len
  | 18, [.vec l] => parity l.length
  | 20, l => .user 17 0 (wrapped l)
  | 21, l => .user 18 0 (wrapped l)
  | _, _ => .unit

/-- the constructors of the classes (classes.ipp); a `Class4` converts to a `Class2` -/
def ctorOk (t : Ty) (ts : List Ty) : Bool :=
  match t, ts with
  | .user 11, [.span] => true
  | .user 12, [.span, .span] => true
  | .user 12, [.tup [.span, .span]] => true
  | .user 12, [.user 14] => true
  | .user 14, [.tup [.span, .span]] => true
  | .user 15, [.span, .span] => true
  | .user 16, _ => true
  | .user 17, [_] => true
  | .user 17, [.span, .span] => true
  | .user 18, [_] => true
  | .user 18, [.span, .span] => true
  | _, _ => false

def ctor (text : List Nat) (t : Ty) (vs : List Val) : Val :=
  match t, vs with
  | .user 11, [.span s] => num 11 (match s.elems (mem text) with
    | [32] => 0
    | [46] => 1
    | [_] => 2
    | _ => 3)
  | .user 12, [.tup l] => .user 12 0 l
  | .user 12, [.user 14 _ l] => .user 12 0 l
  | .user 12, l => .user 12 0 l
  | .user 14, [.tup l] => .user 14 0 l
  | .user 17, l => .user 17 0 (wrapped l)
  | .user 18, l => .user 18 0 (wrapped l)
  | .user k, l => .user k 0 l
  | _, _ => .unit

/-- The samples' world, parsing `text`. -/
def ctx (text : List Nat) : Ctx Nat Nat where
  eqv := (· == ·)
  mem := mem text
  -- the tests are evaluated by the compiler
  toolchain := .gnuConstexpr
  relaxedTtp := true
  ptrEq := fun _ _ => false
  fnRet := fnRet
  fnCall := fun k vs => .ok (fnCall text k vs)
  constTy := fun k => if k % 4 = 0 then tInt else if k % 4 = 1 then tChar else if k % 4 = 2 then tBool else tNull
  constVal := fun k => num (if k % 4 = 0 then 1 else if k % 4 = 1 then 3 else if k % 4 = 2 then 0 else 4) (k / 4)
  ctorOk := ctorOk
  ctor := fun t vs => .ok (ctor text t vs)
  userDefault := fun k => if k ∈ [0, 1, 2, 3, 4, 5, 13, 16] then some (.user k 0 [])
    else if k = 17 ∨ k = 18 then some (.user k 0 (wrapped [])) else none
  -- `int` to `std::size_t`, for `Cus2`
  conv := fun src dst => if src = tInt ∧ dst = tSize then
      some (fun v => match v with | .user _ n l => .user 2 n l | v => v) else none
  convOpt := fun _ _ => none
  userSpan := fun _ => none
  boolTy := fun t => t ∈ [tBool, tInt, tSize, tChar]
  truthy := fun v => match v with | .user _ n _ => n != 0 | _ => false
  -- `Cus1`, `Cus2` (divergent.ipp)
  custom := fun k => match k with
    | 0 => ⟨.map (.sequence [.oneOrMore (.allOf [97, 98, 99]), .maybe (.choice [.allOf [97, 98, 99], .allOf [63, 63]])])
        (.user f_func4), false, tSize⟩
    | _ => ⟨.map (.anyOf [97, 98, 99]) (.const (cInt 0)), true, tSize⟩

/-- the whole text -/
abbrev input (text : List Nat) : Span := ⟨.at 0 0, text.length⟩

/-! ### Expressions

What an expression of a test denotes: `none` if it doesn't compile. -/

abbrev T := Option (Term Nat)

abbrev P (p : Parser Nat) : T := some (.parser p)
abbrev M (m : Modifier Nat) : T := some (.modifier m)

abbrev lAny (l : List Nat) : T := P (anyApi l)
abbrev lNone (l : List Nat) : T := P (noneApi l)
abbrev lAll (l : List Nat) : T := P (allApi l)
abbrev lIgn (l : List Nat) : T := P (ignApi l)

/-- the parser an expression denotes -/
def T.parser? : T → Option (Parser Nat)
  | some (.parser p) => some p
  | _ => none
def T.modifier? : T → Option (Modifier Nat)
  | some (.modifier m) => some m
  | _ => none

/-- the type of an expression that is a parser -/
def get (t : T) : Parser Nat := t.parser?.getD (.choice [])

def tOr (a b : T) : T := do P (choiceOp (← a.parser?) (← b.parser?))
def tOrEps (a : T) : T := do P (orEps (← a.parser?))
def tThen (a b : T) : T := do P (sequenceOp (← a.parser?) (← b.parser?))
def tMaybe (a : T) : T := do P (maybeOp (← a.parser?))
def tPlus (a : T) : T := do P (oneOrMoreOp (← a.parser?))
def tStar (a : T) : T := do P (zeroOrMoreOp (← a.parser?))
def tNot (a : T) : T := do P (← notOp (← a.parser?))
def tMod (a b : T) : T := do percent (← a) (← b)
def tCall (m : T) : List T → T
  | [p] => do callMod (← m.modifier?) (← p.parser?)
  | _ => none
def tDelimit : List T → T
  | [d] => do M (delimitApi₁ (← d.parser?))
  | [p, d] => do P (delimitApi (← p.parser?) (← d.parser?))
  | _ => none
def tDelimitKeep : List T → T
  | [d] => do M (delimitKeepApi₁ (← d.parser?))
  | [p, d] => do P (delimitKeepApi (← p.parser?) (← d.parser?))
  | _ => none
def substs (l : List (Name × T)) : Option (List (Subst Nat)) :=
  l.mapM fun x => do pure (x.1, ← x.2.modifier?)
def tSub (l : List (Name × T)) : T := do M (subApi₁ (← substs l))
def tSubOn (p : T) (l : List (Name × T)) : T := do P (← subApi (← p.parser?) (← substs l))

/-- `P::result_for<char>` -/
abbrev rt (p : Parser Nat) : Ty := resultFor (ctx []) p

/-! ### Families (parser.h:38-56) -/

abbrev any_of_family : ParserFamily := .any_of
abbrev none_of_family : ParserFamily := .none_of
abbrev all_of_family : ParserFamily := .all_of
abbrev anything_family : ParserFamily := .anything
abbrev epsilon_family : ParserFamily := .epsilon
abbrev choice_family : ParserFamily := .choice
abbrev sequence_family : ParserFamily := .sequence
abbrev maybe_family : ParserFamily := .maybe
abbrev exactly_family : ParserFamily := .exactly
abbrev one_or_more_family : ParserFamily := .one_or_more
abbrev zero_or_more_family : ParserFamily := .zero_or_more
abbrev delimit_family : ParserFamily := .delimit
abbrev ignore_family : ParserFamily := .ignore
abbrev complete_family : ParserFamily := .complete
abbrev join_family : ParserFamily := .map
abbrev map_family : ParserFamily := .named
abbrev filter_family : ParserFamily := .filter
abbrev named_family : ParserFamily := .join
abbrev custom_family : ParserFamily := .custom

/-! ### Assertions -/

/-- an expected value: a text, a number (also `true`, `'c'`), `std::nullopt`/`nullptr`, or a list of
values in braces or in the constructor call of a tuple, a vector, an array, a pair, a class -/
inductive Exp where
  | text (l : List Nat)
  | num (n : Nat)
  | null
  | node (l : List Exp)

mutual
/-- `v == e`.  A span is compared by its contents (span.h:37-43).  An optional compares equal to the value it holds; so does a
variant here. -/
def eqv (text : List Nat) : Val → Exp → Bool
  | .span s, .text l => s.elems (mem text) == l
  | .span s, .node [] => s.elems (mem text) == []
  | .vec vs, .node es => eqvs text vs es
  | .arr vs, .node es => eqvs text vs es
  | .tup vs, .node es => eqvs text vs es
  | .pair a b, .node [x, y] => eqv text a x && eqv text b y
  | .opt none, .null => true
  | .opt none, .node [] => true
  | .opt (some v), e => eqv text v e
  | .var _ v, e => eqv text v e
  | .user 4 _ _, .null => true
  | .user _ n vs, .num k => vs.isEmpty && n == k
  | .user _ n vs, .node es => eqvs text vs es && (n == 0 || !vs.isEmpty)
  | _, _ => false
termination_by structural v => v
def eqvs (text : List Nat) : List Val → List Exp → Bool
  | [], [] => true
  | v :: vs, e :: es => eqv text v e && eqvs text vs es
  | _, _ => false
termination_by structural vs => vs
end

inductive Assertion where
  | success (p : Parser Nat) (text : List Nat) (out : Exp) (rem : List Nat)
  | successVoid (p : Parser Nat) (text : List Nat) (rem : List Nat)
  | failure (p : Parser Nat) (text : List Nat)
  | lookOnly (p : Parser Nat) (text : List Nat) (rem : List Nat)
  | isParser (p : Parser Nat) (family : ParserFamily) (type : Ty)
  | isNotParser (p : Parser Nat) (family : ParserFamily)
  | parsersEq (a b : T)
  | parsersNe (a b : T)
  | isTerm (a : T)
  | notParser (a : T)
  | isWf (p : Parser Nat)
  | notWf (p : Parser Nat)

/-- `P::parse(text)` and `P::lookahead(text)` are accepted by the compiler -/
structure Accepted (text : List Nat) (p : Parser Nat) : Prop where
  wf : p.wf = true
  ty : tyOK (ctx text) p = true
  parse : parseOK (ctx text) p = true

/-- what the macros assert -/
def Assertion.Holds : Assertion → Prop
  | .success p text out rem =>        -- ASSERT_PARSE_SUCCESS, common/asserts/Parse.h:43-49
    Accepted text p ∧
    (∃ log v s', Parses (ctx text) p (input text) log v s' ∧ eqv text v out = true ∧ s'.elems (mem text) = rem) ∧
    (∃ log s', Looks (ctx text) p (input text) log s' ∧ s'.elems (mem text) = rem)
  | .successVoid p text rem =>        -- ASSERT_PARSE_SUCCESS_VOID, Parse.h:51-56
    Accepted text p ∧
    (∃ log v s', Parses (ctx text) p (input text) log v s' ∧ s'.elems (mem text) = rem) ∧
    (∃ log s', Looks (ctx text) p (input text) log s' ∧ s'.elems (mem text) = rem)
  | .failure p text =>                -- ASSERT_PARSE_FAILURE, Parse.h:58-63
    Accepted text p ∧
    (∃ log s', ParseFails (ctx text) p (input text) log s' ∧ s'.elems (mem text) = text) ∧
    (∃ log s', LookFails (ctx text) p (input text) log s' ∧ s'.elems (mem text) = text)
  | .lookOnly p text rem =>           -- ASSERT_PARSE_LOOKAHEAD_ONLY, Parse.h:65-70
    Accepted text p ∧
    (∃ log s', ParseFails (ctx text) p (input text) log s' ∧ s'.elems (mem text) = text) ∧
    (∃ log s', Looks (ctx text) p (input text) log s' ∧ s'.elems (mem text) = rem)
  | .isParser p family type =>        -- ASSERT_IS_PARSER, Concept.h:17-24
    p.wf = true ∧ p.family = family ∧ tyOK (ctx []) p = true ∧ resultFor (ctx []) p = type
  | .isNotParser p family =>          -- ASSERT_IS_NOT_PARSER, Concept.h:26-31
    p.wf = true ∧ p.family = family ∧ tyOK (ctx []) p = false
  | .parsersEq a b => ∃ p, p.wf = true ∧ a = P p ∧ b = P p        -- ASSERT_PARSER_VALUES_EQ, Equality.h
  | .parsersNe a b => ∃ p q, p.wf = true ∧ q.wf = true ∧ a = P p ∧ b = P q ∧ p ≠ q
  | .isTerm a => ∃ p, p.wf = true ∧ a = P p                       -- ASSERT_..._CALLABLE, Operation.h
  | .notParser a => ∀ p, a ≠ P p                                  -- ASSERT_..._NOT_CALLABLE, Operation.h
  | .isWf p => p.wf = true                                        -- ASSERT_PARSER_CONSTRUCTIBLE, Constructible.h
  | .notWf p => p.wf = false

def fuel : Nat := 100

def remIs (text rem : List Nat) (s : Span) : Bool := s.elems (mem text) == rem

def runs (text : List Nat) (p : Parser Nat) (good : Option Val → Bool) (rem : List Nat) : Bool :=
  match (sem (ctx text) fuel p).parse (input text) with
  | .done _ (.ok ⟨v, s⟩) => good v && remIs text rem s
  | _ => false

def looks (text : List Nat) (p : Parser Nat) (good : Bool) (rem : List Nat) : Bool :=
  match (sem (ctx text) fuel p).look (input text) with
  | .done _ (.ok ⟨some .unit, s⟩) => good && remIs text rem s
  | .done _ (.ok ⟨none, s⟩) => !good && remIs text rem s
  | _ => false

def accepted (text : List Nat) (p : Parser Nat) : Bool :=
  p.wf && tyOK (ctx text) p && parseOK (ctx text) p

def Assertion.check : Assertion → Bool
  | .success p text out rem =>
    accepted text p && runs text p (fun v => match v with | some v => eqv text v out | none => false) rem &&
      Tests.looks text p true rem
  | .successVoid p text rem =>
    accepted text p && runs text p Option.isSome rem && Tests.looks text p true rem
  | .failure p text => accepted text p && runs text p Option.isNone text && Tests.looks text p false text
  | .lookOnly p text rem => accepted text p && runs text p Option.isNone text && Tests.looks text p true rem
  | .isParser p f t => p.wf && decide (p.family = f) && tyOK (ctx []) p && decide (resultFor (ctx []) p = t)
  | .isNotParser p f => p.wf && decide (p.family = f) && !tyOK (ctx []) p
  | .parsersEq a b =>
    match a, b with
    | some (.parser p), some (.parser q) => p.wf && decide (p = q)
    | _, _ => false
  | .parsersNe a b =>
    match a, b with
    | some (.parser p), some (.parser q) => p.wf && q.wf && !decide (p = q)
    | _, _ => false
  | .isTerm a => match a with | some (.parser p) => p.wf | _ => false
  | .notParser a => match a with | some (.parser _) => false | _ => true
  | .isWf p => p.wf
  | .notWf p => !p.wf

theorem runs_sound {text p good rem} (h : runs text p good rem = true) :
    ∃ log v s, Parse (ctx text) p (input text) = .done log (.ok ⟨v, s⟩) ∧ good v = true ∧
      s.elems (mem text) = rem := by
  unfold runs at h
  split at h
  · rename_i log v s hs
    simp only [Bool.and_eq_true, remIs, beq_iff_eq] at h
    exact ⟨log, v, s, Ex.parses _ fuel hs, h.1, h.2⟩
  · cases h

theorem looks_sound {text p good rem} (h : Tests.looks text p good rem = true) :
    ∃ log s, Look (ctx text) p (input text) = .done log (.ok ⟨if good then some .unit else none, s⟩) ∧
      s.elems (mem text) = rem := by
  unfold Tests.looks at h
  split at h
  · rename_i log s hs
    simp only [Bool.and_eq_true, remIs, beq_iff_eq] at h
    obtain ⟨rfl, h⟩ := h
    exact ⟨log, s, Ex.looks _ fuel hs, h⟩
  · rename_i log s hs
    simp only [Bool.and_eq_true, Bool.not_eq_true', remIs, beq_iff_eq] at h
    obtain ⟨rfl, h⟩ := h
    exact ⟨log, s, Ex.looks _ fuel hs, h⟩
  · cases h

theorem accepted_sound {text p} (h : accepted text p = true) : Accepted text p := by
  simp only [accepted, Bool.and_eq_true] at h
  exact ⟨h.1.1, h.1.2, h.2⟩

theorem Assertion.sound {a : Assertion} (h : a.check = true) : a.Holds := by
  cases a with
  | success p text out rem =>
    simp only [check, Bool.and_eq_true] at h
    obtain ⟨⟨h1, h2⟩, h3⟩ := h
    obtain ⟨log, v, s, h4, h5, h6⟩ := runs_sound h2
    obtain ⟨log', s', h7, h8⟩ := looks_sound h3
    cases v with
    | none => cases h5
    | some v => exact ⟨accepted_sound h1, ⟨log, v, s, h4, h5, h6⟩, ⟨log', s', h7, h8⟩⟩
  | successVoid p text rem =>
    simp only [check, Bool.and_eq_true] at h
    obtain ⟨⟨h1, h2⟩, h3⟩ := h
    obtain ⟨log, v, s, h4, h5, h6⟩ := runs_sound h2
    obtain ⟨log', s', h7, h8⟩ := looks_sound h3
    cases v with
    | none => cases h5
    | some v => exact ⟨accepted_sound h1, ⟨log, v, s, h4, h6⟩, ⟨log', s', h7, h8⟩⟩
  | failure p text =>
    simp only [check, Bool.and_eq_true] at h
    obtain ⟨⟨h1, h2⟩, h3⟩ := h
    obtain ⟨log, v, s, h4, h5, h6⟩ := runs_sound h2
    obtain ⟨log', s', h7, h8⟩ := looks_sound h3
    cases v with
    | none => exact ⟨accepted_sound h1, ⟨log, s, h4, h6⟩, ⟨log', s', h7, h8⟩⟩
    | some v => cases h5
  | lookOnly p text rem =>
    simp only [check, Bool.and_eq_true] at h
    obtain ⟨⟨h1, h2⟩, h3⟩ := h
    obtain ⟨log, v, s, h4, h5, h6⟩ := runs_sound h2
    obtain ⟨log', s', h7, h8⟩ := looks_sound h3
    cases v with
    | none => exact ⟨accepted_sound h1, ⟨log, s, h4, h6⟩, ⟨log', s', h7, h8⟩⟩
    | some v => cases h5
  | isParser p f t =>
    simp only [check, Bool.and_eq_true, decide_eq_true_eq] at h
    exact ⟨h.1.1.1, h.1.1.2, h.1.2, h.2⟩
  | isNotParser p f =>
    simp only [check, Bool.and_eq_true, decide_eq_true_eq, Bool.not_eq_true'] at h
    exact ⟨h.1.1, h.1.2, h.2⟩
  | parsersEq a b =>
    simp only [check] at h
    split at h
    · rename_i p q
      simp only [Bool.and_eq_true, decide_eq_true_eq] at h
      obtain ⟨h1, rfl⟩ := h
      exact ⟨p, h1, rfl, rfl⟩
    · cases h
  | parsersNe a b =>
    simp only [check] at h
    split at h
    · rename_i p q
      simp only [Bool.and_eq_true, Bool.not_eq_true', decide_eq_false_iff_not] at h
      exact ⟨p, q, h.1.1, h.1.2, rfl, rfl, h.2⟩
    · cases h
  | isTerm a =>
    simp only [check] at h
    split at h
    · exact ⟨_, h, rfl⟩
    · cases h
  | notParser a =>
    simp only [check] at h
    rintro p rfl
    cases h
  | isWf p => exact h
  | notWf p =>
    simp only [check, Bool.not_eq_true'] at h
    exact h

theorem Assertion.holds_of_check {l : List Assertion} (h : l.all Assertion.check = true) :
    ∀ a ∈ l, a.Holds := fun a ha => Assertion.sound (List.all_eq_true.1 h a ha)

end Tok3n.Tests
