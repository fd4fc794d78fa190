import Verif.Model.TypeLevel
/-
`parse` and `lookahead` of every parser.

Models `detail/helpers.h` (result_builder, compound_executor), `detail/parsers/*.h`,
`detail/optimizations/*.h`, `detail/functions.h`, `detail/apply.h`.

Each C++ function body is one definition, written over the `parse`/`lookahead`
functions of its sub-parsers (`Sub`).  `sem` ties the knot: fuel bounds both the
nesting depth and the number of loop iterations, and `diverge` means that the fuel ran
out.  `Model/Denote.lean` removes the fuel.

`input_span input{ std::forward<R>(r) }` at the start of each body copies a span that
already is an `input_span`; the conversion of the user's argument is modelled in
`Model/Input.lean`.
-/

namespace Tok3n

variable {α β : Type}

/-- One callback invocation (map.h:35-57, filter.h:34-52, functions.h:12, 18): which function object, with which
arguments. -/
structure Call where
  fn : Fn
  args : List Val
  deriving DecidableEq, Repr

/-- Outcome of library code, with the log of callbacks (no counterpart in /repo). -/
abbrev Run (A : Type) := M Call A

/-- `result<T, U>` (result.h:14-88): `val = none` is the failure state; a successful
`result<void, U>` has `val = some unit`. -/
structure R where
  val : Option Val
  rem : Span
  deriving DecidableEq, Repr

/-- `has_value()` (result.h:42, 81). -/
def R.hasValue (r : R) : Bool := r.val.isSome

/-- `{ failure_tag, input }` (result.h:24-25, 74-75). -/
def R.failure (rem : Span) : R := ⟨none, rem⟩
/-- `{ success_tag, v, rem }` (result.h:27-31). -/
def R.success (v : Val) (rem : Span) : R := ⟨some v, rem⟩
/-- `result<void, V>{ success_tag, rem }` (result.h:77-78). -/
def R.successVoid (rem : Span) : R := ⟨some .unit, rem⟩

/-- `*res` (result.h:49-52): dereferencing a disengaged optional is undefined. -/
def R.deref (r : R) : Run Val :=
  match r.val with
  | some v => M.pure v
  | none => M.fail .ub

/-- The static member functions of a parser class (e.g. exactly.h:28-29, 50-51). -/
structure Sub where
  parse : Span → Run R
  look : Span → Run R

/-! ### `result_builder` (helpers.h:11-98)

The builder's state is its `value`; `T` is the builder's type. -/

/-- `result_builder() = default` with `T value{}` (helpers.h:11-25). -/
def builderInit (C : Ctx α β) (T : Ty) : Run Val := M.ofOption .ill (defaultVal C T)

/-- `assign` (helpers.h:27-39). -/
def builderAssign (T : Ty) (value : Val) (res : R) : Run Val :=
  if T = .void then M.pure value else res.deref

/-- `array_assign` (helpers.h:41-46); `std::array::operator[]` out of range is
undefined. -/
def builderArrayAssign (T : Ty) (value : Val) (index : Nat) (res : R) : Run Val :=
  if T = .void then M.pure value
  else match value with
    | .arr vs => do
      let v ← res.deref
      if index < vs.length then M.pure (.arr (vs.set index v)) else M.fail .ub
    | _ => M.fail .ill

/-- `get_assign<I>` (helpers.h:48-53); `std::get<I>` out of range does not compile. -/
def builderGetAssign (T : Ty) (value : Val) (i : Nat) (res : R) : Run Val :=
  if T = .void then M.pure value
  else match value with
    | .tup vs => do
      let v ← res.deref
      if i < vs.length then M.pure (.tup (vs.set i v)) else M.fail .ill
    | _ => M.fail .ill

/-- `emplace` (helpers.h:55-60), on an optional. -/
def builderEmplace (T : Ty) (value : Val) (res : R) : Run Val :=
  if T = .void then M.pure value
  else match value with
    | .opt _ => do
      let v ← res.deref
      M.pure (.opt (some v))
    | _ => M.fail .ill

/-- Conversion of a value of type `src` to `dst` (result.h:33-40, helpers.h:27-98). -/
def convert (C : Ctx α β) (src dst : Ty) (v : Val) : Run Val :=
  if src = dst then M.pure v
  else match C.conv src dst with
    | some f => M.pure (f v)
    | none => M.fail .ill

/-- `emplace<I>` (helpers.h:62-67), on a variant: constructs alternative `I` from a
value of type `src`; an index out of range or a missing conversion does not
compile. -/
def builderEmplaceAt (C : Ctx α β) (T : Ty) (i : Nat) (src : Ty) (value : Val) (res : R) :
    Run Val :=
  match T with
  | .void => M.pure value
  | .var ts =>
    match ts[i]? with
    | some dst => do
      let v ← res.deref
      let w ← convert C src dst v
      M.pure (.var i w)
    | none => M.fail .ill
  | _ => M.fail .ill

/-- `insert_back` (helpers.h:69-74). -/
def builderInsertBack (T : Ty) (value : Val) (res : R) : Run Val :=
  if T = .void then M.pure value
  else match value with
    | .vec vs => do
      let v ← res.deref
      M.pure (.vec (vs ++ [v]))
    | _ => M.fail .ill

/-- `insert_back_first` (helpers.h:76-81). -/
def builderInsertBackFirst (T : Ty) (value : Val) (res : R) : Run Val :=
  if T = .void then M.pure value
  else match value with
    | .pair (.vec vs) b => do
      let v ← res.deref
      M.pure (.pair (.vec (vs ++ [v])) b)
    | _ => M.fail .ill

/-- `insert_back_second` (helpers.h:83-88). -/
def builderInsertBackSecond (T : Ty) (value : Val) (res : R) : Run Val :=
  if T = .void then M.pure value
  else match value with
    | .pair a (.vec vs) => do
      let v ← res.deref
      M.pure (.pair a (.vec (vs ++ [v])))
    | _ => M.fail .ill

/-- `build` (helpers.h:90-97). -/
def builderBuild (T : Ty) (value : Val) (input : Span) : R :=
  if T = .void then R.successVoid input else R.success value input

/-! ### Basic parsers -/

/-- The parsers that have `basic_parser_traits` (any_of.h:22, none_of.h:22, all_of.h:20, anything.h:19). -/
inductive BasicP (α : Type) where
  | anyOf (arr : List α)
  | noneOf (arr : List α)
  | allOf (arr : List α)
  | anything

/-- `basic_parser_traits::length` (any_of.h:26, none_of.h:26, all_of.h:24,
anything.h:23). -/
def BasicP.length : BasicP α → Nat
  | .anyOf _ => 1
  | .noneOf _ => 1
  | .allOf arr => arr.length
  | .anything => 1

/-- The comparison `input_span<value_type>(arr.span()) != input_span<V>(...)` of
all_of.h:29, i.e. the negation of `span_equal_to` (span.h:122-138).  The literal
lives in static storage: an array of its own (`arr`), the input in `mem`. -/
def arrNotEqual (C : Ctx α β) (arr : List α) (s : Span) : Run Bool := do
  let e ← Span.equal (fun _ => arr) C.mem C.eqv ⟨.at 0 0, arr.length⟩ s
  M.pure (!e)

/-- `basic_parser_traits::failure_condition` (any_of.h:28-32, none_of.h:28-32,
all_of.h:26-30, anything.h:25-29), with short-circuit evaluation. -/
def failureCondition (C : Ctx α β) (b : BasicP α) (input : Span) : Run Bool :=
  match b with
  | .anyOf arr =>
    if input.empty then M.pure true
    else do
      let x ← input.front C.mem
      M.pure (!contains C.eqv arr x)
  | .noneOf arr =>
    if input.empty then M.pure true
    else do
      let x ← input.front C.mem
      M.pure (contains C.eqv arr x)
  | .allOf arr =>
    if input.len < arr.length then M.pure true
    else do
      let f ← input.first arr.length
      arrNotEqual C arr f
  | .anything => M.pure input.empty

/-- `{ input.data() + length, input.size() - length }` (basic_base.h:39, 52). -/
def advance (C : Ctx α β) (input : Span) (length : Nat) : Run Span := do
  let p ← input.ptr.add C.mem length
  let n ← sizeSub input.len length
  M.pure ⟨p, n⟩

/-- `basic_parser_base::parse` (basic_base.h:29-40). -/
def parseBasic (C : Ctx α β) (b : BasicP α) (input : Span) : Run R := do
  let c ← failureCondition C b input
  if c then M.pure (R.failure input)
  else do
    let rem ← advance C input b.length
    M.pure (R.success (.span ⟨input.ptr, b.length⟩) rem)

/-- `basic_parser_base::lookahead` (basic_base.h:42-53). -/
def lookBasic (C : Ctx α β) (b : BasicP α) (input : Span) : Run R := do
  let c ← failureCondition C b input
  if c then M.pure (R.failure input)
  else do
    let rem ← advance C input b.length
    M.pure (R.successVoid rem)

/-- `epsilon_parser::parse`/`lookahead` (epsilon.h:21-35). -/
def parseEpsilon (input : Span) : Run R := M.pure (R.successVoid input)

/-! ### Compound parsers -/

/-- One element of the fold expressions in `choice_parser`/`sequence_parser` (helpers.h:155-162):
its functions, its result type and its index (`none` = -1). -/
structure Elem where
  sub : Sub
  ty : Ty
  idx : Option Nat

/-- `compound_executor`'s state (helpers.h:148-149). -/
structure Exec where
  input : Span
  value : Val

/-- `compound_executor::execute` (helpers.h:155-198).  `T`, `unwrapped`, `isChoice` are
the template parameters. -/
def execute (C : Ctx α β) (T : Ty) (unwrapped isChoice : Bool) (e : Elem) (st : Exec) :
    Run (Bool × Exec) :=
  match e.idx with
  | none => do                                             -- execute_lookahead, 165-171
    let res ← e.sub.look st.input
    M.pure (res.hasValue, { st with input := res.rem })
  | some i => do                                           -- execute_element, 173-198
    let res ← e.sub.parse st.input
    if not res.hasValue then M.pure (false, st)
    else do
      let value ←
        (if unwrapped then builderAssign T st.value res
         else if isChoice then builderEmplaceAt C T i e.ty st.value res
         else builderGetAssign T st.value i res)
      M.pure (true, ⟨res.rem, value⟩)

/-- `(execute<P, I>() or ... or execute<Ps, Is>())` (choice.h:40, 61). -/
def foldOr (exec : Elem → Exec → Run (Bool × Exec)) : List Elem → Exec → Run (Bool × Exec)
  | [], st => M.pure (false, st)
  | e :: es, st => do
    let (ok, st) ← exec e st
    if ok then M.pure (true, st) else foldOr exec es st

/-- `(execute<P, I>() and ... and execute<Ps, Is>())` (sequence.h:41, 62). -/
def foldAnd (exec : Elem → Exec → Run (Bool × Exec)) : List Elem → Exec → Run (Bool × Exec)
  | [], st => M.pure (true, st)
  | e :: es, st => do
    let (ok, st) ← exec e st
    if ok then foldAnd exec es st else M.pure (false, st)

/-- Pair the sub-parsers with their types and indices (`execute<Ps, Is>`, helpers.h:155-156). -/
def mkElems (rec : Parser α → Sub) (C : Ctx α β) : List (Parser α) → List (Option Nat) → List Elem
  | p :: ps, i :: is => ⟨rec p, resultFor C p, i⟩ :: mkElems rec C ps is
  | _, _ => []

/-- `execute<Ps>()` with the default index -1 (helpers.h:155). -/
def mkLookElems (rec : Parser α → Sub) (C : Ctx α β) : List (Parser α) → List Elem
  | p :: ps => ⟨rec p, resultFor C p, none⟩ :: mkLookElems rec C ps
  | [] => []

/-- `choice_parser::parse` (choice.h:29-50). -/
def parseChoice (C : Ctx α β) (tr : Trait) (es : List Elem) (input : Span) : Run R := do
  let value ← builderInit C tr.ty
  let (successful, st) ← foldOr (execute C tr.ty tr.unwrapped true) es ⟨input, value⟩
  if not successful then M.pure (R.failure input)
  else M.pure (builderBuild tr.ty st.value st.input)

/-- `choice_parser::lookahead` (choice.h:52-67). -/
def lookChoice (C : Ctx α β) (tr : Trait) (es : List Elem) (input : Span) : Run R := do
  let (successful, st) ← foldOr (execute C .void tr.unwrapped true) es ⟨input, .unit⟩
  if successful then M.pure (R.successVoid st.input) else M.pure (R.failure input)

/-- `sequence_parser::parse` (sequence.h:29-51). -/
def parseSequence (C : Ctx α β) (tr : Trait) (es : List Elem) (input : Span) : Run R := do
  let value ← builderInit C tr.ty
  let (successful, st) ← foldAnd (execute C tr.ty tr.unwrapped false) es ⟨input, value⟩
  if not successful then M.pure (R.failure input)
  else M.pure (builderBuild tr.ty st.value st.input)

/-- `sequence_parser::lookahead` (sequence.h:53-68). -/
def lookSequence (C : Ctx α β) (tr : Trait) (es : List Elem) (input : Span) : Run R := do
  let (successful, st) ← foldAnd (execute C .void tr.unwrapped false) es ⟨input, .unit⟩
  if successful then M.pure (R.successVoid st.input) else M.pure (R.failure input)

/-- `maybe_parser::parse` (maybe.h:27-40).  `T` is `result_for<V>`. -/
def parseMaybe (C : Ctx α β) (T : Ty) (P : Sub) (input : Span) : Run R := do
  let value ← builderInit C T
  let res ← P.parse input
  let value ← (if res.hasValue then builderEmplace T value res else M.pure value)
  M.pure (builderBuild T value res.rem)

/-- `maybe_parser::lookahead` (maybe.h:42-53). -/
def lookMaybe (P : Sub) (input : Span) : Run R := do
  let res ← P.look input
  if res.hasValue then M.pure (R.successVoid res.rem) else M.pure (R.successVoid input)

/-- The `for` loop of `exactly_parser::parse` (exactly.h:37-47); `todo = N - i`. -/
def exactlyLoop (T : Ty) (P : Sub) (originalInput : Span) :
    (todo i : Nat) → (input : Span) → (value : Val) → Run R
  | 0, _, input, value => M.pure (builderBuild T value input)
  | todo + 1, i, input, value => do
    let res ← P.parse input
    if not res.hasValue then M.pure (R.failure originalInput)
    else do
      let value ← builderArrayAssign T value i res
      exactlyLoop T P originalInput todo (i + 1) res.rem value

/-- `exactly_parser::parse` (exactly.h:28-48). -/
def parseExactly (C : Ctx α β) (T : Ty) (N : Nat) (P : Sub) (input : Span) : Run R := do
  let value ← builderInit C T
  exactlyLoop T P input N 0 input value

/-- `exactly_parser::lookahead` (exactly.h:50-68). -/
def lookExactlyLoop (P : Sub) (originalInput : Span) : (todo : Nat) → (input : Span) → Run R
  | 0, input => M.pure (R.successVoid input)
  | todo + 1, input => do
    let res ← P.look input
    if not res.hasValue then M.pure (R.failure originalInput)
    else lookExactlyLoop P originalInput todo res.rem

/-- `exactly_parser::lookahead` (exactly.h:50-68) -/
def lookExactly (N : Nat) (P : Sub) (input : Span) : Run R := lookExactlyLoop P input N input

/-- The `while (true)` loop of `one_or_more_parser::parse` (one_or_more.h:36-44);
returns `successful`, `input` and the builder's value. -/
def oneOrMoreLoop (T : Ty) (P : Sub) :
    (fuel : Nat) → (successful : Bool) → (input : Span) → (value : Val) → Run (Bool × Span × Val)
  | 0, _, _, _ => M.diverge
  | fuel + 1, successful, input, value => do
    let res ← P.parse input
    let input := res.rem
    let successful := successful || res.hasValue
    if not res.hasValue then M.pure (successful, input, value)
    else do
      let value ← builderInsertBack T value res
      oneOrMoreLoop T P fuel successful input value

/-- `one_or_more_parser::parse` (one_or_more.h:27-50). -/
def parseOneOrMore (C : Ctx α β) (T : Ty) (P : Sub) (fuel : Nat) (input : Span) : Run R := do
  let value ← builderInit C T
  let (successful, input, value) ← oneOrMoreLoop T P fuel false input value
  if successful then M.pure (builderBuild T value input) else M.pure (R.failure input)

/-- The loop of `one_or_more_parser::lookahead` (one_or_more.h:60-67). -/
def lookOneOrMoreLoop (P : Sub) :
    (fuel : Nat) → (successful : Bool) → (input : Span) → Run (Bool × Span)
  | 0, _, _ => M.diverge
  | fuel + 1, successful, input => do
    let res ← P.look input
    let input := res.rem
    let successful := successful || res.hasValue
    if not res.hasValue then M.pure (successful, input)
    else lookOneOrMoreLoop P fuel successful input

/-- `one_or_more_parser::lookahead` (one_or_more.h:52-73). -/
def lookOneOrMore (P : Sub) (fuel : Nat) (input : Span) : Run R := do
  let (successful, input) ← lookOneOrMoreLoop P fuel false input
  if successful then M.pure (R.successVoid input) else M.pure (R.failure input)

/-- The `while (true)` loop of `zero_or_more_parser::parse` (zero_or_more.h:35-42). -/
def zeroOrMoreLoop (T : Ty) (P : Sub) :
    (fuel : Nat) → (input : Span) → (value : Val) → Run (Span × Val)
  | 0, _, _ => M.diverge
  | fuel + 1, input, value => do
    let res ← P.parse input
    let input := res.rem
    if not res.hasValue then M.pure (input, value)
    else do
      let value ← builderInsertBack T value res
      zeroOrMoreLoop T P fuel input value

/-- `zero_or_more_parser::parse` (zero_or_more.h:27-45). -/
def parseZeroOrMore (C : Ctx α β) (T : Ty) (P : Sub) (fuel : Nat) (input : Span) : Run R := do
  let value ← builderInit C T
  let (input, value) ← zeroOrMoreLoop T P fuel input value
  M.pure (builderBuild T value input)

/-- The loop of `zero_or_more_parser::lookahead` (zero_or_more.h:53-59). -/
def lookZeroOrMoreLoop (P : Sub) : (fuel : Nat) → (input : Span) → Run Span
  | 0, _ => M.diverge
  | fuel + 1, input => do
    let res ← P.look input
    let input := res.rem
    if not res.hasValue then M.pure input
    else lookZeroOrMoreLoop P fuel input

/-- `zero_or_more_parser::lookahead` (zero_or_more.h:47-62). -/
def lookZeroOrMore (P : Sub) (fuel : Nat) (input : Span) : Run R := do
  let input ← lookZeroOrMoreLoop P fuel input
  M.pure (R.successVoid input)

/-- Lines 53-59 of delimit.h: record an element. -/
def delimitRecordP (T tp td : Ty) (value : Val) (res : R) : Run Val :=
  if tp ≠ .void then
    if td = .void then builderInsertBack T value res
    else builderInsertBackFirst T value res
  else M.pure value

/-- Lines 66-75 of delimit.h: record a delimiter, only if an element follows. -/
def delimitRecordD (T tp td : Ty) (value : Val) (res delimitRes : R) : Run Val :=
  if td ≠ .void then
    if res.hasValue then
      if tp = .void then builderInsertBack T value delimitRes
      else builderInsertBackSecond T value delimitRes
    else M.pure value
  else M.pure value

/-- The `while (res.has_value())` loop of `delimit_parser::parse` (delimit.h:50-76);
`T`, `tp`, `td` are the result types of the parser, of `P` and of `D`. -/
def delimitLoop (T tp td : Ty) (P D : Sub) :
    (fuel : Nat) → (res : R) → (input : Span) → (value : Val) → Run (Span × Val)
  | 0, _, _, _ => M.diverge
  | fuel + 1, res, input, value =>
    if not res.hasValue then M.pure (input, value)
    else do
      let input := res.rem
      let value ← delimitRecordP T tp td value res
      let delimitRes ← D.parse input
      if not delimitRes.hasValue then M.pure (input, value)
      else do
        let res ← P.parse delimitRes.rem
        let value ← delimitRecordD T tp td value res delimitRes
        delimitLoop T tp td P D fuel res input value

/-- `delimit_parser::parse` (delimit.h:36-79). -/
def parseDelimit (C : Ctx α β) (T tp td : Ty) (P D : Sub) (fuel : Nat) (input : Span) :
    Run R := do
  let value ← builderInit C T
  let res ← P.parse input
  if not res.hasValue then M.pure (R.failure input)
  else do
    let (input, value) ← delimitLoop T tp td P D fuel res input value
    M.pure (builderBuild T value input)

/-- The loop of `delimit_parser::lookahead` (delimit.h:91-100). -/
def lookDelimitLoop (P D : Sub) : (fuel : Nat) → (res : R) → (input : Span) → Run Span
  | 0, _, _ => M.diverge
  | fuel + 1, res, input =>
    if not res.hasValue then M.pure input
    else do
      let input := res.rem
      let delimitResult ← D.look input
      if not delimitResult.hasValue then M.pure input
      else do
        let res ← P.look delimitResult.rem
        lookDelimitLoop P D fuel res input

/-- `delimit_parser::lookahead` (delimit.h:81-103). -/
def lookDelimit (P D : Sub) (fuel : Nat) (input : Span) : Run R := do
  let res ← P.look input
  if not res.hasValue then M.pure (R.failure input)
  else do
    let input ← lookDelimitLoop P D fuel res input
    M.pure (R.successVoid input)

/-- `ignore_parser::parse` and `lookahead` (ignore.h:21-31). -/
def parseIgnore (P : Sub) (input : Span) : Run R := P.look input

/-- `complete_parser::parse` (complete.h:21-32). -/
def parseComplete (P : Sub) (input : Span) : Run R := do
  let res ← P.parse input
  if !res.hasValue || !res.rem.empty then M.pure (R.failure input) else M.pure res

/-- `complete_parser::lookahead` (complete.h:34-45). -/
def lookComplete (P : Sub) (input : Span) : Run R := do
  let res ← P.look input
  if !res.hasValue || !res.rem.empty then M.pure (R.failure input) else M.pure res

/-! ### Function objects (functions.h, apply.h) -/

/-- `std::get<Is>(tup)...` (apply.h:15-21). -/
def componentsOf : Val → Option (List Val)
  | .tup vs => some vs
  | .pair a b => some [a, b]
  | .arr vs => some vs
  | _ => none

/-- the call of a function object returns or throws (`std::invoke`, map.h:35-57, filter.h:34-52) -/
def liftCall (r : Except Nat Val) : Run Val :=
  match r with
  | .ok v => M.pure v
  | .error e => M.fail (.exn e)

/-- `std::invoke(function, args...)` (functions.h:11-22, apply.h:15-32).  Every leaf
invocation is logged. -/
def invoke (C : Ctx α β) : Fn → List Val → Run Val
  | .user k, args => do M.log ⟨.user k, args⟩; liftCall (C.fnCall k args)
  | .apply f, args =>
    match args with
    | [v] => match componentsOf v with
      | some vs => invoke C f vs
      | none => M.fail .ill
    | _ => M.fail .ill
  | .const k, args => do M.log ⟨.const k, args⟩; M.pure (C.constVal k)
  | .construct t, args => do M.log ⟨.construct t, args⟩; liftCall (C.ctor t args)
  | .deflt t, args => do M.log ⟨.deflt t, args⟩; M.ofOption .ill (defaultVal C t)

/-- The argument list for a value of type `t`: none for `void`
(map.h:40, 52; filter.h:39, 47). -/
def argVals (t : Ty) (res : R) : Run (List Val) :=
  if t = .void then M.pure []
  else do
    let v ← res.deref
    M.pure [v]

/-- `map_parser::parse` (map.h:27-60); `before`/`after` are `before_type` and
`after_type`. -/
def parseMap (C : Ctx α β) (before after : Ty) (f : Fn) (P : Sub) (input : Span) : Run R := do
  let res ← P.parse input
  if not res.hasValue then M.pure (R.failure input)
  else do
    let args ← argVals before res
    let v ← invoke C f args
    if after = .void then M.pure (R.successVoid res.rem)
    else M.pure (R.success v res.rem)

/-- `filter_parser::parse` (filter.h:29-55); `T` is `result_for<V>`. -/
def parseFilter (C : Ctx α β) (T : Ty) (f : Fn) (P : Sub) (input : Span) : Run R := do
  let res ← P.parse input
  if not res.hasValue then M.pure (R.failure input)
  else do
    let args ← argVals T res
    let v ← invoke C f args
    if C.truthy v then M.pure res else M.pure (R.failure input)

/-! ### join -/

/-- The adjacency test of `join_executor::try_join` (join.h:52-65). -/
def adjacent (C : Ctx α β) (joined output : Span) : Run Bool :=
  match C.toolchain with
  | .msvc => do                      -- joined->data() + joined->size() == output.data()
    let e ← joined.ptr.add C.mem joined.len
    match e, output.ptr with
    | .at b o, .at b' o' =>
      if b = b' then M.pure (o == o') else M.pure (C.ptrEq (.at b o) (.at b' o'))
    | .null, .null => M.pure true
    | _, _ => M.pure false
  | .gnuRuntime =>                   -- joined->size() == output.data() - joined->data()
    match joined.ptr, output.ptr with
    | .at b o, .at b' o' =>
      if b = b' then M.pure ((joined.len : Int) == (o' : Int) - (o : Int)) else M.fail .ub
    | .null, .null => M.pure (joined.len == 0)
    | _, _ => M.fail .ub
  | .gnuConstexpr =>                 -- __builtin_constant_p(difference) and ...
    match joined.ptr, output.ptr with
    | .at b o, .at b' o' =>
      if b = b' then M.pure ((joined.len : Int) == (o' : Int) - (o : Int)) else M.pure false
    | .null, .null => M.pure (joined.len == 0)
    | _, _ => M.pure false

/-- `try_join(output_span)` (join.h:41-76); the state is the member `joined`. -/
def tryJoinSpan (C : Ctx α β) (joined : Option Span) (output : Span) : Run (Bool × Option Span) :=
  if output.empty then M.pure (true, joined)
  else match joined with
    | none => M.pure (true, some output)
    | some j => do
      let a ← adjacent C j output
      if a then M.pure (true, some ⟨j.ptr, j.len + output.len⟩)
      else M.pure (false, none)

mutual
/-- The overloads of `try_join` (join.h:41-113); a type without overload does not
compile. -/
def tryJoin (C : Ctx α β) (joined : Option Span) : Val → Run (Bool × Option Span)
  | .span s => tryJoinSpan C joined s
  | .vec vs => tryJoins C joined vs
  | .arr vs => tryJoins C joined vs
  | .opt none => M.pure (true, joined)
  | .opt (some v) => tryJoin C joined v
  | .tup vs => tryJoins C joined vs
  | .user k t vs =>
    match C.userSpan k with
    | some f => tryJoinSpan C joined (f (.user k t vs))
    | none => M.fail .ill
  | .unit => M.fail .ill
  | .var .. => M.fail .ill
  | .pair .. => M.fail .ill
/-- the loops of join.h:81-86, 92-97 and the fold of join.h:111 -/
def tryJoins (C : Ctx α β) (joined : Option Span) : List Val → Run (Bool × Option Span)
  | [] => M.pure (true, joined)
  | v :: vs => do
    let (ok, joined) ← tryJoin C joined v
    if ok then tryJoins C joined vs else M.pure (false, joined)
end

/-- `join_executor` (join.h:23-36): constructor and `get_joined`. -/
def joinExecutor (C : Ctx α β) (res : R) : Run (Option Span) := do
  let v ← res.deref
  let (ok, joined) ← tryJoin C none v
  if ok && joined.isNone then M.pure (some ⟨res.rem.ptr, 0⟩) else M.pure joined

/-- `join_parser::parse` (join.h:130-145). -/
def parseJoin (C : Ctx α β) (P : Sub) (input : Span) : Run R := do
  let res ← P.parse input
  if res.hasValue then do
    let joined ← joinExecutor C res
    match joined with
    | some j => M.pure (R.success (.span j) res.rem)
    | none => M.pure (R.failure input)
  else M.pure (R.failure input)

/-! ### `detail/optimizations` -/

/-- Which `Basic<arr>` the partial specialisations of
`optimizations/join_*_basic.h:12` match. -/
def asBasic (C : Ctx α β) : Parser α → Option (BasicP α)
  | .anyOf arr => if C.relaxedTtp then some (.anyOf arr) else none
  | .noneOf arr => if C.relaxedTtp then some (.noneOf arr) else none
  | .allOf arr => some (.allOf arr)
  | _ => none

/-- `join_parser<exactly_parser<Basic<arr>, N>>::parse`
(join_exactly_basic.h:22-42). -/
def joinExactlyLoop (C : Ctx α β) (b : BasicP α) (originalInput : Span) :
    (todo : Nat) → (input res : Span) → Run R
  | 0, input, res => M.pure (R.success (.span res) input)
  | todo + 1, input, res => do
    let c ← failureCondition C b input
    if c then M.pure (R.failure originalInput)
    else do
      let input ← input.subspan C.mem b.length
      joinExactlyLoop C b originalInput todo input ⟨res.ptr, res.len + b.length⟩

/-- `parse` (optimizations/join_exactly_basic.h:22-42) -/
def parseJoinExactlyBasic (C : Ctx α β) (b : BasicP α) (N : Nat) (input : Span) : Run R :=
  joinExactlyLoop C b input N input ⟨input.ptr, 0⟩

/-- … `::lookahead` (join_exactly_basic.h:44-62). -/
def lookJoinExactlyLoop (C : Ctx α β) (b : BasicP α) (originalInput : Span) :
    (todo : Nat) → (input : Span) → Run R
  | 0, input => M.pure (R.successVoid input)
  | todo + 1, input => do
    let c ← failureCondition C b input
    if c then M.pure (R.failure originalInput)
    else do
      let input ← input.subspan C.mem b.length
      lookJoinExactlyLoop C b originalInput todo input

/-- `lookahead` (optimizations/join_exactly_basic.h:44-62) -/
def lookJoinExactlyBasic (C : Ctx α β) (b : BasicP α) (N : Nat) (input : Span) : Run R :=
  lookJoinExactlyLoop C b input N input

/-- `join_parser<maybe_parser<Basic<arr>>>::parse` (join_maybe_basic.h:22-34). -/
def parseJoinMaybeBasic (C : Ctx α β) (b : BasicP α) (input : Span) : Run R := do
  let c ← failureCondition C b input
  if c then M.pure (R.success (.span ⟨input.ptr, 0⟩) input)
  else do
    let rem ← advance C input b.length
    M.pure (R.success (.span ⟨input.ptr, b.length⟩) rem)

/-- … `::lookahead` (join_maybe_basic.h:36-48). -/
def lookJoinMaybeBasic (C : Ctx α β) (b : BasicP α) (input : Span) : Run R := do
  let c ← failureCondition C b input
  if c then M.pure (R.successVoid input)
  else do
    let rem ← advance C input b.length
    M.pure (R.successVoid rem)

/-- `while (not Traits::failure_condition(input)) { res = …; input = …; }`
(join_one_or_more_basic.h:36-40, join_zero_or_more_basic.h:32-36). -/
def joinRepeatLoop (C : Ctx α β) (b : BasicP α) :
    (fuel : Nat) → (input res : Span) → Run (Span × Span)
  | 0, _, _ => M.diverge
  | fuel + 1, input, res => do
    let c ← failureCondition C b input
    if c then M.pure (input, res)
    else do
      let input ← input.subspan C.mem b.length
      joinRepeatLoop C b fuel input ⟨res.ptr, res.len + b.length⟩

/-- The same loop without `res` (join_one_or_more_basic.h:58-61,
join_zero_or_more_basic.h:49-52). -/
def lookJoinRepeatLoop (C : Ctx α β) (b : BasicP α) : (fuel : Nat) → (input : Span) → Run Span
  | 0, _ => M.diverge
  | fuel + 1, input => do
    let c ← failureCondition C b input
    if c then M.pure input
    else do
      let input ← input.subspan C.mem b.length
      lookJoinRepeatLoop C b fuel input

/-- `join_parser<one_or_more_parser<Basic<arr>>>::parse`
(join_one_or_more_basic.h:22-43). -/
def parseJoinOneOrMoreBasic (C : Ctx α β) (b : BasicP α) (fuel : Nat) (input : Span) : Run R := do
  let c ← failureCondition C b input
  if c then M.pure (R.failure input)
  else do
    let res : Span := ⟨input.ptr, b.length⟩
    let input ← input.subspan C.mem b.length
    let (input, res) ← joinRepeatLoop C b fuel input res
    M.pure (R.success (.span res) input)

/-- … `::lookahead` (join_one_or_more_basic.h:45-64). -/
def lookJoinOneOrMoreBasic (C : Ctx α β) (b : BasicP α) (fuel : Nat) (input : Span) : Run R := do
  let c ← failureCondition C b input
  if c then M.pure (R.failure input)
  else do
    let input ← input.subspan C.mem b.length
    let input ← lookJoinRepeatLoop C b fuel input
    M.pure (R.successVoid input)

/-- `join_parser<zero_or_more_parser<Basic<arr>>>::parse`
(join_zero_or_more_basic.h:22-39). -/
def parseJoinZeroOrMoreBasic (C : Ctx α β) (b : BasicP α) (fuel : Nat) (input : Span) : Run R := do
  let (input, res) ← joinRepeatLoop C b fuel input ⟨input.ptr, 0⟩
  M.pure (R.success (.span res) input)

/-- … `::lookahead` (join_zero_or_more_basic.h:41-55). -/
def lookJoinZeroOrMoreBasic (C : Ctx α β) (b : BasicP α) (fuel : Nat) (input : Span) : Run R := do
  let input ← lookJoinRepeatLoop C b fuel input
  M.pure (R.successVoid input)

/-- The generic `join_parser` (join.h:120-152). -/
def joinGeneric (C : Ctx α β) (P : Sub) : Sub := ⟨parseJoin C P, P.look⟩

/-- `join_parser<P>`: the most specialised of join.h:120-152 and
optimizations/join_{exactly,maybe,one_or_more,zero_or_more}_basic.h:12-13. -/
def semJoin (C : Ctx α β) (rec : Parser α → Sub) (fuel : Nat) (p : Parser α) : Sub :=
  match p with
  | .exactly q n =>
    match asBasic C q with
    | some b => ⟨parseJoinExactlyBasic C b n, lookJoinExactlyBasic C b n⟩
    | none => joinGeneric C (rec p)
  | .maybe q =>
    match asBasic C q with
    | some b => ⟨parseJoinMaybeBasic C b, lookJoinMaybeBasic C b⟩
    | none => joinGeneric C (rec p)
  | .oneOrMore q =>
    match asBasic C q with
    | some b => ⟨parseJoinOneOrMoreBasic C b fuel, lookJoinOneOrMoreBasic C b fuel⟩
    | none => joinGeneric C (rec p)
  | .zeroOrMore q =>
    match asBasic C q with
    | some b => ⟨parseJoinZeroOrMoreBasic C b fuel, lookJoinZeroOrMoreBasic C b fuel⟩
    | none => joinGeneric C (rec p)
  | _ => joinGeneric C (rec p)

/-! ### custom -/

/-- The implicit conversion of `result<T2, V>` to `result<T, V>` in the `return` of
`custom_parser::parse` (custom.h:42, 46): the identity for equal types, otherwise
`result`'s converting constructor (result.h:33-39), which `result<void, V>` does not
have.  It makes the `std::optional<T>` from the `std::optional<T2>`. -/
def convertResult (C : Ctx α β) (src dst : Ty) (res : R) : Run R :=
  if src = dst then M.pure res
  else if src = .void || dst = .void then M.fail .ill
  else match fromOptional C src dst with
    | some g => M.pure ⟨some (g res.val), res.rem⟩
    | none =>
      match res.val with
      | none => M.pure res
      | some v => do
        let w ← convert C src dst v
        M.pure ⟨some w, res.rem⟩

/-- `custom_parser::parse` (custom.h:41-47). -/
def parseCustom (C : Ctx α β) (src dst : Ty) (P : Sub) (input : Span) : Run R := do
  let res ← P.parse input
  convertResult C src dst res

/-! ### Tying the knot -/

/-- `P::parse` and `P::lookahead`, given those of the parsers `P` refers to: one case for each class template in
detail/parsers/*.h; the functions it refers to have the lines. -/
def step (C : Ctx α β) (rec : Parser α → Sub) (fuel : Nat) : Parser α → Sub
  | .anyOf arr => ⟨parseBasic C (.anyOf arr), lookBasic C (.anyOf arr)⟩
  | .noneOf arr => ⟨parseBasic C (.noneOf arr), lookBasic C (.noneOf arr)⟩
  | .allOf arr => ⟨parseBasic C (.allOf arr), lookBasic C (.allOf arr)⟩
  | .anything => ⟨parseBasic C .anything, lookBasic C .anything⟩
  | .epsilon => ⟨parseEpsilon, parseEpsilon⟩
  | .choice ps =>
    let tr := choiceTrait (resultsFor C ps)
    ⟨parseChoice C tr (mkElems rec C ps tr.seq), lookChoice C tr (mkLookElems rec C ps)⟩
  | .sequence ps =>
    let tr := sequenceTrait (resultsFor C ps)
    ⟨parseSequence C tr (mkElems rec C ps tr.seq), lookSequence C tr (mkLookElems rec C ps)⟩
  | .maybe p => ⟨parseMaybe C (resultFor C (.maybe p)) (rec p), lookMaybe (rec p)⟩
  | .exactly p n => ⟨parseExactly C (resultFor C (.exactly p n)) n (rec p), lookExactly n (rec p)⟩
  | .oneOrMore p =>
    ⟨parseOneOrMore C (resultFor C (.oneOrMore p)) (rec p) fuel, lookOneOrMore (rec p) fuel⟩
  | .zeroOrMore p =>
    ⟨parseZeroOrMore C (resultFor C (.zeroOrMore p)) (rec p) fuel, lookZeroOrMore (rec p) fuel⟩
  | .delimit p d =>
    ⟨parseDelimit C (resultFor C (.delimit p d)) (resultFor C p) (resultFor C d) (rec p) (rec d)
        fuel,
      lookDelimit (rec p) (rec d) fuel⟩
  | .ignore p => ⟨parseIgnore (rec p), parseIgnore (rec p)⟩
  | .complete p => ⟨parseComplete (rec p), lookComplete (rec p)⟩
  | .join p => semJoin C rec fuel p
  | .map p f => ⟨parseMap C (resultFor C p) (resultFor C (.map p f)) f (rec p), (rec p).look⟩
  | .filter p f => ⟨parseFilter C (resultFor C p) f (rec p), (rec p).look⟩
  | .named p _ => rec p
  | .custom k =>
    let body := (C.custom k).body
    ⟨parseCustom C (resultFor C body) (C.custom k).ty (rec body), (rec body).look⟩

/-- `parse`/`lookahead` (of all of detail/parsers/*.h) with bounded fuel; nothing in /repo corresponds to fuel. -/
def sem (C : Ctx α β) : Nat → Parser α → Sub
  | 0, _ => ⟨fun _ => M.diverge, fun _ => M.diverge⟩
  | n + 1, p => step C (sem C n) n p

end Tok3n
