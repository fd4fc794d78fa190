import Verif.Model.Stateful
/-
`parse` and `lookahead` when what they do to elements and values can throw.

In `Model/Stateful.lean` only the user's function objects throw.  In C++ so can the `==` of the
element types, and whatever is done to values: a vector that grows asks for memory, values are
constructed, moved and converted, and these are operations of the user's types.  Here each such
operation asks an environment with a state of its own, which says whether it succeeds or throws.

The bodies below are those of `Model/Parse.lean` and `Model/Stateful.lean`, in the same order, with
these operations; the bodies of `Model/Stateful.lean` that have none but in their sub-parsers are
used as they are.  The library has no `try`, so that an exception ends the run.
-/

namespace Tok3n.Interrupted

open Stateful (SRun Callbacks)

variable {σ τ α β A : Type}

/-- What can throw besides the user's function objects (each with the lines where the library does it). -/
inductive Op (α β : Type) where
  /-- `a == x`, for an element of a literal and one of the input (static_array.h:54, span.h:134) -/
  | compare (a : α) (x : β)
  /-- Something is done to values: they are constructed, moved, copied, assigned or converted, and vectors grow.
  Simplification: one of these stands for all that a function of the library does to values in one go, without
  calling a parser or a function object in between. -/
  | value
  deriving DecidableEq, Repr

/-- What is outside of /repo: says of each operation whether it throws, and what state it leaves behind (e.g. how much
memory is left). -/
abbrev Env (α β τ : Type) := Op α β → τ → Except Nat τ

/-- An operation that may throw (`Op` has the lines). -/
def op (F : Env α β τ) (o : Op α β) : SRun (τ × σ) Unit := fun x =>
  match F o x.1 with
  | .ok t => M.pure ((), t, x.2)
  | .error e => M.fail (.exn e)

/-- the user's function objects (map.h:35-57, filter.h:34-52) do not see the environment -/
def carried (U : Callbacks σ) : Callbacks (τ × σ) where
  fnCall k args x := ((U.fnCall k args x.2).1, x.1, (U.fnCall k args x.2).2)
  ctor t args x := ((U.ctor t args x.2).1, x.1, (U.ctor t args x.2).2)

/-- A step of a `result_builder<T>` (helpers.h:11-98), which does nothing if `T` is `void`. -/
def built (F : Env α β τ) (T : Ty) (m : Run A) : SRun (τ × σ) A :=
  if T = .void then SRun.lift m else do op F .value; SRun.lift m

section
variable (F : Env α β τ) (C : Ctx α β)

/-! ### Basic parsers -/

/-- `static_array::contains` (static_array.h:50-57). -/
def contains : List α → β → SRun (τ × σ) Bool
  | [], _ => SRun.pure false
  | a :: as, x => do
    op F (.compare a x)
    if C.eqv a x then SRun.pure true else contains as x

/-- The loop of `span_equal_to::operator()` (span.h:130-137). -/
def equalLoop (readL : Nat → Run α) (readR : Nat → Run β) : (todo i : Nat) → SRun (τ × σ) Bool
  | 0, _ => SRun.pure true
  | todo + 1, i => do
    let a ← SRun.lift (readL i)
    let b ← SRun.lift (readR i)
    op F (.compare a b)
    if not (C.eqv a b) then SRun.pure false
    else equalLoop readL readR todo (i + 1)

/-- `operator==` of spans (span.h:122-138, 160-164), with the literal on the left. -/
def equal (memL : Mem α) (lhs rhs : Span) : SRun (τ × σ) Bool :=
  if lhs.len ≠ rhs.len then SRun.pure false
  else equalLoop F C (lhs.ptr.read memL) (rhs.ptr.read C.mem) lhs.len 0

/-- The comparison of all_of.h:29. -/
def arrNotEqual (arr : List α) (s : Span) : SRun (τ × σ) Bool := do
  let e ← equal F C (fun _ => arr) ⟨.at 0 0, arr.length⟩ s
  SRun.pure (!e)

/-- `basic_parser_traits::failure_condition` (any_of.h:28-32, none_of.h:28-32,
all_of.h:26-30, anything.h:25-29). -/
def failureCondition (b : BasicP α) (input : Span) : SRun (τ × σ) Bool :=
  match b with
  | .anyOf arr =>
    if input.empty then SRun.pure true
    else do
      let x ← SRun.lift (input.front C.mem)
      let c ← contains F C arr x
      SRun.pure (!c)
  | .noneOf arr =>
    if input.empty then SRun.pure true
    else do
      let x ← SRun.lift (input.front C.mem)
      contains F C arr x
  | .allOf arr =>
    if input.len < arr.length then SRun.pure true
    else do
      let f ← SRun.lift (input.first arr.length)
      arrNotEqual F C arr f
  | .anything => SRun.pure input.empty

/-- `basic_parser_base::parse` (basic_base.h:29-40).  Its value is an `output_span`, which does not throw. -/
def parseBasic (b : BasicP α) (input : Span) : SRun (τ × σ) R := do
  let c ← failureCondition F C b input
  if c then SRun.pure (R.failure input)
  else do
    let rem ← SRun.lift (advance C input b.length)
    SRun.pure (R.success (.span ⟨input.ptr, b.length⟩) rem)

/-- `basic_parser_base::lookahead` (basic_base.h:42-53). -/
def lookBasic (b : BasicP α) (input : Span) : SRun (τ × σ) R := do
  let c ← failureCondition F C b input
  if c then SRun.pure (R.failure input)
  else do
    let rem ← SRun.lift (advance C input b.length)
    SRun.pure (R.successVoid rem)

/-! ### Compound parsers -/

/-- `compound_executor::execute` (helpers.h:155-198). -/
def execute (T : Ty) (unwrapped isChoice : Bool) (e : Stateful.Elem (τ × σ)) (st : Exec) : SRun (τ × σ) (Bool × Exec) :=
  match e.idx with
  | none => do
    let res ← e.sub.look st.input
    SRun.pure (res.hasValue, { st with input := res.rem })
  | some i => do
    let res ← e.sub.parse st.input
    if not res.hasValue then SRun.pure (false, st)
    else do
      let value ← built F T
        (if unwrapped then builderAssign T st.value res
         else if isChoice then builderEmplaceAt C T i e.ty st.value res
         else builderGetAssign T st.value i res)
      SRun.pure (true, ⟨res.rem, value⟩)

/-- `result_builder::build` (helpers.h:90-98). -/
def build (T : Ty) (value : Val) (input : Span) : SRun (τ × σ) R := built F T (M.pure (builderBuild T value input))

/-- `choice_parser::parse` (choice.h:29-50). -/
def parseChoice (tr : Trait) (es : List (Stateful.Elem (τ × σ))) (input : Span) : SRun (τ × σ) R := do
  let value ← built F tr.ty (builderInit C tr.ty)
  let (successful, st) ← Stateful.foldOr (execute F C tr.ty tr.unwrapped true) es ⟨input, value⟩
  if not successful then SRun.pure (R.failure input)
  else build F tr.ty st.value st.input

/-- `sequence_parser::parse` (sequence.h:29-51). -/
def parseSequence (tr : Trait) (es : List (Stateful.Elem (τ × σ))) (input : Span) : SRun (τ × σ) R := do
  let value ← built F tr.ty (builderInit C tr.ty)
  let (successful, st) ← Stateful.foldAnd (execute F C tr.ty tr.unwrapped false) es ⟨input, value⟩
  if not successful then SRun.pure (R.failure input)
  else build F tr.ty st.value st.input

/-- `maybe_parser::parse` (maybe.h:27-40). -/
def parseMaybe (T : Ty) (P : Stateful.Sub (τ × σ)) (input : Span) : SRun (τ × σ) R := do
  let value ← built F T (builderInit C T)
  let res ← P.parse input
  let value ← (if res.hasValue then built F T (builderEmplace T value res) else SRun.pure value)
  build F T value res.rem

/-- The `for` loop of `exactly_parser::parse` (exactly.h:37-47). -/
def exactlyLoop (T : Ty) (P : Stateful.Sub (τ × σ)) (originalInput : Span) :
    (todo i : Nat) → (input : Span) → (value : Val) → SRun (τ × σ) R
  | 0, _, input, value => build F T value input
  | todo + 1, i, input, value => do
    let res ← P.parse input
    if not res.hasValue then SRun.pure (R.failure originalInput)
    else do
      let value ← built F T (builderArrayAssign T value i res)
      exactlyLoop T P originalInput todo (i + 1) res.rem value

/-- `exactly_parser::parse` (exactly.h:28-48). -/
def parseExactly (T : Ty) (N : Nat) (P : Stateful.Sub (τ × σ)) (input : Span) : SRun (τ × σ) R := do
  let value ← built F T (builderInit C T)
  exactlyLoop F T P input N 0 input value

/-- The `while (true)` loop of `one_or_more_parser::parse` (one_or_more.h:36-44). -/
def oneOrMoreLoop (T : Ty) (P : Stateful.Sub (τ × σ)) :
    (fuel : Nat) → (successful : Bool) → (input : Span) → (value : Val) → SRun (τ × σ) (Bool × Span × Val)
  | 0, _, _, _ => SRun.diverge
  | fuel + 1, successful, input, value => do
    let res ← P.parse input
    let input := res.rem
    let successful := successful || res.hasValue
    if not res.hasValue then SRun.pure (successful, input, value)
    else do
      let value ← built F T (builderInsertBack T value res)
      oneOrMoreLoop T P fuel successful input value

/-- `one_or_more_parser::parse` (one_or_more.h:27-50). -/
def parseOneOrMore (T : Ty) (P : Stateful.Sub (τ × σ)) (fuel : Nat) (input : Span) : SRun (τ × σ) R := do
  let value ← built F T (builderInit C T)
  let (successful, input, value) ← oneOrMoreLoop F T P fuel false input value
  if successful then build F T value input else SRun.pure (R.failure input)

/-- The `while (true)` loop of `zero_or_more_parser::parse` (zero_or_more.h:35-42). -/
def zeroOrMoreLoop (T : Ty) (P : Stateful.Sub (τ × σ)) :
    (fuel : Nat) → (input : Span) → (value : Val) → SRun (τ × σ) (Span × Val)
  | 0, _, _ => SRun.diverge
  | fuel + 1, input, value => do
    let res ← P.parse input
    let input := res.rem
    if not res.hasValue then SRun.pure (input, value)
    else do
      let value ← built F T (builderInsertBack T value res)
      zeroOrMoreLoop T P fuel input value

/-- `zero_or_more_parser::parse` (zero_or_more.h:27-45). -/
def parseZeroOrMore (T : Ty) (P : Stateful.Sub (τ × σ)) (fuel : Nat) (input : Span) : SRun (τ × σ) R := do
  let value ← built F T (builderInit C T)
  let (input, value) ← zeroOrMoreLoop F T P fuel input value
  build F T value input

/-- The `while (res.has_value())` loop of `delimit_parser::parse` (delimit.h:50-76). -/
def delimitLoop (T tp td : Ty) (P D : Stateful.Sub (τ × σ)) :
    (fuel : Nat) → (res : R) → (input : Span) → (value : Val) → SRun (τ × σ) (Span × Val)
  | 0, _, _, _ => SRun.diverge
  | fuel + 1, res, input, value =>
    if not res.hasValue then SRun.pure (input, value)
    else do
      let input := res.rem
      let value ← built F T (delimitRecordP T tp td value res)
      let delimitRes ← D.parse input
      if not delimitRes.hasValue then SRun.pure (input, value)
      else do
        let res ← P.parse delimitRes.rem
        let value ← built F T (delimitRecordD T tp td value res delimitRes)
        delimitLoop T tp td P D fuel res input value

/-- `delimit_parser::parse` (delimit.h:36-79). -/
def parseDelimit (T tp td : Ty) (P D : Stateful.Sub (τ × σ)) (fuel : Nat) (input : Span) : SRun (τ × σ) R := do
  let value ← built F T (builderInit C T)
  let res ← P.parse input
  if not res.hasValue then SRun.pure (R.failure input)
  else do
    let (input, value) ← delimitLoop F T tp td P D fuel res input value
    build F T value input

/-- `complete_parser::parse` (complete.h:21-32): `return res` moves it. -/
def parseComplete (P : Stateful.Sub (τ × σ)) (input : Span) : SRun (τ × σ) R := do
  let res ← P.parse input
  if !res.hasValue || !res.rem.empty then SRun.pure (R.failure input)
  else do
    op F .value
    SRun.pure res

/-! ### Function objects -/

/-- `std::invoke(function, args...)` (functions.h:11-22, apply.h:15-32): the arguments are passed, the
function is called and its result is received. -/
def invoke (U : Callbacks σ) (f : Fn) (args : List Val) : SRun (τ × σ) Val := do
  op F .value
  let v ← Stateful.invoke C (carried U) f args
  op F .value
  SRun.pure v

/-- `map_parser::parse` (map.h:27-60). -/
def parseMap (U : Callbacks σ) (before after : Ty) (f : Fn) (P : Stateful.Sub (τ × σ)) (input : Span) : SRun (τ × σ) R := do
  let res ← P.parse input
  if not res.hasValue then SRun.pure (R.failure input)
  else do
    let args ← SRun.lift (argVals before res)
    let v ← invoke F C U f args
    if after = .void then SRun.pure (R.successVoid res.rem)
    else SRun.pure (R.success v res.rem)

/-- `filter_parser::parse` (filter.h:29-55). -/
def parseFilter (U : Callbacks σ) (T : Ty) (f : Fn) (P : Stateful.Sub (τ × σ)) (input : Span) : SRun (τ × σ) R := do
  let res ← P.parse input
  if not res.hasValue then SRun.pure (R.failure input)
  else do
    let args ← SRun.lift (argVals T res)
    let v ← invoke F C U f args
    if C.truthy v then SRun.pure res else SRun.pure (R.failure input)

/-! ### join -/

/-- `join_parser::parse` (join.h:130-145): user types are converted to spans. -/
def parseJoin (P : Stateful.Sub (τ × σ)) (input : Span) : SRun (τ × σ) R := do
  let res ← P.parse input
  if res.hasValue then do
    op F .value
    let joined ← SRun.lift (joinExecutor C res)
    match joined with
    | some j => SRun.pure (R.success (.span j) res.rem)
    | none => SRun.pure (R.failure input)
  else SRun.pure (R.failure input)

/-- `join_parser<exactly_parser<Basic<arr>, N>>::parse` (join_exactly_basic.h:22-42). -/
def joinExactlyLoop (b : BasicP α) (originalInput : Span) : (todo : Nat) → (input res : Span) → SRun (τ × σ) R
  | 0, input, res => SRun.pure (R.success (.span res) input)
  | todo + 1, input, res => do
    let c ← failureCondition F C b input
    if c then SRun.pure (R.failure originalInput)
    else do
      let input ← SRun.lift (input.subspan C.mem b.length)
      joinExactlyLoop b originalInput todo input ⟨res.ptr, res.len + b.length⟩

/-- … `::lookahead` (join_exactly_basic.h:44-62). -/
def lookJoinExactlyLoop (b : BasicP α) (originalInput : Span) : (todo : Nat) → (input : Span) → SRun (τ × σ) R
  | 0, input => SRun.pure (R.successVoid input)
  | todo + 1, input => do
    let c ← failureCondition F C b input
    if c then SRun.pure (R.failure originalInput)
    else do
      let input ← SRun.lift (input.subspan C.mem b.length)
      lookJoinExactlyLoop b originalInput todo input

/-- `join_parser<maybe_parser<Basic<arr>>>::parse` (join_maybe_basic.h:22-34). -/
def parseJoinMaybeBasic (b : BasicP α) (input : Span) : SRun (τ × σ) R := do
  let c ← failureCondition F C b input
  if c then SRun.pure (R.success (.span ⟨input.ptr, 0⟩) input)
  else do
    let rem ← SRun.lift (advance C input b.length)
    SRun.pure (R.success (.span ⟨input.ptr, b.length⟩) rem)

/-- … `::lookahead` (join_maybe_basic.h:36-48). -/
def lookJoinMaybeBasic (b : BasicP α) (input : Span) : SRun (τ × σ) R := do
  let c ← failureCondition F C b input
  if c then SRun.pure (R.successVoid input)
  else do
    let rem ← SRun.lift (advance C input b.length)
    SRun.pure (R.successVoid rem)

/-- The loop of join_one_or_more_basic.h:36-40 and join_zero_or_more_basic.h:32-36. -/
def joinRepeatLoop (b : BasicP α) : (fuel : Nat) → (input res : Span) → SRun (τ × σ) (Span × Span)
  | 0, _, _ => SRun.diverge
  | fuel + 1, input, res => do
    let c ← failureCondition F C b input
    if c then SRun.pure (input, res)
    else do
      let input ← SRun.lift (input.subspan C.mem b.length)
      joinRepeatLoop b fuel input ⟨res.ptr, res.len + b.length⟩

/-- The same loop without `res` (join_one_or_more_basic.h:58-61, join_zero_or_more_basic.h:49-52). -/
def lookJoinRepeatLoop (b : BasicP α) : (fuel : Nat) → (input : Span) → SRun (τ × σ) Span
  | 0, _ => SRun.diverge
  | fuel + 1, input => do
    let c ← failureCondition F C b input
    if c then SRun.pure input
    else do
      let input ← SRun.lift (input.subspan C.mem b.length)
      lookJoinRepeatLoop b fuel input

/-- `join_parser<one_or_more_parser<Basic<arr>>>::parse` (join_one_or_more_basic.h:22-43). -/
def parseJoinOneOrMoreBasic (b : BasicP α) (fuel : Nat) (input : Span) : SRun (τ × σ) R := do
  let c ← failureCondition F C b input
  if c then SRun.pure (R.failure input)
  else do
    let res : Span := ⟨input.ptr, b.length⟩
    let input ← SRun.lift (input.subspan C.mem b.length)
    let (input, res) ← joinRepeatLoop F C b fuel input res
    SRun.pure (R.success (.span res) input)

/-- … `::lookahead` (join_one_or_more_basic.h:45-64). -/
def lookJoinOneOrMoreBasic (b : BasicP α) (fuel : Nat) (input : Span) : SRun (τ × σ) R := do
  let c ← failureCondition F C b input
  if c then SRun.pure (R.failure input)
  else do
    let input ← SRun.lift (input.subspan C.mem b.length)
    let input ← lookJoinRepeatLoop F C b fuel input
    SRun.pure (R.successVoid input)

/-- `join_parser<zero_or_more_parser<Basic<arr>>>::parse` (join_zero_or_more_basic.h:22-39). -/
def parseJoinZeroOrMoreBasic (b : BasicP α) (fuel : Nat) (input : Span) : SRun (τ × σ) R := do
  let (input, res) ← joinRepeatLoop F C b fuel input ⟨input.ptr, 0⟩
  SRun.pure (R.success (.span res) input)

/-- … `::lookahead` (join_zero_or_more_basic.h:41-55). -/
def lookJoinZeroOrMoreBasic (b : BasicP α) (fuel : Nat) (input : Span) : SRun (τ × σ) R := do
  let input ← lookJoinRepeatLoop F C b fuel input
  SRun.pure (R.successVoid input)

/-- The generic `join_parser` (join.h:120-152). -/
def joinGeneric (P : Stateful.Sub (τ × σ)) : Stateful.Sub (τ × σ) := ⟨parseJoin F C P, P.look⟩

/-- `join_parser<P>` (join.h:120-152, optimizations/join_{exactly,maybe,one_or_more,zero_or_more}_basic.h:12-13). -/
def semJoin (rec : Parser α → Stateful.Sub (τ × σ)) (fuel : Nat) (p : Parser α) : Stateful.Sub (τ × σ) :=
  match p with
  | .exactly q n =>
    match asBasic C q with
    | some b => ⟨fun s => joinExactlyLoop F C b s n s ⟨s.ptr, 0⟩, fun s => lookJoinExactlyLoop F C b s n s⟩
    | none => joinGeneric F C (rec p)
  | .maybe q =>
    match asBasic C q with
    | some b => ⟨parseJoinMaybeBasic F C b, lookJoinMaybeBasic F C b⟩
    | none => joinGeneric F C (rec p)
  | .oneOrMore q =>
    match asBasic C q with
    | some b => ⟨parseJoinOneOrMoreBasic F C b fuel, lookJoinOneOrMoreBasic F C b fuel⟩
    | none => joinGeneric F C (rec p)
  | .zeroOrMore q =>
    match asBasic C q with
    | some b => ⟨parseJoinZeroOrMoreBasic F C b fuel, lookJoinZeroOrMoreBasic F C b fuel⟩
    | none => joinGeneric F C (rec p)
  | _ => joinGeneric F C (rec p)

/-! ### custom -/

/-- `custom_parser::parse` (custom.h:41-47): the result is moved or converted. -/
def parseCustom (src dst : Ty) (P : Stateful.Sub (τ × σ)) (input : Span) : SRun (τ × σ) R := do
  let res ← P.parse input
  built F dst (convertResult C src dst res)

/-! ### Tying the knot -/

/-- `P::parse` and `P::lookahead`, given those of the parsers `P` refers to: one case for each class template in
detail/parsers/*.h; the functions it refers to have the lines. -/
def step (U : Callbacks σ) (rec : Parser α → Stateful.Sub (τ × σ)) (fuel : Nat) : Parser α → Stateful.Sub (τ × σ)
  | .anyOf arr => ⟨parseBasic F C (.anyOf arr), lookBasic F C (.anyOf arr)⟩
  | .noneOf arr => ⟨parseBasic F C (.noneOf arr), lookBasic F C (.noneOf arr)⟩
  | .allOf arr => ⟨parseBasic F C (.allOf arr), lookBasic F C (.allOf arr)⟩
  | .anything => ⟨parseBasic F C .anything, lookBasic F C .anything⟩
  | .epsilon => .lift ⟨parseEpsilon, parseEpsilon⟩
  | .choice ps =>
    let tr := choiceTrait (resultsFor C ps)
    ⟨parseChoice F C tr (Stateful.mkElems rec C ps tr.seq), Stateful.lookChoice C tr (Stateful.mkLookElems rec C ps)⟩
  | .sequence ps =>
    let tr := sequenceTrait (resultsFor C ps)
    ⟨parseSequence F C tr (Stateful.mkElems rec C ps tr.seq),
      Stateful.lookSequence C tr (Stateful.mkLookElems rec C ps)⟩
  | .maybe p => ⟨parseMaybe F C (resultFor C (.maybe p)) (rec p), Stateful.lookMaybe (rec p)⟩
  | .exactly p n => ⟨parseExactly F C (resultFor C (.exactly p n)) n (rec p), Stateful.lookExactly n (rec p)⟩
  | .oneOrMore p =>
    ⟨parseOneOrMore F C (resultFor C (.oneOrMore p)) (rec p) fuel, Stateful.lookOneOrMore (rec p) fuel⟩
  | .zeroOrMore p =>
    ⟨parseZeroOrMore F C (resultFor C (.zeroOrMore p)) (rec p) fuel, Stateful.lookZeroOrMore (rec p) fuel⟩
  | .delimit p d =>
    ⟨parseDelimit F C (resultFor C (.delimit p d)) (resultFor C p) (resultFor C d) (rec p) (rec d) fuel,
      Stateful.lookDelimit (rec p) (rec d) fuel⟩
  | .ignore p => ⟨Stateful.parseIgnore (rec p), Stateful.parseIgnore (rec p)⟩
  | .complete p => ⟨parseComplete F (rec p), Stateful.lookComplete (rec p)⟩
  | .join p => semJoin F C rec fuel p
  | .map p f => ⟨parseMap F C U (resultFor C p) (resultFor C (.map p f)) f (rec p), (rec p).look⟩
  | .filter p f => ⟨parseFilter F C U (resultFor C p) f (rec p), (rec p).look⟩
  | .named p _ => rec p
  | .custom k =>
    let body := (C.custom k).body
    ⟨parseCustom F C (resultFor C body) (C.custom k).ty (rec body), (rec body).look⟩

/-- `parse`/`lookahead` (of all of detail/parsers/*.h) with bounded fuel; nothing in /repo corresponds to fuel. -/
def sem (U : Callbacks σ) : Nat → Parser α → Stateful.Sub (τ × σ)
  | 0, _ => ⟨fun _ => SRun.diverge, fun _ => SRun.diverge⟩
  | n + 1, p => step F C U (sem U n) n p

end

end Tok3n.Interrupted
