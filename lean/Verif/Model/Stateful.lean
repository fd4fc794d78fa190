import Verif.Model.Parse
/-
`parse` and `lookahead` when the user's function objects have state.

In `Model/Parse.lean` a call of a user function is a function of its arguments.  In C++ the
function objects of `map`, `filter`, `apply` and `construct` run arbitrary code: they can
count, append to a vector, read a clock.  Here they share a state of any type `σ`, which a
call may read and change, so that equal calls can have different answers.

The bodies below are those of `Model/Parse.lean`, in the same order, written over runs that
thread the state.  The state is never restored by the library: the C++ code has no way of
undoing what a callback did.  Bodies of `Model/Parse.lean` that call neither a user function
nor a sub-parser are used as they are, through `SRun.lift`.
-/

namespace Tok3n.Stateful

variable {σ α β : Type}

/-- The user's code: what a call answers (a value, or a thrown exception) and the state it
leaves behind.

Simplification: the function objects given to `map` and `filter` and the constructors called
by `construct` have state.  The value of `constant<v>`, default constructors and implicit
conversions do not: they stay as in `Ctx`. -/
structure Callbacks (σ : Type) where
  /-- `std::invoke(function.value, args...)` (map.h:35-57, filter.h:34-52) -/
  fnCall : Nat → List Val → σ → Except Nat Val × σ
  /-- `T(args...)` of `construct_function<T>` (functions.h:17-18) -/
  ctor : Ty → List Val → σ → Except Nat Val × σ

/-- A run (C++ itself, not in /repo) that starts in a state and, when it returns, ends in one.  An exception ends the
run: what the calls of its log did to the state stays done. -/
def SRun (σ A : Type) := σ → M Call (A × σ)

namespace SRun
variable {A B : Type}

/-- `return a;` (C++ itself) -/
def pure (a : A) : SRun σ A := fun st => M.pure (a, st)
/-- one statement after the other (C++ itself) -/
def bind (m : SRun σ A) (f : A → SRun σ B) : SRun σ B := fun st => M.bind (m st) fun x => f x.1 x.2
/-- a step that runs no user code leaves the state as it is (C++ itself) -/
def lift (m : Run A) : SRun σ A := fun st => M.bind m fun a => M.pure (a, st)
/-- does not return (C++ itself) -/
def diverge : SRun σ A := fun _ => M.diverge

instance : Monad (SRun σ) where
  pure := SRun.pure
  bind := SRun.bind

instance : MonadLift (M Call) (SRun σ) where
  monadLift := SRun.lift

end SRun

/-- The static member functions of a parser class (e.g. exactly.h:28-29, 50-51). -/
structure Sub (σ : Type) where
  parse : Span → SRun σ R
  look : Span → SRun σ R

/-- member functions that call neither a user function nor a sub-parser (those of the basic parsers, basic_base.h) -/
def Sub.lift (P : Tok3n.Sub) : Sub σ := ⟨fun s => .lift (P.parse s), fun s => .lift (P.look s)⟩

/-! ### Compound parsers -/

/-- One element of the fold expressions in `choice_parser`/`sequence_parser` (helpers.h:155-162):
its functions, its result type and its index (`none` = -1). -/
structure Elem (σ : Type) where
  sub : Sub σ
  ty : Ty
  idx : Option Nat

/-- `compound_executor::execute` (helpers.h:155-198).  `T`, `unwrapped`, `isChoice` are
the template parameters. -/
def execute (C : Ctx α β) (T : Ty) (unwrapped isChoice : Bool) (e : Elem σ) (st : Exec) :
    SRun σ (Bool × Exec) :=
  match e.idx with
  | none => do                                             -- execute_lookahead, 165-171
    let res ← e.sub.look st.input
    SRun.pure (res.hasValue, { st with input := res.rem })
  | some i => do                                           -- execute_element, 173-198
    let res ← e.sub.parse st.input
    if not res.hasValue then SRun.pure (false, st)
    else do
      let value ←
        (if unwrapped then builderAssign T st.value res
         else if isChoice then builderEmplaceAt C T i e.ty st.value res
         else builderGetAssign T st.value i res)
      SRun.pure (true, ⟨res.rem, value⟩)

/-- `(execute<P, I>() or ... or execute<Ps, Is>())` (choice.h:40, 61). -/
def foldOr (exec : Elem σ → Exec → SRun σ (Bool × Exec)) : List (Elem σ) → Exec → SRun σ (Bool × Exec)
  | [], st => SRun.pure (false, st)
  | e :: es, st => do
    let (ok, st) ← exec e st
    if ok then SRun.pure (true, st) else foldOr exec es st

/-- `(execute<P, I>() and ... and execute<Ps, Is>())` (sequence.h:41, 62). -/
def foldAnd (exec : Elem σ → Exec → SRun σ (Bool × Exec)) : List (Elem σ) → Exec → SRun σ (Bool × Exec)
  | [], st => SRun.pure (true, st)
  | e :: es, st => do
    let (ok, st) ← exec e st
    if ok then foldAnd exec es st else SRun.pure (false, st)

/-- Pair the sub-parsers with their types and indices (`execute<Ps, Is>`, helpers.h:155-156). -/
def mkElems (rec : Parser α → Sub σ) (C : Ctx α β) : List (Parser α) → List (Option Nat) → List (Elem σ)
  | p :: ps, i :: is => ⟨rec p, resultFor C p, i⟩ :: mkElems rec C ps is
  | _, _ => []

/-- `execute<Ps>()` with the default index -1 (helpers.h:155). -/
def mkLookElems (rec : Parser α → Sub σ) (C : Ctx α β) : List (Parser α) → List (Elem σ)
  | p :: ps => ⟨rec p, resultFor C p, none⟩ :: mkLookElems rec C ps
  | [] => []

/-- `choice_parser::parse` (choice.h:29-50). -/
def parseChoice (C : Ctx α β) (tr : Trait) (es : List (Elem σ)) (input : Span) : SRun σ R := do
  let value ← builderInit C tr.ty
  let (successful, st) ← foldOr (execute C tr.ty tr.unwrapped true) es ⟨input, value⟩
  if not successful then SRun.pure (R.failure input)
  else SRun.pure (builderBuild tr.ty st.value st.input)

/-- `choice_parser::lookahead` (choice.h:52-67). -/
def lookChoice (C : Ctx α β) (tr : Trait) (es : List (Elem σ)) (input : Span) : SRun σ R := do
  let (successful, st) ← foldOr (execute C .void tr.unwrapped true) es ⟨input, .unit⟩
  if successful then SRun.pure (R.successVoid st.input) else SRun.pure (R.failure input)

/-- `sequence_parser::parse` (sequence.h:29-51). -/
def parseSequence (C : Ctx α β) (tr : Trait) (es : List (Elem σ)) (input : Span) : SRun σ R := do
  let value ← builderInit C tr.ty
  let (successful, st) ← foldAnd (execute C tr.ty tr.unwrapped false) es ⟨input, value⟩
  if not successful then SRun.pure (R.failure input)
  else SRun.pure (builderBuild tr.ty st.value st.input)

/-- `sequence_parser::lookahead` (sequence.h:53-68). -/
def lookSequence (C : Ctx α β) (tr : Trait) (es : List (Elem σ)) (input : Span) : SRun σ R := do
  let (successful, st) ← foldAnd (execute C .void tr.unwrapped false) es ⟨input, .unit⟩
  if successful then SRun.pure (R.successVoid st.input) else SRun.pure (R.failure input)

/-- `maybe_parser::parse` (maybe.h:27-40).  `T` is `result_for<V>`. -/
def parseMaybe (C : Ctx α β) (T : Ty) (P : Sub σ) (input : Span) : SRun σ R := do
  let value ← builderInit C T
  let res ← P.parse input
  let value ← (if res.hasValue then builderEmplace T value res else SRun.pure value)
  SRun.pure (builderBuild T value res.rem)

/-- `maybe_parser::lookahead` (maybe.h:42-53). -/
def lookMaybe (P : Sub σ) (input : Span) : SRun σ R := do
  let res ← P.look input
  if res.hasValue then SRun.pure (R.successVoid res.rem) else SRun.pure (R.successVoid input)

/-- The `for` loop of `exactly_parser::parse` (exactly.h:37-47); `todo = N - i`. -/
def exactlyLoop (T : Ty) (P : Sub σ) (originalInput : Span) :
    (todo i : Nat) → (input : Span) → (value : Val) → SRun σ R
  | 0, _, input, value => SRun.pure (builderBuild T value input)
  | todo + 1, i, input, value => do
    let res ← P.parse input
    if not res.hasValue then SRun.pure (R.failure originalInput)
    else do
      let value ← builderArrayAssign T value i res
      exactlyLoop T P originalInput todo (i + 1) res.rem value

/-- `exactly_parser::parse` (exactly.h:28-48). -/
def parseExactly (C : Ctx α β) (T : Ty) (N : Nat) (P : Sub σ) (input : Span) : SRun σ R := do
  let value ← builderInit C T
  exactlyLoop T P input N 0 input value

/-- `exactly_parser::lookahead` (exactly.h:50-68). -/
def lookExactlyLoop (P : Sub σ) (originalInput : Span) : (todo : Nat) → (input : Span) → SRun σ R
  | 0, input => SRun.pure (R.successVoid input)
  | todo + 1, input => do
    let res ← P.look input
    if not res.hasValue then SRun.pure (R.failure originalInput)
    else lookExactlyLoop P originalInput todo res.rem

/-- `exactly_parser::lookahead` (exactly.h:50-68) -/
def lookExactly (N : Nat) (P : Sub σ) (input : Span) : SRun σ R := lookExactlyLoop P input N input

/-- The `while (true)` loop of `one_or_more_parser::parse` (one_or_more.h:36-44);
returns `successful`, `input` and the builder's value. -/
def oneOrMoreLoop (T : Ty) (P : Sub σ) :
    (fuel : Nat) → (successful : Bool) → (input : Span) → (value : Val) → SRun σ (Bool × Span × Val)
  | 0, _, _, _ => SRun.diverge
  | fuel + 1, successful, input, value => do
    let res ← P.parse input
    let input := res.rem
    let successful := successful || res.hasValue
    if not res.hasValue then SRun.pure (successful, input, value)
    else do
      let value ← builderInsertBack T value res
      oneOrMoreLoop T P fuel successful input value

/-- `one_or_more_parser::parse` (one_or_more.h:27-50). -/
def parseOneOrMore (C : Ctx α β) (T : Ty) (P : Sub σ) (fuel : Nat) (input : Span) : SRun σ R := do
  let value ← builderInit C T
  let (successful, input, value) ← oneOrMoreLoop T P fuel false input value
  if successful then SRun.pure (builderBuild T value input) else SRun.pure (R.failure input)

/-- The loop of `one_or_more_parser::lookahead` (one_or_more.h:60-67). -/
def lookOneOrMoreLoop (P : Sub σ) :
    (fuel : Nat) → (successful : Bool) → (input : Span) → SRun σ (Bool × Span)
  | 0, _, _ => SRun.diverge
  | fuel + 1, successful, input => do
    let res ← P.look input
    let input := res.rem
    let successful := successful || res.hasValue
    if not res.hasValue then SRun.pure (successful, input)
    else lookOneOrMoreLoop P fuel successful input

/-- `one_or_more_parser::lookahead` (one_or_more.h:52-73). -/
def lookOneOrMore (P : Sub σ) (fuel : Nat) (input : Span) : SRun σ R := do
  let (successful, input) ← lookOneOrMoreLoop P fuel false input
  if successful then SRun.pure (R.successVoid input) else SRun.pure (R.failure input)

/-- The `while (true)` loop of `zero_or_more_parser::parse` (zero_or_more.h:35-42). -/
def zeroOrMoreLoop (T : Ty) (P : Sub σ) :
    (fuel : Nat) → (input : Span) → (value : Val) → SRun σ (Span × Val)
  | 0, _, _ => SRun.diverge
  | fuel + 1, input, value => do
    let res ← P.parse input
    let input := res.rem
    if not res.hasValue then SRun.pure (input, value)
    else do
      let value ← builderInsertBack T value res
      zeroOrMoreLoop T P fuel input value

/-- `zero_or_more_parser::parse` (zero_or_more.h:27-45). -/
def parseZeroOrMore (C : Ctx α β) (T : Ty) (P : Sub σ) (fuel : Nat) (input : Span) : SRun σ R := do
  let value ← builderInit C T
  let (input, value) ← zeroOrMoreLoop T P fuel input value
  SRun.pure (builderBuild T value input)

/-- The loop of `zero_or_more_parser::lookahead` (zero_or_more.h:53-59). -/
def lookZeroOrMoreLoop (P : Sub σ) : (fuel : Nat) → (input : Span) → SRun σ Span
  | 0, _ => SRun.diverge
  | fuel + 1, input => do
    let res ← P.look input
    let input := res.rem
    if not res.hasValue then SRun.pure input
    else lookZeroOrMoreLoop P fuel input

/-- `zero_or_more_parser::lookahead` (zero_or_more.h:47-62). -/
def lookZeroOrMore (P : Sub σ) (fuel : Nat) (input : Span) : SRun σ R := do
  let input ← lookZeroOrMoreLoop P fuel input
  SRun.pure (R.successVoid input)

/-- The `while (res.has_value())` loop of `delimit_parser::parse` (delimit.h:50-76);
`T`, `tp`, `td` are the result types of the parser, of `P` and of `D`. -/
def delimitLoop (T tp td : Ty) (P D : Sub σ) :
    (fuel : Nat) → (res : R) → (input : Span) → (value : Val) → SRun σ (Span × Val)
  | 0, _, _, _ => SRun.diverge
  | fuel + 1, res, input, value =>
    if not res.hasValue then SRun.pure (input, value)
    else do
      let input := res.rem
      let value ← delimitRecordP T tp td value res
      let delimitRes ← D.parse input
      if not delimitRes.hasValue then SRun.pure (input, value)
      else do
        let res ← P.parse delimitRes.rem
        let value ← delimitRecordD T tp td value res delimitRes
        delimitLoop T tp td P D fuel res input value

/-- `delimit_parser::parse` (delimit.h:36-79). -/
def parseDelimit (C : Ctx α β) (T tp td : Ty) (P D : Sub σ) (fuel : Nat) (input : Span) :
    SRun σ R := do
  let value ← builderInit C T
  let res ← P.parse input
  if not res.hasValue then SRun.pure (R.failure input)
  else do
    let (input, value) ← delimitLoop T tp td P D fuel res input value
    SRun.pure (builderBuild T value input)

/-- The loop of `delimit_parser::lookahead` (delimit.h:91-100). -/
def lookDelimitLoop (P D : Sub σ) : (fuel : Nat) → (res : R) → (input : Span) → SRun σ Span
  | 0, _, _ => SRun.diverge
  | fuel + 1, res, input =>
    if not res.hasValue then SRun.pure input
    else do
      let input := res.rem
      let delimitResult ← D.look input
      if not delimitResult.hasValue then SRun.pure input
      else do
        let res ← P.look delimitResult.rem
        lookDelimitLoop P D fuel res input

/-- `delimit_parser::lookahead` (delimit.h:81-103). -/
def lookDelimit (P D : Sub σ) (fuel : Nat) (input : Span) : SRun σ R := do
  let res ← P.look input
  if not res.hasValue then SRun.pure (R.failure input)
  else do
    let input ← lookDelimitLoop P D fuel res input
    SRun.pure (R.successVoid input)

/-- `ignore_parser::parse` and `lookahead` (ignore.h:21-31). -/
def parseIgnore (P : Sub σ) (input : Span) : SRun σ R := P.look input

/-- `complete_parser::parse` (complete.h:21-32). -/
def parseComplete (P : Sub σ) (input : Span) : SRun σ R := do
  let res ← P.parse input
  if !res.hasValue || !res.rem.empty then SRun.pure (R.failure input) else SRun.pure res

/-- `complete_parser::lookahead` (complete.h:34-45). -/
def lookComplete (P : Sub σ) (input : Span) : SRun σ R := do
  let res ← P.look input
  if !res.hasValue || !res.rem.empty then SRun.pure (R.failure input) else SRun.pure res

/-! ### Function objects (functions.h, apply.h) -/

/-- The call of a user function object (map.h:35-57, filter.h:34-52, functions.h:17-18): it may read and change the
state, and throw.  The
call is logged; a thrown exception ends the run, as in `Tok3n.liftCall`. -/
def answer (c : Call) (f : σ → Except Nat Val × σ) : SRun σ Val := fun st => do
  M.log c
  match f st with
  | (.ok v, st) => M.pure (v, st)
  | (.error e, _) => M.fail (.exn e)

/-- `std::invoke(function, args...)` (functions.h:11-22, apply.h:15-32), as `Tok3n.invoke`
with the state handed to the user's code.  `constant` and `defaulted` run no user code that
is modelled with state: see `Callbacks`. -/
def invoke (C : Ctx α β) (U : Callbacks σ) : Fn → List Val → SRun σ Val
  | .user k, args => answer ⟨.user k, args⟩ (U.fnCall k args)
  | .apply f, args =>
    match args with
    | [v] => match componentsOf v with
      | some vs => invoke C U f vs
      | none => SRun.lift (M.fail .ill)
    | _ => SRun.lift (M.fail .ill)
  | .const k, args => answer ⟨.const k, args⟩ fun st => (.ok (C.constVal k), st)
  | .construct t, args => answer ⟨.construct t, args⟩ (U.ctor t args)
  | .deflt t, args => do
    SRun.lift (M.log ⟨.deflt t, args⟩)
    SRun.lift (M.ofOption .ill (defaultVal C t))

/-- `map_parser::parse` (map.h:27-60); `before`/`after` are `before_type` and
`after_type`. -/
def parseMap (C : Ctx α β) (U : Callbacks σ) (before after : Ty) (f : Fn) (P : Sub σ) (input : Span) : SRun σ R := do
  let res ← P.parse input
  if not res.hasValue then SRun.pure (R.failure input)
  else do
    let args ← argVals before res
    let v ← invoke C U f args
    if after = .void then SRun.pure (R.successVoid res.rem)
    else SRun.pure (R.success v res.rem)

/-- `filter_parser::parse` (filter.h:29-55); `T` is `result_for<V>`. -/
def parseFilter (C : Ctx α β) (U : Callbacks σ) (T : Ty) (f : Fn) (P : Sub σ) (input : Span) : SRun σ R := do
  let res ← P.parse input
  if not res.hasValue then SRun.pure (R.failure input)
  else do
    let args ← argVals T res
    let v ← invoke C U f args
    if C.truthy v then SRun.pure res else SRun.pure (R.failure input)

/-! ### join -/

/-- `join_parser::parse` (join.h:130-145). -/
def parseJoin (C : Ctx α β) (P : Sub σ) (input : Span) : SRun σ R := do
  let res ← P.parse input
  if res.hasValue then do
    let joined ← joinExecutor C res
    match joined with
    | some j => SRun.pure (R.success (.span j) res.rem)
    | none => SRun.pure (R.failure input)
  else SRun.pure (R.failure input)

/-- The generic `join_parser` (join.h:120-152). -/
def joinGeneric (C : Ctx α β) (P : Sub σ) : Sub σ := ⟨parseJoin C P, P.look⟩

/-- `join_parser<P>`: the most specialised of join.h:120-152 and
optimizations/join_{exactly,maybe,one_or_more,zero_or_more}_basic.h:12-13. -/
def semJoin (C : Ctx α β) (rec : Parser α → Sub σ) (fuel : Nat) (p : Parser α) : Sub σ :=
  match p with
  | .exactly q n =>
    match asBasic C q with
    | some b => .lift ⟨parseJoinExactlyBasic C b n, lookJoinExactlyBasic C b n⟩
    | none => joinGeneric C (rec p)
  | .maybe q =>
    match asBasic C q with
    | some b => .lift ⟨parseJoinMaybeBasic C b, lookJoinMaybeBasic C b⟩
    | none => joinGeneric C (rec p)
  | .oneOrMore q =>
    match asBasic C q with
    | some b => .lift ⟨parseJoinOneOrMoreBasic C b fuel, lookJoinOneOrMoreBasic C b fuel⟩
    | none => joinGeneric C (rec p)
  | .zeroOrMore q =>
    match asBasic C q with
    | some b => .lift ⟨parseJoinZeroOrMoreBasic C b fuel, lookJoinZeroOrMoreBasic C b fuel⟩
    | none => joinGeneric C (rec p)
  | _ => joinGeneric C (rec p)

/-! ### custom -/

/-- `custom_parser::parse` (custom.h:41-47). -/
def parseCustom (C : Ctx α β) (src dst : Ty) (P : Sub σ) (input : Span) : SRun σ R := do
  let res ← P.parse input
  SRun.lift (convertResult C src dst res)

/-! ### Tying the knot -/

/-- `P::parse` and `P::lookahead`, given those of the parsers `P` refers to: one case for each class template in
detail/parsers/*.h; the functions it refers to have the lines. -/
def step (C : Ctx α β) (U : Callbacks σ) (rec : Parser α → Sub σ) (fuel : Nat) : Parser α → Sub σ
  | .anyOf arr => .lift ⟨parseBasic C (.anyOf arr), lookBasic C (.anyOf arr)⟩
  | .noneOf arr => .lift ⟨parseBasic C (.noneOf arr), lookBasic C (.noneOf arr)⟩
  | .allOf arr => .lift ⟨parseBasic C (.allOf arr), lookBasic C (.allOf arr)⟩
  | .anything => .lift ⟨parseBasic C .anything, lookBasic C .anything⟩
  | .epsilon => .lift ⟨parseEpsilon, parseEpsilon⟩
  | .choice ps =>
    let tr := choiceTrait (resultsFor C ps)
    ⟨parseChoice C tr (mkElems rec C ps tr.seq), lookChoice C tr (mkLookElems rec C ps)⟩
  | .sequence ps =>
    let tr := sequenceTrait (resultsFor C ps)
    ⟨parseSequence C tr (mkElems rec C ps tr.seq), lookSequence C tr (mkLookElems rec C ps)⟩
  | .maybe p => ⟨parseMaybe C (resultFor C (.maybe p)) (rec p), lookMaybe (rec p)⟩
  | .exactly p n => ⟨parseExactly C (resultFor C (.exactly p n)) n (rec p), lookExactly n (rec p)⟩
  | .oneOrMore p =>
    ⟨parseOneOrMore C (resultFor C (.oneOrMore p)) (rec p) fuel, lookOneOrMore (rec p) fuel⟩
  | .zeroOrMore p =>
    ⟨parseZeroOrMore C (resultFor C (.zeroOrMore p)) (rec p) fuel, lookZeroOrMore (rec p) fuel⟩
  | .delimit p d =>
    ⟨parseDelimit C (resultFor C (.delimit p d)) (resultFor C p) (resultFor C d) (rec p) (rec d)
        fuel,
      lookDelimit (rec p) (rec d) fuel⟩
  | .ignore p => ⟨parseIgnore (rec p), parseIgnore (rec p)⟩
  | .complete p => ⟨parseComplete (rec p), lookComplete (rec p)⟩
  | .join p => semJoin C rec fuel p
  | .map p f => ⟨parseMap C U (resultFor C p) (resultFor C (.map p f)) f (rec p), (rec p).look⟩
  | .filter p f => ⟨parseFilter C U (resultFor C p) f (rec p), (rec p).look⟩
  | .named p _ => rec p
  | .custom k =>
    let body := (C.custom k).body
    ⟨parseCustom C (resultFor C body) (C.custom k).ty (rec body), (rec body).look⟩

/-- `parse`/`lookahead` (of all of detail/parsers/*.h) with bounded fuel; nothing in /repo corresponds to fuel. -/
def sem (C : Ctx α β) (U : Callbacks σ) : Nat → Parser α → Sub σ
  | 0, _ => ⟨fun _ => SRun.diverge, fun _ => SRun.diverge⟩
  | n + 1, p => step C U (sem C U n) n p

end Tok3n.Stateful
