import Verif.Model.Syntax
import Verif.Model.StaticArray
/-
Compile-time computations: result types, index sequences, and which expressions
compile.

Models `detail/filter.h`, `detail/type_traits.h` (`unwrap_if_single`),
`detail/helpers.h` (`compound_trait`), the `result_for` aliases and `requires`
clauses of `detail/parsers/*.h`, `detail/functions.h` and `detail/apply.h`.
-/

namespace Tok3n

variable {α β : Type}

/-! ### `detail/filter.h` -/

/-- `is_not_void` (filter.h:15-19). -/
def isNotVoid (t : Ty) : Bool := t != .void

/-- `filter_with_index` (filter.h:27-55) for `Pred = is_not_void`.
`none` is the index `static_cast<std::size_t>(-1)`.  The empty pack is not an
instance of the template; it never occurs (packs are non-empty). -/
def filterWithIndex (done : List Ty) (is : List (Option Nat)) (next : Nat) :
    List Ty → List Ty × List (Option Nat)
  | [] => (done, is)
  | [head] =>                                             -- filter.h:30-41
    (if isNotVoid head then done ++ [head] else done,
     if isNotVoid head then is ++ [some next] else is ++ [none])
  | head :: tail =>                                       -- filter.h:43-55
    if isNotVoid head then filterWithIndex (done ++ [head]) (is ++ [some next]) (next + 1) tail
    else filterWithIndex done (is ++ [none]) next tail

/-- `filter_out_void` (filter.h:59-60). -/
def filterOutVoid (ts : List Ty) : List Ty × List (Option Nat) :=
  filterWithIndex [] [] 0 ts

/-- `index_lookup` (filter.h:66-79).  Looks `t` up in the first list and returns
what stands at that place in the second.  The last equation is outside the
template's domain. -/
def indexLookup : List Ty → List (Option Nat) → Ty → Option Nat
  | head :: tail, i :: is, t =>
    if t = head then i
    else if tail = [] then some 0
    else indexLookup tail is t
  | _, _, _ => none

/-- `filter_deduplicate_with_index::next_index` (filter.h:88-94, 108-114). -/
def nextIndex (done : List Ty) (is : List (Option Nat)) (next : Nat) (head : Ty) : Option Nat :=
  if isNotVoid head then
    if head ∈ done then indexLookup done is head else some next
  else none

/-- `filter_deduplicate_with_index` (filter.h:81-125) for `Pred = is_not_void`. -/
def filterDeduplicateWithIndex (done : List Ty) (is : List (Option Nat)) (next : Nat) :
    List Ty → List Ty × List (Option Nat)
  | [] => (done, is)
  | [head] =>                                             -- filter.h:84-102
    (if isNotVoid head && !(decide (head ∈ done)) then done ++ [head] else done,
     is ++ [nextIndex done is next head])
  | head :: tail =>                                       -- filter.h:104-125
    let nextSequence := is ++ [nextIndex done is next head]
    if isNotVoid head && !(decide (head ∈ done)) then
      filterDeduplicateWithIndex (done ++ [head]) nextSequence (next + 1) tail
    else
      filterDeduplicateWithIndex done nextSequence next tail

/-- `filter_out_void_deduplicate` (filter.h:129-130). -/
def filterOutVoidDeduplicate (ts : List Ty) : List Ty × List (Option Nat) :=
  filterDeduplicateWithIndex [] [] 0 ts

/-! ### `compound_trait` -/

/-- the members of `compound_trait` (helpers.h:115-133) -/
structure Trait where
  seq : List (Option Nat)
  unwrapped : Bool
  ty : Ty
  deriving DecidableEq, Repr

/-- `compound_trait` (helpers.h:115-133) with `unwrap_if_single`
(type_traits.h:61-82): an empty list unwraps to `void`, a singleton to its
element, a longer one becomes `container<Ts...>`. -/
def compoundTrait (algorithm : List Ty → List Ty × List (Option Nat)) (container : List Ty → Ty)
    (ts : List Ty) : Trait :=
  let filtered := algorithm ts
  match filtered.1 with
  | [] => ⟨filtered.2, true, .void⟩
  | [t] => ⟨filtered.2, true, t⟩
  | us => ⟨filtered.2, false, container us⟩

/-- `choice_parser::_trait` (choice.h:20-21). -/
def choiceTrait (ts : List Ty) : Trait := compoundTrait filterOutVoidDeduplicate .var ts

/-- `sequence_parser::_trait` (sequence.h:20-21). -/
def sequenceTrait (ts : List Ty) : Trait := compoundTrait filterOutVoid .tup ts

/-! ### Context -/

/-- Which preprocessor/constant-evaluation branch of `join_executor::try_join`
(join.h:52-65) is in effect. -/
inductive Toolchain where
  | msvc
  | gnuRuntime
  | gnuConstexpr
  deriving DecidableEq, Repr

/-- A user class derived from `custom_parser` (custom.h:30-56): the parser returned
by `get_parser()`, whether it declares `result_type`, and its `result_for`. -/
structure CustomDef (α : Type) where
  body : Parser α
  declared : Bool
  ty : Ty

/-- Everything the library is generic over or takes from its environment; each member has the lines it is used at. -/
structure Ctx (α β : Type) where
  /-- `t == v` between a literal element and an input element (type_traits.h:21-23) -/
  eqv : α → β → Bool
  /-- contents of memory during the parse -/
  mem : Mem β
  toolchain : Toolchain
  /-- Does a *constrained* class template (`any_of_parser`, `none_of_parser`) match
  the unconstrained template template parameter `Basic` of
  `optimizations/join_*_basic.h:12`?  C++20 says yes (the constraints of the argument are
  not considered), older compilers no. -/
  relaxedTtp : Bool
  /-- `==` between pointers into different arrays is unspecified when one of them is
  one past the end; this is whatever the implementation answers -/
  ptrEq : Ptr → Ptr → Bool
  /-- user callbacks: `std::invoke_result` (`none`: not invocable) and behaviour
  (`Except.error`: the callback throws).  Simplification: callbacks are
  deterministic functions of their arguments that return or throw. -/
  fnRet : Nat → List Ty → Option Ty
  fnCall : Nat → List Val → Except Nat Val
  /-- `constant<value>` -/
  constTy : Nat → Ty
  constVal : Nat → Val
  /-- constructors `T(args...)` used by `into`/`apply_into` -/
  ctorOk : Ty → List Ty → Bool
  ctor : Ty → List Val → Except Nat Val
  /-- `T{}` for user types, `none` if not default constructible -/
  userDefault : Nat → Option Val
  /-- conversion of a value of the first type to the second, `none` if there is none -/
  conv : Ty → Ty → Option (Val → Val)
  /-- construction of the second type from `std::optional` of the first, `none` if there is none; for
  `std::optional` itself see `fromOptional` -/
  convOpt : Ty → Ty → Option (Option Val → Val)
  /-- implicit conversion of a user type to `output_span` (span.h:64-68) -/
  userSpan : Nat → Option (Val → Span)
  /-- convertible to `bool` (filter.h:22-23), and the conversion -/
  boolTy : Ty → Bool
  truthy : Val → Bool
  /-- the user's custom parsers -/
  custom : Nat → CustomDef α

/-! ### Default construction -/

mutual
/-- `T value{}` (helpers.h:14); `none` if `T` is not default constructible.
A variant default-constructs its first alternative. -/
def defaultVal (C : Ctx α β) : Ty → Option Val
  | .void => some .unit
  | .span => some (.span Span.default)
  | .vec _ => some (.vec [])
  | .arr t n => (defaultVal C t).map fun v => .arr (List.replicate n v)
  | .opt _ => some (.opt none)
  | .tup ts => (defaultVals C ts).map .tup
  | .var ts => (defaultHead C ts).map (.var 0)
  | .pair a b =>
    match defaultVal C a, defaultVal C b with
    | some x, some y => some (.pair x y)
    | _, _ => none
  | .user k => C.userDefault k
/-- the components of `std::tuple<...>{}`, `std::pair<...>{}` (helpers.h:14) -/
def defaultVals (C : Ctx α β) : List Ty → Option (List Val)
  | [] => some []
  | t :: ts =>
    match defaultVal C t, defaultVals C ts with
    | some v, some vs => some (v :: vs)
    | _, _ => none
/-- the first alternative of `std::variant<...>{}` (helpers.h:14) -/
def defaultHead (C : Ctx α β) : List Ty → Option Val
  | [] => none
  | t :: _ => defaultVal C t
end

/-! ### Function objects -/

/-- `std::tuple_size`/`std::tuple_element` of the argument of `apply_invoke`
(apply.h:25-32).  Simplification: user types are not tuple-like. -/
def components : Ty → Option (List Ty)
  | .tup ts => some ts
  | .pair a b => some [a, b]
  | .arr t n => some (List.replicate n t)
  | _ => none

/-- `std::invoke_result` of a function object (functions.h:11-22). -/
def fnTy (C : Ctx α β) : Fn → List Ty → Option Ty
  | .user k, args => C.fnRet k args
  | .apply f, args =>
    match args with
    | [t] => match components t with
      | some ts => fnTy C f ts
      | none => none
    | _ => none
  | .const k, _ => some (C.constTy k)
  | .construct t, args => if C.ctorOk t args then some t else none
  | .deflt t, _ => if (defaultVal C t).isSome then some t else none

/-- Arguments passed to a map/filter function: nothing for a void value
(map.h:19-23, filter.h:20-24). -/
def argTys (t : Ty) : List Ty := if t = .void then [] else [t]

/-! ### `result_for` -/

/-- `std::conditional_t<std::same_as<void, T>, void, f<T>>` (exactly.h:20-24, maybe.h:19, one_or_more.h:19,
zero_or_more.h:19). -/
def voidOr (f : Ty → Ty) (t : Ty) : Ty := if t = .void then .void else f t

/-- `delimit_parser::result_for` (delimit.h:19-32). -/
def delimitTy (p d : Ty) : Ty :=
  if d = .void then
    if p = .void then .void else .vec p
  else
    if p = .void then .vec d else .pair (.vec p) (.vec d)

/-- `map_parser::result_for` (map.h:18-23).  Where `std::invoke_result` has no
`type` the program does not compile (see `tyOK`); the value is then irrelevant. -/
def mapTy (C : Ctx α β) (t : Ty) (f : Fn) : Ty := (fnTy C f (argTys t)).getD .void

mutual
/-- `P::result_for<V>`: basic_base.h:26-27, epsilon.h:16-17, choice.h:24-25,
sequence.h:24-25, maybe.h:18-23, exactly.h:19-24, one_or_more.h:18-23,
zero_or_more.h:18-23, delimit.h:19-32, ignore.h:16-17, complete.h:16-17,
join.h:125-126, map.h:18-23, filter.h:19-25, named.h:16-17, custom.h:35-37. -/
def resultFor (C : Ctx α β) : Parser α → Ty
  | .anyOf _ => .span
  | .noneOf _ => .span
  | .allOf _ => .span
  | .anything => .span
  | .epsilon => .void
  | .choice ps => (choiceTrait (resultsFor C ps)).ty
  | .sequence ps => (sequenceTrait (resultsFor C ps)).ty
  | .maybe p => voidOr .opt (resultFor C p)
  | .exactly p n => voidOr (.arr · n) (resultFor C p)
  | .oneOrMore p => voidOr .vec (resultFor C p)
  | .zeroOrMore p => voidOr .vec (resultFor C p)
  | .delimit p d => delimitTy (resultFor C p) (resultFor C d)
  | .ignore _ => .void
  | .complete p => resultFor C p
  | .join _ => .span
  | .map p f => mapTy C (resultFor C p) f
  | .filter p _ => resultFor C p
  | .named p _ => resultFor C p
  | .custom k => (C.custom k).ty
/-- `typename Ps::template result_for<V>...` (helpers.h:119) -/
def resultsFor (C : Ctx α β) : List (Parser α) → List Ty
  | [] => []
  | p :: ps => resultFor C p :: resultsFor C ps
end

/-! ### What compiles -/

/-- Types for which `join_executor::try_join` has an overload (join.h:41-113). -/
def joinable (C : Ctx α β) : Ty → Bool
  | .span => true
  | .vec t => joinable C t
  | .arr t _ => joinable C t
  | .opt t => joinable C t
  | .tup ts => !ts.isEmpty && joinables ts
  | .user k => (C.userSpan k).isSome
  | .void => false
  | .var _ => false
  | .pair .. => false
where
  joinables : List Ty → Bool
  | [] => true
  | t :: ts => joinable C t && joinables ts

mutual
/-- The constraints of the class templates themselves: sorted and duplicate-free
arrays (any_of.h:12, none_of.h:12), non-empty packs (choice.h:14, sequence.h:14),
`N != 0` (exactly.h:14). -/
def Parser.wf [LinearOrder α] : Parser α → Bool
  | .anyOf arr => isSortedAndUniqued arr
  | .noneOf arr => isSortedAndUniqued arr
  | .allOf _ => true
  | .anything => true
  | .epsilon => true
  | .choice ps => !ps.isEmpty && Parser.wfs ps
  | .sequence ps => !ps.isEmpty && Parser.wfs ps
  | .maybe p => p.wf
  | .exactly p n => p.wf && n != 0
  | .oneOrMore p => p.wf
  | .zeroOrMore p => p.wf
  | .delimit p d => p.wf && d.wf
  | .ignore p => p.wf
  | .complete p => p.wf
  | .join p => p.wf
  | .map p _ => p.wf
  | .filter p _ => p.wf
  | .named p _ => p.wf
  | .custom _ => true
/-- all parsers of a pack are well-formed (`parser... Ps`, helpers.h:115) -/
def Parser.wfs [LinearOrder α] : List (Parser α) → Bool
  | [] => true
  | p :: ps => p.wf && Parser.wfs ps
end

mutual
/-- `typename P::result_for<V>` is well-formed (the `result_for` of each file in detail/parsers/; map.h:19,
custom.h:35-37). -/
def tyOK (C : Ctx α β) : Parser α → Bool
  | .choice ps => tysOK C ps
  | .sequence ps => tysOK C ps
  | .maybe p => tyOK C p
  | .exactly p _ => tyOK C p
  | .oneOrMore p => tyOK C p
  | .zeroOrMore p => tyOK C p
  | .delimit p d => tyOK C p && tyOK C d
  | .complete p => tyOK C p
  | .map p f => tyOK C p && (fnTy C f (argTys (resultFor C p))).isSome
  | .filter p f => tyOK C p &&
      match fnTy C f (argTys (resultFor C p)) with
      | some t => C.boolTy t
      | none => false
  | .named p _ => tyOK C p
  | .anyOf _ | .noneOf _ | .allOf _ | .anything | .epsilon | .ignore _ | .join _ | .custom _ => true
/-- `typename Ps::template result_for<V>...` is well-formed (helpers.h:119) -/
def tysOK (C : Ctx α β) : List (Parser α) → Bool
  | [] => true
  | p :: ps => tyOK C p && tysOK C ps
end

/-- `value.emplace<I>(x)` (helpers.h:41-98) / `optional<T>(optional<T2>)` (result.h:33-40): same type, or convertible. -/
def convOK (C : Ctx α β) (src dst : Ty) : Bool := src = dst || (C.conv src dst).isSome

/-- Construction of `dst` from `std::optional<src>` (result.h:33-40).  If there is one, `std::optional<dst>` is not
converted from
`std::optional<src>`, it is made from it as from a value (`[optional.ctor]`: the converting constructors exclude such
types), and holds one whether or not `std::optional<src>` does.  Simplification: of the library's own types, only
`std::optional<src>` is considered here, the others are left to the context. -/
def fromOptional (C : Ctx α β) (src dst : Ty) : Option (Option Val → Val) :=
  if dst = .opt src then some .opt else C.convOpt src dst

/-- `execute_element` (helpers.h:173-198) compiles for an element of type `t` with
index `i`. -/
def elementOK (C : Ctx α β) (isChoice : Bool) (tr : Trait) (t : Ty) (i : Option Nat) : Bool :=
  match i with
  | none => true
  | some i =>
    if tr.unwrapped then t == tr.ty
    else match tr.ty with
      | .var ts => isChoice && (match ts[i]? with | some u => convOK C t u | none => false)
      | .tup ts => !isChoice && (match ts[i]? with | some u => t == u | none => false)
      | _ => false

/-- all elements of the fold expression compile (helpers.h:155-162) -/
def elementsOK (C : Ctx α β) (isChoice : Bool) (tr : Trait) : List Ty → List (Option Nat) → Bool
  | [], [] => true
  | t :: ts, i :: is => elementOK C isChoice tr t i && elementsOK C isChoice tr ts is
  | _, _ => false

mutual
/-- The body of `P::parse` compiles (that of each file in detail/parsers/). -/
def parseOK (C : Ctx α β) : Parser α → Bool
  | .anyOf _ | .noneOf _ | .allOf _ | .anything | .epsilon => true
  | .choice ps =>
    let tr := choiceTrait (resultsFor C ps)
    tysOK C ps && (defaultVal C tr.ty).isSome &&
      elementsOK C true tr (resultsFor C ps) tr.seq && parsesOK C ps tr.seq
  | .sequence ps =>
    let tr := sequenceTrait (resultsFor C ps)
    tysOK C ps && (defaultVal C tr.ty).isSome &&
      elementsOK C false tr (resultsFor C ps) tr.seq && parsesOK C ps tr.seq
  | .maybe p => tyOK C p && parseOK C p
  | .exactly p n => tyOK C p && parseOK C p && (defaultVal C (voidOr (.arr · n) (resultFor C p))).isSome
  | .oneOrMore p => tyOK C p && parseOK C p
  | .zeroOrMore p => tyOK C p && parseOK C p
  | .delimit p d => tyOK C p && tyOK C d && parseOK C p && parseOK C d
  | .ignore _ => true
  | .complete p => tyOK C p && parseOK C p
  | .join p => tyOK C p && parseOK C p && joinable C (resultFor C p)
  | .map p f => tyOK C (.map p f) && parseOK C p
  | .filter p f => tyOK C (.filter p f) && parseOK C p
  | .named p _ => tyOK C p && parseOK C p
  | .custom k =>
    let t := resultFor C (C.custom k).body
    t = (C.custom k).ty ||
      (t != .void && (C.custom k).ty != .void &&
        ((fromOptional C t (C.custom k).ty).isSome || (C.conv t (C.custom k).ty).isSome))
/-- elements with index -1 are only looked ahead (helpers.h:155-162), so only the
others need a `parse` -/
def parsesOK (C : Ctx α β) : List (Parser α) → List (Option Nat) → Bool
  | [], _ => true
  | p :: ps, is =>
    match is with
    | [] => true
    | none :: is => parsesOK C ps is
    | some _ :: is => parseOK C p && parsesOK C ps is
end

/-- Every custom parser of the context compiles: well-formed body, body's type known
(a class without `result_type` has the type of its body, custom.h:14-26), `parse`
compiles (custom.h:41-47).  Simplification: demanded of every custom parser, used
or not. -/
structure Ctx.OK [LinearOrder α] (C : Ctx α β) : Prop where
  wf : ∀ k, (C.custom k).body.wf = true
  ty : ∀ k, tyOK C (C.custom k).body = true
  parse : ∀ k, parseOK C (C.custom k).body = true
  inferred : ∀ k, (C.custom k).declared = false →
    (C.custom k).ty = resultFor C (C.custom k).body

/-- The expression `p.parse(input)` compiles (parser.h:68-89 and the bodies of `parse`). -/
structure Compiles [LinearOrder α] (C : Ctx α β) (p : Parser α) : Prop where
  ctx : C.OK
  wf : p.wf = true
  ty : tyOK C p = true
  parse : parseOK C p = true

end Tok3n
