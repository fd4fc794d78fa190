# Formal model of k3DW/tok3n in Lean 4

tok3n is a C++20 header-only parser-combinator library. Parsers are stateless
types; `parse`/`lookahead` take a contiguous range of elements and return a
`result<T,U>` (an optional value and the remaining input).

All paths below are relative to `/repo/include/k3/tok3n/`.

## 1. Trusted base

* Lean 4.33.0's kernel, and the statements in `lean/Verif/Spec/` and
  `lean/Verif/Props/` meaning what their English says.
* Axioms: at most `propext`, `Classical.choice`, `Quot.sound` (the three of
  Lean's standard library). No axiom is added, there is no `sorry`, and neither
  `native_decide` nor `bv_decide` is used. `Verif/Axioms.lean` prints the axioms
  of every property theorem.
* The model in `lean/Verif/Model/` being a faithful transcription of the C++.
  The transcription was done by reading; every definition cites file and lines.
  It is validated against the project's own tests, see below.

### The model against the repository's tests

`tools/tests2lean.py` translates the assertions of `/repo/tests/char-tests` and
`/repo/tests/non-char-tests` into Lean (`lean/Verif/Tests/Gen/`, one module per test
file), where the kernel evaluates the model on them. `Verif/Tests/Check.lean` says what
each macro asserts about the model (`Assertion.Holds`) and proves that the evaluation
decides it (`Assertion.holds_of_check`). All of the 7410 translated assertions hold: what
`parse()` and `lookahead()` return on every parser and text of the tests, the result
types, families and constructibility of every parser, which operators and modifiers
compile on which arguments, and what type they make.

These are tests, not proofs, and no claim rests on them. They check the model, in the
place of running the program. Written by hand are only the tests' classes, callbacks and
custom parsers (`Check.lean`). Not translated are: the 282 assertions about the class
`result` (`types/result.cpp`), 12 about the type of a substitution, 6 about `eps | p`
not compiling, 3 about an `exactly` of another integral type, and those whose input is of
another character type than the file's. `Verif/Tests/UNTRANSLATED.txt` lists them, apart
from the last kind.

## 2. What is modelled

| C++ | Lean |
| --- | --- |
| `detail/span.h`: spans, pointers, subspan, equality (also with arrays, pointers and ranges), construction from arrays, pointers and ranges | `Model/Basic.lean`, `Model/Input.lean`, `Model/Compare.lean` |
| `detail/static_array.h`, `detail/set_operations.h` | `Model/StaticArray.lean` |
| `detail/parser.h` (families), the parser types themselves | `Model/Syntax.lean` |
| `detail/filter.h`, `detail/type_traits.h` (`unwrap_if_single`), `compound_trait`, `result_for` of every parser, the constraints that make an expression compile | `Model/TypeLevel.lean` |
| `detail/helpers.h` (result_builder, compound_executor), `detail/parsers/*.h`, `detail/optimizations/*.h` | `Model/Parse.lean` |
| `detail/operators/*.h` | `Model/Operators.lean` |
| `detail/modifiers/*.h`, `operators/modifier.h`, `modifiers.h` | `Model/Modifiers.lean` |
| `basic.h` | `Model/BasicApi.lean` |
| `detail/result.h`: what `parse` returns | `Model/Parse.lean` (`R`) |
| `detail/result.h`: variables of class `result`, their construction, copies, moves, conversions and reads | `Model/Result.lean` |
| `detail/functions.h`, `detail/apply.h` | `Model/Parse.lean` (`invoke`), `Model/TypeLevel.lean` (`fnTy`) |
| the fuel-free meaning of `parse()` and `lookahead()` | `Model/Denote.lean` (`Parse`, `Look`) |
| the same bodies as in `Model/Parse.lean`, with callbacks that have state | `Model/Stateful.lean` |
| `examples/json/json.cpp`, `examples/algebraic/{parser,evaluate,print}.h`, `algebraic.cpp` | `Model/Json.lean`, `Model/Algebraic.lean`, `Model/AlgebraicMain.lean`, `Model/JsonMain.lean` |

### How

* **Memory.** A pointer is null or (block, offset); a block is a finite list of
  elements. A span is a pointer and a length. Each primitive that has a
  precondition in C++ (`front`, `first`, `subspan`, pointer addition and
  subtraction, element access, `size_t` subtraction, `*optional`) returns the
  outcome `ub` when the precondition fails, it is never totalised silently.
* **Outcomes.** `M L A` is `diverge` (has not returned) or `done log res`: the list
  logs every callback invocation with its arguments, in order; `res` is `ok`,
  `err ub`, `err (exn e)` (a callback threw) or `err ill` (the instantiation would
  not compile, e.g. a variant index out of range).
* **Syntax.** A deep embedding: `Parser` has one constructor per parser class
  template. Callbacks, custom parsers and names are identifiers interpreted by a
  context, so parser *types* have decidable equality, as `std::same_as` needs.
* **Semantics.** One Lean definition per `parse`/`lookahead` body, in open
  recursion style, tied together by fuel (`sem n p`); loops use the same fuel.
  Fuel monotonicity is proved, and the fuel-free denotation is the limit:
  `Parse C p s = diverge` means *no* amount of fuel makes it return, i.e. the C++
  never returns. Properties are stated about the limit.
* **Heterogeneous elements.** Parser literals have type `α` (ordered), inputs
  type `β`, compared by an arbitrary `eqv : α → β → Bool`, as in the C++.
* **Custom parsers** are a table of definitions, so recursion is modelled.
* **Toolchains.** The three preprocessor branches of the adjacency test in
  `join.h` are a parameter.

### Not modelled

* `constexpr` evaluation limits, template instantiation depth, stack depth in
  bytes (C64 bounds how deep the calls nest). Allocation failure and `std::vector` growth beyond
  `max_size` are modelled in C82 only, as operations on values that throw.
* Moves and copies as such (values are mathematical values; that none is used twice is
  C67, and moved-from results are in C66), destructors and noexcept.
* Overload resolution in general; only where the library relies on it
  (operators, input construction) it is resolved by hand and cited.
* Element types whose `==` throws or has side effects, in all theorems but those of C82; a `==` whose answer changes
  over time; `<=`/`==` that is not a linear order on the literal type.
* Destructors that throw.
* I/O beyond what the examples' programs write to `std::cout` (C89; how a `double` is formatted is a parameter), `tests/`.
* Users' class templates, in all theorems but those of C86: custom parsers are numbered classes. In C86 some of these
  numbers are specialisations `t<args...>`; arguments that are no types are not modelled.
* Literals with elements of different types: `any_of<'a', 98>` and the like convert inside braces
  (static_array.h:27), which is a narrowing conversion a compiler may reject. A literal in the model
  is a list of elements of one type.
* User classes that satisfy the `parser` concept without deriving from `custom_parser`, in all theorems but
  those of C77; such a class there has the family `custom` (one that claims to be, say, of the family `join` is
  taken for one by the modifiers).
* User types that cannot be moved or assigned, and callbacks that return references: the
  library needs to move and assign values (e.g. delimit.h, sequence.h); that the types allow it is
  taken for granted.
* State in callbacks, in all theorems but those of C75: a callback is a function of its arguments (it may
  throw, and the calls it gets are recorded in order, but what it returns does not depend on what was called
  before). In C75 the callbacks and the constructors called by `construct` share a state; default
  constructors and implicit conversions of user types have none there either.
* Threads: C80 interleaves calls of the user's function objects, each of which takes place as a whole; the library
  has no static or mutable data, so nothing else can be seen by another thread. Data races inside a function object, and
  inputs that another thread writes to, are not modelled.
* Lifetimes: memory in the model is never freed. C79 speaks about them by saying which arrays are
  inside objects of the user's types; every such object that is not part of the result is taken to be destroyed.
* Different `value_type`s inside one expression, in all theorems but those of C68, which show that
  such expressions do not compile and that none other are lost.
* Floating point: the algebraic example is evaluated over an arbitrary structure with
  the operations evaluate.h uses.
* The *diagnostics* of ill-formed programs: the model only says which
  expressions are rejected.

## 3. Findings (statements that are false of the code)

1. `lookahead` is not "can we parse this": `filter` and `join` look through.
   parse can fail where lookahead succeeds, and the other way round.
2. A void-valued part of a sequence/choice is run by `lookahead`, so a `filter`
   over an ignored parser is bypassed and a void-returning `map` callback is not
   called.
3. `filter_out_void_deduplicate`'s `index_lookup` zips the de-duplicated list
   with the positions of the original list. After a void or repeated type the
   recorded index of a type seen again is wrong: `[void, A, A]` records -1 for
   the last alternative, so it is parsed by lookahead and its value silently
   replaced by a default one; `[A, A, B, B]` records index 0 for the last
   alternative.
4. The unsimplified repetitions `+(~p)`, `*(~p)`, `+(*p)`, `*(*p)` do not
   terminate, so those rewrites are not equivalences (they are improvements).
5. A const char array is read up to the first NUL, a mutable one including the
   terminator.
6. `join` on spans of different buffers subtracts unrelated pointers (UB) at run
   time on GCC/Clang.

7. The rewrites none|none, any|none and none|any are unsound if an input element can
   be equal to two different literal elements (`C10_needs_unique_equality`).
8. The specialisations of `join` for `any_of`/`none_of` apply or not depending on how a
   compiler matches constrained templates to an unconstrained template template
   parameter. It makes no difference (`C29_specialisations`,
   `C50_any_compiler`).
9. `p | p` is rewritten to `p`, and flattening moves alternatives between choices. Both
   change the meaning when a void `filter` is involved (`C13_refuted_same`,
   `C13_refuted_flatten`, `C14_refuted_void_filter`).
10. A name hides a repetition from the simplifications, so `+(named(~p))` never returns
    (`C22_name_defeats`). Substitution can remove the name afterwards and leave the
    literal `+(~p)` (an example beside that theorem).
11. Below a name of another character type nothing is substituted
    (`C35_refuted_character_type`).
12. `p % m1 % delimit` is a modifier, `p % (m1 % delimit)` does not compile
    (`C36_limits`).
13. The constants `join_family`, `map_family`, `named_family` hold each other's
    enumerators (parser.h:52, 53, 55). They are still pairwise different
    (`C37_families`).
14. `join` of a parser containing `delimit` or `ignore` does not return the whole match
    (`C30_delimit_drops`, `C30_ignore_drops`).
15. The JSON example accepts raw control characters inside strings; apart from that it
    accepts exactly JSON (`C54_control_character`, `C54_accepts`).
16. The algebraic example: unary minus takes the whole following expression, "-1+2"
    is -3 (`C56_minus`); an exponent is applied by `pow` to the mantissa, "2e3" is 8
    (`C56_power`); an exponent that does not fit `int` ends in `std::terminate`
    (`C56_exponent`); its printed grammar is ambiguous (`C55_ambiguous`); `print` reads
    past its buffer of tabs from 205 nested parentheses on (`C47_print_deep`), and writes
    a null character when a line is to be indented by 1025 tabs (`C58_limit`).
17. A choice can fail to compile although each alternative compiles, because of
    finding 3 (`C57_choice_refuted`).
18. Comparing a span with a character array reads the array up to the first NUL, constant
    or not. So the span that `parse` makes of a mutable array, which includes the NUL
    (finding 5), is never equal to the array (`C59_mutable_array`).
19. A custom parser whose declared `result_type` can be made from a `std::optional` of its
    body's type (`std::optional<T>` over a body of type `T`, for instance) succeeds, without
    consuming, where the body fails: result.h:37 initialises `std::optional<T>` from
    `std::optional<T2>`, and the standard then builds a `T` out of the empty optional. Its
    `lookahead` still fails (`C41_refuted_body_fails`).
20. The algebraic example takes exponentially many calls on malformed input such as
    `(-1-(-1-(-1-`: at least 2^k for 4k characters (`Algebraic.C65_exponential_input`). What it accepts
    takes at most quadratically many (`Algebraic.C65_accepted`).
    The operand of the unary minus is a whole expression, which takes `1-(…` and fails to
    find the closing bracket; then it gives back only the part behind the binary minus, and
    the enclosing expression tries that part again. The JSON example is linear
    (`Json.C65_linear_json`).
21. `result<void, V> r; r.has_value()` reads a `bool` that was never written (result.h:72,
    86: no member initializer), and so does copying `r`; `result<T, V> r;` for other `T` is
    a failure (`Result.C66_indeterminate`).
22. A choice goes on where a failed alternative says the input is, if it ran its `lookahead`
    (helpers.h:168-170 stores `remaining()` before looking at `has_value()`). The library's own parsers give the
    input back when they fail; the `parser` concept does not ask a hand-written class to, and with
    one that does not a choice accepts text that no alternative matches (`C77_careless`).
23. `join` of a parser whose value is a type that owns its characters and is convertible to a span
    (a callback that makes a `std::string`) returns a span into the local variable `res` of
    `join_parser::parse` (join.h:130-145), which is destroyed on return (`C79_refuted`).

Findings 1-7, 9-12 and 14-23 are proved with concrete witnesses, next to theorems for
the part that does hold. Where that part is less than the English property, the
theorem is called `_partial` and the claim is `partial` in `MANIFEST.json`.

## 4. Per property plan

Notation: "fuel induction" = induction on fuel, case on the parser, one lemma
per parser body.

| Id | Modelled by | Proof |
| --- | --- | --- |
| C01 | failing outcomes of `sem` | fuel induction, with C02 |
| C02 | spans as (block, offset, length) | fuel induction; loops by inner induction |
| C03 | `ub` outcomes | fuel induction with validity of every span in values; foreign spans excluded by a predicate on callbacks |
| C04 | spans occurring in a `Val` | fuel induction with C02 |
| C05 | `Parse` vs `Look` | fuel induction on filter/join-free expressions; negation by evaluation of a witness |
| C06 | call log | fuel induction |
| C07 | basic parsers | direct, against list-prefix/membership specifications |
| C08 | `sort_and_unique` | insertion into a sorted list; uniqueness of sorted lists |
| C09 | `notOp` | direct from C07 |
| C10 | `set_operation` merge loop | loop invariant over sorted lists; C07 |
| C11 | `choice` | induction on the alternatives |
| C12 | `filter_out_void_deduplicate` | accumulator invariant; exact characterisation; witnesses |
| C13 | `choiceOp` | case analysis; C10, C11 |
| C14 | `choiceOp` | C11; equivalence with exact lookahead |
| C15 | `sequence` | induction on the parts |
| C16 | `sequenceOp` | case analysis; C15, C17 |
| C17 | `all_of` concat | list prefix of append |
| C18 | `maybe` | direct |
| C19 | loops | inductive run relation, sound and complete |
| C20 | loops | C19 |
| C21 | operators | C18–C20 |
| C22 | limit semantics | every fuel gives none, induction on fuel |
| C23 | `exactly` | induction on N |
| C24 | `delimit` | run relation |
| C25 | `delimit` | run relation |
| C26 | `ignore` | direct |
| C27 | `complete` | direct |
| C28 | `join_executor` | induction on values against a list-of-spans spec |
| C29 | optimisations | loop invariant relating both loops |
| C30 | keep-all expressions, and those that drop only at the start and the end (`Props/Trim.lean`) | fuel induction: spans of the value tile the consumed text; a check of every node for grammars whose `lookahead` tells what `parse` does, which both examples pass |
| C31, C32 | `map`, `filter` | direct |
| C33 | name erasure | fuel induction, both directions |
| C34–C37 | operators/modifiers on syntax | structural induction; equality of syntax |
| C38 | `invoke` | direct |
| C39 | static nullability/left-recursion check | lexicographic (length, rank, size) induction |
| C40 | limit semantics | every fuel gives none |
| C41 | `custom` | unfolding equation of the limit |
| C42 | two memories | relational fuel induction |
| C43 | `result_for` | the documented types as a relation (`Spec/Types.lean`), equal to `result_for` by structural induction; values by fuel induction with a typing predicate |
| C44 | compound executor | from C05; equivalence with lookahead failing too; witnesses |
| C45 | independent inductive PEG relation | soundness by fuel induction, completeness by rule induction |
| C46, C47 | the example grammars | instances of C01–C03, C39, C25 plus grammar-specific invariants |
| C48 | span constructors | direct |
| C49 | outcomes | fuel induction |
| C50 | toolchain parameter | from C04: all spans lie in one block |
| C51 | span equality loop | induction |
| C52 | compound executor | direct from C11/C12 |
| C53 | call log | log equations of each body |
| C54 | the JSON grammar | reference grammar (`Spec/Json.lean`) with trees; soundness by induction on the length of the input, completeness by induction on the tree |
| C55 | the algebraic grammar | reference grammar (`Spec/Algebraic.lean`); soundness, and completeness for greedy readings, which exist and are unique |
| C56 | `evaluate.h` | evaluation of the tree that was read, over any arithmetic |
| C57 | `tyOK`, `parseOK`, `wf` | what each class, callback, join and conversion asks for, as relations (`Spec/Compile.lean`), all of it together in `CanParse` (`Spec/CanParse.lean`); invariants of the index sequences; structural induction |
| C58 | `print.h` | the layout as lines (`Spec/Print.lean`); induction on the expression; the lines that are indented least separate the operands, so the lines determine the expression |
| C59 | `span == x` | direct, from C51 |
| C60 | `filter_out_void_deduplicate`, `choice` | accumulator invariant; the record is unique; from the general equation of `choice` |
| C61 | `join`, `ignore`, `sequence` | from C28 and C04: the last span before the gap and the first after it cannot touch |
| C62 | all parsers | places as lists of frames (`Spec/Replace.lean`); loops by induction on the fuel, on readable inputs |
| C63 | all `lookahead`s | from C45 by inversion of the grammar's rules, and by the algebra of verdicts |
| C64 | `step` with a budget of nested calls (`Spec/Stack.lean`); one call per `parse` or `lookahead` of a parser class, callbacks and library functions not counted, as if nothing were inlined | what a step calls, by induction on the budget; the measure is (length, rank of the custom parsers reached, height); for runs that return, the functions of custom parsers that can still be entered at this place take the role of the rank (`Proof/StackReturns.lean`) |
| C65 | `step` with every call of `parse` and `lookahead` marked in the log (`Spec/Effort.lean`); comparisons within a call are not counted | erasing the marks gives the model back; bounds by induction on the budget and on the length left in each loop; lower bounds by exact counts for a family of parsers; for grammars that recurse an exponential bound, by induction on the budget with the functions of custom parsers that can still be entered at this place, as a run that ends does not enter one twice there (`Proof/EffortRecursive.lean`, `Proof/EffortReturns.lean`); one counting rule per parser (`Spec/PegCalls.lean`) proved exact for `lookahead` and for `parse` of parsers that never overrule it; from the rules, a linear bound for the JSON example, an exponential lower bound for the algebraic one and a quadratic bound for what it accepts, by induction on the expression the text denotes |
| C66 | the class `result` as objects in a store, statements of a program as transitions (`Model/Result.lean`); what is left in a value that was moved from is arbitrary | what a result stands for is found by looking back through the history (`Spec/Result.lean`); an invariant relates it to the store, by induction on the history |
| C67 | call log and values | counts of any selection of the user's values (`Spec/Once.lean`); a run is a transaction that cannot give away more than it holds or was made, by fuel induction |
| C68 | parser types whose parts may have different element types, with the constraints on them (`Model/ValueType.lean`) | which types are named anywhere inside (`Spec/ValueType.lean`); having the type `e` is inherited by the parts and by what custom parsers return; the embedding of `Parser (α e)` is injective with exactly these as image |
| C69 | the choice as in C11; alternatives that accept no input in common, or one only where another does (`Spec/Order.lean`) | a list of verdicts with at most one acceptance has the same first acceptance in every order; what an expression consumes begins with an element the check lists, by induction on PEG derivations (`Proof/Order.lean`); the JSON example as an instance |
| C70 | the spans stored in a value (`Val.spans`); which elements a span holds (`Spec/Places.lean`); user code that copies no spans, or leaves them in order | a potential: what the value built so far and the rest of the input weigh together never grows, for any additive weight of spans (`Proof/Places.lean`), instantiated with "holds this element" and with the length; the order by induction over the parser with the recorded spans as a sorted list between the start and the current place (`Proof/PlacesOrder.lean`) |
| C71 | how many parts a value is made of (`Val.size`, `Spec/Size.lean`); user code that adds boundedly many | a run that returns never enters a custom parser again at a place where it is already being tried, so the parts made without consuming are bounded by the grammar; strong induction on the fuel, with the custom parsers that can still be entered here as a set that shrinks (`Proof/Size.lean`); a callback that doubles shows the condition is needed |
| C72 | two contexts over different literal and element types with the same user code; a relation between their elements; expressions that differ in the spelling of their literals (`Respelt`, `Spec/Respelt.lean`); conversion of an expression by a function (`Parser.spell`) | every function of the model is shown to give the same on both sides, then induction on the fuel (`Proof/Respelt.lean`); instantiated with conversions, with elements no literal tells apart, and with the JSON example outside ASCII (`Props/Respelt.lean`) |
| C73 | which calls a call makes (`Tries`), repetitions that make no progress (`Spins`), custom parsers entered again by the same function at the same place (`Reenters`), all in terms of outcomes of the called functions (`Spec/Causes.lean`) | a call that makes a call that does not return does not return, for every parser and at every fuel, so by induction on the fuel neither does one that gets back to itself; conversely a call that does not return spins or makes another that does not, and by induction on the length of the input, the functions of custom parsers not yet entered there and the height of the parser this ends at a cause (`Proof/Causes.lean`) |
| C74 | values that are the same except for related user values (`Like`), user code that takes related values to related ones (`Represents`), invariants (`Establishes`), evaluation (`Evaluates`) (`Spec/Opaque.lean`) | the simulation of C42 with an arbitrary relation on user values as a second parameter (`Proof/Like.lean`), used in both directions; invariants and evaluation are the relations `v = w ∧ I v` and `w = h v` (`Proof/Opaque.lean`) |
| C75 | the bodies of `Model/Parse.lean` over runs that thread a state of any type, which only calls of user code touch (`Model/Stateful.lean`) | that the stateless model is the special case is proved (`Proof/StatefulLift.lean`), as is that the limit exists (`Proof/StatefulFix.lean`); the proofs of C01–C03 and C43 are redone for runs from every state; that the log replays to the final state is an assertion closed under sequencing (`Proof/StatefulClosed.lean`, `StatefulTracks.lean`); what each combinator does with the runs of its parts, with values, failures, errors and divergence, by the equations of C11–C25 redone over stateful runs (`Proof/StatefulCalls.lean`, `StatefulCompound.lean`, `StatefulRepeat.lean`, `StatefulModify.lean`); termination by the induction of C39 over all states (`Proof/StatefulNullable.lean`, `StatefulTerminate.lean`); the verdict by comparing each body with the `lookahead` body (`Proof/StatefulAgree.lean`); that the state is only handed on by a relation between runs over two kinds of state (`Proof/StatefulRelated.lean`) |
| C76 | the same context with other custom parsers and callbacks (`Ctx.redefine`), what a parser uses (`Uses`, `ParseReach`), compiling without regard to the rest of the program (`CompilesAlone`, `Spec/Used.lean`) | one step of the semantics depends on the parts only; induction on fuel in both directions (`Proof/Used.lean`), where a custom parser that is only looked at may get its body below `ignore`, so that a program can be cut down to what compiles |
| C77 | custom parsers whose `parse` and `lookahead` are arbitrary functions (`Model/Written.lean`), the promises they make (`Spec/Written.lean`) | the invariants of all parsers, proved step by step for arbitrary parts, hold of the hand-written parts by assumption; a class doing the same as a custom parser by comparing two least fixed points; returning by induction over the length of the input, the rank of the custom parser and the expression, one level of the library at a time; a witness for each broken promise |
| C78 | the PEG relation of C45 on a list and on a beginning of it; the check is `Parser.atCut` (`Spec/Cut.lean`) | induction over the derivation for the whole list, comparing with the derivation for the beginning; C45 carries it over to `lookahead`, C05 to `parse`; the JSON value by C54 |
| C79 | which arrays are inside objects of the user's types is a parameter; spans that point into them (`Span.IntoObject`), user code that keeps none, joins of views only (`Spec/Lifetime.lean`) | the program is simulated by itself (as in C74), with the relation "equal, and not into an object"; `join`, which alone converts user values to spans, by hand: where a joined span begins |
| C80 | a history of calls, each with its thread and the answer its function object gave in the state at the time (`Happens`); what a thread did is a whole parse if `parse`, given these answers one after the other, makes these calls (`Thread`, `Spec/Together.lean`) | a run of the stateful model (C75) is determined by the answers along its log (`Parse_replay`, by induction over the program), also between different kinds of state; a thread is then a run with any function objects that give these answers |
| C81 | an abstract interpretation of a parser expression (`Parser.predicts`, `Spec/Predict.lean`): may it fail late, and before which elements can it succeed although a part of it was given up late; `ok` says that nothing tried there begins with such an element | every call is charged to an element that is consumed, or to the failure of the whole at the position it was tried: an account with these two kinds of cost is kept by every rule of `PegCalls` (induction over the derivation, constants by rank), C65 then gives the calls of the model; the witness for the converse direction is the exponential grammar of C65 |
| C82 | the stateful model once more (`Model/Interrupted.lean`), where every comparison of elements and every step that does something to values asks an environment, with a state of its own, whether it throws; one `value` operation stands for all a library function does to values in one go. The library has no `try`, and no `noexcept` on the way that is not conditional on the call inside | a relation between a run given in all environments and the run without (`IRel`): there is one list of events, whose calls are those of the latter, and each environment plays it until an operation throws. It is preserved by bind and the loops, so all bodies satisfy it, by induction on the fuel; `lookahead` with the restriction that all operations are comparisons. The rest are facts about playing a list |
| C83 | a big-step relation like that of C65 (`PegCompares`, `Spec/Comparisons.lean`) that adds up the comparisons, which the model of C82 makes one by one; they are counted there by an environment that never throws (`tally`) | a logic for runs that count (`Took`), by which each body makes the comparisons the rules say, by induction on the fuel; what a sub-parser found, and so which rule applies, is known from C45 and C82. The rules give one number (induction over the derivation). The linear bound: each step of C81 compares at most the longest literal, and the literals of a productive grammar are finitely many |
| C84 | a big-step relation (`Gives`, `Spec/Gives.lean`): which calls are made and how it ends, one rule per way a parser of that kind can end; no fuel, loops, builders or index sequences. Where `parse` only looks ahead, the rules refer to `Peg` (C45) | soundness: by mutual induction over the derivation, with the equations of the limit `Parse` for each constructor; this also makes the rules deterministic. Completeness: wherever the run with fuel `n` does not diverge something can be derived (induction on the fuel); soundness then fixes what |
| C85 | the language of an expression as an inductive predicate on words (`Word`, `Spec/Language.lean`), and what it means that a grammar is clear (`Clear`, conditions on what can come at a place, over `Peg`) | soundness of `lookahead` by induction on `Peg`, of `parse` by mutual induction on `Gives` (C84); completeness by induction on the word's derivation with the set of elements that may come behind it; the checks on first elements from C69/C39. LL(1) grammars (`OneAhead`, `Spec/OneAhead.lean`) are total and clear by structural induction, so `complete(p)` decides the language |
| C86 | `substitute_one` as a relation (`SubstOne`, `Model/Templates.lean`) over classes some of which are specialisations of users' templates; `get_parser()` of a template is an expression with parameters (`instantiate`, `Spec/Templates.lean`) | mutual induction: the relation is a partial function, total for finitely nested arguments, equal to `substituteOne` (C34, C35) without templates, and commutes with putting arguments into an expression that does not use the name; the rest from C41 |
| C87 | the values a text can have, as inductive relations with no order and no failure (`Means`, `Spec/Means.lean`), with the result types and callbacks of C84 | soundness by mutual induction on `Gives` (C84); uniqueness by mutual structural induction on the first derivation: where it and the second one could part, the words they read (`Means.strides`) and C85 show that they do not; `parse` finds the value by the same induction, inverting `Gives` at every step (`Means.found`, `Proof/MeansParse.lean`); for this, where `parse` succeeds in a clear grammar `lookahead` does not fail (`Gives.notMiss`), although a filter may have made them go different ways; that the text behind has no part in the value is again a mutual induction (`Proof/MeansText.lean`) |
| C88 | all `lookahead`s and `parse`s of sequences; where one parser stops another fails (`Exhausts`, `Spec/Exhausts.lean`) | from the exact outcomes of the repetitions (C18-C20, C63) and the algebra of verdicts, by induction over the parts before; the words by induction on `Word` (C85) |
| C89 | `main` of `algebraic.cpp` and `json.cpp` (`Model/AlgebraicMain.lean`, `Model/JsonMain.lean`) | from C46, C47, C54, C55, C56 and C58 |
| C90 | `JsonValue`, `input`; how to write a document or an expression is specification only (`Spec/Unparse.lean`) | induction over the document or expression; from C54 and C55 |

Modules: `Spec/` holds the vocabulary of the statements, `Props/` the property theorems
(named after their property) with examples that meet their hypotheses, `Proof/` the
lemmas. `tools/manifest.py` writes `MANIFEST.json`, `Verif.lean` and `Axioms.lean`;
`tools/seed.py` runs the experiments logged in `seeded/LOG.jsonl`: it edits the model and
counts the property theorems whose proof breaks. `tools/refute.py` asks more: with all
proofs taken out and the model edited, the statement of the claim's theorem must be
refutable.
