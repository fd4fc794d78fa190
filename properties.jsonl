{"id": "C01", "title": "Failure gives the input back", "statement": "Whenever parse() or lookahead() of any parser returns a failure, remaining() is exactly the input that was passed in: same pointer and same size.", "quantifier": "every parser expression (including recursive custom parsers), every input, parse and lookahead", "why_tests_cant": "Tests check ASSERT_PARSE_FAILURE on sample parsers; choice, maybe and the repetition parsers all rely on it for arbitrary sub-parsers (they reuse res.remaining() of a failed sub-parse).", "anchors": ["include/k3/tok3n/detail/parsers/*.h: parse, lookahead", "include/k3/tok3n/detail/helpers.h: compound_executor::execute_lookahead", "tests/common/include/common/asserts/Parse.h"]}
{"id": "C02", "title": "Success consumes a prefix", "statement": "Whenever parse() or lookahead() succeeds, remaining() is a suffix of the input: it ends where the input ends and its start is the input start advanced by some k <= size().", "quantifier": "every parser expression, every input, parse and lookahead", "why_tests_cant": "Infinitely many grammars and inputs; a single wrong subspan/size computation only shows on particular shapes.", "anchors": ["include/k3/tok3n/detail/parsers/basic_base.h", "include/k3/tok3n/detail/result.h: remaining", "include/k3/tok3n/detail/parsers/*.h"]}
{"id": "C03", "title": "Memory safety", "statement": "On a valid input no parser reads outside the input, forms an out-of-range pointer, underflows a size, calls front()/first()/subspan() outside its precondition, or dereferences a disengaged result, provided user callbacks do not feed spans of other buffers into join.", "quantifier": "every compilable parser expression, every valid input span in any buffer (including the empty null span), parse and lookahead", "why_tests_cant": "Undefined behaviour is invisible to result assertions and depends on input lengths and match positions.", "anchors": ["include/k3/tok3n/detail/parsers/any_of.h: failure_condition", "include/k3/tok3n/detail/parsers/all_of.h: failure_condition", "include/k3/tok3n/detail/parsers/basic_base.h", "include/k3/tok3n/detail/parsers/join.h: try_join", "include/k3/tok3n/detail/optimizations/*.h"]}
{"id": "C04", "title": "Zero-copy results stay inside the consumed text", "statement": "Every span stored anywhere in the result value of a callback-free parser points into the consumed part of the input ([input.data(), remaining.data())), or is the default empty span.", "quantifier": "every callback-free parser expression, every input", "why_tests_cant": "Needs all nesting shapes of tuples, vectors, arrays, optionals, variants and pairs.", "anchors": ["README.md: Match a given string", "include/k3/tok3n/detail/parsers/basic_base.h: parse", "include/k3/tok3n/detail/parsers/join.h", "include/k3/tok3n/detail/helpers.h: result_builder"]}
{"id": "C05", "title": "lookahead answers 'can we parse this?'", "statement": "lookahead() succeeds exactly when parse() succeeds and reports the same remaining().", "quantifier": "every parser expression and every input; the code (and its tests) make filter and join exceptions, and a custom parser with a declared type made from an optional is one too, so this is proved for expressions without them and refuted with witnesses in general", "why_tests_cant": "Agreement of two separately written functions for every parser in every context.", "anchors": ["README.md: Match a given string (lookahead)", "include/k3/tok3n/detail/parsers/filter.h: lookahead", "include/k3/tok3n/detail/parsers/join.h: lookahead", "include/k3/tok3n/detail/parsers/*.h"]}
{"id": "C06", "title": "lookahead runs no user code", "statement": "lookahead() of any parser never invokes a map/filter callback, never throws, and never fails to return for a reason other than an endless loop.", "quantifier": "every parser expression, every input", "why_tests_cant": "Absence of calls over all grammars is not observable by examples.", "anchors": ["include/k3/tok3n/detail/parsers/map.h: lookahead", "include/k3/tok3n/detail/parsers/filter.h: lookahead", "include/k3/tok3n/detail/parsers/*.h: lookahead"]}
{"id": "C07", "title": "Exact acceptance of the basic parsers", "statement": "any_of accepts exactly a non-empty input whose first element equals one of the listed elements; none_of exactly a non-empty input whose first element equals none of them; anything exactly a non-empty input; all_of exactly an input that starts with the listed elements; epsilon everything. Each consumes exactly that prefix and its value is the span of exactly those elements.", "quantifier": "every element list, every input element type comparable with the list's, every input", "why_tests_cant": "All alphabets, all lists, all inputs.", "anchors": ["include/k3/tok3n/detail/parsers/any_of.h", "include/k3/tok3n/detail/parsers/none_of.h", "include/k3/tok3n/detail/parsers/all_of.h", "include/k3/tok3n/detail/parsers/anything.h", "include/k3/tok3n/detail/parsers/epsilon.h", "include/k3/tok3n/detail/static_array.h: contains", "include/k3/tok3n/detail/span.h: span_equal_to"]}
{"id": "C08", "title": "any/none ignore order and repetition of the characters listed", "statement": "The parser built by any<...>, any_of<...>, \"...\"_any (resp. none) accepts exactly the elements that occur in the written list, whatever their order and multiplicity, and two spellings of the same set give the very same parser type.", "quantifier": "every element list over a linearly ordered element type", "why_tests_cant": "All permutations and multiplicities of all lists.", "anchors": ["include/k3/tok3n/basic.h: any, none, operator\"\" _any, operator\"\" _none", "include/k3/tok3n/detail/static_array.h: sort_and_unique, is_sorted_and_uniqued"]}
{"id": "C09", "title": "Negation is complement", "statement": "!p on a character class succeeds on a non-empty input exactly when p fails, fails on empty input, consumes one element; !!p is p itself; ! is rejected on anything but any/none.", "quantifier": "every character class, every input", "why_tests_cant": "All classes and all inputs.", "anchors": ["include/k3/tok3n/detail/operators/not.h"]}
{"id": "C10", "title": "Character-class union by operator|", "statement": "Combining character classes with | (any|any, none|none, any|none, none|any) yields one class whose parse and lookahead results are identical (value, success, remaining) to the ordered choice of the two operands, and whose list is again sorted and duplicate free (so the result is a valid parser type). The loop is run twice, to count the elements of the new list and to write them; both runs agree, so the array is filled exactly, and it holds precisely the elements the set operation stands for.", "quantifier": "every pair of sorted element lists, every input", "why_tests_cant": "The merge loops run over all pairs of sets; tests check a handful of strings.", "anchors": ["include/k3/tok3n/detail/operators/choice.h: choice_operator", "include/k3/tok3n/detail/set_operations.h: set_operation", "include/k3/tok3n/detail/parsers/any_of.h: requires"]}
{"id": "C11", "title": "Ordered choice", "statement": "A choice succeeds with the result of its first alternative that succeeds, alternatives after it are not tried, and it fails exactly when all alternatives fail, in which case the input is untouched.", "quantifier": "every non-empty list of alternatives, every input", "why_tests_cant": "All alternative lists and failure patterns.", "anchors": ["include/k3/tok3n/detail/parsers/choice.h", "include/k3/tok3n/detail/helpers.h: compound_executor"]}
{"id": "C12", "title": "Choice reports which alternative it took", "statement": "The value of a choice with several result types is a variant of the distinct non-void result types in order of first appearance, engaged at the index of the type of the alternative taken and holding that alternative's value; with one distinct type it is that value itself.", "quantifier": "every list of alternatives (any mix of repeated and void result types), every input; false of the code for some mixes, proved for an exactly characterised class and refuted outside it", "why_tests_cant": "Type-level index arithmetic over all type lists; tests only assert result types, not indices.", "anchors": ["include/k3/tok3n/detail/filter.h: index_lookup, filter_deduplicate_with_index", "include/k3/tok3n/detail/helpers.h: compound_trait, compound_executor::execute_element", "README.md: Combinators"]}
{"id": "C13", "title": "operator| flattens without changing meaning", "statement": "p | q, with all its flattening and simplification rules, recognises exactly what the plain two-way ordered choice of p and q recognises, leaving the same remaining input; hence regrouping a chain of | does not change what is accepted.", "quantifier": "every pair/triple of parser expressions, every input", "why_tests_cant": "Every overload of the operator against every operand shape.", "anchors": ["include/k3/tok3n/detail/operators/choice.h"]}
{"id": "C14", "title": "p | p is p", "statement": "Replacing p | p by p does not change success, value or remaining input.", "quantifier": "every parser expression p, every input", "why_tests_cant": "All p.", "anchors": ["include/k3/tok3n/detail/operators/choice.h: choice_operator(P, P)"]}
{"id": "C15", "title": "Sequence runs its parts in order", "statement": "A sequence succeeds exactly when its parts succeed one after the other, each starting where the previous one stopped; its remaining input is that of the last part; on any failure the whole input is given back. Its value is the tuple of the non-void parts' values in order (the bare value if there is one, void if none).", "quantifier": "every non-empty list of parts, every input", "why_tests_cant": "All lists, all mixes of void and non-void parts.", "anchors": ["include/k3/tok3n/detail/parsers/sequence.h", "include/k3/tok3n/detail/filter.h: filter_with_index", "include/k3/tok3n/detail/helpers.h: compound_executor, compound_trait"]}
{"id": "C16", "title": "operator>> flattens without changing meaning", "statement": "p >> q, with its flattening rules, accepts exactly what the plain two-part sequence of p and q accepts, with the same remaining input (by C15 that is running p then q, a part without value being run by lookahead); regrouping a chain of >> does not change acceptance or remaining input.", "quantifier": "every pair/triple of parser expressions, every input", "why_tests_cant": "Every overload of the operator against every operand shape.", "anchors": ["include/k3/tok3n/detail/operators/sequence.h"]}
{"id": "C17", "title": "Literal fusion", "statement": "\"ab\"_all >> \"cd\"_all is \"abcd\"_all: it accepts exactly the inputs the unfused two-part sequence accepts with the same remaining input, and its value is the single span covering both parts' spans.", "quantifier": "every pair of literals, every input", "why_tests_cant": "All literals, all inputs.", "anchors": ["include/k3/tok3n/detail/operators/sequence.h: sequence_operator(all_of, all_of)", "include/k3/tok3n/detail/static_array.h: operator+"]}
{"id": "C18", "title": "maybe never fails", "statement": "~p always succeeds when p returns: with p's value and remaining input if p succeeds, otherwise with an empty optional and the input untouched.", "quantifier": "every parser expression p, every input", "why_tests_cant": "All p.", "anchors": ["include/k3/tok3n/detail/parsers/maybe.h", "README.md: Combinators (~)"]}
{"id": "C19", "title": "zero_or_more is greedy and never fails", "statement": "When *p returns it has succeeded; its vector holds, in order, the values of the longest run of consecutive successful parses of p from the start of the input, and remaining() is where p first fails.", "quantifier": "every parser expression p, every input", "why_tests_cant": "Unbounded repetition counts.", "anchors": ["include/k3/tok3n/detail/parsers/zero_or_more.h", "README.md: Combinators (*)"]}
{"id": "C20", "title": "one_or_more", "statement": "+p fails exactly when p fails on the input, and otherwise equals *p (same vector, non-empty, same remaining); it accepts exactly what running p and then *p accepts, which is what p >> *p accepts unless p has no value and its lookahead does not tell its parse (C15).", "quantifier": "every parser expression p, every input", "why_tests_cant": "Unbounded repetition counts.", "anchors": ["include/k3/tok3n/detail/parsers/one_or_more.h", "README.md: Combinators (+)"]}
{"id": "C21", "title": "Repetition simplifications are sound", "statement": "The rewrites ~(~p)=~p, ~(+p)=*p, ~(*p)=*p, *(+p)=*p, +(+p)=+p keep success and remaining input, and the rewritten value is the flattening of the literal one.", "quantifier": "every parser expression p, every input on which p cannot loop", "why_tests_cant": "All p and unbounded repetition.", "anchors": ["include/k3/tok3n/detail/operators/maybe.h", "include/k3/tok3n/detail/operators/one_or_more.h", "include/k3/tok3n/detail/operators/zero_or_more.h"]}
{"id": "C22", "title": "Repetition simplifications remove endless loops", "statement": "The literal (unsimplified) repetitions +(~p), *(~p), +(*p), *(*p) never return normally on any input; the operators rewrite all four to *p, so no operator expression ever builds them directly.", "quantifier": "every parser expression p, every input", "why_tests_cant": "Non-termination cannot be observed by a test.", "anchors": ["include/k3/tok3n/detail/operators/one_or_more.h", "include/k3/tok3n/detail/operators/zero_or_more.h", "include/k3/tok3n/detail/parsers/zero_or_more.h", "include/k3/tok3n/detail/parsers/one_or_more.h"]}
{"id": "C23", "title": "exactly<N>", "statement": "exactly<N>(p) succeeds exactly when p succeeds N times in a row; it accepts what the N-fold sequence of p accepts unless p has no value and its lookahead does not tell its parse (C15); its value is the array of the N values in order, and on failure the input is untouched.", "quantifier": "every parser expression p, every N >= 1, every input", "why_tests_cant": "All N.", "anchors": ["include/k3/tok3n/detail/parsers/exactly.h", "README.md: exactly<N>"]}
{"id": "C24", "title": "delimit", "statement": "delimit(p, d) succeeds exactly when p, and then repeatedly d (ignored) and p, do, with the same remaining input, which is where p >> *(ignore(d) >> p) succeeds unless p has no value and its lookahead does not tell its parse (C15); its vector is the list of all values of p in order.", "quantifier": "every pair of parser expressions, every input", "why_tests_cant": "Unbounded number of elements.", "anchors": ["include/k3/tok3n/detail/parsers/delimit.h", "include/k3/tok3n/detail/modifiers/delimit.h", "README.md: delimit"]}
{"id": "C25", "title": "delimit_keep bookkeeping", "statement": "On success delimit_keep(p, d) returns one more element than delimiters, at least one element; delimiter i is the one found between element i and i+1; a trailing delimiter that is not followed by an element is not consumed and not reported.", "quantifier": "every pair of value-producing parser expressions, every input", "why_tests_cant": "Unbounded number of elements.", "anchors": ["include/k3/tok3n/detail/parsers/delimit.h", "include/k3/tok3n/detail/modifiers/delimit_keep.h", "examples/algebraic/evaluate.h: evaluate"]}
{"id": "C26", "title": "ignore", "statement": "ignore(p) succeeds exactly when p's lookahead does with the same remaining input, produces no value, runs no callbacks of p; ignore(ignore(p)) is ignore(p); inside a sequence it only removes the part from the tuple.", "quantifier": "every parser expression p, every input", "why_tests_cant": "All p.", "anchors": ["include/k3/tok3n/detail/parsers/ignore.h", "include/k3/tok3n/detail/modifiers/ignore.h", "README.md: ignore"]}
{"id": "C27", "title": "complete", "statement": "complete(p) succeeds exactly when p succeeds and leaves nothing, with p's value; otherwise it fails with the input untouched; complete is idempotent.", "quantifier": "every parser expression p, every input", "why_tests_cant": "All p.", "anchors": ["include/k3/tok3n/detail/parsers/complete.h", "include/k3/tok3n/detail/modifiers/complete.h"]}
{"id": "C28", "title": "join succeeds exactly on contiguous output", "statement": "join(p) succeeds exactly when p succeeds and the non-empty spans of p's value, read left to right, are adjacent in memory; its value is then the single span covering all of them (an empty span at the end of the match if there are none), remaining is p's; join is idempotent.", "quantifier": "every joinable parser expression p, every input", "why_tests_cant": "All nestings of tuples, vectors, arrays and optionals.", "anchors": ["include/k3/tok3n/detail/parsers/join.h: join_executor, join_parser", "include/k3/tok3n/detail/modifiers/join.h", "README.md: join"]}
{"id": "C29", "title": "join specialisations agree with the generic join", "statement": "The four specialised join parsers (join of exactly/maybe/one_or_more/zero_or_more of a basic parser) return exactly what the generic join would, for parse and lookahead, including failure, remaining, the position of empty spans and endless loops.", "quantifier": "every basic parser, every N, every input", "why_tests_cant": "Two independent implementations must agree on every input.", "anchors": ["include/k3/tok3n/detail/optimizations/join_exactly_basic.h", "include/k3/tok3n/detail/optimizations/join_maybe_basic.h", "include/k3/tok3n/detail/optimizations/join_one_or_more_basic.h", "include/k3/tok3n/detail/optimizations/join_zero_or_more_basic.h"]}
{"id": "C30", "title": "join of a parser that drops nothing returns the whole match", "statement": "If nothing in p is ignored, mapped (into, constant, defaulted ...) or delimited, and no choice in it records a wrong variant index, the spans of p's value concatenate to exactly the consumed text, so join(p) succeeds whenever p does and returns exactly the consumed text. The same holds for a sequence that drops things only at its start and its end. Where every join in a grammar is of one of these kinds, lookahead tells exactly what parse does, for the grammar and for each of its parts; the two examples are such grammars.", "quantifier": "every such parser expression (recursive custom parsers included), every input, every user type and callback", "why_tests_cant": "All nestings.", "anchors": ["README.md: join", "include/k3/tok3n/detail/parsers/join.h", "include/k3/tok3n/detail/parsers/sequence.h", "examples/json/json.cpp", "examples/algebraic/parser.h"]}
{"id": "C31", "title": "map calls its function exactly once, on success only", "statement": "map<f>(p) succeeds exactly when p succeeds, with the same remaining input; f is called exactly once, with p's value, after p's own callbacks, and its result is the value; if p fails f is not called.", "quantifier": "every parser expression p, every callback, every input", "why_tests_cant": "All p and all callbacks, including throwing ones.", "anchors": ["include/k3/tok3n/detail/parsers/map.h", "include/k3/tok3n/detail/aliases/*.h"]}
{"id": "C32", "title": "filter", "statement": "filter<f>(p).parse succeeds exactly when p succeeds and f accepts its value; the value and remaining are p's; otherwise it fails with the input untouched.", "quantifier": "every parser expression p, every predicate, every input", "why_tests_cant": "All p and predicates.", "anchors": ["include/k3/tok3n/detail/parsers/filter.h"]}
{"id": "C33", "title": "Names have no effect on parsing", "statement": "Naming sub-parsers (name<...>) anywhere in an expression changes neither success, value, remaining input nor the callbacks run.", "quantifier": "every parser expression, every subset of its sub-parsers named, every input", "why_tests_cant": "All placements of names, including under join where a name disables a specialisation.", "anchors": ["include/k3/tok3n/detail/parsers/named.h", "include/k3/tok3n/detail/modifiers/name.h", "README.md: name"]}
{"id": "C34", "title": "sub(s1, s2) is sub(s1) then sub(s2)", "statement": "p % sub(s1, ..., sn) is the same parser type as applying the substitutions one at a time, in order, by sub(p, ...), by %-chaining or by a combined modifier.", "quantifier": "every parser expression, every list of substitutions", "why_tests_cant": "All expressions and lists.", "anchors": ["include/k3/tok3n/detail/modifiers/sub.h: substitute", "README.md: sub"]}
{"id": "C35", "title": "Substitution reaches every named parser and nothing else", "statement": "sub(name<n> = m) leaves a parser without the name n unchanged, and leaves no parser named n in the result (unless m introduces it); sub-parsers under other names keep their names.", "quantifier": "every parser expression, every name and modifier", "why_tests_cant": "All nestings; the tests only substitute at top level.", "anchors": ["include/k3/tok3n/detail/modifiers/sub.h: substitute_one"]}
{"id": "C36", "title": "Modifiers compose associatively", "statement": "(m1 % m2) % m3 and m1 % (m2 % m3) are the same modifier; if p % m1 is a parser, (p % m1) % m2 is a parser exactly if p % (m1 % m2) is, and then they are the same type.", "quantifier": "every parser expression, every modifiers including multi-modifiers", "why_tests_cant": "All modifier shapes.", "anchors": ["include/k3/tok3n/detail/operators/modifier.h", "include/k3/tok3n/detail/modifiers/multi.h", "README.md: Modifiers"]}
{"id": "C37", "title": "Prefix and infix modifiers agree; repeated ignore/join/complete collapse soundly", "statement": "m(p) and p % m are the same; applying ignore, join or complete to a parser already of that family returns it unchanged, and this returned parser behaves identically to the doubly wrapped one. The family tags used for this test are pairwise distinct.", "quantifier": "every modifier, every parser expression, every input", "why_tests_cant": "All p.", "anchors": ["include/k3/tok3n/detail/operators/modifier.h", "include/k3/tok3n/detail/modifiers/*.h", "include/k3/tok3n/detail/parser.h: parser_family"]}
{"id": "C38", "title": "apply, into, constant, defaulted", "statement": "apply<f> calls f with the components of the tuple/array/pair in order as separate arguments; into<T>/apply_into<T> construct T from the value/components; constant<v> and defaulted<T> give v / T{} whatever was parsed; success and remaining are those of the inner parser.", "quantifier": "every parser expression p, every f/T/v, every input", "why_tests_cant": "All arities and p.", "anchors": ["include/k3/tok3n/detail/functions.h", "include/k3/tok3n/detail/apply.h", "include/k3/tok3n/detail/aliases/*.h", "include/k3/tok3n/detail/modifiers/*.h"]}
{"id": "C39", "title": "Productive grammars always return", "statement": "If no repetition body can succeed without consuming and no custom parser can reach itself before something is consumed, parse() and lookahead() return on every input.", "quantifier": "every grammar (any number of mutually recursive custom parsers) meeting the static check, every input", "why_tests_cant": "Termination on all inputs.", "anchors": ["include/k3/tok3n/detail/parsers/zero_or_more.h", "include/k3/tok3n/detail/parsers/one_or_more.h", "include/k3/tok3n/detail/parsers/delimit.h", "include/k3/tok3n/detail/parsers/custom.h"]}
{"id": "C40", "title": "Unproductive repetition never returns", "statement": "If the body of * or + succeeds without consuming at a position the repetition reaches, the repetition never returns on that input (it does not stop, fail or skip).", "quantifier": "every repetition, every input reaching such a position", "why_tests_cant": "Non-termination cannot be observed by a test.", "anchors": ["include/k3/tok3n/detail/parsers/zero_or_more.h", "include/k3/tok3n/detail/parsers/one_or_more.h"]}
{"id": "C41", "title": "custom_parser is its get_parser()", "statement": "A custom parser behaves exactly as the parser returned by get_parser(), for parse and lookahead, including when the definition is recursive; the value is converted to the declared result_type only if that type differs. The exception: if the declared type can be made from a std::optional of the body's type, the value is made from the optional, so that parse() succeeds, consuming nothing, where get_parser() fails.", "quantifier": "every (mutually) recursive set of custom parsers, every input", "why_tests_cant": "Unbounded recursion depth.", "anchors": ["include/k3/tok3n/detail/parsers/custom.h", "include/k3/tok3n/detail/result.h: converting constructor"]}
{"id": "C42", "title": "Results depend only on the elements of the input", "statement": "Parsing two inputs with equal elements, at whatever addresses and with whatever surrounding memory, gives the same success, the same number of consumed elements and values that differ only by relocation of the spans.", "quantifier": "every parser expression with position-independent callbacks, every pair of equal inputs", "why_tests_cant": "Hyperproperty over pairs of memories.", "anchors": ["include/k3/tok3n/detail/span.h", "include/k3/tok3n/detail/parsers/basic_base.h", "include/k3/tok3n/detail/parsers/join.h"]}
{"id": "C43", "title": "The value has the documented type", "statement": "A successful parse of a compilable parser returns a value of the shape computed by result_for: span for basic parsers and join, vector for */+, array of N for exactly, optional for ~, tuple/variant/pair/void for sequence/choice/delimit/ignore.", "quantifier": "every compilable parser expression with well-typed callbacks, every input", "why_tests_cant": "All type nestings.", "anchors": ["include/k3/tok3n/detail/parsers/*.h: result_for", "include/k3/tok3n/detail/type_traits.h: unwrap_if_single", "include/k3/tok3n/detail/helpers.h: compound_trait"]}
{"id": "C44", "title": "A void part of a sequence or choice is checked like any other part", "statement": "A part without a value (e.g. filter over an ignored parser) makes the surrounding sequence or choice fail whenever the part's own parse fails.", "quantifier": "every sequence/choice, every void part, every input; false of the code for void filters (they are run by lookahead), proved for parts without filter and join and refuted in general", "why_tests_cant": "All void-valued sub-expressions.", "anchors": ["include/k3/tok3n/detail/helpers.h: compound_executor::execute", "include/k3/tok3n/detail/filter.h: is_not_void", "include/k3/tok3n/detail/parsers/filter.h"]}
{"id": "C45", "title": "lookahead implements PEG recognition", "statement": "lookahead() returns success consuming k elements exactly when the parsing-expression-grammar semantics of the expression (with filter, join, map, ignore, name transparent) derives a match of length k, and failure exactly when it derives failure.", "quantifier": "every parser expression and recursive grammar, every input", "why_tests_cant": "Two-sided agreement with a declarative semantics.", "anchors": ["include/k3/tok3n/detail/parsers/*.h: lookahead"]}
{"id": "C46", "title": "JSON example", "statement": "The JSON example grammar returns on every input, commits no memory error, and leaves the input untouched on failure; on success what is left over does not start with whitespace for the value parser.", "quantifier": "every character input", "why_tests_cant": "Recursive grammar, unbounded nesting.", "anchors": ["examples/json/json.cpp"]}
{"id": "C47", "title": "Algebraic example", "statement": "The algebraic example grammar returns on every input without memory error; every expr/term it produces has exactly one more operand than operators and at least one operand, and factors are non-empty, so evaluate() and print() never run past their vectors; a successful input::parse consumes everything.", "quantifier": "every character input", "why_tests_cant": "Recursive grammar, unbounded nesting.", "anchors": ["examples/algebraic/parser.h", "examples/algebraic/evaluate.h", "examples/algebraic/print.h"]}
{"id": "C48", "title": "What parse() sees of its argument", "statement": "A string literal or NUL-terminated pointer is seen up to (not including) the first NUL; every other contiguous range (including a non-const character array, terminator included) is seen in full; a const character array without NUL is undefined behaviour.", "quantifier": "every argument of each kind, every content", "why_tests_cant": "All contents.", "anchors": ["include/k3/tok3n/detail/span.h: span constructors", "include/k3/tok3n/detail/parsers/basic_base.h: input_span input{...}"]}
{"id": "C49", "title": "Exceptions come only from callbacks", "statement": "parse() throws only an exception thrown by one of the callbacks it invoked (the last one it invoked), and returns normally if no callback throws; parsing again with the same arguments gives the same outcome.", "quantifier": "every parser expression, every callback behaviour, every input", "why_tests_cant": "All interleavings of callbacks and failures.", "anchors": ["include/k3/tok3n/detail/parsers/map.h", "include/k3/tok3n/detail/parsers/filter.h"]}
{"id": "C50", "title": "join does not depend on the compiler", "statement": "For callback-free parsers the MSVC, GCC/Clang runtime and GCC/Clang constant-evaluation branches of the adjacency test give the same results.", "quantifier": "every callback-free parser expression, every input", "why_tests_cant": "Three implementations selected by preprocessor.", "anchors": ["include/k3/tok3n/detail/parsers/join.h: try_join"]}
{"id": "C51", "title": "Span comparison", "statement": "Two spans compare equal exactly when they have the same length and pairwise equal elements, whatever their addresses; the comparison is defined for every pair of valid spans.", "quantifier": "every pair of valid spans, every element comparison", "why_tests_cant": "All lengths and contents.", "anchors": ["include/k3/tok3n/detail/span.h: span_equal_to, operator=="]}
{"id": "C52", "title": "Choice with a void alternative", "statement": "When a void alternative of a choice is taken, the result is the default-constructed value of the result type (empty span, empty vector, ...).", "quantifier": "every choice with at least one void alternative, every input", "why_tests_cant": "All type mixes.", "anchors": ["include/k3/tok3n/detail/helpers.h: result_builder, execute_lookahead", "include/k3/tok3n/detail/parsers/choice.h", "examples/json/json.cpp: (\"-\"_all | eps)"]}
{"id": "C53", "title": "Order of callbacks", "statement": "The callbacks of a successful sequence run in the textual order of the parts, those of a repetition in input order, and the callbacks of alternatives not reached never run. An optional part, complete, join, a name and a custom parser run the callbacks of their part and no others; map and filter run their own once, after those of their part and only if it succeeded.", "quantifier": "every parser expression, every input", "why_tests_cant": "All interleavings.", "anchors": ["include/k3/tok3n/detail/parsers/sequence.h", "include/k3/tok3n/detail/parsers/choice.h", "include/k3/tok3n/detail/parsers/zero_or_more.h", "include/k3/tok3n/detail/parsers/map.h"]}
{"id": "C54", "title": "JSON example accepts JSON", "statement": "JsonValue::parse accepts a whole text exactly if the text is an element of json.org's grammar (except that control characters are allowed inside strings), and its value represents the document the text denotes: strings as written, numbers by their parts, members and elements in order. JsonObject::parse, JsonArray::parse and string.parse accept exactly the objects, arrays and strings of the grammar, whatever follows them. A text denotes at most one document.", "quantifier": "every character input, every nesting depth, every text following an accepted one", "why_tests_cant": "Infinitely many documents; the grammar is ordered choice and greedy repetition while json.org's is declarative, so that no alternative or repetition commits too early has to be shown for all texts.", "anchors": ["examples/json/json.cpp"]}
{"id": "C55", "title": "The algebraic example accepts its grammar", "statement": "input::parse accepts a text exactly if the text is in the grammar given in the comment of examples/algebraic/parser.h (the whole text; no prefix). The grammar is ambiguous; the result represents the one expression the text denotes in which a minus sign takes as much as it can, + - * / associating to the left and ^ to the right. Such an expression exists for every text of the grammar and is unique.", "quantifier": "every character input", "why_tests_cant": "An equality of two infinite languages with unbounded nesting, and of the trees built.", "anchors": ["examples/algebraic/parser.h"]}
{"id": "C56", "title": "The algebraic example evaluates what was read", "statement": "evaluate() on the result of a successful input::parse returns the value of the expression that the text denotes, computed with the arithmetic of the number type in the order of the grammar's precedence; it throws std::invalid_argument exactly for a number out of range and nothing else goes wrong except for an exponent that does not fit an int, where the program terminates.", "quantifier": "every character input accepted by input::parse, every arithmetic", "why_tests_cant": "Recursive evaluation of unboundedly nested values.", "anchors": ["examples/algebraic/evaluate.h", "examples/algebraic/parser.h"]}
{"id": "C57", "title": "What is built from parsers that compile, compiles", "statement": "Putting parsers that compile together with the library's operators and modifiers gives a parser that compiles: a sequence of parts asks nothing of their combination (void parts anywhere among the others are fine), repetitions and options nothing beyond their body, exactly, map, filter and join only a non-zero count, a callback that takes the value, a joinable value. A choice compiles if its value types can be told apart by the library's index computation; otherwise alternatives that compile on their own can be refused in a choice.", "quantifier": "every parser expression of any size and nesting, every set of callbacks, conversions, user types and custom parsers; default constructible values", "why_tests_cant": "The tests compile the finitely many expressions they contain; whether an expression nobody has written yet compiles depends on index sequences computed from the types of all its parts.", "anchors": ["include/k3/tok3n/detail/filter.h: filter_with_index, filter_deduplicate_with_index, index_lookup", "include/k3/tok3n/detail/helpers.h: compound_trait, compound_executor::execute_element, result_builder", "include/k3/tok3n/detail/parsers/*.h: result_for, requires clauses", "include/k3/tok3n/detail/operators/*.h"]}
{"id": "C58", "title": "The algebraic example prints what was read, and different expressions differently", "statement": "print(result, tabs) on the result of a successful input::parse writes the expression the text denotes: nested titled blocks in braces, each one tab deeper than what contains it, operands in the order of the text with a comma and the operator's name between them (for ^ only the comma), numbers as written but with a small e. This holds exactly as long as no line is indented by more than 1024 tabs: at 1025 a null character is written, and beyond that the buffer of tabs is read past its end. Expressions that differ are printed differently: if the same is printed for two results, with the same indentation, then the two texts denote the same expression and evaluate does the same with both.", "quantifier": "every character input accepted by input::parse and every pair of them, every indentation", "why_tests_cant": "Unboundedly many shapes and depths of expression; the example has no tests.", "anchors": ["examples/algebraic/print.h", "examples/algebraic/parser.h"]}
{"id": "C59", "title": "Comparing a span with something else", "statement": "span == x is defined and true exactly if the elements of the span are those x stands for: for a pointer or a character array, constant or not, the characters before the first NUL; for any other contiguous range all of its elements. What parse() makes of a literal, a pointer or a range therefore compares equal to it; what it makes of a mutable character array never does, and without a NUL in the array the comparison is undefined.", "quantifier": "every valid span, every right-hand side of each kind, every content", "why_tests_cant": "All lengths and contents, including arrays with NULs anywhere.", "anchors": ["include/k3/tok3n/detail/span.h: span_equal_to, operator==", "include/k3/tok3n/detail/span.h: span constructors"]}
{"id": "C60", "title": "What every choice does, wrong indices included", "statement": "Every choice that compiles tries its alternatives in order up to the first success. An alternative with a recorded place is parsed and its value, converted if necessary, is put at that place of the variant; an alternative without one (without value, or of a repeated type whose place the library looks up wrongly) is only looked ahead and the value of the choice is then the default constructed one. If no alternative's type converts to another's, the value is the right one or the default constructed one, never one at a wrong place.", "quantifier": "every list of alternatives of any types, every input", "why_tests_cant": "The recorded places depend on the whole list of types; the tests have no list in which they go wrong.", "anchors": ["include/k3/tok3n/detail/filter.h: index_lookup, filter_deduplicate_with_index, filter_out_void_deduplicate", "include/k3/tok3n/detail/helpers.h: compound_executor, result_builder", "include/k3/tok3n/detail/parsers/choice.h"]}
{"id": "C61", "title": "A join over a gap never succeeds", "statement": "If a part of a sequence that has no value (an ignored parser) consumes something, and the values before it and after it contain non-empty spans, then join of the sequence fails although the sequence succeeds. In particular join(a >> ignore(b) >> c) never succeeds for literals and character classes a, b, c that match something non-empty.", "quantifier": "every sequence around a part without value, every input; every literal or character class a, b, c", "why_tests_cant": "A claim that something never succeeds ranges over every input; a test can only show failure on some.", "anchors": ["include/k3/tok3n/detail/parsers/join.h: join_parser", "include/k3/tok3n/detail/parsers/ignore.h", "README.md: join"]}
{"id": "C62", "title": "A part may be replaced by one that cannot be told from it", "statement": "If two parsers have values of the same type and, on every readable input, the same outcome (success, failure, exception, running forever), value, remaining input and callbacks, both for parse and for lookahead, then putting one in place of the other anywhere inside a larger parser changes nothing of the larger parser, not even whether it compiles. For lookahead it suffices that their lookaheads agree. In particular names can be added and parts moved into custom parsers anywhere.", "quantifier": "all parsers, all places at any depth inside them, every input", "why_tests_cant": "It quantifies over all contexts; several parsers choose what they do by the types of their parts, so that it is not evident.", "anchors": ["include/k3/tok3n/detail/parsers/*.h", "include/k3/tok3n/detail/helpers.h", "include/k3/tok3n/detail/optimizations/*.h"]}
{"id": "C63", "title": "Rewriting a grammar", "statement": "Lookahead (and parse, where it agrees with lookahead) satisfies the equations users rely on when rewriting a grammar: ~p is p | eps; +p is p >> *p; *p is ~+p; exactly<N+1>(p) is p >> exactly<N>(p); delimit(p, d) is p >> *(d >> p); a >> (b | c) is (a >> b) | (a >> c); parentheses in sequences and choices and eps in sequences make no difference; alternatives after one that never fails, and repeated alternatives, can be left out; complete(a >> b) is a >> complete(b). Common right factors and the order of alternatives do matter.", "quantifier": "all parsers p, d, a, b, c and lists of them, every input", "why_tests_cant": "The equations range over all parsers and inputs; each of these operations has its own implementation.", "anchors": ["include/k3/tok3n/detail/parsers/*.h: lookahead", "README.md"]}
{"id": "C64", "title": "Stack use", "statement": "Parsing does not exhaust the stack unless the grammar asks for it. The calls of parse and lookahead nest no deeper than the expression is high when the grammar does not recurse, however long the input. When it recurses, but no custom parser can reach itself before something is consumed, they nest at most linearly in the length of the input: at most 51*(n+1) for the JSON example and 56*(n+1) for the algebraic one. A linear number can be needed. A left recursive custom parser has no bound where it does not return; but whatever the grammar, a parse or lookahead that does return has nested its calls at most linearly in the length of the input.", "quantifier": "all grammars, every input of every length", "why_tests_cant": "A test overflows the stack for some inputs, or does not; a bound has to hold for every input of every length.", "anchors": ["include/k3/tok3n/detail/parsers/*.h: parse, lookahead", "include/k3/tok3n/detail/parsers/custom.h: parse, lookahead", "examples/json", "examples/algebraic"]}
{"id": "C65", "title": "How many calls a parse makes", "statement": "A parse takes no more time than the grammar asks for. Counting the calls of parse, lookahead and callbacks (comparisons within a call, such as those of a literal and of a join over one character class, are not counted): a grammar that does not recurse takes at most polynomially many in the length of the input, of a degree no higher than repetitions are nested in it; so constantly many without repetitions and linearly many without nested ones. That degree can be reached. A grammar that recurses can take exponentially many, but never more than that: a parse that ends, whatever the grammar, has made at most c to the length plus one, with a c that depends on the grammar only; and it does end if the grammar is productive (C39). How many calls lookahead makes is given exactly by one rule per parser; where no join and no custom parser overrules its part, parse calls parse and lookahead just as often, and callbacks at most as often as that again. The JSON example ends after linearly many calls on every input, JSON or not. The algebraic example does not: on (-1-(-1-(-1-..., which it rejects, it takes exponentially many, and on no input more than that; on an input it accepts at most quadratically many, which can be needed.", "quantifier": "all grammars, every input of every length", "why_tests_cant": "A test measures the time of some inputs; a bound has to hold for every input of every length, and the worst input is not known.", "anchors": ["include/k3/tok3n/detail/parsers/*.h: parse, lookahead", "include/k3/tok3n/detail/parsers/custom.h: parse, lookahead", "examples/json/json.cpp", "examples/algebraic/parser.h"]}
{"id": "C66", "title": "What a program can do with a result", "statement": "However results are constructed, copied, moved, converted, read and emptied, has_value() and remaining() of a result say whether the parse it stems from succeeded and what that parse left; moving from a result or taking its value out does not change them. value() and * give the value of that parse, converted where types differ, as long as it was not moved or taken out. value() throws std::bad_optional_access exactly if the parse failed, and only then * is undefined; nothing else is. Exceptions: a result<void> that is declared without braces has an indeterminate has_value(), and a conversion to a type that is made from an optional always has a value.", "quantifier": "every history of statements on any number of results of any types, whatever moving leaves in a value", "why_tests_cant": "Histories are unbounded, and the types' own moves and conversions are the user's.", "anchors": ["include/k3/tok3n/detail/result.h: result, has_value, value, operator*, remaining"]}
{"id": "C67", "title": "A value made by a callback is handed on at most once", "statement": "Whatever parser is run on whatever input, a value returned by one of the user's functions (map, apply, into, constant, defaulted) is afterwards given to at most one further function or appears once in the result; it is never duplicated. Every such value in the result was returned by a function that was called during this parse. This also holds when the parse ends with an exception. (A filter predicate is only shown the value.)", "quantifier": "every parser expression (custom and recursive ones included), input, context of callbacks, conversions that duplicate nothing, and every selection of values that default construction does not make", "why_tests_cant": "The parser expressions, their nesting, backtracking and number of repetitions are unbounded; a duplicated or invented value shows only for the one shape of expression that causes it.", "anchors": ["include/k3/tok3n/detail/helpers.h: result_builder, compound_executor", "include/k3/tok3n/detail/parsers/map.h: map_parser::parse", "include/k3/tok3n/detail/parsers/filter.h: filter_parser::parse", "include/k3/tok3n/detail/parsers/delimit.h: delimit_parser::parse", "include/k3/tok3n/detail/result.h"]}
{"id": "C68", "title": "One element type throughout", "statement": "A parser expression compiles only if a single element type is named anywhere in it, in the parsers its custom parsers return included, and as far as element types go this is all it takes (with no empty choice or sequence). Parsers over different element types cannot be combined by |, >> or delimit, nor occur as parts of one class. A custom parser declared with one element type cannot return a parser over another. If the elements of an input can be compared with the element type of the outermost parser, the constraints of all calls made inside are met too. So a parser expression with element type e is the same thing as an expression written with literals of type e only.", "quantifier": "every parser expression over every set of element types, every set of custom parsers (recursive ones included), every notion of comparable input", "why_tests_cant": "Expressions, their nesting and the mutual recursion of custom parsers are unbounded, and a test can only show for a few expressions that they do not compile.", "anchors": ["include/k3/tok3n/detail/parser.h: parser_compatible_with", "include/k3/tok3n/detail/parsers/choice.h, sequence.h, delimit.h: template heads, value_type", "include/k3/tok3n/detail/parsers/custom.h: custom_parser::parse, lookahead (static_assert)", "include/k3/tok3n/detail/operators/choice.h, sequence.h: operator|, operator>>", "include/k3/tok3n/detail/span.h: input_constructible_for"]}
{"id": "C69", "title": "The order of alternatives that are apart does not matter", "statement": "If no input is accepted by two of the alternatives of a choice, the choice recognises the same in every order of them, and parses the same value with the same alternative (in another place of the variant if their types differ). An alternative that accepts only where an earlier one does can be left out; so in a choice a literal after one it begins with is never used. Two alternatives that cannot match nothing are apart if what they accept begins with different elements, which can be read off the expressions; by this the alternatives of a JSON value can be reordered.", "quantifier": "every list of alternatives (any parser expressions, recursive custom parsers included), every permutation of it, every input; for parsing, every choice that compiles and whose type indices are right", "why_tests_cant": "Alternatives, their number and the inputs on which two of them overlap are unbounded; a test shows an order to be safe only for the inputs tried.", "anchors": ["include/k3/tok3n/detail/parsers/choice.h: choice_parser::parse, lookahead", "include/k3/tok3n/detail/helpers.h: compound_executor, result_builder", "include/k3/tok3n/detail/operators/choice.h: operator|", "examples/json/json.cpp: JsonValue::get_parser"]}
{"id": "C70", "title": "The parts of a result do not overlap and come in the order of the text", "statement": "No element of the input is in two of the spans stored in a result, and only consumed elements are in one; so the spans together hold at most as many elements as were consumed. Read left to right, the non-empty spans come in the order of the text, except that a delimit which keeps its delimiters stores the elements and the delimiters in two lists. This holds for every callback-free parser and for every parser whose callbacks do not copy (reorder) the spans they are given.", "quantifier": "every parser expression that compiles (recursive custom parsers included), every input, every element of it, every pair of spans in the result", "why_tests_cant": "Results hold unboundedly many spans; an overlap may need a particular nesting of repetitions, joins, choices and delimiters and a particular text.", "anchors": ["include/k3/tok3n/detail/helpers.h: result_builder, compound_executor", "include/k3/tok3n/detail/parsers/join.h: join_executor", "include/k3/tok3n/detail/parsers/delimit.h: delimit_parser::parse", "include/k3/tok3n/detail/parsers/exactly.h, zero_or_more.h, one_or_more.h, sequence.h, choice.h: parse"]}
{"id": "C71", "title": "The size of a result is linear in what was consumed", "statement": "Counting the spans, vectors, arrays, tuples, optionals, variants, pairs and objects a result is made of, a successful parse makes at most a * n + b of them, where n is the number of elements consumed and a and b depend on the grammar and the user's types only; so backtracking, nesting and recursion cannot blow up a result, and a parse that consumes nothing has a result of bounded size. This asks that user code (callbacks given to map, conversions) adds at most a fixed number of parts to what it is given; a callback that copies its argument can make results exponentially large.", "quantifier": "every parser expression with finitely many custom parsers (left-recursive ones included), every input, memory and toolchain, every successful run", "why_tests_cant": "A bound that is the same for all inputs is a statement about unboundedly long and deeply nested inputs; a test sees only the sizes of the results it makes.", "anchors": ["include/k3/tok3n/detail/parsers/*.h: parse", "include/k3/tok3n/detail/helpers.h: result_builder", "include/k3/tok3n/detail/parsers/custom.h: parse", "examples/json/json.cpp", "examples/algebraic/parser.h"]}
{"id": "C72", "title": "The element type is a parameter of a grammar", "statement": "A grammar whose literals are spelt in another element type, applied to the text spelt in that type, does exactly what the grammar does on the original text: the same success or failure, the same type and values at the same places, the same remaining input, the same calls in the same order, the same exceptions, and it compiles if the original does. In particular replacing elements of a text by others that no literal of the grammar tells apart changes nothing. This asks that a literal element compares with corresponding elements alike.", "quantifier": "every parser expression (recursive custom parsers included), every pair of literal and element types and of comparisons between them, every correspondence of elements, every input and place in it", "why_tests_cant": "The tests repeat a fixed list of parsers and inputs for a few character types; the set of element types, comparisons and texts is unbounded.", "anchors": ["include/k3/tok3n/detail/type_traits.h: equality_comparable_with", "include/k3/tok3n/detail/static_array.h: contains", "include/k3/tok3n/detail/span.h: span_equal_to", "include/k3/tok3n/detail/parsers/any_of.h, none_of.h, all_of.h: failure_condition", "include/k3/tok3n/detail/parsers/*.h: parse, lookahead", "tests/non-char-tests"]}
{"id": "C73", "title": "Why a parse does not return", "statement": "A call of parse (of a parser that compiles) or lookahead goes on for ever exactly if, among the calls it makes, there is a repetition (+p, *p, delimit) that gets to a place where what it repeats succeeds without consuming anything, or a custom parser whose same function is entered again, on the same input, while it is still running. Without custom parsers only the first is possible, without repetitions only the second. So every other grammar and input returns, left recursive ones and those with repetitions of parsers that can succeed on nothing included.", "quantifier": "every parser expression (recursive custom parsers included), every input", "why_tests_cant": "No test can observe that a call never returns, and that it returns on the inputs tried says nothing about others; grammars, recursion patterns and inputs are unbounded.", "anchors": ["include/k3/tok3n/detail/parsers/one_or_more.h, zero_or_more.h, delimit.h: parse, lookahead", "include/k3/tok3n/detail/parsers/custom.h: custom_parser::parse, lookahead", "include/k3/tok3n/detail/parsers/choice.h, sequence.h, exactly.h, maybe.h: parse, lookahead", "include/k3/tok3n/detail/helpers.h: compound_executor", "include/k3/tok3n/detail/optimizations/join_one_or_more_basic.h, join_zero_or_more_basic.h"]}
{"id": "C74", "title": "User values are opaque to the library", "statement": "The library hands the values of user types on without looking at them. Two programs with the same grammar whose classes and callbacks correspond under any relation between user values do the same on every input: neither parse returns, or both do after calling the same callbacks in the same order with corresponding arguments, throwing the same, or failing, or succeeding with corresponding values and the same remaining input. So an invariant the user's code establishes holds of every user value a callback is given and of those in the result; and computing while parsing gives the same as building a tree and computing on it afterwards. The exceptions are what the user's classes offer the library to look at: conversion of a filter's answer to bool and of a joined value to a span.", "quantifier": "every parser expression (recursive custom parsers included), every input, every relation between the user values of the two programs, every invariant", "why_tests_cant": "The property quantifies over all user types and all callbacks; a test fixes both.", "anchors": ["include/k3/tok3n/detail/helpers.h: result_builder, compound_executor", "include/k3/tok3n/detail/parsers/map.h, filter.h, custom.h: parse", "include/k3/tok3n/detail/parsers/choice.h, sequence.h, exactly.h, one_or_more.h, zero_or_more.h, delimit.h, maybe.h: parse", "include/k3/tok3n/detail/parsers/join.h: join_executor::try_join", "include/k3/tok3n/detail/modifiers/apply.h, into.h, constant.h, defaulted.h"]}
{"id": "C75", "title": "Callbacks may keep state", "statement": "The callbacks of map, filter, apply and construct may keep state: count, append to a container, answer differently to equal arguments. Whatever they do, lookahead calls none of them and does the same; failure gives back the whole input and success an end of it; a parser that compiles yields a value of the announced type and on a valid input commits no memory error. What parse does to the state is exactly what the recorded calls do to it, one after the other: nothing is undone when an alternative, a repetition or a filter fails, nothing is repeated or left out, and an exception is what the last call threw in the state the earlier calls left. Parts run in the documented order, each in the state the one before left: the elements of a sequence, the failed alternatives of a choice and then the one that matches, the rounds of a repetition and then the attempt that ends it; a mapped function or predicate is called once, after its argument was parsed, and its answer in that state is what counts. A parser whose repetitions and recursions make progress returns, whatever the callbacks answer. Without filter, join and conversions of a failed result the callbacks have no say in the verdict: parse accepts, rejects or goes on for ever as lookahead does, or ends with an exception. The library itself never looks at the state: callbacks that keep another kind of state but answer alike give the same outcome from the same calls, callbacks the parser does not map or filter with make no difference, and a parser that neither maps nor filters leaves the state alone. Callbacks without state are the special case all other properties are about.", "quantifier": "every parser expression (recursive custom parsers included), every input, every type of state, every behaviour of the callbacks, every initial state", "why_tests_cant": "A test fixes the callbacks, their state and the input; the property ranges over all of them.", "anchors": ["include/k3/tok3n/detail/parsers/map.h, filter.h: parse", "include/k3/tok3n/detail/functions.h, apply.h", "include/k3/tok3n/detail/helpers.h: compound_executor", "include/k3/tok3n/detail/parsers/choice.h, sequence.h, exactly.h, one_or_more.h, zero_or_more.h, delimit.h, maybe.h: parse"]}
{"id": "C76", "title": "A parser depends only on what it is made of", "statement": "What lookahead does is determined by the parser and the get_parser() of the custom parsers it uses; what parse does, the type of its value and whether it compiles are determined by that, by the custom parsers it parses with (not those below ignore) and by the callbacks given to map and filter there. Everything else in the program - other custom parsers, even ones that do not compile, other callbacks, and for lookahead all callbacks and all declared result types - may be changed without any effect. In particular all guarantees that hold in programs of which every custom parser compiles hold for a parser as soon as the custom parsers it parses with compile.", "quantifier": "every parser expression (recursive custom parsers included), every input, every other program that has the parts used in common", "why_tests_cant": "It speaks of all programs that contain the parser; a test is one program.", "anchors": ["include/k3/tok3n/detail/parsers/custom.h: parse, lookahead", "include/k3/tok3n/detail/parsers/ignore.h: parse", "include/k3/tok3n/detail/parsers/map.h, filter.h: parse, lookahead"]}
{"id": "C77", "title": "Hand-written parser classes", "statement": "A class with its own parse and lookahead that satisfies the parser concept without deriving from custom_parser can be used in every combinator. In an expression it does what it does by itself. If all such classes of a program give the input back when they fail and leave an end of it when they succeed, so does every parser made with them; if moreover their lookahead runs no callbacks and ends with no error on readable input, so does that of every parser made with them; if moreover they deliver values of the types they announce, with spans from the text they consumed, and read nothing that is not there, so does every parser made with them that compiles. If their lookahead says what their parse says, the same holds of every parser made with them without filter and join. A class that does what a custom parser does can be put in its place without any effect. A class whose lookahead fails without giving the input back makes a choice go on at the wrong place. If the classes return and consume something whenever they succeed (those that need not are known), and no custom parser reaches itself before something is consumed, then every expression that repeats nothing that may succeed without consuming returns; a class that keeps all other promises but succeeds without consuming makes its repetition loop on every input.", "quantifier": "all programs with any number of hand-written classes doing anything (also calling parsers of the library, recursively), all parsers made with them, all inputs, all callbacks", "why_tests_cant": "The library accepts any class that satisfies a concept, and the concept checks types only; a test has a few such classes, the claim is about all of them and says which unchecked promises the rest of the library relies on.", "anchors": ["include/k3/tok3n/detail/parser.h: parser, parser_for", "include/k3/tok3n/detail/parsers/choice.h: choice::parse, choice::lookahead", "include/k3/tok3n/detail/helpers.h: compound_executor::execute_lookahead", "include/k3/tok3n/detail/parsers/custom.h: custom_parser", "include/k3/tok3n/detail/parsers/zero_or_more.h: zero_or_more_parser::parse"]}
{"id": "C78", "title": "The text behind a match", "statement": "For parsers that pass a check of their structure, text that is not consumed does not influence the outcome: cutting off (some of) the text behind a match leaves the match as it is; a parser that fails on a text fails on every beginning of it; if the text is cut off inside a match, the parser fails, or consumes all that is left, or stops in front of one of certain elements that are known in advance; and so, if what is left over does not start with such an element, a longer text gives the same match. The check is made of the parts of the parser: which alternatives begin differently, which parts never fail, what the parts begin with. Without it a parser that matches 'ab' of 'abc' can fail on 'ab'. Strings of the JSON example are found regardless of the text behind them, numbers if it starts with neither a point nor an e; and the text read as a JSON value is by itself read as the same value.", "quantifier": "all parser expressions that pass the check (custom parsers, also recursive, included), all inputs and all ways to cut or continue them; lookahead without conditions, parse if no join or filter rejects what was matched and no callback throws", "why_tests_cant": "It relates the outcomes on a text and on all its beginnings and continuations; a test has one text.", "anchors": ["include/k3/tok3n/detail/parsers/choice.h, sequence.h, maybe.h, zero_or_more.h, one_or_more.h, exactly.h, delimit.h, complete.h: parse, lookahead", "include/k3/tok3n/detail/parsers/basic_base.h: parse, lookahead", "examples/json/json.cpp: JsonValue, string, number"]}
{"id": "C79", "title": "The spans in a result outlive the parse", "statement": "The spans in the value of a parse, in what remains of the input and in the arguments of callbacks never point into an object of a user type that a callback made during the parse, and so show the same elements after these objects are destroyed, if the user's code does not itself keep pointers into its objects and only views are joined: the parsers given to join have result types without user types, or user types whose conversion to a span gives a span stored in the value. If join is given a type that owns its characters and is convertible to a span (std::string), the span it returns points into the object, which is destroyed when join returns, exactly if the first non-empty span that is joined does.", "quantifier": "all parser expressions (custom parsers, also recursive, included), all inputs, all callbacks and all choices of which memory is inside the objects; parses that succeed, fail or throw", "why_tests_cant": "It speaks about memory after it is released, for all callbacks and expressions; a test reads freed memory without noticing.", "anchors": ["include/k3/tok3n/detail/parsers/join.h: join_executor::try_join, join_parser::parse", "include/k3/tok3n/detail/parsers/map.h: parse", "include/k3/tok3n/detail/result.h: result"]}
{"id": "C80", "title": "Parses that run at the same time", "statement": "Parses on several threads may be interleaved at will. The library itself keeps no data between calls, so threads meet only in the function objects of the user. If a thread's function objects answer without regard to shared state, or use state that the other threads leave alone, then the thread makes the same calls with the same outcome as when it runs alone, in every schedule, and every schedule of the calls the threads make alone can happen. If the function objects do share state: a thread that is not interrupted is a parse from the state the others left; in every schedule a failing parse gives its whole input back and a successful one a suffix, values have the documented type and nothing undefined happens, a grammar that passes the check of C39 returns whatever its calls are answered, and without filter, join and conversions of failing results the verdict is that of lookahead. In general the results are not those of any order in which the parses run one after the other.", "quantifier": "all parser expressions, all inputs, all numbers of threads, all states and function objects, all interleavings of the calls", "why_tests_cant": "The number of interleavings grows exponentially with the number of calls and a test cannot choose the schedule.", "anchors": ["include/k3/tok3n/detail/parsers/map.h: parse", "include/k3/tok3n/detail/parsers/filter.h: parse", "include/k3/tok3n/detail/parsers/join.h: parse", "include/k3/tok3n/detail/helpers.h: compound_executor"]}
{"id": "C81", "title": "Where the next element decides, the work grows linearly", "statement": "Take a grammar that always returns (C39), also a recursive one. If wherever an alternative, an option or a repetition may be given up after it has read some of the text with a repetition or a custom parser, whatever is tried in its place or afterwards begins with other elements, then lookahead makes at most c * (length of the text + 1) calls of parse and lookahead, with one c for all texts; and parse at most twice as many, if no filter and no join rejects something and no custom parser succeeds where its parser fails. The condition is a check on the grammar, given tables about its custom parsers; it rejects, whatever the tables, the grammars that C65 shows to take exponential time.", "quantifier": "all parser expressions and custom parsers that pass the check, all texts", "why_tests_cant": "A time bound for all texts, and for all grammars of a class, is not the time measured on a sample.", "anchors": ["include/k3/tok3n/detail/helpers.h: compound_executor", "include/k3/tok3n/detail/parsers/choice.h", "include/k3/tok3n/detail/parsers/zero_or_more.h", "include/k3/tok3n/detail/parsers/delimit.h", "include/k3/tok3n/detail/parsers/custom.h"]}
{"id": "C82", "title": "An exception of an element comparison or of a value operation ends the parse there and reaches the caller", "statement": "The == of the element types, and whatever is done to values (memory for a vector, constructors, moves, conversions), may throw at any point of a parse, depending on anything. The exception then reaches the caller unchanged; the calls of the user's function objects made before it are the first ones of those the undisturbed parse makes, in the same order with the same arguments; nothing is called afterwards. If nothing throws, the outcome and the calls are the undisturbed ones, and so they are if the comparisons merely have side effects. What is compared, done and called, and in which order, does not depend on what could throw: a parse that does k such operations has k points where an exception can strike. lookahead touches no values, it does nothing but compare elements. A parse that never returns does not return because something throws; it can only end with that exception.", "quantifier": "all parser expressions, inputs, user function objects with state, and all ways in which comparisons and operations on values throw", "why_tests_cant": "A test makes one operation throw in one parse; every operation of every parse is a point where this can happen.", "anchors": ["include/k3/tok3n/detail/span.h: span_equal_to", "include/k3/tok3n/detail/static_array.h: contains", "include/k3/tok3n/detail/helpers.h: result_builder, compound_executor", "include/k3/tok3n/detail/parsers/join.h", "include/k3/tok3n/detail/parsers/custom.h", "include/k3/tok3n/detail/apply.h"]}
{"id": "C83", "title": "How many elements a parse compares", "statement": "The number of comparisons of an element of a literal with an element of the input is fixed by the grammar and the text, from simple rules: any_of and none_of compare the next element with those of the literal up to the first equal one; all_of compares element by element up to the first unequal one, and not at all if the input is shorter than the literal; every other parser costs what the parsers it tries cost. lookahead makes exactly that many comparisons; so does parse, if it returns and no filter, join or custom type overrules a match: building values, calling callbacks and the special loops of join cost none and save none. A literal with k elements is never compared more than k times in one call. Where the next element decides which way to go (C81), the number of comparisons of the whole parse grows at most linearly with the text, also for recursive grammars.", "quantifier": "all parser expressions with their custom parsers, all readable inputs of any length", "why_tests_cant": "A test counts the comparisons of one grammar on one text; the claim gives them for all, and bounds them for texts of any length.", "anchors": ["include/k3/tok3n/detail/span.h: span_equal_to", "include/k3/tok3n/detail/static_array.h: contains", "include/k3/tok3n/detail/parsers/all_of.h", "include/k3/tok3n/detail/parsers/any_of.h", "include/k3/tok3n/detail/parsers/none_of.h", "include/k3/tok3n/detail/optimizations/join_one_or_more_basic.h"]}
{"id": "C84", "title": "What parse returns, consumes and calls is fixed by simple rules", "statement": "The outcome of parse is given by rules that speak of the parser expression and the text alone. A basic parser gives the matched span. A choice gives the value of the first alternative that succeeds, tagged with the index recorded for it, and the calls of the alternatives that failed before it have been made. A sequence gives the values of its parts in order; parts without a value are looked ahead and call nothing. maybe never fails but passes on exceptions; exactly<N>, * and + collect values until the count is reached or the parser fails; delimit gives back a delimiter that no element follows, though its calls have been made. complete fails if something is left; join gives the span over its parts if there is no gap and fails otherwise; map and filter call their function object once, after the parser in them succeeded and with its value; a name changes nothing; a custom parser converts its body's value. parse makes the calls log and returns v and the rest exactly if the rules say so; it fails, leaving the input, exactly if the rules say so; it ends with an exception exactly if the rules say so; it never ends exactly if the rules say nothing; and the rules never say two things.", "quantifier": "all parser expressions that compile, with their custom parsers and user function objects (those that keep their types and do not invent the spans that are joined), all readable inputs", "why_tests_cant": "A test fixes one expression and one text; the rules compose, and hold for every expression, every nesting and every text, including those on which parse never returns.", "anchors": ["include/k3/tok3n/detail/parsers/*.h: parse", "include/k3/tok3n/detail/helpers.h: result_builder, compound_executor", "include/k3/tok3n/detail/apply.h", "include/k3/tok3n/detail/parsers/choice.h", "include/k3/tok3n/detail/parsers/sequence.h", "include/k3/tok3n/detail/parsers/delimit.h", "include/k3/tok3n/detail/parsers/custom.h"]}
{"id": "C85", "title": "What is consumed is a word of the grammar, and a clear grammar accepts its whole language", "statement": "Read a parser expression as a context-free grammar: a choice may be any alternative, a repetition any number of times, an optional part there or not, in whatever way, with no order, greed or backtracking. Whatever lookahead consumes, and whatever parse consumes, is a word of that grammar (for parse: if no custom parser makes a success of a failure of its get_parser()). The converse holds for grammars that are clear, which means that no earlier alternative matches where a word of a later one comes, and that no repetition, optional part or delimiter matches where something else may follow: if the input begins with a word and goes on with something that may come behind it, exactly that word is consumed, by lookahead, and by parse if no filter or join overrules and no function object throws. So complete(p) of a clear grammar accepts exactly the language of p, and the word at the beginning of the input is unique. A productive grammar is clear if one element always tells what to do (an LL(1) grammar), which only depends on what its parts begin with and what may come behind them; complete(p) then decides the language: it succeeds on every word and fails on every other text. Without it complete(\"a\" | \"ab\") does not accept ab.", "quantifier": "all parser expressions, recursive ones included, with their custom parsers, all words of unbounded length, all readable inputs; completeness for all clear grammars", "why_tests_cant": "The language of a recursive grammar is infinite, and soundness speaks of every expression; a test tries finitely many texts of one grammar.", "anchors": ["include/k3/tok3n/detail/parsers/choice.h", "include/k3/tok3n/detail/parsers/sequence.h", "include/k3/tok3n/detail/parsers/zero_or_more.h", "include/k3/tok3n/detail/parsers/delimit.h", "include/k3/tok3n/detail/parsers/complete.h", "include/k3/tok3n/detail/parsers/custom.h"]}
{"id": "C86", "title": "Substitution reaches into the arguments of a user's parser templates", "statement": "sub(name<n> = m) applied to a specialisation my<P, ...> of a user's class template gives the specialisation my<P', ...> of the same template whose arguments are those of the first with the substitution made in each of them, however deeply templates and library parsers are nested. The result is unique, and there is one whenever m can be applied. If get_parser() of the template is made of its arguments and does not itself use the name, the result parses and looks ahead like my<P, ...>::get_parser() with the substitution made in it. A name that the template's own get_parser() gives is not reached.", "quantifier": "all user class templates with type arguments, all nestings of them and of the library's parsers, all names and modifiers, all inputs", "why_tests_cant": "Tests substitute in a few fixed types; templates nest without bound and the claim is about every get_parser().", "anchors": ["include/k3/tok3n/detail/modifiers/sub.h: substitute_one", "include/k3/tok3n/detail/parsers/custom.h", "include/k3/tok3n/detail/parsers/named.h"]}
{"id": "C87", "title": "A clear grammar gives a text one value, and parse returns it", "statement": "Read a parser expression as a context-free grammar that gives values: a choice gives the value of any alternative that fits, a repetition the list of the values of any number of repetitions, map the result of the callback, and so on, with no order, greed or backtracking. Whatever parse returns is a value that the consumed text has under this reading, for every grammar (if no custom parser makes a success of a failure of its get_parser()). If the grammar is clear (C85), a text has at most one value under it, with one place to end; and if it has one, and goes on with something that may come behind it, parse consumes just that and returns that value, unless it throws or does not end; filters and joins may turn down whatever they like, for what they turn down has no value. So complete(p) of a clear and productive grammar (C39), with function objects that do not throw, returns v exactly if the whole text, read as a p, has the value v, and fails exactly if it has none. What comes behind a text has no part in its value; so, in a clear grammar, the value parse returned for some text is what it returns for that text in front of anything else that may come behind it. It is needed that the grammar is clear: a has two values as ~\"a\" >> ~\"a\", of which parse returns the first, and aa has a value as *\"a\" >> \"a\", where parse fails.", "quantifier": "all parser expressions, recursive ones included, with all callbacks, custom parsers and result types, all readable inputs of unbounded length; uniqueness and completeness for all clear grammars", "why_tests_cant": "A test compares the result for one text of one grammar; the claim is that every value is the one the declarative reading gives, for infinitely many texts and every grammar.", "anchors": ["include/k3/tok3n/detail/parsers/choice.h", "include/k3/tok3n/detail/parsers/sequence.h", "include/k3/tok3n/detail/parsers/zero_or_more.h", "include/k3/tok3n/detail/parsers/delimit.h", "include/k3/tok3n/detail/parsers/map.h", "include/k3/tok3n/detail/parsers/join.h", "include/k3/tok3n/detail/parsers/custom.h"]}
{"id": "C88", "title": "What a repetition has consumed, it does not give back", "statement": "Where *p or +p has stopped, p fails, and where delimit(p, d) has stopped, d >> p fails; a sequence that ends with such a part, or a choice of such parts, has the same property. So if p accepts wherever q does, a sequence in which q comes right behind *p or +p succeeds on no input at all, neither in lookahead nor in parse: *(letter or digit) >> digit never matches, although it describes many words (*p >> p describes the same words as +p and accepts none). Behind such a part, *p and ~p make no difference. An optional part is not optional if what comes behind it begins alike: ~p >> q then accepts just what p >> q does.", "quantifier": "all parsers p, q and all parts before and behind them, all custom parsers, all readable inputs of unbounded length", "why_tests_cant": "That a parser fails on every input cannot be seen from the inputs of a test suite.", "anchors": ["include/k3/tok3n/detail/parsers/zero_or_more.h", "include/k3/tok3n/detail/parsers/one_or_more.h", "include/k3/tok3n/detail/parsers/delimit.h", "include/k3/tok3n/detail/parsers/sequence.h", "include/k3/tok3n/detail/parsers/maybe.h"]}
{"id": "C89", "title": "The programs of the examples", "statement": "The algebraic example's program parses a text, prints the expression and its value, or reports a failure. It reports exactly the texts that denote no expression; any other is printed, followed by its value. If the expression has no value, the program ends behind the printed expression, by std::invalid_argument or std::terminate, and with more than 204 levels of parentheses and minus signs the behaviour is undefined. evaluate(*input::parse(text)) is the value of the expression the text denotes. The program as it stands writes the expression 4 ^ (2 + 4 * 6) + 1 * 3, its value, and the values of 1 + 2 + 3 + 4, 1 + 2 - 3 + 4 and 3^3^3, computed from left to right except for ^. The JSON example's program ends, and writes an error message exactly if its document does not begin with an object of the JSON grammar; with the document it has it writes nothing.", "quantifier": "every text, every machine, every arithmetic of double and every way of formatting it", "why_tests_cant": "The examples have no tests, and the texts, the depths and the arithmetics are unbounded.", "anchors": ["examples/algebraic/algebraic.cpp main", "examples/algebraic/parser.h", "examples/algebraic/print.h", "examples/algebraic/evaluate.h", "examples/json/json.cpp main"]}
{"id": "C90", "title": "Every expression and every document can be written and is read back", "statement": "Every JSON document whose strings and numbers are spelt as in the JSON grammar is written, without white space, as a text from which JsonValue::parse reads that document back, consuming all of the text. Every algebraic expression whose numbers are proper and in which no negation is followed by an operator it would swallow is written as a text from which input::parse reads it back, consuming all of it. No other document or expression is ever the result of a parse. Different documents are written differently, and so are different expressions of this kind; without the condition on negation two expressions can share a text.", "quantifier": "every document and every expression, of any size and depth; every machine and every text", "why_tests_cant": "There are infinitely many documents and expressions, nested without bound.", "anchors": ["examples/json/json.cpp JsonValue", "examples/algebraic/parser.h input"]}
