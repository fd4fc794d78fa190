import Verif.Tests.Gen.SamplesChar
/- Generated by tools/tests2lean.py from tests/char-tests/parsers/exactly_parser.cpp. -/

namespace Tok3n.Tests

/-- exactly_parser / Requirements (tests/char-tests/parsers/exactly_parser.cpp:19) -/
theorem charParsersExactlyParser_1 : ∀ a ∈ [
    .isParser Exa1 exactly_family (.arr .span 3),  -- 19: ASSERT_IS_PARSER(Exa1, char, exactly_family, std::array<output_span<char>, 3>)
    .isParser Exa2 exactly_family (.arr .span 5),  -- 20: ASSERT_IS_PARSER(Exa2, char, exactly_family, std::array<output_span<char>, 5>)
    .isParser Exa3 exactly_family (.arr .span 4),  -- 21: ASSERT_IS_PARSER(Exa3, char, exactly_family, std::array<output_span<char>, 4>)
    .isParser Exa4 exactly_family (.arr (.tup [.span, .span]) 2)  -- 22: ASSERT_IS_PARSER(Exa4, char, exactly_family, std::array<std::tuple<output_span<char>, output_span<char>>, 2>)
    ], Assertion.Holds a :=
  Assertion.holds_of_check (by decide +kernel)

/-- exactly_parser / Constructibility (tests/char-tests/parsers/exactly_parser.cpp:37) -/
theorem charParsersExactlyParser_2 : ∀ a ∈ [
    .notWf (.exactly Any1 0),  -- 37: ASSERT_PARSER_NOT_CONSTRUCTIBLE(exactly_parser, Any1, index_c<0>)
    .isWf (.exactly Any1 1),  -- 38: ASSERT_PARSER_CONSTRUCTIBLE(exactly_parser, Any1, index_c<1>)
    .isWf (.exactly Any1 2)  -- 39: ASSERT_PARSER_CONSTRUCTIBLE(exactly_parser, Any1, index_c<2>)
    ], Assertion.Holds a :=
  Assertion.holds_of_check (by decide +kernel)

/-- exactly_parser / Parse exactly_parser<all_of_parser> (tests/char-tests/parsers/exactly_parser.cpp:50) -/
theorem charParsersExactlyParser_3 : ∀ a ∈ [
    .failure Exa1 [108, 105, 116, 101, 114, 97],  -- 50: ASSERT_PARSE_FAILURE(Exa1, "litera")
    .failure Exa1 [108, 105, 116, 101, 114, 97, 108],  -- 51: ASSERT_PARSE_FAILURE(Exa1, "literal")
    .failure Exa1 [108, 105, 116, 101, 114, 97, 108, 108, 105, 116, 101, 114, 97, 108],  -- 52: ASSERT_PARSE_FAILURE(Exa1, "literalliteral")
    .success Exa1 [108, 105, 116, 101, 114, 97, 108, 108, 105, 116, 101, 114, 97, 108, 108, 105, 116, 101, 114, 97, 108] (.node [(.text [108, 105, 116, 101, 114, 97, 108]), (.text [108, 105, 116, 101, 114, 97, 108]), (.text [108, 105, 116, 101, 114, 97, 108])]) [],  -- 53: ASSERT_PARSE_SUCCESS(Exa1, "literalliteralliteral", array_type({"literal", "literal", "literal"}), "")
    .failure Exa1 [32, 108, 105, 116, 101, 114, 97, 108, 108, 105, 116, 101, 114, 97, 108, 108, 105, 116, 101, 114, 97, 108],  -- 54: ASSERT_PARSE_FAILURE(Exa1, " literalliteralliteral")
    .success Exa1 [108, 105, 116, 101, 114, 97, 108, 108, 105, 116, 101, 114, 97, 108, 108, 105, 116, 101, 114, 97, 108, 108, 105, 116, 101, 114, 97, 108] (.node [(.text [108, 105, 116, 101, 114, 97, 108]), (.text [108, 105, 116, 101, 114, 97, 108]), (.text [108, 105, 116, 101, 114, 97, 108])]) [108, 105, 116, 101, 114, 97, 108],  -- 55: ASSERT_PARSE_SUCCESS(Exa1, "literalliteralliteralliteral", array_type({"literal", "literal", "literal"}), "literal")
    .success Exa1 [108, 105, 116, 101, 114, 97, 108, 108, 105, 116, 101, 114, 97, 108, 108, 105, 116, 101, 114, 97, 108, 108, 121, 108, 105, 116, 101, 114, 97, 108] (.node [(.text [108, 105, 116, 101, 114, 97, 108]), (.text [108, 105, 116, 101, 114, 97, 108]), (.text [108, 105, 116, 101, 114, 97, 108])]) [108, 121, 108, 105, 116, 101, 114, 97, 108],  -- 56: ASSERT_PARSE_SUCCESS(Exa1, "literalliteralliterallyliteral", array_type({"literal", "literal", "literal"}), "lyliteral")
    .failure Exa1 []  -- 57: ASSERT_PARSE_FAILURE(Exa1, "")
    ], Assertion.Holds a :=
  Assertion.holds_of_check (by decide +kernel)

/-- exactly_parser / Parse exactly_parser<any_of_parser> (tests/char-tests/parsers/exactly_parser.cpp:88) -/
theorem charParsersExactlyParser_4 : ∀ a ∈ [
    .success Exa2 [97, 98, 99, 98, 97, 97] (.node [(.text [97]), (.text [98]), (.text [99]), (.text [98]), (.text [97])]) [97],  -- 88: ASSERT_PARSE_SUCCESS(Exa2, "abcbaa", array_type({"a", "b", "c", "b", "a"}), "a")
    .failure Exa2 [102, 101, 100, 99, 98, 97],  -- 89: ASSERT_PARSE_FAILURE(Exa2, "fedcba")
    .success Exa2 [99, 98, 97, 98, 99, 99, 99, 98, 106, 107, 108, 109, 110, 111, 112] (.node [(.text [99]), (.text [98]), (.text [97]), (.text [98]), (.text [99])]) [99, 99, 98, 106, 107, 108, 109, 110, 111, 112],  -- 90: ASSERT_PARSE_SUCCESS(Exa2, "cbabcccbjklmnop", array_type({"c", "b", "a", "b", "c"}), "ccbjklmnop")
    .failure Exa2 []  -- 91: ASSERT_PARSE_FAILURE(Exa2, "")
    ], Assertion.Holds a :=
  Assertion.holds_of_check (by decide +kernel)

/-- exactly_parser / Parse exactly_parser<choice_parser> (tests/char-tests/parsers/exactly_parser.cpp:114) -/
theorem charParsersExactlyParser_5 : ∀ a ∈ [
    .success Exa3 [97, 98, 108, 105, 116, 101, 114, 97, 108, 99, 98, 108, 105, 116, 101, 114, 97, 108, 99, 102] (.node [(.text [97]), (.text [98]), (.text [108, 105, 116, 101, 114, 97, 108]), (.text [99])]) [98, 108, 105, 116, 101, 114, 97, 108, 99, 102],  -- 114: ASSERT_PARSE_SUCCESS(Exa3, "abliteralcbliteralcf", array_type({"a", "b", "literal", "c"}), "bliteralcf")
    .success Exa3 [97, 98, 108, 105, 116, 101, 114, 97, 108, 99, 98, 108, 105, 116, 114, 97, 108, 99, 102] (.node [(.text [97]), (.text [98]), (.text [108, 105, 116, 101, 114, 97, 108]), (.text [99])]) [98, 108, 105, 116, 114, 97, 108, 99, 102],  -- 115: ASSERT_PARSE_SUCCESS(Exa3, "abliteralcblitralcf", array_type({"a", "b", "literal", "c"}), "blitralcf")
    .success Exa3 [108, 105, 116, 101, 114, 97, 108, 97, 98, 97, 99, 108, 105, 116, 101, 114, 97, 108] (.node [(.text [108, 105, 116, 101, 114, 97, 108]), (.text [97]), (.text [98]), (.text [97])]) [99, 108, 105, 116, 101, 114, 97, 108],  -- 116: ASSERT_PARSE_SUCCESS(Exa3, "literalabacliteral", array_type({"literal", "a", "b", "a"}), "cliteral")
    .failure Exa3 []  -- 117: ASSERT_PARSE_FAILURE(Exa3, "")
    ], Assertion.Holds a :=
  Assertion.holds_of_check (by decide +kernel)

/-- exactly_parser / Parse exactly_parser<sequence_parser> (tests/char-tests/parsers/exactly_parser.cpp:140) -/
theorem charParsersExactlyParser_6 : ∀ a ∈ [
    .success Exa4 [108, 105, 116, 101, 114, 97, 108, 97, 108, 105, 116, 101, 114, 97, 108, 99, 108, 105, 116, 101, 114, 97, 108, 99, 108, 105, 116, 101, 114, 97, 108, 98] (.node [(.node [(.text [108, 105, 116, 101, 114, 97, 108]), (.text [97])]), (.node [(.text [108, 105, 116, 101, 114, 97, 108]), (.text [99])])]) [108, 105, 116, 101, 114, 97, 108, 99, 108, 105, 116, 101, 114, 97, 108, 98],  -- 140: ASSERT_PARSE_SUCCESS(Exa4, "literalaliteralcliteralcliteralb", array_type({{"literal", "a"},{"literal", "c"}}), "literalcliteralb")
    .success Exa4 [108, 105, 116, 101, 114, 97, 108, 97, 108, 105, 116, 101, 114, 97, 108, 99, 108, 105, 116, 101, 114, 97, 108, 99, 108, 105, 116, 101, 114, 97, 108, 98, 108, 105, 116, 101, 114, 97, 108] (.node [(.node [(.text [108, 105, 116, 101, 114, 97, 108]), (.text [97])]), (.node [(.text [108, 105, 116, 101, 114, 97, 108]), (.text [99])])]) [108, 105, 116, 101, 114, 97, 108, 99, 108, 105, 116, 101, 114, 97, 108, 98, 108, 105, 116, 101, 114, 97, 108],  -- 141: ASSERT_PARSE_SUCCESS(Exa4, "literalaliteralcliteralcliteralbliteral", array_type({{"literal", "a"},{"literal", "c"}}), "literalcliteralbliteral")
    .failure Exa4 [97, 108, 105, 116, 101, 114, 97, 108, 97, 108, 105, 116, 101, 114, 97, 108, 99, 108, 105, 116, 101, 114, 97, 108, 98, 108, 105, 116, 101, 114, 97, 108],  -- 142: ASSERT_PARSE_FAILURE(Exa4, "aliteralaliteralcliteralbliteral")
    .failure Exa4 []  -- 143: ASSERT_PARSE_FAILURE(Exa4, "")
    ], Assertion.Holds a :=
  Assertion.holds_of_check (by decide +kernel)

/-- exactly_parser / Parse exactly_parser<void-parser> (tests/char-tests/parsers/exactly_parser.cpp:167) -/
theorem charParsersExactlyParser_7 : ∀ a ∈ [
    .successVoid (.exactly (.ignore ABC) 2) [97, 98, 99, 97, 98, 99, 97, 98, 99, 97] [97, 98, 99, 97],  -- 167: ASSERT_PARSE_SUCCESS_VOID(P, "abcabcabca", "abca")
    .successVoid (.exactly (.ignore ABC) 2) [97, 98, 99, 97, 98, 99, 97] [97],  -- 168: ASSERT_PARSE_SUCCESS_VOID(P, "abcabca", "a")
    .successVoid (.exactly (.ignore ABC) 2) [97, 98, 99, 97, 98, 99] [],  -- 169: ASSERT_PARSE_SUCCESS_VOID(P, "abcabc", "")
    .failure (.exactly (.ignore ABC) 2) [32, 97, 98, 99, 97, 98, 99],  -- 170: ASSERT_PARSE_FAILURE(P, " abcabc")
    .failure (.exactly (.ignore ABC) 2) [97, 98, 99, 97, 98],  -- 171: ASSERT_PARSE_FAILURE(P, "abcab")
    .failure (.exactly (.ignore ABC) 2) [97, 98, 99],  -- 172: ASSERT_PARSE_FAILURE(P, "abc")
    .failure (.exactly (.ignore ABC) 2) []  -- 173: ASSERT_PARSE_FAILURE(P, "")
    ], Assertion.Holds a :=
  Assertion.holds_of_check (by decide +kernel)

end Tok3n.Tests
