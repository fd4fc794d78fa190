import Verif.Tests.Gen.SamplesChar
/- Generated by tools/tests2lean.py from tests/char-tests/parsers/zero_or_more_parser.cpp. -/

namespace Tok3n.Tests

/-- zero_or_more_parser / Requirements (tests/char-tests/parsers/zero_or_more_parser.cpp:19) -/
theorem charParsersZeroOrMoreParser_1 : ∀ a ∈ [
    .isParser Zom1 zero_or_more_family (.vec .span),  -- 19: ASSERT_IS_PARSER(Zom1, char, zero_or_more_family, std::vector<output_span<char>>)
    .isParser Zom2 zero_or_more_family (.vec .span),  -- 20: ASSERT_IS_PARSER(Zom2, char, zero_or_more_family, std::vector<output_span<char>>)
    .isParser Zom3 zero_or_more_family (.vec .span),  -- 21: ASSERT_IS_PARSER(Zom3, char, zero_or_more_family, std::vector<output_span<char>>)
    .isParser Zom4 zero_or_more_family (.vec (.tup [.span, .span]))  -- 22: ASSERT_IS_PARSER(Zom4, char, zero_or_more_family, std::vector<std::tuple<output_span<char>, output_span<char>>>)
    ], Assertion.Holds a :=
  Assertion.holds_of_check (by decide +kernel)

/-- zero_or_more_parser / Parse zero_or_more_parser<all_of_parser> (tests/char-tests/parsers/zero_or_more_parser.cpp:39) -/
theorem charParsersZeroOrMoreParser_2 : ∀ a ∈ [
    .success Zom1 [108, 105, 116, 101, 114, 97] (.node []) [108, 105, 116, 101, 114, 97],  -- 39: ASSERT_PARSE_SUCCESS(Zom1, "litera", vec_type{}, "litera")
    .success Zom1 [108, 105, 116, 101, 114, 97, 108] (.node [(.text [108, 105, 116, 101, 114, 97, 108])]) [],  -- 40: ASSERT_PARSE_SUCCESS(Zom1, "literal", vec_type({"literal"}), "")
    .success Zom1 [108, 105, 116, 101, 114, 97, 108, 108, 121] (.node [(.text [108, 105, 116, 101, 114, 97, 108])]) [108, 121],  -- 41: ASSERT_PARSE_SUCCESS(Zom1, "literally", vec_type({"literal"}), "ly")
    .success Zom1 [108, 105, 116, 101, 114, 97, 108, 108, 105, 116, 101, 114, 97] (.node [(.text [108, 105, 116, 101, 114, 97, 108])]) [108, 105, 116, 101, 114, 97],  -- 42: ASSERT_PARSE_SUCCESS(Zom1, "literallitera", vec_type({"literal"}), "litera")
    .success Zom1 [108, 105, 116, 101, 114, 97, 108, 108, 105, 116, 101, 114, 97, 108, 108, 105, 116, 101, 114, 97] (.node [(.text [108, 105, 116, 101, 114, 97, 108]), (.text [108, 105, 116, 101, 114, 97, 108])]) [108, 105, 116, 101, 114, 97],  -- 43: ASSERT_PARSE_SUCCESS(Zom1, "literalliterallitera", vec_type({"literal", "literal"}), "litera")
    .success Zom1 [32, 108, 105, 116, 101, 114, 97, 108, 108, 105, 116, 101, 114, 97, 108, 108, 105, 116, 101, 114, 97] (.node []) [32, 108, 105, 116, 101, 114, 97, 108, 108, 105, 116, 101, 114, 97, 108, 108, 105, 116, 101, 114, 97],  -- 44: ASSERT_PARSE_SUCCESS(Zom1, " literalliterallitera", vec_type{}, " literalliterallitera")
    .success Zom1 [] (.node []) []  -- 45: ASSERT_PARSE_SUCCESS(Zom1, "", vec_type{}, "")
    ], Assertion.Holds a :=
  Assertion.holds_of_check (by decide +kernel)

/-- zero_or_more_parser / Parse zero_or_more_parser<any_of_parser> (tests/char-tests/parsers/zero_or_more_parser.cpp:74) -/
theorem charParsersZeroOrMoreParser_3 : ∀ a ∈ [
    .success Zom2 [97, 98, 99, 100, 101, 102] (.node [(.text [97]), (.text [98]), (.text [99])]) [100, 101, 102],  -- 74: ASSERT_PARSE_SUCCESS(Zom2, "abcdef", vec_type({"a", "b", "c"}), "def")
    .success Zom2 [102, 101, 100, 99, 98, 97] (.node []) [102, 101, 100, 99, 98, 97],  -- 75: ASSERT_PARSE_SUCCESS(Zom2, "fedcba", vec_type{}, "fedcba")
    .success Zom2 [99, 98, 97, 98, 99, 99, 99, 98, 106, 107, 108, 109, 110, 111, 112] (.node [(.text [99]), (.text [98]), (.text [97]), (.text [98]), (.text [99]), (.text [99]), (.text [99]), (.text [98])]) [106, 107, 108, 109, 110, 111, 112],  -- 76: ASSERT_PARSE_SUCCESS(Zom2, "cbabcccbjklmnop", vec_type({"c", "b", "a", "b", "c", "c", "c", "b"}), "jklmnop")
    .success Zom2 [] (.node []) []  -- 77: ASSERT_PARSE_SUCCESS(Zom2, "", vec_type{}, "")
    ], Assertion.Holds a :=
  Assertion.holds_of_check (by decide +kernel)

/-- zero_or_more_parser / Parse zero_or_more_parser<choice_parser> (tests/char-tests/parsers/zero_or_more_parser.cpp:101) -/
theorem charParsersZeroOrMoreParser_4 : ∀ a ∈ [
    .success Zom3 [97, 98, 108, 105, 116, 101, 114, 97, 108, 99, 98, 108, 105, 116, 114, 97, 108, 99, 102] (.node [(.text [97]), (.text [98]), (.text [108, 105, 116, 101, 114, 97, 108]), (.text [99]), (.text [98])]) [108, 105, 116, 114, 97, 108, 99, 102],  -- 101: ASSERT_PARSE_SUCCESS(Zom3, "abliteralcblitralcf", vec_type({"a", "b", "literal", "c", "b"}), "litralcf")
    .success Zom3 [] (.node []) []  -- 103: ASSERT_PARSE_SUCCESS(Zom3, "", vec_type{}, "")
    ], Assertion.Holds a :=
  Assertion.holds_of_check (by decide +kernel)

/-- zero_or_more_parser / Parse zero_or_more_parser<sequence_parser> (tests/char-tests/parsers/zero_or_more_parser.cpp:126) -/
theorem charParsersZeroOrMoreParser_5 : ∀ a ∈ [
    .success Zom4 [108, 105, 116, 101, 114, 97, 108, 97, 108, 105, 116, 101, 114, 97, 108, 99, 108, 105, 116, 101, 114, 97, 108, 99, 108, 105, 116, 101, 114, 97, 108, 98] (.node [(.node [(.text [108, 105, 116, 101, 114, 97, 108]), (.text [97])]), (.node [(.text [108, 105, 116, 101, 114, 97, 108]), (.text [99])]), (.node [(.text [108, 105, 116, 101, 114, 97, 108]), (.text [99])]), (.node [(.text [108, 105, 116, 101, 114, 97, 108]), (.text [98])])]) [],  -- 126: ASSERT_PARSE_SUCCESS(Zom4, "literalaliteralcliteralcliteralb", vec_type({{"literal", "a"},{"literal", "c"},{"literal", "c"},{"literal", "b"}}), "")
    .success Zom4 [108, 105, 116, 101, 114, 97, 108, 97, 108, 105, 116, 101, 114, 97, 108, 99, 108, 105, 116, 101, 114, 97, 108, 99, 108, 105, 116, 101, 114, 97, 108, 98, 108, 105, 116, 101, 114, 97, 108] (.node [(.node [(.text [108, 105, 116, 101, 114, 97, 108]), (.text [97])]), (.node [(.text [108, 105, 116, 101, 114, 97, 108]), (.text [99])]), (.node [(.text [108, 105, 116, 101, 114, 97, 108]), (.text [99])]), (.node [(.text [108, 105, 116, 101, 114, 97, 108]), (.text [98])])]) [108, 105, 116, 101, 114, 97, 108],  -- 127: ASSERT_PARSE_SUCCESS(Zom4, "literalaliteralcliteralcliteralbliteral", vec_type({{"literal", "a"},{"literal", "c"},{"literal", "c"},{"literal", "b"}}),
    .success Zom4 [97, 108, 105, 116, 101, 114, 97, 108, 97, 108, 105, 116, 101, 114, 97, 108, 99, 108, 105, 116, 101, 114, 97, 108, 98, 108, 105, 116, 101, 114, 97, 108] (.node []) [97, 108, 105, 116, 101, 114, 97, 108, 97, 108, 105, 116, 101, 114, 97, 108, 99, 108, 105, 116, 101, 114, 97, 108, 98, 108, 105, 116, 101, 114, 97, 108],  -- 128: ASSERT_PARSE_SUCCESS(Zom4, "aliteralaliteralcliteralbliteral", vec_type{}, "aliteralaliteralcliteralbliteral")
    .success Zom4 [] (.node []) []  -- 129: ASSERT_PARSE_SUCCESS(Zom4, "", vec_type{}, "")
    ], Assertion.Holds a :=
  Assertion.holds_of_check (by decide +kernel)

/-- zero_or_more_parser / Parse zero_or_more_parser<void-parser> (tests/char-tests/parsers/zero_or_more_parser.cpp:153) -/
theorem charParsersZeroOrMoreParser_6 : ∀ a ∈ [
    .successVoid (.zeroOrMore (.ignore ABC)) [97, 98, 99, 97, 98, 99, 97, 98, 99, 97] [97],  -- 153: ASSERT_PARSE_SUCCESS_VOID(P, "abcabcabca", "a")
    .successVoid (.zeroOrMore (.ignore ABC)) [97, 98, 99, 97, 98, 99, 97] [97],  -- 154: ASSERT_PARSE_SUCCESS_VOID(P, "abcabca", "a")
    .successVoid (.zeroOrMore (.ignore ABC)) [97, 98, 99, 97, 98, 99] [],  -- 155: ASSERT_PARSE_SUCCESS_VOID(P, "abcabc", "")
    .successVoid (.zeroOrMore (.ignore ABC)) [32, 97, 98, 99, 97, 98, 99] [32, 97, 98, 99, 97, 98, 99],  -- 156: ASSERT_PARSE_SUCCESS_VOID(P, " abcabc", " abcabc")
    .successVoid (.zeroOrMore (.ignore ABC)) [97, 98, 99, 97, 98] [97, 98],  -- 157: ASSERT_PARSE_SUCCESS_VOID(P, "abcab", "ab")
    .successVoid (.zeroOrMore (.ignore ABC)) [97, 98, 99] [],  -- 158: ASSERT_PARSE_SUCCESS_VOID(P, "abc", "")
    .successVoid (.zeroOrMore (.ignore ABC)) [] []  -- 159: ASSERT_PARSE_SUCCESS_VOID(P, "", "")
    ], Assertion.Holds a :=
  Assertion.holds_of_check (by decide +kernel)

end Tok3n.Tests
