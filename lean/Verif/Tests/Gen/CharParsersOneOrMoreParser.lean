import Verif.Tests.Gen.SamplesChar
/- Generated by tools/tests2lean.py from tests/char-tests/parsers/one_or_more_parser.cpp. -/

namespace Tok3n.Tests

/-- one_or_more_parser / Requirements (tests/char-tests/parsers/one_or_more_parser.cpp:19) -/
theorem charParsersOneOrMoreParser_1 : ∀ a ∈ [
    .isParser Oom1 one_or_more_family (.vec .span),  -- 19: ASSERT_IS_PARSER(Oom1, char, one_or_more_family, std::vector<output_span<char>>)
    .isParser Oom2 one_or_more_family (.vec .span),  -- 20: ASSERT_IS_PARSER(Oom2, char, one_or_more_family, std::vector<output_span<char>>)
    .isParser Oom3 one_or_more_family (.vec .span),  -- 21: ASSERT_IS_PARSER(Oom3, char, one_or_more_family, std::vector<output_span<char>>)
    .isParser Oom4 one_or_more_family (.vec (.tup [.span, .span]))  -- 22: ASSERT_IS_PARSER(Oom4, char, one_or_more_family, std::vector<std::tuple<output_span<char>, output_span<char>>>)
    ], Assertion.Holds a :=
  Assertion.holds_of_check (by decide +kernel)

/-- one_or_more_parser / Parse one_or_more_parser<all_of_parser> (tests/char-tests/parsers/one_or_more_parser.cpp:39) -/
theorem charParsersOneOrMoreParser_2 : ∀ a ∈ [
    .failure Oom1 [108, 105, 116, 101, 114, 97],  -- 39: ASSERT_PARSE_FAILURE(Oom1, "litera")
    .success Oom1 [108, 105, 116, 101, 114, 97, 108] (.node [(.text [108, 105, 116, 101, 114, 97, 108])]) [],  -- 40: ASSERT_PARSE_SUCCESS(Oom1, "literal", vec_type({"literal"}), "")
    .success Oom1 [108, 105, 116, 101, 114, 97, 108, 108, 121] (.node [(.text [108, 105, 116, 101, 114, 97, 108])]) [108, 121],  -- 41: ASSERT_PARSE_SUCCESS(Oom1, "literally", vec_type({"literal"}), "ly")
    .success Oom1 [108, 105, 116, 101, 114, 97, 108, 108, 105, 116, 101, 114, 97] (.node [(.text [108, 105, 116, 101, 114, 97, 108])]) [108, 105, 116, 101, 114, 97],  -- 42: ASSERT_PARSE_SUCCESS(Oom1, "literallitera", vec_type({"literal"}), "litera")
    .success Oom1 [108, 105, 116, 101, 114, 97, 108, 108, 105, 116, 101, 114, 97, 108, 108, 105, 116, 101, 114, 97] (.node [(.text [108, 105, 116, 101, 114, 97, 108]), (.text [108, 105, 116, 101, 114, 97, 108])]) [108, 105, 116, 101, 114, 97],  -- 43: ASSERT_PARSE_SUCCESS(Oom1, "literalliterallitera", vec_type({"literal", "literal"}), "litera")
    .failure Oom1 [32, 108, 105, 116, 101, 114, 97, 108, 108, 105, 116, 101, 114, 97, 108, 108, 105, 116, 101, 114, 97],  -- 44: ASSERT_PARSE_FAILURE(Oom1, " literalliterallitera")
    .failure Oom1 []  -- 45: ASSERT_PARSE_FAILURE(Oom1, "")
    ], Assertion.Holds a :=
  Assertion.holds_of_check (by decide +kernel)

/-- one_or_more_parser / Parse one_or_more_parser<any_of_parser> (tests/char-tests/parsers/one_or_more_parser.cpp:74) -/
theorem charParsersOneOrMoreParser_3 : ∀ a ∈ [
    .success Oom2 [97, 98, 99, 100, 101, 102] (.node [(.text [97]), (.text [98]), (.text [99])]) [100, 101, 102],  -- 74: ASSERT_PARSE_SUCCESS(Oom2, "abcdef", vec_type({"a", "b", "c"}), "def")
    .failure Oom2 [102, 101, 100, 99, 98, 97],  -- 75: ASSERT_PARSE_FAILURE(Oom2, "fedcba")
    .success Oom2 [99, 98, 97, 98, 99, 99, 99, 98, 106, 107, 108, 109, 110, 111, 112] (.node [(.text [99]), (.text [98]), (.text [97]), (.text [98]), (.text [99]), (.text [99]), (.text [99]), (.text [98])]) [106, 107, 108, 109, 110, 111, 112],  -- 76: ASSERT_PARSE_SUCCESS(Oom2, "cbabcccbjklmnop", vec_type({"c", "b", "a", "b", "c", "c", "c", "b"}), "jklmnop")
    .failure Oom2 []  -- 77: ASSERT_PARSE_FAILURE(Oom2, "")
    ], Assertion.Holds a :=
  Assertion.holds_of_check (by decide +kernel)

/-- one_or_more_parser / Parse one_or_more_parser<choice_parser> (tests/char-tests/parsers/one_or_more_parser.cpp:101) -/
theorem charParsersOneOrMoreParser_4 : ∀ a ∈ [
    .success Oom3 [97, 98, 108, 105, 116, 101, 114, 97, 108, 99, 98, 108, 105, 116, 114, 97, 108, 99, 102] (.node [(.text [97]), (.text [98]), (.text [108, 105, 116, 101, 114, 97, 108]), (.text [99]), (.text [98])]) [108, 105, 116, 114, 97, 108, 99, 102],  -- 101: ASSERT_PARSE_SUCCESS(Oom3, "abliteralcblitralcf", vec_type({"a", "b", "literal", "c", "b"}), "litralcf")
    .failure Oom3 []  -- 103: ASSERT_PARSE_FAILURE(Oom3, "")
    ], Assertion.Holds a :=
  Assertion.holds_of_check (by decide +kernel)

/-- one_or_more_parser / Parse one_or_more_parser<sequence_parser> (tests/char-tests/parsers/one_or_more_parser.cpp:126) -/
theorem charParsersOneOrMoreParser_5 : ∀ a ∈ [
    .success Oom4 [108, 105, 116, 101, 114, 97, 108, 97, 108, 105, 116, 101, 114, 97, 108, 99, 108, 105, 116, 101, 114, 97, 108, 99, 108, 105, 116, 101, 114, 97, 108, 98] (.node [(.node [(.text [108, 105, 116, 101, 114, 97, 108]), (.text [97])]), (.node [(.text [108, 105, 116, 101, 114, 97, 108]), (.text [99])]), (.node [(.text [108, 105, 116, 101, 114, 97, 108]), (.text [99])]), (.node [(.text [108, 105, 116, 101, 114, 97, 108]), (.text [98])])]) [],  -- 126: ASSERT_PARSE_SUCCESS(Oom4, "literalaliteralcliteralcliteralb", vec_type({{"literal", "a"},{"literal", "c"},{"literal", "c"},{"literal", "b"}}), "")
    .success Oom4 [108, 105, 116, 101, 114, 97, 108, 97, 108, 105, 116, 101, 114, 97, 108, 99, 108, 105, 116, 101, 114, 97, 108, 99, 108, 105, 116, 101, 114, 97, 108, 98, 108, 105, 116, 101, 114, 97, 108] (.node [(.node [(.text [108, 105, 116, 101, 114, 97, 108]), (.text [97])]), (.node [(.text [108, 105, 116, 101, 114, 97, 108]), (.text [99])]), (.node [(.text [108, 105, 116, 101, 114, 97, 108]), (.text [99])]), (.node [(.text [108, 105, 116, 101, 114, 97, 108]), (.text [98])])]) [108, 105, 116, 101, 114, 97, 108],  -- 127: ASSERT_PARSE_SUCCESS(Oom4, "literalaliteralcliteralcliteralbliteral", vec_type({{"literal", "a"},{"literal", "c"},{"literal", "c"},{"literal", "b"}}),
    .failure Oom4 [97, 108, 105, 116, 101, 114, 97, 108, 97, 108, 105, 116, 101, 114, 97, 108, 99, 108, 105, 116, 101, 114, 97, 108, 98, 108, 105, 116, 101, 114, 97, 108],  -- 128: ASSERT_PARSE_FAILURE(Oom4, "aliteralaliteralcliteralbliteral")
    .failure Oom4 []  -- 129: ASSERT_PARSE_FAILURE(Oom4, "")
    ], Assertion.Holds a :=
  Assertion.holds_of_check (by decide +kernel)

/-- one_or_more_parser / Parse one_or_more_parser<void-parser> (tests/char-tests/parsers/one_or_more_parser.cpp:153) -/
theorem charParsersOneOrMoreParser_6 : ∀ a ∈ [
    .successVoid (.oneOrMore (.ignore ABC)) [97, 98, 99, 97, 98, 99, 97, 98, 99, 97] [97],  -- 153: ASSERT_PARSE_SUCCESS_VOID(P, "abcabcabca", "a")
    .successVoid (.oneOrMore (.ignore ABC)) [97, 98, 99, 97, 98, 99, 97] [97],  -- 154: ASSERT_PARSE_SUCCESS_VOID(P, "abcabca", "a")
    .successVoid (.oneOrMore (.ignore ABC)) [97, 98, 99, 97, 98, 99] [],  -- 155: ASSERT_PARSE_SUCCESS_VOID(P, "abcabc", "")
    .failure (.oneOrMore (.ignore ABC)) [32, 97, 98, 99, 97, 98, 99],  -- 156: ASSERT_PARSE_FAILURE(P, " abcabc")
    .successVoid (.oneOrMore (.ignore ABC)) [97, 98, 99, 97, 98] [97, 98],  -- 157: ASSERT_PARSE_SUCCESS_VOID(P, "abcab", "ab")
    .successVoid (.oneOrMore (.ignore ABC)) [97, 98, 99] [],  -- 158: ASSERT_PARSE_SUCCESS_VOID(P, "abc", "")
    .failure (.oneOrMore (.ignore ABC)) []  -- 159: ASSERT_PARSE_FAILURE(P, "")
    ], Assertion.Holds a :=
  Assertion.holds_of_check (by decide +kernel)

end Tok3n.Tests
