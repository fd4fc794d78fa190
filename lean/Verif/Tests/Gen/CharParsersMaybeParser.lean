import Verif.Tests.Gen.SamplesChar
/- Generated by tools/tests2lean.py from tests/char-tests/parsers/maybe_parser.cpp. -/

namespace Tok3n.Tests

/-- maybe_parser / Requirements (tests/char-tests/parsers/maybe_parser.cpp:19) -/
theorem charParsersMaybeParser_1 : ∀ a ∈ [
    .isParser May1 maybe_family (.opt .span),  -- 19: ASSERT_IS_PARSER(May1, char, maybe_family, std::optional<output_span<char>>)
    .isParser May2 maybe_family (.opt .span),  -- 20: ASSERT_IS_PARSER(May2, char, maybe_family, std::optional<output_span<char>>)
    .isParser May3 maybe_family (.opt .span),  -- 21: ASSERT_IS_PARSER(May3, char, maybe_family, std::optional<output_span<char>>)
    .isParser May4 maybe_family (.opt (.tup [.span, .span]))  -- 22: ASSERT_IS_PARSER(May4, char, maybe_family, std::optional<std::tuple<output_span<char>, output_span<char>>>)
    ], Assertion.Holds a :=
  Assertion.holds_of_check (by decide +kernel)

/-- maybe_parser / Parse maybe_parser<all_of_parser> (tests/char-tests/parsers/maybe_parser.cpp:37) -/
theorem charParsersMaybeParser_2 : ∀ a ∈ [
    .success May1 [108, 105, 116, 101, 114, 97] .null [108, 105, 116, 101, 114, 97],  -- 37: ASSERT_PARSE_SUCCESS(May1, "litera", std::nullopt, "litera")
    .success May1 [108, 105, 116, 101, 114, 97, 108] (.text [108, 105, 116, 101, 114, 97, 108]) [],  -- 38: ASSERT_PARSE_SUCCESS(May1, "literal", std::optional("literal"), "")
    .success May1 [108, 105, 116, 101, 114, 97, 108, 108, 121] (.text [108, 105, 116, 101, 114, 97, 108]) [108, 121],  -- 39: ASSERT_PARSE_SUCCESS(May1, "literally", std::optional("literal"), "ly")
    .success May1 [108, 105, 116, 101, 114, 97, 108, 108, 105, 116, 101, 114, 97] (.text [108, 105, 116, 101, 114, 97, 108]) [108, 105, 116, 101, 114, 97],  -- 40: ASSERT_PARSE_SUCCESS(May1, "literallitera", std::optional("literal"), "litera")
    .success May1 [108, 105, 116, 101, 114, 97, 108, 108, 105, 116, 101, 114, 97, 108, 108, 105, 116, 101, 114, 97] (.text [108, 105, 116, 101, 114, 97, 108]) [108, 105, 116, 101, 114, 97, 108, 108, 105, 116, 101, 114, 97],  -- 41: ASSERT_PARSE_SUCCESS(May1, "literalliterallitera", std::optional("literal"), "literallitera")
    .success May1 [32, 108, 105, 116, 101, 114, 97, 108, 108, 105, 116, 101, 114, 97, 108, 108, 105, 116, 101, 114, 97] .null [32, 108, 105, 116, 101, 114, 97, 108, 108, 105, 116, 101, 114, 97, 108, 108, 105, 116, 101, 114, 97],  -- 42: ASSERT_PARSE_SUCCESS(May1, " literalliterallitera", std::nullopt, " literalliterallitera")
    .success May1 [] .null []  -- 43: ASSERT_PARSE_SUCCESS(May1, "", std::nullopt, "")
    ], Assertion.Holds a :=
  Assertion.holds_of_check (by decide +kernel)

/-- maybe_parser / Parse maybe_parser<any_of_parser> (tests/char-tests/parsers/maybe_parser.cpp:63) -/
theorem charParsersMaybeParser_3 : ∀ a ∈ [
    .success May2 [97, 98, 99, 100, 101, 102] (.text [97]) [98, 99, 100, 101, 102],  -- 63: ASSERT_PARSE_SUCCESS(May2, "abcdef", std::optional("a"), "bcdef")
    .success May2 [102, 101, 100, 99, 98, 97] .null [102, 101, 100, 99, 98, 97],  -- 64: ASSERT_PARSE_SUCCESS(May2, "fedcba", std::nullopt, "fedcba")
    .success May2 [99, 98, 97, 98, 99, 99, 99, 98, 106, 107, 108, 109, 110, 111, 112] (.text [99]) [98, 97, 98, 99, 99, 99, 98, 106, 107, 108, 109, 110, 111, 112],  -- 65: ASSERT_PARSE_SUCCESS(May2, "cbabcccbjklmnop", std::optional("c"), "babcccbjklmnop")
    .success May2 [] .null []  -- 66: ASSERT_PARSE_SUCCESS(May2, "", std::nullopt, "")
    ], Assertion.Holds a :=
  Assertion.holds_of_check (by decide +kernel)

/-- maybe_parser / Parse maybe_parser<choice_parser> (tests/char-tests/parsers/maybe_parser.cpp:80) -/
theorem charParsersMaybeParser_4 : ∀ a ∈ [
    .success May3 [97, 98, 108, 105, 116, 101, 114, 97, 108, 99, 98, 108, 105, 116, 101, 114, 97, 108, 99, 102] (.text [97]) [98, 108, 105, 116, 101, 114, 97, 108, 99, 98, 108, 105, 116, 101, 114, 97, 108, 99, 102],  -- 80: ASSERT_PARSE_SUCCESS(May3, "abliteralcbliteralcf", std::optional("a"), "bliteralcbliteralcf")
    .success May3 [97, 98, 108, 105, 116, 101, 114, 97, 108, 99, 98, 108, 105, 116, 114, 97, 108, 99, 102] (.text [97]) [98, 108, 105, 116, 101, 114, 97, 108, 99, 98, 108, 105, 116, 114, 97, 108, 99, 102],  -- 81: ASSERT_PARSE_SUCCESS(May3, "abliteralcblitralcf", std::optional("a"), "bliteralcblitralcf")
    .success May3 [108, 105, 116, 101, 114, 97, 108, 97, 98, 97, 99, 108, 105, 116, 101, 114, 97, 108] (.text [108, 105, 116, 101, 114, 97, 108]) [97, 98, 97, 99, 108, 105, 116, 101, 114, 97, 108],  -- 82: ASSERT_PARSE_SUCCESS(May3, "literalabacliteral", std::optional("literal"), "abacliteral")
    .success May3 [] .null []  -- 83: ASSERT_PARSE_SUCCESS(May3, "", std::nullopt, "")
    ], Assertion.Holds a :=
  Assertion.holds_of_check (by decide +kernel)

/-- maybe_parser / Parse maybe_parser<sequence_parser> (tests/char-tests/parsers/maybe_parser.cpp:97) -/
theorem charParsersMaybeParser_5 : ∀ a ∈ [
    .success May4 [108, 105, 116, 101, 114, 97, 108, 97, 108, 105, 116, 101, 114, 97, 108, 99, 108, 105, 116, 101, 114, 97, 108, 99, 108, 105, 116, 101, 114, 97, 108, 98] (.node [(.text [108, 105, 116, 101, 114, 97, 108]), (.text [97])]) [108, 105, 116, 101, 114, 97, 108, 99, 108, 105, 116, 101, 114, 97, 108, 99, 108, 105, 116, 101, 114, 97, 108, 98],  -- 97: ASSERT_PARSE_SUCCESS(May4, "literalaliteralcliteralcliteralb", std::optional(std::tuple("literal", "a")), "literalcliteralcliteralb")
    .success May4 [108, 105, 116, 101, 114, 97, 108, 97, 108, 105, 116, 101, 114, 97, 108, 99, 108, 105, 116, 101, 114, 97, 108, 99, 108, 105, 116, 101, 114, 97, 108, 98, 108, 105, 116, 101, 114, 97, 108] (.node [(.text [108, 105, 116, 101, 114, 97, 108]), (.text [97])]) [108, 105, 116, 101, 114, 97, 108, 99, 108, 105, 116, 101, 114, 97, 108, 99, 108, 105, 116, 101, 114, 97, 108, 98, 108, 105, 116, 101, 114, 97, 108],  -- 98: ASSERT_PARSE_SUCCESS(May4, "literalaliteralcliteralcliteralbliteral", std::optional(std::tuple("literal", "a")), "literalcliteralcliteralbliteral")
    .success May4 [97, 108, 105, 116, 101, 114, 97, 108, 97, 108, 105, 116, 101, 114, 97, 108, 99, 108, 105, 116, 101, 114, 97, 108, 98, 108, 105, 116, 101, 114, 97, 108] .null [97, 108, 105, 116, 101, 114, 97, 108, 97, 108, 105, 116, 101, 114, 97, 108, 99, 108, 105, 116, 101, 114, 97, 108, 98, 108, 105, 116, 101, 114, 97, 108],  -- 99: ASSERT_PARSE_SUCCESS(May4, "aliteralaliteralcliteralbliteral", std::nullopt, "aliteralaliteralcliteralbliteral")
    .success May4 [] .null []  -- 100: ASSERT_PARSE_SUCCESS(May4, "", std::nullopt, "")
    ], Assertion.Holds a :=
  Assertion.holds_of_check (by decide +kernel)

/-- maybe_parser / Parse maybe_parser<void-parser> (tests/char-tests/parsers/maybe_parser.cpp:117) -/
theorem charParsersMaybeParser_6 : ∀ a ∈ [
    .successVoid (.maybe (.ignore ABC)) [97, 98, 99, 97, 98, 99, 97, 98, 99, 97] [97, 98, 99, 97, 98, 99, 97],  -- 117: ASSERT_PARSE_SUCCESS_VOID(P, "abcabcabca", "abcabca")
    .successVoid (.maybe (.ignore ABC)) [97, 98, 99, 97, 98, 99, 97] [97, 98, 99, 97],  -- 118: ASSERT_PARSE_SUCCESS_VOID(P, "abcabca", "abca")
    .successVoid (.maybe (.ignore ABC)) [97, 98, 99, 97, 98, 99] [97, 98, 99],  -- 119: ASSERT_PARSE_SUCCESS_VOID(P, "abcabc", "abc")
    .successVoid (.maybe (.ignore ABC)) [32, 97, 98, 99, 97, 98, 99] [32, 97, 98, 99, 97, 98, 99],  -- 120: ASSERT_PARSE_SUCCESS_VOID(P, " abcabc", " abcabc")
    .successVoid (.maybe (.ignore ABC)) [97, 98, 99, 97, 98] [97, 98],  -- 121: ASSERT_PARSE_SUCCESS_VOID(P, "abcab", "ab")
    .successVoid (.maybe (.ignore ABC)) [97, 98, 99] [],  -- 122: ASSERT_PARSE_SUCCESS_VOID(P, "abc", "")
    .successVoid (.maybe (.ignore ABC)) [] []  -- 123: ASSERT_PARSE_SUCCESS_VOID(P, "", "")
    ], Assertion.Holds a :=
  Assertion.holds_of_check (by decide +kernel)

end Tok3n.Tests
