import Verif.Tests.Gen.SamplesChar
/- Generated by tools/tests2lean.py from tests/char-tests/parsers/sequence_parser.cpp. -/

namespace Tok3n.Tests

/-- sequence_parser / Requirements (tests/char-tests/parsers/sequence_parser.cpp:21) -/
theorem charParsersSequenceParser_1 : ∀ a ∈ [
    .isParser Seq1 sequence_family (.tup [.span, .span]),  -- 21: ASSERT_IS_PARSER(TwoWay, char, sequence_family, std::tuple<output_span<char>, output_span<char>>)
    .isParser Seq3 sequence_family (.tup [.span, .span, .span]),  -- 22: ASSERT_IS_PARSER(ThreeWay, char, sequence_family, std::tuple<output_span<char>, output_span<char>, output_span<char>>)
    .isParser Seq5 sequence_family .void  -- 23: ASSERT_IS_PARSER(Seq5, char, sequence_family, void)
    ], Assertion.Holds a :=
  Assertion.holds_of_check (by decide +kernel)

/-- sequence_parser / Parse two-way sequence_parser (tests/char-tests/parsers/sequence_parser.cpp:36) -/
theorem charParsersSequenceParser_2 : ∀ a ∈ [
    .failure Seq1 [97, 98, 99],  -- 36: ASSERT_PARSE_FAILURE(TwoWay, "abc")
    .failure Seq1 [97, 98, 99, 100],  -- 37: ASSERT_PARSE_FAILURE(TwoWay, "abcd")
    .success Seq1 [97, 98, 101, 102] (.node [(.text [97, 98]), (.text [101])]) [102],  -- 38: ASSERT_PARSE_SUCCESS(TwoWay, "abef", std::tuple("ab", "e"), "f")
    .success Seq1 [97, 98, 32, 101, 102] (.node [(.text [97, 98]), (.text [32])]) [101, 102]  -- 39: ASSERT_PARSE_SUCCESS(TwoWay, "ab ef", std::tuple("ab", " "), "ef")
    ], Assertion.Holds a :=
  Assertion.holds_of_check (by decide +kernel)

/-- sequence_parser / Parse three-way sequence_parser (tests/char-tests/parsers/sequence_parser.cpp:54) -/
theorem charParsersSequenceParser_3 : ∀ a ∈ [
    .success Seq3 [97, 98, 99, 100, 101] (.node [(.text [97, 98]), (.text [99]), (.text [100])]) [101],  -- 54: ASSERT_PARSE_SUCCESS(ThreeWay, "abcde", std::tuple("ab", "c", "d"), "e")
    .success Seq3 [97, 98, 100, 99] (.node [(.text [97, 98]), (.text [100]), (.text [99])]) [],  -- 55: ASSERT_PARSE_SUCCESS(ThreeWay, "abdc", std::tuple("ab", "d", "c"), "")
    .failure Seq3 [97, 98, 99, 122]  -- 56: ASSERT_PARSE_FAILURE(ThreeWay, "abcz")
    ], Assertion.Holds a :=
  Assertion.holds_of_check (by decide +kernel)

/-- sequence_parser / Parse void result_type (tests/char-tests/parsers/sequence_parser.cpp:69) -/
theorem charParsersSequenceParser_4 : ∀ a ∈ [
    .failure Seq5 [97, 98],  -- 69: ASSERT_PARSE_FAILURE(Seq5, "ab")
    .failure Seq5 [97, 98, 99, 97],  -- 70: ASSERT_PARSE_FAILURE(Seq5, "abca")
    .successVoid Seq5 [97, 98, 99, 97, 98, 99, 97, 98, 99, 100, 97, 98, 99, 100] [100, 97, 98, 99, 100]  -- 71: ASSERT_PARSE_SUCCESS_VOID(Seq5, "abcabcabcdabcd", "dabcd")
    ], Assertion.Holds a :=
  Assertion.holds_of_check (by decide +kernel)

/-- sequence_parser / Not constructible empty (tests/char-tests/parsers/sequence_parser.cpp:86) -/
theorem charParsersSequenceParser_5 : ∀ a ∈ [
    .notWf (.sequence [])  -- 86: ASSERT_PARSER_NOT_CONSTRUCTIBLE(sequence_parser)
    ], Assertion.Holds a :=
  Assertion.holds_of_check (by decide +kernel)

/-- sequence_parser / sequence_parser<ignore_parser> (tests/char-tests/parsers/sequence_parser.cpp:95) -/
theorem charParsersSequenceParser_6 : ∀ a ∈ [
    .success (.sequence [ABC, (.ignore QQ), ABC]) [97, 98, 99, 63, 63, 97, 98, 99, 63, 63] (.node [(.text [97, 98, 99]), (.text [97, 98, 99])]) [63, 63],  -- 95: ASSERT_PARSE_SUCCESS(P, "abc??abc??", std::tuple("abc", "abc"), "??")
    .failure (.sequence [ABC, (.ignore QQ), ABC]) [97, 98, 99, 97, 98, 99, 63, 63]  -- 96: ASSERT_PARSE_FAILURE(P, "abcabc??")
    ], Assertion.Holds a :=
  Assertion.holds_of_check (by decide +kernel)

end Tok3n.Tests
