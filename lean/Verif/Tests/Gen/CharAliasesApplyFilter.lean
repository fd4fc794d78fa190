import Verif.Tests.Gen.SamplesChar
/- Generated by tools/tests2lean.py from tests/char-tests/aliases/apply_filter.cpp. -/

namespace Tok3n.Tests

/-- apply_filter_parser / Requirements (tests/char-tests/aliases/apply_filter.cpp:16) -/
theorem charAliasesApplyFilter_1 : ∀ a ∈ [
    .isParser Apf1 filter_family (.tup [.span, (.vec .span)])  -- 16: ASSERT_IS_PARSER(Apf1, char, filter_family, std::tuple<output_span<char>, std::vector<output_span<char>>>)
    ], Assertion.Holds a :=
  Assertion.holds_of_check (by decide +kernel)

/-- apply_filter_parser / Parse all (tests/char-tests/aliases/apply_filter.cpp:28) -/
theorem charAliasesApplyFilter_2 : ∀ a ∈ [
    .success Apf1 [97, 98, 99, 97, 98, 99] (.node [(.text [97, 98, 99]), (.node [])]) [97, 98, 99],  -- 28: ASSERT_PARSE_SUCCESS(Apf1, "abcabc", tuple_type("abc",{}), "abc")
    .success Apf1 [97, 98, 99] (.node [(.text [97, 98, 99]), (.node [])]) [],  -- 29: ASSERT_PARSE_SUCCESS(Apf1, "abc", tuple_type("abc",{}), "")
    .success Apf1 [97, 98, 99, 63] (.node [(.text [97, 98, 99]), (.node [])]) [63],  -- 30: ASSERT_PARSE_SUCCESS(Apf1, "abc?", tuple_type("abc",{}), "?")
    .lookOnly Apf1 [97, 98, 99, 63, 63] [],  -- 31: ASSERT_PARSE_LOOKAHEAD_ONLY(Apf1, "abc??", "")
    .lookOnly Apf1 [97, 98, 99, 63, 63, 63] [63],  -- 32: ASSERT_PARSE_LOOKAHEAD_ONLY(Apf1, "abc???", "?")
    .success Apf1 [97, 98, 99, 63, 63, 63, 63] (.node [(.text [97, 98, 99]), (.node [(.text [63, 63]), (.text [63, 63])])]) [],  -- 33: ASSERT_PARSE_SUCCESS(Apf1, "abc????", tuple_type("abc",{"??", "??"}), "")
    .success Apf1 [97, 98, 99, 63, 63, 63, 63, 63] (.node [(.text [97, 98, 99]), (.node [(.text [63, 63]), (.text [63, 63])])]) [63],  -- 34: ASSERT_PARSE_SUCCESS(Apf1, "abc?????", tuple_type("abc",{"??", "??"}), "?")
    .lookOnly Apf1 [97, 98, 99, 63, 63, 63, 63, 63, 63] [],  -- 35: ASSERT_PARSE_LOOKAHEAD_ONLY(Apf1, "abc??????", "")
    .lookOnly Apf1 [97, 98, 99, 63, 63, 63, 63, 63, 63, 63] [63],  -- 36: ASSERT_PARSE_LOOKAHEAD_ONLY(Apf1, "abc???????", "?")
    .success Apf1 [97, 98, 99, 63, 63, 63, 63, 63, 63, 63, 63] (.node [(.text [97, 98, 99]), (.node [(.text [63, 63]), (.text [63, 63]), (.text [63, 63]), (.text [63, 63])])]) [],  -- 37: ASSERT_PARSE_SUCCESS(Apf1, "abc????????", tuple_type("abc",{"??", "??", "??", "??"}), "")
    .success Apf1 [97, 98, 99, 63, 63, 63, 63, 63, 63, 63, 63, 63] (.node [(.text [97, 98, 99]), (.node [(.text [63, 63]), (.text [63, 63]), (.text [63, 63]), (.text [63, 63])])]) [63],  -- 38: ASSERT_PARSE_SUCCESS(Apf1, "abc?????????", tuple_type("abc",{"??", "??", "??", "??"}), "?")
    .failure Apf1 [63, 63, 97, 98, 99, 63, 63, 63, 63, 63, 63, 63],  -- 39: ASSERT_PARSE_FAILURE(Apf1, "??abc???????")
    .failure Apf1 []  -- 40: ASSERT_PARSE_FAILURE(Apf1, "")
    ], Assertion.Holds a :=
  Assertion.holds_of_check (by decide +kernel)

end Tok3n.Tests
