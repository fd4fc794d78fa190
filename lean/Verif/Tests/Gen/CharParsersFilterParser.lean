import Verif.Tests.Gen.SamplesChar
/- Generated by tools/tests2lean.py from tests/char-tests/parsers/filter_parser.cpp. -/

namespace Tok3n.Tests

/-- filter_parser / Requirements (tests/char-tests/parsers/filter_parser.cpp:19) -/
theorem charParsersFilterParser_1 : ∀ a ∈ [
    .isParser Fil1 filter_family (.vec .span),  -- 19: ASSERT_IS_PARSER(Fil1, char, filter_family, std::vector<output_span<char>>)
    .isParser Fil2 filter_family (.opt .span),  -- 25: ASSERT_IS_PARSER(Fil2, char, filter_family, std::optional<output_span<char>>)
    .isParser Fil3 filter_family (.tup [.span, (.vec .span)])  -- 26: ASSERT_IS_PARSER(Fil3, char, filter_family, std::tuple<output_span<char>, std::vector<output_span<char>>>)
    ], Assertion.Holds a :=
  Assertion.holds_of_check (by decide +kernel)

/-- filter_parser / Parse all (tests/char-tests/parsers/filter_parser.cpp:47) -/
theorem charParsersFilterParser_2 : ∀ a ∈ [
    .lookOnly Fil1 [97, 98, 99, 97, 98, 99, 97, 98, 99, 97, 98, 99, 97, 98, 99, 97, 98] [97, 98],  -- 47: ASSERT_PARSE_LOOKAHEAD_ONLY(Fil1, TT("abcabcabcabcabcab"), TT("ab"))
    .success Fil1 [97, 98, 99, 97, 98, 99, 97, 98, 99, 97, 98, 99, 97, 98] (.node [(.text [97, 98, 99]), (.text [97, 98, 99]), (.text [97, 98, 99]), (.text [97, 98, 99])]) [97, 98],  -- 48: ASSERT_PARSE_SUCCESS(Fil1, TT("abcabcabcabcab"), vec_type({TT("abc"), TT("abc"), TT("abc"), TT("abc")}), TT("ab"))
    .lookOnly Fil1 [97, 98, 99, 97, 98, 99, 97, 98, 99, 97, 98] [97, 98],  -- 49: ASSERT_PARSE_LOOKAHEAD_ONLY(Fil1, TT("abcabcabcab"), TT("ab"))
    .success Fil1 [97, 98, 99, 97, 98, 99, 97, 98] (.node [(.text [97, 98, 99]), (.text [97, 98, 99])]) [97, 98],  -- 50: ASSERT_PARSE_SUCCESS(Fil1, TT("abcabcab"), vec_type({TT("abc"), TT("abc")}), TT("ab"))
    .lookOnly Fil1 [97, 98, 99] [],  -- 51: ASSERT_PARSE_LOOKAHEAD_ONLY(Fil1, TT("abc"), TT(""))
    .failure Fil1 [97, 98],  -- 52: ASSERT_PARSE_FAILURE(Fil1, TT("ab"))
    .failure Fil1 [],  -- 53: ASSERT_PARSE_FAILURE(Fil1, TT(""))
    .success Fil2 [97, 98, 99, 97, 98, 99] (.text [97, 98, 99]) [97, 98, 99],  -- 58: ASSERT_PARSE_SUCCESS(Fil2, "abcabc", opt_type("abc"), "abc")
    .lookOnly Fil2 [97, 63, 63, 98, 99, 97, 98, 99] [97, 63, 63, 98, 99, 97, 98, 99],  -- 59: ASSERT_PARSE_LOOKAHEAD_ONLY(Fil2, "a??bcabc", "a??bcabc")
    .lookOnly Fil2 [] [],  -- 60: ASSERT_PARSE_LOOKAHEAD_ONLY(Fil2, "", "")
    .success Fil2 [63, 63, 97, 98, 99, 97, 98, 99] (.text [63, 63]) [97, 98, 99, 97, 98, 99],  -- 61: ASSERT_PARSE_SUCCESS(Fil2, "??abcabc", opt_type("??"), "abcabc")
    .lookOnly Fil2 [32, 63, 63, 97, 98, 99, 97, 98, 99] [32, 63, 63, 97, 98, 99, 97, 98, 99],  -- 62: ASSERT_PARSE_LOOKAHEAD_ONLY(Fil2, " ??abcabc", " ??abcabc")
    .success Fil3 [97, 98, 99, 97, 98, 99] (.node [(.text [97, 98, 99]), (.node [])]) [97, 98, 99],  -- 68: ASSERT_PARSE_SUCCESS(Fil3, "abcabc", tuple_type("abc",{}), "abc")
    .success Fil3 [97, 98, 99] (.node [(.text [97, 98, 99]), (.node [])]) [],  -- 69: ASSERT_PARSE_SUCCESS(Fil3, "abc", tuple_type("abc",{}), "")
    .success Fil3 [97, 98, 99, 63] (.node [(.text [97, 98, 99]), (.node [])]) [63],  -- 70: ASSERT_PARSE_SUCCESS(Fil3, "abc?", tuple_type("abc",{}), "?")
    .lookOnly Fil3 [97, 98, 99, 63, 63] [],  -- 71: ASSERT_PARSE_LOOKAHEAD_ONLY(Fil3, "abc??", "")
    .lookOnly Fil3 [97, 98, 99, 63, 63, 63] [63],  -- 72: ASSERT_PARSE_LOOKAHEAD_ONLY(Fil3, "abc???", "?")
    .success Fil3 [97, 98, 99, 63, 63, 63, 63] (.node [(.text [97, 98, 99]), (.node [(.text [63, 63]), (.text [63, 63])])]) [],  -- 73: ASSERT_PARSE_SUCCESS(Fil3, "abc????", tuple_type("abc",{"??", "??"}), "")
    .success Fil3 [97, 98, 99, 63, 63, 63, 63, 63] (.node [(.text [97, 98, 99]), (.node [(.text [63, 63]), (.text [63, 63])])]) [63],  -- 74: ASSERT_PARSE_SUCCESS(Fil3, "abc?????", tuple_type("abc",{"??", "??"}), "?")
    .lookOnly Fil3 [97, 98, 99, 63, 63, 63, 63, 63, 63] [],  -- 75: ASSERT_PARSE_LOOKAHEAD_ONLY(Fil3, "abc??????", "")
    .lookOnly Fil3 [97, 98, 99, 63, 63, 63, 63, 63, 63, 63] [63],  -- 76: ASSERT_PARSE_LOOKAHEAD_ONLY(Fil3, "abc???????", "?")
    .success Fil3 [97, 98, 99, 63, 63, 63, 63, 63, 63, 63, 63] (.node [(.text [97, 98, 99]), (.node [(.text [63, 63]), (.text [63, 63]), (.text [63, 63]), (.text [63, 63])])]) [],  -- 77: ASSERT_PARSE_SUCCESS(Fil3, "abc????????", tuple_type("abc",{"??", "??", "??", "??"}), "")
    .success Fil3 [97, 98, 99, 63, 63, 63, 63, 63, 63, 63, 63, 63] (.node [(.text [97, 98, 99]), (.node [(.text [63, 63]), (.text [63, 63]), (.text [63, 63]), (.text [63, 63])])]) [63],  -- 78: ASSERT_PARSE_SUCCESS(Fil3, "abc?????????", tuple_type("abc",{"??", "??", "??", "??"}), "?")
    .failure Fil3 [63, 63, 97, 98, 99, 63, 63, 63, 63, 63, 63, 63],  -- 79: ASSERT_PARSE_FAILURE(Fil3, "??abc???????")
    .failure Fil3 []  -- 80: ASSERT_PARSE_FAILURE(Fil3, "")
    ], Assertion.Holds a :=
  Assertion.holds_of_check (by decide +kernel)

/-- filter_parser / void input (tests/char-tests/parsers/filter_parser.cpp:144) -/
theorem charParsersFilterParser_3 : ∀ a ∈ [
    .isParser (.filter (.ignore ABC) (.user f_true)) filter_family .void,  -- 144: ASSERT_IS_PARSER(FilterGood, value_type, filter_family, void)
    .successVoid (.filter (.ignore ABC) (.user f_true)) [97, 98, 99, 100] [100],  -- 145: ASSERT_PARSE_SUCCESS_VOID(FilterGood, TT("abcd"), TT("d"))
    .failure (.filter (.ignore ABC) (.user f_true)) [32, 97, 98, 99, 100],  -- 146: ASSERT_PARSE_FAILURE(FilterGood, TT(" abcd"))
    .isNotParser (.filter (.ignore ABC) (.user f_true1)) filter_family  -- 150: ASSERT_IS_NOT_PARSER(FilterBad, value_type, filter_family)
    ], Assertion.Holds a :=
  Assertion.holds_of_check (by decide +kernel)

end Tok3n.Tests
