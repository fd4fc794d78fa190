import Verif.Tests.Gen.SamplesChar
/- Generated by tools/tests2lean.py from tests/char-tests/parsers/ignore_parser.cpp. -/

namespace Tok3n.Tests

/-- ignore_parser / Requirements (tests/char-tests/parsers/ignore_parser.cpp:20) -/
theorem charParsersIgnoreParser_1 : ∀ a ∈ [
    .isParser Ign1 ignore_family .void,  -- 20: ASSERT_IS_PARSER(Ign1, char, ignore_family, void)
    .isParser Ign2 ignore_family .void,  -- 21: ASSERT_IS_PARSER(Ign2, char, ignore_family, void)
    .isParser Ign3 ignore_family .void,  -- 22: ASSERT_IS_PARSER(Ign3, char, ignore_family, void)
    .isParser Ign4 ignore_family .void,  -- 23: ASSERT_IS_PARSER(Ign4, char, ignore_family, void)
    .isParser Ign5 ignore_family .void  -- 24: ASSERT_IS_PARSER(Ign5, char, ignore_family, void)
    ], Assertion.Holds a :=
  Assertion.holds_of_check (by decide +kernel)

/-- ignore_parser / Parse all (tests/char-tests/parsers/ignore_parser.cpp:41) -/
theorem charParsersIgnoreParser_2 : ∀ a ∈ [
    .successVoid Ign1 [97, 98, 99, 97, 98, 99] [97, 98, 99],  -- 41: ASSERT_PARSE_SUCCESS_VOID(Ign1, "abcabc", "abc")
    .failure Ign1 [65, 98, 99, 97, 98, 99],  -- 42: ASSERT_PARSE_FAILURE(Ign1, "Abcabc")
    .failure Ign1 [32, 97, 98, 99, 97, 98, 99],  -- 43: ASSERT_PARSE_FAILURE(Ign1, " abcabc")
    .successVoid Ign2 [97, 98, 99, 97, 98, 99, 97, 98, 99, 97, 98] [97, 98],  -- 45: ASSERT_PARSE_SUCCESS_VOID(Ign2, "abcabcabcab", "ab")
    .failure Ign2 [],  -- 46: ASSERT_PARSE_FAILURE(Ign2, "")
    .failure Ign2 [97, 98],  -- 47: ASSERT_PARSE_FAILURE(Ign2, "ab")
    .successVoid Ign2 [97, 98, 99] [],  -- 48: ASSERT_PARSE_SUCCESS_VOID(Ign2, "abc", "")
    .successVoid Ign3 [97, 98, 99, 97, 98, 99] [97, 98, 99],  -- 50: ASSERT_PARSE_SUCCESS_VOID(Ign3, "abcabc", "abc")
    .successVoid Ign3 [97, 63, 63, 98, 99, 97, 98, 99] [97, 63, 63, 98, 99, 97, 98, 99],  -- 51: ASSERT_PARSE_SUCCESS_VOID(Ign3, "a??bcabc", "a??bcabc")
    .successVoid Ign3 [] [],  -- 52: ASSERT_PARSE_SUCCESS_VOID(Ign3, "", "")
    .successVoid Ign3 [63, 63, 97, 98, 99, 97, 98, 99] [97, 98, 99, 97, 98, 99],  -- 53: ASSERT_PARSE_SUCCESS_VOID(Ign3, "??abcabc", "abcabc")
    .successVoid Ign3 [32, 63, 63, 97, 98, 99, 97, 98, 99] [32, 63, 63, 97, 98, 99, 97, 98, 99],  -- 54: ASSERT_PARSE_SUCCESS_VOID(Ign3, " ??abcabc", " ??abcabc")
    .successVoid Ign4 [97, 98, 99, 63, 63, 63, 63, 63, 63, 63] [63],  -- 56: ASSERT_PARSE_SUCCESS_VOID(Ign4, "abc???????", "?")
    .failure Ign4 [63, 63, 97, 98, 99, 63, 63, 63, 63, 63, 63, 63],  -- 57: ASSERT_PARSE_FAILURE(Ign4, "??abc???????")
    .successVoid Ign4 [97, 98, 99, 63, 63, 97, 98, 99, 63, 63, 63, 63, 63, 63, 63] [97, 98, 99, 63, 63, 63, 63, 63, 63, 63],  -- 58: ASSERT_PARSE_SUCCESS_VOID(Ign4, "abc??abc???????", "abc???????")
    .successVoid Ign4 [97, 98, 99, 32, 63, 63, 97, 98, 99, 63, 63, 63, 63, 63, 63, 63] [32, 63, 63, 97, 98, 99, 63, 63, 63, 63, 63, 63, 63],  -- 59: ASSERT_PARSE_SUCCESS_VOID(Ign4, "abc ??abc???????", " ??abc???????")
    .failure Ign4 [],  -- 60: ASSERT_PARSE_FAILURE(Ign4, "")
    .successVoid Ign5 [97, 98, 99, 97, 98, 99, 97, 98, 99, 97, 98, 99, 63, 63] [],  -- 62: ASSERT_PARSE_SUCCESS_VOID(Ign5, "abcabcabcabc??", "")
    .successVoid Ign5 [97, 98, 99, 97, 98, 99, 97, 98, 99, 97, 98, 99] [],  -- 63: ASSERT_PARSE_SUCCESS_VOID(Ign5, "abcabcabcabc", "")
    .successVoid Ign5 [97, 98, 99, 97, 98, 99, 97, 98, 99, 97, 98, 99, 32, 63, 63] [32, 63, 63],  -- 64: ASSERT_PARSE_SUCCESS_VOID(Ign5, "abcabcabcabc ??", " ??")
    .successVoid Ign5 [97, 98, 99] [],  -- 65: ASSERT_PARSE_SUCCESS_VOID(Ign5, "abc", "")
    .failure Ign5 [32, 97, 98, 99],  -- 66: ASSERT_PARSE_FAILURE(Ign5, " abc")
    .failure Ign5 []  -- 67: ASSERT_PARSE_FAILURE(Ign5, "")
    ], Assertion.Holds a :=
  Assertion.holds_of_check (by decide +kernel)

end Tok3n.Tests
