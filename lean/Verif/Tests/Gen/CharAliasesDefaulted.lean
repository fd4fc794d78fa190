import Verif.Tests.Gen.SamplesChar
/- Generated by tools/tests2lean.py from tests/char-tests/aliases/defaulted.cpp. -/

namespace Tok3n.Tests

/-- defaulted_parser / Requirements (tests/char-tests/aliases/defaulted.cpp:17) -/
theorem charAliasesDefaulted_1 : ∀ a ∈ [
    .isParser Def1 map_family tInt,  -- 17: ASSERT_IS_PARSER(Def1, char, map_family, int)
    .isParser Def2 map_family tClass3  -- 18: ASSERT_IS_PARSER(Def2, char, map_family, Class3)
    ], Assertion.Holds a :=
  Assertion.holds_of_check (by decide +kernel)

/-- defaulted_parser / Parse all (tests/char-tests/aliases/defaulted.cpp:29) -/
theorem charAliasesDefaulted_2 : ∀ a ∈ [
    .success Def1 [97, 98, 99, 97, 98, 99, 97, 98, 99, 97, 98] (.num 0) [97, 98],  -- 29: ASSERT_PARSE_SUCCESS(Def1, "abcabcabcab", 0, "ab")
    .failure Def1 [],  -- 30: ASSERT_PARSE_FAILURE(Def1, "")
    .failure Def1 [97, 98],  -- 31: ASSERT_PARSE_FAILURE(Def1, "ab")
    .success Def1 [97, 98, 99] (.num 0) [],  -- 32: ASSERT_PARSE_SUCCESS(Def1, "abc", 0, "")
    .success Def2 [97, 98, 99, 97, 98, 99] (.node []) [97, 98, 99],  -- 34: ASSERT_PARSE_SUCCESS(Def2, "abcabc", Class3{}, "abc")
    .success Def2 [97, 63, 63, 98, 99, 97, 98, 99] (.node []) [97, 63, 63, 98, 99, 97, 98, 99],  -- 35: ASSERT_PARSE_SUCCESS(Def2, "a??bcabc", Class3{}, "a??bcabc")
    .success Def2 [] (.node []) [],  -- 36: ASSERT_PARSE_SUCCESS(Def2, "", Class3{}, "")
    .success Def2 [63, 63, 97, 98, 99, 97, 98, 99] (.node []) [97, 98, 99, 97, 98, 99],  -- 37: ASSERT_PARSE_SUCCESS(Def2, "??abcabc", Class3{}, "abcabc")
    .success Def2 [32, 63, 63, 97, 98, 99, 97, 98, 99] (.node []) [32, 63, 63, 97, 98, 99, 97, 98, 99]  -- 38: ASSERT_PARSE_SUCCESS(Def2, " ??abcabc", Class3{}, " ??abcabc")
    ], Assertion.Holds a :=
  Assertion.holds_of_check (by decide +kernel)

end Tok3n.Tests
