import Verif.Tests.Gen.SamplesChar
/- Generated by tools/tests2lean.py from tests/char-tests/aliases/constant.cpp. -/

namespace Tok3n.Tests

/-- constant_parser / Requirements (tests/char-tests/aliases/constant.cpp:19) -/
theorem charAliasesConstant_1 : ∀ a ∈ [
    .isParser Con1 map_family tInt,  -- 19: ASSERT_IS_PARSER(Con1, char, map_family, int)
    .isParser Con2 map_family tChar,  -- 20: ASSERT_IS_PARSER(Con2, char, map_family, char)
    .isParser Con3 map_family tBool,  -- 21: ASSERT_IS_PARSER(Con3, char, map_family, bool)
    .isParser Con4 map_family tNull  -- 22: ASSERT_IS_PARSER(Con4, char, map_family, std::nullptr_t)
    ], Assertion.Holds a :=
  Assertion.holds_of_check (by decide +kernel)

/-- constant_parser / Parse all (tests/char-tests/aliases/constant.cpp:37) -/
theorem charAliasesConstant_2 : ∀ a ∈ [
    .success Con1 [97, 98, 99, 97, 98, 99, 97, 98, 99, 97, 98] (.num 1) [97, 98],  -- 37: ASSERT_PARSE_SUCCESS(Con1, "abcabcabcab", 1, "ab")
    .failure Con1 [],  -- 38: ASSERT_PARSE_FAILURE(Con1, "")
    .failure Con1 [97, 98],  -- 39: ASSERT_PARSE_FAILURE(Con1, "ab")
    .success Con1 [97, 98, 99] (.num 1) [],  -- 40: ASSERT_PARSE_SUCCESS(Con1, "abc", 1, "")
    .success Con2 [97, 98, 99, 97, 98, 99] (.num 116) [97, 98, 99],  -- 42: ASSERT_PARSE_SUCCESS(Con2, "abcabc", 't', "abc")
    .success Con2 [97, 63, 63, 98, 99, 97, 98, 99] (.num 116) [97, 63, 63, 98, 99, 97, 98, 99],  -- 43: ASSERT_PARSE_SUCCESS(Con2, "a??bcabc", 't', "a??bcabc")
    .success Con2 [] (.num 116) [],  -- 44: ASSERT_PARSE_SUCCESS(Con2, "", 't', "")
    .success Con2 [63, 63, 97, 98, 99, 97, 98, 99] (.num 116) [97, 98, 99, 97, 98, 99],  -- 45: ASSERT_PARSE_SUCCESS(Con2, "??abcabc", 't', "abcabc")
    .success Con2 [32, 63, 63, 97, 98, 99, 97, 98, 99] (.num 116) [32, 63, 63, 97, 98, 99, 97, 98, 99],  -- 46: ASSERT_PARSE_SUCCESS(Con2, " ??abcabc", 't', " ??abcabc")
    .success Con3 [97, 98, 99, 63, 63, 63, 63, 63, 63, 63] (.num 1) [63],  -- 48: ASSERT_PARSE_SUCCESS(Con3, "abc???????", true, "?")
    .failure Con3 [63, 63, 97, 98, 99, 63, 63, 63, 63, 63, 63, 63],  -- 49: ASSERT_PARSE_FAILURE(Con3, "??abc???????")
    .success Con3 [97, 98, 99, 63, 63, 97, 98, 99, 63, 63, 63, 63, 63, 63, 63] (.num 1) [97, 98, 99, 63, 63, 63, 63, 63, 63, 63],  -- 50: ASSERT_PARSE_SUCCESS(Con3, "abc??abc???????", true, "abc???????")
    .success Con3 [97, 98, 99, 32, 63, 63, 97, 98, 99, 63, 63, 63, 63, 63, 63, 63] (.num 1) [32, 63, 63, 97, 98, 99, 63, 63, 63, 63, 63, 63, 63],  -- 51: ASSERT_PARSE_SUCCESS(Con3, "abc ??abc???????", true, " ??abc???????")
    .failure Con3 [],  -- 52: ASSERT_PARSE_FAILURE(Con3, "")
    .success Con4 [97, 98, 99, 97, 98, 99, 97, 98, 99, 97, 98, 99, 63, 63] .null [],  -- 54: ASSERT_PARSE_SUCCESS(Con4, "abcabcabcabc??", nullptr, "")
    .success Con4 [97, 98, 99, 97, 98, 99, 97, 98, 99, 97, 98, 99] .null [],  -- 55: ASSERT_PARSE_SUCCESS(Con4, "abcabcabcabc", nullptr, "")
    .success Con4 [97, 98, 99, 97, 98, 99, 97, 98, 99, 97, 98, 99, 32, 63, 63] .null [32, 63, 63],  -- 56: ASSERT_PARSE_SUCCESS(Con4, "abcabcabcabc ??", nullptr, " ??")
    .success Con4 [97, 98, 99] .null [],  -- 57: ASSERT_PARSE_SUCCESS(Con4, "abc", nullptr, "")
    .failure Con4 [32, 97, 98, 99],  -- 58: ASSERT_PARSE_FAILURE(Con4, " abc")
    .failure Con4 []  -- 59: ASSERT_PARSE_FAILURE(Con4, "")
    ], Assertion.Holds a :=
  Assertion.holds_of_check (by decide +kernel)

end Tok3n.Tests
