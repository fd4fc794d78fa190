import Verif.Tests.Gen.SamplesChar
/- Generated by tools/tests2lean.py from tests/char-tests/aliases/apply_map.cpp. -/

namespace Tok3n.Tests

/-- apply_map_parser / Requirements (tests/char-tests/aliases/apply_map.cpp:17) -/
theorem charAliasesApplyMap_1 : ∀ a ∈ [
    .isParser Apm1 map_family tBool,  -- 17: ASSERT_IS_PARSER(Apm1, char, map_family, bool)
    .isParser Apm2 map_family tSize  -- 18: ASSERT_IS_PARSER(Apm2, char, map_family, std::size_t)
    ], Assertion.Holds a :=
  Assertion.holds_of_check (by decide +kernel)

/-- apply_map_parser / Parse all (tests/char-tests/aliases/apply_map.cpp:29) -/
theorem charAliasesApplyMap_2 : ∀ a ∈ [
    .success Apm1 [97, 98, 99, 63, 63, 63, 63, 63, 63, 63] (.num 0) [63],  -- 29: ASSERT_PARSE_SUCCESS(Apm1, "abc???????", false, "?")
    .failure Apm1 [63, 63, 97, 98, 99, 63, 63, 63, 63, 63, 63, 63],  -- 30: ASSERT_PARSE_FAILURE(Apm1, "??abc???????")
    .success Apm1 [97, 98, 99, 63, 63, 97, 98, 99, 63, 63, 63, 63, 63, 63, 63] (.num 0) [97, 98, 99, 63, 63, 63, 63, 63, 63, 63],  -- 31: ASSERT_PARSE_SUCCESS(Apm1, "abc??abc???????", false, "abc???????")
    .success Apm1 [97, 98, 99, 32, 63, 63, 97, 98, 99, 63, 63, 63, 63, 63, 63, 63] (.num 1) [32, 63, 63, 97, 98, 99, 63, 63, 63, 63, 63, 63, 63],  -- 32: ASSERT_PARSE_SUCCESS(Apm1, "abc ??abc???????", true, " ??abc???????")
    .failure Apm1 [],  -- 33: ASSERT_PARSE_FAILURE(Apm1, "")
    .success Apm2 [97, 98, 99, 97, 98, 99, 97, 98, 99, 97, 98, 99, 63, 63] (.num 36) [],  -- 35: ASSERT_PARSE_SUCCESS(Apm2, "abcabcabcabc??", 36, "")
    .success Apm2 [97, 98, 99, 97, 98, 99, 97, 98, 99, 97, 98, 99] (.num 12) [],  -- 36: ASSERT_PARSE_SUCCESS(Apm2, "abcabcabcabc", 12, "")
    .success Apm2 [97, 98, 99, 97, 98, 99, 97, 98, 99, 97, 98, 99, 32, 63, 63] (.num 12) [32, 63, 63],  -- 37: ASSERT_PARSE_SUCCESS(Apm2, "abcabcabcabc ??", 12, " ??")
    .success Apm2 [97, 98, 99] (.num 3) [],  -- 38: ASSERT_PARSE_SUCCESS(Apm2, "abc", 3, "")
    .failure Apm2 [32, 97, 98, 99],  -- 39: ASSERT_PARSE_FAILURE(Apm2, " abc")
    .failure Apm2 []  -- 40: ASSERT_PARSE_FAILURE(Apm2, "")
    ], Assertion.Holds a :=
  Assertion.holds_of_check (by decide +kernel)

/-- apply_map_parser / Move only (tests/char-tests/aliases/apply_map.cpp:75) -/
theorem charAliasesApplyMap_3 : ∀ a ∈ [
    .success (.map (.sequence [Any3, ABC]) (.apply (.user (fMake (tMove (.tup [.span, .span])))))) [120, 97, 98, 99, 100] (.node [(.node [(.text [120]), (.text [97, 98, 99])])]) [100],  -- 75: ASSERT_PARSE_SUCCESS(P, "xabcd", T(std::tuple("x", "abc")), "d")
    .failure (.map (.sequence [Any3, ABC]) (.apply (.user (fMake (tMove (.tup [.span, .span])))))) [121, 100, 99, 98, 97],  -- 76: ASSERT_PARSE_FAILURE(P, "ydcba")
    .success (.map (.sequence [Any3, ABC]) (.apply (.user (fMake (tMove (.tup [.span, .span])))))) [122, 97, 98, 99, 97, 98, 99, 100] (.node [(.node [(.text [122]), (.text [97, 98, 99])])]) [97, 98, 99, 100]  -- 77: ASSERT_PARSE_SUCCESS(P, "zabcabcd", T(std::tuple("z", "abc")), "abcd")
    ], Assertion.Holds a :=
  Assertion.holds_of_check (by decide +kernel)

/-- apply_map_parser / Copy only (tests/char-tests/aliases/apply_map.cpp:105) -/
theorem charAliasesApplyMap_4 : ∀ a ∈ [
    .success (.map (.sequence [Any3, ABC]) (.apply (.user (fMake (tCopy (.tup [.span, .span])))))) [120, 97, 98, 99, 100] (.node [(.node [(.text [120]), (.text [97, 98, 99])])]) [100],  -- 105: ASSERT_PARSE_SUCCESS(P, "xabcd", T(std::tuple("x", "abc")), "d")
    .failure (.map (.sequence [Any3, ABC]) (.apply (.user (fMake (tCopy (.tup [.span, .span])))))) [121, 100, 99, 98, 97],  -- 106: ASSERT_PARSE_FAILURE(P, "ydcba")
    .success (.map (.sequence [Any3, ABC]) (.apply (.user (fMake (tCopy (.tup [.span, .span])))))) [122, 97, 98, 99, 97, 98, 99, 100] (.node [(.node [(.text [122]), (.text [97, 98, 99])])]) [97, 98, 99, 100]  -- 107: ASSERT_PARSE_SUCCESS(P, "zabcabcd", T(std::tuple("z", "abc")), "abcd")
    ], Assertion.Holds a :=
  Assertion.holds_of_check (by decide +kernel)

end Tok3n.Tests
