import Verif.Tests.Gen.SamplesChar
/- Generated by tools/tests2lean.py from tests/char-tests/parsers/custom_parser.cpp. -/

namespace Tok3n.Tests

/-- custom_parser / Requirements (tests/char-tests/parsers/custom_parser.cpp:17) -/
theorem charParsersCustomParser_1 : ∀ a ∈ [
    .isParser (.custom 0) custom_family tSize,  -- 17: ASSERT_IS_PARSER(Cus1, char, custom_family, std::size_t)
    .isParser (.custom 1) custom_family tSize  -- 18: ASSERT_IS_PARSER(Cus2, char, custom_family, std::size_t)
    ], Assertion.Holds a :=
  Assertion.holds_of_check (by decide +kernel)

/-- custom_parser / Parse Cus1 (tests/char-tests/parsers/custom_parser.cpp:29) -/
theorem charParsersCustomParser_2 : ∀ a ∈ [
    .success (.custom 0) [97, 98, 99, 97, 98, 99, 97, 98, 99, 97, 98, 99, 63, 63] (.num 36) [],  -- 29: ASSERT_PARSE_SUCCESS(Cus1, "abcabcabcabc??", 36, "")
    .success (.custom 0) [97, 98, 99, 97, 98, 99, 97, 98, 99, 97, 98, 99] (.num 12) [],  -- 30: ASSERT_PARSE_SUCCESS(Cus1, "abcabcabcabc", 12, "")
    .success (.custom 0) [97, 98, 99, 97, 98, 99, 97, 98, 99, 97, 98, 99, 32, 63, 63] (.num 12) [32, 63, 63],  -- 31: ASSERT_PARSE_SUCCESS(Cus1, "abcabcabcabc ??", 12, " ??")
    .success (.custom 0) [97, 98, 99] (.num 3) [],  -- 32: ASSERT_PARSE_SUCCESS(Cus1, "abc", 3, "")
    .failure (.custom 0) [32, 97, 98, 99],  -- 33: ASSERT_PARSE_FAILURE(Cus1, " abc")
    .failure (.custom 0) []  -- 34: ASSERT_PARSE_FAILURE(Cus1, "")
    ], Assertion.Holds a :=
  Assertion.holds_of_check (by decide +kernel)

/-- custom_parser / Parse Cus2 (tests/char-tests/parsers/custom_parser.cpp:53) -/
theorem charParsersCustomParser_3 : ∀ a ∈ [
    .success (.custom 1) [97, 98, 99] (.num 0) [98, 99],  -- 53: ASSERT_PARSE_SUCCESS(Cus2, "abc", 0, "bc")
    .success (.custom 1) [98, 99, 97] (.num 0) [99, 97],  -- 54: ASSERT_PARSE_SUCCESS(Cus2, "bca", 0, "ca")
    .success (.custom 1) [99, 97, 98] (.num 0) [97, 98],  -- 55: ASSERT_PARSE_SUCCESS(Cus2, "cab", 0, "ab")
    .failure (.custom 1) [120, 121, 122],  -- 56: ASSERT_PARSE_FAILURE(Cus2, "xyz")
    .failure (.custom 1) []  -- 57: ASSERT_PARSE_FAILURE(Cus2, "")
    ], Assertion.Holds a :=
  Assertion.holds_of_check (by decide +kernel)

end Tok3n.Tests
