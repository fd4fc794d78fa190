import Verif.Tests.Gen.SamplesChar
/- Generated by tools/tests2lean.py from tests/char-tests/aliases/into.cpp. -/

namespace Tok3n.Tests

/-- into_parser / Requirements (tests/char-tests/aliases/into.cpp:18) -/
theorem charAliasesInto_1 : ∀ a ∈ [
    .isParser Int1 map_family tClass1,  -- 18: ASSERT_IS_PARSER(Int1, char, map_family, Class1)
    .isParser Int2 map_family tClass2,  -- 19: ASSERT_IS_PARSER(Int2, char, map_family, Class2)
    .isParser Int3 map_family tClass2  -- 20: ASSERT_IS_PARSER(Int3, char, map_family, Class2)
    ], Assertion.Holds a :=
  Assertion.holds_of_check (by decide +kernel)

/-- into_parser / Parse all (tests/char-tests/aliases/into.cpp:33) -/
theorem charAliasesInto_2 : ∀ a ∈ [
    .success Int1 [32] (.num 0) [],  -- 33: ASSERT_PARSE_SUCCESS(Int1, " ", Class1(0), "")
    .failure Int1 [97],  -- 34: ASSERT_PARSE_FAILURE(Int1, "a")
    .success Int1 [46] (.num 1) [],  -- 35: ASSERT_PARSE_SUCCESS(Int1, ".", Class1(1), "")
    .failure Int1 [],  -- 36: ASSERT_PARSE_FAILURE(Int1, "")
    .success Int2 [97, 98, 99, 46] (.node [(.text [97, 98, 99]), (.text [46])]) [],  -- 38: ASSERT_PARSE_SUCCESS(Int2, "abc.", Class2("abc", "."), "")
    .success Int2 [97, 98, 99, 32, 46, 32] (.node [(.text [97, 98, 99]), (.text [32])]) [46, 32],  -- 39: ASSERT_PARSE_SUCCESS(Int2, "abc . ", Class2("abc", " "), ". ")
    .failure Int2 [],  -- 40: ASSERT_PARSE_FAILURE(Int2, "")
    .failure Int2 [97, 98, 99],  -- 41: ASSERT_PARSE_FAILURE(Int2, "abc")
    .success Int3 [97, 98, 99, 46] (.node [(.text [97, 98, 99]), (.text [46])]) [],  -- 43: ASSERT_PARSE_SUCCESS(Int3, "abc.", Class2("abc", "."), "")
    .success Int3 [97, 98, 99, 32, 46, 32] (.node [(.text [97, 98, 99]), (.text [32])]) [46, 32],  -- 44: ASSERT_PARSE_SUCCESS(Int3, "abc . ", Class2("abc", " "), ". ")
    .failure Int3 [],  -- 45: ASSERT_PARSE_FAILURE(Int3, "")
    .failure Int3 [97, 98, 99]  -- 46: ASSERT_PARSE_FAILURE(Int3, "abc")
    ], Assertion.Holds a :=
  Assertion.holds_of_check (by decide +kernel)

/-- into_parser / Move only (tests/char-tests/aliases/into.cpp:84) -/
theorem charAliasesInto_3 : ∀ a ∈ [
    .success (.map ABC (.construct (tMove .span))) [97, 98, 99, 100] (.node [(.text [97, 98, 99])]) [100],  -- 84: ASSERT_PARSE_SUCCESS(P, "abcd", T("abc"), "d")
    .failure (.map ABC (.construct (tMove .span))) [100, 99, 98, 97],  -- 85: ASSERT_PARSE_FAILURE(P, "dcba")
    .success (.map ABC (.construct (tMove .span))) [97, 98, 99, 97, 98, 99, 100] (.node [(.text [97, 98, 99])]) [97, 98, 99, 100]  -- 86: ASSERT_PARSE_SUCCESS(P, "abcabcd", T("abc"), "abcd")
    ], Assertion.Holds a :=
  Assertion.holds_of_check (by decide +kernel)

/-- into_parser / Copy only (tests/char-tests/aliases/into.cpp:111) -/
theorem charAliasesInto_4 : ∀ a ∈ [
    .success (.map ABC (.construct (tCopy .span))) [97, 98, 99, 100] (.node [(.text [97, 98, 99])]) [100],  -- 111: ASSERT_PARSE_SUCCESS(P, "abcd", T("abc"), "d")
    .failure (.map ABC (.construct (tCopy .span))) [100, 99, 98, 97],  -- 112: ASSERT_PARSE_FAILURE(P, "dcba")
    .success (.map ABC (.construct (tCopy .span))) [97, 98, 99, 97, 98, 99, 100] (.node [(.text [97, 98, 99])]) [97, 98, 99, 100]  -- 113: ASSERT_PARSE_SUCCESS(P, "abcabcd", T("abc"), "abcd")
    ], Assertion.Holds a :=
  Assertion.holds_of_check (by decide +kernel)

end Tok3n.Tests
