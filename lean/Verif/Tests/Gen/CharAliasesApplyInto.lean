import Verif.Tests.Gen.SamplesChar
/- Generated by tools/tests2lean.py from tests/char-tests/aliases/apply_into.cpp. -/

namespace Tok3n.Tests

/-- apply_into_parser / Requirements (tests/char-tests/aliases/apply_into.cpp:17) -/
theorem charAliasesApplyInto_1 : ∀ a ∈ [
    .isParser Api1 map_family tClass2,  -- 17: ASSERT_IS_PARSER(Api1, char, map_family, Class2)
    .isParser Api2 map_family tClass5  -- 18: ASSERT_IS_PARSER(Api2, char, map_family, Class5)
    ], Assertion.Holds a :=
  Assertion.holds_of_check (by decide +kernel)

/-- apply_into_parser / Parse all (tests/char-tests/aliases/apply_into.cpp:29) -/
theorem charAliasesApplyInto_2 : ∀ a ∈ [
    .success Api1 [97, 98, 99, 46] (.node [(.text [97, 98, 99]), (.text [46])]) [],  -- 29: ASSERT_PARSE_SUCCESS(Api1, "abc.", Class2("abc", "."), "")
    .success Api1 [97, 98, 99, 32, 46, 32] (.node [(.text [97, 98, 99]), (.text [32])]) [46, 32],  -- 30: ASSERT_PARSE_SUCCESS(Api1, "abc . ", Class2("abc", " "), ". ")
    .failure Api1 [],  -- 31: ASSERT_PARSE_FAILURE(Api1, "")
    .failure Api1 [97, 98, 99],  -- 32: ASSERT_PARSE_FAILURE(Api1, "abc")
    .success Api2 [46, 97, 98, 99] (.node [(.text [46]), (.text [97, 98, 99])]) [],  -- 34: ASSERT_PARSE_SUCCESS(Api2, ".abc", Class5(".", "abc"), "")
    .success Api2 [32, 97, 98, 99, 46, 32] (.node [(.text [32]), (.text [97, 98, 99])]) [46, 32],  -- 35: ASSERT_PARSE_SUCCESS(Api2, " abc. ", Class5(" ", "abc"), ". ")
    .failure Api2 [46],  -- 36: ASSERT_PARSE_FAILURE(Api2, ".")
    .failure Api2 [97, 98, 99]  -- 37: ASSERT_PARSE_FAILURE(Api2, "abc")
    ], Assertion.Holds a :=
  Assertion.holds_of_check (by decide +kernel)

/-- apply_into_parser / Move only (tests/char-tests/aliases/apply_into.cpp:66) -/
theorem charAliasesApplyInto_3 : ∀ a ∈ [
    .success (.map (.sequence [Any3, ABC]) (.apply (.construct (tMove (.tup [.span, .span]))))) [120, 97, 98, 99, 100] (.node [(.node [(.text [120]), (.text [97, 98, 99])])]) [100],  -- 66: ASSERT_PARSE_SUCCESS(P, "xabcd", T(std::tuple("x", "abc")), "d")
    .failure (.map (.sequence [Any3, ABC]) (.apply (.construct (tMove (.tup [.span, .span]))))) [121, 100, 99, 98, 97],  -- 67: ASSERT_PARSE_FAILURE(P, "ydcba")
    .success (.map (.sequence [Any3, ABC]) (.apply (.construct (tMove (.tup [.span, .span]))))) [122, 97, 98, 99, 97, 98, 99, 100] (.node [(.node [(.text [122]), (.text [97, 98, 99])])]) [97, 98, 99, 100]  -- 68: ASSERT_PARSE_SUCCESS(P, "zabcabcd", T(std::tuple("z", "abc")), "abcd")
    ], Assertion.Holds a :=
  Assertion.holds_of_check (by decide +kernel)

/-- apply_into_parser / Copy only (tests/char-tests/aliases/apply_into.cpp:96) -/
theorem charAliasesApplyInto_4 : ∀ a ∈ [
    .success (.map (.sequence [Any3, ABC]) (.apply (.construct (tCopy (.tup [.span, .span]))))) [120, 97, 98, 99, 100] (.node [(.node [(.text [120]), (.text [97, 98, 99])])]) [100],  -- 96: ASSERT_PARSE_SUCCESS(P, "xabcd", T(std::tuple("x", "abc")), "d")
    .failure (.map (.sequence [Any3, ABC]) (.apply (.construct (tCopy (.tup [.span, .span]))))) [121, 100, 99, 98, 97],  -- 97: ASSERT_PARSE_FAILURE(P, "ydcba")
    .success (.map (.sequence [Any3, ABC]) (.apply (.construct (tCopy (.tup [.span, .span]))))) [122, 97, 98, 99, 97, 98, 99, 100] (.node [(.node [(.text [122]), (.text [97, 98, 99])])]) [97, 98, 99, 100]  -- 98: ASSERT_PARSE_SUCCESS(P, "zabcabcd", T(std::tuple("z", "abc")), "abcd")
    ], Assertion.Holds a :=
  Assertion.holds_of_check (by decide +kernel)

end Tok3n.Tests
