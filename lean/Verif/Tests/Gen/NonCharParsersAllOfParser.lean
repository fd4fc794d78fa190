import Verif.Tests.Gen.SamplesNonChar
/- Generated by tools/tests2lean.py from tests/non-char-tests/parsers/all_of_parser.cpp. -/

namespace Tok3n.Tests.NonChar

/-- all_of_parser / Requirements (tests/non-char-tests/parsers/all_of_parser.cpp:16) -/
theorem nonCharParsersAllOfParser_1 : ∀ a ∈ [
    .isParser (.allOf [5, 6, 7]) all_of_family .span  -- 16: ASSERT_IS_PARSER(L, value_type, all_of_family, output_span<value_type>)
    ], Assertion.Holds a :=
  Assertion.holds_of_check (by decide +kernel)

/-- all_of_parser / Parse (tests/non-char-tests/parsers/all_of_parser.cpp:21) -/
theorem nonCharParsersAllOfParser_2 : ∀ a ∈ [
    .success (.allOf [5, 6, 7]) [5, 6, 7] (.text [5, 6, 7]) [],  -- 21: ASSERT_PARSE_SUCCESS(L, e(X, Y, Z), e(X, Y, Z), e())
    .success (.allOf [5, 6, 7]) [5, 6, 7, 1, 2] (.text [5, 6, 7]) [1, 2],  -- 22: ASSERT_PARSE_SUCCESS(L, e(X, Y, Z, A, B), e(X, Y, Z), e(A, B))
    .failure (.allOf [5, 6, 7]) [5, 6],  -- 23: ASSERT_PARSE_FAILURE(L, e(X, Y))
    .failure (.allOf [5, 6, 7]) [10, 5, 6]  -- 24: ASSERT_PARSE_FAILURE(L, e(Space, X, Y))
    ], Assertion.Holds a :=
  Assertion.holds_of_check (by decide +kernel)

/-- all_of_parser / Parse empty (tests/non-char-tests/parsers/all_of_parser.cpp:31) -/
theorem nonCharParsersAllOfParser_3 : ∀ a ∈ [
    .isWf (.allOf []),  -- 31: ASSERT_BASIC_PARSER_CONSTRUCTIBLE(all_of_parser, e())
    .success (.allOf []) [1, 2, 3] (.text []) [1, 2, 3],  -- 33: ASSERT_PARSE_SUCCESS(all_of_parser <(static_array<value_type, 0>{})>, e(A, B, C), e(), e(A, B, C))
    .success (.allOf []) [] (.text []) []  -- 34: ASSERT_PARSE_SUCCESS(all_of_parser <(static_array<value_type, 0>{})>, e(), e(), e())
    ], Assertion.Holds a :=
  Assertion.holds_of_check (by decide +kernel)

end Tok3n.Tests.NonChar
