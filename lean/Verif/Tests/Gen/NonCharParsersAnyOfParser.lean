import Verif.Tests.Gen.SamplesNonChar
/- Generated by tools/tests2lean.py from tests/non-char-tests/parsers/any_of_parser.cpp. -/

namespace Tok3n.Tests.NonChar

/-- any_of_parser / Requirements (tests/non-char-tests/parsers/any_of_parser.cpp:21) -/
theorem nonCharParsersAnyOfParser_1 : ∀ a ∈ [
    .isParser (.anyOf [1]) any_of_family .span,  -- 21: ASSERT_IS_PARSER(Single, value_type, any_of_family, output_span<value_type>)
    .isParser (.anyOf [1, 2, 3]) any_of_family .span  -- 22: ASSERT_IS_PARSER(Multi, value_type, any_of_family, output_span<value_type>)
    ], Assertion.Holds a :=
  Assertion.holds_of_check (by decide +kernel)

/-- any_of_parser / Parse single (tests/non-char-tests/parsers/any_of_parser.cpp:27) -/
theorem nonCharParsersAnyOfParser_2 : ∀ a ∈ [
    .success (.anyOf [1]) [1, 2] (.text [1]) [2],  -- 27: ASSERT_PARSE_SUCCESS(Single, e(A, B), e(A), e(B))
    .failure (.anyOf [1]) [2, 1],  -- 31: ASSERT_PARSE_FAILURE(Single, e(B, A))
    .success (.anyOf [1]) [1, 2, 3] (.text [1]) [2, 3],  -- 33: ASSERT_PARSE_SUCCESS(Single, e(A, B, C), e(A), e(B, C))
    .failure (.anyOf [1]) [10, 1]  -- 34: ASSERT_PARSE_FAILURE(Single, e(Space, A))
    ], Assertion.Holds a :=
  Assertion.holds_of_check (by decide +kernel)

/-- any_of_parser / Parse multi (tests/non-char-tests/parsers/any_of_parser.cpp:39) -/
theorem nonCharParsersAnyOfParser_3 : ∀ a ∈ [
    .success (.anyOf [1, 2, 3]) [1, 2, 3] (.text [1]) [2, 3],  -- 39: ASSERT_PARSE_SUCCESS(Multi, e(A, B, C), e(A), e(B, C))
    .success (.anyOf [1, 2, 3]) [1, 3, 2] (.text [1]) [3, 2],  -- 40: ASSERT_PARSE_SUCCESS(Multi, e(A, C, B), e(A), e(C, B))
    .success (.anyOf [1, 2, 3]) [2, 1, 3] (.text [2]) [1, 3],  -- 41: ASSERT_PARSE_SUCCESS(Multi, e(B, A, C), e(B), e(A, C))
    .success (.anyOf [1, 2, 3]) [2, 3, 1] (.text [2]) [3, 1],  -- 42: ASSERT_PARSE_SUCCESS(Multi, e(B, C, A), e(B), e(C, A))
    .success (.anyOf [1, 2, 3]) [3, 1, 2] (.text [3]) [1, 2],  -- 43: ASSERT_PARSE_SUCCESS(Multi, e(C, A, B), e(C), e(A, B))
    .success (.anyOf [1, 2, 3]) [3, 2, 1] (.text [3]) [2, 1],  -- 44: ASSERT_PARSE_SUCCESS(Multi, e(C, B, A), e(C), e(B, A))
    .failure (.anyOf [1, 2, 3]) [5, 6, 7],  -- 45: ASSERT_PARSE_FAILURE(Multi, e(X, Y, Z))
    .failure (.anyOf [1, 2, 3]) [5, 7, 6],  -- 46: ASSERT_PARSE_FAILURE(Multi, e(X, Z, Y))
    .failure (.anyOf [1, 2, 3]) [6, 5, 7],  -- 47: ASSERT_PARSE_FAILURE(Multi, e(Y, X, Z))
    .failure (.anyOf [1, 2, 3]) [6, 7, 5],  -- 48: ASSERT_PARSE_FAILURE(Multi, e(Y, Z, X))
    .failure (.anyOf [1, 2, 3]) [7, 5, 6],  -- 49: ASSERT_PARSE_FAILURE(Multi, e(Z, X, Y))
    .failure (.anyOf [1, 2, 3]) [7, 6, 5]  -- 50: ASSERT_PARSE_FAILURE(Multi, e(Z, Y, X))
    ], Assertion.Holds a :=
  Assertion.holds_of_check (by decide +kernel)

/-- any_of_parser / Constructible from lexicographically sorted only (tests/non-char-tests/parsers/any_of_parser.cpp:63) -/
theorem nonCharParsersAnyOfParser_4 : ∀ a ∈ [
    .isWf (.anyOf [1, 2, 3]),  -- 63: ASSERT_BASIC_PARSER_CONSTRUCTIBLE(any_of_parser, static_array(A, B, C))
    .notWf (.anyOf [1, 3, 2]),  -- 65: ASSERT_BASIC_PARSER_NOT_CONSTRUCTIBLE(any_of_parser, static_array(A, C, B))
    .notWf (.anyOf [2, 1, 3]),  -- 66: ASSERT_BASIC_PARSER_NOT_CONSTRUCTIBLE(any_of_parser, static_array(B, A, C))
    .notWf (.anyOf [2, 3, 1]),  -- 67: ASSERT_BASIC_PARSER_NOT_CONSTRUCTIBLE(any_of_parser, static_array(B, C, A))
    .notWf (.anyOf [3, 1, 2]),  -- 68: ASSERT_BASIC_PARSER_NOT_CONSTRUCTIBLE(any_of_parser, static_array(C, A, B))
    .notWf (.anyOf [3, 2, 1])  -- 69: ASSERT_BASIC_PARSER_NOT_CONSTRUCTIBLE(any_of_parser, static_array(C, B, A))
    ], Assertion.Holds a :=
  Assertion.holds_of_check (by decide +kernel)

/-- any_of_parser / Parse (tests/non-char-tests/parsers/any_of_parser.cpp:76) -/
theorem nonCharParsersAnyOfParser_5 : ∀ a ∈ [
    .failure (.anyOf []) [1, 2, 3],  -- 76: ASSERT_PARSE_FAILURE(any_of_parser <(static_array<value_type, 0>{})>, e(A, B, C))
    .failure (.anyOf []) []  -- 77: ASSERT_PARSE_FAILURE(any_of_parser <(static_array<value_type, 0>{})>, e())
    ], Assertion.Holds a :=
  Assertion.holds_of_check (by decide +kernel)

end Tok3n.Tests.NonChar
