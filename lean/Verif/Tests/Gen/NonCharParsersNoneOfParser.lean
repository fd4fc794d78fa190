import Verif.Tests.Gen.SamplesNonChar
/- Generated by tools/tests2lean.py from tests/non-char-tests/parsers/none_of_parser.cpp. -/

namespace Tok3n.Tests.NonChar

/-- none_of_parser / Requirements (tests/non-char-tests/parsers/none_of_parser.cpp:21) -/
theorem nonCharParsersNoneOfParser_1 : ∀ a ∈ [
    .isParser (.noneOf [1]) none_of_family .span,  -- 21: ASSERT_IS_PARSER(Single, value_type, none_of_family, output_span<value_type>)
    .isParser (.noneOf [1, 2, 3]) none_of_family .span  -- 22: ASSERT_IS_PARSER(Multi, value_type, none_of_family, output_span<value_type>)
    ], Assertion.Holds a :=
  Assertion.holds_of_check (by decide +kernel)

/-- none_of_parser / Parse single (tests/non-char-tests/parsers/none_of_parser.cpp:27) -/
theorem nonCharParsersNoneOfParser_2 : ∀ a ∈ [
    .failure (.noneOf [1]) [1, 2],  -- 27: ASSERT_PARSE_FAILURE(Single, e(A, B))
    .success (.noneOf [1]) [2, 1] (.text [2]) [1],  -- 31: ASSERT_PARSE_SUCCESS(Single, e(B, A), e(B), e(A))
    .failure (.noneOf [1]) [1, 2, 3],  -- 33: ASSERT_PARSE_FAILURE(Single, e(A, B, C))
    .success (.noneOf [1]) [10, 1] (.text [10]) [1]  -- 34: ASSERT_PARSE_SUCCESS(Single, e(Space, A), e(Space), e(A))
    ], Assertion.Holds a :=
  Assertion.holds_of_check (by decide +kernel)

/-- none_of_parser / Parse multi (tests/non-char-tests/parsers/none_of_parser.cpp:39) -/
theorem nonCharParsersNoneOfParser_3 : ∀ a ∈ [
    .failure (.noneOf [1, 2, 3]) [1, 2, 3],  -- 39: ASSERT_PARSE_FAILURE(Multi, e(A, B, C))
    .failure (.noneOf [1, 2, 3]) [1, 3, 2],  -- 40: ASSERT_PARSE_FAILURE(Multi, e(A, C, B))
    .failure (.noneOf [1, 2, 3]) [2, 1, 3],  -- 41: ASSERT_PARSE_FAILURE(Multi, e(B, A, C))
    .failure (.noneOf [1, 2, 3]) [2, 3, 1],  -- 42: ASSERT_PARSE_FAILURE(Multi, e(B, C, A))
    .failure (.noneOf [1, 2, 3]) [3, 1, 2],  -- 43: ASSERT_PARSE_FAILURE(Multi, e(C, A, B))
    .failure (.noneOf [1, 2, 3]) [3, 2, 1],  -- 44: ASSERT_PARSE_FAILURE(Multi, e(C, B, A))
    .success (.noneOf [1, 2, 3]) [5, 6, 7] (.text [5]) [6, 7],  -- 45: ASSERT_PARSE_SUCCESS(Multi, e(X, Y, Z), e(X), e(Y, Z))
    .success (.noneOf [1, 2, 3]) [5, 7, 6] (.text [5]) [7, 6],  -- 46: ASSERT_PARSE_SUCCESS(Multi, e(X, Z, Y), e(X), e(Z, Y))
    .success (.noneOf [1, 2, 3]) [6, 5, 7] (.text [6]) [5, 7],  -- 47: ASSERT_PARSE_SUCCESS(Multi, e(Y, X, Z), e(Y), e(X, Z))
    .success (.noneOf [1, 2, 3]) [6, 7, 5] (.text [6]) [7, 5],  -- 48: ASSERT_PARSE_SUCCESS(Multi, e(Y, Z, X), e(Y), e(Z, X))
    .success (.noneOf [1, 2, 3]) [7, 5, 6] (.text [7]) [5, 6],  -- 49: ASSERT_PARSE_SUCCESS(Multi, e(Z, X, Y), e(Z), e(X, Y))
    .success (.noneOf [1, 2, 3]) [7, 6, 5] (.text [7]) [6, 5]  -- 50: ASSERT_PARSE_SUCCESS(Multi, e(Z, Y, X), e(Z), e(Y, X))
    ], Assertion.Holds a :=
  Assertion.holds_of_check (by decide +kernel)

/-- none_of_parser / Constructible from lexicographically sorted only (tests/non-char-tests/parsers/none_of_parser.cpp:63) -/
theorem nonCharParsersNoneOfParser_4 : ∀ a ∈ [
    .isWf (.noneOf [1, 2, 3]),  -- 63: ASSERT_BASIC_PARSER_CONSTRUCTIBLE(none_of_parser, static_array(A, B, C))
    .notWf (.noneOf [1, 3, 2]),  -- 65: ASSERT_BASIC_PARSER_NOT_CONSTRUCTIBLE(none_of_parser, static_array(A, C, B))
    .notWf (.noneOf [2, 1, 3]),  -- 66: ASSERT_BASIC_PARSER_NOT_CONSTRUCTIBLE(none_of_parser, static_array(B, A, C))
    .notWf (.noneOf [2, 3, 1]),  -- 67: ASSERT_BASIC_PARSER_NOT_CONSTRUCTIBLE(none_of_parser, static_array(B, C, A))
    .notWf (.noneOf [3, 1, 2]),  -- 68: ASSERT_BASIC_PARSER_NOT_CONSTRUCTIBLE(none_of_parser, static_array(C, A, B))
    .notWf (.noneOf [3, 2, 1])  -- 69: ASSERT_BASIC_PARSER_NOT_CONSTRUCTIBLE(none_of_parser, static_array(C, B, A))
    ], Assertion.Holds a :=
  Assertion.holds_of_check (by decide +kernel)

/-- none_of_parser / Parse empty (tests/non-char-tests/parsers/none_of_parser.cpp:76) -/
theorem nonCharParsersNoneOfParser_5 : ∀ a ∈ [
    .success (.noneOf []) [1, 2, 3] (.text [1]) [2, 3],  -- 76: ASSERT_PARSE_SUCCESS(none_of_parser <(static_array<value_type, 0>{})>, e(A, B, C), e(A), e(B, C))
    .failure (.noneOf []) []  -- 77: ASSERT_PARSE_FAILURE(none_of_parser <(static_array<value_type, 0>{})>, e())
    ], Assertion.Holds a :=
  Assertion.holds_of_check (by decide +kernel)

end Tok3n.Tests.NonChar
