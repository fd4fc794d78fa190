import Verif.Tests.Gen.SamplesNonChar
/- Generated by tools/tests2lean.py from tests/non-char-tests/parsers/anything_parser.cpp. -/

namespace Tok3n.Tests.NonChar

/-- anything_parser / Requirements (tests/non-char-tests/parsers/anything_parser.cpp:16) -/
theorem nonCharParsersAnythingParser_1 : ∀ a ∈ [
    .isParser Ant1 anything_family .span  -- 16: ASSERT_IS_PARSER(Ant1, value_type, anything_family, output_span<value_type>)
    ], Assertion.Holds a :=
  Assertion.holds_of_check (by decide +kernel)

/-- anything_parser / Parse (tests/non-char-tests/parsers/anything_parser.cpp:21) -/
theorem nonCharParsersAnythingParser_2 : ∀ a ∈ [
    .success Ant1 [1, 2, 3] (.text [1]) [2, 3],  -- 21: ASSERT_PARSE_SUCCESS(Ant1, e(A, B, C), e(A), e(B, C))
    .success Ant1 [1, 3, 2] (.text [1]) [3, 2],  -- 22: ASSERT_PARSE_SUCCESS(Ant1, e(A, C, B), e(A), e(C, B))
    .success Ant1 [2, 1, 3] (.text [2]) [1, 3],  -- 23: ASSERT_PARSE_SUCCESS(Ant1, e(B, A, C), e(B), e(A, C))
    .success Ant1 [2, 3, 1] (.text [2]) [3, 1],  -- 24: ASSERT_PARSE_SUCCESS(Ant1, e(B, C, A), e(B), e(C, A))
    .success Ant1 [3, 1, 2] (.text [3]) [1, 2],  -- 25: ASSERT_PARSE_SUCCESS(Ant1, e(C, A, B), e(C), e(A, B))
    .success Ant1 [3, 2, 1] (.text [3]) [2, 1],  -- 26: ASSERT_PARSE_SUCCESS(Ant1, e(C, B, A), e(C), e(B, A))
    .success Ant1 [5, 6, 7] (.text [5]) [6, 7],  -- 27: ASSERT_PARSE_SUCCESS(Ant1, e(X, Y, Z), e(X), e(Y, Z))
    .success Ant1 [5, 7, 6] (.text [5]) [7, 6],  -- 28: ASSERT_PARSE_SUCCESS(Ant1, e(X, Z, Y), e(X), e(Z, Y))
    .success Ant1 [6, 5, 7] (.text [6]) [5, 7],  -- 29: ASSERT_PARSE_SUCCESS(Ant1, e(Y, X, Z), e(Y), e(X, Z))
    .success Ant1 [6, 7, 5] (.text [6]) [7, 5],  -- 30: ASSERT_PARSE_SUCCESS(Ant1, e(Y, Z, X), e(Y), e(Z, X))
    .success Ant1 [7, 5, 6] (.text [7]) [5, 6],  -- 31: ASSERT_PARSE_SUCCESS(Ant1, e(Z, X, Y), e(Z), e(X, Y))
    .success Ant1 [7, 6, 5] (.text [7]) [6, 5],  -- 32: ASSERT_PARSE_SUCCESS(Ant1, e(Z, Y, X), e(Z), e(Y, X))
    .failure Ant1 []  -- 33: ASSERT_PARSE_FAILURE(Ant1, e())
    ], Assertion.Holds a :=
  Assertion.holds_of_check (by decide +kernel)

end Tok3n.Tests.NonChar
