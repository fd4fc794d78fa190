import Verif.Tests.Gen.SamplesNonChar
/- Generated by tools/tests2lean.py from tests/non-char-tests/parsers/epsilon_parser.cpp. -/

namespace Tok3n.Tests.NonChar

/-- epsilon_parser / Requirements (tests/non-char-tests/parsers/epsilon_parser.cpp:16) -/
theorem nonCharParsersEpsilonParser_1 : ∀ a ∈ [
    .isParser Eps1 epsilon_family .void  -- 16: ASSERT_IS_PARSER(Eps1, value_type, epsilon_family, void)
    ], Assertion.Holds a :=
  Assertion.holds_of_check (by decide +kernel)

/-- epsilon_parser / Parse (tests/non-char-tests/parsers/epsilon_parser.cpp:21) -/
theorem nonCharParsersEpsilonParser_2 : ∀ a ∈ [
    .successVoid Eps1 [1, 2, 3] [1, 2, 3],  -- 21: ASSERT_PARSE_SUCCESS_VOID(Eps1, e(A, B, C), e(A, B, C))
    .successVoid Eps1 [1, 3, 2] [1, 3, 2],  -- 22: ASSERT_PARSE_SUCCESS_VOID(Eps1, e(A, C, B), e(A, C, B))
    .successVoid Eps1 [2, 1, 3] [2, 1, 3],  -- 23: ASSERT_PARSE_SUCCESS_VOID(Eps1, e(B, A, C), e(B, A, C))
    .successVoid Eps1 [2, 3, 1] [2, 3, 1],  -- 24: ASSERT_PARSE_SUCCESS_VOID(Eps1, e(B, C, A), e(B, C, A))
    .successVoid Eps1 [3, 1, 2] [3, 1, 2],  -- 25: ASSERT_PARSE_SUCCESS_VOID(Eps1, e(C, A, B), e(C, A, B))
    .successVoid Eps1 [3, 2, 1] [3, 2, 1],  -- 26: ASSERT_PARSE_SUCCESS_VOID(Eps1, e(C, B, A), e(C, B, A))
    .successVoid Eps1 [5, 6, 7] [5, 6, 7],  -- 27: ASSERT_PARSE_SUCCESS_VOID(Eps1, e(X, Y, Z), e(X, Y, Z))
    .successVoid Eps1 [5, 7, 6] [5, 7, 6],  -- 28: ASSERT_PARSE_SUCCESS_VOID(Eps1, e(X, Z, Y), e(X, Z, Y))
    .successVoid Eps1 [6, 5, 7] [6, 5, 7],  -- 29: ASSERT_PARSE_SUCCESS_VOID(Eps1, e(Y, X, Z), e(Y, X, Z))
    .successVoid Eps1 [6, 7, 5] [6, 7, 5],  -- 30: ASSERT_PARSE_SUCCESS_VOID(Eps1, e(Y, Z, X), e(Y, Z, X))
    .successVoid Eps1 [7, 5, 6] [7, 5, 6],  -- 31: ASSERT_PARSE_SUCCESS_VOID(Eps1, e(Z, X, Y), e(Z, X, Y))
    .successVoid Eps1 [7, 6, 5] [7, 6, 5],  -- 32: ASSERT_PARSE_SUCCESS_VOID(Eps1, e(Z, Y, X), e(Z, Y, X))
    .successVoid Eps1 [] []  -- 33: ASSERT_PARSE_SUCCESS_VOID(Eps1, e(), e())
    ], Assertion.Holds a :=
  Assertion.holds_of_check (by decide +kernel)

end Tok3n.Tests.NonChar
