import Verif.Tests.Gen.SamplesChar
/- Generated by tools/tests2lean.py from tests/char-tests/parsers/epsilon_parser.cpp. -/

namespace Tok3n.Tests

/-- epsilon_parser / Requirements (tests/char-tests/parsers/epsilon_parser.cpp:16) -/
theorem charParsersEpsilonParser_1 : ∀ a ∈ [
    .isParser Eps1 epsilon_family .void  -- 16: ASSERT_IS_PARSER(Eps1, char, epsilon_family, void)
    ], Assertion.Holds a :=
  Assertion.holds_of_check (by decide +kernel)

/-- epsilon_parser / Parse (tests/char-tests/parsers/epsilon_parser.cpp:23) -/
theorem charParsersEpsilonParser_2 : ∀ a ∈ [
    .successVoid Eps1 [97, 98] [97, 98],  -- 23: ASSERT_PARSE_SUCCESS_VOID(Eps1, "ab", "ab")
    .successVoid Eps1 [98, 97] [98, 97],  -- 24: ASSERT_PARSE_SUCCESS_VOID(Eps1, "ba", "ba")
    .successVoid Eps1 [97, 98, 99] [97, 98, 99],  -- 25: ASSERT_PARSE_SUCCESS_VOID(Eps1, "abc", "abc")
    .successVoid Eps1 [65, 98] [65, 98],  -- 26: ASSERT_PARSE_SUCCESS_VOID(Eps1, "Ab", "Ab")
    .successVoid Eps1 [65, 98, 99] [65, 98, 99],  -- 27: ASSERT_PARSE_SUCCESS_VOID(Eps1, "Abc", "Abc")
    .successVoid Eps1 [32, 97, 98, 99] [32, 97, 98, 99],  -- 28: ASSERT_PARSE_SUCCESS_VOID(Eps1, " abc", " abc")
    .successVoid Eps1 [] []  -- 29: ASSERT_PARSE_SUCCESS_VOID(Eps1, "", "")
    ], Assertion.Holds a :=
  Assertion.holds_of_check (by decide +kernel)

/-- epsilon_parser / choice_parser<P, epsilon_parser> (tests/char-tests/parsers/epsilon_parser.cpp:53) -/
theorem charParsersEpsilonParser_3 : ∀ a ∈ [
    .isParser (get (tOrEps (lAny [43, 45]))) choice_family .span,  -- 53: ASSERT_IS_PARSER(P, char, choice_family, output_span<char>)
    .success (get (tOrEps (lAny [43, 45]))) [43, 97, 98, 99] (.text [43]) [97, 98, 99],  -- 54: ASSERT_PARSE_SUCCESS(P, "+abc", "+", "abc")
    .success (get (tOrEps (lAny [43, 45]))) [43, 43, 97, 98, 99] (.text [43]) [43, 97, 98, 99],  -- 55: ASSERT_PARSE_SUCCESS(P, "++abc", "+", "+abc")
    .success (get (tOrEps (lAny [43, 45]))) [45, 97, 98, 99] (.text [45]) [97, 98, 99],  -- 56: ASSERT_PARSE_SUCCESS(P, "-abc", "-", "abc")
    .success (get (tOrEps (lAny [43, 45]))) [45, 45, 97, 98, 99] (.text [45]) [45, 97, 98, 99],  -- 57: ASSERT_PARSE_SUCCESS(P, "--abc", "-", "-abc")
    .success (get (tOrEps (lAny [43, 45]))) [97, 98, 99] (.text []) [97, 98, 99]  -- 58: ASSERT_PARSE_SUCCESS(P, "abc", "", "abc")
    ], Assertion.Holds a :=
  Assertion.holds_of_check (by decide +kernel)

end Tok3n.Tests
