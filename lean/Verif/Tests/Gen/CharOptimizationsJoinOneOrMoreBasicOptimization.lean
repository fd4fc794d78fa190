import Verif.Tests.Gen.SamplesChar
/- Generated by tools/tests2lean.py from tests/char-tests/optimizations/join_one_or_more_basic_optimization.cpp. -/

namespace Tok3n.Tests

/-- join_one_or_more_basic / Requirements (tests/char-tests/optimizations/join_one_or_more_basic_optimization.cpp:22) -/
theorem charOptimizationsJoinOneOrMoreBasicOptimization_1 : ∀ a ∈ [
    .isParser (.join (.oneOrMore (.anyOf [49, 50, 51]))) join_family .span,  -- 22: ASSERT_IS_PARSER(Joi_Oom_OC, char, join_family, output_span<char>)
    .isParser (.join (.oneOrMore (.noneOf [49, 50, 51]))) join_family .span,  -- 23: ASSERT_IS_PARSER(Joi_Oom_NC, char, join_family, output_span<char>)
    .isParser (.join (.oneOrMore (.allOf [49, 50, 51]))) join_family .span  -- 24: ASSERT_IS_PARSER(Joi_Oom_L, char, join_family, output_span<char>)
    ], Assertion.Holds a :=
  Assertion.holds_of_check (by decide +kernel)

/-- join_one_or_more_basic / one_or_more_parser<any_of_parser> (tests/char-tests/optimizations/join_one_or_more_basic_optimization.cpp:37) -/
theorem charOptimizationsJoinOneOrMoreBasicOptimization_2 : ∀ a ∈ [
    .success (.join (.oneOrMore (.anyOf [49, 50, 51]))) [49, 50, 51, 50, 49, 51, 50, 49] (.text [49, 50, 51, 50, 49, 51, 50, 49]) [],  -- 37: ASSERT_PARSE_SUCCESS(Joi_Oom_OC, "12321321", "12321321", "")
    .success (.join (.oneOrMore (.anyOf [49, 50, 51]))) [49, 50, 51, 50, 32, 49, 51, 50, 49] (.text [49, 50, 51, 50]) [32, 49, 51, 50, 49],  -- 38: ASSERT_PARSE_SUCCESS(Joi_Oom_OC, "1232 1321", "1232", " 1321")
    .failure (.join (.oneOrMore (.anyOf [49, 50, 51]))) [32, 49, 50, 51, 50, 49, 51, 50, 49],  -- 39: ASSERT_PARSE_FAILURE(Joi_Oom_OC, " 12321321")
    .success (.join (.oneOrMore (.anyOf [49, 50, 51]))) [49, 50, 51, 52, 49, 51, 50, 49] (.text [49, 50, 51]) [52, 49, 51, 50, 49],  -- 40: ASSERT_PARSE_SUCCESS(Joi_Oom_OC, "12341321", "123", "41321")
    .failure (.join (.oneOrMore (.anyOf [49, 50, 51]))) [48, 49, 50, 51, 52, 49, 51, 50, 49]  -- 41: ASSERT_PARSE_FAILURE(Joi_Oom_OC, "012341321")
    ], Assertion.Holds a :=
  Assertion.holds_of_check (by decide +kernel)

/-- join_one_or_more_basic / one_or_more_parser<none_of_parser> (tests/char-tests/optimizations/join_one_or_more_basic_optimization.cpp:58) -/
theorem charOptimizationsJoinOneOrMoreBasicOptimization_3 : ∀ a ∈ [
    .failure (.join (.oneOrMore (.noneOf [49, 50, 51]))) [49, 50, 51, 50, 49, 51, 50, 49],  -- 58: ASSERT_PARSE_FAILURE(Joi_Oom_NC, "12321321")
    .failure (.join (.oneOrMore (.noneOf [49, 50, 51]))) [49, 50, 51, 50, 32, 49, 51, 50, 49],  -- 59: ASSERT_PARSE_FAILURE(Joi_Oom_NC, "1232 1321")
    .success (.join (.oneOrMore (.noneOf [49, 50, 51]))) [32, 49, 50, 51, 50, 49, 51, 50, 49] (.text [32]) [49, 50, 51, 50, 49, 51, 50, 49],  -- 60: ASSERT_PARSE_SUCCESS(Joi_Oom_NC, " 12321321", " ", "12321321")
    .failure (.join (.oneOrMore (.noneOf [49, 50, 51]))) [49, 50, 51, 52, 49, 51, 50, 49],  -- 61: ASSERT_PARSE_FAILURE(Joi_Oom_NC, "12341321")
    .success (.join (.oneOrMore (.noneOf [49, 50, 51]))) [48, 49, 50, 51, 52, 49, 51, 50, 49] (.text [48]) [49, 50, 51, 52, 49, 51, 50, 49]  -- 62: ASSERT_PARSE_SUCCESS(Joi_Oom_NC, "012341321", "0", "12341321")
    ], Assertion.Holds a :=
  Assertion.holds_of_check (by decide +kernel)

/-- join_one_or_more_basic / one_or_more_parser<all_of_parser> (tests/char-tests/optimizations/join_one_or_more_basic_optimization.cpp:79) -/
theorem charOptimizationsJoinOneOrMoreBasicOptimization_4 : ∀ a ∈ [
    .success (.join (.oneOrMore (.allOf [49, 50, 51]))) [49, 50, 51, 50, 49, 51, 50, 49] (.text [49, 50, 51]) [50, 49, 51, 50, 49],  -- 79: ASSERT_PARSE_SUCCESS(Joi_Oom_L, "12321321", "123", "21321")
    .success (.join (.oneOrMore (.allOf [49, 50, 51]))) [49, 50, 51, 49, 50, 51, 50, 49, 51, 50, 49] (.text [49, 50, 51, 49, 50, 51]) [50, 49, 51, 50, 49],  -- 80: ASSERT_PARSE_SUCCESS(Joi_Oom_L, "12312321321", "123123", "21321")
    .success (.join (.oneOrMore (.allOf [49, 50, 51]))) [49, 50, 51, 50, 32, 49, 51, 50, 49] (.text [49, 50, 51]) [50, 32, 49, 51, 50, 49],  -- 81: ASSERT_PARSE_SUCCESS(Joi_Oom_L, "1232 1321", "123", "2 1321")
    .failure (.join (.oneOrMore (.allOf [49, 50, 51]))) [32, 49, 50, 51, 50, 49, 51, 50, 49],  -- 82: ASSERT_PARSE_FAILURE(Joi_Oom_L, " 12321321")
    .success (.join (.oneOrMore (.allOf [49, 50, 51]))) [49, 50, 51, 52, 49, 51, 50, 49] (.text [49, 50, 51]) [52, 49, 51, 50, 49],  -- 83: ASSERT_PARSE_SUCCESS(Joi_Oom_L, "12341321", "123", "41321")
    .failure (.join (.oneOrMore (.allOf [49, 50, 51]))) [48, 49, 50, 51, 52, 49, 51, 50, 49]  -- 84: ASSERT_PARSE_FAILURE(Joi_Oom_L, "012341321")
    ], Assertion.Holds a :=
  Assertion.holds_of_check (by decide +kernel)

end Tok3n.Tests
