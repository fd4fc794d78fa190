import Verif.Tests.Gen.SamplesChar
/- Generated by tools/tests2lean.py from tests/char-tests/optimizations/join_exactly_basic_optimization.cpp. -/

namespace Tok3n.Tests

/-- join_exactly_basic / Requirements (tests/char-tests/optimizations/join_exactly_basic_optimization.cpp:22) -/
theorem charOptimizationsJoinExactlyBasicOptimization_1 : ∀ a ∈ [
    .isParser (.join (.exactly (.anyOf [49, 50, 51]) 2)) join_family .span,  -- 22: ASSERT_IS_PARSER(Joi_Exa_OC, char, join_family, output_span<char>)
    .isParser (.join (.exactly (.noneOf [49, 50, 51]) 2)) join_family .span,  -- 23: ASSERT_IS_PARSER(Joi_Exa_NC, char, join_family, output_span<char>)
    .isParser (.join (.exactly (.allOf [49, 50, 51]) 2)) join_family .span  -- 24: ASSERT_IS_PARSER(Joi_Exa_L, char, join_family, output_span<char>)
    ], Assertion.Holds a :=
  Assertion.holds_of_check (by decide +kernel)

/-- join_exactly_basic / exactly_parser<any_of_parser, 2> (tests/char-tests/optimizations/join_exactly_basic_optimization.cpp:37) -/
theorem charOptimizationsJoinExactlyBasicOptimization_2 : ∀ a ∈ [
    .success (.join (.exactly (.anyOf [49, 50, 51]) 2)) [49, 50, 51, 50, 49, 51, 50, 49] (.text [49, 50]) [51, 50, 49, 51, 50, 49],  -- 37: ASSERT_PARSE_SUCCESS(Joi_Exa_OC, "12321321", "12", "321321")
    .success (.join (.exactly (.anyOf [49, 50, 51]) 2)) [49, 50, 51, 50, 32, 49, 51, 50, 49] (.text [49, 50]) [51, 50, 32, 49, 51, 50, 49],  -- 38: ASSERT_PARSE_SUCCESS(Joi_Exa_OC, "1232 1321", "12", "32 1321")
    .failure (.join (.exactly (.anyOf [49, 50, 51]) 2)) [32, 49, 50, 51, 50, 49, 51, 50, 49],  -- 39: ASSERT_PARSE_FAILURE(Joi_Exa_OC, " 12321321")
    .success (.join (.exactly (.anyOf [49, 50, 51]) 2)) [49, 50, 51, 52, 49, 51, 50, 49] (.text [49, 50]) [51, 52, 49, 51, 50, 49],  -- 40: ASSERT_PARSE_SUCCESS(Joi_Exa_OC, "12341321", "12", "341321")
    .failure (.join (.exactly (.anyOf [49, 50, 51]) 2)) [48, 49, 50, 51, 52, 49, 51, 50, 49],  -- 41: ASSERT_PARSE_FAILURE(Joi_Exa_OC, "012341321")
    .failure (.join (.exactly (.anyOf [49, 50, 51]) 2)) [48, 48, 49, 50, 51, 52, 49, 51, 50, 49],  -- 42: ASSERT_PARSE_FAILURE(Joi_Exa_OC, "0012341321")
    .failure (.join (.exactly (.anyOf [49, 50, 51]) 2)) [49, 48, 49, 50, 51, 52, 49, 51, 50, 49]  -- 43: ASSERT_PARSE_FAILURE(Joi_Exa_OC, "1012341321")
    ], Assertion.Holds a :=
  Assertion.holds_of_check (by decide +kernel)

/-- join_exactly_basic / exactly_parser<none_of_parser, 2> (tests/char-tests/optimizations/join_exactly_basic_optimization.cpp:64) -/
theorem charOptimizationsJoinExactlyBasicOptimization_3 : ∀ a ∈ [
    .failure (.join (.exactly (.noneOf [49, 50, 51]) 2)) [49, 50, 51, 50, 49, 51, 50, 49],  -- 64: ASSERT_PARSE_FAILURE(Joi_Exa_NC, "12321321")
    .failure (.join (.exactly (.noneOf [49, 50, 51]) 2)) [49, 50, 51, 50, 32, 49, 51, 50, 49],  -- 65: ASSERT_PARSE_FAILURE(Joi_Exa_NC, "1232 1321")
    .failure (.join (.exactly (.noneOf [49, 50, 51]) 2)) [32, 49, 50, 51, 50, 49, 51, 50, 49],  -- 66: ASSERT_PARSE_FAILURE(Joi_Exa_NC, " 12321321")
    .failure (.join (.exactly (.noneOf [49, 50, 51]) 2)) [49, 50, 51, 52, 49, 51, 50, 49],  -- 67: ASSERT_PARSE_FAILURE(Joi_Exa_NC, "12341321")
    .failure (.join (.exactly (.noneOf [49, 50, 51]) 2)) [48, 49, 50, 51, 52, 49, 51, 50, 49],  -- 68: ASSERT_PARSE_FAILURE(Joi_Exa_NC, "012341321")
    .success (.join (.exactly (.noneOf [49, 50, 51]) 2)) [48, 48, 49, 50, 51, 52, 49, 51, 50, 49] (.text [48, 48]) [49, 50, 51, 52, 49, 51, 50, 49],  -- 69: ASSERT_PARSE_SUCCESS(Joi_Exa_NC, "0012341321", "00", "12341321")
    .failure (.join (.exactly (.noneOf [49, 50, 51]) 2)) [49, 48, 49, 50, 51, 52, 49, 51, 50, 49]  -- 70: ASSERT_PARSE_FAILURE(Joi_Exa_NC, "1012341321")
    ], Assertion.Holds a :=
  Assertion.holds_of_check (by decide +kernel)

/-- join_exactly_basic / exactly_parser<all_of_parser, 2> (tests/char-tests/optimizations/join_exactly_basic_optimization.cpp:91) -/
theorem charOptimizationsJoinExactlyBasicOptimization_4 : ∀ a ∈ [
    .failure (.join (.exactly (.allOf [49, 50, 51]) 2)) [49, 50, 51, 50, 49, 51, 50, 49],  -- 91: ASSERT_PARSE_FAILURE(Joi_Exa_L, "12321321")
    .success (.join (.exactly (.allOf [49, 50, 51]) 2)) [49, 50, 51, 49, 50, 51, 50, 49, 51, 50, 49] (.text [49, 50, 51, 49, 50, 51]) [50, 49, 51, 50, 49],  -- 92: ASSERT_PARSE_SUCCESS(Joi_Exa_L, "12312321321", "123123", "21321")
    .failure (.join (.exactly (.allOf [49, 50, 51]) 2)) [49, 50, 51, 50, 32, 49, 51, 50, 49],  -- 93: ASSERT_PARSE_FAILURE(Joi_Exa_L, "1232 1321")
    .failure (.join (.exactly (.allOf [49, 50, 51]) 2)) [32, 49, 50, 51, 50, 49, 51, 50, 49],  -- 94: ASSERT_PARSE_FAILURE(Joi_Exa_L, " 12321321")
    .failure (.join (.exactly (.allOf [49, 50, 51]) 2)) [49, 50, 51, 52, 49, 51, 50, 49],  -- 95: ASSERT_PARSE_FAILURE(Joi_Exa_L, "12341321")
    .failure (.join (.exactly (.allOf [49, 50, 51]) 2)) [48, 49, 50, 51, 52, 49, 51, 50, 49]  -- 96: ASSERT_PARSE_FAILURE(Joi_Exa_L, "012341321")
    ], Assertion.Holds a :=
  Assertion.holds_of_check (by decide +kernel)

end Tok3n.Tests
