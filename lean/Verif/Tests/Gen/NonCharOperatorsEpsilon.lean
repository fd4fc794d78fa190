import Verif.Tests.Gen.SamplesNonChar
/- Generated by tools/tests2lean.py from tests/non-char-tests/operators/epsilon.cpp. -/

namespace Tok3n.Tests.NonChar

/-- epsilon operator / .of<> (tests/non-char-tests/operators/epsilon.cpp:21) -/
theorem nonCharOperatorsEpsilon_1 : ∀ a ∈ [
    .parsersEq (P .epsilon) (P .epsilon)  -- 21: ASSERT_PARSER_VALUES_EQ(eps . of<value_type>, epsilon_parser<value_type>{})
    ], Assertion.Holds a :=
  Assertion.holds_of_check (by decide +kernel)

/-- epsilon operator / P | eps (tests/non-char-tests/operators/epsilon.cpp:26) -/
theorem nonCharOperatorsEpsilon_2 : ∀ a ∈ [
    .parsersEq (tOrEps (P Any1)) (P (.choice [Any1, .epsilon])),  -- 26: ASSERT_PARSER_VALUES_EQ(any1 | eps,(choice_parser<Any1, epsilon_parser<value_type>>{}))
    .parsersEq (tOrEps (P Any2)) (P (.choice [Any2, .epsilon])),  -- 27: ASSERT_PARSER_VALUES_EQ(any2 | eps,(choice_parser<Any2, epsilon_parser<value_type>>{}))
    .parsersEq (tOrEps (P Any3)) (P (.choice [Any3, .epsilon]))  -- 28: ASSERT_PARSER_VALUES_EQ(any3 | eps,(choice_parser<Any3, epsilon_parser<value_type>>{}))
    ], Assertion.Holds a :=
  Assertion.holds_of_check (by decide +kernel)

/-- epsilon operator / eps anything (tests/non-char-tests/operators/epsilon.cpp:52) -/
theorem nonCharOperatorsEpsilon_3 : ∀ a ∈ [
    .isTerm (tOrEps (P Any1)),  -- 52: DEP_ASSERT_BINARY_OPERABLE(|, PP{}, eps, P{}, eps)
    .parsersEq (tOrEps (P Any1)) (tOr (P Any1) (P .epsilon)),  -- 52: DEP_ASSERT_PARSER_VALUES_EQ(PP{} | eps, PP{} | epsilon_parser<::value_type>{}, P{} | eps, P{} | epsilon_parser<::value_type>{})
    .isTerm (tOrEps (P Any2)),  -- 52: DEP_ASSERT_BINARY_OPERABLE(|, PP{}, eps, P{}, eps)
    .parsersEq (tOrEps (P Any2)) (tOr (P Any2) (P .epsilon)),  -- 52: DEP_ASSERT_PARSER_VALUES_EQ(PP{} | eps, PP{} | epsilon_parser<::value_type>{}, P{} | eps, P{} | epsilon_parser<::value_type>{})
    .isTerm (tOrEps (P Any3)),  -- 52: DEP_ASSERT_BINARY_OPERABLE(|, PP{}, eps, P{}, eps)
    .parsersEq (tOrEps (P Any3)) (tOr (P Any3) (P .epsilon)),  -- 52: DEP_ASSERT_PARSER_VALUES_EQ(PP{} | eps, PP{} | epsilon_parser<::value_type>{}, P{} | eps, P{} | epsilon_parser<::value_type>{})
    .isTerm (tOrEps (P Any4)),  -- 52: DEP_ASSERT_BINARY_OPERABLE(|, PP{}, eps, P{}, eps)
    .parsersEq (tOrEps (P Any4)) (tOr (P Any4) (P .epsilon)),  -- 52: DEP_ASSERT_PARSER_VALUES_EQ(PP{} | eps, PP{} | epsilon_parser<::value_type>{}, P{} | eps, P{} | epsilon_parser<::value_type>{})
    .isTerm (tOrEps (P Non1)),  -- 52: DEP_ASSERT_BINARY_OPERABLE(|, PP{}, eps, P{}, eps)
    .parsersEq (tOrEps (P Non1)) (tOr (P Non1) (P .epsilon)),  -- 52: DEP_ASSERT_PARSER_VALUES_EQ(PP{} | eps, PP{} | epsilon_parser<::value_type>{}, P{} | eps, P{} | epsilon_parser<::value_type>{})
    .isTerm (tOrEps (P Non2)),  -- 52: DEP_ASSERT_BINARY_OPERABLE(|, PP{}, eps, P{}, eps)
    .parsersEq (tOrEps (P Non2)) (tOr (P Non2) (P .epsilon)),  -- 52: DEP_ASSERT_PARSER_VALUES_EQ(PP{} | eps, PP{} | epsilon_parser<::value_type>{}, P{} | eps, P{} | epsilon_parser<::value_type>{})
    .isTerm (tOrEps (P Non3)),  -- 52: DEP_ASSERT_BINARY_OPERABLE(|, PP{}, eps, P{}, eps)
    .parsersEq (tOrEps (P Non3)) (tOr (P Non3) (P .epsilon)),  -- 52: DEP_ASSERT_PARSER_VALUES_EQ(PP{} | eps, PP{} | epsilon_parser<::value_type>{}, P{} | eps, P{} | epsilon_parser<::value_type>{})
    .isTerm (tOrEps (P Non4)),  -- 52: DEP_ASSERT_BINARY_OPERABLE(|, PP{}, eps, P{}, eps)
    .parsersEq (tOrEps (P Non4)) (tOr (P Non4) (P .epsilon)),  -- 52: DEP_ASSERT_PARSER_VALUES_EQ(PP{} | eps, PP{} | epsilon_parser<::value_type>{}, P{} | eps, P{} | epsilon_parser<::value_type>{})
    .isTerm (tOrEps (P Non5)),  -- 52: DEP_ASSERT_BINARY_OPERABLE(|, PP{}, eps, P{}, eps)
    .parsersEq (tOrEps (P Non5)) (tOr (P Non5) (P .epsilon)),  -- 52: DEP_ASSERT_PARSER_VALUES_EQ(PP{} | eps, PP{} | epsilon_parser<::value_type>{}, P{} | eps, P{} | epsilon_parser<::value_type>{})
    .isTerm (tOrEps (P All1)),  -- 52: DEP_ASSERT_BINARY_OPERABLE(|, PP{}, eps, P{}, eps)
    .parsersEq (tOrEps (P All1)) (tOr (P All1) (P .epsilon)),  -- 52: DEP_ASSERT_PARSER_VALUES_EQ(PP{} | eps, PP{} | epsilon_parser<::value_type>{}, P{} | eps, P{} | epsilon_parser<::value_type>{})
    .isTerm (tOrEps (P All2)),  -- 52: DEP_ASSERT_BINARY_OPERABLE(|, PP{}, eps, P{}, eps)
    .parsersEq (tOrEps (P All2)) (tOr (P All2) (P .epsilon)),  -- 52: DEP_ASSERT_PARSER_VALUES_EQ(PP{} | eps, PP{} | epsilon_parser<::value_type>{}, P{} | eps, P{} | epsilon_parser<::value_type>{})
    .isTerm (tOrEps (P All3)),  -- 52: DEP_ASSERT_BINARY_OPERABLE(|, PP{}, eps, P{}, eps)
    .parsersEq (tOrEps (P All3)) (tOr (P All3) (P .epsilon)),  -- 52: DEP_ASSERT_PARSER_VALUES_EQ(PP{} | eps, PP{} | epsilon_parser<::value_type>{}, P{} | eps, P{} | epsilon_parser<::value_type>{})
    .isTerm (tOrEps (P Eps1)),  -- 52: DEP_ASSERT_BINARY_OPERABLE(|, PP{}, eps, P{}, eps)
    .parsersEq (tOrEps (P Eps1)) (tOr (P Eps1) (P .epsilon)),  -- 52: DEP_ASSERT_PARSER_VALUES_EQ(PP{} | eps, PP{} | epsilon_parser<::value_type>{}, P{} | eps, P{} | epsilon_parser<::value_type>{})
    .isTerm (tOrEps (P Ant1)),  -- 52: DEP_ASSERT_BINARY_OPERABLE(|, PP{}, eps, P{}, eps)
    .parsersEq (tOrEps (P Ant1)) (tOr (P Ant1) (P .epsilon)),  -- 52: DEP_ASSERT_PARSER_VALUES_EQ(PP{} | eps, PP{} | epsilon_parser<::value_type>{}, P{} | eps, P{} | epsilon_parser<::value_type>{})
    .isTerm (tOrEps (P QQ)),  -- 52: DEP_ASSERT_BINARY_OPERABLE(|, PP{}, eps, P{}, eps)
    .parsersEq (tOrEps (P QQ)) (tOr (P QQ) (P .epsilon)),  -- 52: DEP_ASSERT_PARSER_VALUES_EQ(PP{} | eps, PP{} | epsilon_parser<::value_type>{}, P{} | eps, P{} | epsilon_parser<::value_type>{})
    .isTerm (tOrEps (P ABC)),  -- 52: DEP_ASSERT_BINARY_OPERABLE(|, PP{}, eps, P{}, eps)
    .parsersEq (tOrEps (P ABC)) (tOr (P ABC) (P .epsilon)),  -- 52: DEP_ASSERT_PARSER_VALUES_EQ(PP{} | eps, PP{} | epsilon_parser<::value_type>{}, P{} | eps, P{} | epsilon_parser<::value_type>{})
    .isTerm (tOrEps (P Comma)),  -- 52: DEP_ASSERT_BINARY_OPERABLE(|, PP{}, eps, P{}, eps)
    .parsersEq (tOrEps (P Comma)) (tOr (P Comma) (P .epsilon)),  -- 52: DEP_ASSERT_PARSER_VALUES_EQ(PP{} | eps, PP{} | epsilon_parser<::value_type>{}, P{} | eps, P{} | epsilon_parser<::value_type>{})
    .isTerm (tOrEps (P SpaceDot)),  -- 52: DEP_ASSERT_BINARY_OPERABLE(|, PP{}, eps, P{}, eps)
    .parsersEq (tOrEps (P SpaceDot)) (tOr (P SpaceDot) (P .epsilon))  -- 52: DEP_ASSERT_PARSER_VALUES_EQ(PP{} | eps, PP{} | epsilon_parser<::value_type>{}, P{} | eps, P{} | epsilon_parser<::value_type>{})
    ], Assertion.Holds a :=
  Assertion.holds_of_check (by decide +kernel)

end Tok3n.Tests.NonChar
