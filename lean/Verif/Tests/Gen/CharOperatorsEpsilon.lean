import Verif.Tests.Gen.SamplesChar
/- Generated by tools/tests2lean.py from tests/char-tests/operators/epsilon.cpp. -/

namespace Tok3n.Tests

/-- epsilon operator / .of<> (tests/char-tests/operators/epsilon.cpp:21) -/
theorem charOperatorsEpsilon_1 : ∀ a ∈ [
    .parsersEq (P .epsilon) (P .epsilon)  -- 21: ASSERT_PARSER_VALUES_EQ(eps . of<value_type>, epsilon_parser<value_type>{})
    ], Assertion.Holds a :=
  Assertion.holds_of_check (by decide +kernel)

/-- epsilon operator / P | eps (tests/char-tests/operators/epsilon.cpp:26) -/
theorem charOperatorsEpsilon_2 : ∀ a ∈ [
    .parsersEq (tOrEps (P Any1)) (P (.choice [Any1, .epsilon])),  -- 26: ASSERT_PARSER_VALUES_EQ(any1 | eps,(choice_parser<Any1, epsilon_parser<value_type>>{}))
    .parsersEq (tOrEps (P Any2)) (P (.choice [Any2, .epsilon])),  -- 27: ASSERT_PARSER_VALUES_EQ(any2 | eps,(choice_parser<Any2, epsilon_parser<value_type>>{}))
    .parsersEq (tOrEps (P Any3)) (P (.choice [Any3, .epsilon]))  -- 28: ASSERT_PARSER_VALUES_EQ(any3 | eps,(choice_parser<Any3, epsilon_parser<value_type>>{}))
    ], Assertion.Holds a :=
  Assertion.holds_of_check (by decide +kernel)

/-- epsilon operator / eps anything (tests/char-tests/operators/epsilon.cpp:52) -/
theorem charOperatorsEpsilon_3_1 : ∀ a ∈ [
    .isTerm (tOrEps (P Ign1)),  -- 52: DEP_ASSERT_BINARY_OPERABLE(|, PP{}, eps, P{}, eps)
    .parsersEq (tOrEps (P Ign1)) (tOr (P Ign1) (P .epsilon)),  -- 52: DEP_ASSERT_PARSER_VALUES_EQ(PP{} | eps, PP{} | epsilon_parser<::value_type>{}, P{} | eps, P{} | epsilon_parser<::value_type>{})
    .isTerm (tOrEps (P Ign2)),  -- 52: DEP_ASSERT_BINARY_OPERABLE(|, PP{}, eps, P{}, eps)
    .parsersEq (tOrEps (P Ign2)) (tOr (P Ign2) (P .epsilon)),  -- 52: DEP_ASSERT_PARSER_VALUES_EQ(PP{} | eps, PP{} | epsilon_parser<::value_type>{}, P{} | eps, P{} | epsilon_parser<::value_type>{})
    .isTerm (tOrEps (P Ign3)),  -- 52: DEP_ASSERT_BINARY_OPERABLE(|, PP{}, eps, P{}, eps)
    .parsersEq (tOrEps (P Ign3)) (tOr (P Ign3) (P .epsilon)),  -- 52: DEP_ASSERT_PARSER_VALUES_EQ(PP{} | eps, PP{} | epsilon_parser<::value_type>{}, P{} | eps, P{} | epsilon_parser<::value_type>{})
    .isTerm (tOrEps (P Ign4)),  -- 52: DEP_ASSERT_BINARY_OPERABLE(|, PP{}, eps, P{}, eps)
    .parsersEq (tOrEps (P Ign4)) (tOr (P Ign4) (P .epsilon)),  -- 52: DEP_ASSERT_PARSER_VALUES_EQ(PP{} | eps, PP{} | epsilon_parser<::value_type>{}, P{} | eps, P{} | epsilon_parser<::value_type>{})
    .isTerm (tOrEps (P Ign5)),  -- 52: DEP_ASSERT_BINARY_OPERABLE(|, PP{}, eps, P{}, eps)
    .parsersEq (tOrEps (P Ign5)) (tOr (P Ign5) (P .epsilon)),  -- 52: DEP_ASSERT_PARSER_VALUES_EQ(PP{} | eps, PP{} | epsilon_parser<::value_type>{}, P{} | eps, P{} | epsilon_parser<::value_type>{})
    .isTerm (tOrEps (P Com1)),  -- 52: DEP_ASSERT_BINARY_OPERABLE(|, PP{}, eps, P{}, eps)
    .parsersEq (tOrEps (P Com1)) (tOr (P Com1) (P .epsilon)),  -- 52: DEP_ASSERT_PARSER_VALUES_EQ(PP{} | eps, PP{} | epsilon_parser<::value_type>{}, P{} | eps, P{} | epsilon_parser<::value_type>{})
    .isTerm (tOrEps (P Com2)),  -- 52: DEP_ASSERT_BINARY_OPERABLE(|, PP{}, eps, P{}, eps)
    .parsersEq (tOrEps (P Com2)) (tOr (P Com2) (P .epsilon)),  -- 52: DEP_ASSERT_PARSER_VALUES_EQ(PP{} | eps, PP{} | epsilon_parser<::value_type>{}, P{} | eps, P{} | epsilon_parser<::value_type>{})
    .isTerm (tOrEps (P Com3)),  -- 52: DEP_ASSERT_BINARY_OPERABLE(|, PP{}, eps, P{}, eps)
    .parsersEq (tOrEps (P Com3)) (tOr (P Com3) (P .epsilon)),  -- 52: DEP_ASSERT_PARSER_VALUES_EQ(PP{} | eps, PP{} | epsilon_parser<::value_type>{}, P{} | eps, P{} | epsilon_parser<::value_type>{})
    .isTerm (tOrEps (P Com4)),  -- 52: DEP_ASSERT_BINARY_OPERABLE(|, PP{}, eps, P{}, eps)
    .parsersEq (tOrEps (P Com4)) (tOr (P Com4) (P .epsilon)),  -- 52: DEP_ASSERT_PARSER_VALUES_EQ(PP{} | eps, PP{} | epsilon_parser<::value_type>{}, P{} | eps, P{} | epsilon_parser<::value_type>{})
    .isTerm (tOrEps (P Com5)),  -- 52: DEP_ASSERT_BINARY_OPERABLE(|, PP{}, eps, P{}, eps)
    .parsersEq (tOrEps (P Com5)) (tOr (P Com5) (P .epsilon)),  -- 52: DEP_ASSERT_PARSER_VALUES_EQ(PP{} | eps, PP{} | epsilon_parser<::value_type>{}, P{} | eps, P{} | epsilon_parser<::value_type>{})
    .isTerm (tOrEps (P Com6)),  -- 52: DEP_ASSERT_BINARY_OPERABLE(|, PP{}, eps, P{}, eps)
    .parsersEq (tOrEps (P Com6)) (tOr (P Com6) (P .epsilon)),  -- 52: DEP_ASSERT_PARSER_VALUES_EQ(PP{} | eps, PP{} | epsilon_parser<::value_type>{}, P{} | eps, P{} | epsilon_parser<::value_type>{})
    .isTerm (tOrEps (P Com7)),  -- 52: DEP_ASSERT_BINARY_OPERABLE(|, PP{}, eps, P{}, eps)
    .parsersEq (tOrEps (P Com7)) (tOr (P Com7) (P .epsilon)),  -- 52: DEP_ASSERT_PARSER_VALUES_EQ(PP{} | eps, PP{} | epsilon_parser<::value_type>{}, P{} | eps, P{} | epsilon_parser<::value_type>{})
    .isTerm (tOrEps (P Nam1)),  -- 52: DEP_ASSERT_BINARY_OPERABLE(|, PP{}, eps, P{}, eps)
    .parsersEq (tOrEps (P Nam1)) (tOr (P Nam1) (P .epsilon)),  -- 52: DEP_ASSERT_PARSER_VALUES_EQ(PP{} | eps, PP{} | epsilon_parser<::value_type>{}, P{} | eps, P{} | epsilon_parser<::value_type>{})
    .isTerm (tOrEps (P Nam2)),  -- 52: DEP_ASSERT_BINARY_OPERABLE(|, PP{}, eps, P{}, eps)
    .parsersEq (tOrEps (P Nam2)) (tOr (P Nam2) (P .epsilon)),  -- 52: DEP_ASSERT_PARSER_VALUES_EQ(PP{} | eps, PP{} | epsilon_parser<::value_type>{}, P{} | eps, P{} | epsilon_parser<::value_type>{})
    .isTerm (tOrEps (P Nam3)),  -- 52: DEP_ASSERT_BINARY_OPERABLE(|, PP{}, eps, P{}, eps)
    .parsersEq (tOrEps (P Nam3)) (tOr (P Nam3) (P .epsilon)),  -- 52: DEP_ASSERT_PARSER_VALUES_EQ(PP{} | eps, PP{} | epsilon_parser<::value_type>{}, P{} | eps, P{} | epsilon_parser<::value_type>{})
    .isTerm (tOrEps (P Nam4)),  -- 52: DEP_ASSERT_BINARY_OPERABLE(|, PP{}, eps, P{}, eps)
    .parsersEq (tOrEps (P Nam4)) (tOr (P Nam4) (P .epsilon)),  -- 52: DEP_ASSERT_PARSER_VALUES_EQ(PP{} | eps, PP{} | epsilon_parser<::value_type>{}, P{} | eps, P{} | epsilon_parser<::value_type>{})
    .isTerm (tOrEps (P Any1)),  -- 52: DEP_ASSERT_BINARY_OPERABLE(|, PP{}, eps, P{}, eps)
    .parsersEq (tOrEps (P Any1)) (tOr (P Any1) (P .epsilon)),  -- 52: DEP_ASSERT_PARSER_VALUES_EQ(PP{} | eps, PP{} | epsilon_parser<::value_type>{}, P{} | eps, P{} | epsilon_parser<::value_type>{})
    .isTerm (tOrEps (P Any2)),  -- 52: DEP_ASSERT_BINARY_OPERABLE(|, PP{}, eps, P{}, eps)
    .parsersEq (tOrEps (P Any2)) (tOr (P Any2) (P .epsilon)),  -- 52: DEP_ASSERT_PARSER_VALUES_EQ(PP{} | eps, PP{} | epsilon_parser<::value_type>{}, P{} | eps, P{} | epsilon_parser<::value_type>{})
    .isTerm (tOrEps (P Any3)),  -- 52: DEP_ASSERT_BINARY_OPERABLE(|, PP{}, eps, P{}, eps)
    .parsersEq (tOrEps (P Any3)) (tOr (P Any3) (P .epsilon)),  -- 52: DEP_ASSERT_PARSER_VALUES_EQ(PP{} | eps, PP{} | epsilon_parser<::value_type>{}, P{} | eps, P{} | epsilon_parser<::value_type>{})
    .isTerm (tOrEps (P Any4)),  -- 52: DEP_ASSERT_BINARY_OPERABLE(|, PP{}, eps, P{}, eps)
    .parsersEq (tOrEps (P Any4)) (tOr (P Any4) (P .epsilon)),  -- 52: DEP_ASSERT_PARSER_VALUES_EQ(PP{} | eps, PP{} | epsilon_parser<::value_type>{}, P{} | eps, P{} | epsilon_parser<::value_type>{})
    .isTerm (tOrEps (P Non1)),  -- 52: DEP_ASSERT_BINARY_OPERABLE(|, PP{}, eps, P{}, eps)
    .parsersEq (tOrEps (P Non1)) (tOr (P Non1) (P .epsilon)),  -- 52: DEP_ASSERT_PARSER_VALUES_EQ(PP{} | eps, PP{} | epsilon_parser<::value_type>{}, P{} | eps, P{} | epsilon_parser<::value_type>{})
    .isTerm (tOrEps (P Non2)),  -- 52: DEP_ASSERT_BINARY_OPERABLE(|, PP{}, eps, P{}, eps)
    .parsersEq (tOrEps (P Non2)) (tOr (P Non2) (P .epsilon)),  -- 52: DEP_ASSERT_PARSER_VALUES_EQ(PP{} | eps, PP{} | epsilon_parser<::value_type>{}, P{} | eps, P{} | epsilon_parser<::value_type>{})
    .isTerm (tOrEps (P Non3)),  -- 52: DEP_ASSERT_BINARY_OPERABLE(|, PP{}, eps, P{}, eps)
    .parsersEq (tOrEps (P Non3)) (tOr (P Non3) (P .epsilon)),  -- 52: DEP_ASSERT_PARSER_VALUES_EQ(PP{} | eps, PP{} | epsilon_parser<::value_type>{}, P{} | eps, P{} | epsilon_parser<::value_type>{})
    .isTerm (tOrEps (P Non4)),  -- 52: DEP_ASSERT_BINARY_OPERABLE(|, PP{}, eps, P{}, eps)
    .parsersEq (tOrEps (P Non4)) (tOr (P Non4) (P .epsilon)),  -- 52: DEP_ASSERT_PARSER_VALUES_EQ(PP{} | eps, PP{} | epsilon_parser<::value_type>{}, P{} | eps, P{} | epsilon_parser<::value_type>{})
    .isTerm (tOrEps (P Non5)),  -- 52: DEP_ASSERT_BINARY_OPERABLE(|, PP{}, eps, P{}, eps)
    .parsersEq (tOrEps (P Non5)) (tOr (P Non5) (P .epsilon)),  -- 52: DEP_ASSERT_PARSER_VALUES_EQ(PP{} | eps, PP{} | epsilon_parser<::value_type>{}, P{} | eps, P{} | epsilon_parser<::value_type>{})
    .isTerm (tOrEps (P All1)),  -- 52: DEP_ASSERT_BINARY_OPERABLE(|, PP{}, eps, P{}, eps)
    .parsersEq (tOrEps (P All1)) (tOr (P All1) (P .epsilon)),  -- 52: DEP_ASSERT_PARSER_VALUES_EQ(PP{} | eps, PP{} | epsilon_parser<::value_type>{}, P{} | eps, P{} | epsilon_parser<::value_type>{})
    .isTerm (tOrEps (P All2)),  -- 52: DEP_ASSERT_BINARY_OPERABLE(|, PP{}, eps, P{}, eps)
    .parsersEq (tOrEps (P All2)) (tOr (P All2) (P .epsilon)),  -- 52: DEP_ASSERT_PARSER_VALUES_EQ(PP{} | eps, PP{} | epsilon_parser<::value_type>{}, P{} | eps, P{} | epsilon_parser<::value_type>{})
    .isTerm (tOrEps (P All3)),  -- 52: DEP_ASSERT_BINARY_OPERABLE(|, PP{}, eps, P{}, eps)
    .parsersEq (tOrEps (P All3)) (tOr (P All3) (P .epsilon)),  -- 52: DEP_ASSERT_PARSER_VALUES_EQ(PP{} | eps, PP{} | epsilon_parser<::value_type>{}, P{} | eps, P{} | epsilon_parser<::value_type>{})
    .isTerm (tOrEps (P All4)),  -- 52: DEP_ASSERT_BINARY_OPERABLE(|, PP{}, eps, P{}, eps)
    .parsersEq (tOrEps (P All4)) (tOr (P All4) (P .epsilon)),  -- 52: DEP_ASSERT_PARSER_VALUES_EQ(PP{} | eps, PP{} | epsilon_parser<::value_type>{}, P{} | eps, P{} | epsilon_parser<::value_type>{})
    .isTerm (tOrEps (P Eps1)),  -- 52: DEP_ASSERT_BINARY_OPERABLE(|, PP{}, eps, P{}, eps)
    .parsersEq (tOrEps (P Eps1)) (tOr (P Eps1) (P .epsilon))  -- 52: DEP_ASSERT_PARSER_VALUES_EQ(PP{} | eps, PP{} | epsilon_parser<::value_type>{}, P{} | eps, P{} | epsilon_parser<::value_type>{})
    ], Assertion.Holds a :=
  Assertion.holds_of_check (by decide +kernel)

/-- epsilon operator / eps anything (tests/char-tests/operators/epsilon.cpp:52) -/
theorem charOperatorsEpsilon_3_2 : ∀ a ∈ [
    .isTerm (tOrEps (P Ant1)),  -- 52: DEP_ASSERT_BINARY_OPERABLE(|, PP{}, eps, P{}, eps)
    .parsersEq (tOrEps (P Ant1)) (tOr (P Ant1) (P .epsilon)),  -- 52: DEP_ASSERT_PARSER_VALUES_EQ(PP{} | eps, PP{} | epsilon_parser<::value_type>{}, P{} | eps, P{} | epsilon_parser<::value_type>{})
    .isTerm (tOrEps (P QQ)),  -- 52: DEP_ASSERT_BINARY_OPERABLE(|, PP{}, eps, P{}, eps)
    .parsersEq (tOrEps (P QQ)) (tOr (P QQ) (P .epsilon)),  -- 52: DEP_ASSERT_PARSER_VALUES_EQ(PP{} | eps, PP{} | epsilon_parser<::value_type>{}, P{} | eps, P{} | epsilon_parser<::value_type>{})
    .isTerm (tOrEps (P ABC)),  -- 52: DEP_ASSERT_BINARY_OPERABLE(|, PP{}, eps, P{}, eps)
    .parsersEq (tOrEps (P ABC)) (tOr (P ABC) (P .epsilon)),  -- 52: DEP_ASSERT_PARSER_VALUES_EQ(PP{} | eps, PP{} | epsilon_parser<::value_type>{}, P{} | eps, P{} | epsilon_parser<::value_type>{})
    .isTerm (tOrEps (P Comma)),  -- 52: DEP_ASSERT_BINARY_OPERABLE(|, PP{}, eps, P{}, eps)
    .parsersEq (tOrEps (P Comma)) (tOr (P Comma) (P .epsilon)),  -- 52: DEP_ASSERT_PARSER_VALUES_EQ(PP{} | eps, PP{} | epsilon_parser<::value_type>{}, P{} | eps, P{} | epsilon_parser<::value_type>{})
    .isTerm (tOrEps (P SpaceDot)),  -- 52: DEP_ASSERT_BINARY_OPERABLE(|, PP{}, eps, P{}, eps)
    .parsersEq (tOrEps (P SpaceDot)) (tOr (P SpaceDot) (P .epsilon)),  -- 52: DEP_ASSERT_PARSER_VALUES_EQ(PP{} | eps, PP{} | epsilon_parser<::value_type>{}, P{} | eps, P{} | epsilon_parser<::value_type>{})
    .isTerm (tOrEps (P Cho1)),  -- 52: DEP_ASSERT_BINARY_OPERABLE(|, PP{}, eps, P{}, eps)
    .parsersEq (tOrEps (P Cho1)) (tOr (P Cho1) (P .epsilon)),  -- 52: DEP_ASSERT_PARSER_VALUES_EQ(PP{} | eps, PP{} | epsilon_parser<::value_type>{}, P{} | eps, P{} | epsilon_parser<::value_type>{})
    .isTerm (tOrEps (P Cho2)),  -- 52: DEP_ASSERT_BINARY_OPERABLE(|, PP{}, eps, P{}, eps)
    .parsersEq (tOrEps (P Cho2)) (tOr (P Cho2) (P .epsilon)),  -- 52: DEP_ASSERT_PARSER_VALUES_EQ(PP{} | eps, PP{} | epsilon_parser<::value_type>{}, P{} | eps, P{} | epsilon_parser<::value_type>{})
    .isTerm (tOrEps (P Cho3)),  -- 52: DEP_ASSERT_BINARY_OPERABLE(|, PP{}, eps, P{}, eps)
    .parsersEq (tOrEps (P Cho3)) (tOr (P Cho3) (P .epsilon)),  -- 52: DEP_ASSERT_PARSER_VALUES_EQ(PP{} | eps, PP{} | epsilon_parser<::value_type>{}, P{} | eps, P{} | epsilon_parser<::value_type>{})
    .isTerm (tOrEps (P Cho4)),  -- 52: DEP_ASSERT_BINARY_OPERABLE(|, PP{}, eps, P{}, eps)
    .parsersEq (tOrEps (P Cho4)) (tOr (P Cho4) (P .epsilon)),  -- 52: DEP_ASSERT_PARSER_VALUES_EQ(PP{} | eps, PP{} | epsilon_parser<::value_type>{}, P{} | eps, P{} | epsilon_parser<::value_type>{})
    .isTerm (tOrEps (P Cho5)),  -- 52: DEP_ASSERT_BINARY_OPERABLE(|, PP{}, eps, P{}, eps)
    .parsersEq (tOrEps (P Cho5)) (tOr (P Cho5) (P .epsilon)),  -- 52: DEP_ASSERT_PARSER_VALUES_EQ(PP{} | eps, PP{} | epsilon_parser<::value_type>{}, P{} | eps, P{} | epsilon_parser<::value_type>{})
    .isTerm (tOrEps (P Seq1)),  -- 52: DEP_ASSERT_BINARY_OPERABLE(|, PP{}, eps, P{}, eps)
    .parsersEq (tOrEps (P Seq1)) (tOr (P Seq1) (P .epsilon)),  -- 52: DEP_ASSERT_PARSER_VALUES_EQ(PP{} | eps, PP{} | epsilon_parser<::value_type>{}, P{} | eps, P{} | epsilon_parser<::value_type>{})
    .isTerm (tOrEps (P Seq2)),  -- 52: DEP_ASSERT_BINARY_OPERABLE(|, PP{}, eps, P{}, eps)
    .parsersEq (tOrEps (P Seq2)) (tOr (P Seq2) (P .epsilon)),  -- 52: DEP_ASSERT_PARSER_VALUES_EQ(PP{} | eps, PP{} | epsilon_parser<::value_type>{}, P{} | eps, P{} | epsilon_parser<::value_type>{})
    .isTerm (tOrEps (P Seq3)),  -- 52: DEP_ASSERT_BINARY_OPERABLE(|, PP{}, eps, P{}, eps)
    .parsersEq (tOrEps (P Seq3)) (tOr (P Seq3) (P .epsilon)),  -- 52: DEP_ASSERT_PARSER_VALUES_EQ(PP{} | eps, PP{} | epsilon_parser<::value_type>{}, P{} | eps, P{} | epsilon_parser<::value_type>{})
    .isTerm (tOrEps (P Seq4)),  -- 52: DEP_ASSERT_BINARY_OPERABLE(|, PP{}, eps, P{}, eps)
    .parsersEq (tOrEps (P Seq4)) (tOr (P Seq4) (P .epsilon)),  -- 52: DEP_ASSERT_PARSER_VALUES_EQ(PP{} | eps, PP{} | epsilon_parser<::value_type>{}, P{} | eps, P{} | epsilon_parser<::value_type>{})
    .isTerm (tOrEps (P Seq5)),  -- 52: DEP_ASSERT_BINARY_OPERABLE(|, PP{}, eps, P{}, eps)
    .parsersEq (tOrEps (P Seq5)) (tOr (P Seq5) (P .epsilon)),  -- 52: DEP_ASSERT_PARSER_VALUES_EQ(PP{} | eps, PP{} | epsilon_parser<::value_type>{}, P{} | eps, P{} | epsilon_parser<::value_type>{})
    .isTerm (tOrEps (P Joi1)),  -- 52: DEP_ASSERT_BINARY_OPERABLE(|, PP{}, eps, P{}, eps)
    .parsersEq (tOrEps (P Joi1)) (tOr (P Joi1) (P .epsilon)),  -- 52: DEP_ASSERT_PARSER_VALUES_EQ(PP{} | eps, PP{} | epsilon_parser<::value_type>{}, P{} | eps, P{} | epsilon_parser<::value_type>{})
    .isTerm (tOrEps (P Joi2)),  -- 52: DEP_ASSERT_BINARY_OPERABLE(|, PP{}, eps, P{}, eps)
    .parsersEq (tOrEps (P Joi2)) (tOr (P Joi2) (P .epsilon)),  -- 52: DEP_ASSERT_PARSER_VALUES_EQ(PP{} | eps, PP{} | epsilon_parser<::value_type>{}, P{} | eps, P{} | epsilon_parser<::value_type>{})
    .isTerm (tOrEps (P Joi3)),  -- 52: DEP_ASSERT_BINARY_OPERABLE(|, PP{}, eps, P{}, eps)
    .parsersEq (tOrEps (P Joi3)) (tOr (P Joi3) (P .epsilon)),  -- 52: DEP_ASSERT_PARSER_VALUES_EQ(PP{} | eps, PP{} | epsilon_parser<::value_type>{}, P{} | eps, P{} | epsilon_parser<::value_type>{})
    .isTerm (tOrEps (P Joi4)),  -- 52: DEP_ASSERT_BINARY_OPERABLE(|, PP{}, eps, P{}, eps)
    .parsersEq (tOrEps (P Joi4)) (tOr (P Joi4) (P .epsilon)),  -- 52: DEP_ASSERT_PARSER_VALUES_EQ(PP{} | eps, PP{} | epsilon_parser<::value_type>{}, P{} | eps, P{} | epsilon_parser<::value_type>{})
    .isTerm (tOrEps (P Joi5)),  -- 52: DEP_ASSERT_BINARY_OPERABLE(|, PP{}, eps, P{}, eps)
    .parsersEq (tOrEps (P Joi5)) (tOr (P Joi5) (P .epsilon)),  -- 52: DEP_ASSERT_PARSER_VALUES_EQ(PP{} | eps, PP{} | epsilon_parser<::value_type>{}, P{} | eps, P{} | epsilon_parser<::value_type>{})
    .isTerm (tOrEps (P Map1)),  -- 52: DEP_ASSERT_BINARY_OPERABLE(|, PP{}, eps, P{}, eps)
    .parsersEq (tOrEps (P Map1)) (tOr (P Map1) (P .epsilon)),  -- 52: DEP_ASSERT_PARSER_VALUES_EQ(PP{} | eps, PP{} | epsilon_parser<::value_type>{}, P{} | eps, P{} | epsilon_parser<::value_type>{})
    .isTerm (tOrEps (P Map2)),  -- 52: DEP_ASSERT_BINARY_OPERABLE(|, PP{}, eps, P{}, eps)
    .parsersEq (tOrEps (P Map2)) (tOr (P Map2) (P .epsilon)),  -- 52: DEP_ASSERT_PARSER_VALUES_EQ(PP{} | eps, PP{} | epsilon_parser<::value_type>{}, P{} | eps, P{} | epsilon_parser<::value_type>{})
    .isTerm (tOrEps (P Map3)),  -- 52: DEP_ASSERT_BINARY_OPERABLE(|, PP{}, eps, P{}, eps)
    .parsersEq (tOrEps (P Map3)) (tOr (P Map3) (P .epsilon)),  -- 52: DEP_ASSERT_PARSER_VALUES_EQ(PP{} | eps, PP{} | epsilon_parser<::value_type>{}, P{} | eps, P{} | epsilon_parser<::value_type>{})
    .isTerm (tOrEps (P Map4)),  -- 52: DEP_ASSERT_BINARY_OPERABLE(|, PP{}, eps, P{}, eps)
    .parsersEq (tOrEps (P Map4)) (tOr (P Map4) (P .epsilon)),  -- 52: DEP_ASSERT_PARSER_VALUES_EQ(PP{} | eps, PP{} | epsilon_parser<::value_type>{}, P{} | eps, P{} | epsilon_parser<::value_type>{})
    .isTerm (tOrEps (P Fil1)),  -- 52: DEP_ASSERT_BINARY_OPERABLE(|, PP{}, eps, P{}, eps)
    .parsersEq (tOrEps (P Fil1)) (tOr (P Fil1) (P .epsilon)),  -- 52: DEP_ASSERT_PARSER_VALUES_EQ(PP{} | eps, PP{} | epsilon_parser<::value_type>{}, P{} | eps, P{} | epsilon_parser<::value_type>{})
    .isTerm (tOrEps (P Fil2)),  -- 52: DEP_ASSERT_BINARY_OPERABLE(|, PP{}, eps, P{}, eps)
    .parsersEq (tOrEps (P Fil2)) (tOr (P Fil2) (P .epsilon)),  -- 52: DEP_ASSERT_PARSER_VALUES_EQ(PP{} | eps, PP{} | epsilon_parser<::value_type>{}, P{} | eps, P{} | epsilon_parser<::value_type>{})
    .isTerm (tOrEps (P Fil3)),  -- 52: DEP_ASSERT_BINARY_OPERABLE(|, PP{}, eps, P{}, eps)
    .parsersEq (tOrEps (P Fil3)) (tOr (P Fil3) (P .epsilon)),  -- 52: DEP_ASSERT_PARSER_VALUES_EQ(PP{} | eps, PP{} | epsilon_parser<::value_type>{}, P{} | eps, P{} | epsilon_parser<::value_type>{})
    .isTerm (tOrEps (P Apm1)),  -- 52: DEP_ASSERT_BINARY_OPERABLE(|, PP{}, eps, P{}, eps)
    .parsersEq (tOrEps (P Apm1)) (tOr (P Apm1) (P .epsilon)),  -- 52: DEP_ASSERT_PARSER_VALUES_EQ(PP{} | eps, PP{} | epsilon_parser<::value_type>{}, P{} | eps, P{} | epsilon_parser<::value_type>{})
    .isTerm (tOrEps (P Apm2)),  -- 52: DEP_ASSERT_BINARY_OPERABLE(|, PP{}, eps, P{}, eps)
    .parsersEq (tOrEps (P Apm2)) (tOr (P Apm2) (P .epsilon)),  -- 52: DEP_ASSERT_PARSER_VALUES_EQ(PP{} | eps, PP{} | epsilon_parser<::value_type>{}, P{} | eps, P{} | epsilon_parser<::value_type>{})
    .isTerm (tOrEps (P Apf1)),  -- 52: DEP_ASSERT_BINARY_OPERABLE(|, PP{}, eps, P{}, eps)
    .parsersEq (tOrEps (P Apf1)) (tOr (P Apf1) (P .epsilon))  -- 52: DEP_ASSERT_PARSER_VALUES_EQ(PP{} | eps, PP{} | epsilon_parser<::value_type>{}, P{} | eps, P{} | epsilon_parser<::value_type>{})
    ], Assertion.Holds a :=
  Assertion.holds_of_check (by decide +kernel)

/-- epsilon operator / eps anything (tests/char-tests/operators/epsilon.cpp:52) -/
theorem charOperatorsEpsilon_3_3 : ∀ a ∈ [
    .isTerm (tOrEps (P Int1)),  -- 52: DEP_ASSERT_BINARY_OPERABLE(|, PP{}, eps, P{}, eps)
    .parsersEq (tOrEps (P Int1)) (tOr (P Int1) (P .epsilon)),  -- 52: DEP_ASSERT_PARSER_VALUES_EQ(PP{} | eps, PP{} | epsilon_parser<::value_type>{}, P{} | eps, P{} | epsilon_parser<::value_type>{})
    .isTerm (tOrEps (P Int2)),  -- 52: DEP_ASSERT_BINARY_OPERABLE(|, PP{}, eps, P{}, eps)
    .parsersEq (tOrEps (P Int2)) (tOr (P Int2) (P .epsilon)),  -- 52: DEP_ASSERT_PARSER_VALUES_EQ(PP{} | eps, PP{} | epsilon_parser<::value_type>{}, P{} | eps, P{} | epsilon_parser<::value_type>{})
    .isTerm (tOrEps (P Int3)),  -- 52: DEP_ASSERT_BINARY_OPERABLE(|, PP{}, eps, P{}, eps)
    .parsersEq (tOrEps (P Int3)) (tOr (P Int3) (P .epsilon)),  -- 52: DEP_ASSERT_PARSER_VALUES_EQ(PP{} | eps, PP{} | epsilon_parser<::value_type>{}, P{} | eps, P{} | epsilon_parser<::value_type>{})
    .isTerm (tOrEps (P Api1)),  -- 52: DEP_ASSERT_BINARY_OPERABLE(|, PP{}, eps, P{}, eps)
    .parsersEq (tOrEps (P Api1)) (tOr (P Api1) (P .epsilon)),  -- 52: DEP_ASSERT_PARSER_VALUES_EQ(PP{} | eps, PP{} | epsilon_parser<::value_type>{}, P{} | eps, P{} | epsilon_parser<::value_type>{})
    .isTerm (tOrEps (P Api2)),  -- 52: DEP_ASSERT_BINARY_OPERABLE(|, PP{}, eps, P{}, eps)
    .parsersEq (tOrEps (P Api2)) (tOr (P Api2) (P .epsilon)),  -- 52: DEP_ASSERT_PARSER_VALUES_EQ(PP{} | eps, PP{} | epsilon_parser<::value_type>{}, P{} | eps, P{} | epsilon_parser<::value_type>{})
    .isTerm (tOrEps (P Con1)),  -- 52: DEP_ASSERT_BINARY_OPERABLE(|, PP{}, eps, P{}, eps)
    .parsersEq (tOrEps (P Con1)) (tOr (P Con1) (P .epsilon)),  -- 52: DEP_ASSERT_PARSER_VALUES_EQ(PP{} | eps, PP{} | epsilon_parser<::value_type>{}, P{} | eps, P{} | epsilon_parser<::value_type>{})
    .isTerm (tOrEps (P Con2)),  -- 52: DEP_ASSERT_BINARY_OPERABLE(|, PP{}, eps, P{}, eps)
    .parsersEq (tOrEps (P Con2)) (tOr (P Con2) (P .epsilon)),  -- 52: DEP_ASSERT_PARSER_VALUES_EQ(PP{} | eps, PP{} | epsilon_parser<::value_type>{}, P{} | eps, P{} | epsilon_parser<::value_type>{})
    .isTerm (tOrEps (P Con3)),  -- 52: DEP_ASSERT_BINARY_OPERABLE(|, PP{}, eps, P{}, eps)
    .parsersEq (tOrEps (P Con3)) (tOr (P Con3) (P .epsilon)),  -- 52: DEP_ASSERT_PARSER_VALUES_EQ(PP{} | eps, PP{} | epsilon_parser<::value_type>{}, P{} | eps, P{} | epsilon_parser<::value_type>{})
    .isTerm (tOrEps (P Con4)),  -- 52: DEP_ASSERT_BINARY_OPERABLE(|, PP{}, eps, P{}, eps)
    .parsersEq (tOrEps (P Con4)) (tOr (P Con4) (P .epsilon)),  -- 52: DEP_ASSERT_PARSER_VALUES_EQ(PP{} | eps, PP{} | epsilon_parser<::value_type>{}, P{} | eps, P{} | epsilon_parser<::value_type>{})
    .isTerm (tOrEps (P Def1)),  -- 52: DEP_ASSERT_BINARY_OPERABLE(|, PP{}, eps, P{}, eps)
    .parsersEq (tOrEps (P Def1)) (tOr (P Def1) (P .epsilon)),  -- 52: DEP_ASSERT_PARSER_VALUES_EQ(PP{} | eps, PP{} | epsilon_parser<::value_type>{}, P{} | eps, P{} | epsilon_parser<::value_type>{})
    .isTerm (tOrEps (P Def2)),  -- 52: DEP_ASSERT_BINARY_OPERABLE(|, PP{}, eps, P{}, eps)
    .parsersEq (tOrEps (P Def2)) (tOr (P Def2) (P .epsilon)),  -- 52: DEP_ASSERT_PARSER_VALUES_EQ(PP{} | eps, PP{} | epsilon_parser<::value_type>{}, P{} | eps, P{} | epsilon_parser<::value_type>{})
    .isTerm (tOrEps (P (.custom 0))),  -- 52: DEP_ASSERT_BINARY_OPERABLE(|, PP{}, eps, P{}, eps)
    .parsersEq (tOrEps (P (.custom 0))) (tOr (P (.custom 0)) (P .epsilon)),  -- 52: DEP_ASSERT_PARSER_VALUES_EQ(PP{} | eps, PP{} | epsilon_parser<::value_type>{}, P{} | eps, P{} | epsilon_parser<::value_type>{})
    .isTerm (tOrEps (P (.custom 1))),  -- 52: DEP_ASSERT_BINARY_OPERABLE(|, PP{}, eps, P{}, eps)
    .parsersEq (tOrEps (P (.custom 1))) (tOr (P (.custom 1)) (P .epsilon)),  -- 52: DEP_ASSERT_PARSER_VALUES_EQ(PP{} | eps, PP{} | epsilon_parser<::value_type>{}, P{} | eps, P{} | epsilon_parser<::value_type>{})
    .isTerm (tOrEps (P May1)),  -- 52: DEP_ASSERT_BINARY_OPERABLE(|, PP{}, eps, P{}, eps)
    .parsersEq (tOrEps (P May1)) (tOr (P May1) (P .epsilon)),  -- 52: DEP_ASSERT_PARSER_VALUES_EQ(PP{} | eps, PP{} | epsilon_parser<::value_type>{}, P{} | eps, P{} | epsilon_parser<::value_type>{})
    .isTerm (tOrEps (P May2)),  -- 52: DEP_ASSERT_BINARY_OPERABLE(|, PP{}, eps, P{}, eps)
    .parsersEq (tOrEps (P May2)) (tOr (P May2) (P .epsilon)),  -- 52: DEP_ASSERT_PARSER_VALUES_EQ(PP{} | eps, PP{} | epsilon_parser<::value_type>{}, P{} | eps, P{} | epsilon_parser<::value_type>{})
    .isTerm (tOrEps (P May3)),  -- 52: DEP_ASSERT_BINARY_OPERABLE(|, PP{}, eps, P{}, eps)
    .parsersEq (tOrEps (P May3)) (tOr (P May3) (P .epsilon)),  -- 52: DEP_ASSERT_PARSER_VALUES_EQ(PP{} | eps, PP{} | epsilon_parser<::value_type>{}, P{} | eps, P{} | epsilon_parser<::value_type>{})
    .isTerm (tOrEps (P May4)),  -- 52: DEP_ASSERT_BINARY_OPERABLE(|, PP{}, eps, P{}, eps)
    .parsersEq (tOrEps (P May4)) (tOr (P May4) (P .epsilon)),  -- 52: DEP_ASSERT_PARSER_VALUES_EQ(PP{} | eps, PP{} | epsilon_parser<::value_type>{}, P{} | eps, P{} | epsilon_parser<::value_type>{})
    .isTerm (tOrEps (P Exa1)),  -- 52: DEP_ASSERT_BINARY_OPERABLE(|, PP{}, eps, P{}, eps)
    .parsersEq (tOrEps (P Exa1)) (tOr (P Exa1) (P .epsilon)),  -- 52: DEP_ASSERT_PARSER_VALUES_EQ(PP{} | eps, PP{} | epsilon_parser<::value_type>{}, P{} | eps, P{} | epsilon_parser<::value_type>{})
    .isTerm (tOrEps (P Exa2)),  -- 52: DEP_ASSERT_BINARY_OPERABLE(|, PP{}, eps, P{}, eps)
    .parsersEq (tOrEps (P Exa2)) (tOr (P Exa2) (P .epsilon)),  -- 52: DEP_ASSERT_PARSER_VALUES_EQ(PP{} | eps, PP{} | epsilon_parser<::value_type>{}, P{} | eps, P{} | epsilon_parser<::value_type>{})
    .isTerm (tOrEps (P Exa3)),  -- 52: DEP_ASSERT_BINARY_OPERABLE(|, PP{}, eps, P{}, eps)
    .parsersEq (tOrEps (P Exa3)) (tOr (P Exa3) (P .epsilon)),  -- 52: DEP_ASSERT_PARSER_VALUES_EQ(PP{} | eps, PP{} | epsilon_parser<::value_type>{}, P{} | eps, P{} | epsilon_parser<::value_type>{})
    .isTerm (tOrEps (P Exa4)),  -- 52: DEP_ASSERT_BINARY_OPERABLE(|, PP{}, eps, P{}, eps)
    .parsersEq (tOrEps (P Exa4)) (tOr (P Exa4) (P .epsilon)),  -- 52: DEP_ASSERT_PARSER_VALUES_EQ(PP{} | eps, PP{} | epsilon_parser<::value_type>{}, P{} | eps, P{} | epsilon_parser<::value_type>{})
    .isTerm (tOrEps (P Oom1)),  -- 52: DEP_ASSERT_BINARY_OPERABLE(|, PP{}, eps, P{}, eps)
    .parsersEq (tOrEps (P Oom1)) (tOr (P Oom1) (P .epsilon)),  -- 52: DEP_ASSERT_PARSER_VALUES_EQ(PP{} | eps, PP{} | epsilon_parser<::value_type>{}, P{} | eps, P{} | epsilon_parser<::value_type>{})
    .isTerm (tOrEps (P Oom2)),  -- 52: DEP_ASSERT_BINARY_OPERABLE(|, PP{}, eps, P{}, eps)
    .parsersEq (tOrEps (P Oom2)) (tOr (P Oom2) (P .epsilon)),  -- 52: DEP_ASSERT_PARSER_VALUES_EQ(PP{} | eps, PP{} | epsilon_parser<::value_type>{}, P{} | eps, P{} | epsilon_parser<::value_type>{})
    .isTerm (tOrEps (P Oom3)),  -- 52: DEP_ASSERT_BINARY_OPERABLE(|, PP{}, eps, P{}, eps)
    .parsersEq (tOrEps (P Oom3)) (tOr (P Oom3) (P .epsilon)),  -- 52: DEP_ASSERT_PARSER_VALUES_EQ(PP{} | eps, PP{} | epsilon_parser<::value_type>{}, P{} | eps, P{} | epsilon_parser<::value_type>{})
    .isTerm (tOrEps (P Oom4)),  -- 52: DEP_ASSERT_BINARY_OPERABLE(|, PP{}, eps, P{}, eps)
    .parsersEq (tOrEps (P Oom4)) (tOr (P Oom4) (P .epsilon)),  -- 52: DEP_ASSERT_PARSER_VALUES_EQ(PP{} | eps, PP{} | epsilon_parser<::value_type>{}, P{} | eps, P{} | epsilon_parser<::value_type>{})
    .isTerm (tOrEps (P Zom1)),  -- 52: DEP_ASSERT_BINARY_OPERABLE(|, PP{}, eps, P{}, eps)
    .parsersEq (tOrEps (P Zom1)) (tOr (P Zom1) (P .epsilon)),  -- 52: DEP_ASSERT_PARSER_VALUES_EQ(PP{} | eps, PP{} | epsilon_parser<::value_type>{}, P{} | eps, P{} | epsilon_parser<::value_type>{})
    .isTerm (tOrEps (P Zom2)),  -- 52: DEP_ASSERT_BINARY_OPERABLE(|, PP{}, eps, P{}, eps)
    .parsersEq (tOrEps (P Zom2)) (tOr (P Zom2) (P .epsilon)),  -- 52: DEP_ASSERT_PARSER_VALUES_EQ(PP{} | eps, PP{} | epsilon_parser<::value_type>{}, P{} | eps, P{} | epsilon_parser<::value_type>{})
    .isTerm (tOrEps (P Zom3)),  -- 52: DEP_ASSERT_BINARY_OPERABLE(|, PP{}, eps, P{}, eps)
    .parsersEq (tOrEps (P Zom3)) (tOr (P Zom3) (P .epsilon)),  -- 52: DEP_ASSERT_PARSER_VALUES_EQ(PP{} | eps, PP{} | epsilon_parser<::value_type>{}, P{} | eps, P{} | epsilon_parser<::value_type>{})
    .isTerm (tOrEps (P Zom4)),  -- 52: DEP_ASSERT_BINARY_OPERABLE(|, PP{}, eps, P{}, eps)
    .parsersEq (tOrEps (P Zom4)) (tOr (P Zom4) (P .epsilon)),  -- 52: DEP_ASSERT_PARSER_VALUES_EQ(PP{} | eps, PP{} | epsilon_parser<::value_type>{}, P{} | eps, P{} | epsilon_parser<::value_type>{})
    .isTerm (tOrEps (P Del1)),  -- 52: DEP_ASSERT_BINARY_OPERABLE(|, PP{}, eps, P{}, eps)
    .parsersEq (tOrEps (P Del1)) (tOr (P Del1) (P .epsilon))  -- 52: DEP_ASSERT_PARSER_VALUES_EQ(PP{} | eps, PP{} | epsilon_parser<::value_type>{}, P{} | eps, P{} | epsilon_parser<::value_type>{})
    ], Assertion.Holds a :=
  Assertion.holds_of_check (by decide +kernel)

/-- epsilon operator / eps anything (tests/char-tests/operators/epsilon.cpp:52) -/
theorem charOperatorsEpsilon_3_4 : ∀ a ∈ [
    .isTerm (tOrEps (P Del2)),  -- 52: DEP_ASSERT_BINARY_OPERABLE(|, PP{}, eps, P{}, eps)
    .parsersEq (tOrEps (P Del2)) (tOr (P Del2) (P .epsilon)),  -- 52: DEP_ASSERT_PARSER_VALUES_EQ(PP{} | eps, PP{} | epsilon_parser<::value_type>{}, P{} | eps, P{} | epsilon_parser<::value_type>{})
    .isTerm (tOrEps (P Del3)),  -- 52: DEP_ASSERT_BINARY_OPERABLE(|, PP{}, eps, P{}, eps)
    .parsersEq (tOrEps (P Del3)) (tOr (P Del3) (P .epsilon)),  -- 52: DEP_ASSERT_PARSER_VALUES_EQ(PP{} | eps, PP{} | epsilon_parser<::value_type>{}, P{} | eps, P{} | epsilon_parser<::value_type>{})
    .isTerm (tOrEps (P Del4)),  -- 52: DEP_ASSERT_BINARY_OPERABLE(|, PP{}, eps, P{}, eps)
    .parsersEq (tOrEps (P Del4)) (tOr (P Del4) (P .epsilon)),  -- 52: DEP_ASSERT_PARSER_VALUES_EQ(PP{} | eps, PP{} | epsilon_parser<::value_type>{}, P{} | eps, P{} | epsilon_parser<::value_type>{})
    .isTerm (tOrEps (P Del5)),  -- 52: DEP_ASSERT_BINARY_OPERABLE(|, PP{}, eps, P{}, eps)
    .parsersEq (tOrEps (P Del5)) (tOr (P Del5) (P .epsilon)),  -- 52: DEP_ASSERT_PARSER_VALUES_EQ(PP{} | eps, PP{} | epsilon_parser<::value_type>{}, P{} | eps, P{} | epsilon_parser<::value_type>{})
    .isTerm (tOrEps (P Del6)),  -- 52: DEP_ASSERT_BINARY_OPERABLE(|, PP{}, eps, P{}, eps)
    .parsersEq (tOrEps (P Del6)) (tOr (P Del6) (P .epsilon)),  -- 52: DEP_ASSERT_PARSER_VALUES_EQ(PP{} | eps, PP{} | epsilon_parser<::value_type>{}, P{} | eps, P{} | epsilon_parser<::value_type>{})
    .isTerm (tOrEps (P Del7)),  -- 52: DEP_ASSERT_BINARY_OPERABLE(|, PP{}, eps, P{}, eps)
    .parsersEq (tOrEps (P Del7)) (tOr (P Del7) (P .epsilon)),  -- 52: DEP_ASSERT_PARSER_VALUES_EQ(PP{} | eps, PP{} | epsilon_parser<::value_type>{}, P{} | eps, P{} | epsilon_parser<::value_type>{})
    .isTerm (tOrEps (P Del8)),  -- 52: DEP_ASSERT_BINARY_OPERABLE(|, PP{}, eps, P{}, eps)
    .parsersEq (tOrEps (P Del8)) (tOr (P Del8) (P .epsilon)),  -- 52: DEP_ASSERT_PARSER_VALUES_EQ(PP{} | eps, PP{} | epsilon_parser<::value_type>{}, P{} | eps, P{} | epsilon_parser<::value_type>{})
    .isTerm (tOrEps (P Dek1)),  -- 52: DEP_ASSERT_BINARY_OPERABLE(|, PP{}, eps, P{}, eps)
    .parsersEq (tOrEps (P Dek1)) (tOr (P Dek1) (P .epsilon)),  -- 52: DEP_ASSERT_PARSER_VALUES_EQ(PP{} | eps, PP{} | epsilon_parser<::value_type>{}, P{} | eps, P{} | epsilon_parser<::value_type>{})
    .isTerm (tOrEps (P Dek2)),  -- 52: DEP_ASSERT_BINARY_OPERABLE(|, PP{}, eps, P{}, eps)
    .parsersEq (tOrEps (P Dek2)) (tOr (P Dek2) (P .epsilon)),  -- 52: DEP_ASSERT_PARSER_VALUES_EQ(PP{} | eps, PP{} | epsilon_parser<::value_type>{}, P{} | eps, P{} | epsilon_parser<::value_type>{})
    .isTerm (tOrEps (P Dek3)),  -- 52: DEP_ASSERT_BINARY_OPERABLE(|, PP{}, eps, P{}, eps)
    .parsersEq (tOrEps (P Dek3)) (tOr (P Dek3) (P .epsilon)),  -- 52: DEP_ASSERT_PARSER_VALUES_EQ(PP{} | eps, PP{} | epsilon_parser<::value_type>{}, P{} | eps, P{} | epsilon_parser<::value_type>{})
    .isTerm (tOrEps (P Dek4)),  -- 52: DEP_ASSERT_BINARY_OPERABLE(|, PP{}, eps, P{}, eps)
    .parsersEq (tOrEps (P Dek4)) (tOr (P Dek4) (P .epsilon)),  -- 52: DEP_ASSERT_PARSER_VALUES_EQ(PP{} | eps, PP{} | epsilon_parser<::value_type>{}, P{} | eps, P{} | epsilon_parser<::value_type>{})
    .isTerm (tOrEps (P Dek5)),  -- 52: DEP_ASSERT_BINARY_OPERABLE(|, PP{}, eps, P{}, eps)
    .parsersEq (tOrEps (P Dek5)) (tOr (P Dek5) (P .epsilon)),  -- 52: DEP_ASSERT_PARSER_VALUES_EQ(PP{} | eps, PP{} | epsilon_parser<::value_type>{}, P{} | eps, P{} | epsilon_parser<::value_type>{})
    .isTerm (tOrEps (P Dek6)),  -- 52: DEP_ASSERT_BINARY_OPERABLE(|, PP{}, eps, P{}, eps)
    .parsersEq (tOrEps (P Dek6)) (tOr (P Dek6) (P .epsilon)),  -- 52: DEP_ASSERT_PARSER_VALUES_EQ(PP{} | eps, PP{} | epsilon_parser<::value_type>{}, P{} | eps, P{} | epsilon_parser<::value_type>{})
    .isTerm (tOrEps (P Dek7)),  -- 52: DEP_ASSERT_BINARY_OPERABLE(|, PP{}, eps, P{}, eps)
    .parsersEq (tOrEps (P Dek7)) (tOr (P Dek7) (P .epsilon)),  -- 52: DEP_ASSERT_PARSER_VALUES_EQ(PP{} | eps, PP{} | epsilon_parser<::value_type>{}, P{} | eps, P{} | epsilon_parser<::value_type>{})
    .isTerm (tOrEps (P Dek8)),  -- 52: DEP_ASSERT_BINARY_OPERABLE(|, PP{}, eps, P{}, eps)
    .parsersEq (tOrEps (P Dek8)) (tOr (P Dek8) (P .epsilon))  -- 52: DEP_ASSERT_PARSER_VALUES_EQ(PP{} | eps, PP{} | epsilon_parser<::value_type>{}, P{} | eps, P{} | epsilon_parser<::value_type>{})
    ], Assertion.Holds a :=
  Assertion.holds_of_check (by decide +kernel)

end Tok3n.Tests
