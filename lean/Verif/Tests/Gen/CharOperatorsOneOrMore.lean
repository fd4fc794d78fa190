import Verif.Tests.Gen.SamplesChar
/- Generated by tools/tests2lean.py from tests/char-tests/operators/one_or_more.cpp. -/

namespace Tok3n.Tests

/-- one_or_more operator / +maybe_parser (tests/char-tests/operators/one_or_more.cpp:14) -/
theorem charOperatorsOneOrMore_1 : ∀ a ∈ [
    .parsersEq (tPlus (P May1)) (P Zom1),  -- 14: ASSERT_PARSER_VALUES_EQ(+ may1, zom1)
    .parsersEq (tPlus (tPlus (P May1))) (P Zom1),  -- 15: ASSERT_PARSER_VALUES_EQ(+ + may1, zom1)
    .parsersEq (tPlus (tPlus (tPlus (P May1)))) (P Zom1),  -- 16: ASSERT_PARSER_VALUES_EQ(+ + + may1, zom1)
    .parsersEq (tPlus (P May2)) (P Zom2),  -- 17: ASSERT_PARSER_VALUES_EQ(+ may2, zom2)
    .parsersEq (tPlus (tPlus (P May2))) (P Zom2),  -- 18: ASSERT_PARSER_VALUES_EQ(+ + may2, zom2)
    .parsersEq (tPlus (tPlus (tPlus (P May2)))) (P Zom2),  -- 19: ASSERT_PARSER_VALUES_EQ(+ + + may2, zom2)
    .parsersEq (tPlus (P May3)) (P Zom3),  -- 20: ASSERT_PARSER_VALUES_EQ(+ may3, zom3)
    .parsersEq (tPlus (tPlus (P May3))) (P Zom3),  -- 21: ASSERT_PARSER_VALUES_EQ(+ + may3, zom3)
    .parsersEq (tPlus (tPlus (tPlus (P May3)))) (P Zom3),  -- 22: ASSERT_PARSER_VALUES_EQ(+ + + may3, zom3)
    .parsersEq (tPlus (P May4)) (P Zom4),  -- 23: ASSERT_PARSER_VALUES_EQ(+ may4, zom4)
    .parsersEq (tPlus (tPlus (P May4))) (P Zom4),  -- 24: ASSERT_PARSER_VALUES_EQ(+ + may4, zom4)
    .parsersEq (tPlus (tPlus (tPlus (P May4)))) (P Zom4)  -- 25: ASSERT_PARSER_VALUES_EQ(+ + + may4, zom4)
    ], Assertion.Holds a :=
  Assertion.holds_of_check (by decide +kernel)

/-- one_or_more operator / +one_or_more_parser (tests/char-tests/operators/one_or_more.cpp:30) -/
theorem charOperatorsOneOrMore_2 : ∀ a ∈ [
    .parsersEq (tPlus (P Oom1)) (P Oom1),  -- 30: ASSERT_PARSER_VALUES_EQ(+ oom1, oom1)
    .parsersEq (tPlus (tPlus (P Oom1))) (P Oom1),  -- 31: ASSERT_PARSER_VALUES_EQ(+ + oom1, oom1)
    .parsersEq (tPlus (tPlus (tPlus (P Oom1)))) (P Oom1),  -- 32: ASSERT_PARSER_VALUES_EQ(+ + + oom1, oom1)
    .parsersEq (tPlus (P Oom2)) (P Oom2),  -- 33: ASSERT_PARSER_VALUES_EQ(+ oom2, oom2)
    .parsersEq (tPlus (tPlus (P Oom2))) (P Oom2),  -- 34: ASSERT_PARSER_VALUES_EQ(+ + oom2, oom2)
    .parsersEq (tPlus (tPlus (tPlus (P Oom2)))) (P Oom2),  -- 35: ASSERT_PARSER_VALUES_EQ(+ + + oom2, oom2)
    .parsersEq (tPlus (P Oom3)) (P Oom3),  -- 36: ASSERT_PARSER_VALUES_EQ(+ oom3, oom3)
    .parsersEq (tPlus (tPlus (P Oom3))) (P Oom3),  -- 37: ASSERT_PARSER_VALUES_EQ(+ + oom3, oom3)
    .parsersEq (tPlus (tPlus (tPlus (P Oom3)))) (P Oom3),  -- 38: ASSERT_PARSER_VALUES_EQ(+ + + oom3, oom3)
    .parsersEq (tPlus (P Oom4)) (P Oom4),  -- 39: ASSERT_PARSER_VALUES_EQ(+ oom4, oom4)
    .parsersEq (tPlus (tPlus (P Oom4))) (P Oom4),  -- 40: ASSERT_PARSER_VALUES_EQ(+ + oom4, oom4)
    .parsersEq (tPlus (tPlus (tPlus (P Oom4)))) (P Oom4)  -- 41: ASSERT_PARSER_VALUES_EQ(+ + + oom4, oom4)
    ], Assertion.Holds a :=
  Assertion.holds_of_check (by decide +kernel)

/-- one_or_more operator / +zero_or_more_parser (tests/char-tests/operators/one_or_more.cpp:46) -/
theorem charOperatorsOneOrMore_3 : ∀ a ∈ [
    .parsersEq (tPlus (P Zom1)) (P Zom1),  -- 46: ASSERT_PARSER_VALUES_EQ(+ zom1, zom1)
    .parsersEq (tPlus (tPlus (P Zom1))) (P Zom1),  -- 47: ASSERT_PARSER_VALUES_EQ(+ + zom1, zom1)
    .parsersEq (tPlus (tPlus (tPlus (P Zom1)))) (P Zom1),  -- 48: ASSERT_PARSER_VALUES_EQ(+ + + zom1, zom1)
    .parsersEq (tPlus (P Zom2)) (P Zom2),  -- 49: ASSERT_PARSER_VALUES_EQ(+ zom2, zom2)
    .parsersEq (tPlus (tPlus (P Zom2))) (P Zom2),  -- 50: ASSERT_PARSER_VALUES_EQ(+ + zom2, zom2)
    .parsersEq (tPlus (tPlus (tPlus (P Zom2)))) (P Zom2),  -- 51: ASSERT_PARSER_VALUES_EQ(+ + + zom2, zom2)
    .parsersEq (tPlus (P Zom3)) (P Zom3),  -- 52: ASSERT_PARSER_VALUES_EQ(+ zom3, zom3)
    .parsersEq (tPlus (tPlus (P Zom3))) (P Zom3),  -- 53: ASSERT_PARSER_VALUES_EQ(+ + zom3, zom3)
    .parsersEq (tPlus (tPlus (tPlus (P Zom3)))) (P Zom3),  -- 54: ASSERT_PARSER_VALUES_EQ(+ + + zom3, zom3)
    .parsersEq (tPlus (P Zom4)) (P Zom4),  -- 55: ASSERT_PARSER_VALUES_EQ(+ zom4, zom4)
    .parsersEq (tPlus (tPlus (P Zom4))) (P Zom4),  -- 56: ASSERT_PARSER_VALUES_EQ(+ + zom4, zom4)
    .parsersEq (tPlus (tPlus (tPlus (P Zom4)))) (P Zom4)  -- 57: ASSERT_PARSER_VALUES_EQ(+ + + zom4, zom4)
    ], Assertion.Holds a :=
  Assertion.holds_of_check (by decide +kernel)

/-- one_or_more operator / +{anything} (tests/char-tests/operators/one_or_more.cpp:94) -/
theorem charOperatorsOneOrMore_4_1 : ∀ a ∈ [
    .isTerm (tPlus (P Ign1)),  -- 94: DEP_ASSERT_UNARY_OPERABLE(+, PP{}, P{})
    .parsersEq (tPlus (P Ign1)) (P (.oneOrMore Ign1)),  -- 94: DEP_ASSERT_PARSER_VALUES_EQ(+ PP{}, one_or_more_parser<PP>{}, + P{}, one_or_more_parser<P>{})
    .isTerm (tPlus (P Ign2)),  -- 94: DEP_ASSERT_UNARY_OPERABLE(+, PP{}, P{})
    .parsersEq (tPlus (P Ign2)) (P (.oneOrMore Ign2)),  -- 94: DEP_ASSERT_PARSER_VALUES_EQ(+ PP{}, one_or_more_parser<PP>{}, + P{}, one_or_more_parser<P>{})
    .isTerm (tPlus (P Ign3)),  -- 94: DEP_ASSERT_UNARY_OPERABLE(+, PP{}, P{})
    .parsersEq (tPlus (P Ign3)) (P (.oneOrMore Ign3)),  -- 94: DEP_ASSERT_PARSER_VALUES_EQ(+ PP{}, one_or_more_parser<PP>{}, + P{}, one_or_more_parser<P>{})
    .isTerm (tPlus (P Ign4)),  -- 94: DEP_ASSERT_UNARY_OPERABLE(+, PP{}, P{})
    .parsersEq (tPlus (P Ign4)) (P (.oneOrMore Ign4)),  -- 94: DEP_ASSERT_PARSER_VALUES_EQ(+ PP{}, one_or_more_parser<PP>{}, + P{}, one_or_more_parser<P>{})
    .isTerm (tPlus (P Ign5)),  -- 94: DEP_ASSERT_UNARY_OPERABLE(+, PP{}, P{})
    .parsersEq (tPlus (P Ign5)) (P (.oneOrMore Ign5)),  -- 94: DEP_ASSERT_PARSER_VALUES_EQ(+ PP{}, one_or_more_parser<PP>{}, + P{}, one_or_more_parser<P>{})
    .isTerm (tPlus (P Com1)),  -- 94: DEP_ASSERT_UNARY_OPERABLE(+, PP{}, P{})
    .parsersEq (tPlus (P Com1)) (P (.oneOrMore Com1)),  -- 94: DEP_ASSERT_PARSER_VALUES_EQ(+ PP{}, one_or_more_parser<PP>{}, + P{}, one_or_more_parser<P>{})
    .isTerm (tPlus (P Com2)),  -- 94: DEP_ASSERT_UNARY_OPERABLE(+, PP{}, P{})
    .parsersEq (tPlus (P Com2)) (P (.oneOrMore Com2)),  -- 94: DEP_ASSERT_PARSER_VALUES_EQ(+ PP{}, one_or_more_parser<PP>{}, + P{}, one_or_more_parser<P>{})
    .isTerm (tPlus (P Com3)),  -- 94: DEP_ASSERT_UNARY_OPERABLE(+, PP{}, P{})
    .parsersEq (tPlus (P Com3)) (P (.oneOrMore Com3)),  -- 94: DEP_ASSERT_PARSER_VALUES_EQ(+ PP{}, one_or_more_parser<PP>{}, + P{}, one_or_more_parser<P>{})
    .isTerm (tPlus (P Com4)),  -- 94: DEP_ASSERT_UNARY_OPERABLE(+, PP{}, P{})
    .parsersEq (tPlus (P Com4)) (P (.oneOrMore Com4)),  -- 94: DEP_ASSERT_PARSER_VALUES_EQ(+ PP{}, one_or_more_parser<PP>{}, + P{}, one_or_more_parser<P>{})
    .isTerm (tPlus (P Com5)),  -- 94: DEP_ASSERT_UNARY_OPERABLE(+, PP{}, P{})
    .parsersEq (tPlus (P Com5)) (P (.oneOrMore Com5)),  -- 94: DEP_ASSERT_PARSER_VALUES_EQ(+ PP{}, one_or_more_parser<PP>{}, + P{}, one_or_more_parser<P>{})
    .isTerm (tPlus (P Com6)),  -- 94: DEP_ASSERT_UNARY_OPERABLE(+, PP{}, P{})
    .parsersEq (tPlus (P Com6)) (P (.oneOrMore Com6)),  -- 94: DEP_ASSERT_PARSER_VALUES_EQ(+ PP{}, one_or_more_parser<PP>{}, + P{}, one_or_more_parser<P>{})
    .isTerm (tPlus (P Com7)),  -- 94: DEP_ASSERT_UNARY_OPERABLE(+, PP{}, P{})
    .parsersEq (tPlus (P Com7)) (P (.oneOrMore Com7)),  -- 94: DEP_ASSERT_PARSER_VALUES_EQ(+ PP{}, one_or_more_parser<PP>{}, + P{}, one_or_more_parser<P>{})
    .isTerm (tPlus (P Nam1)),  -- 94: DEP_ASSERT_UNARY_OPERABLE(+, PP{}, P{})
    .parsersEq (tPlus (P Nam1)) (P (.oneOrMore Nam1)),  -- 94: DEP_ASSERT_PARSER_VALUES_EQ(+ PP{}, one_or_more_parser<PP>{}, + P{}, one_or_more_parser<P>{})
    .isTerm (tPlus (P Nam2)),  -- 94: DEP_ASSERT_UNARY_OPERABLE(+, PP{}, P{})
    .parsersEq (tPlus (P Nam2)) (P (.oneOrMore Nam2)),  -- 94: DEP_ASSERT_PARSER_VALUES_EQ(+ PP{}, one_or_more_parser<PP>{}, + P{}, one_or_more_parser<P>{})
    .isTerm (tPlus (P Nam3)),  -- 94: DEP_ASSERT_UNARY_OPERABLE(+, PP{}, P{})
    .parsersEq (tPlus (P Nam3)) (P (.oneOrMore Nam3)),  -- 94: DEP_ASSERT_PARSER_VALUES_EQ(+ PP{}, one_or_more_parser<PP>{}, + P{}, one_or_more_parser<P>{})
    .isTerm (tPlus (P Nam4)),  -- 94: DEP_ASSERT_UNARY_OPERABLE(+, PP{}, P{})
    .parsersEq (tPlus (P Nam4)) (P (.oneOrMore Nam4)),  -- 94: DEP_ASSERT_PARSER_VALUES_EQ(+ PP{}, one_or_more_parser<PP>{}, + P{}, one_or_more_parser<P>{})
    .isTerm (tPlus (P Any1)),  -- 94: DEP_ASSERT_UNARY_OPERABLE(+, PP{}, P{})
    .parsersEq (tPlus (P Any1)) (P (.oneOrMore Any1)),  -- 94: DEP_ASSERT_PARSER_VALUES_EQ(+ PP{}, one_or_more_parser<PP>{}, + P{}, one_or_more_parser<P>{})
    .isTerm (tPlus (P Any2)),  -- 94: DEP_ASSERT_UNARY_OPERABLE(+, PP{}, P{})
    .parsersEq (tPlus (P Any2)) (P (.oneOrMore Any2)),  -- 94: DEP_ASSERT_PARSER_VALUES_EQ(+ PP{}, one_or_more_parser<PP>{}, + P{}, one_or_more_parser<P>{})
    .isTerm (tPlus (P Any3)),  -- 94: DEP_ASSERT_UNARY_OPERABLE(+, PP{}, P{})
    .parsersEq (tPlus (P Any3)) (P (.oneOrMore Any3)),  -- 94: DEP_ASSERT_PARSER_VALUES_EQ(+ PP{}, one_or_more_parser<PP>{}, + P{}, one_or_more_parser<P>{})
    .isTerm (tPlus (P Any4)),  -- 94: DEP_ASSERT_UNARY_OPERABLE(+, PP{}, P{})
    .parsersEq (tPlus (P Any4)) (P (.oneOrMore Any4)),  -- 94: DEP_ASSERT_PARSER_VALUES_EQ(+ PP{}, one_or_more_parser<PP>{}, + P{}, one_or_more_parser<P>{})
    .isTerm (tPlus (P Non1)),  -- 94: DEP_ASSERT_UNARY_OPERABLE(+, PP{}, P{})
    .parsersEq (tPlus (P Non1)) (P (.oneOrMore Non1)),  -- 94: DEP_ASSERT_PARSER_VALUES_EQ(+ PP{}, one_or_more_parser<PP>{}, + P{}, one_or_more_parser<P>{})
    .isTerm (tPlus (P Non2)),  -- 94: DEP_ASSERT_UNARY_OPERABLE(+, PP{}, P{})
    .parsersEq (tPlus (P Non2)) (P (.oneOrMore Non2)),  -- 94: DEP_ASSERT_PARSER_VALUES_EQ(+ PP{}, one_or_more_parser<PP>{}, + P{}, one_or_more_parser<P>{})
    .isTerm (tPlus (P Non3)),  -- 94: DEP_ASSERT_UNARY_OPERABLE(+, PP{}, P{})
    .parsersEq (tPlus (P Non3)) (P (.oneOrMore Non3)),  -- 94: DEP_ASSERT_PARSER_VALUES_EQ(+ PP{}, one_or_more_parser<PP>{}, + P{}, one_or_more_parser<P>{})
    .isTerm (tPlus (P Non4)),  -- 94: DEP_ASSERT_UNARY_OPERABLE(+, PP{}, P{})
    .parsersEq (tPlus (P Non4)) (P (.oneOrMore Non4)),  -- 94: DEP_ASSERT_PARSER_VALUES_EQ(+ PP{}, one_or_more_parser<PP>{}, + P{}, one_or_more_parser<P>{})
    .isTerm (tPlus (P Non5)),  -- 94: DEP_ASSERT_UNARY_OPERABLE(+, PP{}, P{})
    .parsersEq (tPlus (P Non5)) (P (.oneOrMore Non5)),  -- 94: DEP_ASSERT_PARSER_VALUES_EQ(+ PP{}, one_or_more_parser<PP>{}, + P{}, one_or_more_parser<P>{})
    .isTerm (tPlus (P All1)),  -- 94: DEP_ASSERT_UNARY_OPERABLE(+, PP{}, P{})
    .parsersEq (tPlus (P All1)) (P (.oneOrMore All1)),  -- 94: DEP_ASSERT_PARSER_VALUES_EQ(+ PP{}, one_or_more_parser<PP>{}, + P{}, one_or_more_parser<P>{})
    .isTerm (tPlus (P All2)),  -- 94: DEP_ASSERT_UNARY_OPERABLE(+, PP{}, P{})
    .parsersEq (tPlus (P All2)) (P (.oneOrMore All2)),  -- 94: DEP_ASSERT_PARSER_VALUES_EQ(+ PP{}, one_or_more_parser<PP>{}, + P{}, one_or_more_parser<P>{})
    .isTerm (tPlus (P All3)),  -- 94: DEP_ASSERT_UNARY_OPERABLE(+, PP{}, P{})
    .parsersEq (tPlus (P All3)) (P (.oneOrMore All3)),  -- 94: DEP_ASSERT_PARSER_VALUES_EQ(+ PP{}, one_or_more_parser<PP>{}, + P{}, one_or_more_parser<P>{})
    .isTerm (tPlus (P All4)),  -- 94: DEP_ASSERT_UNARY_OPERABLE(+, PP{}, P{})
    .parsersEq (tPlus (P All4)) (P (.oneOrMore All4)),  -- 94: DEP_ASSERT_PARSER_VALUES_EQ(+ PP{}, one_or_more_parser<PP>{}, + P{}, one_or_more_parser<P>{})
    .isTerm (tPlus (P Eps1)),  -- 94: DEP_ASSERT_UNARY_OPERABLE(+, PP{}, P{})
    .parsersEq (tPlus (P Eps1)) (P (.oneOrMore Eps1))  -- 94: DEP_ASSERT_PARSER_VALUES_EQ(+ PP{}, one_or_more_parser<PP>{}, + P{}, one_or_more_parser<P>{})
    ], Assertion.Holds a :=
  Assertion.holds_of_check (by decide +kernel)

/-- one_or_more operator / +{anything} (tests/char-tests/operators/one_or_more.cpp:94) -/
theorem charOperatorsOneOrMore_4_2 : ∀ a ∈ [
    .isTerm (tPlus (P Ant1)),  -- 94: DEP_ASSERT_UNARY_OPERABLE(+, PP{}, P{})
    .parsersEq (tPlus (P Ant1)) (P (.oneOrMore Ant1)),  -- 94: DEP_ASSERT_PARSER_VALUES_EQ(+ PP{}, one_or_more_parser<PP>{}, + P{}, one_or_more_parser<P>{})
    .isTerm (tPlus (P QQ)),  -- 94: DEP_ASSERT_UNARY_OPERABLE(+, PP{}, P{})
    .parsersEq (tPlus (P QQ)) (P (.oneOrMore QQ)),  -- 94: DEP_ASSERT_PARSER_VALUES_EQ(+ PP{}, one_or_more_parser<PP>{}, + P{}, one_or_more_parser<P>{})
    .isTerm (tPlus (P ABC)),  -- 94: DEP_ASSERT_UNARY_OPERABLE(+, PP{}, P{})
    .parsersEq (tPlus (P ABC)) (P (.oneOrMore ABC)),  -- 94: DEP_ASSERT_PARSER_VALUES_EQ(+ PP{}, one_or_more_parser<PP>{}, + P{}, one_or_more_parser<P>{})
    .isTerm (tPlus (P Comma)),  -- 94: DEP_ASSERT_UNARY_OPERABLE(+, PP{}, P{})
    .parsersEq (tPlus (P Comma)) (P (.oneOrMore Comma)),  -- 94: DEP_ASSERT_PARSER_VALUES_EQ(+ PP{}, one_or_more_parser<PP>{}, + P{}, one_or_more_parser<P>{})
    .isTerm (tPlus (P SpaceDot)),  -- 94: DEP_ASSERT_UNARY_OPERABLE(+, PP{}, P{})
    .parsersEq (tPlus (P SpaceDot)) (P (.oneOrMore SpaceDot)),  -- 94: DEP_ASSERT_PARSER_VALUES_EQ(+ PP{}, one_or_more_parser<PP>{}, + P{}, one_or_more_parser<P>{})
    .isTerm (tPlus (P Cho1)),  -- 94: DEP_ASSERT_UNARY_OPERABLE(+, PP{}, P{})
    .parsersEq (tPlus (P Cho1)) (P (.oneOrMore Cho1)),  -- 94: DEP_ASSERT_PARSER_VALUES_EQ(+ PP{}, one_or_more_parser<PP>{}, + P{}, one_or_more_parser<P>{})
    .isTerm (tPlus (P Cho2)),  -- 94: DEP_ASSERT_UNARY_OPERABLE(+, PP{}, P{})
    .parsersEq (tPlus (P Cho2)) (P (.oneOrMore Cho2)),  -- 94: DEP_ASSERT_PARSER_VALUES_EQ(+ PP{}, one_or_more_parser<PP>{}, + P{}, one_or_more_parser<P>{})
    .isTerm (tPlus (P Cho3)),  -- 94: DEP_ASSERT_UNARY_OPERABLE(+, PP{}, P{})
    .parsersEq (tPlus (P Cho3)) (P (.oneOrMore Cho3)),  -- 94: DEP_ASSERT_PARSER_VALUES_EQ(+ PP{}, one_or_more_parser<PP>{}, + P{}, one_or_more_parser<P>{})
    .isTerm (tPlus (P Cho4)),  -- 94: DEP_ASSERT_UNARY_OPERABLE(+, PP{}, P{})
    .parsersEq (tPlus (P Cho4)) (P (.oneOrMore Cho4)),  -- 94: DEP_ASSERT_PARSER_VALUES_EQ(+ PP{}, one_or_more_parser<PP>{}, + P{}, one_or_more_parser<P>{})
    .isTerm (tPlus (P Cho5)),  -- 94: DEP_ASSERT_UNARY_OPERABLE(+, PP{}, P{})
    .parsersEq (tPlus (P Cho5)) (P (.oneOrMore Cho5)),  -- 94: DEP_ASSERT_PARSER_VALUES_EQ(+ PP{}, one_or_more_parser<PP>{}, + P{}, one_or_more_parser<P>{})
    .isTerm (tPlus (P Seq1)),  -- 94: DEP_ASSERT_UNARY_OPERABLE(+, PP{}, P{})
    .parsersEq (tPlus (P Seq1)) (P (.oneOrMore Seq1)),  -- 94: DEP_ASSERT_PARSER_VALUES_EQ(+ PP{}, one_or_more_parser<PP>{}, + P{}, one_or_more_parser<P>{})
    .isTerm (tPlus (P Seq2)),  -- 94: DEP_ASSERT_UNARY_OPERABLE(+, PP{}, P{})
    .parsersEq (tPlus (P Seq2)) (P (.oneOrMore Seq2)),  -- 94: DEP_ASSERT_PARSER_VALUES_EQ(+ PP{}, one_or_more_parser<PP>{}, + P{}, one_or_more_parser<P>{})
    .isTerm (tPlus (P Seq3)),  -- 94: DEP_ASSERT_UNARY_OPERABLE(+, PP{}, P{})
    .parsersEq (tPlus (P Seq3)) (P (.oneOrMore Seq3)),  -- 94: DEP_ASSERT_PARSER_VALUES_EQ(+ PP{}, one_or_more_parser<PP>{}, + P{}, one_or_more_parser<P>{})
    .isTerm (tPlus (P Seq4)),  -- 94: DEP_ASSERT_UNARY_OPERABLE(+, PP{}, P{})
    .parsersEq (tPlus (P Seq4)) (P (.oneOrMore Seq4)),  -- 94: DEP_ASSERT_PARSER_VALUES_EQ(+ PP{}, one_or_more_parser<PP>{}, + P{}, one_or_more_parser<P>{})
    .isTerm (tPlus (P Seq5)),  -- 94: DEP_ASSERT_UNARY_OPERABLE(+, PP{}, P{})
    .parsersEq (tPlus (P Seq5)) (P (.oneOrMore Seq5)),  -- 94: DEP_ASSERT_PARSER_VALUES_EQ(+ PP{}, one_or_more_parser<PP>{}, + P{}, one_or_more_parser<P>{})
    .isTerm (tPlus (P Joi1)),  -- 94: DEP_ASSERT_UNARY_OPERABLE(+, PP{}, P{})
    .parsersEq (tPlus (P Joi1)) (P (.oneOrMore Joi1)),  -- 94: DEP_ASSERT_PARSER_VALUES_EQ(+ PP{}, one_or_more_parser<PP>{}, + P{}, one_or_more_parser<P>{})
    .isTerm (tPlus (P Joi2)),  -- 94: DEP_ASSERT_UNARY_OPERABLE(+, PP{}, P{})
    .parsersEq (tPlus (P Joi2)) (P (.oneOrMore Joi2)),  -- 94: DEP_ASSERT_PARSER_VALUES_EQ(+ PP{}, one_or_more_parser<PP>{}, + P{}, one_or_more_parser<P>{})
    .isTerm (tPlus (P Joi3)),  -- 94: DEP_ASSERT_UNARY_OPERABLE(+, PP{}, P{})
    .parsersEq (tPlus (P Joi3)) (P (.oneOrMore Joi3)),  -- 94: DEP_ASSERT_PARSER_VALUES_EQ(+ PP{}, one_or_more_parser<PP>{}, + P{}, one_or_more_parser<P>{})
    .isTerm (tPlus (P Joi4)),  -- 94: DEP_ASSERT_UNARY_OPERABLE(+, PP{}, P{})
    .parsersEq (tPlus (P Joi4)) (P (.oneOrMore Joi4)),  -- 94: DEP_ASSERT_PARSER_VALUES_EQ(+ PP{}, one_or_more_parser<PP>{}, + P{}, one_or_more_parser<P>{})
    .isTerm (tPlus (P Joi5)),  -- 94: DEP_ASSERT_UNARY_OPERABLE(+, PP{}, P{})
    .parsersEq (tPlus (P Joi5)) (P (.oneOrMore Joi5)),  -- 94: DEP_ASSERT_PARSER_VALUES_EQ(+ PP{}, one_or_more_parser<PP>{}, + P{}, one_or_more_parser<P>{})
    .isTerm (tPlus (P Map1)),  -- 94: DEP_ASSERT_UNARY_OPERABLE(+, PP{}, P{})
    .parsersEq (tPlus (P Map1)) (P (.oneOrMore Map1)),  -- 94: DEP_ASSERT_PARSER_VALUES_EQ(+ PP{}, one_or_more_parser<PP>{}, + P{}, one_or_more_parser<P>{})
    .isTerm (tPlus (P Map2)),  -- 94: DEP_ASSERT_UNARY_OPERABLE(+, PP{}, P{})
    .parsersEq (tPlus (P Map2)) (P (.oneOrMore Map2)),  -- 94: DEP_ASSERT_PARSER_VALUES_EQ(+ PP{}, one_or_more_parser<PP>{}, + P{}, one_or_more_parser<P>{})
    .isTerm (tPlus (P Map3)),  -- 94: DEP_ASSERT_UNARY_OPERABLE(+, PP{}, P{})
    .parsersEq (tPlus (P Map3)) (P (.oneOrMore Map3)),  -- 94: DEP_ASSERT_PARSER_VALUES_EQ(+ PP{}, one_or_more_parser<PP>{}, + P{}, one_or_more_parser<P>{})
    .isTerm (tPlus (P Map4)),  -- 94: DEP_ASSERT_UNARY_OPERABLE(+, PP{}, P{})
    .parsersEq (tPlus (P Map4)) (P (.oneOrMore Map4)),  -- 94: DEP_ASSERT_PARSER_VALUES_EQ(+ PP{}, one_or_more_parser<PP>{}, + P{}, one_or_more_parser<P>{})
    .isTerm (tPlus (P Fil1)),  -- 94: DEP_ASSERT_UNARY_OPERABLE(+, PP{}, P{})
    .parsersEq (tPlus (P Fil1)) (P (.oneOrMore Fil1)),  -- 94: DEP_ASSERT_PARSER_VALUES_EQ(+ PP{}, one_or_more_parser<PP>{}, + P{}, one_or_more_parser<P>{})
    .isTerm (tPlus (P Fil2)),  -- 94: DEP_ASSERT_UNARY_OPERABLE(+, PP{}, P{})
    .parsersEq (tPlus (P Fil2)) (P (.oneOrMore Fil2)),  -- 94: DEP_ASSERT_PARSER_VALUES_EQ(+ PP{}, one_or_more_parser<PP>{}, + P{}, one_or_more_parser<P>{})
    .isTerm (tPlus (P Fil3)),  -- 94: DEP_ASSERT_UNARY_OPERABLE(+, PP{}, P{})
    .parsersEq (tPlus (P Fil3)) (P (.oneOrMore Fil3)),  -- 94: DEP_ASSERT_PARSER_VALUES_EQ(+ PP{}, one_or_more_parser<PP>{}, + P{}, one_or_more_parser<P>{})
    .isTerm (tPlus (P Apm1)),  -- 94: DEP_ASSERT_UNARY_OPERABLE(+, PP{}, P{})
    .parsersEq (tPlus (P Apm1)) (P (.oneOrMore Apm1)),  -- 94: DEP_ASSERT_PARSER_VALUES_EQ(+ PP{}, one_or_more_parser<PP>{}, + P{}, one_or_more_parser<P>{})
    .isTerm (tPlus (P Apm2)),  -- 94: DEP_ASSERT_UNARY_OPERABLE(+, PP{}, P{})
    .parsersEq (tPlus (P Apm2)) (P (.oneOrMore Apm2)),  -- 94: DEP_ASSERT_PARSER_VALUES_EQ(+ PP{}, one_or_more_parser<PP>{}, + P{}, one_or_more_parser<P>{})
    .isTerm (tPlus (P Apf1)),  -- 94: DEP_ASSERT_UNARY_OPERABLE(+, PP{}, P{})
    .parsersEq (tPlus (P Apf1)) (P (.oneOrMore Apf1))  -- 94: DEP_ASSERT_PARSER_VALUES_EQ(+ PP{}, one_or_more_parser<PP>{}, + P{}, one_or_more_parser<P>{})
    ], Assertion.Holds a :=
  Assertion.holds_of_check (by decide +kernel)

/-- one_or_more operator / +{anything} (tests/char-tests/operators/one_or_more.cpp:94) -/
theorem charOperatorsOneOrMore_4_3 : ∀ a ∈ [
    .isTerm (tPlus (P Int1)),  -- 94: DEP_ASSERT_UNARY_OPERABLE(+, PP{}, P{})
    .parsersEq (tPlus (P Int1)) (P (.oneOrMore Int1)),  -- 94: DEP_ASSERT_PARSER_VALUES_EQ(+ PP{}, one_or_more_parser<PP>{}, + P{}, one_or_more_parser<P>{})
    .isTerm (tPlus (P Int2)),  -- 94: DEP_ASSERT_UNARY_OPERABLE(+, PP{}, P{})
    .parsersEq (tPlus (P Int2)) (P (.oneOrMore Int2)),  -- 94: DEP_ASSERT_PARSER_VALUES_EQ(+ PP{}, one_or_more_parser<PP>{}, + P{}, one_or_more_parser<P>{})
    .isTerm (tPlus (P Int3)),  -- 94: DEP_ASSERT_UNARY_OPERABLE(+, PP{}, P{})
    .parsersEq (tPlus (P Int3)) (P (.oneOrMore Int3)),  -- 94: DEP_ASSERT_PARSER_VALUES_EQ(+ PP{}, one_or_more_parser<PP>{}, + P{}, one_or_more_parser<P>{})
    .isTerm (tPlus (P Api1)),  -- 94: DEP_ASSERT_UNARY_OPERABLE(+, PP{}, P{})
    .parsersEq (tPlus (P Api1)) (P (.oneOrMore Api1)),  -- 94: DEP_ASSERT_PARSER_VALUES_EQ(+ PP{}, one_or_more_parser<PP>{}, + P{}, one_or_more_parser<P>{})
    .isTerm (tPlus (P Api2)),  -- 94: DEP_ASSERT_UNARY_OPERABLE(+, PP{}, P{})
    .parsersEq (tPlus (P Api2)) (P (.oneOrMore Api2)),  -- 94: DEP_ASSERT_PARSER_VALUES_EQ(+ PP{}, one_or_more_parser<PP>{}, + P{}, one_or_more_parser<P>{})
    .isTerm (tPlus (P Con1)),  -- 94: DEP_ASSERT_UNARY_OPERABLE(+, PP{}, P{})
    .parsersEq (tPlus (P Con1)) (P (.oneOrMore Con1)),  -- 94: DEP_ASSERT_PARSER_VALUES_EQ(+ PP{}, one_or_more_parser<PP>{}, + P{}, one_or_more_parser<P>{})
    .isTerm (tPlus (P Con2)),  -- 94: DEP_ASSERT_UNARY_OPERABLE(+, PP{}, P{})
    .parsersEq (tPlus (P Con2)) (P (.oneOrMore Con2)),  -- 94: DEP_ASSERT_PARSER_VALUES_EQ(+ PP{}, one_or_more_parser<PP>{}, + P{}, one_or_more_parser<P>{})
    .isTerm (tPlus (P Con3)),  -- 94: DEP_ASSERT_UNARY_OPERABLE(+, PP{}, P{})
    .parsersEq (tPlus (P Con3)) (P (.oneOrMore Con3)),  -- 94: DEP_ASSERT_PARSER_VALUES_EQ(+ PP{}, one_or_more_parser<PP>{}, + P{}, one_or_more_parser<P>{})
    .isTerm (tPlus (P Con4)),  -- 94: DEP_ASSERT_UNARY_OPERABLE(+, PP{}, P{})
    .parsersEq (tPlus (P Con4)) (P (.oneOrMore Con4)),  -- 94: DEP_ASSERT_PARSER_VALUES_EQ(+ PP{}, one_or_more_parser<PP>{}, + P{}, one_or_more_parser<P>{})
    .isTerm (tPlus (P Def1)),  -- 94: DEP_ASSERT_UNARY_OPERABLE(+, PP{}, P{})
    .parsersEq (tPlus (P Def1)) (P (.oneOrMore Def1)),  -- 94: DEP_ASSERT_PARSER_VALUES_EQ(+ PP{}, one_or_more_parser<PP>{}, + P{}, one_or_more_parser<P>{})
    .isTerm (tPlus (P Def2)),  -- 94: DEP_ASSERT_UNARY_OPERABLE(+, PP{}, P{})
    .parsersEq (tPlus (P Def2)) (P (.oneOrMore Def2)),  -- 94: DEP_ASSERT_PARSER_VALUES_EQ(+ PP{}, one_or_more_parser<PP>{}, + P{}, one_or_more_parser<P>{})
    .isTerm (tPlus (P (.custom 0))),  -- 94: DEP_ASSERT_UNARY_OPERABLE(+, PP{}, P{})
    .parsersEq (tPlus (P (.custom 0))) (P (.oneOrMore (.custom 0))),  -- 94: DEP_ASSERT_PARSER_VALUES_EQ(+ PP{}, one_or_more_parser<PP>{}, + P{}, one_or_more_parser<P>{})
    .isTerm (tPlus (P (.custom 1))),  -- 94: DEP_ASSERT_UNARY_OPERABLE(+, PP{}, P{})
    .parsersEq (tPlus (P (.custom 1))) (P (.oneOrMore (.custom 1))),  -- 94: DEP_ASSERT_PARSER_VALUES_EQ(+ PP{}, one_or_more_parser<PP>{}, + P{}, one_or_more_parser<P>{})
    .isTerm (tPlus (P May1)),  -- 94: DEP_ASSERT_UNARY_OPERABLE(+, PP{}, P{})
    .parsersEq (tPlus (P May1)) (P (.zeroOrMore All1)),  -- 94: DEP_ASSERT_PARSER_VALUES_EQ(+ PP{}, zero_or_more_parser<underlying_t<PP>>{}, + P{}, zero_or_more_parser<underlying_t<P>>{})
    .isTerm (tPlus (P May2)),  -- 94: DEP_ASSERT_UNARY_OPERABLE(+, PP{}, P{})
    .parsersEq (tPlus (P May2)) (P (.zeroOrMore Any1)),  -- 94: DEP_ASSERT_PARSER_VALUES_EQ(+ PP{}, zero_or_more_parser<underlying_t<PP>>{}, + P{}, zero_or_more_parser<underlying_t<P>>{})
    .isTerm (tPlus (P May3)),  -- 94: DEP_ASSERT_UNARY_OPERABLE(+, PP{}, P{})
    .parsersEq (tPlus (P May3)) (P (.zeroOrMore s_13)),  -- 94: DEP_ASSERT_PARSER_VALUES_EQ(+ PP{}, zero_or_more_parser<underlying_t<PP>>{}, + P{}, zero_or_more_parser<underlying_t<P>>{})
    .isTerm (tPlus (P May4)),  -- 94: DEP_ASSERT_UNARY_OPERABLE(+, PP{}, P{})
    .parsersEq (tPlus (P May4)) (P (.zeroOrMore s_14)),  -- 94: DEP_ASSERT_PARSER_VALUES_EQ(+ PP{}, zero_or_more_parser<underlying_t<PP>>{}, + P{}, zero_or_more_parser<underlying_t<P>>{})
    .isTerm (tPlus (P Exa1)),  -- 94: DEP_ASSERT_UNARY_OPERABLE(+, PP{}, P{})
    .parsersEq (tPlus (P Exa1)) (P (.oneOrMore Exa1)),  -- 94: DEP_ASSERT_PARSER_VALUES_EQ(+ PP{}, one_or_more_parser<PP>{}, + P{}, one_or_more_parser<P>{})
    .isTerm (tPlus (P Exa2)),  -- 94: DEP_ASSERT_UNARY_OPERABLE(+, PP{}, P{})
    .parsersEq (tPlus (P Exa2)) (P (.oneOrMore Exa2)),  -- 94: DEP_ASSERT_PARSER_VALUES_EQ(+ PP{}, one_or_more_parser<PP>{}, + P{}, one_or_more_parser<P>{})
    .isTerm (tPlus (P Exa3)),  -- 94: DEP_ASSERT_UNARY_OPERABLE(+, PP{}, P{})
    .parsersEq (tPlus (P Exa3)) (P (.oneOrMore Exa3)),  -- 94: DEP_ASSERT_PARSER_VALUES_EQ(+ PP{}, one_or_more_parser<PP>{}, + P{}, one_or_more_parser<P>{})
    .isTerm (tPlus (P Exa4)),  -- 94: DEP_ASSERT_UNARY_OPERABLE(+, PP{}, P{})
    .parsersEq (tPlus (P Exa4)) (P (.oneOrMore Exa4)),  -- 94: DEP_ASSERT_PARSER_VALUES_EQ(+ PP{}, one_or_more_parser<PP>{}, + P{}, one_or_more_parser<P>{})
    .isTerm (tPlus (P Oom1)),  -- 94: DEP_ASSERT_UNARY_OPERABLE(+, PP{}, P{})
    .parsersEq (tPlus (P Oom1)) (P Oom1),  -- 94: DEP_ASSERT_PARSER_VALUES_EQ(+ PP{}, PP{}, + P{}, P{})
    .isTerm (tPlus (P Oom2)),  -- 94: DEP_ASSERT_UNARY_OPERABLE(+, PP{}, P{})
    .parsersEq (tPlus (P Oom2)) (P Oom2),  -- 94: DEP_ASSERT_PARSER_VALUES_EQ(+ PP{}, PP{}, + P{}, P{})
    .isTerm (tPlus (P Oom3)),  -- 94: DEP_ASSERT_UNARY_OPERABLE(+, PP{}, P{})
    .parsersEq (tPlus (P Oom3)) (P Oom3),  -- 94: DEP_ASSERT_PARSER_VALUES_EQ(+ PP{}, PP{}, + P{}, P{})
    .isTerm (tPlus (P Oom4)),  -- 94: DEP_ASSERT_UNARY_OPERABLE(+, PP{}, P{})
    .parsersEq (tPlus (P Oom4)) (P Oom4),  -- 94: DEP_ASSERT_PARSER_VALUES_EQ(+ PP{}, PP{}, + P{}, P{})
    .isTerm (tPlus (P Zom1)),  -- 94: DEP_ASSERT_UNARY_OPERABLE(+, PP{}, P{})
    .parsersEq (tPlus (P Zom1)) (P Zom1),  -- 94: DEP_ASSERT_PARSER_VALUES_EQ(+ PP{}, PP{}, + P{}, P{})
    .isTerm (tPlus (P Zom2)),  -- 94: DEP_ASSERT_UNARY_OPERABLE(+, PP{}, P{})
    .parsersEq (tPlus (P Zom2)) (P Zom2),  -- 94: DEP_ASSERT_PARSER_VALUES_EQ(+ PP{}, PP{}, + P{}, P{})
    .isTerm (tPlus (P Zom3)),  -- 94: DEP_ASSERT_UNARY_OPERABLE(+, PP{}, P{})
    .parsersEq (tPlus (P Zom3)) (P Zom3),  -- 94: DEP_ASSERT_PARSER_VALUES_EQ(+ PP{}, PP{}, + P{}, P{})
    .isTerm (tPlus (P Zom4)),  -- 94: DEP_ASSERT_UNARY_OPERABLE(+, PP{}, P{})
    .parsersEq (tPlus (P Zom4)) (P Zom4),  -- 94: DEP_ASSERT_PARSER_VALUES_EQ(+ PP{}, PP{}, + P{}, P{})
    .isTerm (tPlus (P Del1)),  -- 94: DEP_ASSERT_UNARY_OPERABLE(+, PP{}, P{})
    .parsersEq (tPlus (P Del1)) (P (.oneOrMore Del1))  -- 94: DEP_ASSERT_PARSER_VALUES_EQ(+ PP{}, one_or_more_parser<PP>{}, + P{}, one_or_more_parser<P>{})
    ], Assertion.Holds a :=
  Assertion.holds_of_check (by decide +kernel)

/-- one_or_more operator / +{anything} (tests/char-tests/operators/one_or_more.cpp:94) -/
theorem charOperatorsOneOrMore_4_4 : ∀ a ∈ [
    .isTerm (tPlus (P Del2)),  -- 94: DEP_ASSERT_UNARY_OPERABLE(+, PP{}, P{})
    .parsersEq (tPlus (P Del2)) (P (.oneOrMore Del2)),  -- 94: DEP_ASSERT_PARSER_VALUES_EQ(+ PP{}, one_or_more_parser<PP>{}, + P{}, one_or_more_parser<P>{})
    .isTerm (tPlus (P Del3)),  -- 94: DEP_ASSERT_UNARY_OPERABLE(+, PP{}, P{})
    .parsersEq (tPlus (P Del3)) (P (.oneOrMore Del3)),  -- 94: DEP_ASSERT_PARSER_VALUES_EQ(+ PP{}, one_or_more_parser<PP>{}, + P{}, one_or_more_parser<P>{})
    .isTerm (tPlus (P Del4)),  -- 94: DEP_ASSERT_UNARY_OPERABLE(+, PP{}, P{})
    .parsersEq (tPlus (P Del4)) (P (.oneOrMore Del4)),  -- 94: DEP_ASSERT_PARSER_VALUES_EQ(+ PP{}, one_or_more_parser<PP>{}, + P{}, one_or_more_parser<P>{})
    .isTerm (tPlus (P Del5)),  -- 94: DEP_ASSERT_UNARY_OPERABLE(+, PP{}, P{})
    .parsersEq (tPlus (P Del5)) (P (.oneOrMore Del5)),  -- 94: DEP_ASSERT_PARSER_VALUES_EQ(+ PP{}, one_or_more_parser<PP>{}, + P{}, one_or_more_parser<P>{})
    .isTerm (tPlus (P Del6)),  -- 94: DEP_ASSERT_UNARY_OPERABLE(+, PP{}, P{})
    .parsersEq (tPlus (P Del6)) (P (.oneOrMore Del6)),  -- 94: DEP_ASSERT_PARSER_VALUES_EQ(+ PP{}, one_or_more_parser<PP>{}, + P{}, one_or_more_parser<P>{})
    .isTerm (tPlus (P Del7)),  -- 94: DEP_ASSERT_UNARY_OPERABLE(+, PP{}, P{})
    .parsersEq (tPlus (P Del7)) (P (.oneOrMore Del7)),  -- 94: DEP_ASSERT_PARSER_VALUES_EQ(+ PP{}, one_or_more_parser<PP>{}, + P{}, one_or_more_parser<P>{})
    .isTerm (tPlus (P Del8)),  -- 94: DEP_ASSERT_UNARY_OPERABLE(+, PP{}, P{})
    .parsersEq (tPlus (P Del8)) (P (.oneOrMore Del8)),  -- 94: DEP_ASSERT_PARSER_VALUES_EQ(+ PP{}, one_or_more_parser<PP>{}, + P{}, one_or_more_parser<P>{})
    .isTerm (tPlus (P Dek1)),  -- 94: DEP_ASSERT_UNARY_OPERABLE(+, PP{}, P{})
    .parsersEq (tPlus (P Dek1)) (P (.oneOrMore Dek1)),  -- 94: DEP_ASSERT_PARSER_VALUES_EQ(+ PP{}, one_or_more_parser<PP>{}, + P{}, one_or_more_parser<P>{})
    .isTerm (tPlus (P Dek2)),  -- 94: DEP_ASSERT_UNARY_OPERABLE(+, PP{}, P{})
    .parsersEq (tPlus (P Dek2)) (P (.oneOrMore Dek2)),  -- 94: DEP_ASSERT_PARSER_VALUES_EQ(+ PP{}, one_or_more_parser<PP>{}, + P{}, one_or_more_parser<P>{})
    .isTerm (tPlus (P Dek3)),  -- 94: DEP_ASSERT_UNARY_OPERABLE(+, PP{}, P{})
    .parsersEq (tPlus (P Dek3)) (P (.oneOrMore Dek3)),  -- 94: DEP_ASSERT_PARSER_VALUES_EQ(+ PP{}, one_or_more_parser<PP>{}, + P{}, one_or_more_parser<P>{})
    .isTerm (tPlus (P Dek4)),  -- 94: DEP_ASSERT_UNARY_OPERABLE(+, PP{}, P{})
    .parsersEq (tPlus (P Dek4)) (P (.oneOrMore Dek4)),  -- 94: DEP_ASSERT_PARSER_VALUES_EQ(+ PP{}, one_or_more_parser<PP>{}, + P{}, one_or_more_parser<P>{})
    .isTerm (tPlus (P Dek5)),  -- 94: DEP_ASSERT_UNARY_OPERABLE(+, PP{}, P{})
    .parsersEq (tPlus (P Dek5)) (P (.oneOrMore Dek5)),  -- 94: DEP_ASSERT_PARSER_VALUES_EQ(+ PP{}, one_or_more_parser<PP>{}, + P{}, one_or_more_parser<P>{})
    .isTerm (tPlus (P Dek6)),  -- 94: DEP_ASSERT_UNARY_OPERABLE(+, PP{}, P{})
    .parsersEq (tPlus (P Dek6)) (P (.oneOrMore Dek6)),  -- 94: DEP_ASSERT_PARSER_VALUES_EQ(+ PP{}, one_or_more_parser<PP>{}, + P{}, one_or_more_parser<P>{})
    .isTerm (tPlus (P Dek7)),  -- 94: DEP_ASSERT_UNARY_OPERABLE(+, PP{}, P{})
    .parsersEq (tPlus (P Dek7)) (P (.oneOrMore Dek7)),  -- 94: DEP_ASSERT_PARSER_VALUES_EQ(+ PP{}, one_or_more_parser<PP>{}, + P{}, one_or_more_parser<P>{})
    .isTerm (tPlus (P Dek8)),  -- 94: DEP_ASSERT_UNARY_OPERABLE(+, PP{}, P{})
    .parsersEq (tPlus (P Dek8)) (P (.oneOrMore Dek8))  -- 94: DEP_ASSERT_PARSER_VALUES_EQ(+ PP{}, one_or_more_parser<PP>{}, + P{}, one_or_more_parser<P>{})
    ], Assertion.Holds a :=
  Assertion.holds_of_check (by decide +kernel)

end Tok3n.Tests
