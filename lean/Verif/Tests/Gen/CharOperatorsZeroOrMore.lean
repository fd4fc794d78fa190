import Verif.Tests.Gen.SamplesChar
/- Generated by tools/tests2lean.py from tests/char-tests/operators/zero_or_more.cpp. -/

namespace Tok3n.Tests

/-- zero_or_more operator / *maybe_parser (tests/char-tests/operators/zero_or_more.cpp:14) -/
theorem charOperatorsZeroOrMore_1 : ∀ a ∈ [
    .parsersEq (tStar (P May1)) (P Zom1),  -- 14: ASSERT_PARSER_VALUES_EQ(* may1, zom1)
    .parsersEq (tStar (tStar (P May1))) (P Zom1),  -- 15: ASSERT_PARSER_VALUES_EQ(* * may1, zom1)
    .parsersEq (tStar (tStar (tStar (P May1)))) (P Zom1),  -- 16: ASSERT_PARSER_VALUES_EQ(* * * may1, zom1)
    .parsersEq (tStar (P May2)) (P Zom2),  -- 17: ASSERT_PARSER_VALUES_EQ(* may2, zom2)
    .parsersEq (tStar (tStar (P May2))) (P Zom2),  -- 18: ASSERT_PARSER_VALUES_EQ(* * may2, zom2)
    .parsersEq (tStar (tStar (tStar (P May2)))) (P Zom2),  -- 19: ASSERT_PARSER_VALUES_EQ(* * * may2, zom2)
    .parsersEq (tStar (P May3)) (P Zom3),  -- 20: ASSERT_PARSER_VALUES_EQ(* may3, zom3)
    .parsersEq (tStar (tStar (P May3))) (P Zom3),  -- 21: ASSERT_PARSER_VALUES_EQ(* * may3, zom3)
    .parsersEq (tStar (tStar (tStar (P May3)))) (P Zom3),  -- 22: ASSERT_PARSER_VALUES_EQ(* * * may3, zom3)
    .parsersEq (tStar (P May4)) (P Zom4),  -- 23: ASSERT_PARSER_VALUES_EQ(* may4, zom4)
    .parsersEq (tStar (tStar (P May4))) (P Zom4),  -- 24: ASSERT_PARSER_VALUES_EQ(* * may4, zom4)
    .parsersEq (tStar (tStar (tStar (P May4)))) (P Zom4)  -- 25: ASSERT_PARSER_VALUES_EQ(* * * may4, zom4)
    ], Assertion.Holds a :=
  Assertion.holds_of_check (by decide +kernel)

/-- zero_or_more operator / *one_or_more_parser (tests/char-tests/operators/zero_or_more.cpp:30) -/
theorem charOperatorsZeroOrMore_2 : ∀ a ∈ [
    .parsersEq (tStar (P Oom1)) (P Zom1),  -- 30: ASSERT_PARSER_VALUES_EQ(* oom1, zom1)
    .parsersEq (tStar (tStar (P Oom1))) (P Zom1),  -- 31: ASSERT_PARSER_VALUES_EQ(* * oom1, zom1)
    .parsersEq (tStar (tStar (tStar (P Oom1)))) (P Zom1),  -- 32: ASSERT_PARSER_VALUES_EQ(* * * oom1, zom1)
    .parsersEq (tStar (P Oom2)) (P Zom2),  -- 33: ASSERT_PARSER_VALUES_EQ(* oom2, zom2)
    .parsersEq (tStar (tStar (P Oom2))) (P Zom2),  -- 34: ASSERT_PARSER_VALUES_EQ(* * oom2, zom2)
    .parsersEq (tStar (tStar (tStar (P Oom2)))) (P Zom2),  -- 35: ASSERT_PARSER_VALUES_EQ(* * * oom2, zom2)
    .parsersEq (tStar (P Oom3)) (P Zom3),  -- 36: ASSERT_PARSER_VALUES_EQ(* oom3, zom3)
    .parsersEq (tStar (tStar (P Oom3))) (P Zom3),  -- 37: ASSERT_PARSER_VALUES_EQ(* * oom3, zom3)
    .parsersEq (tStar (tStar (tStar (P Oom3)))) (P Zom3),  -- 38: ASSERT_PARSER_VALUES_EQ(* * * oom3, zom3)
    .parsersEq (tStar (P Oom4)) (P Zom4),  -- 39: ASSERT_PARSER_VALUES_EQ(* oom4, zom4)
    .parsersEq (tStar (tStar (P Oom4))) (P Zom4),  -- 40: ASSERT_PARSER_VALUES_EQ(* * oom4, zom4)
    .parsersEq (tStar (tStar (tStar (P Oom4)))) (P Zom4)  -- 41: ASSERT_PARSER_VALUES_EQ(* * * oom4, zom4)
    ], Assertion.Holds a :=
  Assertion.holds_of_check (by decide +kernel)

/-- zero_or_more operator / *zero_or_more_parser (tests/char-tests/operators/zero_or_more.cpp:46) -/
theorem charOperatorsZeroOrMore_3 : ∀ a ∈ [
    .parsersEq (tStar (P Zom1)) (P Zom1),  -- 46: ASSERT_PARSER_VALUES_EQ(* zom1, zom1)
    .parsersEq (tStar (tStar (P Zom1))) (P Zom1),  -- 47: ASSERT_PARSER_VALUES_EQ(* * zom1, zom1)
    .parsersEq (tStar (tStar (tStar (P Zom1)))) (P Zom1),  -- 48: ASSERT_PARSER_VALUES_EQ(* * * zom1, zom1)
    .parsersEq (tStar (P Zom2)) (P Zom2),  -- 49: ASSERT_PARSER_VALUES_EQ(* zom2, zom2)
    .parsersEq (tStar (tStar (P Zom2))) (P Zom2),  -- 50: ASSERT_PARSER_VALUES_EQ(* * zom2, zom2)
    .parsersEq (tStar (tStar (tStar (P Zom2)))) (P Zom2),  -- 51: ASSERT_PARSER_VALUES_EQ(* * * zom2, zom2)
    .parsersEq (tStar (P Zom3)) (P Zom3),  -- 52: ASSERT_PARSER_VALUES_EQ(* zom3, zom3)
    .parsersEq (tStar (tStar (P Zom3))) (P Zom3),  -- 53: ASSERT_PARSER_VALUES_EQ(* * zom3, zom3)
    .parsersEq (tStar (tStar (tStar (P Zom3)))) (P Zom3),  -- 54: ASSERT_PARSER_VALUES_EQ(* * * zom3, zom3)
    .parsersEq (tStar (P Zom4)) (P Zom4),  -- 55: ASSERT_PARSER_VALUES_EQ(* zom4, zom4)
    .parsersEq (tStar (tStar (P Zom4))) (P Zom4),  -- 56: ASSERT_PARSER_VALUES_EQ(* * zom4, zom4)
    .parsersEq (tStar (tStar (tStar (P Zom4)))) (P Zom4)  -- 57: ASSERT_PARSER_VALUES_EQ(* * * zom4, zom4)
    ], Assertion.Holds a :=
  Assertion.holds_of_check (by decide +kernel)

/-- zero_or_more operator / *{anything} (tests/char-tests/operators/zero_or_more.cpp:94) -/
theorem charOperatorsZeroOrMore_4_1 : ∀ a ∈ [
    .isTerm (tStar (P Ign1)),  -- 94: DEP_ASSERT_UNARY_OPERABLE(*, PP{}, P{})
    .parsersEq (tStar (P Ign1)) (P (.zeroOrMore Ign1)),  -- 94: DEP_ASSERT_PARSER_VALUES_EQ(* PP{}, zero_or_more_parser<PP>{}, * P{}, zero_or_more_parser<P>{})
    .isTerm (tStar (P Ign2)),  -- 94: DEP_ASSERT_UNARY_OPERABLE(*, PP{}, P{})
    .parsersEq (tStar (P Ign2)) (P (.zeroOrMore Ign2)),  -- 94: DEP_ASSERT_PARSER_VALUES_EQ(* PP{}, zero_or_more_parser<PP>{}, * P{}, zero_or_more_parser<P>{})
    .isTerm (tStar (P Ign3)),  -- 94: DEP_ASSERT_UNARY_OPERABLE(*, PP{}, P{})
    .parsersEq (tStar (P Ign3)) (P (.zeroOrMore Ign3)),  -- 94: DEP_ASSERT_PARSER_VALUES_EQ(* PP{}, zero_or_more_parser<PP>{}, * P{}, zero_or_more_parser<P>{})
    .isTerm (tStar (P Ign4)),  -- 94: DEP_ASSERT_UNARY_OPERABLE(*, PP{}, P{})
    .parsersEq (tStar (P Ign4)) (P (.zeroOrMore Ign4)),  -- 94: DEP_ASSERT_PARSER_VALUES_EQ(* PP{}, zero_or_more_parser<PP>{}, * P{}, zero_or_more_parser<P>{})
    .isTerm (tStar (P Ign5)),  -- 94: DEP_ASSERT_UNARY_OPERABLE(*, PP{}, P{})
    .parsersEq (tStar (P Ign5)) (P (.zeroOrMore Ign5)),  -- 94: DEP_ASSERT_PARSER_VALUES_EQ(* PP{}, zero_or_more_parser<PP>{}, * P{}, zero_or_more_parser<P>{})
    .isTerm (tStar (P Com1)),  -- 94: DEP_ASSERT_UNARY_OPERABLE(*, PP{}, P{})
    .parsersEq (tStar (P Com1)) (P (.zeroOrMore Com1)),  -- 94: DEP_ASSERT_PARSER_VALUES_EQ(* PP{}, zero_or_more_parser<PP>{}, * P{}, zero_or_more_parser<P>{})
    .isTerm (tStar (P Com2)),  -- 94: DEP_ASSERT_UNARY_OPERABLE(*, PP{}, P{})
    .parsersEq (tStar (P Com2)) (P (.zeroOrMore Com2)),  -- 94: DEP_ASSERT_PARSER_VALUES_EQ(* PP{}, zero_or_more_parser<PP>{}, * P{}, zero_or_more_parser<P>{})
    .isTerm (tStar (P Com3)),  -- 94: DEP_ASSERT_UNARY_OPERABLE(*, PP{}, P{})
    .parsersEq (tStar (P Com3)) (P (.zeroOrMore Com3)),  -- 94: DEP_ASSERT_PARSER_VALUES_EQ(* PP{}, zero_or_more_parser<PP>{}, * P{}, zero_or_more_parser<P>{})
    .isTerm (tStar (P Com4)),  -- 94: DEP_ASSERT_UNARY_OPERABLE(*, PP{}, P{})
    .parsersEq (tStar (P Com4)) (P (.zeroOrMore Com4)),  -- 94: DEP_ASSERT_PARSER_VALUES_EQ(* PP{}, zero_or_more_parser<PP>{}, * P{}, zero_or_more_parser<P>{})
    .isTerm (tStar (P Com5)),  -- 94: DEP_ASSERT_UNARY_OPERABLE(*, PP{}, P{})
    .parsersEq (tStar (P Com5)) (P (.zeroOrMore Com5)),  -- 94: DEP_ASSERT_PARSER_VALUES_EQ(* PP{}, zero_or_more_parser<PP>{}, * P{}, zero_or_more_parser<P>{})
    .isTerm (tStar (P Com6)),  -- 94: DEP_ASSERT_UNARY_OPERABLE(*, PP{}, P{})
    .parsersEq (tStar (P Com6)) (P (.zeroOrMore Com6)),  -- 94: DEP_ASSERT_PARSER_VALUES_EQ(* PP{}, zero_or_more_parser<PP>{}, * P{}, zero_or_more_parser<P>{})
    .isTerm (tStar (P Com7)),  -- 94: DEP_ASSERT_UNARY_OPERABLE(*, PP{}, P{})
    .parsersEq (tStar (P Com7)) (P (.zeroOrMore Com7)),  -- 94: DEP_ASSERT_PARSER_VALUES_EQ(* PP{}, zero_or_more_parser<PP>{}, * P{}, zero_or_more_parser<P>{})
    .isTerm (tStar (P Nam1)),  -- 94: DEP_ASSERT_UNARY_OPERABLE(*, PP{}, P{})
    .parsersEq (tStar (P Nam1)) (P (.zeroOrMore Nam1)),  -- 94: DEP_ASSERT_PARSER_VALUES_EQ(* PP{}, zero_or_more_parser<PP>{}, * P{}, zero_or_more_parser<P>{})
    .isTerm (tStar (P Nam2)),  -- 94: DEP_ASSERT_UNARY_OPERABLE(*, PP{}, P{})
    .parsersEq (tStar (P Nam2)) (P (.zeroOrMore Nam2)),  -- 94: DEP_ASSERT_PARSER_VALUES_EQ(* PP{}, zero_or_more_parser<PP>{}, * P{}, zero_or_more_parser<P>{})
    .isTerm (tStar (P Nam3)),  -- 94: DEP_ASSERT_UNARY_OPERABLE(*, PP{}, P{})
    .parsersEq (tStar (P Nam3)) (P (.zeroOrMore Nam3)),  -- 94: DEP_ASSERT_PARSER_VALUES_EQ(* PP{}, zero_or_more_parser<PP>{}, * P{}, zero_or_more_parser<P>{})
    .isTerm (tStar (P Nam4)),  -- 94: DEP_ASSERT_UNARY_OPERABLE(*, PP{}, P{})
    .parsersEq (tStar (P Nam4)) (P (.zeroOrMore Nam4)),  -- 94: DEP_ASSERT_PARSER_VALUES_EQ(* PP{}, zero_or_more_parser<PP>{}, * P{}, zero_or_more_parser<P>{})
    .isTerm (tStar (P Any1)),  -- 94: DEP_ASSERT_UNARY_OPERABLE(*, PP{}, P{})
    .parsersEq (tStar (P Any1)) (P (.zeroOrMore Any1)),  -- 94: DEP_ASSERT_PARSER_VALUES_EQ(* PP{}, zero_or_more_parser<PP>{}, * P{}, zero_or_more_parser<P>{})
    .isTerm (tStar (P Any2)),  -- 94: DEP_ASSERT_UNARY_OPERABLE(*, PP{}, P{})
    .parsersEq (tStar (P Any2)) (P (.zeroOrMore Any2)),  -- 94: DEP_ASSERT_PARSER_VALUES_EQ(* PP{}, zero_or_more_parser<PP>{}, * P{}, zero_or_more_parser<P>{})
    .isTerm (tStar (P Any3)),  -- 94: DEP_ASSERT_UNARY_OPERABLE(*, PP{}, P{})
    .parsersEq (tStar (P Any3)) (P (.zeroOrMore Any3)),  -- 94: DEP_ASSERT_PARSER_VALUES_EQ(* PP{}, zero_or_more_parser<PP>{}, * P{}, zero_or_more_parser<P>{})
    .isTerm (tStar (P Any4)),  -- 94: DEP_ASSERT_UNARY_OPERABLE(*, PP{}, P{})
    .parsersEq (tStar (P Any4)) (P (.zeroOrMore Any4)),  -- 94: DEP_ASSERT_PARSER_VALUES_EQ(* PP{}, zero_or_more_parser<PP>{}, * P{}, zero_or_more_parser<P>{})
    .isTerm (tStar (P Non1)),  -- 94: DEP_ASSERT_UNARY_OPERABLE(*, PP{}, P{})
    .parsersEq (tStar (P Non1)) (P (.zeroOrMore Non1)),  -- 94: DEP_ASSERT_PARSER_VALUES_EQ(* PP{}, zero_or_more_parser<PP>{}, * P{}, zero_or_more_parser<P>{})
    .isTerm (tStar (P Non2)),  -- 94: DEP_ASSERT_UNARY_OPERABLE(*, PP{}, P{})
    .parsersEq (tStar (P Non2)) (P (.zeroOrMore Non2)),  -- 94: DEP_ASSERT_PARSER_VALUES_EQ(* PP{}, zero_or_more_parser<PP>{}, * P{}, zero_or_more_parser<P>{})
    .isTerm (tStar (P Non3)),  -- 94: DEP_ASSERT_UNARY_OPERABLE(*, PP{}, P{})
    .parsersEq (tStar (P Non3)) (P (.zeroOrMore Non3)),  -- 94: DEP_ASSERT_PARSER_VALUES_EQ(* PP{}, zero_or_more_parser<PP>{}, * P{}, zero_or_more_parser<P>{})
    .isTerm (tStar (P Non4)),  -- 94: DEP_ASSERT_UNARY_OPERABLE(*, PP{}, P{})
    .parsersEq (tStar (P Non4)) (P (.zeroOrMore Non4)),  -- 94: DEP_ASSERT_PARSER_VALUES_EQ(* PP{}, zero_or_more_parser<PP>{}, * P{}, zero_or_more_parser<P>{})
    .isTerm (tStar (P Non5)),  -- 94: DEP_ASSERT_UNARY_OPERABLE(*, PP{}, P{})
    .parsersEq (tStar (P Non5)) (P (.zeroOrMore Non5)),  -- 94: DEP_ASSERT_PARSER_VALUES_EQ(* PP{}, zero_or_more_parser<PP>{}, * P{}, zero_or_more_parser<P>{})
    .isTerm (tStar (P All1)),  -- 94: DEP_ASSERT_UNARY_OPERABLE(*, PP{}, P{})
    .parsersEq (tStar (P All1)) (P (.zeroOrMore All1)),  -- 94: DEP_ASSERT_PARSER_VALUES_EQ(* PP{}, zero_or_more_parser<PP>{}, * P{}, zero_or_more_parser<P>{})
    .isTerm (tStar (P All2)),  -- 94: DEP_ASSERT_UNARY_OPERABLE(*, PP{}, P{})
    .parsersEq (tStar (P All2)) (P (.zeroOrMore All2)),  -- 94: DEP_ASSERT_PARSER_VALUES_EQ(* PP{}, zero_or_more_parser<PP>{}, * P{}, zero_or_more_parser<P>{})
    .isTerm (tStar (P All3)),  -- 94: DEP_ASSERT_UNARY_OPERABLE(*, PP{}, P{})
    .parsersEq (tStar (P All3)) (P (.zeroOrMore All3)),  -- 94: DEP_ASSERT_PARSER_VALUES_EQ(* PP{}, zero_or_more_parser<PP>{}, * P{}, zero_or_more_parser<P>{})
    .isTerm (tStar (P All4)),  -- 94: DEP_ASSERT_UNARY_OPERABLE(*, PP{}, P{})
    .parsersEq (tStar (P All4)) (P (.zeroOrMore All4)),  -- 94: DEP_ASSERT_PARSER_VALUES_EQ(* PP{}, zero_or_more_parser<PP>{}, * P{}, zero_or_more_parser<P>{})
    .isTerm (tStar (P Eps1)),  -- 94: DEP_ASSERT_UNARY_OPERABLE(*, PP{}, P{})
    .parsersEq (tStar (P Eps1)) (P (.zeroOrMore Eps1))  -- 94: DEP_ASSERT_PARSER_VALUES_EQ(* PP{}, zero_or_more_parser<PP>{}, * P{}, zero_or_more_parser<P>{})
    ], Assertion.Holds a :=
  Assertion.holds_of_check (by decide +kernel)

/-- zero_or_more operator / *{anything} (tests/char-tests/operators/zero_or_more.cpp:94) -/
theorem charOperatorsZeroOrMore_4_2 : ∀ a ∈ [
    .isTerm (tStar (P Ant1)),  -- 94: DEP_ASSERT_UNARY_OPERABLE(*, PP{}, P{})
    .parsersEq (tStar (P Ant1)) (P (.zeroOrMore Ant1)),  -- 94: DEP_ASSERT_PARSER_VALUES_EQ(* PP{}, zero_or_more_parser<PP>{}, * P{}, zero_or_more_parser<P>{})
    .isTerm (tStar (P QQ)),  -- 94: DEP_ASSERT_UNARY_OPERABLE(*, PP{}, P{})
    .parsersEq (tStar (P QQ)) (P (.zeroOrMore QQ)),  -- 94: DEP_ASSERT_PARSER_VALUES_EQ(* PP{}, zero_or_more_parser<PP>{}, * P{}, zero_or_more_parser<P>{})
    .isTerm (tStar (P ABC)),  -- 94: DEP_ASSERT_UNARY_OPERABLE(*, PP{}, P{})
    .parsersEq (tStar (P ABC)) (P (.zeroOrMore ABC)),  -- 94: DEP_ASSERT_PARSER_VALUES_EQ(* PP{}, zero_or_more_parser<PP>{}, * P{}, zero_or_more_parser<P>{})
    .isTerm (tStar (P Comma)),  -- 94: DEP_ASSERT_UNARY_OPERABLE(*, PP{}, P{})
    .parsersEq (tStar (P Comma)) (P (.zeroOrMore Comma)),  -- 94: DEP_ASSERT_PARSER_VALUES_EQ(* PP{}, zero_or_more_parser<PP>{}, * P{}, zero_or_more_parser<P>{})
    .isTerm (tStar (P SpaceDot)),  -- 94: DEP_ASSERT_UNARY_OPERABLE(*, PP{}, P{})
    .parsersEq (tStar (P SpaceDot)) (P (.zeroOrMore SpaceDot)),  -- 94: DEP_ASSERT_PARSER_VALUES_EQ(* PP{}, zero_or_more_parser<PP>{}, * P{}, zero_or_more_parser<P>{})
    .isTerm (tStar (P Cho1)),  -- 94: DEP_ASSERT_UNARY_OPERABLE(*, PP{}, P{})
    .parsersEq (tStar (P Cho1)) (P (.zeroOrMore Cho1)),  -- 94: DEP_ASSERT_PARSER_VALUES_EQ(* PP{}, zero_or_more_parser<PP>{}, * P{}, zero_or_more_parser<P>{})
    .isTerm (tStar (P Cho2)),  -- 94: DEP_ASSERT_UNARY_OPERABLE(*, PP{}, P{})
    .parsersEq (tStar (P Cho2)) (P (.zeroOrMore Cho2)),  -- 94: DEP_ASSERT_PARSER_VALUES_EQ(* PP{}, zero_or_more_parser<PP>{}, * P{}, zero_or_more_parser<P>{})
    .isTerm (tStar (P Cho3)),  -- 94: DEP_ASSERT_UNARY_OPERABLE(*, PP{}, P{})
    .parsersEq (tStar (P Cho3)) (P (.zeroOrMore Cho3)),  -- 94: DEP_ASSERT_PARSER_VALUES_EQ(* PP{}, zero_or_more_parser<PP>{}, * P{}, zero_or_more_parser<P>{})
    .isTerm (tStar (P Cho4)),  -- 94: DEP_ASSERT_UNARY_OPERABLE(*, PP{}, P{})
    .parsersEq (tStar (P Cho4)) (P (.zeroOrMore Cho4)),  -- 94: DEP_ASSERT_PARSER_VALUES_EQ(* PP{}, zero_or_more_parser<PP>{}, * P{}, zero_or_more_parser<P>{})
    .isTerm (tStar (P Cho5)),  -- 94: DEP_ASSERT_UNARY_OPERABLE(*, PP{}, P{})
    .parsersEq (tStar (P Cho5)) (P (.zeroOrMore Cho5)),  -- 94: DEP_ASSERT_PARSER_VALUES_EQ(* PP{}, zero_or_more_parser<PP>{}, * P{}, zero_or_more_parser<P>{})
    .isTerm (tStar (P Seq1)),  -- 94: DEP_ASSERT_UNARY_OPERABLE(*, PP{}, P{})
    .parsersEq (tStar (P Seq1)) (P (.zeroOrMore Seq1)),  -- 94: DEP_ASSERT_PARSER_VALUES_EQ(* PP{}, zero_or_more_parser<PP>{}, * P{}, zero_or_more_parser<P>{})
    .isTerm (tStar (P Seq2)),  -- 94: DEP_ASSERT_UNARY_OPERABLE(*, PP{}, P{})
    .parsersEq (tStar (P Seq2)) (P (.zeroOrMore Seq2)),  -- 94: DEP_ASSERT_PARSER_VALUES_EQ(* PP{}, zero_or_more_parser<PP>{}, * P{}, zero_or_more_parser<P>{})
    .isTerm (tStar (P Seq3)),  -- 94: DEP_ASSERT_UNARY_OPERABLE(*, PP{}, P{})
    .parsersEq (tStar (P Seq3)) (P (.zeroOrMore Seq3)),  -- 94: DEP_ASSERT_PARSER_VALUES_EQ(* PP{}, zero_or_more_parser<PP>{}, * P{}, zero_or_more_parser<P>{})
    .isTerm (tStar (P Seq4)),  -- 94: DEP_ASSERT_UNARY_OPERABLE(*, PP{}, P{})
    .parsersEq (tStar (P Seq4)) (P (.zeroOrMore Seq4)),  -- 94: DEP_ASSERT_PARSER_VALUES_EQ(* PP{}, zero_or_more_parser<PP>{}, * P{}, zero_or_more_parser<P>{})
    .isTerm (tStar (P Seq5)),  -- 94: DEP_ASSERT_UNARY_OPERABLE(*, PP{}, P{})
    .parsersEq (tStar (P Seq5)) (P (.zeroOrMore Seq5)),  -- 94: DEP_ASSERT_PARSER_VALUES_EQ(* PP{}, zero_or_more_parser<PP>{}, * P{}, zero_or_more_parser<P>{})
    .isTerm (tStar (P Joi1)),  -- 94: DEP_ASSERT_UNARY_OPERABLE(*, PP{}, P{})
    .parsersEq (tStar (P Joi1)) (P (.zeroOrMore Joi1)),  -- 94: DEP_ASSERT_PARSER_VALUES_EQ(* PP{}, zero_or_more_parser<PP>{}, * P{}, zero_or_more_parser<P>{})
    .isTerm (tStar (P Joi2)),  -- 94: DEP_ASSERT_UNARY_OPERABLE(*, PP{}, P{})
    .parsersEq (tStar (P Joi2)) (P (.zeroOrMore Joi2)),  -- 94: DEP_ASSERT_PARSER_VALUES_EQ(* PP{}, zero_or_more_parser<PP>{}, * P{}, zero_or_more_parser<P>{})
    .isTerm (tStar (P Joi3)),  -- 94: DEP_ASSERT_UNARY_OPERABLE(*, PP{}, P{})
    .parsersEq (tStar (P Joi3)) (P (.zeroOrMore Joi3)),  -- 94: DEP_ASSERT_PARSER_VALUES_EQ(* PP{}, zero_or_more_parser<PP>{}, * P{}, zero_or_more_parser<P>{})
    .isTerm (tStar (P Joi4)),  -- 94: DEP_ASSERT_UNARY_OPERABLE(*, PP{}, P{})
    .parsersEq (tStar (P Joi4)) (P (.zeroOrMore Joi4)),  -- 94: DEP_ASSERT_PARSER_VALUES_EQ(* PP{}, zero_or_more_parser<PP>{}, * P{}, zero_or_more_parser<P>{})
    .isTerm (tStar (P Joi5)),  -- 94: DEP_ASSERT_UNARY_OPERABLE(*, PP{}, P{})
    .parsersEq (tStar (P Joi5)) (P (.zeroOrMore Joi5)),  -- 94: DEP_ASSERT_PARSER_VALUES_EQ(* PP{}, zero_or_more_parser<PP>{}, * P{}, zero_or_more_parser<P>{})
    .isTerm (tStar (P Map1)),  -- 94: DEP_ASSERT_UNARY_OPERABLE(*, PP{}, P{})
    .parsersEq (tStar (P Map1)) (P (.zeroOrMore Map1)),  -- 94: DEP_ASSERT_PARSER_VALUES_EQ(* PP{}, zero_or_more_parser<PP>{}, * P{}, zero_or_more_parser<P>{})
    .isTerm (tStar (P Map2)),  -- 94: DEP_ASSERT_UNARY_OPERABLE(*, PP{}, P{})
    .parsersEq (tStar (P Map2)) (P (.zeroOrMore Map2)),  -- 94: DEP_ASSERT_PARSER_VALUES_EQ(* PP{}, zero_or_more_parser<PP>{}, * P{}, zero_or_more_parser<P>{})
    .isTerm (tStar (P Map3)),  -- 94: DEP_ASSERT_UNARY_OPERABLE(*, PP{}, P{})
    .parsersEq (tStar (P Map3)) (P (.zeroOrMore Map3)),  -- 94: DEP_ASSERT_PARSER_VALUES_EQ(* PP{}, zero_or_more_parser<PP>{}, * P{}, zero_or_more_parser<P>{})
    .isTerm (tStar (P Map4)),  -- 94: DEP_ASSERT_UNARY_OPERABLE(*, PP{}, P{})
    .parsersEq (tStar (P Map4)) (P (.zeroOrMore Map4)),  -- 94: DEP_ASSERT_PARSER_VALUES_EQ(* PP{}, zero_or_more_parser<PP>{}, * P{}, zero_or_more_parser<P>{})
    .isTerm (tStar (P Fil1)),  -- 94: DEP_ASSERT_UNARY_OPERABLE(*, PP{}, P{})
    .parsersEq (tStar (P Fil1)) (P (.zeroOrMore Fil1)),  -- 94: DEP_ASSERT_PARSER_VALUES_EQ(* PP{}, zero_or_more_parser<PP>{}, * P{}, zero_or_more_parser<P>{})
    .isTerm (tStar (P Fil2)),  -- 94: DEP_ASSERT_UNARY_OPERABLE(*, PP{}, P{})
    .parsersEq (tStar (P Fil2)) (P (.zeroOrMore Fil2)),  -- 94: DEP_ASSERT_PARSER_VALUES_EQ(* PP{}, zero_or_more_parser<PP>{}, * P{}, zero_or_more_parser<P>{})
    .isTerm (tStar (P Fil3)),  -- 94: DEP_ASSERT_UNARY_OPERABLE(*, PP{}, P{})
    .parsersEq (tStar (P Fil3)) (P (.zeroOrMore Fil3)),  -- 94: DEP_ASSERT_PARSER_VALUES_EQ(* PP{}, zero_or_more_parser<PP>{}, * P{}, zero_or_more_parser<P>{})
    .isTerm (tStar (P Apm1)),  -- 94: DEP_ASSERT_UNARY_OPERABLE(*, PP{}, P{})
    .parsersEq (tStar (P Apm1)) (P (.zeroOrMore Apm1)),  -- 94: DEP_ASSERT_PARSER_VALUES_EQ(* PP{}, zero_or_more_parser<PP>{}, * P{}, zero_or_more_parser<P>{})
    .isTerm (tStar (P Apm2)),  -- 94: DEP_ASSERT_UNARY_OPERABLE(*, PP{}, P{})
    .parsersEq (tStar (P Apm2)) (P (.zeroOrMore Apm2)),  -- 94: DEP_ASSERT_PARSER_VALUES_EQ(* PP{}, zero_or_more_parser<PP>{}, * P{}, zero_or_more_parser<P>{})
    .isTerm (tStar (P Apf1)),  -- 94: DEP_ASSERT_UNARY_OPERABLE(*, PP{}, P{})
    .parsersEq (tStar (P Apf1)) (P (.zeroOrMore Apf1))  -- 94: DEP_ASSERT_PARSER_VALUES_EQ(* PP{}, zero_or_more_parser<PP>{}, * P{}, zero_or_more_parser<P>{})
    ], Assertion.Holds a :=
  Assertion.holds_of_check (by decide +kernel)

/-- zero_or_more operator / *{anything} (tests/char-tests/operators/zero_or_more.cpp:94) -/
theorem charOperatorsZeroOrMore_4_3 : ∀ a ∈ [
    .isTerm (tStar (P Int1)),  -- 94: DEP_ASSERT_UNARY_OPERABLE(*, PP{}, P{})
    .parsersEq (tStar (P Int1)) (P (.zeroOrMore Int1)),  -- 94: DEP_ASSERT_PARSER_VALUES_EQ(* PP{}, zero_or_more_parser<PP>{}, * P{}, zero_or_more_parser<P>{})
    .isTerm (tStar (P Int2)),  -- 94: DEP_ASSERT_UNARY_OPERABLE(*, PP{}, P{})
    .parsersEq (tStar (P Int2)) (P (.zeroOrMore Int2)),  -- 94: DEP_ASSERT_PARSER_VALUES_EQ(* PP{}, zero_or_more_parser<PP>{}, * P{}, zero_or_more_parser<P>{})
    .isTerm (tStar (P Int3)),  -- 94: DEP_ASSERT_UNARY_OPERABLE(*, PP{}, P{})
    .parsersEq (tStar (P Int3)) (P (.zeroOrMore Int3)),  -- 94: DEP_ASSERT_PARSER_VALUES_EQ(* PP{}, zero_or_more_parser<PP>{}, * P{}, zero_or_more_parser<P>{})
    .isTerm (tStar (P Api1)),  -- 94: DEP_ASSERT_UNARY_OPERABLE(*, PP{}, P{})
    .parsersEq (tStar (P Api1)) (P (.zeroOrMore Api1)),  -- 94: DEP_ASSERT_PARSER_VALUES_EQ(* PP{}, zero_or_more_parser<PP>{}, * P{}, zero_or_more_parser<P>{})
    .isTerm (tStar (P Api2)),  -- 94: DEP_ASSERT_UNARY_OPERABLE(*, PP{}, P{})
    .parsersEq (tStar (P Api2)) (P (.zeroOrMore Api2)),  -- 94: DEP_ASSERT_PARSER_VALUES_EQ(* PP{}, zero_or_more_parser<PP>{}, * P{}, zero_or_more_parser<P>{})
    .isTerm (tStar (P Con1)),  -- 94: DEP_ASSERT_UNARY_OPERABLE(*, PP{}, P{})
    .parsersEq (tStar (P Con1)) (P (.zeroOrMore Con1)),  -- 94: DEP_ASSERT_PARSER_VALUES_EQ(* PP{}, zero_or_more_parser<PP>{}, * P{}, zero_or_more_parser<P>{})
    .isTerm (tStar (P Con2)),  -- 94: DEP_ASSERT_UNARY_OPERABLE(*, PP{}, P{})
    .parsersEq (tStar (P Con2)) (P (.zeroOrMore Con2)),  -- 94: DEP_ASSERT_PARSER_VALUES_EQ(* PP{}, zero_or_more_parser<PP>{}, * P{}, zero_or_more_parser<P>{})
    .isTerm (tStar (P Con3)),  -- 94: DEP_ASSERT_UNARY_OPERABLE(*, PP{}, P{})
    .parsersEq (tStar (P Con3)) (P (.zeroOrMore Con3)),  -- 94: DEP_ASSERT_PARSER_VALUES_EQ(* PP{}, zero_or_more_parser<PP>{}, * P{}, zero_or_more_parser<P>{})
    .isTerm (tStar (P Con4)),  -- 94: DEP_ASSERT_UNARY_OPERABLE(*, PP{}, P{})
    .parsersEq (tStar (P Con4)) (P (.zeroOrMore Con4)),  -- 94: DEP_ASSERT_PARSER_VALUES_EQ(* PP{}, zero_or_more_parser<PP>{}, * P{}, zero_or_more_parser<P>{})
    .isTerm (tStar (P Def1)),  -- 94: DEP_ASSERT_UNARY_OPERABLE(*, PP{}, P{})
    .parsersEq (tStar (P Def1)) (P (.zeroOrMore Def1)),  -- 94: DEP_ASSERT_PARSER_VALUES_EQ(* PP{}, zero_or_more_parser<PP>{}, * P{}, zero_or_more_parser<P>{})
    .isTerm (tStar (P Def2)),  -- 94: DEP_ASSERT_UNARY_OPERABLE(*, PP{}, P{})
    .parsersEq (tStar (P Def2)) (P (.zeroOrMore Def2)),  -- 94: DEP_ASSERT_PARSER_VALUES_EQ(* PP{}, zero_or_more_parser<PP>{}, * P{}, zero_or_more_parser<P>{})
    .isTerm (tStar (P (.custom 0))),  -- 94: DEP_ASSERT_UNARY_OPERABLE(*, PP{}, P{})
    .parsersEq (tStar (P (.custom 0))) (P (.zeroOrMore (.custom 0))),  -- 94: DEP_ASSERT_PARSER_VALUES_EQ(* PP{}, zero_or_more_parser<PP>{}, * P{}, zero_or_more_parser<P>{})
    .isTerm (tStar (P (.custom 1))),  -- 94: DEP_ASSERT_UNARY_OPERABLE(*, PP{}, P{})
    .parsersEq (tStar (P (.custom 1))) (P (.zeroOrMore (.custom 1))),  -- 94: DEP_ASSERT_PARSER_VALUES_EQ(* PP{}, zero_or_more_parser<PP>{}, * P{}, zero_or_more_parser<P>{})
    .isTerm (tStar (P May1)),  -- 94: DEP_ASSERT_UNARY_OPERABLE(*, PP{}, P{})
    .parsersEq (tStar (P May1)) (P (.zeroOrMore All1)),  -- 94: DEP_ASSERT_PARSER_VALUES_EQ(* PP{}, zero_or_more_parser<underlying_t<PP>>{}, * P{}, zero_or_more_parser<underlying_t<P>>{})
    .isTerm (tStar (P May2)),  -- 94: DEP_ASSERT_UNARY_OPERABLE(*, PP{}, P{})
    .parsersEq (tStar (P May2)) (P (.zeroOrMore Any1)),  -- 94: DEP_ASSERT_PARSER_VALUES_EQ(* PP{}, zero_or_more_parser<underlying_t<PP>>{}, * P{}, zero_or_more_parser<underlying_t<P>>{})
    .isTerm (tStar (P May3)),  -- 94: DEP_ASSERT_UNARY_OPERABLE(*, PP{}, P{})
    .parsersEq (tStar (P May3)) (P (.zeroOrMore s_13)),  -- 94: DEP_ASSERT_PARSER_VALUES_EQ(* PP{}, zero_or_more_parser<underlying_t<PP>>{}, * P{}, zero_or_more_parser<underlying_t<P>>{})
    .isTerm (tStar (P May4)),  -- 94: DEP_ASSERT_UNARY_OPERABLE(*, PP{}, P{})
    .parsersEq (tStar (P May4)) (P (.zeroOrMore s_14)),  -- 94: DEP_ASSERT_PARSER_VALUES_EQ(* PP{}, zero_or_more_parser<underlying_t<PP>>{}, * P{}, zero_or_more_parser<underlying_t<P>>{})
    .isTerm (tStar (P Exa1)),  -- 94: DEP_ASSERT_UNARY_OPERABLE(*, PP{}, P{})
    .parsersEq (tStar (P Exa1)) (P (.zeroOrMore Exa1)),  -- 94: DEP_ASSERT_PARSER_VALUES_EQ(* PP{}, zero_or_more_parser<PP>{}, * P{}, zero_or_more_parser<P>{})
    .isTerm (tStar (P Exa2)),  -- 94: DEP_ASSERT_UNARY_OPERABLE(*, PP{}, P{})
    .parsersEq (tStar (P Exa2)) (P (.zeroOrMore Exa2)),  -- 94: DEP_ASSERT_PARSER_VALUES_EQ(* PP{}, zero_or_more_parser<PP>{}, * P{}, zero_or_more_parser<P>{})
    .isTerm (tStar (P Exa3)),  -- 94: DEP_ASSERT_UNARY_OPERABLE(*, PP{}, P{})
    .parsersEq (tStar (P Exa3)) (P (.zeroOrMore Exa3)),  -- 94: DEP_ASSERT_PARSER_VALUES_EQ(* PP{}, zero_or_more_parser<PP>{}, * P{}, zero_or_more_parser<P>{})
    .isTerm (tStar (P Exa4)),  -- 94: DEP_ASSERT_UNARY_OPERABLE(*, PP{}, P{})
    .parsersEq (tStar (P Exa4)) (P (.zeroOrMore Exa4)),  -- 94: DEP_ASSERT_PARSER_VALUES_EQ(* PP{}, zero_or_more_parser<PP>{}, * P{}, zero_or_more_parser<P>{})
    .isTerm (tStar (P Oom1)),  -- 94: DEP_ASSERT_UNARY_OPERABLE(*, PP{}, P{})
    .parsersEq (tStar (P Oom1)) (P (.zeroOrMore All1)),  -- 94: DEP_ASSERT_PARSER_VALUES_EQ(* PP{}, zero_or_more_parser<underlying_t<PP>>{}, * P{}, zero_or_more_parser<underlying_t<P>>{})
    .isTerm (tStar (P Oom2)),  -- 94: DEP_ASSERT_UNARY_OPERABLE(*, PP{}, P{})
    .parsersEq (tStar (P Oom2)) (P (.zeroOrMore Any1)),  -- 94: DEP_ASSERT_PARSER_VALUES_EQ(* PP{}, zero_or_more_parser<underlying_t<PP>>{}, * P{}, zero_or_more_parser<underlying_t<P>>{})
    .isTerm (tStar (P Oom3)),  -- 94: DEP_ASSERT_UNARY_OPERABLE(*, PP{}, P{})
    .parsersEq (tStar (P Oom3)) (P (.zeroOrMore s_13)),  -- 94: DEP_ASSERT_PARSER_VALUES_EQ(* PP{}, zero_or_more_parser<underlying_t<PP>>{}, * P{}, zero_or_more_parser<underlying_t<P>>{})
    .isTerm (tStar (P Oom4)),  -- 94: DEP_ASSERT_UNARY_OPERABLE(*, PP{}, P{})
    .parsersEq (tStar (P Oom4)) (P (.zeroOrMore s_14)),  -- 94: DEP_ASSERT_PARSER_VALUES_EQ(* PP{}, zero_or_more_parser<underlying_t<PP>>{}, * P{}, zero_or_more_parser<underlying_t<P>>{})
    .isTerm (tStar (P Zom1)),  -- 94: DEP_ASSERT_UNARY_OPERABLE(*, PP{}, P{})
    .parsersEq (tStar (P Zom1)) (P Zom1),  -- 94: DEP_ASSERT_PARSER_VALUES_EQ(* PP{}, PP{}, * P{}, P{})
    .isTerm (tStar (P Zom2)),  -- 94: DEP_ASSERT_UNARY_OPERABLE(*, PP{}, P{})
    .parsersEq (tStar (P Zom2)) (P Zom2),  -- 94: DEP_ASSERT_PARSER_VALUES_EQ(* PP{}, PP{}, * P{}, P{})
    .isTerm (tStar (P Zom3)),  -- 94: DEP_ASSERT_UNARY_OPERABLE(*, PP{}, P{})
    .parsersEq (tStar (P Zom3)) (P Zom3),  -- 94: DEP_ASSERT_PARSER_VALUES_EQ(* PP{}, PP{}, * P{}, P{})
    .isTerm (tStar (P Zom4)),  -- 94: DEP_ASSERT_UNARY_OPERABLE(*, PP{}, P{})
    .parsersEq (tStar (P Zom4)) (P Zom4),  -- 94: DEP_ASSERT_PARSER_VALUES_EQ(* PP{}, PP{}, * P{}, P{})
    .isTerm (tStar (P Del1)),  -- 94: DEP_ASSERT_UNARY_OPERABLE(*, PP{}, P{})
    .parsersEq (tStar (P Del1)) (P (.zeroOrMore Del1))  -- 94: DEP_ASSERT_PARSER_VALUES_EQ(* PP{}, zero_or_more_parser<PP>{}, * P{}, zero_or_more_parser<P>{})
    ], Assertion.Holds a :=
  Assertion.holds_of_check (by decide +kernel)

/-- zero_or_more operator / *{anything} (tests/char-tests/operators/zero_or_more.cpp:94) -/
theorem charOperatorsZeroOrMore_4_4 : ∀ a ∈ [
    .isTerm (tStar (P Del2)),  -- 94: DEP_ASSERT_UNARY_OPERABLE(*, PP{}, P{})
    .parsersEq (tStar (P Del2)) (P (.zeroOrMore Del2)),  -- 94: DEP_ASSERT_PARSER_VALUES_EQ(* PP{}, zero_or_more_parser<PP>{}, * P{}, zero_or_more_parser<P>{})
    .isTerm (tStar (P Del3)),  -- 94: DEP_ASSERT_UNARY_OPERABLE(*, PP{}, P{})
    .parsersEq (tStar (P Del3)) (P (.zeroOrMore Del3)),  -- 94: DEP_ASSERT_PARSER_VALUES_EQ(* PP{}, zero_or_more_parser<PP>{}, * P{}, zero_or_more_parser<P>{})
    .isTerm (tStar (P Del4)),  -- 94: DEP_ASSERT_UNARY_OPERABLE(*, PP{}, P{})
    .parsersEq (tStar (P Del4)) (P (.zeroOrMore Del4)),  -- 94: DEP_ASSERT_PARSER_VALUES_EQ(* PP{}, zero_or_more_parser<PP>{}, * P{}, zero_or_more_parser<P>{})
    .isTerm (tStar (P Del5)),  -- 94: DEP_ASSERT_UNARY_OPERABLE(*, PP{}, P{})
    .parsersEq (tStar (P Del5)) (P (.zeroOrMore Del5)),  -- 94: DEP_ASSERT_PARSER_VALUES_EQ(* PP{}, zero_or_more_parser<PP>{}, * P{}, zero_or_more_parser<P>{})
    .isTerm (tStar (P Del6)),  -- 94: DEP_ASSERT_UNARY_OPERABLE(*, PP{}, P{})
    .parsersEq (tStar (P Del6)) (P (.zeroOrMore Del6)),  -- 94: DEP_ASSERT_PARSER_VALUES_EQ(* PP{}, zero_or_more_parser<PP>{}, * P{}, zero_or_more_parser<P>{})
    .isTerm (tStar (P Del7)),  -- 94: DEP_ASSERT_UNARY_OPERABLE(*, PP{}, P{})
    .parsersEq (tStar (P Del7)) (P (.zeroOrMore Del7)),  -- 94: DEP_ASSERT_PARSER_VALUES_EQ(* PP{}, zero_or_more_parser<PP>{}, * P{}, zero_or_more_parser<P>{})
    .isTerm (tStar (P Del8)),  -- 94: DEP_ASSERT_UNARY_OPERABLE(*, PP{}, P{})
    .parsersEq (tStar (P Del8)) (P (.zeroOrMore Del8)),  -- 94: DEP_ASSERT_PARSER_VALUES_EQ(* PP{}, zero_or_more_parser<PP>{}, * P{}, zero_or_more_parser<P>{})
    .isTerm (tStar (P Dek1)),  -- 94: DEP_ASSERT_UNARY_OPERABLE(*, PP{}, P{})
    .parsersEq (tStar (P Dek1)) (P (.zeroOrMore Dek1)),  -- 94: DEP_ASSERT_PARSER_VALUES_EQ(* PP{}, zero_or_more_parser<PP>{}, * P{}, zero_or_more_parser<P>{})
    .isTerm (tStar (P Dek2)),  -- 94: DEP_ASSERT_UNARY_OPERABLE(*, PP{}, P{})
    .parsersEq (tStar (P Dek2)) (P (.zeroOrMore Dek2)),  -- 94: DEP_ASSERT_PARSER_VALUES_EQ(* PP{}, zero_or_more_parser<PP>{}, * P{}, zero_or_more_parser<P>{})
    .isTerm (tStar (P Dek3)),  -- 94: DEP_ASSERT_UNARY_OPERABLE(*, PP{}, P{})
    .parsersEq (tStar (P Dek3)) (P (.zeroOrMore Dek3)),  -- 94: DEP_ASSERT_PARSER_VALUES_EQ(* PP{}, zero_or_more_parser<PP>{}, * P{}, zero_or_more_parser<P>{})
    .isTerm (tStar (P Dek4)),  -- 94: DEP_ASSERT_UNARY_OPERABLE(*, PP{}, P{})
    .parsersEq (tStar (P Dek4)) (P (.zeroOrMore Dek4)),  -- 94: DEP_ASSERT_PARSER_VALUES_EQ(* PP{}, zero_or_more_parser<PP>{}, * P{}, zero_or_more_parser<P>{})
    .isTerm (tStar (P Dek5)),  -- 94: DEP_ASSERT_UNARY_OPERABLE(*, PP{}, P{})
    .parsersEq (tStar (P Dek5)) (P (.zeroOrMore Dek5)),  -- 94: DEP_ASSERT_PARSER_VALUES_EQ(* PP{}, zero_or_more_parser<PP>{}, * P{}, zero_or_more_parser<P>{})
    .isTerm (tStar (P Dek6)),  -- 94: DEP_ASSERT_UNARY_OPERABLE(*, PP{}, P{})
    .parsersEq (tStar (P Dek6)) (P (.zeroOrMore Dek6)),  -- 94: DEP_ASSERT_PARSER_VALUES_EQ(* PP{}, zero_or_more_parser<PP>{}, * P{}, zero_or_more_parser<P>{})
    .isTerm (tStar (P Dek7)),  -- 94: DEP_ASSERT_UNARY_OPERABLE(*, PP{}, P{})
    .parsersEq (tStar (P Dek7)) (P (.zeroOrMore Dek7)),  -- 94: DEP_ASSERT_PARSER_VALUES_EQ(* PP{}, zero_or_more_parser<PP>{}, * P{}, zero_or_more_parser<P>{})
    .isTerm (tStar (P Dek8)),  -- 94: DEP_ASSERT_UNARY_OPERABLE(*, PP{}, P{})
    .parsersEq (tStar (P Dek8)) (P (.zeroOrMore Dek8))  -- 94: DEP_ASSERT_PARSER_VALUES_EQ(* PP{}, zero_or_more_parser<PP>{}, * P{}, zero_or_more_parser<P>{})
    ], Assertion.Holds a :=
  Assertion.holds_of_check (by decide +kernel)

end Tok3n.Tests
