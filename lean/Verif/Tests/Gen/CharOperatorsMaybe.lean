import Verif.Tests.Gen.SamplesChar
/- Generated by tools/tests2lean.py from tests/char-tests/operators/maybe.cpp. -/

namespace Tok3n.Tests

/-- maybe operator / ~maybe_parser (tests/char-tests/operators/maybe.cpp:14) -/
theorem charOperatorsMaybe_1 : ∀ a ∈ [
    .parsersEq (tMaybe (P May1)) (P May1),  -- 14: ASSERT_PARSER_VALUES_EQ(~ may1, may1)
    .parsersEq (tMaybe (tMaybe (P May1))) (P May1),  -- 15: ASSERT_PARSER_VALUES_EQ(~ ~ may1, may1)
    .parsersEq (tMaybe (tMaybe (tMaybe (P May1)))) (P May1),  -- 16: ASSERT_PARSER_VALUES_EQ(~ ~ ~ may1, may1)
    .parsersEq (tMaybe (P May2)) (P May2),  -- 17: ASSERT_PARSER_VALUES_EQ(~ may2, may2)
    .parsersEq (tMaybe (tMaybe (P May2))) (P May2),  -- 18: ASSERT_PARSER_VALUES_EQ(~ ~ may2, may2)
    .parsersEq (tMaybe (tMaybe (tMaybe (P May2)))) (P May2),  -- 19: ASSERT_PARSER_VALUES_EQ(~ ~ ~ may2, may2)
    .parsersEq (tMaybe (P May3)) (P May3),  -- 20: ASSERT_PARSER_VALUES_EQ(~ may3, may3)
    .parsersEq (tMaybe (tMaybe (P May3))) (P May3),  -- 21: ASSERT_PARSER_VALUES_EQ(~ ~ may3, may3)
    .parsersEq (tMaybe (tMaybe (tMaybe (P May3)))) (P May3),  -- 22: ASSERT_PARSER_VALUES_EQ(~ ~ ~ may3, may3)
    .parsersEq (tMaybe (P May4)) (P May4),  -- 23: ASSERT_PARSER_VALUES_EQ(~ may4, may4)
    .parsersEq (tMaybe (tMaybe (P May4))) (P May4),  -- 24: ASSERT_PARSER_VALUES_EQ(~ ~ may4, may4)
    .parsersEq (tMaybe (tMaybe (tMaybe (P May4)))) (P May4)  -- 25: ASSERT_PARSER_VALUES_EQ(~ ~ ~ may4, may4)
    ], Assertion.Holds a :=
  Assertion.holds_of_check (by decide +kernel)

/-- maybe operator / ~one_or_more_parser (tests/char-tests/operators/maybe.cpp:30) -/
theorem charOperatorsMaybe_2 : ∀ a ∈ [
    .parsersEq (tMaybe (P Oom1)) (P Zom1),  -- 30: ASSERT_PARSER_VALUES_EQ(~ oom1, zom1)
    .parsersEq (tMaybe (tMaybe (P Oom1))) (P Zom1),  -- 31: ASSERT_PARSER_VALUES_EQ(~ ~ oom1, zom1)
    .parsersEq (tMaybe (tMaybe (tMaybe (P Oom1)))) (P Zom1),  -- 32: ASSERT_PARSER_VALUES_EQ(~ ~ ~ oom1, zom1)
    .parsersEq (tMaybe (P Oom2)) (P Zom2),  -- 33: ASSERT_PARSER_VALUES_EQ(~ oom2, zom2)
    .parsersEq (tMaybe (tMaybe (P Oom2))) (P Zom2),  -- 34: ASSERT_PARSER_VALUES_EQ(~ ~ oom2, zom2)
    .parsersEq (tMaybe (tMaybe (tMaybe (P Oom2)))) (P Zom2),  -- 35: ASSERT_PARSER_VALUES_EQ(~ ~ ~ oom2, zom2)
    .parsersEq (tMaybe (P Oom3)) (P Zom3),  -- 36: ASSERT_PARSER_VALUES_EQ(~ oom3, zom3)
    .parsersEq (tMaybe (tMaybe (P Oom3))) (P Zom3),  -- 37: ASSERT_PARSER_VALUES_EQ(~ ~ oom3, zom3)
    .parsersEq (tMaybe (tMaybe (tMaybe (P Oom3)))) (P Zom3),  -- 38: ASSERT_PARSER_VALUES_EQ(~ ~ ~ oom3, zom3)
    .parsersEq (tMaybe (P Oom4)) (P Zom4),  -- 39: ASSERT_PARSER_VALUES_EQ(~ oom4, zom4)
    .parsersEq (tMaybe (tMaybe (P Oom4))) (P Zom4),  -- 40: ASSERT_PARSER_VALUES_EQ(~ ~ oom4, zom4)
    .parsersEq (tMaybe (tMaybe (tMaybe (P Oom4)))) (P Zom4)  -- 41: ASSERT_PARSER_VALUES_EQ(~ ~ ~ oom4, zom4)
    ], Assertion.Holds a :=
  Assertion.holds_of_check (by decide +kernel)

/-- maybe operator / ~zero_or_more_parser (tests/char-tests/operators/maybe.cpp:46) -/
theorem charOperatorsMaybe_3 : ∀ a ∈ [
    .parsersEq (tMaybe (P Zom1)) (P Zom1),  -- 46: ASSERT_PARSER_VALUES_EQ(~ zom1, zom1)
    .parsersEq (tMaybe (tMaybe (P Zom1))) (P Zom1),  -- 47: ASSERT_PARSER_VALUES_EQ(~ ~ zom1, zom1)
    .parsersEq (tMaybe (tMaybe (tMaybe (P Zom1)))) (P Zom1),  -- 48: ASSERT_PARSER_VALUES_EQ(~ ~ ~ zom1, zom1)
    .parsersEq (tMaybe (P Zom2)) (P Zom2),  -- 49: ASSERT_PARSER_VALUES_EQ(~ zom2, zom2)
    .parsersEq (tMaybe (tMaybe (P Zom2))) (P Zom2),  -- 50: ASSERT_PARSER_VALUES_EQ(~ ~ zom2, zom2)
    .parsersEq (tMaybe (tMaybe (tMaybe (P Zom2)))) (P Zom2),  -- 51: ASSERT_PARSER_VALUES_EQ(~ ~ ~ zom2, zom2)
    .parsersEq (tMaybe (P Zom3)) (P Zom3),  -- 52: ASSERT_PARSER_VALUES_EQ(~ zom3, zom3)
    .parsersEq (tMaybe (tMaybe (P Zom3))) (P Zom3),  -- 53: ASSERT_PARSER_VALUES_EQ(~ ~ zom3, zom3)
    .parsersEq (tMaybe (tMaybe (tMaybe (P Zom3)))) (P Zom3),  -- 54: ASSERT_PARSER_VALUES_EQ(~ ~ ~ zom3, zom3)
    .parsersEq (tMaybe (P Zom4)) (P Zom4),  -- 55: ASSERT_PARSER_VALUES_EQ(~ zom4, zom4)
    .parsersEq (tMaybe (tMaybe (P Zom4))) (P Zom4),  -- 56: ASSERT_PARSER_VALUES_EQ(~ ~ zom4, zom4)
    .parsersEq (tMaybe (tMaybe (tMaybe (P Zom4)))) (P Zom4)  -- 57: ASSERT_PARSER_VALUES_EQ(~ ~ ~ zom4, zom4)
    ], Assertion.Holds a :=
  Assertion.holds_of_check (by decide +kernel)

/-- maybe operator / ~{anything} (tests/char-tests/operators/maybe.cpp:94) -/
theorem charOperatorsMaybe_4_1 : ∀ a ∈ [
    .isTerm (tMaybe (P Ign1)),  -- 94: DEP_ASSERT_UNARY_OPERABLE(~, PP{}, P{})
    .parsersEq (tMaybe (P Ign1)) (P (.maybe Ign1)),  -- 94: DEP_ASSERT_PARSER_VALUES_EQ(~ PP{}, maybe_parser<PP>{}, ~ P{}, maybe_parser<P>{})
    .isTerm (tMaybe (P Ign2)),  -- 94: DEP_ASSERT_UNARY_OPERABLE(~, PP{}, P{})
    .parsersEq (tMaybe (P Ign2)) (P (.maybe Ign2)),  -- 94: DEP_ASSERT_PARSER_VALUES_EQ(~ PP{}, maybe_parser<PP>{}, ~ P{}, maybe_parser<P>{})
    .isTerm (tMaybe (P Ign3)),  -- 94: DEP_ASSERT_UNARY_OPERABLE(~, PP{}, P{})
    .parsersEq (tMaybe (P Ign3)) (P (.maybe Ign3)),  -- 94: DEP_ASSERT_PARSER_VALUES_EQ(~ PP{}, maybe_parser<PP>{}, ~ P{}, maybe_parser<P>{})
    .isTerm (tMaybe (P Ign4)),  -- 94: DEP_ASSERT_UNARY_OPERABLE(~, PP{}, P{})
    .parsersEq (tMaybe (P Ign4)) (P (.maybe Ign4)),  -- 94: DEP_ASSERT_PARSER_VALUES_EQ(~ PP{}, maybe_parser<PP>{}, ~ P{}, maybe_parser<P>{})
    .isTerm (tMaybe (P Ign5)),  -- 94: DEP_ASSERT_UNARY_OPERABLE(~, PP{}, P{})
    .parsersEq (tMaybe (P Ign5)) (P (.maybe Ign5)),  -- 94: DEP_ASSERT_PARSER_VALUES_EQ(~ PP{}, maybe_parser<PP>{}, ~ P{}, maybe_parser<P>{})
    .isTerm (tMaybe (P Com1)),  -- 94: DEP_ASSERT_UNARY_OPERABLE(~, PP{}, P{})
    .parsersEq (tMaybe (P Com1)) (P (.maybe Com1)),  -- 94: DEP_ASSERT_PARSER_VALUES_EQ(~ PP{}, maybe_parser<PP>{}, ~ P{}, maybe_parser<P>{})
    .isTerm (tMaybe (P Com2)),  -- 94: DEP_ASSERT_UNARY_OPERABLE(~, PP{}, P{})
    .parsersEq (tMaybe (P Com2)) (P (.maybe Com2)),  -- 94: DEP_ASSERT_PARSER_VALUES_EQ(~ PP{}, maybe_parser<PP>{}, ~ P{}, maybe_parser<P>{})
    .isTerm (tMaybe (P Com3)),  -- 94: DEP_ASSERT_UNARY_OPERABLE(~, PP{}, P{})
    .parsersEq (tMaybe (P Com3)) (P (.maybe Com3)),  -- 94: DEP_ASSERT_PARSER_VALUES_EQ(~ PP{}, maybe_parser<PP>{}, ~ P{}, maybe_parser<P>{})
    .isTerm (tMaybe (P Com4)),  -- 94: DEP_ASSERT_UNARY_OPERABLE(~, PP{}, P{})
    .parsersEq (tMaybe (P Com4)) (P (.maybe Com4)),  -- 94: DEP_ASSERT_PARSER_VALUES_EQ(~ PP{}, maybe_parser<PP>{}, ~ P{}, maybe_parser<P>{})
    .isTerm (tMaybe (P Com5)),  -- 94: DEP_ASSERT_UNARY_OPERABLE(~, PP{}, P{})
    .parsersEq (tMaybe (P Com5)) (P (.maybe Com5)),  -- 94: DEP_ASSERT_PARSER_VALUES_EQ(~ PP{}, maybe_parser<PP>{}, ~ P{}, maybe_parser<P>{})
    .isTerm (tMaybe (P Com6)),  -- 94: DEP_ASSERT_UNARY_OPERABLE(~, PP{}, P{})
    .parsersEq (tMaybe (P Com6)) (P (.maybe Com6)),  -- 94: DEP_ASSERT_PARSER_VALUES_EQ(~ PP{}, maybe_parser<PP>{}, ~ P{}, maybe_parser<P>{})
    .isTerm (tMaybe (P Com7)),  -- 94: DEP_ASSERT_UNARY_OPERABLE(~, PP{}, P{})
    .parsersEq (tMaybe (P Com7)) (P (.maybe Com7)),  -- 94: DEP_ASSERT_PARSER_VALUES_EQ(~ PP{}, maybe_parser<PP>{}, ~ P{}, maybe_parser<P>{})
    .isTerm (tMaybe (P Nam1)),  -- 94: DEP_ASSERT_UNARY_OPERABLE(~, PP{}, P{})
    .parsersEq (tMaybe (P Nam1)) (P (.maybe Nam1)),  -- 94: DEP_ASSERT_PARSER_VALUES_EQ(~ PP{}, maybe_parser<PP>{}, ~ P{}, maybe_parser<P>{})
    .isTerm (tMaybe (P Nam2)),  -- 94: DEP_ASSERT_UNARY_OPERABLE(~, PP{}, P{})
    .parsersEq (tMaybe (P Nam2)) (P (.maybe Nam2)),  -- 94: DEP_ASSERT_PARSER_VALUES_EQ(~ PP{}, maybe_parser<PP>{}, ~ P{}, maybe_parser<P>{})
    .isTerm (tMaybe (P Nam3)),  -- 94: DEP_ASSERT_UNARY_OPERABLE(~, PP{}, P{})
    .parsersEq (tMaybe (P Nam3)) (P (.maybe Nam3)),  -- 94: DEP_ASSERT_PARSER_VALUES_EQ(~ PP{}, maybe_parser<PP>{}, ~ P{}, maybe_parser<P>{})
    .isTerm (tMaybe (P Nam4)),  -- 94: DEP_ASSERT_UNARY_OPERABLE(~, PP{}, P{})
    .parsersEq (tMaybe (P Nam4)) (P (.maybe Nam4)),  -- 94: DEP_ASSERT_PARSER_VALUES_EQ(~ PP{}, maybe_parser<PP>{}, ~ P{}, maybe_parser<P>{})
    .isTerm (tMaybe (P Any1)),  -- 94: DEP_ASSERT_UNARY_OPERABLE(~, PP{}, P{})
    .parsersEq (tMaybe (P Any1)) (P (.maybe Any1)),  -- 94: DEP_ASSERT_PARSER_VALUES_EQ(~ PP{}, maybe_parser<PP>{}, ~ P{}, maybe_parser<P>{})
    .isTerm (tMaybe (P Any2)),  -- 94: DEP_ASSERT_UNARY_OPERABLE(~, PP{}, P{})
    .parsersEq (tMaybe (P Any2)) (P (.maybe Any2)),  -- 94: DEP_ASSERT_PARSER_VALUES_EQ(~ PP{}, maybe_parser<PP>{}, ~ P{}, maybe_parser<P>{})
    .isTerm (tMaybe (P Any3)),  -- 94: DEP_ASSERT_UNARY_OPERABLE(~, PP{}, P{})
    .parsersEq (tMaybe (P Any3)) (P (.maybe Any3)),  -- 94: DEP_ASSERT_PARSER_VALUES_EQ(~ PP{}, maybe_parser<PP>{}, ~ P{}, maybe_parser<P>{})
    .isTerm (tMaybe (P Any4)),  -- 94: DEP_ASSERT_UNARY_OPERABLE(~, PP{}, P{})
    .parsersEq (tMaybe (P Any4)) (P (.maybe Any4)),  -- 94: DEP_ASSERT_PARSER_VALUES_EQ(~ PP{}, maybe_parser<PP>{}, ~ P{}, maybe_parser<P>{})
    .isTerm (tMaybe (P Non1)),  -- 94: DEP_ASSERT_UNARY_OPERABLE(~, PP{}, P{})
    .parsersEq (tMaybe (P Non1)) (P (.maybe Non1)),  -- 94: DEP_ASSERT_PARSER_VALUES_EQ(~ PP{}, maybe_parser<PP>{}, ~ P{}, maybe_parser<P>{})
    .isTerm (tMaybe (P Non2)),  -- 94: DEP_ASSERT_UNARY_OPERABLE(~, PP{}, P{})
    .parsersEq (tMaybe (P Non2)) (P (.maybe Non2)),  -- 94: DEP_ASSERT_PARSER_VALUES_EQ(~ PP{}, maybe_parser<PP>{}, ~ P{}, maybe_parser<P>{})
    .isTerm (tMaybe (P Non3)),  -- 94: DEP_ASSERT_UNARY_OPERABLE(~, PP{}, P{})
    .parsersEq (tMaybe (P Non3)) (P (.maybe Non3)),  -- 94: DEP_ASSERT_PARSER_VALUES_EQ(~ PP{}, maybe_parser<PP>{}, ~ P{}, maybe_parser<P>{})
    .isTerm (tMaybe (P Non4)),  -- 94: DEP_ASSERT_UNARY_OPERABLE(~, PP{}, P{})
    .parsersEq (tMaybe (P Non4)) (P (.maybe Non4)),  -- 94: DEP_ASSERT_PARSER_VALUES_EQ(~ PP{}, maybe_parser<PP>{}, ~ P{}, maybe_parser<P>{})
    .isTerm (tMaybe (P Non5)),  -- 94: DEP_ASSERT_UNARY_OPERABLE(~, PP{}, P{})
    .parsersEq (tMaybe (P Non5)) (P (.maybe Non5)),  -- 94: DEP_ASSERT_PARSER_VALUES_EQ(~ PP{}, maybe_parser<PP>{}, ~ P{}, maybe_parser<P>{})
    .isTerm (tMaybe (P All1)),  -- 94: DEP_ASSERT_UNARY_OPERABLE(~, PP{}, P{})
    .parsersEq (tMaybe (P All1)) (P (.maybe All1)),  -- 94: DEP_ASSERT_PARSER_VALUES_EQ(~ PP{}, maybe_parser<PP>{}, ~ P{}, maybe_parser<P>{})
    .isTerm (tMaybe (P All2)),  -- 94: DEP_ASSERT_UNARY_OPERABLE(~, PP{}, P{})
    .parsersEq (tMaybe (P All2)) (P (.maybe All2)),  -- 94: DEP_ASSERT_PARSER_VALUES_EQ(~ PP{}, maybe_parser<PP>{}, ~ P{}, maybe_parser<P>{})
    .isTerm (tMaybe (P All3)),  -- 94: DEP_ASSERT_UNARY_OPERABLE(~, PP{}, P{})
    .parsersEq (tMaybe (P All3)) (P (.maybe All3)),  -- 94: DEP_ASSERT_PARSER_VALUES_EQ(~ PP{}, maybe_parser<PP>{}, ~ P{}, maybe_parser<P>{})
    .isTerm (tMaybe (P All4)),  -- 94: DEP_ASSERT_UNARY_OPERABLE(~, PP{}, P{})
    .parsersEq (tMaybe (P All4)) (P (.maybe All4)),  -- 94: DEP_ASSERT_PARSER_VALUES_EQ(~ PP{}, maybe_parser<PP>{}, ~ P{}, maybe_parser<P>{})
    .isTerm (tMaybe (P Eps1)),  -- 94: DEP_ASSERT_UNARY_OPERABLE(~, PP{}, P{})
    .parsersEq (tMaybe (P Eps1)) (P (.maybe Eps1))  -- 94: DEP_ASSERT_PARSER_VALUES_EQ(~ PP{}, maybe_parser<PP>{}, ~ P{}, maybe_parser<P>{})
    ], Assertion.Holds a :=
  Assertion.holds_of_check (by decide +kernel)

/-- maybe operator / ~{anything} (tests/char-tests/operators/maybe.cpp:94) -/
theorem charOperatorsMaybe_4_2 : ∀ a ∈ [
    .isTerm (tMaybe (P Ant1)),  -- 94: DEP_ASSERT_UNARY_OPERABLE(~, PP{}, P{})
    .parsersEq (tMaybe (P Ant1)) (P (.maybe Ant1)),  -- 94: DEP_ASSERT_PARSER_VALUES_EQ(~ PP{}, maybe_parser<PP>{}, ~ P{}, maybe_parser<P>{})
    .isTerm (tMaybe (P QQ)),  -- 94: DEP_ASSERT_UNARY_OPERABLE(~, PP{}, P{})
    .parsersEq (tMaybe (P QQ)) (P (.maybe QQ)),  -- 94: DEP_ASSERT_PARSER_VALUES_EQ(~ PP{}, maybe_parser<PP>{}, ~ P{}, maybe_parser<P>{})
    .isTerm (tMaybe (P ABC)),  -- 94: DEP_ASSERT_UNARY_OPERABLE(~, PP{}, P{})
    .parsersEq (tMaybe (P ABC)) (P (.maybe ABC)),  -- 94: DEP_ASSERT_PARSER_VALUES_EQ(~ PP{}, maybe_parser<PP>{}, ~ P{}, maybe_parser<P>{})
    .isTerm (tMaybe (P Comma)),  -- 94: DEP_ASSERT_UNARY_OPERABLE(~, PP{}, P{})
    .parsersEq (tMaybe (P Comma)) (P (.maybe Comma)),  -- 94: DEP_ASSERT_PARSER_VALUES_EQ(~ PP{}, maybe_parser<PP>{}, ~ P{}, maybe_parser<P>{})
    .isTerm (tMaybe (P SpaceDot)),  -- 94: DEP_ASSERT_UNARY_OPERABLE(~, PP{}, P{})
    .parsersEq (tMaybe (P SpaceDot)) (P (.maybe SpaceDot)),  -- 94: DEP_ASSERT_PARSER_VALUES_EQ(~ PP{}, maybe_parser<PP>{}, ~ P{}, maybe_parser<P>{})
    .isTerm (tMaybe (P Cho1)),  -- 94: DEP_ASSERT_UNARY_OPERABLE(~, PP{}, P{})
    .parsersEq (tMaybe (P Cho1)) (P (.maybe Cho1)),  -- 94: DEP_ASSERT_PARSER_VALUES_EQ(~ PP{}, maybe_parser<PP>{}, ~ P{}, maybe_parser<P>{})
    .isTerm (tMaybe (P Cho2)),  -- 94: DEP_ASSERT_UNARY_OPERABLE(~, PP{}, P{})
    .parsersEq (tMaybe (P Cho2)) (P (.maybe Cho2)),  -- 94: DEP_ASSERT_PARSER_VALUES_EQ(~ PP{}, maybe_parser<PP>{}, ~ P{}, maybe_parser<P>{})
    .isTerm (tMaybe (P Cho3)),  -- 94: DEP_ASSERT_UNARY_OPERABLE(~, PP{}, P{})
    .parsersEq (tMaybe (P Cho3)) (P (.maybe Cho3)),  -- 94: DEP_ASSERT_PARSER_VALUES_EQ(~ PP{}, maybe_parser<PP>{}, ~ P{}, maybe_parser<P>{})
    .isTerm (tMaybe (P Cho4)),  -- 94: DEP_ASSERT_UNARY_OPERABLE(~, PP{}, P{})
    .parsersEq (tMaybe (P Cho4)) (P (.maybe Cho4)),  -- 94: DEP_ASSERT_PARSER_VALUES_EQ(~ PP{}, maybe_parser<PP>{}, ~ P{}, maybe_parser<P>{})
    .isTerm (tMaybe (P Cho5)),  -- 94: DEP_ASSERT_UNARY_OPERABLE(~, PP{}, P{})
    .parsersEq (tMaybe (P Cho5)) (P (.maybe Cho5)),  -- 94: DEP_ASSERT_PARSER_VALUES_EQ(~ PP{}, maybe_parser<PP>{}, ~ P{}, maybe_parser<P>{})
    .isTerm (tMaybe (P Seq1)),  -- 94: DEP_ASSERT_UNARY_OPERABLE(~, PP{}, P{})
    .parsersEq (tMaybe (P Seq1)) (P (.maybe Seq1)),  -- 94: DEP_ASSERT_PARSER_VALUES_EQ(~ PP{}, maybe_parser<PP>{}, ~ P{}, maybe_parser<P>{})
    .isTerm (tMaybe (P Seq2)),  -- 94: DEP_ASSERT_UNARY_OPERABLE(~, PP{}, P{})
    .parsersEq (tMaybe (P Seq2)) (P (.maybe Seq2)),  -- 94: DEP_ASSERT_PARSER_VALUES_EQ(~ PP{}, maybe_parser<PP>{}, ~ P{}, maybe_parser<P>{})
    .isTerm (tMaybe (P Seq3)),  -- 94: DEP_ASSERT_UNARY_OPERABLE(~, PP{}, P{})
    .parsersEq (tMaybe (P Seq3)) (P (.maybe Seq3)),  -- 94: DEP_ASSERT_PARSER_VALUES_EQ(~ PP{}, maybe_parser<PP>{}, ~ P{}, maybe_parser<P>{})
    .isTerm (tMaybe (P Seq4)),  -- 94: DEP_ASSERT_UNARY_OPERABLE(~, PP{}, P{})
    .parsersEq (tMaybe (P Seq4)) (P (.maybe Seq4)),  -- 94: DEP_ASSERT_PARSER_VALUES_EQ(~ PP{}, maybe_parser<PP>{}, ~ P{}, maybe_parser<P>{})
    .isTerm (tMaybe (P Seq5)),  -- 94: DEP_ASSERT_UNARY_OPERABLE(~, PP{}, P{})
    .parsersEq (tMaybe (P Seq5)) (P (.maybe Seq5)),  -- 94: DEP_ASSERT_PARSER_VALUES_EQ(~ PP{}, maybe_parser<PP>{}, ~ P{}, maybe_parser<P>{})
    .isTerm (tMaybe (P Joi1)),  -- 94: DEP_ASSERT_UNARY_OPERABLE(~, PP{}, P{})
    .parsersEq (tMaybe (P Joi1)) (P (.maybe Joi1)),  -- 94: DEP_ASSERT_PARSER_VALUES_EQ(~ PP{}, maybe_parser<PP>{}, ~ P{}, maybe_parser<P>{})
    .isTerm (tMaybe (P Joi2)),  -- 94: DEP_ASSERT_UNARY_OPERABLE(~, PP{}, P{})
    .parsersEq (tMaybe (P Joi2)) (P (.maybe Joi2)),  -- 94: DEP_ASSERT_PARSER_VALUES_EQ(~ PP{}, maybe_parser<PP>{}, ~ P{}, maybe_parser<P>{})
    .isTerm (tMaybe (P Joi3)),  -- 94: DEP_ASSERT_UNARY_OPERABLE(~, PP{}, P{})
    .parsersEq (tMaybe (P Joi3)) (P (.maybe Joi3)),  -- 94: DEP_ASSERT_PARSER_VALUES_EQ(~ PP{}, maybe_parser<PP>{}, ~ P{}, maybe_parser<P>{})
    .isTerm (tMaybe (P Joi4)),  -- 94: DEP_ASSERT_UNARY_OPERABLE(~, PP{}, P{})
    .parsersEq (tMaybe (P Joi4)) (P (.maybe Joi4)),  -- 94: DEP_ASSERT_PARSER_VALUES_EQ(~ PP{}, maybe_parser<PP>{}, ~ P{}, maybe_parser<P>{})
    .isTerm (tMaybe (P Joi5)),  -- 94: DEP_ASSERT_UNARY_OPERABLE(~, PP{}, P{})
    .parsersEq (tMaybe (P Joi5)) (P (.maybe Joi5)),  -- 94: DEP_ASSERT_PARSER_VALUES_EQ(~ PP{}, maybe_parser<PP>{}, ~ P{}, maybe_parser<P>{})
    .isTerm (tMaybe (P Map1)),  -- 94: DEP_ASSERT_UNARY_OPERABLE(~, PP{}, P{})
    .parsersEq (tMaybe (P Map1)) (P (.maybe Map1)),  -- 94: DEP_ASSERT_PARSER_VALUES_EQ(~ PP{}, maybe_parser<PP>{}, ~ P{}, maybe_parser<P>{})
    .isTerm (tMaybe (P Map2)),  -- 94: DEP_ASSERT_UNARY_OPERABLE(~, PP{}, P{})
    .parsersEq (tMaybe (P Map2)) (P (.maybe Map2)),  -- 94: DEP_ASSERT_PARSER_VALUES_EQ(~ PP{}, maybe_parser<PP>{}, ~ P{}, maybe_parser<P>{})
    .isTerm (tMaybe (P Map3)),  -- 94: DEP_ASSERT_UNARY_OPERABLE(~, PP{}, P{})
    .parsersEq (tMaybe (P Map3)) (P (.maybe Map3)),  -- 94: DEP_ASSERT_PARSER_VALUES_EQ(~ PP{}, maybe_parser<PP>{}, ~ P{}, maybe_parser<P>{})
    .isTerm (tMaybe (P Map4)),  -- 94: DEP_ASSERT_UNARY_OPERABLE(~, PP{}, P{})
    .parsersEq (tMaybe (P Map4)) (P (.maybe Map4)),  -- 94: DEP_ASSERT_PARSER_VALUES_EQ(~ PP{}, maybe_parser<PP>{}, ~ P{}, maybe_parser<P>{})
    .isTerm (tMaybe (P Fil1)),  -- 94: DEP_ASSERT_UNARY_OPERABLE(~, PP{}, P{})
    .parsersEq (tMaybe (P Fil1)) (P (.maybe Fil1)),  -- 94: DEP_ASSERT_PARSER_VALUES_EQ(~ PP{}, maybe_parser<PP>{}, ~ P{}, maybe_parser<P>{})
    .isTerm (tMaybe (P Fil2)),  -- 94: DEP_ASSERT_UNARY_OPERABLE(~, PP{}, P{})
    .parsersEq (tMaybe (P Fil2)) (P (.maybe Fil2)),  -- 94: DEP_ASSERT_PARSER_VALUES_EQ(~ PP{}, maybe_parser<PP>{}, ~ P{}, maybe_parser<P>{})
    .isTerm (tMaybe (P Fil3)),  -- 94: DEP_ASSERT_UNARY_OPERABLE(~, PP{}, P{})
    .parsersEq (tMaybe (P Fil3)) (P (.maybe Fil3)),  -- 94: DEP_ASSERT_PARSER_VALUES_EQ(~ PP{}, maybe_parser<PP>{}, ~ P{}, maybe_parser<P>{})
    .isTerm (tMaybe (P Apm1)),  -- 94: DEP_ASSERT_UNARY_OPERABLE(~, PP{}, P{})
    .parsersEq (tMaybe (P Apm1)) (P (.maybe Apm1)),  -- 94: DEP_ASSERT_PARSER_VALUES_EQ(~ PP{}, maybe_parser<PP>{}, ~ P{}, maybe_parser<P>{})
    .isTerm (tMaybe (P Apm2)),  -- 94: DEP_ASSERT_UNARY_OPERABLE(~, PP{}, P{})
    .parsersEq (tMaybe (P Apm2)) (P (.maybe Apm2)),  -- 94: DEP_ASSERT_PARSER_VALUES_EQ(~ PP{}, maybe_parser<PP>{}, ~ P{}, maybe_parser<P>{})
    .isTerm (tMaybe (P Apf1)),  -- 94: DEP_ASSERT_UNARY_OPERABLE(~, PP{}, P{})
    .parsersEq (tMaybe (P Apf1)) (P (.maybe Apf1))  -- 94: DEP_ASSERT_PARSER_VALUES_EQ(~ PP{}, maybe_parser<PP>{}, ~ P{}, maybe_parser<P>{})
    ], Assertion.Holds a :=
  Assertion.holds_of_check (by decide +kernel)

/-- maybe operator / ~{anything} (tests/char-tests/operators/maybe.cpp:94) -/
theorem charOperatorsMaybe_4_3 : ∀ a ∈ [
    .isTerm (tMaybe (P Int1)),  -- 94: DEP_ASSERT_UNARY_OPERABLE(~, PP{}, P{})
    .parsersEq (tMaybe (P Int1)) (P (.maybe Int1)),  -- 94: DEP_ASSERT_PARSER_VALUES_EQ(~ PP{}, maybe_parser<PP>{}, ~ P{}, maybe_parser<P>{})
    .isTerm (tMaybe (P Int2)),  -- 94: DEP_ASSERT_UNARY_OPERABLE(~, PP{}, P{})
    .parsersEq (tMaybe (P Int2)) (P (.maybe Int2)),  -- 94: DEP_ASSERT_PARSER_VALUES_EQ(~ PP{}, maybe_parser<PP>{}, ~ P{}, maybe_parser<P>{})
    .isTerm (tMaybe (P Int3)),  -- 94: DEP_ASSERT_UNARY_OPERABLE(~, PP{}, P{})
    .parsersEq (tMaybe (P Int3)) (P (.maybe Int3)),  -- 94: DEP_ASSERT_PARSER_VALUES_EQ(~ PP{}, maybe_parser<PP>{}, ~ P{}, maybe_parser<P>{})
    .isTerm (tMaybe (P Api1)),  -- 94: DEP_ASSERT_UNARY_OPERABLE(~, PP{}, P{})
    .parsersEq (tMaybe (P Api1)) (P (.maybe Api1)),  -- 94: DEP_ASSERT_PARSER_VALUES_EQ(~ PP{}, maybe_parser<PP>{}, ~ P{}, maybe_parser<P>{})
    .isTerm (tMaybe (P Api2)),  -- 94: DEP_ASSERT_UNARY_OPERABLE(~, PP{}, P{})
    .parsersEq (tMaybe (P Api2)) (P (.maybe Api2)),  -- 94: DEP_ASSERT_PARSER_VALUES_EQ(~ PP{}, maybe_parser<PP>{}, ~ P{}, maybe_parser<P>{})
    .isTerm (tMaybe (P Con1)),  -- 94: DEP_ASSERT_UNARY_OPERABLE(~, PP{}, P{})
    .parsersEq (tMaybe (P Con1)) (P (.maybe Con1)),  -- 94: DEP_ASSERT_PARSER_VALUES_EQ(~ PP{}, maybe_parser<PP>{}, ~ P{}, maybe_parser<P>{})
    .isTerm (tMaybe (P Con2)),  -- 94: DEP_ASSERT_UNARY_OPERABLE(~, PP{}, P{})
    .parsersEq (tMaybe (P Con2)) (P (.maybe Con2)),  -- 94: DEP_ASSERT_PARSER_VALUES_EQ(~ PP{}, maybe_parser<PP>{}, ~ P{}, maybe_parser<P>{})
    .isTerm (tMaybe (P Con3)),  -- 94: DEP_ASSERT_UNARY_OPERABLE(~, PP{}, P{})
    .parsersEq (tMaybe (P Con3)) (P (.maybe Con3)),  -- 94: DEP_ASSERT_PARSER_VALUES_EQ(~ PP{}, maybe_parser<PP>{}, ~ P{}, maybe_parser<P>{})
    .isTerm (tMaybe (P Con4)),  -- 94: DEP_ASSERT_UNARY_OPERABLE(~, PP{}, P{})
    .parsersEq (tMaybe (P Con4)) (P (.maybe Con4)),  -- 94: DEP_ASSERT_PARSER_VALUES_EQ(~ PP{}, maybe_parser<PP>{}, ~ P{}, maybe_parser<P>{})
    .isTerm (tMaybe (P Def1)),  -- 94: DEP_ASSERT_UNARY_OPERABLE(~, PP{}, P{})
    .parsersEq (tMaybe (P Def1)) (P (.maybe Def1)),  -- 94: DEP_ASSERT_PARSER_VALUES_EQ(~ PP{}, maybe_parser<PP>{}, ~ P{}, maybe_parser<P>{})
    .isTerm (tMaybe (P Def2)),  -- 94: DEP_ASSERT_UNARY_OPERABLE(~, PP{}, P{})
    .parsersEq (tMaybe (P Def2)) (P (.maybe Def2)),  -- 94: DEP_ASSERT_PARSER_VALUES_EQ(~ PP{}, maybe_parser<PP>{}, ~ P{}, maybe_parser<P>{})
    .isTerm (tMaybe (P (.custom 0))),  -- 94: DEP_ASSERT_UNARY_OPERABLE(~, PP{}, P{})
    .parsersEq (tMaybe (P (.custom 0))) (P (.maybe (.custom 0))),  -- 94: DEP_ASSERT_PARSER_VALUES_EQ(~ PP{}, maybe_parser<PP>{}, ~ P{}, maybe_parser<P>{})
    .isTerm (tMaybe (P (.custom 1))),  -- 94: DEP_ASSERT_UNARY_OPERABLE(~, PP{}, P{})
    .parsersEq (tMaybe (P (.custom 1))) (P (.maybe (.custom 1))),  -- 94: DEP_ASSERT_PARSER_VALUES_EQ(~ PP{}, maybe_parser<PP>{}, ~ P{}, maybe_parser<P>{})
    .isTerm (tMaybe (P May1)),  -- 94: DEP_ASSERT_UNARY_OPERABLE(~, PP{}, P{})
    .parsersEq (tMaybe (P May1)) (P May1),  -- 94: DEP_ASSERT_PARSER_VALUES_EQ(~ PP{}, PP{}, ~ P{}, P{})
    .isTerm (tMaybe (P May2)),  -- 94: DEP_ASSERT_UNARY_OPERABLE(~, PP{}, P{})
    .parsersEq (tMaybe (P May2)) (P May2),  -- 94: DEP_ASSERT_PARSER_VALUES_EQ(~ PP{}, PP{}, ~ P{}, P{})
    .isTerm (tMaybe (P May3)),  -- 94: DEP_ASSERT_UNARY_OPERABLE(~, PP{}, P{})
    .parsersEq (tMaybe (P May3)) (P May3),  -- 94: DEP_ASSERT_PARSER_VALUES_EQ(~ PP{}, PP{}, ~ P{}, P{})
    .isTerm (tMaybe (P May4)),  -- 94: DEP_ASSERT_UNARY_OPERABLE(~, PP{}, P{})
    .parsersEq (tMaybe (P May4)) (P May4),  -- 94: DEP_ASSERT_PARSER_VALUES_EQ(~ PP{}, PP{}, ~ P{}, P{})
    .isTerm (tMaybe (P Exa1)),  -- 94: DEP_ASSERT_UNARY_OPERABLE(~, PP{}, P{})
    .parsersEq (tMaybe (P Exa1)) (P (.maybe Exa1)),  -- 94: DEP_ASSERT_PARSER_VALUES_EQ(~ PP{}, maybe_parser<PP>{}, ~ P{}, maybe_parser<P>{})
    .isTerm (tMaybe (P Exa2)),  -- 94: DEP_ASSERT_UNARY_OPERABLE(~, PP{}, P{})
    .parsersEq (tMaybe (P Exa2)) (P (.maybe Exa2)),  -- 94: DEP_ASSERT_PARSER_VALUES_EQ(~ PP{}, maybe_parser<PP>{}, ~ P{}, maybe_parser<P>{})
    .isTerm (tMaybe (P Exa3)),  -- 94: DEP_ASSERT_UNARY_OPERABLE(~, PP{}, P{})
    .parsersEq (tMaybe (P Exa3)) (P (.maybe Exa3)),  -- 94: DEP_ASSERT_PARSER_VALUES_EQ(~ PP{}, maybe_parser<PP>{}, ~ P{}, maybe_parser<P>{})
    .isTerm (tMaybe (P Exa4)),  -- 94: DEP_ASSERT_UNARY_OPERABLE(~, PP{}, P{})
    .parsersEq (tMaybe (P Exa4)) (P (.maybe Exa4)),  -- 94: DEP_ASSERT_PARSER_VALUES_EQ(~ PP{}, maybe_parser<PP>{}, ~ P{}, maybe_parser<P>{})
    .isTerm (tMaybe (P Oom1)),  -- 94: DEP_ASSERT_UNARY_OPERABLE(~, PP{}, P{})
    .parsersEq (tMaybe (P Oom1)) (P (.zeroOrMore All1)),  -- 94: DEP_ASSERT_PARSER_VALUES_EQ(~ PP{}, zero_or_more_parser<underlying_t<PP>>{}, ~ P{}, zero_or_more_parser<underlying_t<P>>{})
    .isTerm (tMaybe (P Oom2)),  -- 94: DEP_ASSERT_UNARY_OPERABLE(~, PP{}, P{})
    .parsersEq (tMaybe (P Oom2)) (P (.zeroOrMore Any1)),  -- 94: DEP_ASSERT_PARSER_VALUES_EQ(~ PP{}, zero_or_more_parser<underlying_t<PP>>{}, ~ P{}, zero_or_more_parser<underlying_t<P>>{})
    .isTerm (tMaybe (P Oom3)),  -- 94: DEP_ASSERT_UNARY_OPERABLE(~, PP{}, P{})
    .parsersEq (tMaybe (P Oom3)) (P (.zeroOrMore s_13)),  -- 94: DEP_ASSERT_PARSER_VALUES_EQ(~ PP{}, zero_or_more_parser<underlying_t<PP>>{}, ~ P{}, zero_or_more_parser<underlying_t<P>>{})
    .isTerm (tMaybe (P Oom4)),  -- 94: DEP_ASSERT_UNARY_OPERABLE(~, PP{}, P{})
    .parsersEq (tMaybe (P Oom4)) (P (.zeroOrMore s_14)),  -- 94: DEP_ASSERT_PARSER_VALUES_EQ(~ PP{}, zero_or_more_parser<underlying_t<PP>>{}, ~ P{}, zero_or_more_parser<underlying_t<P>>{})
    .isTerm (tMaybe (P Zom1)),  -- 94: DEP_ASSERT_UNARY_OPERABLE(~, PP{}, P{})
    .parsersEq (tMaybe (P Zom1)) (P Zom1),  -- 94: DEP_ASSERT_PARSER_VALUES_EQ(~ PP{}, PP{}, ~ P{}, P{})
    .isTerm (tMaybe (P Zom2)),  -- 94: DEP_ASSERT_UNARY_OPERABLE(~, PP{}, P{})
    .parsersEq (tMaybe (P Zom2)) (P Zom2),  -- 94: DEP_ASSERT_PARSER_VALUES_EQ(~ PP{}, PP{}, ~ P{}, P{})
    .isTerm (tMaybe (P Zom3)),  -- 94: DEP_ASSERT_UNARY_OPERABLE(~, PP{}, P{})
    .parsersEq (tMaybe (P Zom3)) (P Zom3),  -- 94: DEP_ASSERT_PARSER_VALUES_EQ(~ PP{}, PP{}, ~ P{}, P{})
    .isTerm (tMaybe (P Zom4)),  -- 94: DEP_ASSERT_UNARY_OPERABLE(~, PP{}, P{})
    .parsersEq (tMaybe (P Zom4)) (P Zom4),  -- 94: DEP_ASSERT_PARSER_VALUES_EQ(~ PP{}, PP{}, ~ P{}, P{})
    .isTerm (tMaybe (P Del1)),  -- 94: DEP_ASSERT_UNARY_OPERABLE(~, PP{}, P{})
    .parsersEq (tMaybe (P Del1)) (P (.maybe Del1))  -- 94: DEP_ASSERT_PARSER_VALUES_EQ(~ PP{}, maybe_parser<PP>{}, ~ P{}, maybe_parser<P>{})
    ], Assertion.Holds a :=
  Assertion.holds_of_check (by decide +kernel)

/-- maybe operator / ~{anything} (tests/char-tests/operators/maybe.cpp:94) -/
theorem charOperatorsMaybe_4_4 : ∀ a ∈ [
    .isTerm (tMaybe (P Del2)),  -- 94: DEP_ASSERT_UNARY_OPERABLE(~, PP{}, P{})
    .parsersEq (tMaybe (P Del2)) (P (.maybe Del2)),  -- 94: DEP_ASSERT_PARSER_VALUES_EQ(~ PP{}, maybe_parser<PP>{}, ~ P{}, maybe_parser<P>{})
    .isTerm (tMaybe (P Del3)),  -- 94: DEP_ASSERT_UNARY_OPERABLE(~, PP{}, P{})
    .parsersEq (tMaybe (P Del3)) (P (.maybe Del3)),  -- 94: DEP_ASSERT_PARSER_VALUES_EQ(~ PP{}, maybe_parser<PP>{}, ~ P{}, maybe_parser<P>{})
    .isTerm (tMaybe (P Del4)),  -- 94: DEP_ASSERT_UNARY_OPERABLE(~, PP{}, P{})
    .parsersEq (tMaybe (P Del4)) (P (.maybe Del4)),  -- 94: DEP_ASSERT_PARSER_VALUES_EQ(~ PP{}, maybe_parser<PP>{}, ~ P{}, maybe_parser<P>{})
    .isTerm (tMaybe (P Del5)),  -- 94: DEP_ASSERT_UNARY_OPERABLE(~, PP{}, P{})
    .parsersEq (tMaybe (P Del5)) (P (.maybe Del5)),  -- 94: DEP_ASSERT_PARSER_VALUES_EQ(~ PP{}, maybe_parser<PP>{}, ~ P{}, maybe_parser<P>{})
    .isTerm (tMaybe (P Del6)),  -- 94: DEP_ASSERT_UNARY_OPERABLE(~, PP{}, P{})
    .parsersEq (tMaybe (P Del6)) (P (.maybe Del6)),  -- 94: DEP_ASSERT_PARSER_VALUES_EQ(~ PP{}, maybe_parser<PP>{}, ~ P{}, maybe_parser<P>{})
    .isTerm (tMaybe (P Del7)),  -- 94: DEP_ASSERT_UNARY_OPERABLE(~, PP{}, P{})
    .parsersEq (tMaybe (P Del7)) (P (.maybe Del7)),  -- 94: DEP_ASSERT_PARSER_VALUES_EQ(~ PP{}, maybe_parser<PP>{}, ~ P{}, maybe_parser<P>{})
    .isTerm (tMaybe (P Del8)),  -- 94: DEP_ASSERT_UNARY_OPERABLE(~, PP{}, P{})
    .parsersEq (tMaybe (P Del8)) (P (.maybe Del8)),  -- 94: DEP_ASSERT_PARSER_VALUES_EQ(~ PP{}, maybe_parser<PP>{}, ~ P{}, maybe_parser<P>{})
    .isTerm (tMaybe (P Dek1)),  -- 94: DEP_ASSERT_UNARY_OPERABLE(~, PP{}, P{})
    .parsersEq (tMaybe (P Dek1)) (P (.maybe Dek1)),  -- 94: DEP_ASSERT_PARSER_VALUES_EQ(~ PP{}, maybe_parser<PP>{}, ~ P{}, maybe_parser<P>{})
    .isTerm (tMaybe (P Dek2)),  -- 94: DEP_ASSERT_UNARY_OPERABLE(~, PP{}, P{})
    .parsersEq (tMaybe (P Dek2)) (P (.maybe Dek2)),  -- 94: DEP_ASSERT_PARSER_VALUES_EQ(~ PP{}, maybe_parser<PP>{}, ~ P{}, maybe_parser<P>{})
    .isTerm (tMaybe (P Dek3)),  -- 94: DEP_ASSERT_UNARY_OPERABLE(~, PP{}, P{})
    .parsersEq (tMaybe (P Dek3)) (P (.maybe Dek3)),  -- 94: DEP_ASSERT_PARSER_VALUES_EQ(~ PP{}, maybe_parser<PP>{}, ~ P{}, maybe_parser<P>{})
    .isTerm (tMaybe (P Dek4)),  -- 94: DEP_ASSERT_UNARY_OPERABLE(~, PP{}, P{})
    .parsersEq (tMaybe (P Dek4)) (P (.maybe Dek4)),  -- 94: DEP_ASSERT_PARSER_VALUES_EQ(~ PP{}, maybe_parser<PP>{}, ~ P{}, maybe_parser<P>{})
    .isTerm (tMaybe (P Dek5)),  -- 94: DEP_ASSERT_UNARY_OPERABLE(~, PP{}, P{})
    .parsersEq (tMaybe (P Dek5)) (P (.maybe Dek5)),  -- 94: DEP_ASSERT_PARSER_VALUES_EQ(~ PP{}, maybe_parser<PP>{}, ~ P{}, maybe_parser<P>{})
    .isTerm (tMaybe (P Dek6)),  -- 94: DEP_ASSERT_UNARY_OPERABLE(~, PP{}, P{})
    .parsersEq (tMaybe (P Dek6)) (P (.maybe Dek6)),  -- 94: DEP_ASSERT_PARSER_VALUES_EQ(~ PP{}, maybe_parser<PP>{}, ~ P{}, maybe_parser<P>{})
    .isTerm (tMaybe (P Dek7)),  -- 94: DEP_ASSERT_UNARY_OPERABLE(~, PP{}, P{})
    .parsersEq (tMaybe (P Dek7)) (P (.maybe Dek7)),  -- 94: DEP_ASSERT_PARSER_VALUES_EQ(~ PP{}, maybe_parser<PP>{}, ~ P{}, maybe_parser<P>{})
    .isTerm (tMaybe (P Dek8)),  -- 94: DEP_ASSERT_UNARY_OPERABLE(~, PP{}, P{})
    .parsersEq (tMaybe (P Dek8)) (P (.maybe Dek8))  -- 94: DEP_ASSERT_PARSER_VALUES_EQ(~ PP{}, maybe_parser<PP>{}, ~ P{}, maybe_parser<P>{})
    ], Assertion.Holds a :=
  Assertion.holds_of_check (by decide +kernel)

end Tok3n.Tests
