import Verif.Tests.Gen.SamplesChar
/- Generated by tools/tests2lean.py from tests/char-tests/operators/not.cpp. -/

namespace Tok3n.Tests

/-- not operator / !any_of_parser (tests/char-tests/operators/not.cpp:14) -/
theorem charOperatorsNot_1 : ∀ a ∈ [
    .parsersEq (tNot (P Any1)) (P Non1),  -- 14: ASSERT_PARSER_VALUES_EQ(! any1, none1)
    .parsersEq (tNot (P Any2)) (P Non2),  -- 15: ASSERT_PARSER_VALUES_EQ(! any2, none2)
    .parsersEq (tNot (P Any3)) (P Non3),  -- 16: ASSERT_PARSER_VALUES_EQ(! any3, none3)
    .parsersEq (tNot (tNot (P Any1))) (P Any1),  -- 17: ASSERT_PARSER_VALUES_EQ(! ! any1, any1)
    .parsersEq (tNot (tNot (P Any2))) (P Any2),  -- 18: ASSERT_PARSER_VALUES_EQ(! ! any2, any2)
    .parsersEq (tNot (tNot (P Any3))) (P Any3)  -- 19: ASSERT_PARSER_VALUES_EQ(! ! any3, any3)
    ], Assertion.Holds a :=
  Assertion.holds_of_check (by decide +kernel)

/-- not operator / !none_of_parser (tests/char-tests/operators/not.cpp:24) -/
theorem charOperatorsNot_2 : ∀ a ∈ [
    .parsersEq (tNot (P Non1)) (P Any1),  -- 24: ASSERT_PARSER_VALUES_EQ(! none1, any1)
    .parsersEq (tNot (P Non2)) (P Any2),  -- 25: ASSERT_PARSER_VALUES_EQ(! none2, any2)
    .parsersEq (tNot (P Non3)) (P Any3),  -- 26: ASSERT_PARSER_VALUES_EQ(! none3, any3)
    .parsersEq (tNot (tNot (P Non1))) (P Non1),  -- 27: ASSERT_PARSER_VALUES_EQ(! ! none1, none1)
    .parsersEq (tNot (tNot (P Non2))) (P Non2),  -- 28: ASSERT_PARSER_VALUES_EQ(! ! none2, none2)
    .parsersEq (tNot (tNot (P Non3))) (P Non3)  -- 29: ASSERT_PARSER_VALUES_EQ(! ! none3, none3)
    ], Assertion.Holds a :=
  Assertion.holds_of_check (by decide +kernel)

/-- not operator / !{anything} (tests/char-tests/operators/not.cpp:61) -/
theorem charOperatorsNot_3_1 : ∀ a ∈ [
    .notParser (tNot (P Ign1)),  -- 61: DEP_ASSERT_UNARY_NOT_OPERABLE(!, PP{}, P{})
    .notParser (tNot (P Ign2)),  -- 61: DEP_ASSERT_UNARY_NOT_OPERABLE(!, PP{}, P{})
    .notParser (tNot (P Ign3)),  -- 61: DEP_ASSERT_UNARY_NOT_OPERABLE(!, PP{}, P{})
    .notParser (tNot (P Ign4)),  -- 61: DEP_ASSERT_UNARY_NOT_OPERABLE(!, PP{}, P{})
    .notParser (tNot (P Ign5)),  -- 61: DEP_ASSERT_UNARY_NOT_OPERABLE(!, PP{}, P{})
    .notParser (tNot (P Com1)),  -- 61: DEP_ASSERT_UNARY_NOT_OPERABLE(!, PP{}, P{})
    .notParser (tNot (P Com2)),  -- 61: DEP_ASSERT_UNARY_NOT_OPERABLE(!, PP{}, P{})
    .notParser (tNot (P Com3)),  -- 61: DEP_ASSERT_UNARY_NOT_OPERABLE(!, PP{}, P{})
    .notParser (tNot (P Com4)),  -- 61: DEP_ASSERT_UNARY_NOT_OPERABLE(!, PP{}, P{})
    .notParser (tNot (P Com5)),  -- 61: DEP_ASSERT_UNARY_NOT_OPERABLE(!, PP{}, P{})
    .notParser (tNot (P Com6)),  -- 61: DEP_ASSERT_UNARY_NOT_OPERABLE(!, PP{}, P{})
    .notParser (tNot (P Com7)),  -- 61: DEP_ASSERT_UNARY_NOT_OPERABLE(!, PP{}, P{})
    .notParser (tNot (P Nam1)),  -- 61: DEP_ASSERT_UNARY_NOT_OPERABLE(!, PP{}, P{})
    .notParser (tNot (P Nam2)),  -- 61: DEP_ASSERT_UNARY_NOT_OPERABLE(!, PP{}, P{})
    .notParser (tNot (P Nam3)),  -- 61: DEP_ASSERT_UNARY_NOT_OPERABLE(!, PP{}, P{})
    .notParser (tNot (P Nam4)),  -- 61: DEP_ASSERT_UNARY_NOT_OPERABLE(!, PP{}, P{})
    .isTerm (tNot (P Any1)),  -- 61: DEP_ASSERT_UNARY_OPERABLE(!, PP{}, P{})
    .parsersEq (tNot (P Any1)) (P (.noneOf [97, 98, 99])),  -- 61: DEP_ASSERT_PARSER_VALUES_EQ(! PP{}, none_of_parser<underlying_v<PP>>{}, ! P{}, none_of_parser<underlying_v<P>>{})
    .isTerm (tNot (P Any2)),  -- 61: DEP_ASSERT_UNARY_OPERABLE(!, PP{}, P{})
    .parsersEq (tNot (P Any2)) (P (.noneOf [98, 99, 100])),  -- 61: DEP_ASSERT_PARSER_VALUES_EQ(! PP{}, none_of_parser<underlying_v<PP>>{}, ! P{}, none_of_parser<underlying_v<P>>{})
    .isTerm (tNot (P Any3)),  -- 61: DEP_ASSERT_UNARY_OPERABLE(!, PP{}, P{})
    .parsersEq (tNot (P Any3)) (P (.noneOf [120, 121, 122])),  -- 61: DEP_ASSERT_PARSER_VALUES_EQ(! PP{}, none_of_parser<underlying_v<PP>>{}, ! P{}, none_of_parser<underlying_v<P>>{})
    .isTerm (tNot (P Any4)),  -- 61: DEP_ASSERT_UNARY_OPERABLE(!, PP{}, P{})
    .parsersEq (tNot (P Any4)) (P (.noneOf [99, 100])),  -- 61: DEP_ASSERT_PARSER_VALUES_EQ(! PP{}, none_of_parser<underlying_v<PP>>{}, ! P{}, none_of_parser<underlying_v<P>>{})
    .isTerm (tNot (P Non1)),  -- 61: DEP_ASSERT_UNARY_OPERABLE(!, PP{}, P{})
    .parsersEq (tNot (P Non1)) (P (.anyOf [97, 98, 99])),  -- 61: DEP_ASSERT_PARSER_VALUES_EQ(! PP{}, any_of_parser<underlying_v<PP>>{}, ! P{}, any_of_parser<underlying_v<P>>{})
    .isTerm (tNot (P Non2)),  -- 61: DEP_ASSERT_UNARY_OPERABLE(!, PP{}, P{})
    .parsersEq (tNot (P Non2)) (P (.anyOf [98, 99, 100])),  -- 61: DEP_ASSERT_PARSER_VALUES_EQ(! PP{}, any_of_parser<underlying_v<PP>>{}, ! P{}, any_of_parser<underlying_v<P>>{})
    .isTerm (tNot (P Non3)),  -- 61: DEP_ASSERT_UNARY_OPERABLE(!, PP{}, P{})
    .parsersEq (tNot (P Non3)) (P (.anyOf [120, 121, 122])),  -- 61: DEP_ASSERT_PARSER_VALUES_EQ(! PP{}, any_of_parser<underlying_v<PP>>{}, ! P{}, any_of_parser<underlying_v<P>>{})
    .isTerm (tNot (P Non4)),  -- 61: DEP_ASSERT_UNARY_OPERABLE(!, PP{}, P{})
    .parsersEq (tNot (P Non4)) (P (.anyOf [99, 100])),  -- 61: DEP_ASSERT_PARSER_VALUES_EQ(! PP{}, any_of_parser<underlying_v<PP>>{}, ! P{}, any_of_parser<underlying_v<P>>{})
    .isTerm (tNot (P Non5)),  -- 61: DEP_ASSERT_UNARY_OPERABLE(!, PP{}, P{})
    .parsersEq (tNot (P Non5)) (P (.anyOf [122])),  -- 61: DEP_ASSERT_PARSER_VALUES_EQ(! PP{}, any_of_parser<underlying_v<PP>>{}, ! P{}, any_of_parser<underlying_v<P>>{})
    .notParser (tNot (P All1)),  -- 61: DEP_ASSERT_UNARY_NOT_OPERABLE(!, PP{}, P{})
    .notParser (tNot (P All2)),  -- 61: DEP_ASSERT_UNARY_NOT_OPERABLE(!, PP{}, P{})
    .notParser (tNot (P All3)),  -- 61: DEP_ASSERT_UNARY_NOT_OPERABLE(!, PP{}, P{})
    .notParser (tNot (P All4)),  -- 61: DEP_ASSERT_UNARY_NOT_OPERABLE(!, PP{}, P{})
    .notParser (tNot (P Eps1)),  -- 61: DEP_ASSERT_UNARY_NOT_OPERABLE(!, PP{}, P{})
    .notParser (tNot (P Ant1)),  -- 61: DEP_ASSERT_UNARY_NOT_OPERABLE(!, PP{}, P{})
    .notParser (tNot (P QQ)),  -- 61: DEP_ASSERT_UNARY_NOT_OPERABLE(!, PP{}, P{})
    .notParser (tNot (P ABC)),  -- 61: DEP_ASSERT_UNARY_NOT_OPERABLE(!, PP{}, P{})
    .isTerm (tNot (P Comma)),  -- 61: DEP_ASSERT_UNARY_OPERABLE(!, PP{}, P{})
    .parsersEq (tNot (P Comma)) (P (.noneOf [44])),  -- 61: DEP_ASSERT_PARSER_VALUES_EQ(! PP{}, none_of_parser<underlying_v<PP>>{}, ! P{}, none_of_parser<underlying_v<P>>{})
    .isTerm (tNot (P SpaceDot)),  -- 61: DEP_ASSERT_UNARY_OPERABLE(!, PP{}, P{})
    .parsersEq (tNot (P SpaceDot)) (P (.noneOf [32, 46])),  -- 61: DEP_ASSERT_PARSER_VALUES_EQ(! PP{}, none_of_parser<underlying_v<PP>>{}, ! P{}, none_of_parser<underlying_v<P>>{})
    .notParser (tNot (P Cho1)),  -- 61: DEP_ASSERT_UNARY_NOT_OPERABLE(!, PP{}, P{})
    .notParser (tNot (P Cho2)),  -- 61: DEP_ASSERT_UNARY_NOT_OPERABLE(!, PP{}, P{})
    .notParser (tNot (P Cho3)),  -- 61: DEP_ASSERT_UNARY_NOT_OPERABLE(!, PP{}, P{})
    .notParser (tNot (P Cho4)),  -- 61: DEP_ASSERT_UNARY_NOT_OPERABLE(!, PP{}, P{})
    .notParser (tNot (P Cho5)),  -- 61: DEP_ASSERT_UNARY_NOT_OPERABLE(!, PP{}, P{})
    .notParser (tNot (P Seq1)),  -- 61: DEP_ASSERT_UNARY_NOT_OPERABLE(!, PP{}, P{})
    .notParser (tNot (P Seq2)),  -- 61: DEP_ASSERT_UNARY_NOT_OPERABLE(!, PP{}, P{})
    .notParser (tNot (P Seq3)),  -- 61: DEP_ASSERT_UNARY_NOT_OPERABLE(!, PP{}, P{})
    .notParser (tNot (P Seq4)),  -- 61: DEP_ASSERT_UNARY_NOT_OPERABLE(!, PP{}, P{})
    .notParser (tNot (P Seq5)),  -- 61: DEP_ASSERT_UNARY_NOT_OPERABLE(!, PP{}, P{})
    .notParser (tNot (P Joi1)),  -- 61: DEP_ASSERT_UNARY_NOT_OPERABLE(!, PP{}, P{})
    .notParser (tNot (P Joi2)),  -- 61: DEP_ASSERT_UNARY_NOT_OPERABLE(!, PP{}, P{})
    .notParser (tNot (P Joi3)),  -- 61: DEP_ASSERT_UNARY_NOT_OPERABLE(!, PP{}, P{})
    .notParser (tNot (P Joi4))  -- 61: DEP_ASSERT_UNARY_NOT_OPERABLE(!, PP{}, P{})
    ], Assertion.Holds a :=
  Assertion.holds_of_check (by decide +kernel)

/-- not operator / !{anything} (tests/char-tests/operators/not.cpp:61) -/
theorem charOperatorsNot_3_2 : ∀ a ∈ [
    .notParser (tNot (P Joi5)),  -- 61: DEP_ASSERT_UNARY_NOT_OPERABLE(!, PP{}, P{})
    .notParser (tNot (P Map1)),  -- 61: DEP_ASSERT_UNARY_NOT_OPERABLE(!, PP{}, P{})
    .notParser (tNot (P Map2)),  -- 61: DEP_ASSERT_UNARY_NOT_OPERABLE(!, PP{}, P{})
    .notParser (tNot (P Map3)),  -- 61: DEP_ASSERT_UNARY_NOT_OPERABLE(!, PP{}, P{})
    .notParser (tNot (P Map4)),  -- 61: DEP_ASSERT_UNARY_NOT_OPERABLE(!, PP{}, P{})
    .notParser (tNot (P Fil1)),  -- 61: DEP_ASSERT_UNARY_NOT_OPERABLE(!, PP{}, P{})
    .notParser (tNot (P Fil2)),  -- 61: DEP_ASSERT_UNARY_NOT_OPERABLE(!, PP{}, P{})
    .notParser (tNot (P Fil3)),  -- 61: DEP_ASSERT_UNARY_NOT_OPERABLE(!, PP{}, P{})
    .notParser (tNot (P Apm1)),  -- 61: DEP_ASSERT_UNARY_NOT_OPERABLE(!, PP{}, P{})
    .notParser (tNot (P Apm2)),  -- 61: DEP_ASSERT_UNARY_NOT_OPERABLE(!, PP{}, P{})
    .notParser (tNot (P Apf1)),  -- 61: DEP_ASSERT_UNARY_NOT_OPERABLE(!, PP{}, P{})
    .notParser (tNot (P Int1)),  -- 61: DEP_ASSERT_UNARY_NOT_OPERABLE(!, PP{}, P{})
    .notParser (tNot (P Int2)),  -- 61: DEP_ASSERT_UNARY_NOT_OPERABLE(!, PP{}, P{})
    .notParser (tNot (P Int3)),  -- 61: DEP_ASSERT_UNARY_NOT_OPERABLE(!, PP{}, P{})
    .notParser (tNot (P Api1)),  -- 61: DEP_ASSERT_UNARY_NOT_OPERABLE(!, PP{}, P{})
    .notParser (tNot (P Api2)),  -- 61: DEP_ASSERT_UNARY_NOT_OPERABLE(!, PP{}, P{})
    .notParser (tNot (P Con1)),  -- 61: DEP_ASSERT_UNARY_NOT_OPERABLE(!, PP{}, P{})
    .notParser (tNot (P Con2)),  -- 61: DEP_ASSERT_UNARY_NOT_OPERABLE(!, PP{}, P{})
    .notParser (tNot (P Con3)),  -- 61: DEP_ASSERT_UNARY_NOT_OPERABLE(!, PP{}, P{})
    .notParser (tNot (P Con4)),  -- 61: DEP_ASSERT_UNARY_NOT_OPERABLE(!, PP{}, P{})
    .notParser (tNot (P Def1)),  -- 61: DEP_ASSERT_UNARY_NOT_OPERABLE(!, PP{}, P{})
    .notParser (tNot (P Def2)),  -- 61: DEP_ASSERT_UNARY_NOT_OPERABLE(!, PP{}, P{})
    .notParser (tNot (P (.custom 0))),  -- 61: DEP_ASSERT_UNARY_NOT_OPERABLE(!, PP{}, P{})
    .notParser (tNot (P (.custom 1))),  -- 61: DEP_ASSERT_UNARY_NOT_OPERABLE(!, PP{}, P{})
    .notParser (tNot (P May1)),  -- 61: DEP_ASSERT_UNARY_NOT_OPERABLE(!, PP{}, P{})
    .notParser (tNot (P May2)),  -- 61: DEP_ASSERT_UNARY_NOT_OPERABLE(!, PP{}, P{})
    .notParser (tNot (P May3)),  -- 61: DEP_ASSERT_UNARY_NOT_OPERABLE(!, PP{}, P{})
    .notParser (tNot (P May4)),  -- 61: DEP_ASSERT_UNARY_NOT_OPERABLE(!, PP{}, P{})
    .notParser (tNot (P Exa1)),  -- 61: DEP_ASSERT_UNARY_NOT_OPERABLE(!, PP{}, P{})
    .notParser (tNot (P Exa2)),  -- 61: DEP_ASSERT_UNARY_NOT_OPERABLE(!, PP{}, P{})
    .notParser (tNot (P Exa3)),  -- 61: DEP_ASSERT_UNARY_NOT_OPERABLE(!, PP{}, P{})
    .notParser (tNot (P Exa4)),  -- 61: DEP_ASSERT_UNARY_NOT_OPERABLE(!, PP{}, P{})
    .notParser (tNot (P Oom1)),  -- 61: DEP_ASSERT_UNARY_NOT_OPERABLE(!, PP{}, P{})
    .notParser (tNot (P Oom2)),  -- 61: DEP_ASSERT_UNARY_NOT_OPERABLE(!, PP{}, P{})
    .notParser (tNot (P Oom3)),  -- 61: DEP_ASSERT_UNARY_NOT_OPERABLE(!, PP{}, P{})
    .notParser (tNot (P Oom4)),  -- 61: DEP_ASSERT_UNARY_NOT_OPERABLE(!, PP{}, P{})
    .notParser (tNot (P Zom1)),  -- 61: DEP_ASSERT_UNARY_NOT_OPERABLE(!, PP{}, P{})
    .notParser (tNot (P Zom2)),  -- 61: DEP_ASSERT_UNARY_NOT_OPERABLE(!, PP{}, P{})
    .notParser (tNot (P Zom3)),  -- 61: DEP_ASSERT_UNARY_NOT_OPERABLE(!, PP{}, P{})
    .notParser (tNot (P Zom4)),  -- 61: DEP_ASSERT_UNARY_NOT_OPERABLE(!, PP{}, P{})
    .notParser (tNot (P Del1)),  -- 61: DEP_ASSERT_UNARY_NOT_OPERABLE(!, PP{}, P{})
    .notParser (tNot (P Del2)),  -- 61: DEP_ASSERT_UNARY_NOT_OPERABLE(!, PP{}, P{})
    .notParser (tNot (P Del3)),  -- 61: DEP_ASSERT_UNARY_NOT_OPERABLE(!, PP{}, P{})
    .notParser (tNot (P Del4)),  -- 61: DEP_ASSERT_UNARY_NOT_OPERABLE(!, PP{}, P{})
    .notParser (tNot (P Del5)),  -- 61: DEP_ASSERT_UNARY_NOT_OPERABLE(!, PP{}, P{})
    .notParser (tNot (P Del6)),  -- 61: DEP_ASSERT_UNARY_NOT_OPERABLE(!, PP{}, P{})
    .notParser (tNot (P Del7)),  -- 61: DEP_ASSERT_UNARY_NOT_OPERABLE(!, PP{}, P{})
    .notParser (tNot (P Del8)),  -- 61: DEP_ASSERT_UNARY_NOT_OPERABLE(!, PP{}, P{})
    .notParser (tNot (P Dek1)),  -- 61: DEP_ASSERT_UNARY_NOT_OPERABLE(!, PP{}, P{})
    .notParser (tNot (P Dek2)),  -- 61: DEP_ASSERT_UNARY_NOT_OPERABLE(!, PP{}, P{})
    .notParser (tNot (P Dek3)),  -- 61: DEP_ASSERT_UNARY_NOT_OPERABLE(!, PP{}, P{})
    .notParser (tNot (P Dek4)),  -- 61: DEP_ASSERT_UNARY_NOT_OPERABLE(!, PP{}, P{})
    .notParser (tNot (P Dek5)),  -- 61: DEP_ASSERT_UNARY_NOT_OPERABLE(!, PP{}, P{})
    .notParser (tNot (P Dek6)),  -- 61: DEP_ASSERT_UNARY_NOT_OPERABLE(!, PP{}, P{})
    .notParser (tNot (P Dek7)),  -- 61: DEP_ASSERT_UNARY_NOT_OPERABLE(!, PP{}, P{})
    .notParser (tNot (P Dek8))  -- 61: DEP_ASSERT_UNARY_NOT_OPERABLE(!, PP{}, P{})
    ], Assertion.Holds a :=
  Assertion.holds_of_check (by decide +kernel)

end Tok3n.Tests
