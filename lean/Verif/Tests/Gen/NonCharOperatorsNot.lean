import Verif.Tests.Gen.SamplesNonChar
/- Generated by tools/tests2lean.py from tests/non-char-tests/operators/not.cpp. -/

namespace Tok3n.Tests.NonChar

/-- not operator / !any_of_parser (tests/non-char-tests/operators/not.cpp:14) -/
theorem nonCharOperatorsNot_1 : ∀ a ∈ [
    .parsersEq (tNot (P Any1)) (P Non1),  -- 14: ASSERT_PARSER_VALUES_EQ(! any1, none1)
    .parsersEq (tNot (P Any2)) (P Non2),  -- 15: ASSERT_PARSER_VALUES_EQ(! any2, none2)
    .parsersEq (tNot (P Any3)) (P Non3),  -- 16: ASSERT_PARSER_VALUES_EQ(! any3, none3)
    .parsersEq (tNot (tNot (P Any1))) (P Any1),  -- 17: ASSERT_PARSER_VALUES_EQ(! ! any1, any1)
    .parsersEq (tNot (tNot (P Any2))) (P Any2),  -- 18: ASSERT_PARSER_VALUES_EQ(! ! any2, any2)
    .parsersEq (tNot (tNot (P Any3))) (P Any3)  -- 19: ASSERT_PARSER_VALUES_EQ(! ! any3, any3)
    ], Assertion.Holds a :=
  Assertion.holds_of_check (by decide +kernel)

/-- not operator / !none_of_parser (tests/non-char-tests/operators/not.cpp:24) -/
theorem nonCharOperatorsNot_2 : ∀ a ∈ [
    .parsersEq (tNot (P Non1)) (P Any1),  -- 24: ASSERT_PARSER_VALUES_EQ(! none1, any1)
    .parsersEq (tNot (P Non2)) (P Any2),  -- 25: ASSERT_PARSER_VALUES_EQ(! none2, any2)
    .parsersEq (tNot (P Non3)) (P Any3),  -- 26: ASSERT_PARSER_VALUES_EQ(! none3, any3)
    .parsersEq (tNot (tNot (P Non1))) (P Non1),  -- 27: ASSERT_PARSER_VALUES_EQ(! ! none1, none1)
    .parsersEq (tNot (tNot (P Non2))) (P Non2),  -- 28: ASSERT_PARSER_VALUES_EQ(! ! none2, none2)
    .parsersEq (tNot (tNot (P Non3))) (P Non3)  -- 29: ASSERT_PARSER_VALUES_EQ(! ! none3, none3)
    ], Assertion.Holds a :=
  Assertion.holds_of_check (by decide +kernel)

/-- not operator / !{anything} (tests/non-char-tests/operators/not.cpp:56) -/
theorem nonCharOperatorsNot_3 : ∀ a ∈ [
    .isTerm (tNot (P Any1)),  -- 56: DEP_ASSERT_UNARY_OPERABLE(!, PP{}, P{})
    .parsersEq (tNot (P Any1)) (P (.noneOf [1, 2, 3])),  -- 56: DEP_ASSERT_PARSER_VALUES_EQ(! PP{}, none_of_parser<underlying_v<PP>>{}, ! P{}, none_of_parser<underlying_v<P>>{})
    .isTerm (tNot (P Any2)),  -- 56: DEP_ASSERT_UNARY_OPERABLE(!, PP{}, P{})
    .parsersEq (tNot (P Any2)) (P (.noneOf [2, 3, 4])),  -- 56: DEP_ASSERT_PARSER_VALUES_EQ(! PP{}, none_of_parser<underlying_v<PP>>{}, ! P{}, none_of_parser<underlying_v<P>>{})
    .isTerm (tNot (P Any3)),  -- 56: DEP_ASSERT_UNARY_OPERABLE(!, PP{}, P{})
    .parsersEq (tNot (P Any3)) (P (.noneOf [5, 6, 7])),  -- 56: DEP_ASSERT_PARSER_VALUES_EQ(! PP{}, none_of_parser<underlying_v<PP>>{}, ! P{}, none_of_parser<underlying_v<P>>{})
    .isTerm (tNot (P Any4)),  -- 56: DEP_ASSERT_UNARY_OPERABLE(!, PP{}, P{})
    .parsersEq (tNot (P Any4)) (P (.noneOf [2, 3])),  -- 56: DEP_ASSERT_PARSER_VALUES_EQ(! PP{}, none_of_parser<underlying_v<PP>>{}, ! P{}, none_of_parser<underlying_v<P>>{})
    .isTerm (tNot (P Non1)),  -- 56: DEP_ASSERT_UNARY_OPERABLE(!, PP{}, P{})
    .parsersEq (tNot (P Non1)) (P (.anyOf [1, 2, 3])),  -- 56: DEP_ASSERT_PARSER_VALUES_EQ(! PP{}, any_of_parser<underlying_v<PP>>{}, ! P{}, any_of_parser<underlying_v<P>>{})
    .isTerm (tNot (P Non2)),  -- 56: DEP_ASSERT_UNARY_OPERABLE(!, PP{}, P{})
    .parsersEq (tNot (P Non2)) (P (.anyOf [2, 3, 4])),  -- 56: DEP_ASSERT_PARSER_VALUES_EQ(! PP{}, any_of_parser<underlying_v<PP>>{}, ! P{}, any_of_parser<underlying_v<P>>{})
    .isTerm (tNot (P Non3)),  -- 56: DEP_ASSERT_UNARY_OPERABLE(!, PP{}, P{})
    .parsersEq (tNot (P Non3)) (P (.anyOf [5, 6, 7])),  -- 56: DEP_ASSERT_PARSER_VALUES_EQ(! PP{}, any_of_parser<underlying_v<PP>>{}, ! P{}, any_of_parser<underlying_v<P>>{})
    .isTerm (tNot (P Non4)),  -- 56: DEP_ASSERT_UNARY_OPERABLE(!, PP{}, P{})
    .parsersEq (tNot (P Non4)) (P (.anyOf [2, 3])),  -- 56: DEP_ASSERT_PARSER_VALUES_EQ(! PP{}, any_of_parser<underlying_v<PP>>{}, ! P{}, any_of_parser<underlying_v<P>>{})
    .isTerm (tNot (P Non5)),  -- 56: DEP_ASSERT_UNARY_OPERABLE(!, PP{}, P{})
    .parsersEq (tNot (P Non5)) (P (.anyOf [7])),  -- 56: DEP_ASSERT_PARSER_VALUES_EQ(! PP{}, any_of_parser<underlying_v<PP>>{}, ! P{}, any_of_parser<underlying_v<P>>{})
    .notParser (tNot (P All1)),  -- 56: DEP_ASSERT_UNARY_NOT_OPERABLE(!, PP{}, P{})
    .notParser (tNot (P All2)),  -- 56: DEP_ASSERT_UNARY_NOT_OPERABLE(!, PP{}, P{})
    .notParser (tNot (P All3)),  -- 56: DEP_ASSERT_UNARY_NOT_OPERABLE(!, PP{}, P{})
    .notParser (tNot (P Eps1)),  -- 56: DEP_ASSERT_UNARY_NOT_OPERABLE(!, PP{}, P{})
    .notParser (tNot (P Ant1)),  -- 56: DEP_ASSERT_UNARY_NOT_OPERABLE(!, PP{}, P{})
    .notParser (tNot (P QQ)),  -- 56: DEP_ASSERT_UNARY_NOT_OPERABLE(!, PP{}, P{})
    .notParser (tNot (P ABC)),  -- 56: DEP_ASSERT_UNARY_NOT_OPERABLE(!, PP{}, P{})
    .isTerm (tNot (P Comma)),  -- 56: DEP_ASSERT_UNARY_OPERABLE(!, PP{}, P{})
    .parsersEq (tNot (P Comma)) (P (.noneOf [9])),  -- 56: DEP_ASSERT_PARSER_VALUES_EQ(! PP{}, none_of_parser<underlying_v<PP>>{}, ! P{}, none_of_parser<underlying_v<P>>{})
    .isTerm (tNot (P SpaceDot)),  -- 56: DEP_ASSERT_UNARY_OPERABLE(!, PP{}, P{})
    .parsersEq (tNot (P SpaceDot)) (P (.noneOf [10, 11]))  -- 56: DEP_ASSERT_PARSER_VALUES_EQ(! PP{}, none_of_parser<underlying_v<PP>>{}, ! P{}, none_of_parser<underlying_v<P>>{})
    ], Assertion.Holds a :=
  Assertion.holds_of_check (by decide +kernel)

end Tok3n.Tests.NonChar
