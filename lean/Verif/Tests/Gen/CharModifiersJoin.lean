import Verif.Tests.Gen.SamplesChar
/- Generated by tools/tests2lean.py from tests/char-tests/modifiers/join.cpp. -/

namespace Tok3n.Tests

/-- join modifier / prefix (tests/char-tests/modifiers/join.cpp:14) -/
theorem charModifiersJoin_1 : ∀ a ∈ [
    .parsersEq (P Joi1) (tCall (M .join) [(P ABC)]),  -- 14: ASSERT_PARSER_VALUES_EQ(joi1, join(abc))
    .parsersNe (P ABC) (tCall (M .join) [(P ABC)]),  -- 15: ASSERT_PARSER_VALUES_NE(abc, join(abc))
    .parsersEq (P Joi2) (tCall (M .join) [(tPlus (P ABC))]),  -- 16: ASSERT_PARSER_VALUES_EQ(joi2, join(+ abc))
    .parsersEq (P Joi3) (tCall (M .join) [(tMaybe (tOr (P ABC) (P QQ)))]),  -- 17: ASSERT_PARSER_VALUES_EQ(joi3, join(~(abc | qq)))
    .parsersEq (P Joi4) (tCall (M .join) [(tThen (P ABC) (tStar (P QQ)))]),  -- 18: ASSERT_PARSER_VALUES_EQ(joi4, join(abc>> * qq))
    .parsersEq (P Joi5) (tCall (M .join) [(tThen (tPlus (P ABC)) (tMaybe (tOr (P ABC) (P QQ))))])  -- 19: ASSERT_PARSER_VALUES_EQ(joi5, join(+ abc>> ~(abc | qq)))
    ], Assertion.Holds a :=
  Assertion.holds_of_check (by decide +kernel)

/-- join modifier / infix (tests/char-tests/modifiers/join.cpp:24) -/
theorem charModifiersJoin_2 : ∀ a ∈ [
    .parsersEq (P Joi1) (tMod (P ABC) (M .join)),  -- 24: ASSERT_PARSER_VALUES_EQ(joi1, abc % join)
    .parsersNe (P ABC) (tMod (P ABC) (M .join)),  -- 25: ASSERT_PARSER_VALUES_NE(abc, abc % join)
    .parsersEq (P Joi2) (tMod (tPlus (P ABC)) (M .join)),  -- 26: ASSERT_PARSER_VALUES_EQ(joi2, + abc % join)
    .parsersEq (P Joi3) (tMod (tMaybe (tOr (P ABC) (P QQ))) (M .join)),  -- 27: ASSERT_PARSER_VALUES_EQ(joi3, ~(abc | qq) % join)
    .parsersEq (P Joi4) (tMod (tThen (P ABC) (tStar (P QQ))) (M .join)),  -- 28: ASSERT_PARSER_VALUES_EQ(joi4,(abc>> * qq) % join)
    .parsersEq (P Joi5) (tMod (tThen (tPlus (P ABC)) (tMaybe (tOr (P ABC) (P QQ)))) (M .join))  -- 29: ASSERT_PARSER_VALUES_EQ(joi5,(+ abc>> ~(abc | qq)) % join)
    ], Assertion.Holds a :=
  Assertion.holds_of_check (by decide +kernel)

/-- join modifier / idempotent (tests/char-tests/modifiers/join.cpp:34) -/
theorem charModifiersJoin_3 : ∀ a ∈ [
    .parsersEq (P Joi1) (tCall (M .join) [(P Joi1)]),  -- 34: ASSERT_PARSER_VALUES_EQ(joi1, join(joi1))
    .parsersEq (P Joi2) (tCall (M .join) [(P Joi2)]),  -- 35: ASSERT_PARSER_VALUES_EQ(joi2, join(joi2))
    .parsersEq (P Joi3) (tCall (M .join) [(P Joi3)]),  -- 36: ASSERT_PARSER_VALUES_EQ(joi3, join(joi3))
    .parsersEq (P Joi4) (tCall (M .join) [(P Joi4)]),  -- 37: ASSERT_PARSER_VALUES_EQ(joi4, join(joi4))
    .parsersEq (P Joi5) (tCall (M .join) [(P Joi5)]),  -- 38: ASSERT_PARSER_VALUES_EQ(joi5, join(joi5))
    .parsersEq (P Joi1) (tMod (P Joi1) (M .join)),  -- 39: ASSERT_PARSER_VALUES_EQ(joi1, joi1 % join)
    .parsersEq (P Joi2) (tMod (P Joi2) (M .join)),  -- 40: ASSERT_PARSER_VALUES_EQ(joi2, joi2 % join)
    .parsersEq (P Joi3) (tMod (P Joi3) (M .join)),  -- 41: ASSERT_PARSER_VALUES_EQ(joi3, joi3 % join)
    .parsersEq (P Joi4) (tMod (P Joi4) (M .join)),  -- 42: ASSERT_PARSER_VALUES_EQ(joi4, joi4 % join)
    .parsersEq (P Joi5) (tMod (P Joi5) (M .join))  -- 43: ASSERT_PARSER_VALUES_EQ(joi5, joi5 % join)
    ], Assertion.Holds a :=
  Assertion.holds_of_check (by decide +kernel)

/-- join modifier / modify anything (tests/char-tests/modifiers/join.cpp:74) -/
theorem charModifiersJoin_4_1 : ∀ a ∈ [
    .parsersEq (tCall (M .join) [(P Ign1)]) (P (.join Ign1)),  -- 74: DEP_ASSERT_MODIFIER_CALLABLE_R(join,(PP{}), join_parser<PP>{}, join,(P{}), join_parser<P>{})
    .parsersEq (tMod (P Ign1) (M .join)) (P (.join Ign1)),  -- 74: DEP_ASSERT_MODIFIER_MODULO_OPERABLE_R(PP{}, join, join_parser<PP>{}, P{}, join, join_parser<P>{})
    .parsersEq (tCall (M .join) [(P Ign2)]) (P (.join Ign2)),  -- 74: DEP_ASSERT_MODIFIER_CALLABLE_R(join,(PP{}), join_parser<PP>{}, join,(P{}), join_parser<P>{})
    .parsersEq (tMod (P Ign2) (M .join)) (P (.join Ign2)),  -- 74: DEP_ASSERT_MODIFIER_MODULO_OPERABLE_R(PP{}, join, join_parser<PP>{}, P{}, join, join_parser<P>{})
    .parsersEq (tCall (M .join) [(P Ign3)]) (P (.join Ign3)),  -- 74: DEP_ASSERT_MODIFIER_CALLABLE_R(join,(PP{}), join_parser<PP>{}, join,(P{}), join_parser<P>{})
    .parsersEq (tMod (P Ign3) (M .join)) (P (.join Ign3)),  -- 74: DEP_ASSERT_MODIFIER_MODULO_OPERABLE_R(PP{}, join, join_parser<PP>{}, P{}, join, join_parser<P>{})
    .parsersEq (tCall (M .join) [(P Ign4)]) (P (.join Ign4)),  -- 74: DEP_ASSERT_MODIFIER_CALLABLE_R(join,(PP{}), join_parser<PP>{}, join,(P{}), join_parser<P>{})
    .parsersEq (tMod (P Ign4) (M .join)) (P (.join Ign4)),  -- 74: DEP_ASSERT_MODIFIER_MODULO_OPERABLE_R(PP{}, join, join_parser<PP>{}, P{}, join, join_parser<P>{})
    .parsersEq (tCall (M .join) [(P Ign5)]) (P (.join Ign5)),  -- 74: DEP_ASSERT_MODIFIER_CALLABLE_R(join,(PP{}), join_parser<PP>{}, join,(P{}), join_parser<P>{})
    .parsersEq (tMod (P Ign5) (M .join)) (P (.join Ign5)),  -- 74: DEP_ASSERT_MODIFIER_MODULO_OPERABLE_R(PP{}, join, join_parser<PP>{}, P{}, join, join_parser<P>{})
    .parsersEq (tCall (M .join) [(P Com1)]) (P (.join Com1)),  -- 74: DEP_ASSERT_MODIFIER_CALLABLE_R(join,(PP{}), join_parser<PP>{}, join,(P{}), join_parser<P>{})
    .parsersEq (tMod (P Com1) (M .join)) (P (.join Com1)),  -- 74: DEP_ASSERT_MODIFIER_MODULO_OPERABLE_R(PP{}, join, join_parser<PP>{}, P{}, join, join_parser<P>{})
    .parsersEq (tCall (M .join) [(P Com2)]) (P (.join Com2)),  -- 74: DEP_ASSERT_MODIFIER_CALLABLE_R(join,(PP{}), join_parser<PP>{}, join,(P{}), join_parser<P>{})
    .parsersEq (tMod (P Com2) (M .join)) (P (.join Com2)),  -- 74: DEP_ASSERT_MODIFIER_MODULO_OPERABLE_R(PP{}, join, join_parser<PP>{}, P{}, join, join_parser<P>{})
    .parsersEq (tCall (M .join) [(P Com3)]) (P (.join Com3)),  -- 74: DEP_ASSERT_MODIFIER_CALLABLE_R(join,(PP{}), join_parser<PP>{}, join,(P{}), join_parser<P>{})
    .parsersEq (tMod (P Com3) (M .join)) (P (.join Com3)),  -- 74: DEP_ASSERT_MODIFIER_MODULO_OPERABLE_R(PP{}, join, join_parser<PP>{}, P{}, join, join_parser<P>{})
    .parsersEq (tCall (M .join) [(P Com4)]) (P (.join Com4)),  -- 74: DEP_ASSERT_MODIFIER_CALLABLE_R(join,(PP{}), join_parser<PP>{}, join,(P{}), join_parser<P>{})
    .parsersEq (tMod (P Com4) (M .join)) (P (.join Com4)),  -- 74: DEP_ASSERT_MODIFIER_MODULO_OPERABLE_R(PP{}, join, join_parser<PP>{}, P{}, join, join_parser<P>{})
    .parsersEq (tCall (M .join) [(P Com5)]) (P (.join Com5)),  -- 74: DEP_ASSERT_MODIFIER_CALLABLE_R(join,(PP{}), join_parser<PP>{}, join,(P{}), join_parser<P>{})
    .parsersEq (tMod (P Com5) (M .join)) (P (.join Com5)),  -- 74: DEP_ASSERT_MODIFIER_MODULO_OPERABLE_R(PP{}, join, join_parser<PP>{}, P{}, join, join_parser<P>{})
    .parsersEq (tCall (M .join) [(P Com6)]) (P (.join Com6)),  -- 74: DEP_ASSERT_MODIFIER_CALLABLE_R(join,(PP{}), join_parser<PP>{}, join,(P{}), join_parser<P>{})
    .parsersEq (tMod (P Com6) (M .join)) (P (.join Com6)),  -- 74: DEP_ASSERT_MODIFIER_MODULO_OPERABLE_R(PP{}, join, join_parser<PP>{}, P{}, join, join_parser<P>{})
    .parsersEq (tCall (M .join) [(P Com7)]) (P (.join Com7)),  -- 74: DEP_ASSERT_MODIFIER_CALLABLE_R(join,(PP{}), join_parser<PP>{}, join,(P{}), join_parser<P>{})
    .parsersEq (tMod (P Com7) (M .join)) (P (.join Com7)),  -- 74: DEP_ASSERT_MODIFIER_MODULO_OPERABLE_R(PP{}, join, join_parser<PP>{}, P{}, join, join_parser<P>{})
    .parsersEq (tCall (M .join) [(P Nam1)]) (P (.join Nam1)),  -- 74: DEP_ASSERT_MODIFIER_CALLABLE_R(join,(PP{}), join_parser<PP>{}, join,(P{}), join_parser<P>{})
    .parsersEq (tMod (P Nam1) (M .join)) (P (.join Nam1)),  -- 74: DEP_ASSERT_MODIFIER_MODULO_OPERABLE_R(PP{}, join, join_parser<PP>{}, P{}, join, join_parser<P>{})
    .parsersEq (tCall (M .join) [(P Nam2)]) (P (.join Nam2)),  -- 74: DEP_ASSERT_MODIFIER_CALLABLE_R(join,(PP{}), join_parser<PP>{}, join,(P{}), join_parser<P>{})
    .parsersEq (tMod (P Nam2) (M .join)) (P (.join Nam2)),  -- 74: DEP_ASSERT_MODIFIER_MODULO_OPERABLE_R(PP{}, join, join_parser<PP>{}, P{}, join, join_parser<P>{})
    .parsersEq (tCall (M .join) [(P Nam3)]) (P (.join Nam3)),  -- 74: DEP_ASSERT_MODIFIER_CALLABLE_R(join,(PP{}), join_parser<PP>{}, join,(P{}), join_parser<P>{})
    .parsersEq (tMod (P Nam3) (M .join)) (P (.join Nam3)),  -- 74: DEP_ASSERT_MODIFIER_MODULO_OPERABLE_R(PP{}, join, join_parser<PP>{}, P{}, join, join_parser<P>{})
    .parsersEq (tCall (M .join) [(P Nam4)]) (P (.join Nam4)),  -- 74: DEP_ASSERT_MODIFIER_CALLABLE_R(join,(PP{}), join_parser<PP>{}, join,(P{}), join_parser<P>{})
    .parsersEq (tMod (P Nam4) (M .join)) (P (.join Nam4)),  -- 74: DEP_ASSERT_MODIFIER_MODULO_OPERABLE_R(PP{}, join, join_parser<PP>{}, P{}, join, join_parser<P>{})
    .parsersEq (tCall (M .join) [(P Any1)]) (P (.join Any1)),  -- 74: DEP_ASSERT_MODIFIER_CALLABLE_R(join,(PP{}), join_parser<PP>{}, join,(P{}), join_parser<P>{})
    .parsersEq (tMod (P Any1) (M .join)) (P (.join Any1)),  -- 74: DEP_ASSERT_MODIFIER_MODULO_OPERABLE_R(PP{}, join, join_parser<PP>{}, P{}, join, join_parser<P>{})
    .parsersEq (tCall (M .join) [(P Any2)]) (P (.join Any2)),  -- 74: DEP_ASSERT_MODIFIER_CALLABLE_R(join,(PP{}), join_parser<PP>{}, join,(P{}), join_parser<P>{})
    .parsersEq (tMod (P Any2) (M .join)) (P (.join Any2)),  -- 74: DEP_ASSERT_MODIFIER_MODULO_OPERABLE_R(PP{}, join, join_parser<PP>{}, P{}, join, join_parser<P>{})
    .parsersEq (tCall (M .join) [(P Any3)]) (P (.join Any3)),  -- 74: DEP_ASSERT_MODIFIER_CALLABLE_R(join,(PP{}), join_parser<PP>{}, join,(P{}), join_parser<P>{})
    .parsersEq (tMod (P Any3) (M .join)) (P (.join Any3)),  -- 74: DEP_ASSERT_MODIFIER_MODULO_OPERABLE_R(PP{}, join, join_parser<PP>{}, P{}, join, join_parser<P>{})
    .parsersEq (tCall (M .join) [(P Any4)]) (P (.join Any4)),  -- 74: DEP_ASSERT_MODIFIER_CALLABLE_R(join,(PP{}), join_parser<PP>{}, join,(P{}), join_parser<P>{})
    .parsersEq (tMod (P Any4) (M .join)) (P (.join Any4)),  -- 74: DEP_ASSERT_MODIFIER_MODULO_OPERABLE_R(PP{}, join, join_parser<PP>{}, P{}, join, join_parser<P>{})
    .parsersEq (tCall (M .join) [(P Non1)]) (P (.join Non1)),  -- 74: DEP_ASSERT_MODIFIER_CALLABLE_R(join,(PP{}), join_parser<PP>{}, join,(P{}), join_parser<P>{})
    .parsersEq (tMod (P Non1) (M .join)) (P (.join Non1)),  -- 74: DEP_ASSERT_MODIFIER_MODULO_OPERABLE_R(PP{}, join, join_parser<PP>{}, P{}, join, join_parser<P>{})
    .parsersEq (tCall (M .join) [(P Non2)]) (P (.join Non2)),  -- 74: DEP_ASSERT_MODIFIER_CALLABLE_R(join,(PP{}), join_parser<PP>{}, join,(P{}), join_parser<P>{})
    .parsersEq (tMod (P Non2) (M .join)) (P (.join Non2)),  -- 74: DEP_ASSERT_MODIFIER_MODULO_OPERABLE_R(PP{}, join, join_parser<PP>{}, P{}, join, join_parser<P>{})
    .parsersEq (tCall (M .join) [(P Non3)]) (P (.join Non3)),  -- 74: DEP_ASSERT_MODIFIER_CALLABLE_R(join,(PP{}), join_parser<PP>{}, join,(P{}), join_parser<P>{})
    .parsersEq (tMod (P Non3) (M .join)) (P (.join Non3)),  -- 74: DEP_ASSERT_MODIFIER_MODULO_OPERABLE_R(PP{}, join, join_parser<PP>{}, P{}, join, join_parser<P>{})
    .parsersEq (tCall (M .join) [(P Non4)]) (P (.join Non4)),  -- 74: DEP_ASSERT_MODIFIER_CALLABLE_R(join,(PP{}), join_parser<PP>{}, join,(P{}), join_parser<P>{})
    .parsersEq (tMod (P Non4) (M .join)) (P (.join Non4)),  -- 74: DEP_ASSERT_MODIFIER_MODULO_OPERABLE_R(PP{}, join, join_parser<PP>{}, P{}, join, join_parser<P>{})
    .parsersEq (tCall (M .join) [(P Non5)]) (P (.join Non5)),  -- 74: DEP_ASSERT_MODIFIER_CALLABLE_R(join,(PP{}), join_parser<PP>{}, join,(P{}), join_parser<P>{})
    .parsersEq (tMod (P Non5) (M .join)) (P (.join Non5)),  -- 74: DEP_ASSERT_MODIFIER_MODULO_OPERABLE_R(PP{}, join, join_parser<PP>{}, P{}, join, join_parser<P>{})
    .parsersEq (tCall (M .join) [(P All1)]) (P (.join All1)),  -- 74: DEP_ASSERT_MODIFIER_CALLABLE_R(join,(PP{}), join_parser<PP>{}, join,(P{}), join_parser<P>{})
    .parsersEq (tMod (P All1) (M .join)) (P (.join All1)),  -- 74: DEP_ASSERT_MODIFIER_MODULO_OPERABLE_R(PP{}, join, join_parser<PP>{}, P{}, join, join_parser<P>{})
    .parsersEq (tCall (M .join) [(P All2)]) (P (.join All2)),  -- 74: DEP_ASSERT_MODIFIER_CALLABLE_R(join,(PP{}), join_parser<PP>{}, join,(P{}), join_parser<P>{})
    .parsersEq (tMod (P All2) (M .join)) (P (.join All2)),  -- 74: DEP_ASSERT_MODIFIER_MODULO_OPERABLE_R(PP{}, join, join_parser<PP>{}, P{}, join, join_parser<P>{})
    .parsersEq (tCall (M .join) [(P All3)]) (P (.join All3)),  -- 74: DEP_ASSERT_MODIFIER_CALLABLE_R(join,(PP{}), join_parser<PP>{}, join,(P{}), join_parser<P>{})
    .parsersEq (tMod (P All3) (M .join)) (P (.join All3)),  -- 74: DEP_ASSERT_MODIFIER_MODULO_OPERABLE_R(PP{}, join, join_parser<PP>{}, P{}, join, join_parser<P>{})
    .parsersEq (tCall (M .join) [(P All4)]) (P (.join All4)),  -- 74: DEP_ASSERT_MODIFIER_CALLABLE_R(join,(PP{}), join_parser<PP>{}, join,(P{}), join_parser<P>{})
    .parsersEq (tMod (P All4) (M .join)) (P (.join All4)),  -- 74: DEP_ASSERT_MODIFIER_MODULO_OPERABLE_R(PP{}, join, join_parser<PP>{}, P{}, join, join_parser<P>{})
    .parsersEq (tCall (M .join) [(P Eps1)]) (P (.join Eps1)),  -- 74: DEP_ASSERT_MODIFIER_CALLABLE_R(join,(PP{}), join_parser<PP>{}, join,(P{}), join_parser<P>{})
    .parsersEq (tMod (P Eps1) (M .join)) (P (.join Eps1))  -- 74: DEP_ASSERT_MODIFIER_MODULO_OPERABLE_R(PP{}, join, join_parser<PP>{}, P{}, join, join_parser<P>{})
    ], Assertion.Holds a :=
  Assertion.holds_of_check (by decide +kernel)

/-- join modifier / modify anything (tests/char-tests/modifiers/join.cpp:74) -/
theorem charModifiersJoin_4_2 : ∀ a ∈ [
    .parsersEq (tCall (M .join) [(P Ant1)]) (P (.join Ant1)),  -- 74: DEP_ASSERT_MODIFIER_CALLABLE_R(join,(PP{}), join_parser<PP>{}, join,(P{}), join_parser<P>{})
    .parsersEq (tMod (P Ant1) (M .join)) (P (.join Ant1)),  -- 74: DEP_ASSERT_MODIFIER_MODULO_OPERABLE_R(PP{}, join, join_parser<PP>{}, P{}, join, join_parser<P>{})
    .parsersEq (tCall (M .join) [(P QQ)]) (P (.join QQ)),  -- 74: DEP_ASSERT_MODIFIER_CALLABLE_R(join,(PP{}), join_parser<PP>{}, join,(P{}), join_parser<P>{})
    .parsersEq (tMod (P QQ) (M .join)) (P (.join QQ)),  -- 74: DEP_ASSERT_MODIFIER_MODULO_OPERABLE_R(PP{}, join, join_parser<PP>{}, P{}, join, join_parser<P>{})
    .parsersEq (tCall (M .join) [(P ABC)]) (P (.join ABC)),  -- 74: DEP_ASSERT_MODIFIER_CALLABLE_R(join,(PP{}), join_parser<PP>{}, join,(P{}), join_parser<P>{})
    .parsersEq (tMod (P ABC) (M .join)) (P (.join ABC)),  -- 74: DEP_ASSERT_MODIFIER_MODULO_OPERABLE_R(PP{}, join, join_parser<PP>{}, P{}, join, join_parser<P>{})
    .parsersEq (tCall (M .join) [(P Comma)]) (P (.join Comma)),  -- 74: DEP_ASSERT_MODIFIER_CALLABLE_R(join,(PP{}), join_parser<PP>{}, join,(P{}), join_parser<P>{})
    .parsersEq (tMod (P Comma) (M .join)) (P (.join Comma)),  -- 74: DEP_ASSERT_MODIFIER_MODULO_OPERABLE_R(PP{}, join, join_parser<PP>{}, P{}, join, join_parser<P>{})
    .parsersEq (tCall (M .join) [(P SpaceDot)]) (P (.join SpaceDot)),  -- 74: DEP_ASSERT_MODIFIER_CALLABLE_R(join,(PP{}), join_parser<PP>{}, join,(P{}), join_parser<P>{})
    .parsersEq (tMod (P SpaceDot) (M .join)) (P (.join SpaceDot)),  -- 74: DEP_ASSERT_MODIFIER_MODULO_OPERABLE_R(PP{}, join, join_parser<PP>{}, P{}, join, join_parser<P>{})
    .parsersEq (tCall (M .join) [(P Cho1)]) (P (.join Cho1)),  -- 74: DEP_ASSERT_MODIFIER_CALLABLE_R(join,(PP{}), join_parser<PP>{}, join,(P{}), join_parser<P>{})
    .parsersEq (tMod (P Cho1) (M .join)) (P (.join Cho1)),  -- 74: DEP_ASSERT_MODIFIER_MODULO_OPERABLE_R(PP{}, join, join_parser<PP>{}, P{}, join, join_parser<P>{})
    .parsersEq (tCall (M .join) [(P Cho2)]) (P (.join Cho2)),  -- 74: DEP_ASSERT_MODIFIER_CALLABLE_R(join,(PP{}), join_parser<PP>{}, join,(P{}), join_parser<P>{})
    .parsersEq (tMod (P Cho2) (M .join)) (P (.join Cho2)),  -- 74: DEP_ASSERT_MODIFIER_MODULO_OPERABLE_R(PP{}, join, join_parser<PP>{}, P{}, join, join_parser<P>{})
    .parsersEq (tCall (M .join) [(P Cho3)]) (P (.join Cho3)),  -- 74: DEP_ASSERT_MODIFIER_CALLABLE_R(join,(PP{}), join_parser<PP>{}, join,(P{}), join_parser<P>{})
    .parsersEq (tMod (P Cho3) (M .join)) (P (.join Cho3)),  -- 74: DEP_ASSERT_MODIFIER_MODULO_OPERABLE_R(PP{}, join, join_parser<PP>{}, P{}, join, join_parser<P>{})
    .parsersEq (tCall (M .join) [(P Cho4)]) (P (.join Cho4)),  -- 74: DEP_ASSERT_MODIFIER_CALLABLE_R(join,(PP{}), join_parser<PP>{}, join,(P{}), join_parser<P>{})
    .parsersEq (tMod (P Cho4) (M .join)) (P (.join Cho4)),  -- 74: DEP_ASSERT_MODIFIER_MODULO_OPERABLE_R(PP{}, join, join_parser<PP>{}, P{}, join, join_parser<P>{})
    .parsersEq (tCall (M .join) [(P Cho5)]) (P (.join Cho5)),  -- 74: DEP_ASSERT_MODIFIER_CALLABLE_R(join,(PP{}), join_parser<PP>{}, join,(P{}), join_parser<P>{})
    .parsersEq (tMod (P Cho5) (M .join)) (P (.join Cho5)),  -- 74: DEP_ASSERT_MODIFIER_MODULO_OPERABLE_R(PP{}, join, join_parser<PP>{}, P{}, join, join_parser<P>{})
    .parsersEq (tCall (M .join) [(P Seq1)]) (P (.join Seq1)),  -- 74: DEP_ASSERT_MODIFIER_CALLABLE_R(join,(PP{}), join_parser<PP>{}, join,(P{}), join_parser<P>{})
    .parsersEq (tMod (P Seq1) (M .join)) (P (.join Seq1)),  -- 74: DEP_ASSERT_MODIFIER_MODULO_OPERABLE_R(PP{}, join, join_parser<PP>{}, P{}, join, join_parser<P>{})
    .parsersEq (tCall (M .join) [(P Seq2)]) (P (.join Seq2)),  -- 74: DEP_ASSERT_MODIFIER_CALLABLE_R(join,(PP{}), join_parser<PP>{}, join,(P{}), join_parser<P>{})
    .parsersEq (tMod (P Seq2) (M .join)) (P (.join Seq2)),  -- 74: DEP_ASSERT_MODIFIER_MODULO_OPERABLE_R(PP{}, join, join_parser<PP>{}, P{}, join, join_parser<P>{})
    .parsersEq (tCall (M .join) [(P Seq3)]) (P (.join Seq3)),  -- 74: DEP_ASSERT_MODIFIER_CALLABLE_R(join,(PP{}), join_parser<PP>{}, join,(P{}), join_parser<P>{})
    .parsersEq (tMod (P Seq3) (M .join)) (P (.join Seq3)),  -- 74: DEP_ASSERT_MODIFIER_MODULO_OPERABLE_R(PP{}, join, join_parser<PP>{}, P{}, join, join_parser<P>{})
    .parsersEq (tCall (M .join) [(P Seq4)]) (P (.join Seq4)),  -- 74: DEP_ASSERT_MODIFIER_CALLABLE_R(join,(PP{}), join_parser<PP>{}, join,(P{}), join_parser<P>{})
    .parsersEq (tMod (P Seq4) (M .join)) (P (.join Seq4)),  -- 74: DEP_ASSERT_MODIFIER_MODULO_OPERABLE_R(PP{}, join, join_parser<PP>{}, P{}, join, join_parser<P>{})
    .parsersEq (tCall (M .join) [(P Seq5)]) (P (.join Seq5)),  -- 74: DEP_ASSERT_MODIFIER_CALLABLE_R(join,(PP{}), join_parser<PP>{}, join,(P{}), join_parser<P>{})
    .parsersEq (tMod (P Seq5) (M .join)) (P (.join Seq5)),  -- 74: DEP_ASSERT_MODIFIER_MODULO_OPERABLE_R(PP{}, join, join_parser<PP>{}, P{}, join, join_parser<P>{})
    .parsersEq (tCall (M .join) [(P Joi1)]) (P Joi1),  -- 74: DEP_ASSERT_MODIFIER_CALLABLE_R(join,(PP{}), PP{}, join,(P{}), P{})
    .parsersEq (tMod (P Joi1) (M .join)) (P Joi1),  -- 74: DEP_ASSERT_MODIFIER_MODULO_OPERABLE_R(PP{}, join, PP{}, P{}, join, P{})
    .parsersEq (tCall (M .join) [(P Joi2)]) (P Joi2),  -- 74: DEP_ASSERT_MODIFIER_CALLABLE_R(join,(PP{}), PP{}, join,(P{}), P{})
    .parsersEq (tMod (P Joi2) (M .join)) (P Joi2),  -- 74: DEP_ASSERT_MODIFIER_MODULO_OPERABLE_R(PP{}, join, PP{}, P{}, join, P{})
    .parsersEq (tCall (M .join) [(P Joi3)]) (P Joi3),  -- 74: DEP_ASSERT_MODIFIER_CALLABLE_R(join,(PP{}), PP{}, join,(P{}), P{})
    .parsersEq (tMod (P Joi3) (M .join)) (P Joi3),  -- 74: DEP_ASSERT_MODIFIER_MODULO_OPERABLE_R(PP{}, join, PP{}, P{}, join, P{})
    .parsersEq (tCall (M .join) [(P Joi4)]) (P Joi4),  -- 74: DEP_ASSERT_MODIFIER_CALLABLE_R(join,(PP{}), PP{}, join,(P{}), P{})
    .parsersEq (tMod (P Joi4) (M .join)) (P Joi4),  -- 74: DEP_ASSERT_MODIFIER_MODULO_OPERABLE_R(PP{}, join, PP{}, P{}, join, P{})
    .parsersEq (tCall (M .join) [(P Joi5)]) (P Joi5),  -- 74: DEP_ASSERT_MODIFIER_CALLABLE_R(join,(PP{}), PP{}, join,(P{}), P{})
    .parsersEq (tMod (P Joi5) (M .join)) (P Joi5),  -- 74: DEP_ASSERT_MODIFIER_MODULO_OPERABLE_R(PP{}, join, PP{}, P{}, join, P{})
    .parsersEq (tCall (M .join) [(P Map1)]) (P (.join Map1)),  -- 74: DEP_ASSERT_MODIFIER_CALLABLE_R(join,(PP{}), join_parser<PP>{}, join,(P{}), join_parser<P>{})
    .parsersEq (tMod (P Map1) (M .join)) (P (.join Map1)),  -- 74: DEP_ASSERT_MODIFIER_MODULO_OPERABLE_R(PP{}, join, join_parser<PP>{}, P{}, join, join_parser<P>{})
    .parsersEq (tCall (M .join) [(P Map2)]) (P (.join Map2)),  -- 74: DEP_ASSERT_MODIFIER_CALLABLE_R(join,(PP{}), join_parser<PP>{}, join,(P{}), join_parser<P>{})
    .parsersEq (tMod (P Map2) (M .join)) (P (.join Map2)),  -- 74: DEP_ASSERT_MODIFIER_MODULO_OPERABLE_R(PP{}, join, join_parser<PP>{}, P{}, join, join_parser<P>{})
    .parsersEq (tCall (M .join) [(P Map3)]) (P (.join Map3)),  -- 74: DEP_ASSERT_MODIFIER_CALLABLE_R(join,(PP{}), join_parser<PP>{}, join,(P{}), join_parser<P>{})
    .parsersEq (tMod (P Map3) (M .join)) (P (.join Map3)),  -- 74: DEP_ASSERT_MODIFIER_MODULO_OPERABLE_R(PP{}, join, join_parser<PP>{}, P{}, join, join_parser<P>{})
    .parsersEq (tCall (M .join) [(P Map4)]) (P (.join Map4)),  -- 74: DEP_ASSERT_MODIFIER_CALLABLE_R(join,(PP{}), join_parser<PP>{}, join,(P{}), join_parser<P>{})
    .parsersEq (tMod (P Map4) (M .join)) (P (.join Map4)),  -- 74: DEP_ASSERT_MODIFIER_MODULO_OPERABLE_R(PP{}, join, join_parser<PP>{}, P{}, join, join_parser<P>{})
    .parsersEq (tCall (M .join) [(P Fil1)]) (P (.join Fil1)),  -- 74: DEP_ASSERT_MODIFIER_CALLABLE_R(join,(PP{}), join_parser<PP>{}, join,(P{}), join_parser<P>{})
    .parsersEq (tMod (P Fil1) (M .join)) (P (.join Fil1)),  -- 74: DEP_ASSERT_MODIFIER_MODULO_OPERABLE_R(PP{}, join, join_parser<PP>{}, P{}, join, join_parser<P>{})
    .parsersEq (tCall (M .join) [(P Fil2)]) (P (.join Fil2)),  -- 74: DEP_ASSERT_MODIFIER_CALLABLE_R(join,(PP{}), join_parser<PP>{}, join,(P{}), join_parser<P>{})
    .parsersEq (tMod (P Fil2) (M .join)) (P (.join Fil2)),  -- 74: DEP_ASSERT_MODIFIER_MODULO_OPERABLE_R(PP{}, join, join_parser<PP>{}, P{}, join, join_parser<P>{})
    .parsersEq (tCall (M .join) [(P Fil3)]) (P (.join Fil3)),  -- 74: DEP_ASSERT_MODIFIER_CALLABLE_R(join,(PP{}), join_parser<PP>{}, join,(P{}), join_parser<P>{})
    .parsersEq (tMod (P Fil3) (M .join)) (P (.join Fil3)),  -- 74: DEP_ASSERT_MODIFIER_MODULO_OPERABLE_R(PP{}, join, join_parser<PP>{}, P{}, join, join_parser<P>{})
    .parsersEq (tCall (M .join) [(P Apm1)]) (P (.join Apm1)),  -- 74: DEP_ASSERT_MODIFIER_CALLABLE_R(join,(PP{}), join_parser<PP>{}, join,(P{}), join_parser<P>{})
    .parsersEq (tMod (P Apm1) (M .join)) (P (.join Apm1)),  -- 74: DEP_ASSERT_MODIFIER_MODULO_OPERABLE_R(PP{}, join, join_parser<PP>{}, P{}, join, join_parser<P>{})
    .parsersEq (tCall (M .join) [(P Apm2)]) (P (.join Apm2)),  -- 74: DEP_ASSERT_MODIFIER_CALLABLE_R(join,(PP{}), join_parser<PP>{}, join,(P{}), join_parser<P>{})
    .parsersEq (tMod (P Apm2) (M .join)) (P (.join Apm2)),  -- 74: DEP_ASSERT_MODIFIER_MODULO_OPERABLE_R(PP{}, join, join_parser<PP>{}, P{}, join, join_parser<P>{})
    .parsersEq (tCall (M .join) [(P Apf1)]) (P (.join Apf1)),  -- 74: DEP_ASSERT_MODIFIER_CALLABLE_R(join,(PP{}), join_parser<PP>{}, join,(P{}), join_parser<P>{})
    .parsersEq (tMod (P Apf1) (M .join)) (P (.join Apf1))  -- 74: DEP_ASSERT_MODIFIER_MODULO_OPERABLE_R(PP{}, join, join_parser<PP>{}, P{}, join, join_parser<P>{})
    ], Assertion.Holds a :=
  Assertion.holds_of_check (by decide +kernel)

/-- join modifier / modify anything (tests/char-tests/modifiers/join.cpp:74) -/
theorem charModifiersJoin_4_3 : ∀ a ∈ [
    .parsersEq (tCall (M .join) [(P Int1)]) (P (.join Int1)),  -- 74: DEP_ASSERT_MODIFIER_CALLABLE_R(join,(PP{}), join_parser<PP>{}, join,(P{}), join_parser<P>{})
    .parsersEq (tMod (P Int1) (M .join)) (P (.join Int1)),  -- 74: DEP_ASSERT_MODIFIER_MODULO_OPERABLE_R(PP{}, join, join_parser<PP>{}, P{}, join, join_parser<P>{})
    .parsersEq (tCall (M .join) [(P Int2)]) (P (.join Int2)),  -- 74: DEP_ASSERT_MODIFIER_CALLABLE_R(join,(PP{}), join_parser<PP>{}, join,(P{}), join_parser<P>{})
    .parsersEq (tMod (P Int2) (M .join)) (P (.join Int2)),  -- 74: DEP_ASSERT_MODIFIER_MODULO_OPERABLE_R(PP{}, join, join_parser<PP>{}, P{}, join, join_parser<P>{})
    .parsersEq (tCall (M .join) [(P Int3)]) (P (.join Int3)),  -- 74: DEP_ASSERT_MODIFIER_CALLABLE_R(join,(PP{}), join_parser<PP>{}, join,(P{}), join_parser<P>{})
    .parsersEq (tMod (P Int3) (M .join)) (P (.join Int3)),  -- 74: DEP_ASSERT_MODIFIER_MODULO_OPERABLE_R(PP{}, join, join_parser<PP>{}, P{}, join, join_parser<P>{})
    .parsersEq (tCall (M .join) [(P Api1)]) (P (.join Api1)),  -- 74: DEP_ASSERT_MODIFIER_CALLABLE_R(join,(PP{}), join_parser<PP>{}, join,(P{}), join_parser<P>{})
    .parsersEq (tMod (P Api1) (M .join)) (P (.join Api1)),  -- 74: DEP_ASSERT_MODIFIER_MODULO_OPERABLE_R(PP{}, join, join_parser<PP>{}, P{}, join, join_parser<P>{})
    .parsersEq (tCall (M .join) [(P Api2)]) (P (.join Api2)),  -- 74: DEP_ASSERT_MODIFIER_CALLABLE_R(join,(PP{}), join_parser<PP>{}, join,(P{}), join_parser<P>{})
    .parsersEq (tMod (P Api2) (M .join)) (P (.join Api2)),  -- 74: DEP_ASSERT_MODIFIER_MODULO_OPERABLE_R(PP{}, join, join_parser<PP>{}, P{}, join, join_parser<P>{})
    .parsersEq (tCall (M .join) [(P Con1)]) (P (.join Con1)),  -- 74: DEP_ASSERT_MODIFIER_CALLABLE_R(join,(PP{}), join_parser<PP>{}, join,(P{}), join_parser<P>{})
    .parsersEq (tMod (P Con1) (M .join)) (P (.join Con1)),  -- 74: DEP_ASSERT_MODIFIER_MODULO_OPERABLE_R(PP{}, join, join_parser<PP>{}, P{}, join, join_parser<P>{})
    .parsersEq (tCall (M .join) [(P Con2)]) (P (.join Con2)),  -- 74: DEP_ASSERT_MODIFIER_CALLABLE_R(join,(PP{}), join_parser<PP>{}, join,(P{}), join_parser<P>{})
    .parsersEq (tMod (P Con2) (M .join)) (P (.join Con2)),  -- 74: DEP_ASSERT_MODIFIER_MODULO_OPERABLE_R(PP{}, join, join_parser<PP>{}, P{}, join, join_parser<P>{})
    .parsersEq (tCall (M .join) [(P Con3)]) (P (.join Con3)),  -- 74: DEP_ASSERT_MODIFIER_CALLABLE_R(join,(PP{}), join_parser<PP>{}, join,(P{}), join_parser<P>{})
    .parsersEq (tMod (P Con3) (M .join)) (P (.join Con3)),  -- 74: DEP_ASSERT_MODIFIER_MODULO_OPERABLE_R(PP{}, join, join_parser<PP>{}, P{}, join, join_parser<P>{})
    .parsersEq (tCall (M .join) [(P Con4)]) (P (.join Con4)),  -- 74: DEP_ASSERT_MODIFIER_CALLABLE_R(join,(PP{}), join_parser<PP>{}, join,(P{}), join_parser<P>{})
    .parsersEq (tMod (P Con4) (M .join)) (P (.join Con4)),  -- 74: DEP_ASSERT_MODIFIER_MODULO_OPERABLE_R(PP{}, join, join_parser<PP>{}, P{}, join, join_parser<P>{})
    .parsersEq (tCall (M .join) [(P Def1)]) (P (.join Def1)),  -- 74: DEP_ASSERT_MODIFIER_CALLABLE_R(join,(PP{}), join_parser<PP>{}, join,(P{}), join_parser<P>{})
    .parsersEq (tMod (P Def1) (M .join)) (P (.join Def1)),  -- 74: DEP_ASSERT_MODIFIER_MODULO_OPERABLE_R(PP{}, join, join_parser<PP>{}, P{}, join, join_parser<P>{})
    .parsersEq (tCall (M .join) [(P Def2)]) (P (.join Def2)),  -- 74: DEP_ASSERT_MODIFIER_CALLABLE_R(join,(PP{}), join_parser<PP>{}, join,(P{}), join_parser<P>{})
    .parsersEq (tMod (P Def2) (M .join)) (P (.join Def2)),  -- 74: DEP_ASSERT_MODIFIER_MODULO_OPERABLE_R(PP{}, join, join_parser<PP>{}, P{}, join, join_parser<P>{})
    .parsersEq (tCall (M .join) [(P (.custom 0))]) (P (.join (.custom 0))),  -- 74: DEP_ASSERT_MODIFIER_CALLABLE_R(join,(PP{}), join_parser<PP>{}, join,(P{}), join_parser<P>{})
    .parsersEq (tMod (P (.custom 0)) (M .join)) (P (.join (.custom 0))),  -- 74: DEP_ASSERT_MODIFIER_MODULO_OPERABLE_R(PP{}, join, join_parser<PP>{}, P{}, join, join_parser<P>{})
    .parsersEq (tCall (M .join) [(P (.custom 1))]) (P (.join (.custom 1))),  -- 74: DEP_ASSERT_MODIFIER_CALLABLE_R(join,(PP{}), join_parser<PP>{}, join,(P{}), join_parser<P>{})
    .parsersEq (tMod (P (.custom 1)) (M .join)) (P (.join (.custom 1))),  -- 74: DEP_ASSERT_MODIFIER_MODULO_OPERABLE_R(PP{}, join, join_parser<PP>{}, P{}, join, join_parser<P>{})
    .parsersEq (tCall (M .join) [(P May1)]) (P (.join May1)),  -- 74: DEP_ASSERT_MODIFIER_CALLABLE_R(join,(PP{}), join_parser<PP>{}, join,(P{}), join_parser<P>{})
    .parsersEq (tMod (P May1) (M .join)) (P (.join May1)),  -- 74: DEP_ASSERT_MODIFIER_MODULO_OPERABLE_R(PP{}, join, join_parser<PP>{}, P{}, join, join_parser<P>{})
    .parsersEq (tCall (M .join) [(P May2)]) (P (.join May2)),  -- 74: DEP_ASSERT_MODIFIER_CALLABLE_R(join,(PP{}), join_parser<PP>{}, join,(P{}), join_parser<P>{})
    .parsersEq (tMod (P May2) (M .join)) (P (.join May2)),  -- 74: DEP_ASSERT_MODIFIER_MODULO_OPERABLE_R(PP{}, join, join_parser<PP>{}, P{}, join, join_parser<P>{})
    .parsersEq (tCall (M .join) [(P May3)]) (P (.join May3)),  -- 74: DEP_ASSERT_MODIFIER_CALLABLE_R(join,(PP{}), join_parser<PP>{}, join,(P{}), join_parser<P>{})
    .parsersEq (tMod (P May3) (M .join)) (P (.join May3)),  -- 74: DEP_ASSERT_MODIFIER_MODULO_OPERABLE_R(PP{}, join, join_parser<PP>{}, P{}, join, join_parser<P>{})
    .parsersEq (tCall (M .join) [(P May4)]) (P (.join May4)),  -- 74: DEP_ASSERT_MODIFIER_CALLABLE_R(join,(PP{}), join_parser<PP>{}, join,(P{}), join_parser<P>{})
    .parsersEq (tMod (P May4) (M .join)) (P (.join May4)),  -- 74: DEP_ASSERT_MODIFIER_MODULO_OPERABLE_R(PP{}, join, join_parser<PP>{}, P{}, join, join_parser<P>{})
    .parsersEq (tCall (M .join) [(P Exa1)]) (P (.join Exa1)),  -- 74: DEP_ASSERT_MODIFIER_CALLABLE_R(join,(PP{}), join_parser<PP>{}, join,(P{}), join_parser<P>{})
    .parsersEq (tMod (P Exa1) (M .join)) (P (.join Exa1)),  -- 74: DEP_ASSERT_MODIFIER_MODULO_OPERABLE_R(PP{}, join, join_parser<PP>{}, P{}, join, join_parser<P>{})
    .parsersEq (tCall (M .join) [(P Exa2)]) (P (.join Exa2)),  -- 74: DEP_ASSERT_MODIFIER_CALLABLE_R(join,(PP{}), join_parser<PP>{}, join,(P{}), join_parser<P>{})
    .parsersEq (tMod (P Exa2) (M .join)) (P (.join Exa2)),  -- 74: DEP_ASSERT_MODIFIER_MODULO_OPERABLE_R(PP{}, join, join_parser<PP>{}, P{}, join, join_parser<P>{})
    .parsersEq (tCall (M .join) [(P Exa3)]) (P (.join Exa3)),  -- 74: DEP_ASSERT_MODIFIER_CALLABLE_R(join,(PP{}), join_parser<PP>{}, join,(P{}), join_parser<P>{})
    .parsersEq (tMod (P Exa3) (M .join)) (P (.join Exa3)),  -- 74: DEP_ASSERT_MODIFIER_MODULO_OPERABLE_R(PP{}, join, join_parser<PP>{}, P{}, join, join_parser<P>{})
    .parsersEq (tCall (M .join) [(P Exa4)]) (P (.join Exa4)),  -- 74: DEP_ASSERT_MODIFIER_CALLABLE_R(join,(PP{}), join_parser<PP>{}, join,(P{}), join_parser<P>{})
    .parsersEq (tMod (P Exa4) (M .join)) (P (.join Exa4)),  -- 74: DEP_ASSERT_MODIFIER_MODULO_OPERABLE_R(PP{}, join, join_parser<PP>{}, P{}, join, join_parser<P>{})
    .parsersEq (tCall (M .join) [(P Oom1)]) (P (.join Oom1)),  -- 74: DEP_ASSERT_MODIFIER_CALLABLE_R(join,(PP{}), join_parser<PP>{}, join,(P{}), join_parser<P>{})
    .parsersEq (tMod (P Oom1) (M .join)) (P (.join Oom1)),  -- 74: DEP_ASSERT_MODIFIER_MODULO_OPERABLE_R(PP{}, join, join_parser<PP>{}, P{}, join, join_parser<P>{})
    .parsersEq (tCall (M .join) [(P Oom2)]) (P (.join Oom2)),  -- 74: DEP_ASSERT_MODIFIER_CALLABLE_R(join,(PP{}), join_parser<PP>{}, join,(P{}), join_parser<P>{})
    .parsersEq (tMod (P Oom2) (M .join)) (P (.join Oom2)),  -- 74: DEP_ASSERT_MODIFIER_MODULO_OPERABLE_R(PP{}, join, join_parser<PP>{}, P{}, join, join_parser<P>{})
    .parsersEq (tCall (M .join) [(P Oom3)]) (P (.join Oom3)),  -- 74: DEP_ASSERT_MODIFIER_CALLABLE_R(join,(PP{}), join_parser<PP>{}, join,(P{}), join_parser<P>{})
    .parsersEq (tMod (P Oom3) (M .join)) (P (.join Oom3)),  -- 74: DEP_ASSERT_MODIFIER_MODULO_OPERABLE_R(PP{}, join, join_parser<PP>{}, P{}, join, join_parser<P>{})
    .parsersEq (tCall (M .join) [(P Oom4)]) (P (.join Oom4)),  -- 74: DEP_ASSERT_MODIFIER_CALLABLE_R(join,(PP{}), join_parser<PP>{}, join,(P{}), join_parser<P>{})
    .parsersEq (tMod (P Oom4) (M .join)) (P (.join Oom4)),  -- 74: DEP_ASSERT_MODIFIER_MODULO_OPERABLE_R(PP{}, join, join_parser<PP>{}, P{}, join, join_parser<P>{})
    .parsersEq (tCall (M .join) [(P Zom1)]) (P (.join Zom1)),  -- 74: DEP_ASSERT_MODIFIER_CALLABLE_R(join,(PP{}), join_parser<PP>{}, join,(P{}), join_parser<P>{})
    .parsersEq (tMod (P Zom1) (M .join)) (P (.join Zom1)),  -- 74: DEP_ASSERT_MODIFIER_MODULO_OPERABLE_R(PP{}, join, join_parser<PP>{}, P{}, join, join_parser<P>{})
    .parsersEq (tCall (M .join) [(P Zom2)]) (P (.join Zom2)),  -- 74: DEP_ASSERT_MODIFIER_CALLABLE_R(join,(PP{}), join_parser<PP>{}, join,(P{}), join_parser<P>{})
    .parsersEq (tMod (P Zom2) (M .join)) (P (.join Zom2)),  -- 74: DEP_ASSERT_MODIFIER_MODULO_OPERABLE_R(PP{}, join, join_parser<PP>{}, P{}, join, join_parser<P>{})
    .parsersEq (tCall (M .join) [(P Zom3)]) (P (.join Zom3)),  -- 74: DEP_ASSERT_MODIFIER_CALLABLE_R(join,(PP{}), join_parser<PP>{}, join,(P{}), join_parser<P>{})
    .parsersEq (tMod (P Zom3) (M .join)) (P (.join Zom3)),  -- 74: DEP_ASSERT_MODIFIER_MODULO_OPERABLE_R(PP{}, join, join_parser<PP>{}, P{}, join, join_parser<P>{})
    .parsersEq (tCall (M .join) [(P Zom4)]) (P (.join Zom4)),  -- 74: DEP_ASSERT_MODIFIER_CALLABLE_R(join,(PP{}), join_parser<PP>{}, join,(P{}), join_parser<P>{})
    .parsersEq (tMod (P Zom4) (M .join)) (P (.join Zom4)),  -- 74: DEP_ASSERT_MODIFIER_MODULO_OPERABLE_R(PP{}, join, join_parser<PP>{}, P{}, join, join_parser<P>{})
    .parsersEq (tCall (M .join) [(P Del1)]) (P (.join Del1)),  -- 74: DEP_ASSERT_MODIFIER_CALLABLE_R(join,(PP{}), join_parser<PP>{}, join,(P{}), join_parser<P>{})
    .parsersEq (tMod (P Del1) (M .join)) (P (.join Del1))  -- 74: DEP_ASSERT_MODIFIER_MODULO_OPERABLE_R(PP{}, join, join_parser<PP>{}, P{}, join, join_parser<P>{})
    ], Assertion.Holds a :=
  Assertion.holds_of_check (by decide +kernel)

/-- join modifier / modify anything (tests/char-tests/modifiers/join.cpp:74) -/
theorem charModifiersJoin_4_4 : ∀ a ∈ [
    .parsersEq (tCall (M .join) [(P Del2)]) (P (.join Del2)),  -- 74: DEP_ASSERT_MODIFIER_CALLABLE_R(join,(PP{}), join_parser<PP>{}, join,(P{}), join_parser<P>{})
    .parsersEq (tMod (P Del2) (M .join)) (P (.join Del2)),  -- 74: DEP_ASSERT_MODIFIER_MODULO_OPERABLE_R(PP{}, join, join_parser<PP>{}, P{}, join, join_parser<P>{})
    .parsersEq (tCall (M .join) [(P Del3)]) (P (.join Del3)),  -- 74: DEP_ASSERT_MODIFIER_CALLABLE_R(join,(PP{}), join_parser<PP>{}, join,(P{}), join_parser<P>{})
    .parsersEq (tMod (P Del3) (M .join)) (P (.join Del3)),  -- 74: DEP_ASSERT_MODIFIER_MODULO_OPERABLE_R(PP{}, join, join_parser<PP>{}, P{}, join, join_parser<P>{})
    .parsersEq (tCall (M .join) [(P Del4)]) (P (.join Del4)),  -- 74: DEP_ASSERT_MODIFIER_CALLABLE_R(join,(PP{}), join_parser<PP>{}, join,(P{}), join_parser<P>{})
    .parsersEq (tMod (P Del4) (M .join)) (P (.join Del4)),  -- 74: DEP_ASSERT_MODIFIER_MODULO_OPERABLE_R(PP{}, join, join_parser<PP>{}, P{}, join, join_parser<P>{})
    .parsersEq (tCall (M .join) [(P Del5)]) (P (.join Del5)),  -- 74: DEP_ASSERT_MODIFIER_CALLABLE_R(join,(PP{}), join_parser<PP>{}, join,(P{}), join_parser<P>{})
    .parsersEq (tMod (P Del5) (M .join)) (P (.join Del5)),  -- 74: DEP_ASSERT_MODIFIER_MODULO_OPERABLE_R(PP{}, join, join_parser<PP>{}, P{}, join, join_parser<P>{})
    .parsersEq (tCall (M .join) [(P Del6)]) (P (.join Del6)),  -- 74: DEP_ASSERT_MODIFIER_CALLABLE_R(join,(PP{}), join_parser<PP>{}, join,(P{}), join_parser<P>{})
    .parsersEq (tMod (P Del6) (M .join)) (P (.join Del6)),  -- 74: DEP_ASSERT_MODIFIER_MODULO_OPERABLE_R(PP{}, join, join_parser<PP>{}, P{}, join, join_parser<P>{})
    .parsersEq (tCall (M .join) [(P Del7)]) (P (.join Del7)),  -- 74: DEP_ASSERT_MODIFIER_CALLABLE_R(join,(PP{}), join_parser<PP>{}, join,(P{}), join_parser<P>{})
    .parsersEq (tMod (P Del7) (M .join)) (P (.join Del7)),  -- 74: DEP_ASSERT_MODIFIER_MODULO_OPERABLE_R(PP{}, join, join_parser<PP>{}, P{}, join, join_parser<P>{})
    .parsersEq (tCall (M .join) [(P Del8)]) (P (.join Del8)),  -- 74: DEP_ASSERT_MODIFIER_CALLABLE_R(join,(PP{}), join_parser<PP>{}, join,(P{}), join_parser<P>{})
    .parsersEq (tMod (P Del8) (M .join)) (P (.join Del8)),  -- 74: DEP_ASSERT_MODIFIER_MODULO_OPERABLE_R(PP{}, join, join_parser<PP>{}, P{}, join, join_parser<P>{})
    .parsersEq (tCall (M .join) [(P Dek1)]) (P (.join Dek1)),  -- 74: DEP_ASSERT_MODIFIER_CALLABLE_R(join,(PP{}), join_parser<PP>{}, join,(P{}), join_parser<P>{})
    .parsersEq (tMod (P Dek1) (M .join)) (P (.join Dek1)),  -- 74: DEP_ASSERT_MODIFIER_MODULO_OPERABLE_R(PP{}, join, join_parser<PP>{}, P{}, join, join_parser<P>{})
    .parsersEq (tCall (M .join) [(P Dek2)]) (P (.join Dek2)),  -- 74: DEP_ASSERT_MODIFIER_CALLABLE_R(join,(PP{}), join_parser<PP>{}, join,(P{}), join_parser<P>{})
    .parsersEq (tMod (P Dek2) (M .join)) (P (.join Dek2)),  -- 74: DEP_ASSERT_MODIFIER_MODULO_OPERABLE_R(PP{}, join, join_parser<PP>{}, P{}, join, join_parser<P>{})
    .parsersEq (tCall (M .join) [(P Dek3)]) (P (.join Dek3)),  -- 74: DEP_ASSERT_MODIFIER_CALLABLE_R(join,(PP{}), join_parser<PP>{}, join,(P{}), join_parser<P>{})
    .parsersEq (tMod (P Dek3) (M .join)) (P (.join Dek3)),  -- 74: DEP_ASSERT_MODIFIER_MODULO_OPERABLE_R(PP{}, join, join_parser<PP>{}, P{}, join, join_parser<P>{})
    .parsersEq (tCall (M .join) [(P Dek4)]) (P (.join Dek4)),  -- 74: DEP_ASSERT_MODIFIER_CALLABLE_R(join,(PP{}), join_parser<PP>{}, join,(P{}), join_parser<P>{})
    .parsersEq (tMod (P Dek4) (M .join)) (P (.join Dek4)),  -- 74: DEP_ASSERT_MODIFIER_MODULO_OPERABLE_R(PP{}, join, join_parser<PP>{}, P{}, join, join_parser<P>{})
    .parsersEq (tCall (M .join) [(P Dek5)]) (P (.join Dek5)),  -- 74: DEP_ASSERT_MODIFIER_CALLABLE_R(join,(PP{}), join_parser<PP>{}, join,(P{}), join_parser<P>{})
    .parsersEq (tMod (P Dek5) (M .join)) (P (.join Dek5)),  -- 74: DEP_ASSERT_MODIFIER_MODULO_OPERABLE_R(PP{}, join, join_parser<PP>{}, P{}, join, join_parser<P>{})
    .parsersEq (tCall (M .join) [(P Dek6)]) (P (.join Dek6)),  -- 74: DEP_ASSERT_MODIFIER_CALLABLE_R(join,(PP{}), join_parser<PP>{}, join,(P{}), join_parser<P>{})
    .parsersEq (tMod (P Dek6) (M .join)) (P (.join Dek6)),  -- 74: DEP_ASSERT_MODIFIER_MODULO_OPERABLE_R(PP{}, join, join_parser<PP>{}, P{}, join, join_parser<P>{})
    .parsersEq (tCall (M .join) [(P Dek7)]) (P (.join Dek7)),  -- 74: DEP_ASSERT_MODIFIER_CALLABLE_R(join,(PP{}), join_parser<PP>{}, join,(P{}), join_parser<P>{})
    .parsersEq (tMod (P Dek7) (M .join)) (P (.join Dek7)),  -- 74: DEP_ASSERT_MODIFIER_MODULO_OPERABLE_R(PP{}, join, join_parser<PP>{}, P{}, join, join_parser<P>{})
    .parsersEq (tCall (M .join) [(P Dek8)]) (P (.join Dek8)),  -- 74: DEP_ASSERT_MODIFIER_CALLABLE_R(join,(PP{}), join_parser<PP>{}, join,(P{}), join_parser<P>{})
    .parsersEq (tMod (P Dek8) (M .join)) (P (.join Dek8))  -- 74: DEP_ASSERT_MODIFIER_MODULO_OPERABLE_R(PP{}, join, join_parser<PP>{}, P{}, join, join_parser<P>{})
    ], Assertion.Holds a :=
  Assertion.holds_of_check (by decide +kernel)

end Tok3n.Tests
