import Verif.Tests.Gen.SamplesChar
/- Generated by tools/tests2lean.py from tests/char-tests/modifiers/ignore.cpp. -/

namespace Tok3n.Tests

/-- ignore modifier / prefix (tests/char-tests/modifiers/ignore.cpp:14) -/
theorem charModifiersIgnore_1 : ∀ a ∈ [
    .parsersEq (P Ign1) (tCall (M .ignore) [(P ABC)]),  -- 14: ASSERT_PARSER_VALUES_EQ(ign1, ignore(abc))
    .parsersEq (P Ign2) (tCall (M .ignore) [(tPlus (P ABC))]),  -- 15: ASSERT_PARSER_VALUES_EQ(ign2, ignore(+ abc))
    .parsersEq (P Ign3) (tCall (M .ignore) [(tMaybe (tOr (P ABC) (P QQ)))]),  -- 16: ASSERT_PARSER_VALUES_EQ(ign3, ignore(~(abc | qq)))
    .parsersEq (P Ign4) (tCall (M .ignore) [(tThen (P ABC) (tStar (P QQ)))]),  -- 17: ASSERT_PARSER_VALUES_EQ(ign4, ignore(abc>> * qq))
    .parsersEq (P Ign5) (tCall (M .ignore) [(tThen (tPlus (P ABC)) (tMaybe (tOr (P ABC) (P QQ))))])  -- 18: ASSERT_PARSER_VALUES_EQ(ign5, ignore(+ abc>> ~(abc | qq)))
    ], Assertion.Holds a :=
  Assertion.holds_of_check (by decide +kernel)

/-- ignore modifier / infix (tests/char-tests/modifiers/ignore.cpp:23) -/
theorem charModifiersIgnore_2 : ∀ a ∈ [
    .parsersEq (P Ign1) (tMod (P ABC) (M .ignore)),  -- 23: ASSERT_PARSER_VALUES_EQ(ign1, abc % ignore)
    .parsersEq (P Ign2) (tMod (tPlus (P ABC)) (M .ignore)),  -- 24: ASSERT_PARSER_VALUES_EQ(ign2, + abc % ignore)
    .parsersEq (P Ign3) (tMod (tMaybe (tOr (P ABC) (P QQ))) (M .ignore)),  -- 25: ASSERT_PARSER_VALUES_EQ(ign3, ~(abc | qq) % ignore)
    .parsersEq (P Ign4) (tMod (tThen (P ABC) (tStar (P QQ))) (M .ignore)),  -- 26: ASSERT_PARSER_VALUES_EQ(ign4,(abc>> * qq) % ignore)
    .parsersEq (P Ign5) (tMod (tThen (tPlus (P ABC)) (tMaybe (tOr (P ABC) (P QQ)))) (M .ignore))  -- 27: ASSERT_PARSER_VALUES_EQ(ign5,(+ abc>> ~(abc | qq)) % ignore)
    ], Assertion.Holds a :=
  Assertion.holds_of_check (by decide +kernel)

/-- ignore modifier / idempotent (tests/char-tests/modifiers/ignore.cpp:32) -/
theorem charModifiersIgnore_3 : ∀ a ∈ [
    .parsersEq (P Ign1) (tCall (M .ignore) [(P Ign1)]),  -- 32: ASSERT_PARSER_VALUES_EQ(ign1, ignore(ign1))
    .parsersEq (P Ign2) (tCall (M .ignore) [(P Ign2)]),  -- 33: ASSERT_PARSER_VALUES_EQ(ign2, ignore(ign2))
    .parsersEq (P Ign3) (tCall (M .ignore) [(P Ign3)]),  -- 34: ASSERT_PARSER_VALUES_EQ(ign3, ignore(ign3))
    .parsersEq (P Ign4) (tCall (M .ignore) [(P Ign4)]),  -- 35: ASSERT_PARSER_VALUES_EQ(ign4, ignore(ign4))
    .parsersEq (P Ign5) (tCall (M .ignore) [(P Ign5)]),  -- 36: ASSERT_PARSER_VALUES_EQ(ign5, ignore(ign5))
    .parsersEq (P Ign1) (tMod (P Ign1) (M .ignore)),  -- 37: ASSERT_PARSER_VALUES_EQ(ign1, ign1 % ignore)
    .parsersEq (P Ign2) (tMod (P Ign2) (M .ignore)),  -- 38: ASSERT_PARSER_VALUES_EQ(ign2, ign2 % ignore)
    .parsersEq (P Ign3) (tMod (P Ign3) (M .ignore)),  -- 39: ASSERT_PARSER_VALUES_EQ(ign3, ign3 % ignore)
    .parsersEq (P Ign4) (tMod (P Ign4) (M .ignore)),  -- 40: ASSERT_PARSER_VALUES_EQ(ign4, ign4 % ignore)
    .parsersEq (P Ign5) (tMod (P Ign5) (M .ignore))  -- 41: ASSERT_PARSER_VALUES_EQ(ign5, ign5 % ignore)
    ], Assertion.Holds a :=
  Assertion.holds_of_check (by decide +kernel)

/-- ignore modifier / modify anything (tests/char-tests/modifiers/ignore.cpp:72) -/
theorem charModifiersIgnore_4_1 : ∀ a ∈ [
    .parsersEq (tCall (M .ignore) [(P Ign1)]) (P Ign1),  -- 72: DEP_ASSERT_MODIFIER_CALLABLE_R(ignore,(PP{}), PP{}, ignore,(P{}), P{})
    .parsersEq (tMod (P Ign1) (M .ignore)) (P Ign1),  -- 72: DEP_ASSERT_MODIFIER_MODULO_OPERABLE_R(PP{}, ignore, PP{}, P{}, ignore, P{})
    .parsersEq (tCall (M .ignore) [(P Ign2)]) (P Ign2),  -- 72: DEP_ASSERT_MODIFIER_CALLABLE_R(ignore,(PP{}), PP{}, ignore,(P{}), P{})
    .parsersEq (tMod (P Ign2) (M .ignore)) (P Ign2),  -- 72: DEP_ASSERT_MODIFIER_MODULO_OPERABLE_R(PP{}, ignore, PP{}, P{}, ignore, P{})
    .parsersEq (tCall (M .ignore) [(P Ign3)]) (P Ign3),  -- 72: DEP_ASSERT_MODIFIER_CALLABLE_R(ignore,(PP{}), PP{}, ignore,(P{}), P{})
    .parsersEq (tMod (P Ign3) (M .ignore)) (P Ign3),  -- 72: DEP_ASSERT_MODIFIER_MODULO_OPERABLE_R(PP{}, ignore, PP{}, P{}, ignore, P{})
    .parsersEq (tCall (M .ignore) [(P Ign4)]) (P Ign4),  -- 72: DEP_ASSERT_MODIFIER_CALLABLE_R(ignore,(PP{}), PP{}, ignore,(P{}), P{})
    .parsersEq (tMod (P Ign4) (M .ignore)) (P Ign4),  -- 72: DEP_ASSERT_MODIFIER_MODULO_OPERABLE_R(PP{}, ignore, PP{}, P{}, ignore, P{})
    .parsersEq (tCall (M .ignore) [(P Ign5)]) (P Ign5),  -- 72: DEP_ASSERT_MODIFIER_CALLABLE_R(ignore,(PP{}), PP{}, ignore,(P{}), P{})
    .parsersEq (tMod (P Ign5) (M .ignore)) (P Ign5),  -- 72: DEP_ASSERT_MODIFIER_MODULO_OPERABLE_R(PP{}, ignore, PP{}, P{}, ignore, P{})
    .parsersEq (tCall (M .ignore) [(P Com1)]) (P (.ignore Com1)),  -- 72: DEP_ASSERT_MODIFIER_CALLABLE_R(ignore,(PP{}), ignore_parser<PP>{}, ignore,(P{}), ignore_parser<P>{})
    .parsersEq (tMod (P Com1) (M .ignore)) (P (.ignore Com1)),  -- 72: DEP_ASSERT_MODIFIER_MODULO_OPERABLE_R(PP{}, ignore, ignore_parser<PP>{}, P{}, ignore, ignore_parser<P>{})
    .parsersEq (tCall (M .ignore) [(P Com2)]) (P (.ignore Com2)),  -- 72: DEP_ASSERT_MODIFIER_CALLABLE_R(ignore,(PP{}), ignore_parser<PP>{}, ignore,(P{}), ignore_parser<P>{})
    .parsersEq (tMod (P Com2) (M .ignore)) (P (.ignore Com2)),  -- 72: DEP_ASSERT_MODIFIER_MODULO_OPERABLE_R(PP{}, ignore, ignore_parser<PP>{}, P{}, ignore, ignore_parser<P>{})
    .parsersEq (tCall (M .ignore) [(P Com3)]) (P (.ignore Com3)),  -- 72: DEP_ASSERT_MODIFIER_CALLABLE_R(ignore,(PP{}), ignore_parser<PP>{}, ignore,(P{}), ignore_parser<P>{})
    .parsersEq (tMod (P Com3) (M .ignore)) (P (.ignore Com3)),  -- 72: DEP_ASSERT_MODIFIER_MODULO_OPERABLE_R(PP{}, ignore, ignore_parser<PP>{}, P{}, ignore, ignore_parser<P>{})
    .parsersEq (tCall (M .ignore) [(P Com4)]) (P (.ignore Com4)),  -- 72: DEP_ASSERT_MODIFIER_CALLABLE_R(ignore,(PP{}), ignore_parser<PP>{}, ignore,(P{}), ignore_parser<P>{})
    .parsersEq (tMod (P Com4) (M .ignore)) (P (.ignore Com4)),  -- 72: DEP_ASSERT_MODIFIER_MODULO_OPERABLE_R(PP{}, ignore, ignore_parser<PP>{}, P{}, ignore, ignore_parser<P>{})
    .parsersEq (tCall (M .ignore) [(P Com5)]) (P (.ignore Com5)),  -- 72: DEP_ASSERT_MODIFIER_CALLABLE_R(ignore,(PP{}), ignore_parser<PP>{}, ignore,(P{}), ignore_parser<P>{})
    .parsersEq (tMod (P Com5) (M .ignore)) (P (.ignore Com5)),  -- 72: DEP_ASSERT_MODIFIER_MODULO_OPERABLE_R(PP{}, ignore, ignore_parser<PP>{}, P{}, ignore, ignore_parser<P>{})
    .parsersEq (tCall (M .ignore) [(P Com6)]) (P (.ignore Com6)),  -- 72: DEP_ASSERT_MODIFIER_CALLABLE_R(ignore,(PP{}), ignore_parser<PP>{}, ignore,(P{}), ignore_parser<P>{})
    .parsersEq (tMod (P Com6) (M .ignore)) (P (.ignore Com6)),  -- 72: DEP_ASSERT_MODIFIER_MODULO_OPERABLE_R(PP{}, ignore, ignore_parser<PP>{}, P{}, ignore, ignore_parser<P>{})
    .parsersEq (tCall (M .ignore) [(P Com7)]) (P (.ignore Com7)),  -- 72: DEP_ASSERT_MODIFIER_CALLABLE_R(ignore,(PP{}), ignore_parser<PP>{}, ignore,(P{}), ignore_parser<P>{})
    .parsersEq (tMod (P Com7) (M .ignore)) (P (.ignore Com7)),  -- 72: DEP_ASSERT_MODIFIER_MODULO_OPERABLE_R(PP{}, ignore, ignore_parser<PP>{}, P{}, ignore, ignore_parser<P>{})
    .parsersEq (tCall (M .ignore) [(P Nam1)]) (P (.ignore Nam1)),  -- 72: DEP_ASSERT_MODIFIER_CALLABLE_R(ignore,(PP{}), ignore_parser<PP>{}, ignore,(P{}), ignore_parser<P>{})
    .parsersEq (tMod (P Nam1) (M .ignore)) (P (.ignore Nam1)),  -- 72: DEP_ASSERT_MODIFIER_MODULO_OPERABLE_R(PP{}, ignore, ignore_parser<PP>{}, P{}, ignore, ignore_parser<P>{})
    .parsersEq (tCall (M .ignore) [(P Nam2)]) (P (.ignore Nam2)),  -- 72: DEP_ASSERT_MODIFIER_CALLABLE_R(ignore,(PP{}), ignore_parser<PP>{}, ignore,(P{}), ignore_parser<P>{})
    .parsersEq (tMod (P Nam2) (M .ignore)) (P (.ignore Nam2)),  -- 72: DEP_ASSERT_MODIFIER_MODULO_OPERABLE_R(PP{}, ignore, ignore_parser<PP>{}, P{}, ignore, ignore_parser<P>{})
    .parsersEq (tCall (M .ignore) [(P Nam3)]) (P (.ignore Nam3)),  -- 72: DEP_ASSERT_MODIFIER_CALLABLE_R(ignore,(PP{}), ignore_parser<PP>{}, ignore,(P{}), ignore_parser<P>{})
    .parsersEq (tMod (P Nam3) (M .ignore)) (P (.ignore Nam3)),  -- 72: DEP_ASSERT_MODIFIER_MODULO_OPERABLE_R(PP{}, ignore, ignore_parser<PP>{}, P{}, ignore, ignore_parser<P>{})
    .parsersEq (tCall (M .ignore) [(P Nam4)]) (P (.ignore Nam4)),  -- 72: DEP_ASSERT_MODIFIER_CALLABLE_R(ignore,(PP{}), ignore_parser<PP>{}, ignore,(P{}), ignore_parser<P>{})
    .parsersEq (tMod (P Nam4) (M .ignore)) (P (.ignore Nam4)),  -- 72: DEP_ASSERT_MODIFIER_MODULO_OPERABLE_R(PP{}, ignore, ignore_parser<PP>{}, P{}, ignore, ignore_parser<P>{})
    .parsersEq (tCall (M .ignore) [(P Any1)]) (P (.ignore Any1)),  -- 72: DEP_ASSERT_MODIFIER_CALLABLE_R(ignore,(PP{}), ignore_parser<PP>{}, ignore,(P{}), ignore_parser<P>{})
    .parsersEq (tMod (P Any1) (M .ignore)) (P (.ignore Any1)),  -- 72: DEP_ASSERT_MODIFIER_MODULO_OPERABLE_R(PP{}, ignore, ignore_parser<PP>{}, P{}, ignore, ignore_parser<P>{})
    .parsersEq (tCall (M .ignore) [(P Any2)]) (P (.ignore Any2)),  -- 72: DEP_ASSERT_MODIFIER_CALLABLE_R(ignore,(PP{}), ignore_parser<PP>{}, ignore,(P{}), ignore_parser<P>{})
    .parsersEq (tMod (P Any2) (M .ignore)) (P (.ignore Any2)),  -- 72: DEP_ASSERT_MODIFIER_MODULO_OPERABLE_R(PP{}, ignore, ignore_parser<PP>{}, P{}, ignore, ignore_parser<P>{})
    .parsersEq (tCall (M .ignore) [(P Any3)]) (P (.ignore Any3)),  -- 72: DEP_ASSERT_MODIFIER_CALLABLE_R(ignore,(PP{}), ignore_parser<PP>{}, ignore,(P{}), ignore_parser<P>{})
    .parsersEq (tMod (P Any3) (M .ignore)) (P (.ignore Any3)),  -- 72: DEP_ASSERT_MODIFIER_MODULO_OPERABLE_R(PP{}, ignore, ignore_parser<PP>{}, P{}, ignore, ignore_parser<P>{})
    .parsersEq (tCall (M .ignore) [(P Any4)]) (P (.ignore Any4)),  -- 72: DEP_ASSERT_MODIFIER_CALLABLE_R(ignore,(PP{}), ignore_parser<PP>{}, ignore,(P{}), ignore_parser<P>{})
    .parsersEq (tMod (P Any4) (M .ignore)) (P (.ignore Any4)),  -- 72: DEP_ASSERT_MODIFIER_MODULO_OPERABLE_R(PP{}, ignore, ignore_parser<PP>{}, P{}, ignore, ignore_parser<P>{})
    .parsersEq (tCall (M .ignore) [(P Non1)]) (P (.ignore Non1)),  -- 72: DEP_ASSERT_MODIFIER_CALLABLE_R(ignore,(PP{}), ignore_parser<PP>{}, ignore,(P{}), ignore_parser<P>{})
    .parsersEq (tMod (P Non1) (M .ignore)) (P (.ignore Non1)),  -- 72: DEP_ASSERT_MODIFIER_MODULO_OPERABLE_R(PP{}, ignore, ignore_parser<PP>{}, P{}, ignore, ignore_parser<P>{})
    .parsersEq (tCall (M .ignore) [(P Non2)]) (P (.ignore Non2)),  -- 72: DEP_ASSERT_MODIFIER_CALLABLE_R(ignore,(PP{}), ignore_parser<PP>{}, ignore,(P{}), ignore_parser<P>{})
    .parsersEq (tMod (P Non2) (M .ignore)) (P (.ignore Non2)),  -- 72: DEP_ASSERT_MODIFIER_MODULO_OPERABLE_R(PP{}, ignore, ignore_parser<PP>{}, P{}, ignore, ignore_parser<P>{})
    .parsersEq (tCall (M .ignore) [(P Non3)]) (P (.ignore Non3)),  -- 72: DEP_ASSERT_MODIFIER_CALLABLE_R(ignore,(PP{}), ignore_parser<PP>{}, ignore,(P{}), ignore_parser<P>{})
    .parsersEq (tMod (P Non3) (M .ignore)) (P (.ignore Non3)),  -- 72: DEP_ASSERT_MODIFIER_MODULO_OPERABLE_R(PP{}, ignore, ignore_parser<PP>{}, P{}, ignore, ignore_parser<P>{})
    .parsersEq (tCall (M .ignore) [(P Non4)]) (P (.ignore Non4)),  -- 72: DEP_ASSERT_MODIFIER_CALLABLE_R(ignore,(PP{}), ignore_parser<PP>{}, ignore,(P{}), ignore_parser<P>{})
    .parsersEq (tMod (P Non4) (M .ignore)) (P (.ignore Non4)),  -- 72: DEP_ASSERT_MODIFIER_MODULO_OPERABLE_R(PP{}, ignore, ignore_parser<PP>{}, P{}, ignore, ignore_parser<P>{})
    .parsersEq (tCall (M .ignore) [(P Non5)]) (P (.ignore Non5)),  -- 72: DEP_ASSERT_MODIFIER_CALLABLE_R(ignore,(PP{}), ignore_parser<PP>{}, ignore,(P{}), ignore_parser<P>{})
    .parsersEq (tMod (P Non5) (M .ignore)) (P (.ignore Non5)),  -- 72: DEP_ASSERT_MODIFIER_MODULO_OPERABLE_R(PP{}, ignore, ignore_parser<PP>{}, P{}, ignore, ignore_parser<P>{})
    .parsersEq (tCall (M .ignore) [(P All1)]) (P (.ignore All1)),  -- 72: DEP_ASSERT_MODIFIER_CALLABLE_R(ignore,(PP{}), ignore_parser<PP>{}, ignore,(P{}), ignore_parser<P>{})
    .parsersEq (tMod (P All1) (M .ignore)) (P (.ignore All1)),  -- 72: DEP_ASSERT_MODIFIER_MODULO_OPERABLE_R(PP{}, ignore, ignore_parser<PP>{}, P{}, ignore, ignore_parser<P>{})
    .parsersEq (tCall (M .ignore) [(P All2)]) (P (.ignore All2)),  -- 72: DEP_ASSERT_MODIFIER_CALLABLE_R(ignore,(PP{}), ignore_parser<PP>{}, ignore,(P{}), ignore_parser<P>{})
    .parsersEq (tMod (P All2) (M .ignore)) (P (.ignore All2)),  -- 72: DEP_ASSERT_MODIFIER_MODULO_OPERABLE_R(PP{}, ignore, ignore_parser<PP>{}, P{}, ignore, ignore_parser<P>{})
    .parsersEq (tCall (M .ignore) [(P All3)]) (P (.ignore All3)),  -- 72: DEP_ASSERT_MODIFIER_CALLABLE_R(ignore,(PP{}), ignore_parser<PP>{}, ignore,(P{}), ignore_parser<P>{})
    .parsersEq (tMod (P All3) (M .ignore)) (P (.ignore All3)),  -- 72: DEP_ASSERT_MODIFIER_MODULO_OPERABLE_R(PP{}, ignore, ignore_parser<PP>{}, P{}, ignore, ignore_parser<P>{})
    .parsersEq (tCall (M .ignore) [(P All4)]) (P (.ignore All4)),  -- 72: DEP_ASSERT_MODIFIER_CALLABLE_R(ignore,(PP{}), ignore_parser<PP>{}, ignore,(P{}), ignore_parser<P>{})
    .parsersEq (tMod (P All4) (M .ignore)) (P (.ignore All4)),  -- 72: DEP_ASSERT_MODIFIER_MODULO_OPERABLE_R(PP{}, ignore, ignore_parser<PP>{}, P{}, ignore, ignore_parser<P>{})
    .parsersEq (tCall (M .ignore) [(P Eps1)]) (P (.ignore Eps1)),  -- 72: DEP_ASSERT_MODIFIER_CALLABLE_R(ignore,(PP{}), ignore_parser<PP>{}, ignore,(P{}), ignore_parser<P>{})
    .parsersEq (tMod (P Eps1) (M .ignore)) (P (.ignore Eps1))  -- 72: DEP_ASSERT_MODIFIER_MODULO_OPERABLE_R(PP{}, ignore, ignore_parser<PP>{}, P{}, ignore, ignore_parser<P>{})
    ], Assertion.Holds a :=
  Assertion.holds_of_check (by decide +kernel)

/-- ignore modifier / modify anything (tests/char-tests/modifiers/ignore.cpp:72) -/
theorem charModifiersIgnore_4_2 : ∀ a ∈ [
    .parsersEq (tCall (M .ignore) [(P Ant1)]) (P (.ignore Ant1)),  -- 72: DEP_ASSERT_MODIFIER_CALLABLE_R(ignore,(PP{}), ignore_parser<PP>{}, ignore,(P{}), ignore_parser<P>{})
    .parsersEq (tMod (P Ant1) (M .ignore)) (P (.ignore Ant1)),  -- 72: DEP_ASSERT_MODIFIER_MODULO_OPERABLE_R(PP{}, ignore, ignore_parser<PP>{}, P{}, ignore, ignore_parser<P>{})
    .parsersEq (tCall (M .ignore) [(P QQ)]) (P (.ignore QQ)),  -- 72: DEP_ASSERT_MODIFIER_CALLABLE_R(ignore,(PP{}), ignore_parser<PP>{}, ignore,(P{}), ignore_parser<P>{})
    .parsersEq (tMod (P QQ) (M .ignore)) (P (.ignore QQ)),  -- 72: DEP_ASSERT_MODIFIER_MODULO_OPERABLE_R(PP{}, ignore, ignore_parser<PP>{}, P{}, ignore, ignore_parser<P>{})
    .parsersEq (tCall (M .ignore) [(P ABC)]) (P (.ignore ABC)),  -- 72: DEP_ASSERT_MODIFIER_CALLABLE_R(ignore,(PP{}), ignore_parser<PP>{}, ignore,(P{}), ignore_parser<P>{})
    .parsersEq (tMod (P ABC) (M .ignore)) (P (.ignore ABC)),  -- 72: DEP_ASSERT_MODIFIER_MODULO_OPERABLE_R(PP{}, ignore, ignore_parser<PP>{}, P{}, ignore, ignore_parser<P>{})
    .parsersEq (tCall (M .ignore) [(P Comma)]) (P (.ignore Comma)),  -- 72: DEP_ASSERT_MODIFIER_CALLABLE_R(ignore,(PP{}), ignore_parser<PP>{}, ignore,(P{}), ignore_parser<P>{})
    .parsersEq (tMod (P Comma) (M .ignore)) (P (.ignore Comma)),  -- 72: DEP_ASSERT_MODIFIER_MODULO_OPERABLE_R(PP{}, ignore, ignore_parser<PP>{}, P{}, ignore, ignore_parser<P>{})
    .parsersEq (tCall (M .ignore) [(P SpaceDot)]) (P (.ignore SpaceDot)),  -- 72: DEP_ASSERT_MODIFIER_CALLABLE_R(ignore,(PP{}), ignore_parser<PP>{}, ignore,(P{}), ignore_parser<P>{})
    .parsersEq (tMod (P SpaceDot) (M .ignore)) (P (.ignore SpaceDot)),  -- 72: DEP_ASSERT_MODIFIER_MODULO_OPERABLE_R(PP{}, ignore, ignore_parser<PP>{}, P{}, ignore, ignore_parser<P>{})
    .parsersEq (tCall (M .ignore) [(P Cho1)]) (P (.ignore Cho1)),  -- 72: DEP_ASSERT_MODIFIER_CALLABLE_R(ignore,(PP{}), ignore_parser<PP>{}, ignore,(P{}), ignore_parser<P>{})
    .parsersEq (tMod (P Cho1) (M .ignore)) (P (.ignore Cho1)),  -- 72: DEP_ASSERT_MODIFIER_MODULO_OPERABLE_R(PP{}, ignore, ignore_parser<PP>{}, P{}, ignore, ignore_parser<P>{})
    .parsersEq (tCall (M .ignore) [(P Cho2)]) (P (.ignore Cho2)),  -- 72: DEP_ASSERT_MODIFIER_CALLABLE_R(ignore,(PP{}), ignore_parser<PP>{}, ignore,(P{}), ignore_parser<P>{})
    .parsersEq (tMod (P Cho2) (M .ignore)) (P (.ignore Cho2)),  -- 72: DEP_ASSERT_MODIFIER_MODULO_OPERABLE_R(PP{}, ignore, ignore_parser<PP>{}, P{}, ignore, ignore_parser<P>{})
    .parsersEq (tCall (M .ignore) [(P Cho3)]) (P (.ignore Cho3)),  -- 72: DEP_ASSERT_MODIFIER_CALLABLE_R(ignore,(PP{}), ignore_parser<PP>{}, ignore,(P{}), ignore_parser<P>{})
    .parsersEq (tMod (P Cho3) (M .ignore)) (P (.ignore Cho3)),  -- 72: DEP_ASSERT_MODIFIER_MODULO_OPERABLE_R(PP{}, ignore, ignore_parser<PP>{}, P{}, ignore, ignore_parser<P>{})
    .parsersEq (tCall (M .ignore) [(P Cho4)]) (P (.ignore Cho4)),  -- 72: DEP_ASSERT_MODIFIER_CALLABLE_R(ignore,(PP{}), ignore_parser<PP>{}, ignore,(P{}), ignore_parser<P>{})
    .parsersEq (tMod (P Cho4) (M .ignore)) (P (.ignore Cho4)),  -- 72: DEP_ASSERT_MODIFIER_MODULO_OPERABLE_R(PP{}, ignore, ignore_parser<PP>{}, P{}, ignore, ignore_parser<P>{})
    .parsersEq (tCall (M .ignore) [(P Cho5)]) (P (.ignore Cho5)),  -- 72: DEP_ASSERT_MODIFIER_CALLABLE_R(ignore,(PP{}), ignore_parser<PP>{}, ignore,(P{}), ignore_parser<P>{})
    .parsersEq (tMod (P Cho5) (M .ignore)) (P (.ignore Cho5)),  -- 72: DEP_ASSERT_MODIFIER_MODULO_OPERABLE_R(PP{}, ignore, ignore_parser<PP>{}, P{}, ignore, ignore_parser<P>{})
    .parsersEq (tCall (M .ignore) [(P Seq1)]) (P (.ignore Seq1)),  -- 72: DEP_ASSERT_MODIFIER_CALLABLE_R(ignore,(PP{}), ignore_parser<PP>{}, ignore,(P{}), ignore_parser<P>{})
    .parsersEq (tMod (P Seq1) (M .ignore)) (P (.ignore Seq1)),  -- 72: DEP_ASSERT_MODIFIER_MODULO_OPERABLE_R(PP{}, ignore, ignore_parser<PP>{}, P{}, ignore, ignore_parser<P>{})
    .parsersEq (tCall (M .ignore) [(P Seq2)]) (P (.ignore Seq2)),  -- 72: DEP_ASSERT_MODIFIER_CALLABLE_R(ignore,(PP{}), ignore_parser<PP>{}, ignore,(P{}), ignore_parser<P>{})
    .parsersEq (tMod (P Seq2) (M .ignore)) (P (.ignore Seq2)),  -- 72: DEP_ASSERT_MODIFIER_MODULO_OPERABLE_R(PP{}, ignore, ignore_parser<PP>{}, P{}, ignore, ignore_parser<P>{})
    .parsersEq (tCall (M .ignore) [(P Seq3)]) (P (.ignore Seq3)),  -- 72: DEP_ASSERT_MODIFIER_CALLABLE_R(ignore,(PP{}), ignore_parser<PP>{}, ignore,(P{}), ignore_parser<P>{})
    .parsersEq (tMod (P Seq3) (M .ignore)) (P (.ignore Seq3)),  -- 72: DEP_ASSERT_MODIFIER_MODULO_OPERABLE_R(PP{}, ignore, ignore_parser<PP>{}, P{}, ignore, ignore_parser<P>{})
    .parsersEq (tCall (M .ignore) [(P Seq4)]) (P (.ignore Seq4)),  -- 72: DEP_ASSERT_MODIFIER_CALLABLE_R(ignore,(PP{}), ignore_parser<PP>{}, ignore,(P{}), ignore_parser<P>{})
    .parsersEq (tMod (P Seq4) (M .ignore)) (P (.ignore Seq4)),  -- 72: DEP_ASSERT_MODIFIER_MODULO_OPERABLE_R(PP{}, ignore, ignore_parser<PP>{}, P{}, ignore, ignore_parser<P>{})
    .parsersEq (tCall (M .ignore) [(P Seq5)]) (P (.ignore Seq5)),  -- 72: DEP_ASSERT_MODIFIER_CALLABLE_R(ignore,(PP{}), ignore_parser<PP>{}, ignore,(P{}), ignore_parser<P>{})
    .parsersEq (tMod (P Seq5) (M .ignore)) (P (.ignore Seq5)),  -- 72: DEP_ASSERT_MODIFIER_MODULO_OPERABLE_R(PP{}, ignore, ignore_parser<PP>{}, P{}, ignore, ignore_parser<P>{})
    .parsersEq (tCall (M .ignore) [(P Joi1)]) (P (.ignore Joi1)),  -- 72: DEP_ASSERT_MODIFIER_CALLABLE_R(ignore,(PP{}), ignore_parser<PP>{}, ignore,(P{}), ignore_parser<P>{})
    .parsersEq (tMod (P Joi1) (M .ignore)) (P (.ignore Joi1)),  -- 72: DEP_ASSERT_MODIFIER_MODULO_OPERABLE_R(PP{}, ignore, ignore_parser<PP>{}, P{}, ignore, ignore_parser<P>{})
    .parsersEq (tCall (M .ignore) [(P Joi2)]) (P (.ignore Joi2)),  -- 72: DEP_ASSERT_MODIFIER_CALLABLE_R(ignore,(PP{}), ignore_parser<PP>{}, ignore,(P{}), ignore_parser<P>{})
    .parsersEq (tMod (P Joi2) (M .ignore)) (P (.ignore Joi2)),  -- 72: DEP_ASSERT_MODIFIER_MODULO_OPERABLE_R(PP{}, ignore, ignore_parser<PP>{}, P{}, ignore, ignore_parser<P>{})
    .parsersEq (tCall (M .ignore) [(P Joi3)]) (P (.ignore Joi3)),  -- 72: DEP_ASSERT_MODIFIER_CALLABLE_R(ignore,(PP{}), ignore_parser<PP>{}, ignore,(P{}), ignore_parser<P>{})
    .parsersEq (tMod (P Joi3) (M .ignore)) (P (.ignore Joi3)),  -- 72: DEP_ASSERT_MODIFIER_MODULO_OPERABLE_R(PP{}, ignore, ignore_parser<PP>{}, P{}, ignore, ignore_parser<P>{})
    .parsersEq (tCall (M .ignore) [(P Joi4)]) (P (.ignore Joi4)),  -- 72: DEP_ASSERT_MODIFIER_CALLABLE_R(ignore,(PP{}), ignore_parser<PP>{}, ignore,(P{}), ignore_parser<P>{})
    .parsersEq (tMod (P Joi4) (M .ignore)) (P (.ignore Joi4)),  -- 72: DEP_ASSERT_MODIFIER_MODULO_OPERABLE_R(PP{}, ignore, ignore_parser<PP>{}, P{}, ignore, ignore_parser<P>{})
    .parsersEq (tCall (M .ignore) [(P Joi5)]) (P (.ignore Joi5)),  -- 72: DEP_ASSERT_MODIFIER_CALLABLE_R(ignore,(PP{}), ignore_parser<PP>{}, ignore,(P{}), ignore_parser<P>{})
    .parsersEq (tMod (P Joi5) (M .ignore)) (P (.ignore Joi5)),  -- 72: DEP_ASSERT_MODIFIER_MODULO_OPERABLE_R(PP{}, ignore, ignore_parser<PP>{}, P{}, ignore, ignore_parser<P>{})
    .parsersEq (tCall (M .ignore) [(P Map1)]) (P (.ignore Map1)),  -- 72: DEP_ASSERT_MODIFIER_CALLABLE_R(ignore,(PP{}), ignore_parser<PP>{}, ignore,(P{}), ignore_parser<P>{})
    .parsersEq (tMod (P Map1) (M .ignore)) (P (.ignore Map1)),  -- 72: DEP_ASSERT_MODIFIER_MODULO_OPERABLE_R(PP{}, ignore, ignore_parser<PP>{}, P{}, ignore, ignore_parser<P>{})
    .parsersEq (tCall (M .ignore) [(P Map2)]) (P (.ignore Map2)),  -- 72: DEP_ASSERT_MODIFIER_CALLABLE_R(ignore,(PP{}), ignore_parser<PP>{}, ignore,(P{}), ignore_parser<P>{})
    .parsersEq (tMod (P Map2) (M .ignore)) (P (.ignore Map2)),  -- 72: DEP_ASSERT_MODIFIER_MODULO_OPERABLE_R(PP{}, ignore, ignore_parser<PP>{}, P{}, ignore, ignore_parser<P>{})
    .parsersEq (tCall (M .ignore) [(P Map3)]) (P (.ignore Map3)),  -- 72: DEP_ASSERT_MODIFIER_CALLABLE_R(ignore,(PP{}), ignore_parser<PP>{}, ignore,(P{}), ignore_parser<P>{})
    .parsersEq (tMod (P Map3) (M .ignore)) (P (.ignore Map3)),  -- 72: DEP_ASSERT_MODIFIER_MODULO_OPERABLE_R(PP{}, ignore, ignore_parser<PP>{}, P{}, ignore, ignore_parser<P>{})
    .parsersEq (tCall (M .ignore) [(P Map4)]) (P (.ignore Map4)),  -- 72: DEP_ASSERT_MODIFIER_CALLABLE_R(ignore,(PP{}), ignore_parser<PP>{}, ignore,(P{}), ignore_parser<P>{})
    .parsersEq (tMod (P Map4) (M .ignore)) (P (.ignore Map4)),  -- 72: DEP_ASSERT_MODIFIER_MODULO_OPERABLE_R(PP{}, ignore, ignore_parser<PP>{}, P{}, ignore, ignore_parser<P>{})
    .parsersEq (tCall (M .ignore) [(P Fil1)]) (P (.ignore Fil1)),  -- 72: DEP_ASSERT_MODIFIER_CALLABLE_R(ignore,(PP{}), ignore_parser<PP>{}, ignore,(P{}), ignore_parser<P>{})
    .parsersEq (tMod (P Fil1) (M .ignore)) (P (.ignore Fil1)),  -- 72: DEP_ASSERT_MODIFIER_MODULO_OPERABLE_R(PP{}, ignore, ignore_parser<PP>{}, P{}, ignore, ignore_parser<P>{})
    .parsersEq (tCall (M .ignore) [(P Fil2)]) (P (.ignore Fil2)),  -- 72: DEP_ASSERT_MODIFIER_CALLABLE_R(ignore,(PP{}), ignore_parser<PP>{}, ignore,(P{}), ignore_parser<P>{})
    .parsersEq (tMod (P Fil2) (M .ignore)) (P (.ignore Fil2)),  -- 72: DEP_ASSERT_MODIFIER_MODULO_OPERABLE_R(PP{}, ignore, ignore_parser<PP>{}, P{}, ignore, ignore_parser<P>{})
    .parsersEq (tCall (M .ignore) [(P Fil3)]) (P (.ignore Fil3)),  -- 72: DEP_ASSERT_MODIFIER_CALLABLE_R(ignore,(PP{}), ignore_parser<PP>{}, ignore,(P{}), ignore_parser<P>{})
    .parsersEq (tMod (P Fil3) (M .ignore)) (P (.ignore Fil3)),  -- 72: DEP_ASSERT_MODIFIER_MODULO_OPERABLE_R(PP{}, ignore, ignore_parser<PP>{}, P{}, ignore, ignore_parser<P>{})
    .parsersEq (tCall (M .ignore) [(P Apm1)]) (P (.ignore Apm1)),  -- 72: DEP_ASSERT_MODIFIER_CALLABLE_R(ignore,(PP{}), ignore_parser<PP>{}, ignore,(P{}), ignore_parser<P>{})
    .parsersEq (tMod (P Apm1) (M .ignore)) (P (.ignore Apm1)),  -- 72: DEP_ASSERT_MODIFIER_MODULO_OPERABLE_R(PP{}, ignore, ignore_parser<PP>{}, P{}, ignore, ignore_parser<P>{})
    .parsersEq (tCall (M .ignore) [(P Apm2)]) (P (.ignore Apm2)),  -- 72: DEP_ASSERT_MODIFIER_CALLABLE_R(ignore,(PP{}), ignore_parser<PP>{}, ignore,(P{}), ignore_parser<P>{})
    .parsersEq (tMod (P Apm2) (M .ignore)) (P (.ignore Apm2)),  -- 72: DEP_ASSERT_MODIFIER_MODULO_OPERABLE_R(PP{}, ignore, ignore_parser<PP>{}, P{}, ignore, ignore_parser<P>{})
    .parsersEq (tCall (M .ignore) [(P Apf1)]) (P (.ignore Apf1)),  -- 72: DEP_ASSERT_MODIFIER_CALLABLE_R(ignore,(PP{}), ignore_parser<PP>{}, ignore,(P{}), ignore_parser<P>{})
    .parsersEq (tMod (P Apf1) (M .ignore)) (P (.ignore Apf1))  -- 72: DEP_ASSERT_MODIFIER_MODULO_OPERABLE_R(PP{}, ignore, ignore_parser<PP>{}, P{}, ignore, ignore_parser<P>{})
    ], Assertion.Holds a :=
  Assertion.holds_of_check (by decide +kernel)

/-- ignore modifier / modify anything (tests/char-tests/modifiers/ignore.cpp:72) -/
theorem charModifiersIgnore_4_3 : ∀ a ∈ [
    .parsersEq (tCall (M .ignore) [(P Int1)]) (P (.ignore Int1)),  -- 72: DEP_ASSERT_MODIFIER_CALLABLE_R(ignore,(PP{}), ignore_parser<PP>{}, ignore,(P{}), ignore_parser<P>{})
    .parsersEq (tMod (P Int1) (M .ignore)) (P (.ignore Int1)),  -- 72: DEP_ASSERT_MODIFIER_MODULO_OPERABLE_R(PP{}, ignore, ignore_parser<PP>{}, P{}, ignore, ignore_parser<P>{})
    .parsersEq (tCall (M .ignore) [(P Int2)]) (P (.ignore Int2)),  -- 72: DEP_ASSERT_MODIFIER_CALLABLE_R(ignore,(PP{}), ignore_parser<PP>{}, ignore,(P{}), ignore_parser<P>{})
    .parsersEq (tMod (P Int2) (M .ignore)) (P (.ignore Int2)),  -- 72: DEP_ASSERT_MODIFIER_MODULO_OPERABLE_R(PP{}, ignore, ignore_parser<PP>{}, P{}, ignore, ignore_parser<P>{})
    .parsersEq (tCall (M .ignore) [(P Int3)]) (P (.ignore Int3)),  -- 72: DEP_ASSERT_MODIFIER_CALLABLE_R(ignore,(PP{}), ignore_parser<PP>{}, ignore,(P{}), ignore_parser<P>{})
    .parsersEq (tMod (P Int3) (M .ignore)) (P (.ignore Int3)),  -- 72: DEP_ASSERT_MODIFIER_MODULO_OPERABLE_R(PP{}, ignore, ignore_parser<PP>{}, P{}, ignore, ignore_parser<P>{})
    .parsersEq (tCall (M .ignore) [(P Api1)]) (P (.ignore Api1)),  -- 72: DEP_ASSERT_MODIFIER_CALLABLE_R(ignore,(PP{}), ignore_parser<PP>{}, ignore,(P{}), ignore_parser<P>{})
    .parsersEq (tMod (P Api1) (M .ignore)) (P (.ignore Api1)),  -- 72: DEP_ASSERT_MODIFIER_MODULO_OPERABLE_R(PP{}, ignore, ignore_parser<PP>{}, P{}, ignore, ignore_parser<P>{})
    .parsersEq (tCall (M .ignore) [(P Api2)]) (P (.ignore Api2)),  -- 72: DEP_ASSERT_MODIFIER_CALLABLE_R(ignore,(PP{}), ignore_parser<PP>{}, ignore,(P{}), ignore_parser<P>{})
    .parsersEq (tMod (P Api2) (M .ignore)) (P (.ignore Api2)),  -- 72: DEP_ASSERT_MODIFIER_MODULO_OPERABLE_R(PP{}, ignore, ignore_parser<PP>{}, P{}, ignore, ignore_parser<P>{})
    .parsersEq (tCall (M .ignore) [(P Con1)]) (P (.ignore Con1)),  -- 72: DEP_ASSERT_MODIFIER_CALLABLE_R(ignore,(PP{}), ignore_parser<PP>{}, ignore,(P{}), ignore_parser<P>{})
    .parsersEq (tMod (P Con1) (M .ignore)) (P (.ignore Con1)),  -- 72: DEP_ASSERT_MODIFIER_MODULO_OPERABLE_R(PP{}, ignore, ignore_parser<PP>{}, P{}, ignore, ignore_parser<P>{})
    .parsersEq (tCall (M .ignore) [(P Con2)]) (P (.ignore Con2)),  -- 72: DEP_ASSERT_MODIFIER_CALLABLE_R(ignore,(PP{}), ignore_parser<PP>{}, ignore,(P{}), ignore_parser<P>{})
    .parsersEq (tMod (P Con2) (M .ignore)) (P (.ignore Con2)),  -- 72: DEP_ASSERT_MODIFIER_MODULO_OPERABLE_R(PP{}, ignore, ignore_parser<PP>{}, P{}, ignore, ignore_parser<P>{})
    .parsersEq (tCall (M .ignore) [(P Con3)]) (P (.ignore Con3)),  -- 72: DEP_ASSERT_MODIFIER_CALLABLE_R(ignore,(PP{}), ignore_parser<PP>{}, ignore,(P{}), ignore_parser<P>{})
    .parsersEq (tMod (P Con3) (M .ignore)) (P (.ignore Con3)),  -- 72: DEP_ASSERT_MODIFIER_MODULO_OPERABLE_R(PP{}, ignore, ignore_parser<PP>{}, P{}, ignore, ignore_parser<P>{})
    .parsersEq (tCall (M .ignore) [(P Con4)]) (P (.ignore Con4)),  -- 72: DEP_ASSERT_MODIFIER_CALLABLE_R(ignore,(PP{}), ignore_parser<PP>{}, ignore,(P{}), ignore_parser<P>{})
    .parsersEq (tMod (P Con4) (M .ignore)) (P (.ignore Con4)),  -- 72: DEP_ASSERT_MODIFIER_MODULO_OPERABLE_R(PP{}, ignore, ignore_parser<PP>{}, P{}, ignore, ignore_parser<P>{})
    .parsersEq (tCall (M .ignore) [(P Def1)]) (P (.ignore Def1)),  -- 72: DEP_ASSERT_MODIFIER_CALLABLE_R(ignore,(PP{}), ignore_parser<PP>{}, ignore,(P{}), ignore_parser<P>{})
    .parsersEq (tMod (P Def1) (M .ignore)) (P (.ignore Def1)),  -- 72: DEP_ASSERT_MODIFIER_MODULO_OPERABLE_R(PP{}, ignore, ignore_parser<PP>{}, P{}, ignore, ignore_parser<P>{})
    .parsersEq (tCall (M .ignore) [(P Def2)]) (P (.ignore Def2)),  -- 72: DEP_ASSERT_MODIFIER_CALLABLE_R(ignore,(PP{}), ignore_parser<PP>{}, ignore,(P{}), ignore_parser<P>{})
    .parsersEq (tMod (P Def2) (M .ignore)) (P (.ignore Def2)),  -- 72: DEP_ASSERT_MODIFIER_MODULO_OPERABLE_R(PP{}, ignore, ignore_parser<PP>{}, P{}, ignore, ignore_parser<P>{})
    .parsersEq (tCall (M .ignore) [(P (.custom 0))]) (P (.ignore (.custom 0))),  -- 72: DEP_ASSERT_MODIFIER_CALLABLE_R(ignore,(PP{}), ignore_parser<PP>{}, ignore,(P{}), ignore_parser<P>{})
    .parsersEq (tMod (P (.custom 0)) (M .ignore)) (P (.ignore (.custom 0))),  -- 72: DEP_ASSERT_MODIFIER_MODULO_OPERABLE_R(PP{}, ignore, ignore_parser<PP>{}, P{}, ignore, ignore_parser<P>{})
    .parsersEq (tCall (M .ignore) [(P (.custom 1))]) (P (.ignore (.custom 1))),  -- 72: DEP_ASSERT_MODIFIER_CALLABLE_R(ignore,(PP{}), ignore_parser<PP>{}, ignore,(P{}), ignore_parser<P>{})
    .parsersEq (tMod (P (.custom 1)) (M .ignore)) (P (.ignore (.custom 1))),  -- 72: DEP_ASSERT_MODIFIER_MODULO_OPERABLE_R(PP{}, ignore, ignore_parser<PP>{}, P{}, ignore, ignore_parser<P>{})
    .parsersEq (tCall (M .ignore) [(P May1)]) (P (.ignore May1)),  -- 72: DEP_ASSERT_MODIFIER_CALLABLE_R(ignore,(PP{}), ignore_parser<PP>{}, ignore,(P{}), ignore_parser<P>{})
    .parsersEq (tMod (P May1) (M .ignore)) (P (.ignore May1)),  -- 72: DEP_ASSERT_MODIFIER_MODULO_OPERABLE_R(PP{}, ignore, ignore_parser<PP>{}, P{}, ignore, ignore_parser<P>{})
    .parsersEq (tCall (M .ignore) [(P May2)]) (P (.ignore May2)),  -- 72: DEP_ASSERT_MODIFIER_CALLABLE_R(ignore,(PP{}), ignore_parser<PP>{}, ignore,(P{}), ignore_parser<P>{})
    .parsersEq (tMod (P May2) (M .ignore)) (P (.ignore May2)),  -- 72: DEP_ASSERT_MODIFIER_MODULO_OPERABLE_R(PP{}, ignore, ignore_parser<PP>{}, P{}, ignore, ignore_parser<P>{})
    .parsersEq (tCall (M .ignore) [(P May3)]) (P (.ignore May3)),  -- 72: DEP_ASSERT_MODIFIER_CALLABLE_R(ignore,(PP{}), ignore_parser<PP>{}, ignore,(P{}), ignore_parser<P>{})
    .parsersEq (tMod (P May3) (M .ignore)) (P (.ignore May3)),  -- 72: DEP_ASSERT_MODIFIER_MODULO_OPERABLE_R(PP{}, ignore, ignore_parser<PP>{}, P{}, ignore, ignore_parser<P>{})
    .parsersEq (tCall (M .ignore) [(P May4)]) (P (.ignore May4)),  -- 72: DEP_ASSERT_MODIFIER_CALLABLE_R(ignore,(PP{}), ignore_parser<PP>{}, ignore,(P{}), ignore_parser<P>{})
    .parsersEq (tMod (P May4) (M .ignore)) (P (.ignore May4)),  -- 72: DEP_ASSERT_MODIFIER_MODULO_OPERABLE_R(PP{}, ignore, ignore_parser<PP>{}, P{}, ignore, ignore_parser<P>{})
    .parsersEq (tCall (M .ignore) [(P Exa1)]) (P (.ignore Exa1)),  -- 72: DEP_ASSERT_MODIFIER_CALLABLE_R(ignore,(PP{}), ignore_parser<PP>{}, ignore,(P{}), ignore_parser<P>{})
    .parsersEq (tMod (P Exa1) (M .ignore)) (P (.ignore Exa1)),  -- 72: DEP_ASSERT_MODIFIER_MODULO_OPERABLE_R(PP{}, ignore, ignore_parser<PP>{}, P{}, ignore, ignore_parser<P>{})
    .parsersEq (tCall (M .ignore) [(P Exa2)]) (P (.ignore Exa2)),  -- 72: DEP_ASSERT_MODIFIER_CALLABLE_R(ignore,(PP{}), ignore_parser<PP>{}, ignore,(P{}), ignore_parser<P>{})
    .parsersEq (tMod (P Exa2) (M .ignore)) (P (.ignore Exa2)),  -- 72: DEP_ASSERT_MODIFIER_MODULO_OPERABLE_R(PP{}, ignore, ignore_parser<PP>{}, P{}, ignore, ignore_parser<P>{})
    .parsersEq (tCall (M .ignore) [(P Exa3)]) (P (.ignore Exa3)),  -- 72: DEP_ASSERT_MODIFIER_CALLABLE_R(ignore,(PP{}), ignore_parser<PP>{}, ignore,(P{}), ignore_parser<P>{})
    .parsersEq (tMod (P Exa3) (M .ignore)) (P (.ignore Exa3)),  -- 72: DEP_ASSERT_MODIFIER_MODULO_OPERABLE_R(PP{}, ignore, ignore_parser<PP>{}, P{}, ignore, ignore_parser<P>{})
    .parsersEq (tCall (M .ignore) [(P Exa4)]) (P (.ignore Exa4)),  -- 72: DEP_ASSERT_MODIFIER_CALLABLE_R(ignore,(PP{}), ignore_parser<PP>{}, ignore,(P{}), ignore_parser<P>{})
    .parsersEq (tMod (P Exa4) (M .ignore)) (P (.ignore Exa4)),  -- 72: DEP_ASSERT_MODIFIER_MODULO_OPERABLE_R(PP{}, ignore, ignore_parser<PP>{}, P{}, ignore, ignore_parser<P>{})
    .parsersEq (tCall (M .ignore) [(P Oom1)]) (P (.ignore Oom1)),  -- 72: DEP_ASSERT_MODIFIER_CALLABLE_R(ignore,(PP{}), ignore_parser<PP>{}, ignore,(P{}), ignore_parser<P>{})
    .parsersEq (tMod (P Oom1) (M .ignore)) (P (.ignore Oom1)),  -- 72: DEP_ASSERT_MODIFIER_MODULO_OPERABLE_R(PP{}, ignore, ignore_parser<PP>{}, P{}, ignore, ignore_parser<P>{})
    .parsersEq (tCall (M .ignore) [(P Oom2)]) (P (.ignore Oom2)),  -- 72: DEP_ASSERT_MODIFIER_CALLABLE_R(ignore,(PP{}), ignore_parser<PP>{}, ignore,(P{}), ignore_parser<P>{})
    .parsersEq (tMod (P Oom2) (M .ignore)) (P (.ignore Oom2)),  -- 72: DEP_ASSERT_MODIFIER_MODULO_OPERABLE_R(PP{}, ignore, ignore_parser<PP>{}, P{}, ignore, ignore_parser<P>{})
    .parsersEq (tCall (M .ignore) [(P Oom3)]) (P (.ignore Oom3)),  -- 72: DEP_ASSERT_MODIFIER_CALLABLE_R(ignore,(PP{}), ignore_parser<PP>{}, ignore,(P{}), ignore_parser<P>{})
    .parsersEq (tMod (P Oom3) (M .ignore)) (P (.ignore Oom3)),  -- 72: DEP_ASSERT_MODIFIER_MODULO_OPERABLE_R(PP{}, ignore, ignore_parser<PP>{}, P{}, ignore, ignore_parser<P>{})
    .parsersEq (tCall (M .ignore) [(P Oom4)]) (P (.ignore Oom4)),  -- 72: DEP_ASSERT_MODIFIER_CALLABLE_R(ignore,(PP{}), ignore_parser<PP>{}, ignore,(P{}), ignore_parser<P>{})
    .parsersEq (tMod (P Oom4) (M .ignore)) (P (.ignore Oom4)),  -- 72: DEP_ASSERT_MODIFIER_MODULO_OPERABLE_R(PP{}, ignore, ignore_parser<PP>{}, P{}, ignore, ignore_parser<P>{})
    .parsersEq (tCall (M .ignore) [(P Zom1)]) (P (.ignore Zom1)),  -- 72: DEP_ASSERT_MODIFIER_CALLABLE_R(ignore,(PP{}), ignore_parser<PP>{}, ignore,(P{}), ignore_parser<P>{})
    .parsersEq (tMod (P Zom1) (M .ignore)) (P (.ignore Zom1)),  -- 72: DEP_ASSERT_MODIFIER_MODULO_OPERABLE_R(PP{}, ignore, ignore_parser<PP>{}, P{}, ignore, ignore_parser<P>{})
    .parsersEq (tCall (M .ignore) [(P Zom2)]) (P (.ignore Zom2)),  -- 72: DEP_ASSERT_MODIFIER_CALLABLE_R(ignore,(PP{}), ignore_parser<PP>{}, ignore,(P{}), ignore_parser<P>{})
    .parsersEq (tMod (P Zom2) (M .ignore)) (P (.ignore Zom2)),  -- 72: DEP_ASSERT_MODIFIER_MODULO_OPERABLE_R(PP{}, ignore, ignore_parser<PP>{}, P{}, ignore, ignore_parser<P>{})
    .parsersEq (tCall (M .ignore) [(P Zom3)]) (P (.ignore Zom3)),  -- 72: DEP_ASSERT_MODIFIER_CALLABLE_R(ignore,(PP{}), ignore_parser<PP>{}, ignore,(P{}), ignore_parser<P>{})
    .parsersEq (tMod (P Zom3) (M .ignore)) (P (.ignore Zom3)),  -- 72: DEP_ASSERT_MODIFIER_MODULO_OPERABLE_R(PP{}, ignore, ignore_parser<PP>{}, P{}, ignore, ignore_parser<P>{})
    .parsersEq (tCall (M .ignore) [(P Zom4)]) (P (.ignore Zom4)),  -- 72: DEP_ASSERT_MODIFIER_CALLABLE_R(ignore,(PP{}), ignore_parser<PP>{}, ignore,(P{}), ignore_parser<P>{})
    .parsersEq (tMod (P Zom4) (M .ignore)) (P (.ignore Zom4)),  -- 72: DEP_ASSERT_MODIFIER_MODULO_OPERABLE_R(PP{}, ignore, ignore_parser<PP>{}, P{}, ignore, ignore_parser<P>{})
    .parsersEq (tCall (M .ignore) [(P Del1)]) (P (.ignore Del1)),  -- 72: DEP_ASSERT_MODIFIER_CALLABLE_R(ignore,(PP{}), ignore_parser<PP>{}, ignore,(P{}), ignore_parser<P>{})
    .parsersEq (tMod (P Del1) (M .ignore)) (P (.ignore Del1))  -- 72: DEP_ASSERT_MODIFIER_MODULO_OPERABLE_R(PP{}, ignore, ignore_parser<PP>{}, P{}, ignore, ignore_parser<P>{})
    ], Assertion.Holds a :=
  Assertion.holds_of_check (by decide +kernel)

/-- ignore modifier / modify anything (tests/char-tests/modifiers/ignore.cpp:72) -/
theorem charModifiersIgnore_4_4 : ∀ a ∈ [
    .parsersEq (tCall (M .ignore) [(P Del2)]) (P (.ignore Del2)),  -- 72: DEP_ASSERT_MODIFIER_CALLABLE_R(ignore,(PP{}), ignore_parser<PP>{}, ignore,(P{}), ignore_parser<P>{})
    .parsersEq (tMod (P Del2) (M .ignore)) (P (.ignore Del2)),  -- 72: DEP_ASSERT_MODIFIER_MODULO_OPERABLE_R(PP{}, ignore, ignore_parser<PP>{}, P{}, ignore, ignore_parser<P>{})
    .parsersEq (tCall (M .ignore) [(P Del3)]) (P (.ignore Del3)),  -- 72: DEP_ASSERT_MODIFIER_CALLABLE_R(ignore,(PP{}), ignore_parser<PP>{}, ignore,(P{}), ignore_parser<P>{})
    .parsersEq (tMod (P Del3) (M .ignore)) (P (.ignore Del3)),  -- 72: DEP_ASSERT_MODIFIER_MODULO_OPERABLE_R(PP{}, ignore, ignore_parser<PP>{}, P{}, ignore, ignore_parser<P>{})
    .parsersEq (tCall (M .ignore) [(P Del4)]) (P (.ignore Del4)),  -- 72: DEP_ASSERT_MODIFIER_CALLABLE_R(ignore,(PP{}), ignore_parser<PP>{}, ignore,(P{}), ignore_parser<P>{})
    .parsersEq (tMod (P Del4) (M .ignore)) (P (.ignore Del4)),  -- 72: DEP_ASSERT_MODIFIER_MODULO_OPERABLE_R(PP{}, ignore, ignore_parser<PP>{}, P{}, ignore, ignore_parser<P>{})
    .parsersEq (tCall (M .ignore) [(P Del5)]) (P (.ignore Del5)),  -- 72: DEP_ASSERT_MODIFIER_CALLABLE_R(ignore,(PP{}), ignore_parser<PP>{}, ignore,(P{}), ignore_parser<P>{})
    .parsersEq (tMod (P Del5) (M .ignore)) (P (.ignore Del5)),  -- 72: DEP_ASSERT_MODIFIER_MODULO_OPERABLE_R(PP{}, ignore, ignore_parser<PP>{}, P{}, ignore, ignore_parser<P>{})
    .parsersEq (tCall (M .ignore) [(P Del6)]) (P (.ignore Del6)),  -- 72: DEP_ASSERT_MODIFIER_CALLABLE_R(ignore,(PP{}), ignore_parser<PP>{}, ignore,(P{}), ignore_parser<P>{})
    .parsersEq (tMod (P Del6) (M .ignore)) (P (.ignore Del6)),  -- 72: DEP_ASSERT_MODIFIER_MODULO_OPERABLE_R(PP{}, ignore, ignore_parser<PP>{}, P{}, ignore, ignore_parser<P>{})
    .parsersEq (tCall (M .ignore) [(P Del7)]) (P (.ignore Del7)),  -- 72: DEP_ASSERT_MODIFIER_CALLABLE_R(ignore,(PP{}), ignore_parser<PP>{}, ignore,(P{}), ignore_parser<P>{})
    .parsersEq (tMod (P Del7) (M .ignore)) (P (.ignore Del7)),  -- 72: DEP_ASSERT_MODIFIER_MODULO_OPERABLE_R(PP{}, ignore, ignore_parser<PP>{}, P{}, ignore, ignore_parser<P>{})
    .parsersEq (tCall (M .ignore) [(P Del8)]) (P (.ignore Del8)),  -- 72: DEP_ASSERT_MODIFIER_CALLABLE_R(ignore,(PP{}), ignore_parser<PP>{}, ignore,(P{}), ignore_parser<P>{})
    .parsersEq (tMod (P Del8) (M .ignore)) (P (.ignore Del8)),  -- 72: DEP_ASSERT_MODIFIER_MODULO_OPERABLE_R(PP{}, ignore, ignore_parser<PP>{}, P{}, ignore, ignore_parser<P>{})
    .parsersEq (tCall (M .ignore) [(P Dek1)]) (P (.ignore Dek1)),  -- 72: DEP_ASSERT_MODIFIER_CALLABLE_R(ignore,(PP{}), ignore_parser<PP>{}, ignore,(P{}), ignore_parser<P>{})
    .parsersEq (tMod (P Dek1) (M .ignore)) (P (.ignore Dek1)),  -- 72: DEP_ASSERT_MODIFIER_MODULO_OPERABLE_R(PP{}, ignore, ignore_parser<PP>{}, P{}, ignore, ignore_parser<P>{})
    .parsersEq (tCall (M .ignore) [(P Dek2)]) (P (.ignore Dek2)),  -- 72: DEP_ASSERT_MODIFIER_CALLABLE_R(ignore,(PP{}), ignore_parser<PP>{}, ignore,(P{}), ignore_parser<P>{})
    .parsersEq (tMod (P Dek2) (M .ignore)) (P (.ignore Dek2)),  -- 72: DEP_ASSERT_MODIFIER_MODULO_OPERABLE_R(PP{}, ignore, ignore_parser<PP>{}, P{}, ignore, ignore_parser<P>{})
    .parsersEq (tCall (M .ignore) [(P Dek3)]) (P (.ignore Dek3)),  -- 72: DEP_ASSERT_MODIFIER_CALLABLE_R(ignore,(PP{}), ignore_parser<PP>{}, ignore,(P{}), ignore_parser<P>{})
    .parsersEq (tMod (P Dek3) (M .ignore)) (P (.ignore Dek3)),  -- 72: DEP_ASSERT_MODIFIER_MODULO_OPERABLE_R(PP{}, ignore, ignore_parser<PP>{}, P{}, ignore, ignore_parser<P>{})
    .parsersEq (tCall (M .ignore) [(P Dek4)]) (P (.ignore Dek4)),  -- 72: DEP_ASSERT_MODIFIER_CALLABLE_R(ignore,(PP{}), ignore_parser<PP>{}, ignore,(P{}), ignore_parser<P>{})
    .parsersEq (tMod (P Dek4) (M .ignore)) (P (.ignore Dek4)),  -- 72: DEP_ASSERT_MODIFIER_MODULO_OPERABLE_R(PP{}, ignore, ignore_parser<PP>{}, P{}, ignore, ignore_parser<P>{})
    .parsersEq (tCall (M .ignore) [(P Dek5)]) (P (.ignore Dek5)),  -- 72: DEP_ASSERT_MODIFIER_CALLABLE_R(ignore,(PP{}), ignore_parser<PP>{}, ignore,(P{}), ignore_parser<P>{})
    .parsersEq (tMod (P Dek5) (M .ignore)) (P (.ignore Dek5)),  -- 72: DEP_ASSERT_MODIFIER_MODULO_OPERABLE_R(PP{}, ignore, ignore_parser<PP>{}, P{}, ignore, ignore_parser<P>{})
    .parsersEq (tCall (M .ignore) [(P Dek6)]) (P (.ignore Dek6)),  -- 72: DEP_ASSERT_MODIFIER_CALLABLE_R(ignore,(PP{}), ignore_parser<PP>{}, ignore,(P{}), ignore_parser<P>{})
    .parsersEq (tMod (P Dek6) (M .ignore)) (P (.ignore Dek6)),  -- 72: DEP_ASSERT_MODIFIER_MODULO_OPERABLE_R(PP{}, ignore, ignore_parser<PP>{}, P{}, ignore, ignore_parser<P>{})
    .parsersEq (tCall (M .ignore) [(P Dek7)]) (P (.ignore Dek7)),  -- 72: DEP_ASSERT_MODIFIER_CALLABLE_R(ignore,(PP{}), ignore_parser<PP>{}, ignore,(P{}), ignore_parser<P>{})
    .parsersEq (tMod (P Dek7) (M .ignore)) (P (.ignore Dek7)),  -- 72: DEP_ASSERT_MODIFIER_MODULO_OPERABLE_R(PP{}, ignore, ignore_parser<PP>{}, P{}, ignore, ignore_parser<P>{})
    .parsersEq (tCall (M .ignore) [(P Dek8)]) (P (.ignore Dek8)),  -- 72: DEP_ASSERT_MODIFIER_CALLABLE_R(ignore,(PP{}), ignore_parser<PP>{}, ignore,(P{}), ignore_parser<P>{})
    .parsersEq (tMod (P Dek8) (M .ignore)) (P (.ignore Dek8))  -- 72: DEP_ASSERT_MODIFIER_MODULO_OPERABLE_R(PP{}, ignore, ignore_parser<PP>{}, P{}, ignore, ignore_parser<P>{})
    ], Assertion.Holds a :=
  Assertion.holds_of_check (by decide +kernel)

end Tok3n.Tests
