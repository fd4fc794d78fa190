import Verif.Tests.Gen.SamplesChar
/- Generated by tools/tests2lean.py from tests/char-tests/modifiers/constant.cpp. -/

namespace Tok3n.Tests

/-- constant modifier / prefix (tests/char-tests/modifiers/constant.cpp:14) -/
theorem charModifiersConstant_1 : ∀ a ∈ [
    .parsersEq (P Con1) (tCall (M (.constant (cInt 1))) [(tPlus (P ABC))]),  -- 14: ASSERT_PARSER_VALUES_EQ(con1, constant<1>(+ abc))
    .parsersEq (P Con2) (tCall (M (.constant (cChar 116))) [(tMaybe (tOr (P ABC) (P QQ)))]),  -- 15: ASSERT_PARSER_VALUES_EQ(con2, constant<'t'>(~(abc | qq)))
    .parsersEq (P Con3) (tCall (M (.constant (cBool true))) [(tThen (P ABC) (tStar (P QQ)))]),  -- 16: ASSERT_PARSER_VALUES_EQ(con3, constant<true>(abc>> * qq))
    .parsersEq (P Con4) (tCall (M (.constant cNull)) [(tThen (tPlus (P ABC)) (tMaybe (tOr (P ABC) (P QQ))))])  -- 17: ASSERT_PARSER_VALUES_EQ(con4, constant<nullptr>(+ abc>> ~(abc | qq)))
    ], Assertion.Holds a :=
  Assertion.holds_of_check (by decide +kernel)

/-- constant modifier / infix (tests/char-tests/modifiers/constant.cpp:22) -/
theorem charModifiersConstant_2 : ∀ a ∈ [
    .parsersEq (P Con1) (tMod (tPlus (P ABC)) (M (.constant (cInt 1)))),  -- 22: ASSERT_PARSER_VALUES_EQ(con1, + abc % constant<1>)
    .parsersEq (P Con2) (tMod (tMaybe (tOr (P ABC) (P QQ))) (M (.constant (cChar 116)))),  -- 23: ASSERT_PARSER_VALUES_EQ(con2, ~(abc | qq) % constant<'t'>)
    .parsersEq (P Con3) (tMod (tThen (P ABC) (tStar (P QQ))) (M (.constant (cBool true)))),  -- 24: ASSERT_PARSER_VALUES_EQ(con3,(abc>> * qq) % constant<true>)
    .parsersEq (P Con4) (tMod (tThen (tPlus (P ABC)) (tMaybe (tOr (P ABC) (P QQ)))) (M (.constant cNull)))  -- 25: ASSERT_PARSER_VALUES_EQ(con4,(+ abc>> ~(abc | qq)) % constant<nullptr>)
    ], Assertion.Holds a :=
  Assertion.holds_of_check (by decide +kernel)

/-- constant modifier / modify anything (tests/char-tests/modifiers/constant.cpp:42) -/
theorem charModifiersConstant_3_1 : ∀ a ∈ [
    .parsersEq (tCall (M (.constant (cInt 0))) [(P Ign1)]) (P (.map Ign1 (.const (cInt 0)))),  -- 42: ASSERT_MODIFIER_CALLABLE_R(constant<0>,(P{}),(constant_parser<P, integral_constant<0>>{}))
    .parsersEq (tMod (P Ign1) (M (.constant (cInt 0)))) (P (.map Ign1 (.const (cInt 0)))),  -- 42: ASSERT_MODIFIER_MODULO_OPERABLE_R(P{}, constant<0>,(constant_parser<P, integral_constant<0>>{}))
    .parsersEq (tCall (M (.constant (cInt 0))) [(P Ign2)]) (P (.map Ign2 (.const (cInt 0)))),  -- 42: ASSERT_MODIFIER_CALLABLE_R(constant<0>,(P{}),(constant_parser<P, integral_constant<0>>{}))
    .parsersEq (tMod (P Ign2) (M (.constant (cInt 0)))) (P (.map Ign2 (.const (cInt 0)))),  -- 42: ASSERT_MODIFIER_MODULO_OPERABLE_R(P{}, constant<0>,(constant_parser<P, integral_constant<0>>{}))
    .parsersEq (tCall (M (.constant (cInt 0))) [(P Ign3)]) (P (.map Ign3 (.const (cInt 0)))),  -- 42: ASSERT_MODIFIER_CALLABLE_R(constant<0>,(P{}),(constant_parser<P, integral_constant<0>>{}))
    .parsersEq (tMod (P Ign3) (M (.constant (cInt 0)))) (P (.map Ign3 (.const (cInt 0)))),  -- 42: ASSERT_MODIFIER_MODULO_OPERABLE_R(P{}, constant<0>,(constant_parser<P, integral_constant<0>>{}))
    .parsersEq (tCall (M (.constant (cInt 0))) [(P Ign4)]) (P (.map Ign4 (.const (cInt 0)))),  -- 42: ASSERT_MODIFIER_CALLABLE_R(constant<0>,(P{}),(constant_parser<P, integral_constant<0>>{}))
    .parsersEq (tMod (P Ign4) (M (.constant (cInt 0)))) (P (.map Ign4 (.const (cInt 0)))),  -- 42: ASSERT_MODIFIER_MODULO_OPERABLE_R(P{}, constant<0>,(constant_parser<P, integral_constant<0>>{}))
    .parsersEq (tCall (M (.constant (cInt 0))) [(P Ign5)]) (P (.map Ign5 (.const (cInt 0)))),  -- 42: ASSERT_MODIFIER_CALLABLE_R(constant<0>,(P{}),(constant_parser<P, integral_constant<0>>{}))
    .parsersEq (tMod (P Ign5) (M (.constant (cInt 0)))) (P (.map Ign5 (.const (cInt 0)))),  -- 42: ASSERT_MODIFIER_MODULO_OPERABLE_R(P{}, constant<0>,(constant_parser<P, integral_constant<0>>{}))
    .parsersEq (tCall (M (.constant (cInt 0))) [(P Com1)]) (P (.map Com1 (.const (cInt 0)))),  -- 42: ASSERT_MODIFIER_CALLABLE_R(constant<0>,(P{}),(constant_parser<P, integral_constant<0>>{}))
    .parsersEq (tMod (P Com1) (M (.constant (cInt 0)))) (P (.map Com1 (.const (cInt 0)))),  -- 42: ASSERT_MODIFIER_MODULO_OPERABLE_R(P{}, constant<0>,(constant_parser<P, integral_constant<0>>{}))
    .parsersEq (tCall (M (.constant (cInt 0))) [(P Com2)]) (P (.map Com2 (.const (cInt 0)))),  -- 42: ASSERT_MODIFIER_CALLABLE_R(constant<0>,(P{}),(constant_parser<P, integral_constant<0>>{}))
    .parsersEq (tMod (P Com2) (M (.constant (cInt 0)))) (P (.map Com2 (.const (cInt 0)))),  -- 42: ASSERT_MODIFIER_MODULO_OPERABLE_R(P{}, constant<0>,(constant_parser<P, integral_constant<0>>{}))
    .parsersEq (tCall (M (.constant (cInt 0))) [(P Com3)]) (P (.map Com3 (.const (cInt 0)))),  -- 42: ASSERT_MODIFIER_CALLABLE_R(constant<0>,(P{}),(constant_parser<P, integral_constant<0>>{}))
    .parsersEq (tMod (P Com3) (M (.constant (cInt 0)))) (P (.map Com3 (.const (cInt 0)))),  -- 42: ASSERT_MODIFIER_MODULO_OPERABLE_R(P{}, constant<0>,(constant_parser<P, integral_constant<0>>{}))
    .parsersEq (tCall (M (.constant (cInt 0))) [(P Com4)]) (P (.map Com4 (.const (cInt 0)))),  -- 42: ASSERT_MODIFIER_CALLABLE_R(constant<0>,(P{}),(constant_parser<P, integral_constant<0>>{}))
    .parsersEq (tMod (P Com4) (M (.constant (cInt 0)))) (P (.map Com4 (.const (cInt 0)))),  -- 42: ASSERT_MODIFIER_MODULO_OPERABLE_R(P{}, constant<0>,(constant_parser<P, integral_constant<0>>{}))
    .parsersEq (tCall (M (.constant (cInt 0))) [(P Com5)]) (P (.map Com5 (.const (cInt 0)))),  -- 42: ASSERT_MODIFIER_CALLABLE_R(constant<0>,(P{}),(constant_parser<P, integral_constant<0>>{}))
    .parsersEq (tMod (P Com5) (M (.constant (cInt 0)))) (P (.map Com5 (.const (cInt 0)))),  -- 42: ASSERT_MODIFIER_MODULO_OPERABLE_R(P{}, constant<0>,(constant_parser<P, integral_constant<0>>{}))
    .parsersEq (tCall (M (.constant (cInt 0))) [(P Com6)]) (P (.map Com6 (.const (cInt 0)))),  -- 42: ASSERT_MODIFIER_CALLABLE_R(constant<0>,(P{}),(constant_parser<P, integral_constant<0>>{}))
    .parsersEq (tMod (P Com6) (M (.constant (cInt 0)))) (P (.map Com6 (.const (cInt 0)))),  -- 42: ASSERT_MODIFIER_MODULO_OPERABLE_R(P{}, constant<0>,(constant_parser<P, integral_constant<0>>{}))
    .parsersEq (tCall (M (.constant (cInt 0))) [(P Com7)]) (P (.map Com7 (.const (cInt 0)))),  -- 42: ASSERT_MODIFIER_CALLABLE_R(constant<0>,(P{}),(constant_parser<P, integral_constant<0>>{}))
    .parsersEq (tMod (P Com7) (M (.constant (cInt 0)))) (P (.map Com7 (.const (cInt 0)))),  -- 42: ASSERT_MODIFIER_MODULO_OPERABLE_R(P{}, constant<0>,(constant_parser<P, integral_constant<0>>{}))
    .parsersEq (tCall (M (.constant (cInt 0))) [(P Nam1)]) (P (.map Nam1 (.const (cInt 0)))),  -- 42: ASSERT_MODIFIER_CALLABLE_R(constant<0>,(P{}),(constant_parser<P, integral_constant<0>>{}))
    .parsersEq (tMod (P Nam1) (M (.constant (cInt 0)))) (P (.map Nam1 (.const (cInt 0)))),  -- 42: ASSERT_MODIFIER_MODULO_OPERABLE_R(P{}, constant<0>,(constant_parser<P, integral_constant<0>>{}))
    .parsersEq (tCall (M (.constant (cInt 0))) [(P Nam2)]) (P (.map Nam2 (.const (cInt 0)))),  -- 42: ASSERT_MODIFIER_CALLABLE_R(constant<0>,(P{}),(constant_parser<P, integral_constant<0>>{}))
    .parsersEq (tMod (P Nam2) (M (.constant (cInt 0)))) (P (.map Nam2 (.const (cInt 0)))),  -- 42: ASSERT_MODIFIER_MODULO_OPERABLE_R(P{}, constant<0>,(constant_parser<P, integral_constant<0>>{}))
    .parsersEq (tCall (M (.constant (cInt 0))) [(P Nam3)]) (P (.map Nam3 (.const (cInt 0)))),  -- 42: ASSERT_MODIFIER_CALLABLE_R(constant<0>,(P{}),(constant_parser<P, integral_constant<0>>{}))
    .parsersEq (tMod (P Nam3) (M (.constant (cInt 0)))) (P (.map Nam3 (.const (cInt 0)))),  -- 42: ASSERT_MODIFIER_MODULO_OPERABLE_R(P{}, constant<0>,(constant_parser<P, integral_constant<0>>{}))
    .parsersEq (tCall (M (.constant (cInt 0))) [(P Nam4)]) (P (.map Nam4 (.const (cInt 0)))),  -- 42: ASSERT_MODIFIER_CALLABLE_R(constant<0>,(P{}),(constant_parser<P, integral_constant<0>>{}))
    .parsersEq (tMod (P Nam4) (M (.constant (cInt 0)))) (P (.map Nam4 (.const (cInt 0)))),  -- 42: ASSERT_MODIFIER_MODULO_OPERABLE_R(P{}, constant<0>,(constant_parser<P, integral_constant<0>>{}))
    .parsersEq (tCall (M (.constant (cInt 0))) [(P Any1)]) (P (.map Any1 (.const (cInt 0)))),  -- 42: ASSERT_MODIFIER_CALLABLE_R(constant<0>,(P{}),(constant_parser<P, integral_constant<0>>{}))
    .parsersEq (tMod (P Any1) (M (.constant (cInt 0)))) (P (.map Any1 (.const (cInt 0)))),  -- 42: ASSERT_MODIFIER_MODULO_OPERABLE_R(P{}, constant<0>,(constant_parser<P, integral_constant<0>>{}))
    .parsersEq (tCall (M (.constant (cInt 0))) [(P Any2)]) (P (.map Any2 (.const (cInt 0)))),  -- 42: ASSERT_MODIFIER_CALLABLE_R(constant<0>,(P{}),(constant_parser<P, integral_constant<0>>{}))
    .parsersEq (tMod (P Any2) (M (.constant (cInt 0)))) (P (.map Any2 (.const (cInt 0)))),  -- 42: ASSERT_MODIFIER_MODULO_OPERABLE_R(P{}, constant<0>,(constant_parser<P, integral_constant<0>>{}))
    .parsersEq (tCall (M (.constant (cInt 0))) [(P Any3)]) (P (.map Any3 (.const (cInt 0)))),  -- 42: ASSERT_MODIFIER_CALLABLE_R(constant<0>,(P{}),(constant_parser<P, integral_constant<0>>{}))
    .parsersEq (tMod (P Any3) (M (.constant (cInt 0)))) (P (.map Any3 (.const (cInt 0)))),  -- 42: ASSERT_MODIFIER_MODULO_OPERABLE_R(P{}, constant<0>,(constant_parser<P, integral_constant<0>>{}))
    .parsersEq (tCall (M (.constant (cInt 0))) [(P Any4)]) (P (.map Any4 (.const (cInt 0)))),  -- 42: ASSERT_MODIFIER_CALLABLE_R(constant<0>,(P{}),(constant_parser<P, integral_constant<0>>{}))
    .parsersEq (tMod (P Any4) (M (.constant (cInt 0)))) (P (.map Any4 (.const (cInt 0)))),  -- 42: ASSERT_MODIFIER_MODULO_OPERABLE_R(P{}, constant<0>,(constant_parser<P, integral_constant<0>>{}))
    .parsersEq (tCall (M (.constant (cInt 0))) [(P Non1)]) (P (.map Non1 (.const (cInt 0)))),  -- 42: ASSERT_MODIFIER_CALLABLE_R(constant<0>,(P{}),(constant_parser<P, integral_constant<0>>{}))
    .parsersEq (tMod (P Non1) (M (.constant (cInt 0)))) (P (.map Non1 (.const (cInt 0)))),  -- 42: ASSERT_MODIFIER_MODULO_OPERABLE_R(P{}, constant<0>,(constant_parser<P, integral_constant<0>>{}))
    .parsersEq (tCall (M (.constant (cInt 0))) [(P Non2)]) (P (.map Non2 (.const (cInt 0)))),  -- 42: ASSERT_MODIFIER_CALLABLE_R(constant<0>,(P{}),(constant_parser<P, integral_constant<0>>{}))
    .parsersEq (tMod (P Non2) (M (.constant (cInt 0)))) (P (.map Non2 (.const (cInt 0)))),  -- 42: ASSERT_MODIFIER_MODULO_OPERABLE_R(P{}, constant<0>,(constant_parser<P, integral_constant<0>>{}))
    .parsersEq (tCall (M (.constant (cInt 0))) [(P Non3)]) (P (.map Non3 (.const (cInt 0)))),  -- 42: ASSERT_MODIFIER_CALLABLE_R(constant<0>,(P{}),(constant_parser<P, integral_constant<0>>{}))
    .parsersEq (tMod (P Non3) (M (.constant (cInt 0)))) (P (.map Non3 (.const (cInt 0)))),  -- 42: ASSERT_MODIFIER_MODULO_OPERABLE_R(P{}, constant<0>,(constant_parser<P, integral_constant<0>>{}))
    .parsersEq (tCall (M (.constant (cInt 0))) [(P Non4)]) (P (.map Non4 (.const (cInt 0)))),  -- 42: ASSERT_MODIFIER_CALLABLE_R(constant<0>,(P{}),(constant_parser<P, integral_constant<0>>{}))
    .parsersEq (tMod (P Non4) (M (.constant (cInt 0)))) (P (.map Non4 (.const (cInt 0)))),  -- 42: ASSERT_MODIFIER_MODULO_OPERABLE_R(P{}, constant<0>,(constant_parser<P, integral_constant<0>>{}))
    .parsersEq (tCall (M (.constant (cInt 0))) [(P Non5)]) (P (.map Non5 (.const (cInt 0)))),  -- 42: ASSERT_MODIFIER_CALLABLE_R(constant<0>,(P{}),(constant_parser<P, integral_constant<0>>{}))
    .parsersEq (tMod (P Non5) (M (.constant (cInt 0)))) (P (.map Non5 (.const (cInt 0)))),  -- 42: ASSERT_MODIFIER_MODULO_OPERABLE_R(P{}, constant<0>,(constant_parser<P, integral_constant<0>>{}))
    .parsersEq (tCall (M (.constant (cInt 0))) [(P All1)]) (P (.map All1 (.const (cInt 0)))),  -- 42: ASSERT_MODIFIER_CALLABLE_R(constant<0>,(P{}),(constant_parser<P, integral_constant<0>>{}))
    .parsersEq (tMod (P All1) (M (.constant (cInt 0)))) (P (.map All1 (.const (cInt 0)))),  -- 42: ASSERT_MODIFIER_MODULO_OPERABLE_R(P{}, constant<0>,(constant_parser<P, integral_constant<0>>{}))
    .parsersEq (tCall (M (.constant (cInt 0))) [(P All2)]) (P (.map All2 (.const (cInt 0)))),  -- 42: ASSERT_MODIFIER_CALLABLE_R(constant<0>,(P{}),(constant_parser<P, integral_constant<0>>{}))
    .parsersEq (tMod (P All2) (M (.constant (cInt 0)))) (P (.map All2 (.const (cInt 0)))),  -- 42: ASSERT_MODIFIER_MODULO_OPERABLE_R(P{}, constant<0>,(constant_parser<P, integral_constant<0>>{}))
    .parsersEq (tCall (M (.constant (cInt 0))) [(P All3)]) (P (.map All3 (.const (cInt 0)))),  -- 42: ASSERT_MODIFIER_CALLABLE_R(constant<0>,(P{}),(constant_parser<P, integral_constant<0>>{}))
    .parsersEq (tMod (P All3) (M (.constant (cInt 0)))) (P (.map All3 (.const (cInt 0)))),  -- 42: ASSERT_MODIFIER_MODULO_OPERABLE_R(P{}, constant<0>,(constant_parser<P, integral_constant<0>>{}))
    .parsersEq (tCall (M (.constant (cInt 0))) [(P All4)]) (P (.map All4 (.const (cInt 0)))),  -- 42: ASSERT_MODIFIER_CALLABLE_R(constant<0>,(P{}),(constant_parser<P, integral_constant<0>>{}))
    .parsersEq (tMod (P All4) (M (.constant (cInt 0)))) (P (.map All4 (.const (cInt 0)))),  -- 42: ASSERT_MODIFIER_MODULO_OPERABLE_R(P{}, constant<0>,(constant_parser<P, integral_constant<0>>{}))
    .parsersEq (tCall (M (.constant (cInt 0))) [(P Eps1)]) (P (.map Eps1 (.const (cInt 0)))),  -- 42: ASSERT_MODIFIER_CALLABLE_R(constant<0>,(P{}),(constant_parser<P, integral_constant<0>>{}))
    .parsersEq (tMod (P Eps1) (M (.constant (cInt 0)))) (P (.map Eps1 (.const (cInt 0))))  -- 42: ASSERT_MODIFIER_MODULO_OPERABLE_R(P{}, constant<0>,(constant_parser<P, integral_constant<0>>{}))
    ], Assertion.Holds a :=
  Assertion.holds_of_check (by decide +kernel)

/-- constant modifier / modify anything (tests/char-tests/modifiers/constant.cpp:42) -/
theorem charModifiersConstant_3_2 : ∀ a ∈ [
    .parsersEq (tCall (M (.constant (cInt 0))) [(P Ant1)]) (P (.map Ant1 (.const (cInt 0)))),  -- 42: ASSERT_MODIFIER_CALLABLE_R(constant<0>,(P{}),(constant_parser<P, integral_constant<0>>{}))
    .parsersEq (tMod (P Ant1) (M (.constant (cInt 0)))) (P (.map Ant1 (.const (cInt 0)))),  -- 42: ASSERT_MODIFIER_MODULO_OPERABLE_R(P{}, constant<0>,(constant_parser<P, integral_constant<0>>{}))
    .parsersEq (tCall (M (.constant (cInt 0))) [(P QQ)]) (P (.map QQ (.const (cInt 0)))),  -- 42: ASSERT_MODIFIER_CALLABLE_R(constant<0>,(P{}),(constant_parser<P, integral_constant<0>>{}))
    .parsersEq (tMod (P QQ) (M (.constant (cInt 0)))) (P (.map QQ (.const (cInt 0)))),  -- 42: ASSERT_MODIFIER_MODULO_OPERABLE_R(P{}, constant<0>,(constant_parser<P, integral_constant<0>>{}))
    .parsersEq (tCall (M (.constant (cInt 0))) [(P ABC)]) (P (.map ABC (.const (cInt 0)))),  -- 42: ASSERT_MODIFIER_CALLABLE_R(constant<0>,(P{}),(constant_parser<P, integral_constant<0>>{}))
    .parsersEq (tMod (P ABC) (M (.constant (cInt 0)))) (P (.map ABC (.const (cInt 0)))),  -- 42: ASSERT_MODIFIER_MODULO_OPERABLE_R(P{}, constant<0>,(constant_parser<P, integral_constant<0>>{}))
    .parsersEq (tCall (M (.constant (cInt 0))) [(P Comma)]) (P (.map Comma (.const (cInt 0)))),  -- 42: ASSERT_MODIFIER_CALLABLE_R(constant<0>,(P{}),(constant_parser<P, integral_constant<0>>{}))
    .parsersEq (tMod (P Comma) (M (.constant (cInt 0)))) (P (.map Comma (.const (cInt 0)))),  -- 42: ASSERT_MODIFIER_MODULO_OPERABLE_R(P{}, constant<0>,(constant_parser<P, integral_constant<0>>{}))
    .parsersEq (tCall (M (.constant (cInt 0))) [(P SpaceDot)]) (P (.map SpaceDot (.const (cInt 0)))),  -- 42: ASSERT_MODIFIER_CALLABLE_R(constant<0>,(P{}),(constant_parser<P, integral_constant<0>>{}))
    .parsersEq (tMod (P SpaceDot) (M (.constant (cInt 0)))) (P (.map SpaceDot (.const (cInt 0)))),  -- 42: ASSERT_MODIFIER_MODULO_OPERABLE_R(P{}, constant<0>,(constant_parser<P, integral_constant<0>>{}))
    .parsersEq (tCall (M (.constant (cInt 0))) [(P Cho1)]) (P (.map Cho1 (.const (cInt 0)))),  -- 42: ASSERT_MODIFIER_CALLABLE_R(constant<0>,(P{}),(constant_parser<P, integral_constant<0>>{}))
    .parsersEq (tMod (P Cho1) (M (.constant (cInt 0)))) (P (.map Cho1 (.const (cInt 0)))),  -- 42: ASSERT_MODIFIER_MODULO_OPERABLE_R(P{}, constant<0>,(constant_parser<P, integral_constant<0>>{}))
    .parsersEq (tCall (M (.constant (cInt 0))) [(P Cho2)]) (P (.map Cho2 (.const (cInt 0)))),  -- 42: ASSERT_MODIFIER_CALLABLE_R(constant<0>,(P{}),(constant_parser<P, integral_constant<0>>{}))
    .parsersEq (tMod (P Cho2) (M (.constant (cInt 0)))) (P (.map Cho2 (.const (cInt 0)))),  -- 42: ASSERT_MODIFIER_MODULO_OPERABLE_R(P{}, constant<0>,(constant_parser<P, integral_constant<0>>{}))
    .parsersEq (tCall (M (.constant (cInt 0))) [(P Cho3)]) (P (.map Cho3 (.const (cInt 0)))),  -- 42: ASSERT_MODIFIER_CALLABLE_R(constant<0>,(P{}),(constant_parser<P, integral_constant<0>>{}))
    .parsersEq (tMod (P Cho3) (M (.constant (cInt 0)))) (P (.map Cho3 (.const (cInt 0)))),  -- 42: ASSERT_MODIFIER_MODULO_OPERABLE_R(P{}, constant<0>,(constant_parser<P, integral_constant<0>>{}))
    .parsersEq (tCall (M (.constant (cInt 0))) [(P Cho4)]) (P (.map Cho4 (.const (cInt 0)))),  -- 42: ASSERT_MODIFIER_CALLABLE_R(constant<0>,(P{}),(constant_parser<P, integral_constant<0>>{}))
    .parsersEq (tMod (P Cho4) (M (.constant (cInt 0)))) (P (.map Cho4 (.const (cInt 0)))),  -- 42: ASSERT_MODIFIER_MODULO_OPERABLE_R(P{}, constant<0>,(constant_parser<P, integral_constant<0>>{}))
    .parsersEq (tCall (M (.constant (cInt 0))) [(P Cho5)]) (P (.map Cho5 (.const (cInt 0)))),  -- 42: ASSERT_MODIFIER_CALLABLE_R(constant<0>,(P{}),(constant_parser<P, integral_constant<0>>{}))
    .parsersEq (tMod (P Cho5) (M (.constant (cInt 0)))) (P (.map Cho5 (.const (cInt 0)))),  -- 42: ASSERT_MODIFIER_MODULO_OPERABLE_R(P{}, constant<0>,(constant_parser<P, integral_constant<0>>{}))
    .parsersEq (tCall (M (.constant (cInt 0))) [(P Seq1)]) (P (.map Seq1 (.const (cInt 0)))),  -- 42: ASSERT_MODIFIER_CALLABLE_R(constant<0>,(P{}),(constant_parser<P, integral_constant<0>>{}))
    .parsersEq (tMod (P Seq1) (M (.constant (cInt 0)))) (P (.map Seq1 (.const (cInt 0)))),  -- 42: ASSERT_MODIFIER_MODULO_OPERABLE_R(P{}, constant<0>,(constant_parser<P, integral_constant<0>>{}))
    .parsersEq (tCall (M (.constant (cInt 0))) [(P Seq2)]) (P (.map Seq2 (.const (cInt 0)))),  -- 42: ASSERT_MODIFIER_CALLABLE_R(constant<0>,(P{}),(constant_parser<P, integral_constant<0>>{}))
    .parsersEq (tMod (P Seq2) (M (.constant (cInt 0)))) (P (.map Seq2 (.const (cInt 0)))),  -- 42: ASSERT_MODIFIER_MODULO_OPERABLE_R(P{}, constant<0>,(constant_parser<P, integral_constant<0>>{}))
    .parsersEq (tCall (M (.constant (cInt 0))) [(P Seq3)]) (P (.map Seq3 (.const (cInt 0)))),  -- 42: ASSERT_MODIFIER_CALLABLE_R(constant<0>,(P{}),(constant_parser<P, integral_constant<0>>{}))
    .parsersEq (tMod (P Seq3) (M (.constant (cInt 0)))) (P (.map Seq3 (.const (cInt 0)))),  -- 42: ASSERT_MODIFIER_MODULO_OPERABLE_R(P{}, constant<0>,(constant_parser<P, integral_constant<0>>{}))
    .parsersEq (tCall (M (.constant (cInt 0))) [(P Seq4)]) (P (.map Seq4 (.const (cInt 0)))),  -- 42: ASSERT_MODIFIER_CALLABLE_R(constant<0>,(P{}),(constant_parser<P, integral_constant<0>>{}))
    .parsersEq (tMod (P Seq4) (M (.constant (cInt 0)))) (P (.map Seq4 (.const (cInt 0)))),  -- 42: ASSERT_MODIFIER_MODULO_OPERABLE_R(P{}, constant<0>,(constant_parser<P, integral_constant<0>>{}))
    .parsersEq (tCall (M (.constant (cInt 0))) [(P Seq5)]) (P (.map Seq5 (.const (cInt 0)))),  -- 42: ASSERT_MODIFIER_CALLABLE_R(constant<0>,(P{}),(constant_parser<P, integral_constant<0>>{}))
    .parsersEq (tMod (P Seq5) (M (.constant (cInt 0)))) (P (.map Seq5 (.const (cInt 0)))),  -- 42: ASSERT_MODIFIER_MODULO_OPERABLE_R(P{}, constant<0>,(constant_parser<P, integral_constant<0>>{}))
    .parsersEq (tCall (M (.constant (cInt 0))) [(P Joi1)]) (P (.map Joi1 (.const (cInt 0)))),  -- 42: ASSERT_MODIFIER_CALLABLE_R(constant<0>,(P{}),(constant_parser<P, integral_constant<0>>{}))
    .parsersEq (tMod (P Joi1) (M (.constant (cInt 0)))) (P (.map Joi1 (.const (cInt 0)))),  -- 42: ASSERT_MODIFIER_MODULO_OPERABLE_R(P{}, constant<0>,(constant_parser<P, integral_constant<0>>{}))
    .parsersEq (tCall (M (.constant (cInt 0))) [(P Joi2)]) (P (.map Joi2 (.const (cInt 0)))),  -- 42: ASSERT_MODIFIER_CALLABLE_R(constant<0>,(P{}),(constant_parser<P, integral_constant<0>>{}))
    .parsersEq (tMod (P Joi2) (M (.constant (cInt 0)))) (P (.map Joi2 (.const (cInt 0)))),  -- 42: ASSERT_MODIFIER_MODULO_OPERABLE_R(P{}, constant<0>,(constant_parser<P, integral_constant<0>>{}))
    .parsersEq (tCall (M (.constant (cInt 0))) [(P Joi3)]) (P (.map Joi3 (.const (cInt 0)))),  -- 42: ASSERT_MODIFIER_CALLABLE_R(constant<0>,(P{}),(constant_parser<P, integral_constant<0>>{}))
    .parsersEq (tMod (P Joi3) (M (.constant (cInt 0)))) (P (.map Joi3 (.const (cInt 0)))),  -- 42: ASSERT_MODIFIER_MODULO_OPERABLE_R(P{}, constant<0>,(constant_parser<P, integral_constant<0>>{}))
    .parsersEq (tCall (M (.constant (cInt 0))) [(P Joi4)]) (P (.map Joi4 (.const (cInt 0)))),  -- 42: ASSERT_MODIFIER_CALLABLE_R(constant<0>,(P{}),(constant_parser<P, integral_constant<0>>{}))
    .parsersEq (tMod (P Joi4) (M (.constant (cInt 0)))) (P (.map Joi4 (.const (cInt 0)))),  -- 42: ASSERT_MODIFIER_MODULO_OPERABLE_R(P{}, constant<0>,(constant_parser<P, integral_constant<0>>{}))
    .parsersEq (tCall (M (.constant (cInt 0))) [(P Joi5)]) (P (.map Joi5 (.const (cInt 0)))),  -- 42: ASSERT_MODIFIER_CALLABLE_R(constant<0>,(P{}),(constant_parser<P, integral_constant<0>>{}))
    .parsersEq (tMod (P Joi5) (M (.constant (cInt 0)))) (P (.map Joi5 (.const (cInt 0)))),  -- 42: ASSERT_MODIFIER_MODULO_OPERABLE_R(P{}, constant<0>,(constant_parser<P, integral_constant<0>>{}))
    .parsersEq (tCall (M (.constant (cInt 0))) [(P Map1)]) (P (.map Map1 (.const (cInt 0)))),  -- 42: ASSERT_MODIFIER_CALLABLE_R(constant<0>,(P{}),(constant_parser<P, integral_constant<0>>{}))
    .parsersEq (tMod (P Map1) (M (.constant (cInt 0)))) (P (.map Map1 (.const (cInt 0)))),  -- 42: ASSERT_MODIFIER_MODULO_OPERABLE_R(P{}, constant<0>,(constant_parser<P, integral_constant<0>>{}))
    .parsersEq (tCall (M (.constant (cInt 0))) [(P Map2)]) (P (.map Map2 (.const (cInt 0)))),  -- 42: ASSERT_MODIFIER_CALLABLE_R(constant<0>,(P{}),(constant_parser<P, integral_constant<0>>{}))
    .parsersEq (tMod (P Map2) (M (.constant (cInt 0)))) (P (.map Map2 (.const (cInt 0)))),  -- 42: ASSERT_MODIFIER_MODULO_OPERABLE_R(P{}, constant<0>,(constant_parser<P, integral_constant<0>>{}))
    .parsersEq (tCall (M (.constant (cInt 0))) [(P Map3)]) (P (.map Map3 (.const (cInt 0)))),  -- 42: ASSERT_MODIFIER_CALLABLE_R(constant<0>,(P{}),(constant_parser<P, integral_constant<0>>{}))
    .parsersEq (tMod (P Map3) (M (.constant (cInt 0)))) (P (.map Map3 (.const (cInt 0)))),  -- 42: ASSERT_MODIFIER_MODULO_OPERABLE_R(P{}, constant<0>,(constant_parser<P, integral_constant<0>>{}))
    .parsersEq (tCall (M (.constant (cInt 0))) [(P Map4)]) (P (.map Map4 (.const (cInt 0)))),  -- 42: ASSERT_MODIFIER_CALLABLE_R(constant<0>,(P{}),(constant_parser<P, integral_constant<0>>{}))
    .parsersEq (tMod (P Map4) (M (.constant (cInt 0)))) (P (.map Map4 (.const (cInt 0)))),  -- 42: ASSERT_MODIFIER_MODULO_OPERABLE_R(P{}, constant<0>,(constant_parser<P, integral_constant<0>>{}))
    .parsersEq (tCall (M (.constant (cInt 0))) [(P Fil1)]) (P (.map Fil1 (.const (cInt 0)))),  -- 42: ASSERT_MODIFIER_CALLABLE_R(constant<0>,(P{}),(constant_parser<P, integral_constant<0>>{}))
    .parsersEq (tMod (P Fil1) (M (.constant (cInt 0)))) (P (.map Fil1 (.const (cInt 0)))),  -- 42: ASSERT_MODIFIER_MODULO_OPERABLE_R(P{}, constant<0>,(constant_parser<P, integral_constant<0>>{}))
    .parsersEq (tCall (M (.constant (cInt 0))) [(P Fil2)]) (P (.map Fil2 (.const (cInt 0)))),  -- 42: ASSERT_MODIFIER_CALLABLE_R(constant<0>,(P{}),(constant_parser<P, integral_constant<0>>{}))
    .parsersEq (tMod (P Fil2) (M (.constant (cInt 0)))) (P (.map Fil2 (.const (cInt 0)))),  -- 42: ASSERT_MODIFIER_MODULO_OPERABLE_R(P{}, constant<0>,(constant_parser<P, integral_constant<0>>{}))
    .parsersEq (tCall (M (.constant (cInt 0))) [(P Fil3)]) (P (.map Fil3 (.const (cInt 0)))),  -- 42: ASSERT_MODIFIER_CALLABLE_R(constant<0>,(P{}),(constant_parser<P, integral_constant<0>>{}))
    .parsersEq (tMod (P Fil3) (M (.constant (cInt 0)))) (P (.map Fil3 (.const (cInt 0)))),  -- 42: ASSERT_MODIFIER_MODULO_OPERABLE_R(P{}, constant<0>,(constant_parser<P, integral_constant<0>>{}))
    .parsersEq (tCall (M (.constant (cInt 0))) [(P Apm1)]) (P (.map Apm1 (.const (cInt 0)))),  -- 42: ASSERT_MODIFIER_CALLABLE_R(constant<0>,(P{}),(constant_parser<P, integral_constant<0>>{}))
    .parsersEq (tMod (P Apm1) (M (.constant (cInt 0)))) (P (.map Apm1 (.const (cInt 0)))),  -- 42: ASSERT_MODIFIER_MODULO_OPERABLE_R(P{}, constant<0>,(constant_parser<P, integral_constant<0>>{}))
    .parsersEq (tCall (M (.constant (cInt 0))) [(P Apm2)]) (P (.map Apm2 (.const (cInt 0)))),  -- 42: ASSERT_MODIFIER_CALLABLE_R(constant<0>,(P{}),(constant_parser<P, integral_constant<0>>{}))
    .parsersEq (tMod (P Apm2) (M (.constant (cInt 0)))) (P (.map Apm2 (.const (cInt 0)))),  -- 42: ASSERT_MODIFIER_MODULO_OPERABLE_R(P{}, constant<0>,(constant_parser<P, integral_constant<0>>{}))
    .parsersEq (tCall (M (.constant (cInt 0))) [(P Apf1)]) (P (.map Apf1 (.const (cInt 0)))),  -- 42: ASSERT_MODIFIER_CALLABLE_R(constant<0>,(P{}),(constant_parser<P, integral_constant<0>>{}))
    .parsersEq (tMod (P Apf1) (M (.constant (cInt 0)))) (P (.map Apf1 (.const (cInt 0))))  -- 42: ASSERT_MODIFIER_MODULO_OPERABLE_R(P{}, constant<0>,(constant_parser<P, integral_constant<0>>{}))
    ], Assertion.Holds a :=
  Assertion.holds_of_check (by decide +kernel)

/-- constant modifier / modify anything (tests/char-tests/modifiers/constant.cpp:42) -/
theorem charModifiersConstant_3_3 : ∀ a ∈ [
    .parsersEq (tCall (M (.constant (cInt 0))) [(P Int1)]) (P (.map Int1 (.const (cInt 0)))),  -- 42: ASSERT_MODIFIER_CALLABLE_R(constant<0>,(P{}),(constant_parser<P, integral_constant<0>>{}))
    .parsersEq (tMod (P Int1) (M (.constant (cInt 0)))) (P (.map Int1 (.const (cInt 0)))),  -- 42: ASSERT_MODIFIER_MODULO_OPERABLE_R(P{}, constant<0>,(constant_parser<P, integral_constant<0>>{}))
    .parsersEq (tCall (M (.constant (cInt 0))) [(P Int2)]) (P (.map Int2 (.const (cInt 0)))),  -- 42: ASSERT_MODIFIER_CALLABLE_R(constant<0>,(P{}),(constant_parser<P, integral_constant<0>>{}))
    .parsersEq (tMod (P Int2) (M (.constant (cInt 0)))) (P (.map Int2 (.const (cInt 0)))),  -- 42: ASSERT_MODIFIER_MODULO_OPERABLE_R(P{}, constant<0>,(constant_parser<P, integral_constant<0>>{}))
    .parsersEq (tCall (M (.constant (cInt 0))) [(P Int3)]) (P (.map Int3 (.const (cInt 0)))),  -- 42: ASSERT_MODIFIER_CALLABLE_R(constant<0>,(P{}),(constant_parser<P, integral_constant<0>>{}))
    .parsersEq (tMod (P Int3) (M (.constant (cInt 0)))) (P (.map Int3 (.const (cInt 0)))),  -- 42: ASSERT_MODIFIER_MODULO_OPERABLE_R(P{}, constant<0>,(constant_parser<P, integral_constant<0>>{}))
    .parsersEq (tCall (M (.constant (cInt 0))) [(P Api1)]) (P (.map Api1 (.const (cInt 0)))),  -- 42: ASSERT_MODIFIER_CALLABLE_R(constant<0>,(P{}),(constant_parser<P, integral_constant<0>>{}))
    .parsersEq (tMod (P Api1) (M (.constant (cInt 0)))) (P (.map Api1 (.const (cInt 0)))),  -- 42: ASSERT_MODIFIER_MODULO_OPERABLE_R(P{}, constant<0>,(constant_parser<P, integral_constant<0>>{}))
    .parsersEq (tCall (M (.constant (cInt 0))) [(P Api2)]) (P (.map Api2 (.const (cInt 0)))),  -- 42: ASSERT_MODIFIER_CALLABLE_R(constant<0>,(P{}),(constant_parser<P, integral_constant<0>>{}))
    .parsersEq (tMod (P Api2) (M (.constant (cInt 0)))) (P (.map Api2 (.const (cInt 0)))),  -- 42: ASSERT_MODIFIER_MODULO_OPERABLE_R(P{}, constant<0>,(constant_parser<P, integral_constant<0>>{}))
    .parsersEq (tCall (M (.constant (cInt 0))) [(P Con1)]) (P (.map Con1 (.const (cInt 0)))),  -- 42: ASSERT_MODIFIER_CALLABLE_R(constant<0>,(P{}),(constant_parser<P, integral_constant<0>>{}))
    .parsersEq (tMod (P Con1) (M (.constant (cInt 0)))) (P (.map Con1 (.const (cInt 0)))),  -- 42: ASSERT_MODIFIER_MODULO_OPERABLE_R(P{}, constant<0>,(constant_parser<P, integral_constant<0>>{}))
    .parsersEq (tCall (M (.constant (cInt 0))) [(P Con2)]) (P (.map Con2 (.const (cInt 0)))),  -- 42: ASSERT_MODIFIER_CALLABLE_R(constant<0>,(P{}),(constant_parser<P, integral_constant<0>>{}))
    .parsersEq (tMod (P Con2) (M (.constant (cInt 0)))) (P (.map Con2 (.const (cInt 0)))),  -- 42: ASSERT_MODIFIER_MODULO_OPERABLE_R(P{}, constant<0>,(constant_parser<P, integral_constant<0>>{}))
    .parsersEq (tCall (M (.constant (cInt 0))) [(P Con3)]) (P (.map Con3 (.const (cInt 0)))),  -- 42: ASSERT_MODIFIER_CALLABLE_R(constant<0>,(P{}),(constant_parser<P, integral_constant<0>>{}))
    .parsersEq (tMod (P Con3) (M (.constant (cInt 0)))) (P (.map Con3 (.const (cInt 0)))),  -- 42: ASSERT_MODIFIER_MODULO_OPERABLE_R(P{}, constant<0>,(constant_parser<P, integral_constant<0>>{}))
    .parsersEq (tCall (M (.constant (cInt 0))) [(P Con4)]) (P (.map Con4 (.const (cInt 0)))),  -- 42: ASSERT_MODIFIER_CALLABLE_R(constant<0>,(P{}),(constant_parser<P, integral_constant<0>>{}))
    .parsersEq (tMod (P Con4) (M (.constant (cInt 0)))) (P (.map Con4 (.const (cInt 0)))),  -- 42: ASSERT_MODIFIER_MODULO_OPERABLE_R(P{}, constant<0>,(constant_parser<P, integral_constant<0>>{}))
    .parsersEq (tCall (M (.constant (cInt 0))) [(P Def1)]) (P (.map Def1 (.const (cInt 0)))),  -- 42: ASSERT_MODIFIER_CALLABLE_R(constant<0>,(P{}),(constant_parser<P, integral_constant<0>>{}))
    .parsersEq (tMod (P Def1) (M (.constant (cInt 0)))) (P (.map Def1 (.const (cInt 0)))),  -- 42: ASSERT_MODIFIER_MODULO_OPERABLE_R(P{}, constant<0>,(constant_parser<P, integral_constant<0>>{}))
    .parsersEq (tCall (M (.constant (cInt 0))) [(P Def2)]) (P (.map Def2 (.const (cInt 0)))),  -- 42: ASSERT_MODIFIER_CALLABLE_R(constant<0>,(P{}),(constant_parser<P, integral_constant<0>>{}))
    .parsersEq (tMod (P Def2) (M (.constant (cInt 0)))) (P (.map Def2 (.const (cInt 0)))),  -- 42: ASSERT_MODIFIER_MODULO_OPERABLE_R(P{}, constant<0>,(constant_parser<P, integral_constant<0>>{}))
    .parsersEq (tCall (M (.constant (cInt 0))) [(P (.custom 0))]) (P (.map (.custom 0) (.const (cInt 0)))),  -- 42: ASSERT_MODIFIER_CALLABLE_R(constant<0>,(P{}),(constant_parser<P, integral_constant<0>>{}))
    .parsersEq (tMod (P (.custom 0)) (M (.constant (cInt 0)))) (P (.map (.custom 0) (.const (cInt 0)))),  -- 42: ASSERT_MODIFIER_MODULO_OPERABLE_R(P{}, constant<0>,(constant_parser<P, integral_constant<0>>{}))
    .parsersEq (tCall (M (.constant (cInt 0))) [(P (.custom 1))]) (P (.map (.custom 1) (.const (cInt 0)))),  -- 42: ASSERT_MODIFIER_CALLABLE_R(constant<0>,(P{}),(constant_parser<P, integral_constant<0>>{}))
    .parsersEq (tMod (P (.custom 1)) (M (.constant (cInt 0)))) (P (.map (.custom 1) (.const (cInt 0)))),  -- 42: ASSERT_MODIFIER_MODULO_OPERABLE_R(P{}, constant<0>,(constant_parser<P, integral_constant<0>>{}))
    .parsersEq (tCall (M (.constant (cInt 0))) [(P May1)]) (P (.map May1 (.const (cInt 0)))),  -- 42: ASSERT_MODIFIER_CALLABLE_R(constant<0>,(P{}),(constant_parser<P, integral_constant<0>>{}))
    .parsersEq (tMod (P May1) (M (.constant (cInt 0)))) (P (.map May1 (.const (cInt 0)))),  -- 42: ASSERT_MODIFIER_MODULO_OPERABLE_R(P{}, constant<0>,(constant_parser<P, integral_constant<0>>{}))
    .parsersEq (tCall (M (.constant (cInt 0))) [(P May2)]) (P (.map May2 (.const (cInt 0)))),  -- 42: ASSERT_MODIFIER_CALLABLE_R(constant<0>,(P{}),(constant_parser<P, integral_constant<0>>{}))
    .parsersEq (tMod (P May2) (M (.constant (cInt 0)))) (P (.map May2 (.const (cInt 0)))),  -- 42: ASSERT_MODIFIER_MODULO_OPERABLE_R(P{}, constant<0>,(constant_parser<P, integral_constant<0>>{}))
    .parsersEq (tCall (M (.constant (cInt 0))) [(P May3)]) (P (.map May3 (.const (cInt 0)))),  -- 42: ASSERT_MODIFIER_CALLABLE_R(constant<0>,(P{}),(constant_parser<P, integral_constant<0>>{}))
    .parsersEq (tMod (P May3) (M (.constant (cInt 0)))) (P (.map May3 (.const (cInt 0)))),  -- 42: ASSERT_MODIFIER_MODULO_OPERABLE_R(P{}, constant<0>,(constant_parser<P, integral_constant<0>>{}))
    .parsersEq (tCall (M (.constant (cInt 0))) [(P May4)]) (P (.map May4 (.const (cInt 0)))),  -- 42: ASSERT_MODIFIER_CALLABLE_R(constant<0>,(P{}),(constant_parser<P, integral_constant<0>>{}))
    .parsersEq (tMod (P May4) (M (.constant (cInt 0)))) (P (.map May4 (.const (cInt 0)))),  -- 42: ASSERT_MODIFIER_MODULO_OPERABLE_R(P{}, constant<0>,(constant_parser<P, integral_constant<0>>{}))
    .parsersEq (tCall (M (.constant (cInt 0))) [(P Exa1)]) (P (.map Exa1 (.const (cInt 0)))),  -- 42: ASSERT_MODIFIER_CALLABLE_R(constant<0>,(P{}),(constant_parser<P, integral_constant<0>>{}))
    .parsersEq (tMod (P Exa1) (M (.constant (cInt 0)))) (P (.map Exa1 (.const (cInt 0)))),  -- 42: ASSERT_MODIFIER_MODULO_OPERABLE_R(P{}, constant<0>,(constant_parser<P, integral_constant<0>>{}))
    .parsersEq (tCall (M (.constant (cInt 0))) [(P Exa2)]) (P (.map Exa2 (.const (cInt 0)))),  -- 42: ASSERT_MODIFIER_CALLABLE_R(constant<0>,(P{}),(constant_parser<P, integral_constant<0>>{}))
    .parsersEq (tMod (P Exa2) (M (.constant (cInt 0)))) (P (.map Exa2 (.const (cInt 0)))),  -- 42: ASSERT_MODIFIER_MODULO_OPERABLE_R(P{}, constant<0>,(constant_parser<P, integral_constant<0>>{}))
    .parsersEq (tCall (M (.constant (cInt 0))) [(P Exa3)]) (P (.map Exa3 (.const (cInt 0)))),  -- 42: ASSERT_MODIFIER_CALLABLE_R(constant<0>,(P{}),(constant_parser<P, integral_constant<0>>{}))
    .parsersEq (tMod (P Exa3) (M (.constant (cInt 0)))) (P (.map Exa3 (.const (cInt 0)))),  -- 42: ASSERT_MODIFIER_MODULO_OPERABLE_R(P{}, constant<0>,(constant_parser<P, integral_constant<0>>{}))
    .parsersEq (tCall (M (.constant (cInt 0))) [(P Exa4)]) (P (.map Exa4 (.const (cInt 0)))),  -- 42: ASSERT_MODIFIER_CALLABLE_R(constant<0>,(P{}),(constant_parser<P, integral_constant<0>>{}))
    .parsersEq (tMod (P Exa4) (M (.constant (cInt 0)))) (P (.map Exa4 (.const (cInt 0)))),  -- 42: ASSERT_MODIFIER_MODULO_OPERABLE_R(P{}, constant<0>,(constant_parser<P, integral_constant<0>>{}))
    .parsersEq (tCall (M (.constant (cInt 0))) [(P Oom1)]) (P (.map Oom1 (.const (cInt 0)))),  -- 42: ASSERT_MODIFIER_CALLABLE_R(constant<0>,(P{}),(constant_parser<P, integral_constant<0>>{}))
    .parsersEq (tMod (P Oom1) (M (.constant (cInt 0)))) (P (.map Oom1 (.const (cInt 0)))),  -- 42: ASSERT_MODIFIER_MODULO_OPERABLE_R(P{}, constant<0>,(constant_parser<P, integral_constant<0>>{}))
    .parsersEq (tCall (M (.constant (cInt 0))) [(P Oom2)]) (P (.map Oom2 (.const (cInt 0)))),  -- 42: ASSERT_MODIFIER_CALLABLE_R(constant<0>,(P{}),(constant_parser<P, integral_constant<0>>{}))
    .parsersEq (tMod (P Oom2) (M (.constant (cInt 0)))) (P (.map Oom2 (.const (cInt 0)))),  -- 42: ASSERT_MODIFIER_MODULO_OPERABLE_R(P{}, constant<0>,(constant_parser<P, integral_constant<0>>{}))
    .parsersEq (tCall (M (.constant (cInt 0))) [(P Oom3)]) (P (.map Oom3 (.const (cInt 0)))),  -- 42: ASSERT_MODIFIER_CALLABLE_R(constant<0>,(P{}),(constant_parser<P, integral_constant<0>>{}))
    .parsersEq (tMod (P Oom3) (M (.constant (cInt 0)))) (P (.map Oom3 (.const (cInt 0)))),  -- 42: ASSERT_MODIFIER_MODULO_OPERABLE_R(P{}, constant<0>,(constant_parser<P, integral_constant<0>>{}))
    .parsersEq (tCall (M (.constant (cInt 0))) [(P Oom4)]) (P (.map Oom4 (.const (cInt 0)))),  -- 42: ASSERT_MODIFIER_CALLABLE_R(constant<0>,(P{}),(constant_parser<P, integral_constant<0>>{}))
    .parsersEq (tMod (P Oom4) (M (.constant (cInt 0)))) (P (.map Oom4 (.const (cInt 0)))),  -- 42: ASSERT_MODIFIER_MODULO_OPERABLE_R(P{}, constant<0>,(constant_parser<P, integral_constant<0>>{}))
    .parsersEq (tCall (M (.constant (cInt 0))) [(P Zom1)]) (P (.map Zom1 (.const (cInt 0)))),  -- 42: ASSERT_MODIFIER_CALLABLE_R(constant<0>,(P{}),(constant_parser<P, integral_constant<0>>{}))
    .parsersEq (tMod (P Zom1) (M (.constant (cInt 0)))) (P (.map Zom1 (.const (cInt 0)))),  -- 42: ASSERT_MODIFIER_MODULO_OPERABLE_R(P{}, constant<0>,(constant_parser<P, integral_constant<0>>{}))
    .parsersEq (tCall (M (.constant (cInt 0))) [(P Zom2)]) (P (.map Zom2 (.const (cInt 0)))),  -- 42: ASSERT_MODIFIER_CALLABLE_R(constant<0>,(P{}),(constant_parser<P, integral_constant<0>>{}))
    .parsersEq (tMod (P Zom2) (M (.constant (cInt 0)))) (P (.map Zom2 (.const (cInt 0)))),  -- 42: ASSERT_MODIFIER_MODULO_OPERABLE_R(P{}, constant<0>,(constant_parser<P, integral_constant<0>>{}))
    .parsersEq (tCall (M (.constant (cInt 0))) [(P Zom3)]) (P (.map Zom3 (.const (cInt 0)))),  -- 42: ASSERT_MODIFIER_CALLABLE_R(constant<0>,(P{}),(constant_parser<P, integral_constant<0>>{}))
    .parsersEq (tMod (P Zom3) (M (.constant (cInt 0)))) (P (.map Zom3 (.const (cInt 0)))),  -- 42: ASSERT_MODIFIER_MODULO_OPERABLE_R(P{}, constant<0>,(constant_parser<P, integral_constant<0>>{}))
    .parsersEq (tCall (M (.constant (cInt 0))) [(P Zom4)]) (P (.map Zom4 (.const (cInt 0)))),  -- 42: ASSERT_MODIFIER_CALLABLE_R(constant<0>,(P{}),(constant_parser<P, integral_constant<0>>{}))
    .parsersEq (tMod (P Zom4) (M (.constant (cInt 0)))) (P (.map Zom4 (.const (cInt 0)))),  -- 42: ASSERT_MODIFIER_MODULO_OPERABLE_R(P{}, constant<0>,(constant_parser<P, integral_constant<0>>{}))
    .parsersEq (tCall (M (.constant (cInt 0))) [(P Del1)]) (P (.map Del1 (.const (cInt 0)))),  -- 42: ASSERT_MODIFIER_CALLABLE_R(constant<0>,(P{}),(constant_parser<P, integral_constant<0>>{}))
    .parsersEq (tMod (P Del1) (M (.constant (cInt 0)))) (P (.map Del1 (.const (cInt 0))))  -- 42: ASSERT_MODIFIER_MODULO_OPERABLE_R(P{}, constant<0>,(constant_parser<P, integral_constant<0>>{}))
    ], Assertion.Holds a :=
  Assertion.holds_of_check (by decide +kernel)

/-- constant modifier / modify anything (tests/char-tests/modifiers/constant.cpp:42) -/
theorem charModifiersConstant_3_4 : ∀ a ∈ [
    .parsersEq (tCall (M (.constant (cInt 0))) [(P Del2)]) (P (.map Del2 (.const (cInt 0)))),  -- 42: ASSERT_MODIFIER_CALLABLE_R(constant<0>,(P{}),(constant_parser<P, integral_constant<0>>{}))
    .parsersEq (tMod (P Del2) (M (.constant (cInt 0)))) (P (.map Del2 (.const (cInt 0)))),  -- 42: ASSERT_MODIFIER_MODULO_OPERABLE_R(P{}, constant<0>,(constant_parser<P, integral_constant<0>>{}))
    .parsersEq (tCall (M (.constant (cInt 0))) [(P Del3)]) (P (.map Del3 (.const (cInt 0)))),  -- 42: ASSERT_MODIFIER_CALLABLE_R(constant<0>,(P{}),(constant_parser<P, integral_constant<0>>{}))
    .parsersEq (tMod (P Del3) (M (.constant (cInt 0)))) (P (.map Del3 (.const (cInt 0)))),  -- 42: ASSERT_MODIFIER_MODULO_OPERABLE_R(P{}, constant<0>,(constant_parser<P, integral_constant<0>>{}))
    .parsersEq (tCall (M (.constant (cInt 0))) [(P Del4)]) (P (.map Del4 (.const (cInt 0)))),  -- 42: ASSERT_MODIFIER_CALLABLE_R(constant<0>,(P{}),(constant_parser<P, integral_constant<0>>{}))
    .parsersEq (tMod (P Del4) (M (.constant (cInt 0)))) (P (.map Del4 (.const (cInt 0)))),  -- 42: ASSERT_MODIFIER_MODULO_OPERABLE_R(P{}, constant<0>,(constant_parser<P, integral_constant<0>>{}))
    .parsersEq (tCall (M (.constant (cInt 0))) [(P Del5)]) (P (.map Del5 (.const (cInt 0)))),  -- 42: ASSERT_MODIFIER_CALLABLE_R(constant<0>,(P{}),(constant_parser<P, integral_constant<0>>{}))
    .parsersEq (tMod (P Del5) (M (.constant (cInt 0)))) (P (.map Del5 (.const (cInt 0)))),  -- 42: ASSERT_MODIFIER_MODULO_OPERABLE_R(P{}, constant<0>,(constant_parser<P, integral_constant<0>>{}))
    .parsersEq (tCall (M (.constant (cInt 0))) [(P Del6)]) (P (.map Del6 (.const (cInt 0)))),  -- 42: ASSERT_MODIFIER_CALLABLE_R(constant<0>,(P{}),(constant_parser<P, integral_constant<0>>{}))
    .parsersEq (tMod (P Del6) (M (.constant (cInt 0)))) (P (.map Del6 (.const (cInt 0)))),  -- 42: ASSERT_MODIFIER_MODULO_OPERABLE_R(P{}, constant<0>,(constant_parser<P, integral_constant<0>>{}))
    .parsersEq (tCall (M (.constant (cInt 0))) [(P Del7)]) (P (.map Del7 (.const (cInt 0)))),  -- 42: ASSERT_MODIFIER_CALLABLE_R(constant<0>,(P{}),(constant_parser<P, integral_constant<0>>{}))
    .parsersEq (tMod (P Del7) (M (.constant (cInt 0)))) (P (.map Del7 (.const (cInt 0)))),  -- 42: ASSERT_MODIFIER_MODULO_OPERABLE_R(P{}, constant<0>,(constant_parser<P, integral_constant<0>>{}))
    .parsersEq (tCall (M (.constant (cInt 0))) [(P Del8)]) (P (.map Del8 (.const (cInt 0)))),  -- 42: ASSERT_MODIFIER_CALLABLE_R(constant<0>,(P{}),(constant_parser<P, integral_constant<0>>{}))
    .parsersEq (tMod (P Del8) (M (.constant (cInt 0)))) (P (.map Del8 (.const (cInt 0)))),  -- 42: ASSERT_MODIFIER_MODULO_OPERABLE_R(P{}, constant<0>,(constant_parser<P, integral_constant<0>>{}))
    .parsersEq (tCall (M (.constant (cInt 0))) [(P Dek1)]) (P (.map Dek1 (.const (cInt 0)))),  -- 42: ASSERT_MODIFIER_CALLABLE_R(constant<0>,(P{}),(constant_parser<P, integral_constant<0>>{}))
    .parsersEq (tMod (P Dek1) (M (.constant (cInt 0)))) (P (.map Dek1 (.const (cInt 0)))),  -- 42: ASSERT_MODIFIER_MODULO_OPERABLE_R(P{}, constant<0>,(constant_parser<P, integral_constant<0>>{}))
    .parsersEq (tCall (M (.constant (cInt 0))) [(P Dek2)]) (P (.map Dek2 (.const (cInt 0)))),  -- 42: ASSERT_MODIFIER_CALLABLE_R(constant<0>,(P{}),(constant_parser<P, integral_constant<0>>{}))
    .parsersEq (tMod (P Dek2) (M (.constant (cInt 0)))) (P (.map Dek2 (.const (cInt 0)))),  -- 42: ASSERT_MODIFIER_MODULO_OPERABLE_R(P{}, constant<0>,(constant_parser<P, integral_constant<0>>{}))
    .parsersEq (tCall (M (.constant (cInt 0))) [(P Dek3)]) (P (.map Dek3 (.const (cInt 0)))),  -- 42: ASSERT_MODIFIER_CALLABLE_R(constant<0>,(P{}),(constant_parser<P, integral_constant<0>>{}))
    .parsersEq (tMod (P Dek3) (M (.constant (cInt 0)))) (P (.map Dek3 (.const (cInt 0)))),  -- 42: ASSERT_MODIFIER_MODULO_OPERABLE_R(P{}, constant<0>,(constant_parser<P, integral_constant<0>>{}))
    .parsersEq (tCall (M (.constant (cInt 0))) [(P Dek4)]) (P (.map Dek4 (.const (cInt 0)))),  -- 42: ASSERT_MODIFIER_CALLABLE_R(constant<0>,(P{}),(constant_parser<P, integral_constant<0>>{}))
    .parsersEq (tMod (P Dek4) (M (.constant (cInt 0)))) (P (.map Dek4 (.const (cInt 0)))),  -- 42: ASSERT_MODIFIER_MODULO_OPERABLE_R(P{}, constant<0>,(constant_parser<P, integral_constant<0>>{}))
    .parsersEq (tCall (M (.constant (cInt 0))) [(P Dek5)]) (P (.map Dek5 (.const (cInt 0)))),  -- 42: ASSERT_MODIFIER_CALLABLE_R(constant<0>,(P{}),(constant_parser<P, integral_constant<0>>{}))
    .parsersEq (tMod (P Dek5) (M (.constant (cInt 0)))) (P (.map Dek5 (.const (cInt 0)))),  -- 42: ASSERT_MODIFIER_MODULO_OPERABLE_R(P{}, constant<0>,(constant_parser<P, integral_constant<0>>{}))
    .parsersEq (tCall (M (.constant (cInt 0))) [(P Dek6)]) (P (.map Dek6 (.const (cInt 0)))),  -- 42: ASSERT_MODIFIER_CALLABLE_R(constant<0>,(P{}),(constant_parser<P, integral_constant<0>>{}))
    .parsersEq (tMod (P Dek6) (M (.constant (cInt 0)))) (P (.map Dek6 (.const (cInt 0)))),  -- 42: ASSERT_MODIFIER_MODULO_OPERABLE_R(P{}, constant<0>,(constant_parser<P, integral_constant<0>>{}))
    .parsersEq (tCall (M (.constant (cInt 0))) [(P Dek7)]) (P (.map Dek7 (.const (cInt 0)))),  -- 42: ASSERT_MODIFIER_CALLABLE_R(constant<0>,(P{}),(constant_parser<P, integral_constant<0>>{}))
    .parsersEq (tMod (P Dek7) (M (.constant (cInt 0)))) (P (.map Dek7 (.const (cInt 0)))),  -- 42: ASSERT_MODIFIER_MODULO_OPERABLE_R(P{}, constant<0>,(constant_parser<P, integral_constant<0>>{}))
    .parsersEq (tCall (M (.constant (cInt 0))) [(P Dek8)]) (P (.map Dek8 (.const (cInt 0)))),  -- 42: ASSERT_MODIFIER_CALLABLE_R(constant<0>,(P{}),(constant_parser<P, integral_constant<0>>{}))
    .parsersEq (tMod (P Dek8) (M (.constant (cInt 0)))) (P (.map Dek8 (.const (cInt 0))))  -- 42: ASSERT_MODIFIER_MODULO_OPERABLE_R(P{}, constant<0>,(constant_parser<P, integral_constant<0>>{}))
    ], Assertion.Holds a :=
  Assertion.holds_of_check (by decide +kernel)

end Tok3n.Tests
