import Verif.Tests.Gen.SamplesChar
/- Generated by tools/tests2lean.py from tests/char-tests/modifiers/apply.cpp. -/

namespace Tok3n.Tests

/-- apply modifier / prefix (tests/char-tests/modifiers/apply.cpp:14) -/
theorem charModifiersApply_1 : ∀ a ∈ [
    .parsersEq (P Apm1) (tCall (M (.apply f_func3_apply)) [(tThen (P ABC) (tStar (P QQ)))]),  -- 14: ASSERT_PARSER_VALUES_EQ(apm1, apply<func3_apply>(abc>> * qq))
    .parsersEq (P Apm2) (tCall (M (.apply f_func4_apply)) [(tThen (tPlus (P ABC)) (tMaybe (tOr (P ABC) (P QQ))))]),  -- 15: ASSERT_PARSER_VALUES_EQ(apm2, apply<func4_apply(3)>(+ abc>> ~(abc | qq)))
    .parsersNe (P Apm2) (tCall (M (.apply (f_func4_apply + 100 * 2))) [(tThen (tPlus (P ABC)) (tMaybe (tOr (P ABC) (P QQ))))])  -- 16: ASSERT_PARSER_VALUES_NE(apm2, apply<func4_apply(2)>(+ abc>> ~(abc | qq)))
    ], Assertion.Holds a :=
  Assertion.holds_of_check (by decide +kernel)

/-- apply modifier / infix (tests/char-tests/modifiers/apply.cpp:21) -/
theorem charModifiersApply_2 : ∀ a ∈ [
    .parsersEq (P Apm1) (tMod (tThen (P ABC) (tStar (P QQ))) (M (.apply f_func3_apply))),  -- 21: ASSERT_PARSER_VALUES_EQ(apm1,(abc>> * qq) % apply<func3_apply>)
    .parsersEq (P Apm2) (tMod (tThen (tPlus (P ABC)) (tMaybe (tOr (P ABC) (P QQ)))) (M (.apply f_func4_apply))),  -- 22: ASSERT_PARSER_VALUES_EQ(apm2,(+ abc>> ~(abc | qq)) % apply<func4_apply(3)>)
    .parsersNe (P Apm2) (tMod (tThen (tPlus (P ABC)) (tMaybe (tOr (P ABC) (P QQ)))) (M (.apply (f_func4_apply + 100 * 2))))  -- 23: ASSERT_PARSER_VALUES_NE(apm2,(+ abc>> ~(abc | qq)) % apply<func4_apply(2)>)
    ], Assertion.Holds a :=
  Assertion.holds_of_check (by decide +kernel)

/-- apply modifier / modify anything (tests/char-tests/modifiers/apply.cpp:44) -/
theorem charModifiersApply_3_1 : ∀ a ∈ [
    .parsersEq (tCall (M (.apply f_sink_func)) [(P Ign1)]) (P (.map Ign1 (.apply (.user f_sink_func)))),  -- 44: DEP_ASSERT_MODIFIER_CALLABLE_R(apply<sink_func>,(PP{}),(apply_map_parser<PP, integral_constant<sink_func>>{}), apply<sink_func>,(P{}),(apply_map_parse
    .parsersEq (tMod (P Ign1) (M (.apply f_sink_func))) (P (.map Ign1 (.apply (.user f_sink_func)))),  -- 44: DEP_ASSERT_MODIFIER_MODULO_OPERABLE_R(PP{}, apply<sink_func>,(apply_map_parser<PP, integral_constant<sink_func>>{}), P{}, apply<sink_func>,(apply_map_
    .parsersEq (tCall (M (.apply f_sink_func)) [(P Ign2)]) (P (.map Ign2 (.apply (.user f_sink_func)))),  -- 44: DEP_ASSERT_MODIFIER_CALLABLE_R(apply<sink_func>,(PP{}),(apply_map_parser<PP, integral_constant<sink_func>>{}), apply<sink_func>,(P{}),(apply_map_parse
    .parsersEq (tMod (P Ign2) (M (.apply f_sink_func))) (P (.map Ign2 (.apply (.user f_sink_func)))),  -- 44: DEP_ASSERT_MODIFIER_MODULO_OPERABLE_R(PP{}, apply<sink_func>,(apply_map_parser<PP, integral_constant<sink_func>>{}), P{}, apply<sink_func>,(apply_map_
    .parsersEq (tCall (M (.apply f_sink_func)) [(P Ign3)]) (P (.map Ign3 (.apply (.user f_sink_func)))),  -- 44: DEP_ASSERT_MODIFIER_CALLABLE_R(apply<sink_func>,(PP{}),(apply_map_parser<PP, integral_constant<sink_func>>{}), apply<sink_func>,(P{}),(apply_map_parse
    .parsersEq (tMod (P Ign3) (M (.apply f_sink_func))) (P (.map Ign3 (.apply (.user f_sink_func)))),  -- 44: DEP_ASSERT_MODIFIER_MODULO_OPERABLE_R(PP{}, apply<sink_func>,(apply_map_parser<PP, integral_constant<sink_func>>{}), P{}, apply<sink_func>,(apply_map_
    .parsersEq (tCall (M (.apply f_sink_func)) [(P Ign4)]) (P (.map Ign4 (.apply (.user f_sink_func)))),  -- 44: DEP_ASSERT_MODIFIER_CALLABLE_R(apply<sink_func>,(PP{}),(apply_map_parser<PP, integral_constant<sink_func>>{}), apply<sink_func>,(P{}),(apply_map_parse
    .parsersEq (tMod (P Ign4) (M (.apply f_sink_func))) (P (.map Ign4 (.apply (.user f_sink_func)))),  -- 44: DEP_ASSERT_MODIFIER_MODULO_OPERABLE_R(PP{}, apply<sink_func>,(apply_map_parser<PP, integral_constant<sink_func>>{}), P{}, apply<sink_func>,(apply_map_
    .parsersEq (tCall (M (.apply f_sink_func)) [(P Ign5)]) (P (.map Ign5 (.apply (.user f_sink_func)))),  -- 44: DEP_ASSERT_MODIFIER_CALLABLE_R(apply<sink_func>,(PP{}),(apply_map_parser<PP, integral_constant<sink_func>>{}), apply<sink_func>,(P{}),(apply_map_parse
    .parsersEq (tMod (P Ign5) (M (.apply f_sink_func))) (P (.map Ign5 (.apply (.user f_sink_func)))),  -- 44: DEP_ASSERT_MODIFIER_MODULO_OPERABLE_R(PP{}, apply<sink_func>,(apply_map_parser<PP, integral_constant<sink_func>>{}), P{}, apply<sink_func>,(apply_map_
    .parsersEq (tCall (M (.apply f_sink_func)) [(P Com1)]) (P (.map Com1 (.apply (.user f_sink_func)))),  -- 44: DEP_ASSERT_MODIFIER_CALLABLE_R(apply<sink_func>,(PP{}),(apply_map_parser<PP, integral_constant<sink_func>>{}), apply<sink_func>,(P{}),(apply_map_parse
    .parsersEq (tMod (P Com1) (M (.apply f_sink_func))) (P (.map Com1 (.apply (.user f_sink_func)))),  -- 44: DEP_ASSERT_MODIFIER_MODULO_OPERABLE_R(PP{}, apply<sink_func>,(apply_map_parser<PP, integral_constant<sink_func>>{}), P{}, apply<sink_func>,(apply_map_
    .parsersEq (tCall (M (.apply f_sink_func)) [(P Com2)]) (P (.map Com2 (.apply (.user f_sink_func)))),  -- 44: DEP_ASSERT_MODIFIER_CALLABLE_R(apply<sink_func>,(PP{}),(apply_map_parser<PP, integral_constant<sink_func>>{}), apply<sink_func>,(P{}),(apply_map_parse
    .parsersEq (tMod (P Com2) (M (.apply f_sink_func))) (P (.map Com2 (.apply (.user f_sink_func)))),  -- 44: DEP_ASSERT_MODIFIER_MODULO_OPERABLE_R(PP{}, apply<sink_func>,(apply_map_parser<PP, integral_constant<sink_func>>{}), P{}, apply<sink_func>,(apply_map_
    .parsersEq (tCall (M (.apply f_sink_func)) [(P Com3)]) (P (.map Com3 (.apply (.user f_sink_func)))),  -- 44: DEP_ASSERT_MODIFIER_CALLABLE_R(apply<sink_func>,(PP{}),(apply_map_parser<PP, integral_constant<sink_func>>{}), apply<sink_func>,(P{}),(apply_map_parse
    .parsersEq (tMod (P Com3) (M (.apply f_sink_func))) (P (.map Com3 (.apply (.user f_sink_func)))),  -- 44: DEP_ASSERT_MODIFIER_MODULO_OPERABLE_R(PP{}, apply<sink_func>,(apply_map_parser<PP, integral_constant<sink_func>>{}), P{}, apply<sink_func>,(apply_map_
    .parsersEq (tCall (M (.apply f_sink_func)) [(P Com4)]) (P (.map Com4 (.apply (.user f_sink_func)))),  -- 44: DEP_ASSERT_MODIFIER_CALLABLE_R(apply<sink_func>,(PP{}),(apply_map_parser<PP, integral_constant<sink_func>>{}), apply<sink_func>,(P{}),(apply_map_parse
    .parsersEq (tMod (P Com4) (M (.apply f_sink_func))) (P (.map Com4 (.apply (.user f_sink_func)))),  -- 44: DEP_ASSERT_MODIFIER_MODULO_OPERABLE_R(PP{}, apply<sink_func>,(apply_map_parser<PP, integral_constant<sink_func>>{}), P{}, apply<sink_func>,(apply_map_
    .parsersEq (tCall (M (.apply f_sink_func)) [(P Com5)]) (P (.map Com5 (.apply (.user f_sink_func)))),  -- 44: DEP_ASSERT_MODIFIER_CALLABLE_R(apply<sink_func>,(PP{}),(apply_map_parser<PP, integral_constant<sink_func>>{}), apply<sink_func>,(P{}),(apply_map_parse
    .parsersEq (tMod (P Com5) (M (.apply f_sink_func))) (P (.map Com5 (.apply (.user f_sink_func)))),  -- 44: DEP_ASSERT_MODIFIER_MODULO_OPERABLE_R(PP{}, apply<sink_func>,(apply_map_parser<PP, integral_constant<sink_func>>{}), P{}, apply<sink_func>,(apply_map_
    .parsersEq (tCall (M (.apply f_sink_func)) [(P Com6)]) (P (.map Com6 (.apply (.user f_sink_func)))),  -- 44: DEP_ASSERT_MODIFIER_CALLABLE_R(apply<sink_func>,(PP{}),(apply_map_parser<PP, integral_constant<sink_func>>{}), apply<sink_func>,(P{}),(apply_map_parse
    .parsersEq (tMod (P Com6) (M (.apply f_sink_func))) (P (.map Com6 (.apply (.user f_sink_func)))),  -- 44: DEP_ASSERT_MODIFIER_MODULO_OPERABLE_R(PP{}, apply<sink_func>,(apply_map_parser<PP, integral_constant<sink_func>>{}), P{}, apply<sink_func>,(apply_map_
    .parsersEq (tCall (M (.apply f_sink_func)) [(P Com7)]) (P (.map Com7 (.apply (.user f_sink_func)))),  -- 44: DEP_ASSERT_MODIFIER_CALLABLE_R(apply<sink_func>,(PP{}),(apply_map_parser<PP, integral_constant<sink_func>>{}), apply<sink_func>,(P{}),(apply_map_parse
    .parsersEq (tMod (P Com7) (M (.apply f_sink_func))) (P (.map Com7 (.apply (.user f_sink_func)))),  -- 44: DEP_ASSERT_MODIFIER_MODULO_OPERABLE_R(PP{}, apply<sink_func>,(apply_map_parser<PP, integral_constant<sink_func>>{}), P{}, apply<sink_func>,(apply_map_
    .parsersEq (tCall (M (.apply f_sink_func)) [(P Nam1)]) (P (.map Nam1 (.apply (.user f_sink_func)))),  -- 44: DEP_ASSERT_MODIFIER_CALLABLE_R(apply<sink_func>,(PP{}),(apply_map_parser<PP, integral_constant<sink_func>>{}), apply<sink_func>,(P{}),(apply_map_parse
    .parsersEq (tMod (P Nam1) (M (.apply f_sink_func))) (P (.map Nam1 (.apply (.user f_sink_func)))),  -- 44: DEP_ASSERT_MODIFIER_MODULO_OPERABLE_R(PP{}, apply<sink_func>,(apply_map_parser<PP, integral_constant<sink_func>>{}), P{}, apply<sink_func>,(apply_map_
    .parsersEq (tCall (M (.apply f_sink_func)) [(P Nam2)]) (P (.map Nam2 (.apply (.user f_sink_func)))),  -- 44: DEP_ASSERT_MODIFIER_CALLABLE_R(apply<sink_func>,(PP{}),(apply_map_parser<PP, integral_constant<sink_func>>{}), apply<sink_func>,(P{}),(apply_map_parse
    .parsersEq (tMod (P Nam2) (M (.apply f_sink_func))) (P (.map Nam2 (.apply (.user f_sink_func)))),  -- 44: DEP_ASSERT_MODIFIER_MODULO_OPERABLE_R(PP{}, apply<sink_func>,(apply_map_parser<PP, integral_constant<sink_func>>{}), P{}, apply<sink_func>,(apply_map_
    .parsersEq (tCall (M (.apply f_sink_func)) [(P Nam3)]) (P (.map Nam3 (.apply (.user f_sink_func)))),  -- 44: DEP_ASSERT_MODIFIER_CALLABLE_R(apply<sink_func>,(PP{}),(apply_map_parser<PP, integral_constant<sink_func>>{}), apply<sink_func>,(P{}),(apply_map_parse
    .parsersEq (tMod (P Nam3) (M (.apply f_sink_func))) (P (.map Nam3 (.apply (.user f_sink_func)))),  -- 44: DEP_ASSERT_MODIFIER_MODULO_OPERABLE_R(PP{}, apply<sink_func>,(apply_map_parser<PP, integral_constant<sink_func>>{}), P{}, apply<sink_func>,(apply_map_
    .parsersEq (tCall (M (.apply f_sink_func)) [(P Nam4)]) (P (.map Nam4 (.apply (.user f_sink_func)))),  -- 44: DEP_ASSERT_MODIFIER_CALLABLE_R(apply<sink_func>,(PP{}),(apply_map_parser<PP, integral_constant<sink_func>>{}), apply<sink_func>,(P{}),(apply_map_parse
    .parsersEq (tMod (P Nam4) (M (.apply f_sink_func))) (P (.map Nam4 (.apply (.user f_sink_func)))),  -- 44: DEP_ASSERT_MODIFIER_MODULO_OPERABLE_R(PP{}, apply<sink_func>,(apply_map_parser<PP, integral_constant<sink_func>>{}), P{}, apply<sink_func>,(apply_map_
    .parsersEq (tCall (M (.apply f_sink_func)) [(P Any1)]) (P (.map Any1 (.apply (.user f_sink_func)))),  -- 44: DEP_ASSERT_MODIFIER_CALLABLE_R(apply<sink_func>,(PP{}),(apply_map_parser<PP, integral_constant<sink_func>>{}), apply<sink_func>,(P{}),(apply_map_parse
    .parsersEq (tMod (P Any1) (M (.apply f_sink_func))) (P (.map Any1 (.apply (.user f_sink_func)))),  -- 44: DEP_ASSERT_MODIFIER_MODULO_OPERABLE_R(PP{}, apply<sink_func>,(apply_map_parser<PP, integral_constant<sink_func>>{}), P{}, apply<sink_func>,(apply_map_
    .parsersEq (tCall (M (.apply f_sink_func)) [(P Any2)]) (P (.map Any2 (.apply (.user f_sink_func)))),  -- 44: DEP_ASSERT_MODIFIER_CALLABLE_R(apply<sink_func>,(PP{}),(apply_map_parser<PP, integral_constant<sink_func>>{}), apply<sink_func>,(P{}),(apply_map_parse
    .parsersEq (tMod (P Any2) (M (.apply f_sink_func))) (P (.map Any2 (.apply (.user f_sink_func)))),  -- 44: DEP_ASSERT_MODIFIER_MODULO_OPERABLE_R(PP{}, apply<sink_func>,(apply_map_parser<PP, integral_constant<sink_func>>{}), P{}, apply<sink_func>,(apply_map_
    .parsersEq (tCall (M (.apply f_sink_func)) [(P Any3)]) (P (.map Any3 (.apply (.user f_sink_func)))),  -- 44: DEP_ASSERT_MODIFIER_CALLABLE_R(apply<sink_func>,(PP{}),(apply_map_parser<PP, integral_constant<sink_func>>{}), apply<sink_func>,(P{}),(apply_map_parse
    .parsersEq (tMod (P Any3) (M (.apply f_sink_func))) (P (.map Any3 (.apply (.user f_sink_func)))),  -- 44: DEP_ASSERT_MODIFIER_MODULO_OPERABLE_R(PP{}, apply<sink_func>,(apply_map_parser<PP, integral_constant<sink_func>>{}), P{}, apply<sink_func>,(apply_map_
    .parsersEq (tCall (M (.apply f_sink_func)) [(P Any4)]) (P (.map Any4 (.apply (.user f_sink_func)))),  -- 44: DEP_ASSERT_MODIFIER_CALLABLE_R(apply<sink_func>,(PP{}),(apply_map_parser<PP, integral_constant<sink_func>>{}), apply<sink_func>,(P{}),(apply_map_parse
    .parsersEq (tMod (P Any4) (M (.apply f_sink_func))) (P (.map Any4 (.apply (.user f_sink_func)))),  -- 44: DEP_ASSERT_MODIFIER_MODULO_OPERABLE_R(PP{}, apply<sink_func>,(apply_map_parser<PP, integral_constant<sink_func>>{}), P{}, apply<sink_func>,(apply_map_
    .parsersEq (tCall (M (.apply f_sink_func)) [(P Non1)]) (P (.map Non1 (.apply (.user f_sink_func)))),  -- 44: DEP_ASSERT_MODIFIER_CALLABLE_R(apply<sink_func>,(PP{}),(apply_map_parser<PP, integral_constant<sink_func>>{}), apply<sink_func>,(P{}),(apply_map_parse
    .parsersEq (tMod (P Non1) (M (.apply f_sink_func))) (P (.map Non1 (.apply (.user f_sink_func)))),  -- 44: DEP_ASSERT_MODIFIER_MODULO_OPERABLE_R(PP{}, apply<sink_func>,(apply_map_parser<PP, integral_constant<sink_func>>{}), P{}, apply<sink_func>,(apply_map_
    .parsersEq (tCall (M (.apply f_sink_func)) [(P Non2)]) (P (.map Non2 (.apply (.user f_sink_func)))),  -- 44: DEP_ASSERT_MODIFIER_CALLABLE_R(apply<sink_func>,(PP{}),(apply_map_parser<PP, integral_constant<sink_func>>{}), apply<sink_func>,(P{}),(apply_map_parse
    .parsersEq (tMod (P Non2) (M (.apply f_sink_func))) (P (.map Non2 (.apply (.user f_sink_func)))),  -- 44: DEP_ASSERT_MODIFIER_MODULO_OPERABLE_R(PP{}, apply<sink_func>,(apply_map_parser<PP, integral_constant<sink_func>>{}), P{}, apply<sink_func>,(apply_map_
    .parsersEq (tCall (M (.apply f_sink_func)) [(P Non3)]) (P (.map Non3 (.apply (.user f_sink_func)))),  -- 44: DEP_ASSERT_MODIFIER_CALLABLE_R(apply<sink_func>,(PP{}),(apply_map_parser<PP, integral_constant<sink_func>>{}), apply<sink_func>,(P{}),(apply_map_parse
    .parsersEq (tMod (P Non3) (M (.apply f_sink_func))) (P (.map Non3 (.apply (.user f_sink_func)))),  -- 44: DEP_ASSERT_MODIFIER_MODULO_OPERABLE_R(PP{}, apply<sink_func>,(apply_map_parser<PP, integral_constant<sink_func>>{}), P{}, apply<sink_func>,(apply_map_
    .parsersEq (tCall (M (.apply f_sink_func)) [(P Non4)]) (P (.map Non4 (.apply (.user f_sink_func)))),  -- 44: DEP_ASSERT_MODIFIER_CALLABLE_R(apply<sink_func>,(PP{}),(apply_map_parser<PP, integral_constant<sink_func>>{}), apply<sink_func>,(P{}),(apply_map_parse
    .parsersEq (tMod (P Non4) (M (.apply f_sink_func))) (P (.map Non4 (.apply (.user f_sink_func)))),  -- 44: DEP_ASSERT_MODIFIER_MODULO_OPERABLE_R(PP{}, apply<sink_func>,(apply_map_parser<PP, integral_constant<sink_func>>{}), P{}, apply<sink_func>,(apply_map_
    .parsersEq (tCall (M (.apply f_sink_func)) [(P Non5)]) (P (.map Non5 (.apply (.user f_sink_func)))),  -- 44: DEP_ASSERT_MODIFIER_CALLABLE_R(apply<sink_func>,(PP{}),(apply_map_parser<PP, integral_constant<sink_func>>{}), apply<sink_func>,(P{}),(apply_map_parse
    .parsersEq (tMod (P Non5) (M (.apply f_sink_func))) (P (.map Non5 (.apply (.user f_sink_func)))),  -- 44: DEP_ASSERT_MODIFIER_MODULO_OPERABLE_R(PP{}, apply<sink_func>,(apply_map_parser<PP, integral_constant<sink_func>>{}), P{}, apply<sink_func>,(apply_map_
    .parsersEq (tCall (M (.apply f_sink_func)) [(P All1)]) (P (.map All1 (.apply (.user f_sink_func)))),  -- 44: DEP_ASSERT_MODIFIER_CALLABLE_R(apply<sink_func>,(PP{}),(apply_map_parser<PP, integral_constant<sink_func>>{}), apply<sink_func>,(P{}),(apply_map_parse
    .parsersEq (tMod (P All1) (M (.apply f_sink_func))) (P (.map All1 (.apply (.user f_sink_func)))),  -- 44: DEP_ASSERT_MODIFIER_MODULO_OPERABLE_R(PP{}, apply<sink_func>,(apply_map_parser<PP, integral_constant<sink_func>>{}), P{}, apply<sink_func>,(apply_map_
    .parsersEq (tCall (M (.apply f_sink_func)) [(P All2)]) (P (.map All2 (.apply (.user f_sink_func)))),  -- 44: DEP_ASSERT_MODIFIER_CALLABLE_R(apply<sink_func>,(PP{}),(apply_map_parser<PP, integral_constant<sink_func>>{}), apply<sink_func>,(P{}),(apply_map_parse
    .parsersEq (tMod (P All2) (M (.apply f_sink_func))) (P (.map All2 (.apply (.user f_sink_func)))),  -- 44: DEP_ASSERT_MODIFIER_MODULO_OPERABLE_R(PP{}, apply<sink_func>,(apply_map_parser<PP, integral_constant<sink_func>>{}), P{}, apply<sink_func>,(apply_map_
    .parsersEq (tCall (M (.apply f_sink_func)) [(P All3)]) (P (.map All3 (.apply (.user f_sink_func)))),  -- 44: DEP_ASSERT_MODIFIER_CALLABLE_R(apply<sink_func>,(PP{}),(apply_map_parser<PP, integral_constant<sink_func>>{}), apply<sink_func>,(P{}),(apply_map_parse
    .parsersEq (tMod (P All3) (M (.apply f_sink_func))) (P (.map All3 (.apply (.user f_sink_func)))),  -- 44: DEP_ASSERT_MODIFIER_MODULO_OPERABLE_R(PP{}, apply<sink_func>,(apply_map_parser<PP, integral_constant<sink_func>>{}), P{}, apply<sink_func>,(apply_map_
    .parsersEq (tCall (M (.apply f_sink_func)) [(P All4)]) (P (.map All4 (.apply (.user f_sink_func)))),  -- 44: DEP_ASSERT_MODIFIER_CALLABLE_R(apply<sink_func>,(PP{}),(apply_map_parser<PP, integral_constant<sink_func>>{}), apply<sink_func>,(P{}),(apply_map_parse
    .parsersEq (tMod (P All4) (M (.apply f_sink_func))) (P (.map All4 (.apply (.user f_sink_func)))),  -- 44: DEP_ASSERT_MODIFIER_MODULO_OPERABLE_R(PP{}, apply<sink_func>,(apply_map_parser<PP, integral_constant<sink_func>>{}), P{}, apply<sink_func>,(apply_map_
    .parsersEq (tCall (M (.apply f_sink_func)) [(P Eps1)]) (P (.map Eps1 (.apply (.user f_sink_func)))),  -- 44: DEP_ASSERT_MODIFIER_CALLABLE_R(apply<sink_func>,(PP{}),(apply_map_parser<PP, integral_constant<sink_func>>{}), apply<sink_func>,(P{}),(apply_map_parse
    .parsersEq (tMod (P Eps1) (M (.apply f_sink_func))) (P (.map Eps1 (.apply (.user f_sink_func))))  -- 44: DEP_ASSERT_MODIFIER_MODULO_OPERABLE_R(PP{}, apply<sink_func>,(apply_map_parser<PP, integral_constant<sink_func>>{}), P{}, apply<sink_func>,(apply_map_
    ], Assertion.Holds a :=
  Assertion.holds_of_check (by decide +kernel)

/-- apply modifier / modify anything (tests/char-tests/modifiers/apply.cpp:44) -/
theorem charModifiersApply_3_2 : ∀ a ∈ [
    .parsersEq (tCall (M (.apply f_sink_func)) [(P Ant1)]) (P (.map Ant1 (.apply (.user f_sink_func)))),  -- 44: DEP_ASSERT_MODIFIER_CALLABLE_R(apply<sink_func>,(PP{}),(apply_map_parser<PP, integral_constant<sink_func>>{}), apply<sink_func>,(P{}),(apply_map_parse
    .parsersEq (tMod (P Ant1) (M (.apply f_sink_func))) (P (.map Ant1 (.apply (.user f_sink_func)))),  -- 44: DEP_ASSERT_MODIFIER_MODULO_OPERABLE_R(PP{}, apply<sink_func>,(apply_map_parser<PP, integral_constant<sink_func>>{}), P{}, apply<sink_func>,(apply_map_
    .parsersEq (tCall (M (.apply f_sink_func)) [(P QQ)]) (P (.map QQ (.apply (.user f_sink_func)))),  -- 44: DEP_ASSERT_MODIFIER_CALLABLE_R(apply<sink_func>,(PP{}),(apply_map_parser<PP, integral_constant<sink_func>>{}), apply<sink_func>,(P{}),(apply_map_parse
    .parsersEq (tMod (P QQ) (M (.apply f_sink_func))) (P (.map QQ (.apply (.user f_sink_func)))),  -- 44: DEP_ASSERT_MODIFIER_MODULO_OPERABLE_R(PP{}, apply<sink_func>,(apply_map_parser<PP, integral_constant<sink_func>>{}), P{}, apply<sink_func>,(apply_map_
    .parsersEq (tCall (M (.apply f_sink_func)) [(P ABC)]) (P (.map ABC (.apply (.user f_sink_func)))),  -- 44: DEP_ASSERT_MODIFIER_CALLABLE_R(apply<sink_func>,(PP{}),(apply_map_parser<PP, integral_constant<sink_func>>{}), apply<sink_func>,(P{}),(apply_map_parse
    .parsersEq (tMod (P ABC) (M (.apply f_sink_func))) (P (.map ABC (.apply (.user f_sink_func)))),  -- 44: DEP_ASSERT_MODIFIER_MODULO_OPERABLE_R(PP{}, apply<sink_func>,(apply_map_parser<PP, integral_constant<sink_func>>{}), P{}, apply<sink_func>,(apply_map_
    .parsersEq (tCall (M (.apply f_sink_func)) [(P Comma)]) (P (.map Comma (.apply (.user f_sink_func)))),  -- 44: DEP_ASSERT_MODIFIER_CALLABLE_R(apply<sink_func>,(PP{}),(apply_map_parser<PP, integral_constant<sink_func>>{}), apply<sink_func>,(P{}),(apply_map_parse
    .parsersEq (tMod (P Comma) (M (.apply f_sink_func))) (P (.map Comma (.apply (.user f_sink_func)))),  -- 44: DEP_ASSERT_MODIFIER_MODULO_OPERABLE_R(PP{}, apply<sink_func>,(apply_map_parser<PP, integral_constant<sink_func>>{}), P{}, apply<sink_func>,(apply_map_
    .parsersEq (tCall (M (.apply f_sink_func)) [(P SpaceDot)]) (P (.map SpaceDot (.apply (.user f_sink_func)))),  -- 44: DEP_ASSERT_MODIFIER_CALLABLE_R(apply<sink_func>,(PP{}),(apply_map_parser<PP, integral_constant<sink_func>>{}), apply<sink_func>,(P{}),(apply_map_parse
    .parsersEq (tMod (P SpaceDot) (M (.apply f_sink_func))) (P (.map SpaceDot (.apply (.user f_sink_func)))),  -- 44: DEP_ASSERT_MODIFIER_MODULO_OPERABLE_R(PP{}, apply<sink_func>,(apply_map_parser<PP, integral_constant<sink_func>>{}), P{}, apply<sink_func>,(apply_map_
    .parsersEq (tCall (M (.apply f_sink_func)) [(P Cho1)]) (P (.map Cho1 (.apply (.user f_sink_func)))),  -- 44: DEP_ASSERT_MODIFIER_CALLABLE_R(apply<sink_func>,(PP{}),(apply_map_parser<PP, integral_constant<sink_func>>{}), apply<sink_func>,(P{}),(apply_map_parse
    .parsersEq (tMod (P Cho1) (M (.apply f_sink_func))) (P (.map Cho1 (.apply (.user f_sink_func)))),  -- 44: DEP_ASSERT_MODIFIER_MODULO_OPERABLE_R(PP{}, apply<sink_func>,(apply_map_parser<PP, integral_constant<sink_func>>{}), P{}, apply<sink_func>,(apply_map_
    .parsersEq (tCall (M (.apply f_sink_func)) [(P Cho2)]) (P (.map Cho2 (.apply (.user f_sink_func)))),  -- 44: DEP_ASSERT_MODIFIER_CALLABLE_R(apply<sink_func>,(PP{}),(apply_map_parser<PP, integral_constant<sink_func>>{}), apply<sink_func>,(P{}),(apply_map_parse
    .parsersEq (tMod (P Cho2) (M (.apply f_sink_func))) (P (.map Cho2 (.apply (.user f_sink_func)))),  -- 44: DEP_ASSERT_MODIFIER_MODULO_OPERABLE_R(PP{}, apply<sink_func>,(apply_map_parser<PP, integral_constant<sink_func>>{}), P{}, apply<sink_func>,(apply_map_
    .parsersEq (tCall (M (.apply f_sink_func)) [(P Cho3)]) (P (.map Cho3 (.apply (.user f_sink_func)))),  -- 44: DEP_ASSERT_MODIFIER_CALLABLE_R(apply<sink_func>,(PP{}),(apply_map_parser<PP, integral_constant<sink_func>>{}), apply<sink_func>,(P{}),(apply_map_parse
    .parsersEq (tMod (P Cho3) (M (.apply f_sink_func))) (P (.map Cho3 (.apply (.user f_sink_func)))),  -- 44: DEP_ASSERT_MODIFIER_MODULO_OPERABLE_R(PP{}, apply<sink_func>,(apply_map_parser<PP, integral_constant<sink_func>>{}), P{}, apply<sink_func>,(apply_map_
    .parsersEq (tCall (M (.apply f_sink_func)) [(P Cho4)]) (P (.map Cho4 (.apply (.user f_sink_func)))),  -- 44: DEP_ASSERT_MODIFIER_CALLABLE_R(apply<sink_func>,(PP{}),(apply_map_parser<PP, integral_constant<sink_func>>{}), apply<sink_func>,(P{}),(apply_map_parse
    .parsersEq (tMod (P Cho4) (M (.apply f_sink_func))) (P (.map Cho4 (.apply (.user f_sink_func)))),  -- 44: DEP_ASSERT_MODIFIER_MODULO_OPERABLE_R(PP{}, apply<sink_func>,(apply_map_parser<PP, integral_constant<sink_func>>{}), P{}, apply<sink_func>,(apply_map_
    .parsersEq (tCall (M (.apply f_sink_func)) [(P Cho5)]) (P (.map Cho5 (.apply (.user f_sink_func)))),  -- 44: DEP_ASSERT_MODIFIER_CALLABLE_R(apply<sink_func>,(PP{}),(apply_map_parser<PP, integral_constant<sink_func>>{}), apply<sink_func>,(P{}),(apply_map_parse
    .parsersEq (tMod (P Cho5) (M (.apply f_sink_func))) (P (.map Cho5 (.apply (.user f_sink_func)))),  -- 44: DEP_ASSERT_MODIFIER_MODULO_OPERABLE_R(PP{}, apply<sink_func>,(apply_map_parser<PP, integral_constant<sink_func>>{}), P{}, apply<sink_func>,(apply_map_
    .parsersEq (tCall (M (.apply f_sink_func)) [(P Seq1)]) (P (.map Seq1 (.apply (.user f_sink_func)))),  -- 44: DEP_ASSERT_MODIFIER_CALLABLE_R(apply<sink_func>,(PP{}),(apply_map_parser<PP, integral_constant<sink_func>>{}), apply<sink_func>,(P{}),(apply_map_parse
    .parsersEq (tMod (P Seq1) (M (.apply f_sink_func))) (P (.map Seq1 (.apply (.user f_sink_func)))),  -- 44: DEP_ASSERT_MODIFIER_MODULO_OPERABLE_R(PP{}, apply<sink_func>,(apply_map_parser<PP, integral_constant<sink_func>>{}), P{}, apply<sink_func>,(apply_map_
    .parsersEq (tCall (M (.apply f_sink_func)) [(P Seq2)]) (P (.map Seq2 (.apply (.user f_sink_func)))),  -- 44: DEP_ASSERT_MODIFIER_CALLABLE_R(apply<sink_func>,(PP{}),(apply_map_parser<PP, integral_constant<sink_func>>{}), apply<sink_func>,(P{}),(apply_map_parse
    .parsersEq (tMod (P Seq2) (M (.apply f_sink_func))) (P (.map Seq2 (.apply (.user f_sink_func)))),  -- 44: DEP_ASSERT_MODIFIER_MODULO_OPERABLE_R(PP{}, apply<sink_func>,(apply_map_parser<PP, integral_constant<sink_func>>{}), P{}, apply<sink_func>,(apply_map_
    .parsersEq (tCall (M (.apply f_sink_func)) [(P Seq3)]) (P (.map Seq3 (.apply (.user f_sink_func)))),  -- 44: DEP_ASSERT_MODIFIER_CALLABLE_R(apply<sink_func>,(PP{}),(apply_map_parser<PP, integral_constant<sink_func>>{}), apply<sink_func>,(P{}),(apply_map_parse
    .parsersEq (tMod (P Seq3) (M (.apply f_sink_func))) (P (.map Seq3 (.apply (.user f_sink_func)))),  -- 44: DEP_ASSERT_MODIFIER_MODULO_OPERABLE_R(PP{}, apply<sink_func>,(apply_map_parser<PP, integral_constant<sink_func>>{}), P{}, apply<sink_func>,(apply_map_
    .parsersEq (tCall (M (.apply f_sink_func)) [(P Seq4)]) (P (.map Seq4 (.apply (.user f_sink_func)))),  -- 44: DEP_ASSERT_MODIFIER_CALLABLE_R(apply<sink_func>,(PP{}),(apply_map_parser<PP, integral_constant<sink_func>>{}), apply<sink_func>,(P{}),(apply_map_parse
    .parsersEq (tMod (P Seq4) (M (.apply f_sink_func))) (P (.map Seq4 (.apply (.user f_sink_func)))),  -- 44: DEP_ASSERT_MODIFIER_MODULO_OPERABLE_R(PP{}, apply<sink_func>,(apply_map_parser<PP, integral_constant<sink_func>>{}), P{}, apply<sink_func>,(apply_map_
    .parsersEq (tCall (M (.apply f_sink_func)) [(P Seq5)]) (P (.map Seq5 (.apply (.user f_sink_func)))),  -- 44: DEP_ASSERT_MODIFIER_CALLABLE_R(apply<sink_func>,(PP{}),(apply_map_parser<PP, integral_constant<sink_func>>{}), apply<sink_func>,(P{}),(apply_map_parse
    .parsersEq (tMod (P Seq5) (M (.apply f_sink_func))) (P (.map Seq5 (.apply (.user f_sink_func)))),  -- 44: DEP_ASSERT_MODIFIER_MODULO_OPERABLE_R(PP{}, apply<sink_func>,(apply_map_parser<PP, integral_constant<sink_func>>{}), P{}, apply<sink_func>,(apply_map_
    .parsersEq (tCall (M (.apply f_sink_func)) [(P Joi1)]) (P (.map Joi1 (.apply (.user f_sink_func)))),  -- 44: DEP_ASSERT_MODIFIER_CALLABLE_R(apply<sink_func>,(PP{}),(apply_map_parser<PP, integral_constant<sink_func>>{}), apply<sink_func>,(P{}),(apply_map_parse
    .parsersEq (tMod (P Joi1) (M (.apply f_sink_func))) (P (.map Joi1 (.apply (.user f_sink_func)))),  -- 44: DEP_ASSERT_MODIFIER_MODULO_OPERABLE_R(PP{}, apply<sink_func>,(apply_map_parser<PP, integral_constant<sink_func>>{}), P{}, apply<sink_func>,(apply_map_
    .parsersEq (tCall (M (.apply f_sink_func)) [(P Joi2)]) (P (.map Joi2 (.apply (.user f_sink_func)))),  -- 44: DEP_ASSERT_MODIFIER_CALLABLE_R(apply<sink_func>,(PP{}),(apply_map_parser<PP, integral_constant<sink_func>>{}), apply<sink_func>,(P{}),(apply_map_parse
    .parsersEq (tMod (P Joi2) (M (.apply f_sink_func))) (P (.map Joi2 (.apply (.user f_sink_func)))),  -- 44: DEP_ASSERT_MODIFIER_MODULO_OPERABLE_R(PP{}, apply<sink_func>,(apply_map_parser<PP, integral_constant<sink_func>>{}), P{}, apply<sink_func>,(apply_map_
    .parsersEq (tCall (M (.apply f_sink_func)) [(P Joi3)]) (P (.map Joi3 (.apply (.user f_sink_func)))),  -- 44: DEP_ASSERT_MODIFIER_CALLABLE_R(apply<sink_func>,(PP{}),(apply_map_parser<PP, integral_constant<sink_func>>{}), apply<sink_func>,(P{}),(apply_map_parse
    .parsersEq (tMod (P Joi3) (M (.apply f_sink_func))) (P (.map Joi3 (.apply (.user f_sink_func)))),  -- 44: DEP_ASSERT_MODIFIER_MODULO_OPERABLE_R(PP{}, apply<sink_func>,(apply_map_parser<PP, integral_constant<sink_func>>{}), P{}, apply<sink_func>,(apply_map_
    .parsersEq (tCall (M (.apply f_sink_func)) [(P Joi4)]) (P (.map Joi4 (.apply (.user f_sink_func)))),  -- 44: DEP_ASSERT_MODIFIER_CALLABLE_R(apply<sink_func>,(PP{}),(apply_map_parser<PP, integral_constant<sink_func>>{}), apply<sink_func>,(P{}),(apply_map_parse
    .parsersEq (tMod (P Joi4) (M (.apply f_sink_func))) (P (.map Joi4 (.apply (.user f_sink_func)))),  -- 44: DEP_ASSERT_MODIFIER_MODULO_OPERABLE_R(PP{}, apply<sink_func>,(apply_map_parser<PP, integral_constant<sink_func>>{}), P{}, apply<sink_func>,(apply_map_
    .parsersEq (tCall (M (.apply f_sink_func)) [(P Joi5)]) (P (.map Joi5 (.apply (.user f_sink_func)))),  -- 44: DEP_ASSERT_MODIFIER_CALLABLE_R(apply<sink_func>,(PP{}),(apply_map_parser<PP, integral_constant<sink_func>>{}), apply<sink_func>,(P{}),(apply_map_parse
    .parsersEq (tMod (P Joi5) (M (.apply f_sink_func))) (P (.map Joi5 (.apply (.user f_sink_func)))),  -- 44: DEP_ASSERT_MODIFIER_MODULO_OPERABLE_R(PP{}, apply<sink_func>,(apply_map_parser<PP, integral_constant<sink_func>>{}), P{}, apply<sink_func>,(apply_map_
    .parsersEq (tCall (M (.apply f_sink_func)) [(P Map1)]) (P (.map Map1 (.apply (.user f_sink_func)))),  -- 44: DEP_ASSERT_MODIFIER_CALLABLE_R(apply<sink_func>,(PP{}),(apply_map_parser<PP, integral_constant<sink_func>>{}), apply<sink_func>,(P{}),(apply_map_parse
    .parsersEq (tMod (P Map1) (M (.apply f_sink_func))) (P (.map Map1 (.apply (.user f_sink_func)))),  -- 44: DEP_ASSERT_MODIFIER_MODULO_OPERABLE_R(PP{}, apply<sink_func>,(apply_map_parser<PP, integral_constant<sink_func>>{}), P{}, apply<sink_func>,(apply_map_
    .parsersEq (tCall (M (.apply f_sink_func)) [(P Map2)]) (P (.map Map2 (.apply (.user f_sink_func)))),  -- 44: DEP_ASSERT_MODIFIER_CALLABLE_R(apply<sink_func>,(PP{}),(apply_map_parser<PP, integral_constant<sink_func>>{}), apply<sink_func>,(P{}),(apply_map_parse
    .parsersEq (tMod (P Map2) (M (.apply f_sink_func))) (P (.map Map2 (.apply (.user f_sink_func)))),  -- 44: DEP_ASSERT_MODIFIER_MODULO_OPERABLE_R(PP{}, apply<sink_func>,(apply_map_parser<PP, integral_constant<sink_func>>{}), P{}, apply<sink_func>,(apply_map_
    .parsersEq (tCall (M (.apply f_sink_func)) [(P Map3)]) (P (.map Map3 (.apply (.user f_sink_func)))),  -- 44: DEP_ASSERT_MODIFIER_CALLABLE_R(apply<sink_func>,(PP{}),(apply_map_parser<PP, integral_constant<sink_func>>{}), apply<sink_func>,(P{}),(apply_map_parse
    .parsersEq (tMod (P Map3) (M (.apply f_sink_func))) (P (.map Map3 (.apply (.user f_sink_func)))),  -- 44: DEP_ASSERT_MODIFIER_MODULO_OPERABLE_R(PP{}, apply<sink_func>,(apply_map_parser<PP, integral_constant<sink_func>>{}), P{}, apply<sink_func>,(apply_map_
    .parsersEq (tCall (M (.apply f_sink_func)) [(P Map4)]) (P (.map Map4 (.apply (.user f_sink_func)))),  -- 44: DEP_ASSERT_MODIFIER_CALLABLE_R(apply<sink_func>,(PP{}),(apply_map_parser<PP, integral_constant<sink_func>>{}), apply<sink_func>,(P{}),(apply_map_parse
    .parsersEq (tMod (P Map4) (M (.apply f_sink_func))) (P (.map Map4 (.apply (.user f_sink_func)))),  -- 44: DEP_ASSERT_MODIFIER_MODULO_OPERABLE_R(PP{}, apply<sink_func>,(apply_map_parser<PP, integral_constant<sink_func>>{}), P{}, apply<sink_func>,(apply_map_
    .parsersEq (tCall (M (.apply f_sink_func)) [(P Fil1)]) (P (.map Fil1 (.apply (.user f_sink_func)))),  -- 44: DEP_ASSERT_MODIFIER_CALLABLE_R(apply<sink_func>,(PP{}),(apply_map_parser<PP, integral_constant<sink_func>>{}), apply<sink_func>,(P{}),(apply_map_parse
    .parsersEq (tMod (P Fil1) (M (.apply f_sink_func))) (P (.map Fil1 (.apply (.user f_sink_func)))),  -- 44: DEP_ASSERT_MODIFIER_MODULO_OPERABLE_R(PP{}, apply<sink_func>,(apply_map_parser<PP, integral_constant<sink_func>>{}), P{}, apply<sink_func>,(apply_map_
    .parsersEq (tCall (M (.apply f_sink_func)) [(P Fil2)]) (P (.map Fil2 (.apply (.user f_sink_func)))),  -- 44: DEP_ASSERT_MODIFIER_CALLABLE_R(apply<sink_func>,(PP{}),(apply_map_parser<PP, integral_constant<sink_func>>{}), apply<sink_func>,(P{}),(apply_map_parse
    .parsersEq (tMod (P Fil2) (M (.apply f_sink_func))) (P (.map Fil2 (.apply (.user f_sink_func)))),  -- 44: DEP_ASSERT_MODIFIER_MODULO_OPERABLE_R(PP{}, apply<sink_func>,(apply_map_parser<PP, integral_constant<sink_func>>{}), P{}, apply<sink_func>,(apply_map_
    .parsersEq (tCall (M (.apply f_sink_func)) [(P Fil3)]) (P (.map Fil3 (.apply (.user f_sink_func)))),  -- 44: DEP_ASSERT_MODIFIER_CALLABLE_R(apply<sink_func>,(PP{}),(apply_map_parser<PP, integral_constant<sink_func>>{}), apply<sink_func>,(P{}),(apply_map_parse
    .parsersEq (tMod (P Fil3) (M (.apply f_sink_func))) (P (.map Fil3 (.apply (.user f_sink_func)))),  -- 44: DEP_ASSERT_MODIFIER_MODULO_OPERABLE_R(PP{}, apply<sink_func>,(apply_map_parser<PP, integral_constant<sink_func>>{}), P{}, apply<sink_func>,(apply_map_
    .parsersEq (tCall (M (.apply f_sink_func)) [(P Apm1)]) (P (.map Apm1 (.apply (.user f_sink_func)))),  -- 44: DEP_ASSERT_MODIFIER_CALLABLE_R(apply<sink_func>,(PP{}),(apply_map_parser<PP, integral_constant<sink_func>>{}), apply<sink_func>,(P{}),(apply_map_parse
    .parsersEq (tMod (P Apm1) (M (.apply f_sink_func))) (P (.map Apm1 (.apply (.user f_sink_func)))),  -- 44: DEP_ASSERT_MODIFIER_MODULO_OPERABLE_R(PP{}, apply<sink_func>,(apply_map_parser<PP, integral_constant<sink_func>>{}), P{}, apply<sink_func>,(apply_map_
    .parsersEq (tCall (M (.apply f_sink_func)) [(P Apm2)]) (P (.map Apm2 (.apply (.user f_sink_func)))),  -- 44: DEP_ASSERT_MODIFIER_CALLABLE_R(apply<sink_func>,(PP{}),(apply_map_parser<PP, integral_constant<sink_func>>{}), apply<sink_func>,(P{}),(apply_map_parse
    .parsersEq (tMod (P Apm2) (M (.apply f_sink_func))) (P (.map Apm2 (.apply (.user f_sink_func)))),  -- 44: DEP_ASSERT_MODIFIER_MODULO_OPERABLE_R(PP{}, apply<sink_func>,(apply_map_parser<PP, integral_constant<sink_func>>{}), P{}, apply<sink_func>,(apply_map_
    .parsersEq (tCall (M (.apply f_sink_func)) [(P Apf1)]) (P (.map Apf1 (.apply (.user f_sink_func)))),  -- 44: DEP_ASSERT_MODIFIER_CALLABLE_R(apply<sink_func>,(PP{}),(apply_map_parser<PP, integral_constant<sink_func>>{}), apply<sink_func>,(P{}),(apply_map_parse
    .parsersEq (tMod (P Apf1) (M (.apply f_sink_func))) (P (.map Apf1 (.apply (.user f_sink_func))))  -- 44: DEP_ASSERT_MODIFIER_MODULO_OPERABLE_R(PP{}, apply<sink_func>,(apply_map_parser<PP, integral_constant<sink_func>>{}), P{}, apply<sink_func>,(apply_map_
    ], Assertion.Holds a :=
  Assertion.holds_of_check (by decide +kernel)

/-- apply modifier / modify anything (tests/char-tests/modifiers/apply.cpp:44) -/
theorem charModifiersApply_3_3 : ∀ a ∈ [
    .parsersEq (tCall (M (.apply f_sink_func)) [(P Int1)]) (P (.map Int1 (.apply (.user f_sink_func)))),  -- 44: DEP_ASSERT_MODIFIER_CALLABLE_R(apply<sink_func>,(PP{}),(apply_map_parser<PP, integral_constant<sink_func>>{}), apply<sink_func>,(P{}),(apply_map_parse
    .parsersEq (tMod (P Int1) (M (.apply f_sink_func))) (P (.map Int1 (.apply (.user f_sink_func)))),  -- 44: DEP_ASSERT_MODIFIER_MODULO_OPERABLE_R(PP{}, apply<sink_func>,(apply_map_parser<PP, integral_constant<sink_func>>{}), P{}, apply<sink_func>,(apply_map_
    .parsersEq (tCall (M (.apply f_sink_func)) [(P Int2)]) (P (.map Int2 (.apply (.user f_sink_func)))),  -- 44: DEP_ASSERT_MODIFIER_CALLABLE_R(apply<sink_func>,(PP{}),(apply_map_parser<PP, integral_constant<sink_func>>{}), apply<sink_func>,(P{}),(apply_map_parse
    .parsersEq (tMod (P Int2) (M (.apply f_sink_func))) (P (.map Int2 (.apply (.user f_sink_func)))),  -- 44: DEP_ASSERT_MODIFIER_MODULO_OPERABLE_R(PP{}, apply<sink_func>,(apply_map_parser<PP, integral_constant<sink_func>>{}), P{}, apply<sink_func>,(apply_map_
    .parsersEq (tCall (M (.apply f_sink_func)) [(P Int3)]) (P (.map Int3 (.apply (.user f_sink_func)))),  -- 44: DEP_ASSERT_MODIFIER_CALLABLE_R(apply<sink_func>,(PP{}),(apply_map_parser<PP, integral_constant<sink_func>>{}), apply<sink_func>,(P{}),(apply_map_parse
    .parsersEq (tMod (P Int3) (M (.apply f_sink_func))) (P (.map Int3 (.apply (.user f_sink_func)))),  -- 44: DEP_ASSERT_MODIFIER_MODULO_OPERABLE_R(PP{}, apply<sink_func>,(apply_map_parser<PP, integral_constant<sink_func>>{}), P{}, apply<sink_func>,(apply_map_
    .parsersEq (tCall (M (.apply f_sink_func)) [(P Api1)]) (P (.map Api1 (.apply (.user f_sink_func)))),  -- 44: DEP_ASSERT_MODIFIER_CALLABLE_R(apply<sink_func>,(PP{}),(apply_map_parser<PP, integral_constant<sink_func>>{}), apply<sink_func>,(P{}),(apply_map_parse
    .parsersEq (tMod (P Api1) (M (.apply f_sink_func))) (P (.map Api1 (.apply (.user f_sink_func)))),  -- 44: DEP_ASSERT_MODIFIER_MODULO_OPERABLE_R(PP{}, apply<sink_func>,(apply_map_parser<PP, integral_constant<sink_func>>{}), P{}, apply<sink_func>,(apply_map_
    .parsersEq (tCall (M (.apply f_sink_func)) [(P Api2)]) (P (.map Api2 (.apply (.user f_sink_func)))),  -- 44: DEP_ASSERT_MODIFIER_CALLABLE_R(apply<sink_func>,(PP{}),(apply_map_parser<PP, integral_constant<sink_func>>{}), apply<sink_func>,(P{}),(apply_map_parse
    .parsersEq (tMod (P Api2) (M (.apply f_sink_func))) (P (.map Api2 (.apply (.user f_sink_func)))),  -- 44: DEP_ASSERT_MODIFIER_MODULO_OPERABLE_R(PP{}, apply<sink_func>,(apply_map_parser<PP, integral_constant<sink_func>>{}), P{}, apply<sink_func>,(apply_map_
    .parsersEq (tCall (M (.apply f_sink_func)) [(P Con1)]) (P (.map Con1 (.apply (.user f_sink_func)))),  -- 44: DEP_ASSERT_MODIFIER_CALLABLE_R(apply<sink_func>,(PP{}),(apply_map_parser<PP, integral_constant<sink_func>>{}), apply<sink_func>,(P{}),(apply_map_parse
    .parsersEq (tMod (P Con1) (M (.apply f_sink_func))) (P (.map Con1 (.apply (.user f_sink_func)))),  -- 44: DEP_ASSERT_MODIFIER_MODULO_OPERABLE_R(PP{}, apply<sink_func>,(apply_map_parser<PP, integral_constant<sink_func>>{}), P{}, apply<sink_func>,(apply_map_
    .parsersEq (tCall (M (.apply f_sink_func)) [(P Con2)]) (P (.map Con2 (.apply (.user f_sink_func)))),  -- 44: DEP_ASSERT_MODIFIER_CALLABLE_R(apply<sink_func>,(PP{}),(apply_map_parser<PP, integral_constant<sink_func>>{}), apply<sink_func>,(P{}),(apply_map_parse
    .parsersEq (tMod (P Con2) (M (.apply f_sink_func))) (P (.map Con2 (.apply (.user f_sink_func)))),  -- 44: DEP_ASSERT_MODIFIER_MODULO_OPERABLE_R(PP{}, apply<sink_func>,(apply_map_parser<PP, integral_constant<sink_func>>{}), P{}, apply<sink_func>,(apply_map_
    .parsersEq (tCall (M (.apply f_sink_func)) [(P Con3)]) (P (.map Con3 (.apply (.user f_sink_func)))),  -- 44: DEP_ASSERT_MODIFIER_CALLABLE_R(apply<sink_func>,(PP{}),(apply_map_parser<PP, integral_constant<sink_func>>{}), apply<sink_func>,(P{}),(apply_map_parse
    .parsersEq (tMod (P Con3) (M (.apply f_sink_func))) (P (.map Con3 (.apply (.user f_sink_func)))),  -- 44: DEP_ASSERT_MODIFIER_MODULO_OPERABLE_R(PP{}, apply<sink_func>,(apply_map_parser<PP, integral_constant<sink_func>>{}), P{}, apply<sink_func>,(apply_map_
    .parsersEq (tCall (M (.apply f_sink_func)) [(P Con4)]) (P (.map Con4 (.apply (.user f_sink_func)))),  -- 44: DEP_ASSERT_MODIFIER_CALLABLE_R(apply<sink_func>,(PP{}),(apply_map_parser<PP, integral_constant<sink_func>>{}), apply<sink_func>,(P{}),(apply_map_parse
    .parsersEq (tMod (P Con4) (M (.apply f_sink_func))) (P (.map Con4 (.apply (.user f_sink_func)))),  -- 44: DEP_ASSERT_MODIFIER_MODULO_OPERABLE_R(PP{}, apply<sink_func>,(apply_map_parser<PP, integral_constant<sink_func>>{}), P{}, apply<sink_func>,(apply_map_
    .parsersEq (tCall (M (.apply f_sink_func)) [(P Def1)]) (P (.map Def1 (.apply (.user f_sink_func)))),  -- 44: DEP_ASSERT_MODIFIER_CALLABLE_R(apply<sink_func>,(PP{}),(apply_map_parser<PP, integral_constant<sink_func>>{}), apply<sink_func>,(P{}),(apply_map_parse
    .parsersEq (tMod (P Def1) (M (.apply f_sink_func))) (P (.map Def1 (.apply (.user f_sink_func)))),  -- 44: DEP_ASSERT_MODIFIER_MODULO_OPERABLE_R(PP{}, apply<sink_func>,(apply_map_parser<PP, integral_constant<sink_func>>{}), P{}, apply<sink_func>,(apply_map_
    .parsersEq (tCall (M (.apply f_sink_func)) [(P Def2)]) (P (.map Def2 (.apply (.user f_sink_func)))),  -- 44: DEP_ASSERT_MODIFIER_CALLABLE_R(apply<sink_func>,(PP{}),(apply_map_parser<PP, integral_constant<sink_func>>{}), apply<sink_func>,(P{}),(apply_map_parse
    .parsersEq (tMod (P Def2) (M (.apply f_sink_func))) (P (.map Def2 (.apply (.user f_sink_func)))),  -- 44: DEP_ASSERT_MODIFIER_MODULO_OPERABLE_R(PP{}, apply<sink_func>,(apply_map_parser<PP, integral_constant<sink_func>>{}), P{}, apply<sink_func>,(apply_map_
    .parsersEq (tCall (M (.apply f_sink_func)) [(P (.custom 0))]) (P (.map (.custom 0) (.apply (.user f_sink_func)))),  -- 44: DEP_ASSERT_MODIFIER_CALLABLE_R(apply<sink_func>,(PP{}),(apply_map_parser<PP, integral_constant<sink_func>>{}), apply<sink_func>,(P{}),(apply_map_parse
    .parsersEq (tMod (P (.custom 0)) (M (.apply f_sink_func))) (P (.map (.custom 0) (.apply (.user f_sink_func)))),  -- 44: DEP_ASSERT_MODIFIER_MODULO_OPERABLE_R(PP{}, apply<sink_func>,(apply_map_parser<PP, integral_constant<sink_func>>{}), P{}, apply<sink_func>,(apply_map_
    .parsersEq (tCall (M (.apply f_sink_func)) [(P (.custom 1))]) (P (.map (.custom 1) (.apply (.user f_sink_func)))),  -- 44: DEP_ASSERT_MODIFIER_CALLABLE_R(apply<sink_func>,(PP{}),(apply_map_parser<PP, integral_constant<sink_func>>{}), apply<sink_func>,(P{}),(apply_map_parse
    .parsersEq (tMod (P (.custom 1)) (M (.apply f_sink_func))) (P (.map (.custom 1) (.apply (.user f_sink_func)))),  -- 44: DEP_ASSERT_MODIFIER_MODULO_OPERABLE_R(PP{}, apply<sink_func>,(apply_map_parser<PP, integral_constant<sink_func>>{}), P{}, apply<sink_func>,(apply_map_
    .parsersEq (tCall (M (.apply f_sink_func)) [(P May1)]) (P (.map May1 (.apply (.user f_sink_func)))),  -- 44: DEP_ASSERT_MODIFIER_CALLABLE_R(apply<sink_func>,(PP{}),(apply_map_parser<PP, integral_constant<sink_func>>{}), apply<sink_func>,(P{}),(apply_map_parse
    .parsersEq (tMod (P May1) (M (.apply f_sink_func))) (P (.map May1 (.apply (.user f_sink_func)))),  -- 44: DEP_ASSERT_MODIFIER_MODULO_OPERABLE_R(PP{}, apply<sink_func>,(apply_map_parser<PP, integral_constant<sink_func>>{}), P{}, apply<sink_func>,(apply_map_
    .parsersEq (tCall (M (.apply f_sink_func)) [(P May2)]) (P (.map May2 (.apply (.user f_sink_func)))),  -- 44: DEP_ASSERT_MODIFIER_CALLABLE_R(apply<sink_func>,(PP{}),(apply_map_parser<PP, integral_constant<sink_func>>{}), apply<sink_func>,(P{}),(apply_map_parse
    .parsersEq (tMod (P May2) (M (.apply f_sink_func))) (P (.map May2 (.apply (.user f_sink_func)))),  -- 44: DEP_ASSERT_MODIFIER_MODULO_OPERABLE_R(PP{}, apply<sink_func>,(apply_map_parser<PP, integral_constant<sink_func>>{}), P{}, apply<sink_func>,(apply_map_
    .parsersEq (tCall (M (.apply f_sink_func)) [(P May3)]) (P (.map May3 (.apply (.user f_sink_func)))),  -- 44: DEP_ASSERT_MODIFIER_CALLABLE_R(apply<sink_func>,(PP{}),(apply_map_parser<PP, integral_constant<sink_func>>{}), apply<sink_func>,(P{}),(apply_map_parse
    .parsersEq (tMod (P May3) (M (.apply f_sink_func))) (P (.map May3 (.apply (.user f_sink_func)))),  -- 44: DEP_ASSERT_MODIFIER_MODULO_OPERABLE_R(PP{}, apply<sink_func>,(apply_map_parser<PP, integral_constant<sink_func>>{}), P{}, apply<sink_func>,(apply_map_
    .parsersEq (tCall (M (.apply f_sink_func)) [(P May4)]) (P (.map May4 (.apply (.user f_sink_func)))),  -- 44: DEP_ASSERT_MODIFIER_CALLABLE_R(apply<sink_func>,(PP{}),(apply_map_parser<PP, integral_constant<sink_func>>{}), apply<sink_func>,(P{}),(apply_map_parse
    .parsersEq (tMod (P May4) (M (.apply f_sink_func))) (P (.map May4 (.apply (.user f_sink_func)))),  -- 44: DEP_ASSERT_MODIFIER_MODULO_OPERABLE_R(PP{}, apply<sink_func>,(apply_map_parser<PP, integral_constant<sink_func>>{}), P{}, apply<sink_func>,(apply_map_
    .parsersEq (tCall (M (.apply f_sink_func)) [(P Exa1)]) (P (.map Exa1 (.apply (.user f_sink_func)))),  -- 44: DEP_ASSERT_MODIFIER_CALLABLE_R(apply<sink_func>,(PP{}),(apply_map_parser<PP, integral_constant<sink_func>>{}), apply<sink_func>,(P{}),(apply_map_parse
    .parsersEq (tMod (P Exa1) (M (.apply f_sink_func))) (P (.map Exa1 (.apply (.user f_sink_func)))),  -- 44: DEP_ASSERT_MODIFIER_MODULO_OPERABLE_R(PP{}, apply<sink_func>,(apply_map_parser<PP, integral_constant<sink_func>>{}), P{}, apply<sink_func>,(apply_map_
    .parsersEq (tCall (M (.apply f_sink_func)) [(P Exa2)]) (P (.map Exa2 (.apply (.user f_sink_func)))),  -- 44: DEP_ASSERT_MODIFIER_CALLABLE_R(apply<sink_func>,(PP{}),(apply_map_parser<PP, integral_constant<sink_func>>{}), apply<sink_func>,(P{}),(apply_map_parse
    .parsersEq (tMod (P Exa2) (M (.apply f_sink_func))) (P (.map Exa2 (.apply (.user f_sink_func)))),  -- 44: DEP_ASSERT_MODIFIER_MODULO_OPERABLE_R(PP{}, apply<sink_func>,(apply_map_parser<PP, integral_constant<sink_func>>{}), P{}, apply<sink_func>,(apply_map_
    .parsersEq (tCall (M (.apply f_sink_func)) [(P Exa3)]) (P (.map Exa3 (.apply (.user f_sink_func)))),  -- 44: DEP_ASSERT_MODIFIER_CALLABLE_R(apply<sink_func>,(PP{}),(apply_map_parser<PP, integral_constant<sink_func>>{}), apply<sink_func>,(P{}),(apply_map_parse
    .parsersEq (tMod (P Exa3) (M (.apply f_sink_func))) (P (.map Exa3 (.apply (.user f_sink_func)))),  -- 44: DEP_ASSERT_MODIFIER_MODULO_OPERABLE_R(PP{}, apply<sink_func>,(apply_map_parser<PP, integral_constant<sink_func>>{}), P{}, apply<sink_func>,(apply_map_
    .parsersEq (tCall (M (.apply f_sink_func)) [(P Exa4)]) (P (.map Exa4 (.apply (.user f_sink_func)))),  -- 44: DEP_ASSERT_MODIFIER_CALLABLE_R(apply<sink_func>,(PP{}),(apply_map_parser<PP, integral_constant<sink_func>>{}), apply<sink_func>,(P{}),(apply_map_parse
    .parsersEq (tMod (P Exa4) (M (.apply f_sink_func))) (P (.map Exa4 (.apply (.user f_sink_func)))),  -- 44: DEP_ASSERT_MODIFIER_MODULO_OPERABLE_R(PP{}, apply<sink_func>,(apply_map_parser<PP, integral_constant<sink_func>>{}), P{}, apply<sink_func>,(apply_map_
    .parsersEq (tCall (M (.apply f_sink_func)) [(P Oom1)]) (P (.map Oom1 (.apply (.user f_sink_func)))),  -- 44: DEP_ASSERT_MODIFIER_CALLABLE_R(apply<sink_func>,(PP{}),(apply_map_parser<PP, integral_constant<sink_func>>{}), apply<sink_func>,(P{}),(apply_map_parse
    .parsersEq (tMod (P Oom1) (M (.apply f_sink_func))) (P (.map Oom1 (.apply (.user f_sink_func)))),  -- 44: DEP_ASSERT_MODIFIER_MODULO_OPERABLE_R(PP{}, apply<sink_func>,(apply_map_parser<PP, integral_constant<sink_func>>{}), P{}, apply<sink_func>,(apply_map_
    .parsersEq (tCall (M (.apply f_sink_func)) [(P Oom2)]) (P (.map Oom2 (.apply (.user f_sink_func)))),  -- 44: DEP_ASSERT_MODIFIER_CALLABLE_R(apply<sink_func>,(PP{}),(apply_map_parser<PP, integral_constant<sink_func>>{}), apply<sink_func>,(P{}),(apply_map_parse
    .parsersEq (tMod (P Oom2) (M (.apply f_sink_func))) (P (.map Oom2 (.apply (.user f_sink_func)))),  -- 44: DEP_ASSERT_MODIFIER_MODULO_OPERABLE_R(PP{}, apply<sink_func>,(apply_map_parser<PP, integral_constant<sink_func>>{}), P{}, apply<sink_func>,(apply_map_
    .parsersEq (tCall (M (.apply f_sink_func)) [(P Oom3)]) (P (.map Oom3 (.apply (.user f_sink_func)))),  -- 44: DEP_ASSERT_MODIFIER_CALLABLE_R(apply<sink_func>,(PP{}),(apply_map_parser<PP, integral_constant<sink_func>>{}), apply<sink_func>,(P{}),(apply_map_parse
    .parsersEq (tMod (P Oom3) (M (.apply f_sink_func))) (P (.map Oom3 (.apply (.user f_sink_func)))),  -- 44: DEP_ASSERT_MODIFIER_MODULO_OPERABLE_R(PP{}, apply<sink_func>,(apply_map_parser<PP, integral_constant<sink_func>>{}), P{}, apply<sink_func>,(apply_map_
    .parsersEq (tCall (M (.apply f_sink_func)) [(P Oom4)]) (P (.map Oom4 (.apply (.user f_sink_func)))),  -- 44: DEP_ASSERT_MODIFIER_CALLABLE_R(apply<sink_func>,(PP{}),(apply_map_parser<PP, integral_constant<sink_func>>{}), apply<sink_func>,(P{}),(apply_map_parse
    .parsersEq (tMod (P Oom4) (M (.apply f_sink_func))) (P (.map Oom4 (.apply (.user f_sink_func)))),  -- 44: DEP_ASSERT_MODIFIER_MODULO_OPERABLE_R(PP{}, apply<sink_func>,(apply_map_parser<PP, integral_constant<sink_func>>{}), P{}, apply<sink_func>,(apply_map_
    .parsersEq (tCall (M (.apply f_sink_func)) [(P Zom1)]) (P (.map Zom1 (.apply (.user f_sink_func)))),  -- 44: DEP_ASSERT_MODIFIER_CALLABLE_R(apply<sink_func>,(PP{}),(apply_map_parser<PP, integral_constant<sink_func>>{}), apply<sink_func>,(P{}),(apply_map_parse
    .parsersEq (tMod (P Zom1) (M (.apply f_sink_func))) (P (.map Zom1 (.apply (.user f_sink_func)))),  -- 44: DEP_ASSERT_MODIFIER_MODULO_OPERABLE_R(PP{}, apply<sink_func>,(apply_map_parser<PP, integral_constant<sink_func>>{}), P{}, apply<sink_func>,(apply_map_
    .parsersEq (tCall (M (.apply f_sink_func)) [(P Zom2)]) (P (.map Zom2 (.apply (.user f_sink_func)))),  -- 44: DEP_ASSERT_MODIFIER_CALLABLE_R(apply<sink_func>,(PP{}),(apply_map_parser<PP, integral_constant<sink_func>>{}), apply<sink_func>,(P{}),(apply_map_parse
    .parsersEq (tMod (P Zom2) (M (.apply f_sink_func))) (P (.map Zom2 (.apply (.user f_sink_func)))),  -- 44: DEP_ASSERT_MODIFIER_MODULO_OPERABLE_R(PP{}, apply<sink_func>,(apply_map_parser<PP, integral_constant<sink_func>>{}), P{}, apply<sink_func>,(apply_map_
    .parsersEq (tCall (M (.apply f_sink_func)) [(P Zom3)]) (P (.map Zom3 (.apply (.user f_sink_func)))),  -- 44: DEP_ASSERT_MODIFIER_CALLABLE_R(apply<sink_func>,(PP{}),(apply_map_parser<PP, integral_constant<sink_func>>{}), apply<sink_func>,(P{}),(apply_map_parse
    .parsersEq (tMod (P Zom3) (M (.apply f_sink_func))) (P (.map Zom3 (.apply (.user f_sink_func)))),  -- 44: DEP_ASSERT_MODIFIER_MODULO_OPERABLE_R(PP{}, apply<sink_func>,(apply_map_parser<PP, integral_constant<sink_func>>{}), P{}, apply<sink_func>,(apply_map_
    .parsersEq (tCall (M (.apply f_sink_func)) [(P Zom4)]) (P (.map Zom4 (.apply (.user f_sink_func)))),  -- 44: DEP_ASSERT_MODIFIER_CALLABLE_R(apply<sink_func>,(PP{}),(apply_map_parser<PP, integral_constant<sink_func>>{}), apply<sink_func>,(P{}),(apply_map_parse
    .parsersEq (tMod (P Zom4) (M (.apply f_sink_func))) (P (.map Zom4 (.apply (.user f_sink_func)))),  -- 44: DEP_ASSERT_MODIFIER_MODULO_OPERABLE_R(PP{}, apply<sink_func>,(apply_map_parser<PP, integral_constant<sink_func>>{}), P{}, apply<sink_func>,(apply_map_
    .parsersEq (tCall (M (.apply f_sink_func)) [(P Del1)]) (P (.map Del1 (.apply (.user f_sink_func)))),  -- 44: DEP_ASSERT_MODIFIER_CALLABLE_R(apply<sink_func>,(PP{}),(apply_map_parser<PP, integral_constant<sink_func>>{}), apply<sink_func>,(P{}),(apply_map_parse
    .parsersEq (tMod (P Del1) (M (.apply f_sink_func))) (P (.map Del1 (.apply (.user f_sink_func))))  -- 44: DEP_ASSERT_MODIFIER_MODULO_OPERABLE_R(PP{}, apply<sink_func>,(apply_map_parser<PP, integral_constant<sink_func>>{}), P{}, apply<sink_func>,(apply_map_
    ], Assertion.Holds a :=
  Assertion.holds_of_check (by decide +kernel)

/-- apply modifier / modify anything (tests/char-tests/modifiers/apply.cpp:44) -/
theorem charModifiersApply_3_4 : ∀ a ∈ [
    .parsersEq (tCall (M (.apply f_sink_func)) [(P Del2)]) (P (.map Del2 (.apply (.user f_sink_func)))),  -- 44: DEP_ASSERT_MODIFIER_CALLABLE_R(apply<sink_func>,(PP{}),(apply_map_parser<PP, integral_constant<sink_func>>{}), apply<sink_func>,(P{}),(apply_map_parse
    .parsersEq (tMod (P Del2) (M (.apply f_sink_func))) (P (.map Del2 (.apply (.user f_sink_func)))),  -- 44: DEP_ASSERT_MODIFIER_MODULO_OPERABLE_R(PP{}, apply<sink_func>,(apply_map_parser<PP, integral_constant<sink_func>>{}), P{}, apply<sink_func>,(apply_map_
    .parsersEq (tCall (M (.apply f_sink_func)) [(P Del3)]) (P (.map Del3 (.apply (.user f_sink_func)))),  -- 44: DEP_ASSERT_MODIFIER_CALLABLE_R(apply<sink_func>,(PP{}),(apply_map_parser<PP, integral_constant<sink_func>>{}), apply<sink_func>,(P{}),(apply_map_parse
    .parsersEq (tMod (P Del3) (M (.apply f_sink_func))) (P (.map Del3 (.apply (.user f_sink_func)))),  -- 44: DEP_ASSERT_MODIFIER_MODULO_OPERABLE_R(PP{}, apply<sink_func>,(apply_map_parser<PP, integral_constant<sink_func>>{}), P{}, apply<sink_func>,(apply_map_
    .parsersEq (tCall (M (.apply f_sink_func)) [(P Del4)]) (P (.map Del4 (.apply (.user f_sink_func)))),  -- 44: DEP_ASSERT_MODIFIER_CALLABLE_R(apply<sink_func>,(PP{}),(apply_map_parser<PP, integral_constant<sink_func>>{}), apply<sink_func>,(P{}),(apply_map_parse
    .parsersEq (tMod (P Del4) (M (.apply f_sink_func))) (P (.map Del4 (.apply (.user f_sink_func)))),  -- 44: DEP_ASSERT_MODIFIER_MODULO_OPERABLE_R(PP{}, apply<sink_func>,(apply_map_parser<PP, integral_constant<sink_func>>{}), P{}, apply<sink_func>,(apply_map_
    .parsersEq (tCall (M (.apply f_sink_func)) [(P Del5)]) (P (.map Del5 (.apply (.user f_sink_func)))),  -- 44: DEP_ASSERT_MODIFIER_CALLABLE_R(apply<sink_func>,(PP{}),(apply_map_parser<PP, integral_constant<sink_func>>{}), apply<sink_func>,(P{}),(apply_map_parse
    .parsersEq (tMod (P Del5) (M (.apply f_sink_func))) (P (.map Del5 (.apply (.user f_sink_func)))),  -- 44: DEP_ASSERT_MODIFIER_MODULO_OPERABLE_R(PP{}, apply<sink_func>,(apply_map_parser<PP, integral_constant<sink_func>>{}), P{}, apply<sink_func>,(apply_map_
    .parsersEq (tCall (M (.apply f_sink_func)) [(P Del6)]) (P (.map Del6 (.apply (.user f_sink_func)))),  -- 44: DEP_ASSERT_MODIFIER_CALLABLE_R(apply<sink_func>,(PP{}),(apply_map_parser<PP, integral_constant<sink_func>>{}), apply<sink_func>,(P{}),(apply_map_parse
    .parsersEq (tMod (P Del6) (M (.apply f_sink_func))) (P (.map Del6 (.apply (.user f_sink_func)))),  -- 44: DEP_ASSERT_MODIFIER_MODULO_OPERABLE_R(PP{}, apply<sink_func>,(apply_map_parser<PP, integral_constant<sink_func>>{}), P{}, apply<sink_func>,(apply_map_
    .parsersEq (tCall (M (.apply f_sink_func)) [(P Del7)]) (P (.map Del7 (.apply (.user f_sink_func)))),  -- 44: DEP_ASSERT_MODIFIER_CALLABLE_R(apply<sink_func>,(PP{}),(apply_map_parser<PP, integral_constant<sink_func>>{}), apply<sink_func>,(P{}),(apply_map_parse
    .parsersEq (tMod (P Del7) (M (.apply f_sink_func))) (P (.map Del7 (.apply (.user f_sink_func)))),  -- 44: DEP_ASSERT_MODIFIER_MODULO_OPERABLE_R(PP{}, apply<sink_func>,(apply_map_parser<PP, integral_constant<sink_func>>{}), P{}, apply<sink_func>,(apply_map_
    .parsersEq (tCall (M (.apply f_sink_func)) [(P Del8)]) (P (.map Del8 (.apply (.user f_sink_func)))),  -- 44: DEP_ASSERT_MODIFIER_CALLABLE_R(apply<sink_func>,(PP{}),(apply_map_parser<PP, integral_constant<sink_func>>{}), apply<sink_func>,(P{}),(apply_map_parse
    .parsersEq (tMod (P Del8) (M (.apply f_sink_func))) (P (.map Del8 (.apply (.user f_sink_func)))),  -- 44: DEP_ASSERT_MODIFIER_MODULO_OPERABLE_R(PP{}, apply<sink_func>,(apply_map_parser<PP, integral_constant<sink_func>>{}), P{}, apply<sink_func>,(apply_map_
    .parsersEq (tCall (M (.apply f_sink_func)) [(P Dek1)]) (P (.map Dek1 (.apply (.user f_sink_func)))),  -- 44: DEP_ASSERT_MODIFIER_CALLABLE_R(apply<sink_func>,(PP{}),(apply_map_parser<PP, integral_constant<sink_func>>{}), apply<sink_func>,(P{}),(apply_map_parse
    .parsersEq (tMod (P Dek1) (M (.apply f_sink_func))) (P (.map Dek1 (.apply (.user f_sink_func)))),  -- 44: DEP_ASSERT_MODIFIER_MODULO_OPERABLE_R(PP{}, apply<sink_func>,(apply_map_parser<PP, integral_constant<sink_func>>{}), P{}, apply<sink_func>,(apply_map_
    .parsersEq (tCall (M (.apply f_sink_func)) [(P Dek2)]) (P (.map Dek2 (.apply (.user f_sink_func)))),  -- 44: DEP_ASSERT_MODIFIER_CALLABLE_R(apply<sink_func>,(PP{}),(apply_map_parser<PP, integral_constant<sink_func>>{}), apply<sink_func>,(P{}),(apply_map_parse
    .parsersEq (tMod (P Dek2) (M (.apply f_sink_func))) (P (.map Dek2 (.apply (.user f_sink_func)))),  -- 44: DEP_ASSERT_MODIFIER_MODULO_OPERABLE_R(PP{}, apply<sink_func>,(apply_map_parser<PP, integral_constant<sink_func>>{}), P{}, apply<sink_func>,(apply_map_
    .parsersEq (tCall (M (.apply f_sink_func)) [(P Dek3)]) (P (.map Dek3 (.apply (.user f_sink_func)))),  -- 44: DEP_ASSERT_MODIFIER_CALLABLE_R(apply<sink_func>,(PP{}),(apply_map_parser<PP, integral_constant<sink_func>>{}), apply<sink_func>,(P{}),(apply_map_parse
    .parsersEq (tMod (P Dek3) (M (.apply f_sink_func))) (P (.map Dek3 (.apply (.user f_sink_func)))),  -- 44: DEP_ASSERT_MODIFIER_MODULO_OPERABLE_R(PP{}, apply<sink_func>,(apply_map_parser<PP, integral_constant<sink_func>>{}), P{}, apply<sink_func>,(apply_map_
    .parsersEq (tCall (M (.apply f_sink_func)) [(P Dek4)]) (P (.map Dek4 (.apply (.user f_sink_func)))),  -- 44: DEP_ASSERT_MODIFIER_CALLABLE_R(apply<sink_func>,(PP{}),(apply_map_parser<PP, integral_constant<sink_func>>{}), apply<sink_func>,(P{}),(apply_map_parse
    .parsersEq (tMod (P Dek4) (M (.apply f_sink_func))) (P (.map Dek4 (.apply (.user f_sink_func)))),  -- 44: DEP_ASSERT_MODIFIER_MODULO_OPERABLE_R(PP{}, apply<sink_func>,(apply_map_parser<PP, integral_constant<sink_func>>{}), P{}, apply<sink_func>,(apply_map_
    .parsersEq (tCall (M (.apply f_sink_func)) [(P Dek5)]) (P (.map Dek5 (.apply (.user f_sink_func)))),  -- 44: DEP_ASSERT_MODIFIER_CALLABLE_R(apply<sink_func>,(PP{}),(apply_map_parser<PP, integral_constant<sink_func>>{}), apply<sink_func>,(P{}),(apply_map_parse
    .parsersEq (tMod (P Dek5) (M (.apply f_sink_func))) (P (.map Dek5 (.apply (.user f_sink_func)))),  -- 44: DEP_ASSERT_MODIFIER_MODULO_OPERABLE_R(PP{}, apply<sink_func>,(apply_map_parser<PP, integral_constant<sink_func>>{}), P{}, apply<sink_func>,(apply_map_
    .parsersEq (tCall (M (.apply f_sink_func)) [(P Dek6)]) (P (.map Dek6 (.apply (.user f_sink_func)))),  -- 44: DEP_ASSERT_MODIFIER_CALLABLE_R(apply<sink_func>,(PP{}),(apply_map_parser<PP, integral_constant<sink_func>>{}), apply<sink_func>,(P{}),(apply_map_parse
    .parsersEq (tMod (P Dek6) (M (.apply f_sink_func))) (P (.map Dek6 (.apply (.user f_sink_func)))),  -- 44: DEP_ASSERT_MODIFIER_MODULO_OPERABLE_R(PP{}, apply<sink_func>,(apply_map_parser<PP, integral_constant<sink_func>>{}), P{}, apply<sink_func>,(apply_map_
    .parsersEq (tCall (M (.apply f_sink_func)) [(P Dek7)]) (P (.map Dek7 (.apply (.user f_sink_func)))),  -- 44: DEP_ASSERT_MODIFIER_CALLABLE_R(apply<sink_func>,(PP{}),(apply_map_parser<PP, integral_constant<sink_func>>{}), apply<sink_func>,(P{}),(apply_map_parse
    .parsersEq (tMod (P Dek7) (M (.apply f_sink_func))) (P (.map Dek7 (.apply (.user f_sink_func)))),  -- 44: DEP_ASSERT_MODIFIER_MODULO_OPERABLE_R(PP{}, apply<sink_func>,(apply_map_parser<PP, integral_constant<sink_func>>{}), P{}, apply<sink_func>,(apply_map_
    .parsersEq (tCall (M (.apply f_sink_func)) [(P Dek8)]) (P (.map Dek8 (.apply (.user f_sink_func)))),  -- 44: DEP_ASSERT_MODIFIER_CALLABLE_R(apply<sink_func>,(PP{}),(apply_map_parser<PP, integral_constant<sink_func>>{}), apply<sink_func>,(P{}),(apply_map_parse
    .parsersEq (tMod (P Dek8) (M (.apply f_sink_func))) (P (.map Dek8 (.apply (.user f_sink_func))))  -- 44: DEP_ASSERT_MODIFIER_MODULO_OPERABLE_R(PP{}, apply<sink_func>,(apply_map_parser<PP, integral_constant<sink_func>>{}), P{}, apply<sink_func>,(apply_map_
    ], Assertion.Holds a :=
  Assertion.holds_of_check (by decide +kernel)

end Tok3n.Tests
