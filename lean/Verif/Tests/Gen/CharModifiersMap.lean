import Verif.Tests.Gen.SamplesChar
/- Generated by tools/tests2lean.py from tests/char-tests/modifiers/map.cpp. -/

namespace Tok3n.Tests

/-- map modifier / prefix (tests/char-tests/modifiers/map.cpp:14) -/
theorem charModifiersMap_1 : ∀ a ∈ [
    .parsersEq (P Map1) (tCall (M (.map f_func1)) [(tPlus (P ABC))]),  -- 14: ASSERT_PARSER_VALUES_EQ(map1, map<func1>(+ abc))
    .parsersEq (P Map2) (tCall (M (.map f_func2)) [(tMaybe (tOr (P ABC) (P QQ)))]),  -- 15: ASSERT_PARSER_VALUES_EQ(map2, map<func2>(~(abc | qq)))
    .parsersEq (P Map3) (tCall (M (.map f_func3)) [(tThen (P ABC) (tStar (P QQ)))]),  -- 16: ASSERT_PARSER_VALUES_EQ(map3, map<func3>(abc>> * qq))
    .parsersEq (P Map4) (tCall (M (.map f_func4)) [(tThen (tPlus (P ABC)) (tMaybe (tOr (P ABC) (P QQ))))]),  -- 17: ASSERT_PARSER_VALUES_EQ(map4, map<func4(3)>(+ abc>> ~(abc | qq)))
    .parsersNe (P Map4) (tCall (M (.map (f_func4 + 100 * 2))) [(tThen (tPlus (P ABC)) (tMaybe (tOr (P ABC) (P QQ))))])  -- 18: ASSERT_PARSER_VALUES_NE(map4, map<func4(2)>(+ abc>> ~(abc | qq)))
    ], Assertion.Holds a :=
  Assertion.holds_of_check (by decide +kernel)

/-- map modifier / infix (tests/char-tests/modifiers/map.cpp:23) -/
theorem charModifiersMap_2 : ∀ a ∈ [
    .parsersEq (P Map1) (tMod (tPlus (P ABC)) (M (.map f_func1))),  -- 23: ASSERT_PARSER_VALUES_EQ(map1, + abc % map<func1>)
    .parsersEq (P Map2) (tMod (tMaybe (tOr (P ABC) (P QQ))) (M (.map f_func2))),  -- 24: ASSERT_PARSER_VALUES_EQ(map2, ~(abc | qq) % map<func2>)
    .parsersEq (P Map3) (tMod (tThen (P ABC) (tStar (P QQ))) (M (.map f_func3))),  -- 25: ASSERT_PARSER_VALUES_EQ(map3,(abc>> * qq) % map<func3>)
    .parsersEq (P Map4) (tMod (tThen (tPlus (P ABC)) (tMaybe (tOr (P ABC) (P QQ)))) (M (.map f_func4))),  -- 26: ASSERT_PARSER_VALUES_EQ(map4,(+ abc>> ~(abc | qq)) % map<func4(3)>)
    .parsersNe (P Map4) (tMod (tThen (tPlus (P ABC)) (tMaybe (tOr (P ABC) (P QQ)))) (M (.map (f_func4 + 100 * 2))))  -- 27: ASSERT_PARSER_VALUES_NE(map4,(+ abc>> ~(abc | qq)) % map<func4(2)>)
    ], Assertion.Holds a :=
  Assertion.holds_of_check (by decide +kernel)

/-- map modifier / modify anything (tests/char-tests/modifiers/map.cpp:48) -/
theorem charModifiersMap_3_1 : ∀ a ∈ [
    .parsersEq (tCall (M (.map f_sink_func)) [(P Ign1)]) (P (.map Ign1 (.user f_sink_func))),  -- 48: DEP_ASSERT_MODIFIER_CALLABLE_R(map<sink_func>,(PP{}),(map_parser<PP, integral_constant<sink_func>>{}), map<sink_func>,(P{}),(map_parser<P, integral_co
    .parsersEq (tMod (P Ign1) (M (.map f_sink_func))) (P (.map Ign1 (.user f_sink_func))),  -- 48: DEP_ASSERT_MODIFIER_MODULO_OPERABLE_R(PP{}, map<sink_func>,(map_parser<PP, integral_constant<sink_func>>{}), P{}, map<sink_func>,(map_parser<P, integr
    .parsersEq (tCall (M (.map f_sink_func)) [(P Ign2)]) (P (.map Ign2 (.user f_sink_func))),  -- 48: DEP_ASSERT_MODIFIER_CALLABLE_R(map<sink_func>,(PP{}),(map_parser<PP, integral_constant<sink_func>>{}), map<sink_func>,(P{}),(map_parser<P, integral_co
    .parsersEq (tMod (P Ign2) (M (.map f_sink_func))) (P (.map Ign2 (.user f_sink_func))),  -- 48: DEP_ASSERT_MODIFIER_MODULO_OPERABLE_R(PP{}, map<sink_func>,(map_parser<PP, integral_constant<sink_func>>{}), P{}, map<sink_func>,(map_parser<P, integr
    .parsersEq (tCall (M (.map f_sink_func)) [(P Ign3)]) (P (.map Ign3 (.user f_sink_func))),  -- 48: DEP_ASSERT_MODIFIER_CALLABLE_R(map<sink_func>,(PP{}),(map_parser<PP, integral_constant<sink_func>>{}), map<sink_func>,(P{}),(map_parser<P, integral_co
    .parsersEq (tMod (P Ign3) (M (.map f_sink_func))) (P (.map Ign3 (.user f_sink_func))),  -- 48: DEP_ASSERT_MODIFIER_MODULO_OPERABLE_R(PP{}, map<sink_func>,(map_parser<PP, integral_constant<sink_func>>{}), P{}, map<sink_func>,(map_parser<P, integr
    .parsersEq (tCall (M (.map f_sink_func)) [(P Ign4)]) (P (.map Ign4 (.user f_sink_func))),  -- 48: DEP_ASSERT_MODIFIER_CALLABLE_R(map<sink_func>,(PP{}),(map_parser<PP, integral_constant<sink_func>>{}), map<sink_func>,(P{}),(map_parser<P, integral_co
    .parsersEq (tMod (P Ign4) (M (.map f_sink_func))) (P (.map Ign4 (.user f_sink_func))),  -- 48: DEP_ASSERT_MODIFIER_MODULO_OPERABLE_R(PP{}, map<sink_func>,(map_parser<PP, integral_constant<sink_func>>{}), P{}, map<sink_func>,(map_parser<P, integr
    .parsersEq (tCall (M (.map f_sink_func)) [(P Ign5)]) (P (.map Ign5 (.user f_sink_func))),  -- 48: DEP_ASSERT_MODIFIER_CALLABLE_R(map<sink_func>,(PP{}),(map_parser<PP, integral_constant<sink_func>>{}), map<sink_func>,(P{}),(map_parser<P, integral_co
    .parsersEq (tMod (P Ign5) (M (.map f_sink_func))) (P (.map Ign5 (.user f_sink_func))),  -- 48: DEP_ASSERT_MODIFIER_MODULO_OPERABLE_R(PP{}, map<sink_func>,(map_parser<PP, integral_constant<sink_func>>{}), P{}, map<sink_func>,(map_parser<P, integr
    .parsersEq (tCall (M (.map f_sink_func)) [(P Com1)]) (P (.map Com1 (.user f_sink_func))),  -- 48: DEP_ASSERT_MODIFIER_CALLABLE_R(map<sink_func>,(PP{}),(map_parser<PP, integral_constant<sink_func>>{}), map<sink_func>,(P{}),(map_parser<P, integral_co
    .parsersEq (tMod (P Com1) (M (.map f_sink_func))) (P (.map Com1 (.user f_sink_func))),  -- 48: DEP_ASSERT_MODIFIER_MODULO_OPERABLE_R(PP{}, map<sink_func>,(map_parser<PP, integral_constant<sink_func>>{}), P{}, map<sink_func>,(map_parser<P, integr
    .parsersEq (tCall (M (.map f_sink_func)) [(P Com2)]) (P (.map Com2 (.user f_sink_func))),  -- 48: DEP_ASSERT_MODIFIER_CALLABLE_R(map<sink_func>,(PP{}),(map_parser<PP, integral_constant<sink_func>>{}), map<sink_func>,(P{}),(map_parser<P, integral_co
    .parsersEq (tMod (P Com2) (M (.map f_sink_func))) (P (.map Com2 (.user f_sink_func))),  -- 48: DEP_ASSERT_MODIFIER_MODULO_OPERABLE_R(PP{}, map<sink_func>,(map_parser<PP, integral_constant<sink_func>>{}), P{}, map<sink_func>,(map_parser<P, integr
    .parsersEq (tCall (M (.map f_sink_func)) [(P Com3)]) (P (.map Com3 (.user f_sink_func))),  -- 48: DEP_ASSERT_MODIFIER_CALLABLE_R(map<sink_func>,(PP{}),(map_parser<PP, integral_constant<sink_func>>{}), map<sink_func>,(P{}),(map_parser<P, integral_co
    .parsersEq (tMod (P Com3) (M (.map f_sink_func))) (P (.map Com3 (.user f_sink_func))),  -- 48: DEP_ASSERT_MODIFIER_MODULO_OPERABLE_R(PP{}, map<sink_func>,(map_parser<PP, integral_constant<sink_func>>{}), P{}, map<sink_func>,(map_parser<P, integr
    .parsersEq (tCall (M (.map f_sink_func)) [(P Com4)]) (P (.map Com4 (.user f_sink_func))),  -- 48: DEP_ASSERT_MODIFIER_CALLABLE_R(map<sink_func>,(PP{}),(map_parser<PP, integral_constant<sink_func>>{}), map<sink_func>,(P{}),(map_parser<P, integral_co
    .parsersEq (tMod (P Com4) (M (.map f_sink_func))) (P (.map Com4 (.user f_sink_func))),  -- 48: DEP_ASSERT_MODIFIER_MODULO_OPERABLE_R(PP{}, map<sink_func>,(map_parser<PP, integral_constant<sink_func>>{}), P{}, map<sink_func>,(map_parser<P, integr
    .parsersEq (tCall (M (.map f_sink_func)) [(P Com5)]) (P (.map Com5 (.user f_sink_func))),  -- 48: DEP_ASSERT_MODIFIER_CALLABLE_R(map<sink_func>,(PP{}),(map_parser<PP, integral_constant<sink_func>>{}), map<sink_func>,(P{}),(map_parser<P, integral_co
    .parsersEq (tMod (P Com5) (M (.map f_sink_func))) (P (.map Com5 (.user f_sink_func))),  -- 48: DEP_ASSERT_MODIFIER_MODULO_OPERABLE_R(PP{}, map<sink_func>,(map_parser<PP, integral_constant<sink_func>>{}), P{}, map<sink_func>,(map_parser<P, integr
    .parsersEq (tCall (M (.map f_sink_func)) [(P Com6)]) (P (.map Com6 (.user f_sink_func))),  -- 48: DEP_ASSERT_MODIFIER_CALLABLE_R(map<sink_func>,(PP{}),(map_parser<PP, integral_constant<sink_func>>{}), map<sink_func>,(P{}),(map_parser<P, integral_co
    .parsersEq (tMod (P Com6) (M (.map f_sink_func))) (P (.map Com6 (.user f_sink_func))),  -- 48: DEP_ASSERT_MODIFIER_MODULO_OPERABLE_R(PP{}, map<sink_func>,(map_parser<PP, integral_constant<sink_func>>{}), P{}, map<sink_func>,(map_parser<P, integr
    .parsersEq (tCall (M (.map f_sink_func)) [(P Com7)]) (P (.map Com7 (.user f_sink_func))),  -- 48: DEP_ASSERT_MODIFIER_CALLABLE_R(map<sink_func>,(PP{}),(map_parser<PP, integral_constant<sink_func>>{}), map<sink_func>,(P{}),(map_parser<P, integral_co
    .parsersEq (tMod (P Com7) (M (.map f_sink_func))) (P (.map Com7 (.user f_sink_func))),  -- 48: DEP_ASSERT_MODIFIER_MODULO_OPERABLE_R(PP{}, map<sink_func>,(map_parser<PP, integral_constant<sink_func>>{}), P{}, map<sink_func>,(map_parser<P, integr
    .parsersEq (tCall (M (.map f_sink_func)) [(P Nam1)]) (P (.map Nam1 (.user f_sink_func))),  -- 48: DEP_ASSERT_MODIFIER_CALLABLE_R(map<sink_func>,(PP{}),(map_parser<PP, integral_constant<sink_func>>{}), map<sink_func>,(P{}),(map_parser<P, integral_co
    .parsersEq (tMod (P Nam1) (M (.map f_sink_func))) (P (.map Nam1 (.user f_sink_func))),  -- 48: DEP_ASSERT_MODIFIER_MODULO_OPERABLE_R(PP{}, map<sink_func>,(map_parser<PP, integral_constant<sink_func>>{}), P{}, map<sink_func>,(map_parser<P, integr
    .parsersEq (tCall (M (.map f_sink_func)) [(P Nam2)]) (P (.map Nam2 (.user f_sink_func))),  -- 48: DEP_ASSERT_MODIFIER_CALLABLE_R(map<sink_func>,(PP{}),(map_parser<PP, integral_constant<sink_func>>{}), map<sink_func>,(P{}),(map_parser<P, integral_co
    .parsersEq (tMod (P Nam2) (M (.map f_sink_func))) (P (.map Nam2 (.user f_sink_func))),  -- 48: DEP_ASSERT_MODIFIER_MODULO_OPERABLE_R(PP{}, map<sink_func>,(map_parser<PP, integral_constant<sink_func>>{}), P{}, map<sink_func>,(map_parser<P, integr
    .parsersEq (tCall (M (.map f_sink_func)) [(P Nam3)]) (P (.map Nam3 (.user f_sink_func))),  -- 48: DEP_ASSERT_MODIFIER_CALLABLE_R(map<sink_func>,(PP{}),(map_parser<PP, integral_constant<sink_func>>{}), map<sink_func>,(P{}),(map_parser<P, integral_co
    .parsersEq (tMod (P Nam3) (M (.map f_sink_func))) (P (.map Nam3 (.user f_sink_func))),  -- 48: DEP_ASSERT_MODIFIER_MODULO_OPERABLE_R(PP{}, map<sink_func>,(map_parser<PP, integral_constant<sink_func>>{}), P{}, map<sink_func>,(map_parser<P, integr
    .parsersEq (tCall (M (.map f_sink_func)) [(P Nam4)]) (P (.map Nam4 (.user f_sink_func))),  -- 48: DEP_ASSERT_MODIFIER_CALLABLE_R(map<sink_func>,(PP{}),(map_parser<PP, integral_constant<sink_func>>{}), map<sink_func>,(P{}),(map_parser<P, integral_co
    .parsersEq (tMod (P Nam4) (M (.map f_sink_func))) (P (.map Nam4 (.user f_sink_func))),  -- 48: DEP_ASSERT_MODIFIER_MODULO_OPERABLE_R(PP{}, map<sink_func>,(map_parser<PP, integral_constant<sink_func>>{}), P{}, map<sink_func>,(map_parser<P, integr
    .parsersEq (tCall (M (.map f_sink_func)) [(P Any1)]) (P (.map Any1 (.user f_sink_func))),  -- 48: DEP_ASSERT_MODIFIER_CALLABLE_R(map<sink_func>,(PP{}),(map_parser<PP, integral_constant<sink_func>>{}), map<sink_func>,(P{}),(map_parser<P, integral_co
    .parsersEq (tMod (P Any1) (M (.map f_sink_func))) (P (.map Any1 (.user f_sink_func))),  -- 48: DEP_ASSERT_MODIFIER_MODULO_OPERABLE_R(PP{}, map<sink_func>,(map_parser<PP, integral_constant<sink_func>>{}), P{}, map<sink_func>,(map_parser<P, integr
    .parsersEq (tCall (M (.map f_sink_func)) [(P Any2)]) (P (.map Any2 (.user f_sink_func))),  -- 48: DEP_ASSERT_MODIFIER_CALLABLE_R(map<sink_func>,(PP{}),(map_parser<PP, integral_constant<sink_func>>{}), map<sink_func>,(P{}),(map_parser<P, integral_co
    .parsersEq (tMod (P Any2) (M (.map f_sink_func))) (P (.map Any2 (.user f_sink_func))),  -- 48: DEP_ASSERT_MODIFIER_MODULO_OPERABLE_R(PP{}, map<sink_func>,(map_parser<PP, integral_constant<sink_func>>{}), P{}, map<sink_func>,(map_parser<P, integr
    .parsersEq (tCall (M (.map f_sink_func)) [(P Any3)]) (P (.map Any3 (.user f_sink_func))),  -- 48: DEP_ASSERT_MODIFIER_CALLABLE_R(map<sink_func>,(PP{}),(map_parser<PP, integral_constant<sink_func>>{}), map<sink_func>,(P{}),(map_parser<P, integral_co
    .parsersEq (tMod (P Any3) (M (.map f_sink_func))) (P (.map Any3 (.user f_sink_func))),  -- 48: DEP_ASSERT_MODIFIER_MODULO_OPERABLE_R(PP{}, map<sink_func>,(map_parser<PP, integral_constant<sink_func>>{}), P{}, map<sink_func>,(map_parser<P, integr
    .parsersEq (tCall (M (.map f_sink_func)) [(P Any4)]) (P (.map Any4 (.user f_sink_func))),  -- 48: DEP_ASSERT_MODIFIER_CALLABLE_R(map<sink_func>,(PP{}),(map_parser<PP, integral_constant<sink_func>>{}), map<sink_func>,(P{}),(map_parser<P, integral_co
    .parsersEq (tMod (P Any4) (M (.map f_sink_func))) (P (.map Any4 (.user f_sink_func))),  -- 48: DEP_ASSERT_MODIFIER_MODULO_OPERABLE_R(PP{}, map<sink_func>,(map_parser<PP, integral_constant<sink_func>>{}), P{}, map<sink_func>,(map_parser<P, integr
    .parsersEq (tCall (M (.map f_sink_func)) [(P Non1)]) (P (.map Non1 (.user f_sink_func))),  -- 48: DEP_ASSERT_MODIFIER_CALLABLE_R(map<sink_func>,(PP{}),(map_parser<PP, integral_constant<sink_func>>{}), map<sink_func>,(P{}),(map_parser<P, integral_co
    .parsersEq (tMod (P Non1) (M (.map f_sink_func))) (P (.map Non1 (.user f_sink_func))),  -- 48: DEP_ASSERT_MODIFIER_MODULO_OPERABLE_R(PP{}, map<sink_func>,(map_parser<PP, integral_constant<sink_func>>{}), P{}, map<sink_func>,(map_parser<P, integr
    .parsersEq (tCall (M (.map f_sink_func)) [(P Non2)]) (P (.map Non2 (.user f_sink_func))),  -- 48: DEP_ASSERT_MODIFIER_CALLABLE_R(map<sink_func>,(PP{}),(map_parser<PP, integral_constant<sink_func>>{}), map<sink_func>,(P{}),(map_parser<P, integral_co
    .parsersEq (tMod (P Non2) (M (.map f_sink_func))) (P (.map Non2 (.user f_sink_func))),  -- 48: DEP_ASSERT_MODIFIER_MODULO_OPERABLE_R(PP{}, map<sink_func>,(map_parser<PP, integral_constant<sink_func>>{}), P{}, map<sink_func>,(map_parser<P, integr
    .parsersEq (tCall (M (.map f_sink_func)) [(P Non3)]) (P (.map Non3 (.user f_sink_func))),  -- 48: DEP_ASSERT_MODIFIER_CALLABLE_R(map<sink_func>,(PP{}),(map_parser<PP, integral_constant<sink_func>>{}), map<sink_func>,(P{}),(map_parser<P, integral_co
    .parsersEq (tMod (P Non3) (M (.map f_sink_func))) (P (.map Non3 (.user f_sink_func))),  -- 48: DEP_ASSERT_MODIFIER_MODULO_OPERABLE_R(PP{}, map<sink_func>,(map_parser<PP, integral_constant<sink_func>>{}), P{}, map<sink_func>,(map_parser<P, integr
    .parsersEq (tCall (M (.map f_sink_func)) [(P Non4)]) (P (.map Non4 (.user f_sink_func))),  -- 48: DEP_ASSERT_MODIFIER_CALLABLE_R(map<sink_func>,(PP{}),(map_parser<PP, integral_constant<sink_func>>{}), map<sink_func>,(P{}),(map_parser<P, integral_co
    .parsersEq (tMod (P Non4) (M (.map f_sink_func))) (P (.map Non4 (.user f_sink_func))),  -- 48: DEP_ASSERT_MODIFIER_MODULO_OPERABLE_R(PP{}, map<sink_func>,(map_parser<PP, integral_constant<sink_func>>{}), P{}, map<sink_func>,(map_parser<P, integr
    .parsersEq (tCall (M (.map f_sink_func)) [(P Non5)]) (P (.map Non5 (.user f_sink_func))),  -- 48: DEP_ASSERT_MODIFIER_CALLABLE_R(map<sink_func>,(PP{}),(map_parser<PP, integral_constant<sink_func>>{}), map<sink_func>,(P{}),(map_parser<P, integral_co
    .parsersEq (tMod (P Non5) (M (.map f_sink_func))) (P (.map Non5 (.user f_sink_func))),  -- 48: DEP_ASSERT_MODIFIER_MODULO_OPERABLE_R(PP{}, map<sink_func>,(map_parser<PP, integral_constant<sink_func>>{}), P{}, map<sink_func>,(map_parser<P, integr
    .parsersEq (tCall (M (.map f_sink_func)) [(P All1)]) (P (.map All1 (.user f_sink_func))),  -- 48: DEP_ASSERT_MODIFIER_CALLABLE_R(map<sink_func>,(PP{}),(map_parser<PP, integral_constant<sink_func>>{}), map<sink_func>,(P{}),(map_parser<P, integral_co
    .parsersEq (tMod (P All1) (M (.map f_sink_func))) (P (.map All1 (.user f_sink_func))),  -- 48: DEP_ASSERT_MODIFIER_MODULO_OPERABLE_R(PP{}, map<sink_func>,(map_parser<PP, integral_constant<sink_func>>{}), P{}, map<sink_func>,(map_parser<P, integr
    .parsersEq (tCall (M (.map f_sink_func)) [(P All2)]) (P (.map All2 (.user f_sink_func))),  -- 48: DEP_ASSERT_MODIFIER_CALLABLE_R(map<sink_func>,(PP{}),(map_parser<PP, integral_constant<sink_func>>{}), map<sink_func>,(P{}),(map_parser<P, integral_co
    .parsersEq (tMod (P All2) (M (.map f_sink_func))) (P (.map All2 (.user f_sink_func))),  -- 48: DEP_ASSERT_MODIFIER_MODULO_OPERABLE_R(PP{}, map<sink_func>,(map_parser<PP, integral_constant<sink_func>>{}), P{}, map<sink_func>,(map_parser<P, integr
    .parsersEq (tCall (M (.map f_sink_func)) [(P All3)]) (P (.map All3 (.user f_sink_func))),  -- 48: DEP_ASSERT_MODIFIER_CALLABLE_R(map<sink_func>,(PP{}),(map_parser<PP, integral_constant<sink_func>>{}), map<sink_func>,(P{}),(map_parser<P, integral_co
    .parsersEq (tMod (P All3) (M (.map f_sink_func))) (P (.map All3 (.user f_sink_func))),  -- 48: DEP_ASSERT_MODIFIER_MODULO_OPERABLE_R(PP{}, map<sink_func>,(map_parser<PP, integral_constant<sink_func>>{}), P{}, map<sink_func>,(map_parser<P, integr
    .parsersEq (tCall (M (.map f_sink_func)) [(P All4)]) (P (.map All4 (.user f_sink_func))),  -- 48: DEP_ASSERT_MODIFIER_CALLABLE_R(map<sink_func>,(PP{}),(map_parser<PP, integral_constant<sink_func>>{}), map<sink_func>,(P{}),(map_parser<P, integral_co
    .parsersEq (tMod (P All4) (M (.map f_sink_func))) (P (.map All4 (.user f_sink_func))),  -- 48: DEP_ASSERT_MODIFIER_MODULO_OPERABLE_R(PP{}, map<sink_func>,(map_parser<PP, integral_constant<sink_func>>{}), P{}, map<sink_func>,(map_parser<P, integr
    .parsersEq (tCall (M (.map f_sink_func)) [(P Eps1)]) (P (.map Eps1 (.user f_sink_func))),  -- 48: DEP_ASSERT_MODIFIER_CALLABLE_R(map<sink_func>,(PP{}),(map_parser<PP, integral_constant<sink_func>>{}), map<sink_func>,(P{}),(map_parser<P, integral_co
    .parsersEq (tMod (P Eps1) (M (.map f_sink_func))) (P (.map Eps1 (.user f_sink_func)))  -- 48: DEP_ASSERT_MODIFIER_MODULO_OPERABLE_R(PP{}, map<sink_func>,(map_parser<PP, integral_constant<sink_func>>{}), P{}, map<sink_func>,(map_parser<P, integr
    ], Assertion.Holds a :=
  Assertion.holds_of_check (by decide +kernel)

/-- map modifier / modify anything (tests/char-tests/modifiers/map.cpp:48) -/
theorem charModifiersMap_3_2 : ∀ a ∈ [
    .parsersEq (tCall (M (.map f_sink_func)) [(P Ant1)]) (P (.map Ant1 (.user f_sink_func))),  -- 48: DEP_ASSERT_MODIFIER_CALLABLE_R(map<sink_func>,(PP{}),(map_parser<PP, integral_constant<sink_func>>{}), map<sink_func>,(P{}),(map_parser<P, integral_co
    .parsersEq (tMod (P Ant1) (M (.map f_sink_func))) (P (.map Ant1 (.user f_sink_func))),  -- 48: DEP_ASSERT_MODIFIER_MODULO_OPERABLE_R(PP{}, map<sink_func>,(map_parser<PP, integral_constant<sink_func>>{}), P{}, map<sink_func>,(map_parser<P, integr
    .parsersEq (tCall (M (.map f_sink_func)) [(P QQ)]) (P (.map QQ (.user f_sink_func))),  -- 48: DEP_ASSERT_MODIFIER_CALLABLE_R(map<sink_func>,(PP{}),(map_parser<PP, integral_constant<sink_func>>{}), map<sink_func>,(P{}),(map_parser<P, integral_co
    .parsersEq (tMod (P QQ) (M (.map f_sink_func))) (P (.map QQ (.user f_sink_func))),  -- 48: DEP_ASSERT_MODIFIER_MODULO_OPERABLE_R(PP{}, map<sink_func>,(map_parser<PP, integral_constant<sink_func>>{}), P{}, map<sink_func>,(map_parser<P, integr
    .parsersEq (tCall (M (.map f_sink_func)) [(P ABC)]) (P (.map ABC (.user f_sink_func))),  -- 48: DEP_ASSERT_MODIFIER_CALLABLE_R(map<sink_func>,(PP{}),(map_parser<PP, integral_constant<sink_func>>{}), map<sink_func>,(P{}),(map_parser<P, integral_co
    .parsersEq (tMod (P ABC) (M (.map f_sink_func))) (P (.map ABC (.user f_sink_func))),  -- 48: DEP_ASSERT_MODIFIER_MODULO_OPERABLE_R(PP{}, map<sink_func>,(map_parser<PP, integral_constant<sink_func>>{}), P{}, map<sink_func>,(map_parser<P, integr
    .parsersEq (tCall (M (.map f_sink_func)) [(P Comma)]) (P (.map Comma (.user f_sink_func))),  -- 48: DEP_ASSERT_MODIFIER_CALLABLE_R(map<sink_func>,(PP{}),(map_parser<PP, integral_constant<sink_func>>{}), map<sink_func>,(P{}),(map_parser<P, integral_co
    .parsersEq (tMod (P Comma) (M (.map f_sink_func))) (P (.map Comma (.user f_sink_func))),  -- 48: DEP_ASSERT_MODIFIER_MODULO_OPERABLE_R(PP{}, map<sink_func>,(map_parser<PP, integral_constant<sink_func>>{}), P{}, map<sink_func>,(map_parser<P, integr
    .parsersEq (tCall (M (.map f_sink_func)) [(P SpaceDot)]) (P (.map SpaceDot (.user f_sink_func))),  -- 48: DEP_ASSERT_MODIFIER_CALLABLE_R(map<sink_func>,(PP{}),(map_parser<PP, integral_constant<sink_func>>{}), map<sink_func>,(P{}),(map_parser<P, integral_co
    .parsersEq (tMod (P SpaceDot) (M (.map f_sink_func))) (P (.map SpaceDot (.user f_sink_func))),  -- 48: DEP_ASSERT_MODIFIER_MODULO_OPERABLE_R(PP{}, map<sink_func>,(map_parser<PP, integral_constant<sink_func>>{}), P{}, map<sink_func>,(map_parser<P, integr
    .parsersEq (tCall (M (.map f_sink_func)) [(P Cho1)]) (P (.map Cho1 (.user f_sink_func))),  -- 48: DEP_ASSERT_MODIFIER_CALLABLE_R(map<sink_func>,(PP{}),(map_parser<PP, integral_constant<sink_func>>{}), map<sink_func>,(P{}),(map_parser<P, integral_co
    .parsersEq (tMod (P Cho1) (M (.map f_sink_func))) (P (.map Cho1 (.user f_sink_func))),  -- 48: DEP_ASSERT_MODIFIER_MODULO_OPERABLE_R(PP{}, map<sink_func>,(map_parser<PP, integral_constant<sink_func>>{}), P{}, map<sink_func>,(map_parser<P, integr
    .parsersEq (tCall (M (.map f_sink_func)) [(P Cho2)]) (P (.map Cho2 (.user f_sink_func))),  -- 48: DEP_ASSERT_MODIFIER_CALLABLE_R(map<sink_func>,(PP{}),(map_parser<PP, integral_constant<sink_func>>{}), map<sink_func>,(P{}),(map_parser<P, integral_co
    .parsersEq (tMod (P Cho2) (M (.map f_sink_func))) (P (.map Cho2 (.user f_sink_func))),  -- 48: DEP_ASSERT_MODIFIER_MODULO_OPERABLE_R(PP{}, map<sink_func>,(map_parser<PP, integral_constant<sink_func>>{}), P{}, map<sink_func>,(map_parser<P, integr
    .parsersEq (tCall (M (.map f_sink_func)) [(P Cho3)]) (P (.map Cho3 (.user f_sink_func))),  -- 48: DEP_ASSERT_MODIFIER_CALLABLE_R(map<sink_func>,(PP{}),(map_parser<PP, integral_constant<sink_func>>{}), map<sink_func>,(P{}),(map_parser<P, integral_co
    .parsersEq (tMod (P Cho3) (M (.map f_sink_func))) (P (.map Cho3 (.user f_sink_func))),  -- 48: DEP_ASSERT_MODIFIER_MODULO_OPERABLE_R(PP{}, map<sink_func>,(map_parser<PP, integral_constant<sink_func>>{}), P{}, map<sink_func>,(map_parser<P, integr
    .parsersEq (tCall (M (.map f_sink_func)) [(P Cho4)]) (P (.map Cho4 (.user f_sink_func))),  -- 48: DEP_ASSERT_MODIFIER_CALLABLE_R(map<sink_func>,(PP{}),(map_parser<PP, integral_constant<sink_func>>{}), map<sink_func>,(P{}),(map_parser<P, integral_co
    .parsersEq (tMod (P Cho4) (M (.map f_sink_func))) (P (.map Cho4 (.user f_sink_func))),  -- 48: DEP_ASSERT_MODIFIER_MODULO_OPERABLE_R(PP{}, map<sink_func>,(map_parser<PP, integral_constant<sink_func>>{}), P{}, map<sink_func>,(map_parser<P, integr
    .parsersEq (tCall (M (.map f_sink_func)) [(P Cho5)]) (P (.map Cho5 (.user f_sink_func))),  -- 48: DEP_ASSERT_MODIFIER_CALLABLE_R(map<sink_func>,(PP{}),(map_parser<PP, integral_constant<sink_func>>{}), map<sink_func>,(P{}),(map_parser<P, integral_co
    .parsersEq (tMod (P Cho5) (M (.map f_sink_func))) (P (.map Cho5 (.user f_sink_func))),  -- 48: DEP_ASSERT_MODIFIER_MODULO_OPERABLE_R(PP{}, map<sink_func>,(map_parser<PP, integral_constant<sink_func>>{}), P{}, map<sink_func>,(map_parser<P, integr
    .parsersEq (tCall (M (.map f_sink_func)) [(P Seq1)]) (P (.map Seq1 (.user f_sink_func))),  -- 48: DEP_ASSERT_MODIFIER_CALLABLE_R(map<sink_func>,(PP{}),(map_parser<PP, integral_constant<sink_func>>{}), map<sink_func>,(P{}),(map_parser<P, integral_co
    .parsersEq (tMod (P Seq1) (M (.map f_sink_func))) (P (.map Seq1 (.user f_sink_func))),  -- 48: DEP_ASSERT_MODIFIER_MODULO_OPERABLE_R(PP{}, map<sink_func>,(map_parser<PP, integral_constant<sink_func>>{}), P{}, map<sink_func>,(map_parser<P, integr
    .parsersEq (tCall (M (.map f_sink_func)) [(P Seq2)]) (P (.map Seq2 (.user f_sink_func))),  -- 48: DEP_ASSERT_MODIFIER_CALLABLE_R(map<sink_func>,(PP{}),(map_parser<PP, integral_constant<sink_func>>{}), map<sink_func>,(P{}),(map_parser<P, integral_co
    .parsersEq (tMod (P Seq2) (M (.map f_sink_func))) (P (.map Seq2 (.user f_sink_func))),  -- 48: DEP_ASSERT_MODIFIER_MODULO_OPERABLE_R(PP{}, map<sink_func>,(map_parser<PP, integral_constant<sink_func>>{}), P{}, map<sink_func>,(map_parser<P, integr
    .parsersEq (tCall (M (.map f_sink_func)) [(P Seq3)]) (P (.map Seq3 (.user f_sink_func))),  -- 48: DEP_ASSERT_MODIFIER_CALLABLE_R(map<sink_func>,(PP{}),(map_parser<PP, integral_constant<sink_func>>{}), map<sink_func>,(P{}),(map_parser<P, integral_co
    .parsersEq (tMod (P Seq3) (M (.map f_sink_func))) (P (.map Seq3 (.user f_sink_func))),  -- 48: DEP_ASSERT_MODIFIER_MODULO_OPERABLE_R(PP{}, map<sink_func>,(map_parser<PP, integral_constant<sink_func>>{}), P{}, map<sink_func>,(map_parser<P, integr
    .parsersEq (tCall (M (.map f_sink_func)) [(P Seq4)]) (P (.map Seq4 (.user f_sink_func))),  -- 48: DEP_ASSERT_MODIFIER_CALLABLE_R(map<sink_func>,(PP{}),(map_parser<PP, integral_constant<sink_func>>{}), map<sink_func>,(P{}),(map_parser<P, integral_co
    .parsersEq (tMod (P Seq4) (M (.map f_sink_func))) (P (.map Seq4 (.user f_sink_func))),  -- 48: DEP_ASSERT_MODIFIER_MODULO_OPERABLE_R(PP{}, map<sink_func>,(map_parser<PP, integral_constant<sink_func>>{}), P{}, map<sink_func>,(map_parser<P, integr
    .parsersEq (tCall (M (.map f_sink_func)) [(P Seq5)]) (P (.map Seq5 (.user f_sink_func))),  -- 48: DEP_ASSERT_MODIFIER_CALLABLE_R(map<sink_func>,(PP{}),(map_parser<PP, integral_constant<sink_func>>{}), map<sink_func>,(P{}),(map_parser<P, integral_co
    .parsersEq (tMod (P Seq5) (M (.map f_sink_func))) (P (.map Seq5 (.user f_sink_func))),  -- 48: DEP_ASSERT_MODIFIER_MODULO_OPERABLE_R(PP{}, map<sink_func>,(map_parser<PP, integral_constant<sink_func>>{}), P{}, map<sink_func>,(map_parser<P, integr
    .parsersEq (tCall (M (.map f_sink_func)) [(P Joi1)]) (P (.map Joi1 (.user f_sink_func))),  -- 48: DEP_ASSERT_MODIFIER_CALLABLE_R(map<sink_func>,(PP{}),(map_parser<PP, integral_constant<sink_func>>{}), map<sink_func>,(P{}),(map_parser<P, integral_co
    .parsersEq (tMod (P Joi1) (M (.map f_sink_func))) (P (.map Joi1 (.user f_sink_func))),  -- 48: DEP_ASSERT_MODIFIER_MODULO_OPERABLE_R(PP{}, map<sink_func>,(map_parser<PP, integral_constant<sink_func>>{}), P{}, map<sink_func>,(map_parser<P, integr
    .parsersEq (tCall (M (.map f_sink_func)) [(P Joi2)]) (P (.map Joi2 (.user f_sink_func))),  -- 48: DEP_ASSERT_MODIFIER_CALLABLE_R(map<sink_func>,(PP{}),(map_parser<PP, integral_constant<sink_func>>{}), map<sink_func>,(P{}),(map_parser<P, integral_co
    .parsersEq (tMod (P Joi2) (M (.map f_sink_func))) (P (.map Joi2 (.user f_sink_func))),  -- 48: DEP_ASSERT_MODIFIER_MODULO_OPERABLE_R(PP{}, map<sink_func>,(map_parser<PP, integral_constant<sink_func>>{}), P{}, map<sink_func>,(map_parser<P, integr
    .parsersEq (tCall (M (.map f_sink_func)) [(P Joi3)]) (P (.map Joi3 (.user f_sink_func))),  -- 48: DEP_ASSERT_MODIFIER_CALLABLE_R(map<sink_func>,(PP{}),(map_parser<PP, integral_constant<sink_func>>{}), map<sink_func>,(P{}),(map_parser<P, integral_co
    .parsersEq (tMod (P Joi3) (M (.map f_sink_func))) (P (.map Joi3 (.user f_sink_func))),  -- 48: DEP_ASSERT_MODIFIER_MODULO_OPERABLE_R(PP{}, map<sink_func>,(map_parser<PP, integral_constant<sink_func>>{}), P{}, map<sink_func>,(map_parser<P, integr
    .parsersEq (tCall (M (.map f_sink_func)) [(P Joi4)]) (P (.map Joi4 (.user f_sink_func))),  -- 48: DEP_ASSERT_MODIFIER_CALLABLE_R(map<sink_func>,(PP{}),(map_parser<PP, integral_constant<sink_func>>{}), map<sink_func>,(P{}),(map_parser<P, integral_co
    .parsersEq (tMod (P Joi4) (M (.map f_sink_func))) (P (.map Joi4 (.user f_sink_func))),  -- 48: DEP_ASSERT_MODIFIER_MODULO_OPERABLE_R(PP{}, map<sink_func>,(map_parser<PP, integral_constant<sink_func>>{}), P{}, map<sink_func>,(map_parser<P, integr
    .parsersEq (tCall (M (.map f_sink_func)) [(P Joi5)]) (P (.map Joi5 (.user f_sink_func))),  -- 48: DEP_ASSERT_MODIFIER_CALLABLE_R(map<sink_func>,(PP{}),(map_parser<PP, integral_constant<sink_func>>{}), map<sink_func>,(P{}),(map_parser<P, integral_co
    .parsersEq (tMod (P Joi5) (M (.map f_sink_func))) (P (.map Joi5 (.user f_sink_func))),  -- 48: DEP_ASSERT_MODIFIER_MODULO_OPERABLE_R(PP{}, map<sink_func>,(map_parser<PP, integral_constant<sink_func>>{}), P{}, map<sink_func>,(map_parser<P, integr
    .parsersEq (tCall (M (.map f_sink_func)) [(P Map1)]) (P (.map Map1 (.user f_sink_func))),  -- 48: DEP_ASSERT_MODIFIER_CALLABLE_R(map<sink_func>,(PP{}),(map_parser<PP, integral_constant<sink_func>>{}), map<sink_func>,(P{}),(map_parser<P, integral_co
    .parsersEq (tMod (P Map1) (M (.map f_sink_func))) (P (.map Map1 (.user f_sink_func))),  -- 48: DEP_ASSERT_MODIFIER_MODULO_OPERABLE_R(PP{}, map<sink_func>,(map_parser<PP, integral_constant<sink_func>>{}), P{}, map<sink_func>,(map_parser<P, integr
    .parsersEq (tCall (M (.map f_sink_func)) [(P Map2)]) (P (.map Map2 (.user f_sink_func))),  -- 48: DEP_ASSERT_MODIFIER_CALLABLE_R(map<sink_func>,(PP{}),(map_parser<PP, integral_constant<sink_func>>{}), map<sink_func>,(P{}),(map_parser<P, integral_co
    .parsersEq (tMod (P Map2) (M (.map f_sink_func))) (P (.map Map2 (.user f_sink_func))),  -- 48: DEP_ASSERT_MODIFIER_MODULO_OPERABLE_R(PP{}, map<sink_func>,(map_parser<PP, integral_constant<sink_func>>{}), P{}, map<sink_func>,(map_parser<P, integr
    .parsersEq (tCall (M (.map f_sink_func)) [(P Map3)]) (P (.map Map3 (.user f_sink_func))),  -- 48: DEP_ASSERT_MODIFIER_CALLABLE_R(map<sink_func>,(PP{}),(map_parser<PP, integral_constant<sink_func>>{}), map<sink_func>,(P{}),(map_parser<P, integral_co
    .parsersEq (tMod (P Map3) (M (.map f_sink_func))) (P (.map Map3 (.user f_sink_func))),  -- 48: DEP_ASSERT_MODIFIER_MODULO_OPERABLE_R(PP{}, map<sink_func>,(map_parser<PP, integral_constant<sink_func>>{}), P{}, map<sink_func>,(map_parser<P, integr
    .parsersEq (tCall (M (.map f_sink_func)) [(P Map4)]) (P (.map Map4 (.user f_sink_func))),  -- 48: DEP_ASSERT_MODIFIER_CALLABLE_R(map<sink_func>,(PP{}),(map_parser<PP, integral_constant<sink_func>>{}), map<sink_func>,(P{}),(map_parser<P, integral_co
    .parsersEq (tMod (P Map4) (M (.map f_sink_func))) (P (.map Map4 (.user f_sink_func))),  -- 48: DEP_ASSERT_MODIFIER_MODULO_OPERABLE_R(PP{}, map<sink_func>,(map_parser<PP, integral_constant<sink_func>>{}), P{}, map<sink_func>,(map_parser<P, integr
    .parsersEq (tCall (M (.map f_sink_func)) [(P Fil1)]) (P (.map Fil1 (.user f_sink_func))),  -- 48: DEP_ASSERT_MODIFIER_CALLABLE_R(map<sink_func>,(PP{}),(map_parser<PP, integral_constant<sink_func>>{}), map<sink_func>,(P{}),(map_parser<P, integral_co
    .parsersEq (tMod (P Fil1) (M (.map f_sink_func))) (P (.map Fil1 (.user f_sink_func))),  -- 48: DEP_ASSERT_MODIFIER_MODULO_OPERABLE_R(PP{}, map<sink_func>,(map_parser<PP, integral_constant<sink_func>>{}), P{}, map<sink_func>,(map_parser<P, integr
    .parsersEq (tCall (M (.map f_sink_func)) [(P Fil2)]) (P (.map Fil2 (.user f_sink_func))),  -- 48: DEP_ASSERT_MODIFIER_CALLABLE_R(map<sink_func>,(PP{}),(map_parser<PP, integral_constant<sink_func>>{}), map<sink_func>,(P{}),(map_parser<P, integral_co
    .parsersEq (tMod (P Fil2) (M (.map f_sink_func))) (P (.map Fil2 (.user f_sink_func))),  -- 48: DEP_ASSERT_MODIFIER_MODULO_OPERABLE_R(PP{}, map<sink_func>,(map_parser<PP, integral_constant<sink_func>>{}), P{}, map<sink_func>,(map_parser<P, integr
    .parsersEq (tCall (M (.map f_sink_func)) [(P Fil3)]) (P (.map Fil3 (.user f_sink_func))),  -- 48: DEP_ASSERT_MODIFIER_CALLABLE_R(map<sink_func>,(PP{}),(map_parser<PP, integral_constant<sink_func>>{}), map<sink_func>,(P{}),(map_parser<P, integral_co
    .parsersEq (tMod (P Fil3) (M (.map f_sink_func))) (P (.map Fil3 (.user f_sink_func))),  -- 48: DEP_ASSERT_MODIFIER_MODULO_OPERABLE_R(PP{}, map<sink_func>,(map_parser<PP, integral_constant<sink_func>>{}), P{}, map<sink_func>,(map_parser<P, integr
    .parsersEq (tCall (M (.map f_sink_func)) [(P Apm1)]) (P (.map Apm1 (.user f_sink_func))),  -- 48: DEP_ASSERT_MODIFIER_CALLABLE_R(map<sink_func>,(PP{}),(map_parser<PP, integral_constant<sink_func>>{}), map<sink_func>,(P{}),(map_parser<P, integral_co
    .parsersEq (tMod (P Apm1) (M (.map f_sink_func))) (P (.map Apm1 (.user f_sink_func))),  -- 48: DEP_ASSERT_MODIFIER_MODULO_OPERABLE_R(PP{}, map<sink_func>,(map_parser<PP, integral_constant<sink_func>>{}), P{}, map<sink_func>,(map_parser<P, integr
    .parsersEq (tCall (M (.map f_sink_func)) [(P Apm2)]) (P (.map Apm2 (.user f_sink_func))),  -- 48: DEP_ASSERT_MODIFIER_CALLABLE_R(map<sink_func>,(PP{}),(map_parser<PP, integral_constant<sink_func>>{}), map<sink_func>,(P{}),(map_parser<P, integral_co
    .parsersEq (tMod (P Apm2) (M (.map f_sink_func))) (P (.map Apm2 (.user f_sink_func))),  -- 48: DEP_ASSERT_MODIFIER_MODULO_OPERABLE_R(PP{}, map<sink_func>,(map_parser<PP, integral_constant<sink_func>>{}), P{}, map<sink_func>,(map_parser<P, integr
    .parsersEq (tCall (M (.map f_sink_func)) [(P Apf1)]) (P (.map Apf1 (.user f_sink_func))),  -- 48: DEP_ASSERT_MODIFIER_CALLABLE_R(map<sink_func>,(PP{}),(map_parser<PP, integral_constant<sink_func>>{}), map<sink_func>,(P{}),(map_parser<P, integral_co
    .parsersEq (tMod (P Apf1) (M (.map f_sink_func))) (P (.map Apf1 (.user f_sink_func)))  -- 48: DEP_ASSERT_MODIFIER_MODULO_OPERABLE_R(PP{}, map<sink_func>,(map_parser<PP, integral_constant<sink_func>>{}), P{}, map<sink_func>,(map_parser<P, integr
    ], Assertion.Holds a :=
  Assertion.holds_of_check (by decide +kernel)

/-- map modifier / modify anything (tests/char-tests/modifiers/map.cpp:48) -/
theorem charModifiersMap_3_3 : ∀ a ∈ [
    .parsersEq (tCall (M (.map f_sink_func)) [(P Int1)]) (P (.map Int1 (.user f_sink_func))),  -- 48: DEP_ASSERT_MODIFIER_CALLABLE_R(map<sink_func>,(PP{}),(map_parser<PP, integral_constant<sink_func>>{}), map<sink_func>,(P{}),(map_parser<P, integral_co
    .parsersEq (tMod (P Int1) (M (.map f_sink_func))) (P (.map Int1 (.user f_sink_func))),  -- 48: DEP_ASSERT_MODIFIER_MODULO_OPERABLE_R(PP{}, map<sink_func>,(map_parser<PP, integral_constant<sink_func>>{}), P{}, map<sink_func>,(map_parser<P, integr
    .parsersEq (tCall (M (.map f_sink_func)) [(P Int2)]) (P (.map Int2 (.user f_sink_func))),  -- 48: DEP_ASSERT_MODIFIER_CALLABLE_R(map<sink_func>,(PP{}),(map_parser<PP, integral_constant<sink_func>>{}), map<sink_func>,(P{}),(map_parser<P, integral_co
    .parsersEq (tMod (P Int2) (M (.map f_sink_func))) (P (.map Int2 (.user f_sink_func))),  -- 48: DEP_ASSERT_MODIFIER_MODULO_OPERABLE_R(PP{}, map<sink_func>,(map_parser<PP, integral_constant<sink_func>>{}), P{}, map<sink_func>,(map_parser<P, integr
    .parsersEq (tCall (M (.map f_sink_func)) [(P Int3)]) (P (.map Int3 (.user f_sink_func))),  -- 48: DEP_ASSERT_MODIFIER_CALLABLE_R(map<sink_func>,(PP{}),(map_parser<PP, integral_constant<sink_func>>{}), map<sink_func>,(P{}),(map_parser<P, integral_co
    .parsersEq (tMod (P Int3) (M (.map f_sink_func))) (P (.map Int3 (.user f_sink_func))),  -- 48: DEP_ASSERT_MODIFIER_MODULO_OPERABLE_R(PP{}, map<sink_func>,(map_parser<PP, integral_constant<sink_func>>{}), P{}, map<sink_func>,(map_parser<P, integr
    .parsersEq (tCall (M (.map f_sink_func)) [(P Api1)]) (P (.map Api1 (.user f_sink_func))),  -- 48: DEP_ASSERT_MODIFIER_CALLABLE_R(map<sink_func>,(PP{}),(map_parser<PP, integral_constant<sink_func>>{}), map<sink_func>,(P{}),(map_parser<P, integral_co
    .parsersEq (tMod (P Api1) (M (.map f_sink_func))) (P (.map Api1 (.user f_sink_func))),  -- 48: DEP_ASSERT_MODIFIER_MODULO_OPERABLE_R(PP{}, map<sink_func>,(map_parser<PP, integral_constant<sink_func>>{}), P{}, map<sink_func>,(map_parser<P, integr
    .parsersEq (tCall (M (.map f_sink_func)) [(P Api2)]) (P (.map Api2 (.user f_sink_func))),  -- 48: DEP_ASSERT_MODIFIER_CALLABLE_R(map<sink_func>,(PP{}),(map_parser<PP, integral_constant<sink_func>>{}), map<sink_func>,(P{}),(map_parser<P, integral_co
    .parsersEq (tMod (P Api2) (M (.map f_sink_func))) (P (.map Api2 (.user f_sink_func))),  -- 48: DEP_ASSERT_MODIFIER_MODULO_OPERABLE_R(PP{}, map<sink_func>,(map_parser<PP, integral_constant<sink_func>>{}), P{}, map<sink_func>,(map_parser<P, integr
    .parsersEq (tCall (M (.map f_sink_func)) [(P Con1)]) (P (.map Con1 (.user f_sink_func))),  -- 48: DEP_ASSERT_MODIFIER_CALLABLE_R(map<sink_func>,(PP{}),(map_parser<PP, integral_constant<sink_func>>{}), map<sink_func>,(P{}),(map_parser<P, integral_co
    .parsersEq (tMod (P Con1) (M (.map f_sink_func))) (P (.map Con1 (.user f_sink_func))),  -- 48: DEP_ASSERT_MODIFIER_MODULO_OPERABLE_R(PP{}, map<sink_func>,(map_parser<PP, integral_constant<sink_func>>{}), P{}, map<sink_func>,(map_parser<P, integr
    .parsersEq (tCall (M (.map f_sink_func)) [(P Con2)]) (P (.map Con2 (.user f_sink_func))),  -- 48: DEP_ASSERT_MODIFIER_CALLABLE_R(map<sink_func>,(PP{}),(map_parser<PP, integral_constant<sink_func>>{}), map<sink_func>,(P{}),(map_parser<P, integral_co
    .parsersEq (tMod (P Con2) (M (.map f_sink_func))) (P (.map Con2 (.user f_sink_func))),  -- 48: DEP_ASSERT_MODIFIER_MODULO_OPERABLE_R(PP{}, map<sink_func>,(map_parser<PP, integral_constant<sink_func>>{}), P{}, map<sink_func>,(map_parser<P, integr
    .parsersEq (tCall (M (.map f_sink_func)) [(P Con3)]) (P (.map Con3 (.user f_sink_func))),  -- 48: DEP_ASSERT_MODIFIER_CALLABLE_R(map<sink_func>,(PP{}),(map_parser<PP, integral_constant<sink_func>>{}), map<sink_func>,(P{}),(map_parser<P, integral_co
    .parsersEq (tMod (P Con3) (M (.map f_sink_func))) (P (.map Con3 (.user f_sink_func))),  -- 48: DEP_ASSERT_MODIFIER_MODULO_OPERABLE_R(PP{}, map<sink_func>,(map_parser<PP, integral_constant<sink_func>>{}), P{}, map<sink_func>,(map_parser<P, integr
    .parsersEq (tCall (M (.map f_sink_func)) [(P Con4)]) (P (.map Con4 (.user f_sink_func))),  -- 48: DEP_ASSERT_MODIFIER_CALLABLE_R(map<sink_func>,(PP{}),(map_parser<PP, integral_constant<sink_func>>{}), map<sink_func>,(P{}),(map_parser<P, integral_co
    .parsersEq (tMod (P Con4) (M (.map f_sink_func))) (P (.map Con4 (.user f_sink_func))),  -- 48: DEP_ASSERT_MODIFIER_MODULO_OPERABLE_R(PP{}, map<sink_func>,(map_parser<PP, integral_constant<sink_func>>{}), P{}, map<sink_func>,(map_parser<P, integr
    .parsersEq (tCall (M (.map f_sink_func)) [(P Def1)]) (P (.map Def1 (.user f_sink_func))),  -- 48: DEP_ASSERT_MODIFIER_CALLABLE_R(map<sink_func>,(PP{}),(map_parser<PP, integral_constant<sink_func>>{}), map<sink_func>,(P{}),(map_parser<P, integral_co
    .parsersEq (tMod (P Def1) (M (.map f_sink_func))) (P (.map Def1 (.user f_sink_func))),  -- 48: DEP_ASSERT_MODIFIER_MODULO_OPERABLE_R(PP{}, map<sink_func>,(map_parser<PP, integral_constant<sink_func>>{}), P{}, map<sink_func>,(map_parser<P, integr
    .parsersEq (tCall (M (.map f_sink_func)) [(P Def2)]) (P (.map Def2 (.user f_sink_func))),  -- 48: DEP_ASSERT_MODIFIER_CALLABLE_R(map<sink_func>,(PP{}),(map_parser<PP, integral_constant<sink_func>>{}), map<sink_func>,(P{}),(map_parser<P, integral_co
    .parsersEq (tMod (P Def2) (M (.map f_sink_func))) (P (.map Def2 (.user f_sink_func))),  -- 48: DEP_ASSERT_MODIFIER_MODULO_OPERABLE_R(PP{}, map<sink_func>,(map_parser<PP, integral_constant<sink_func>>{}), P{}, map<sink_func>,(map_parser<P, integr
    .parsersEq (tCall (M (.map f_sink_func)) [(P (.custom 0))]) (P (.map (.custom 0) (.user f_sink_func))),  -- 48: DEP_ASSERT_MODIFIER_CALLABLE_R(map<sink_func>,(PP{}),(map_parser<PP, integral_constant<sink_func>>{}), map<sink_func>,(P{}),(map_parser<P, integral_co
    .parsersEq (tMod (P (.custom 0)) (M (.map f_sink_func))) (P (.map (.custom 0) (.user f_sink_func))),  -- 48: DEP_ASSERT_MODIFIER_MODULO_OPERABLE_R(PP{}, map<sink_func>,(map_parser<PP, integral_constant<sink_func>>{}), P{}, map<sink_func>,(map_parser<P, integr
    .parsersEq (tCall (M (.map f_sink_func)) [(P (.custom 1))]) (P (.map (.custom 1) (.user f_sink_func))),  -- 48: DEP_ASSERT_MODIFIER_CALLABLE_R(map<sink_func>,(PP{}),(map_parser<PP, integral_constant<sink_func>>{}), map<sink_func>,(P{}),(map_parser<P, integral_co
    .parsersEq (tMod (P (.custom 1)) (M (.map f_sink_func))) (P (.map (.custom 1) (.user f_sink_func))),  -- 48: DEP_ASSERT_MODIFIER_MODULO_OPERABLE_R(PP{}, map<sink_func>,(map_parser<PP, integral_constant<sink_func>>{}), P{}, map<sink_func>,(map_parser<P, integr
    .parsersEq (tCall (M (.map f_sink_func)) [(P May1)]) (P (.map May1 (.user f_sink_func))),  -- 48: DEP_ASSERT_MODIFIER_CALLABLE_R(map<sink_func>,(PP{}),(map_parser<PP, integral_constant<sink_func>>{}), map<sink_func>,(P{}),(map_parser<P, integral_co
    .parsersEq (tMod (P May1) (M (.map f_sink_func))) (P (.map May1 (.user f_sink_func))),  -- 48: DEP_ASSERT_MODIFIER_MODULO_OPERABLE_R(PP{}, map<sink_func>,(map_parser<PP, integral_constant<sink_func>>{}), P{}, map<sink_func>,(map_parser<P, integr
    .parsersEq (tCall (M (.map f_sink_func)) [(P May2)]) (P (.map May2 (.user f_sink_func))),  -- 48: DEP_ASSERT_MODIFIER_CALLABLE_R(map<sink_func>,(PP{}),(map_parser<PP, integral_constant<sink_func>>{}), map<sink_func>,(P{}),(map_parser<P, integral_co
    .parsersEq (tMod (P May2) (M (.map f_sink_func))) (P (.map May2 (.user f_sink_func))),  -- 48: DEP_ASSERT_MODIFIER_MODULO_OPERABLE_R(PP{}, map<sink_func>,(map_parser<PP, integral_constant<sink_func>>{}), P{}, map<sink_func>,(map_parser<P, integr
    .parsersEq (tCall (M (.map f_sink_func)) [(P May3)]) (P (.map May3 (.user f_sink_func))),  -- 48: DEP_ASSERT_MODIFIER_CALLABLE_R(map<sink_func>,(PP{}),(map_parser<PP, integral_constant<sink_func>>{}), map<sink_func>,(P{}),(map_parser<P, integral_co
    .parsersEq (tMod (P May3) (M (.map f_sink_func))) (P (.map May3 (.user f_sink_func))),  -- 48: DEP_ASSERT_MODIFIER_MODULO_OPERABLE_R(PP{}, map<sink_func>,(map_parser<PP, integral_constant<sink_func>>{}), P{}, map<sink_func>,(map_parser<P, integr
    .parsersEq (tCall (M (.map f_sink_func)) [(P May4)]) (P (.map May4 (.user f_sink_func))),  -- 48: DEP_ASSERT_MODIFIER_CALLABLE_R(map<sink_func>,(PP{}),(map_parser<PP, integral_constant<sink_func>>{}), map<sink_func>,(P{}),(map_parser<P, integral_co
    .parsersEq (tMod (P May4) (M (.map f_sink_func))) (P (.map May4 (.user f_sink_func))),  -- 48: DEP_ASSERT_MODIFIER_MODULO_OPERABLE_R(PP{}, map<sink_func>,(map_parser<PP, integral_constant<sink_func>>{}), P{}, map<sink_func>,(map_parser<P, integr
    .parsersEq (tCall (M (.map f_sink_func)) [(P Exa1)]) (P (.map Exa1 (.user f_sink_func))),  -- 48: DEP_ASSERT_MODIFIER_CALLABLE_R(map<sink_func>,(PP{}),(map_parser<PP, integral_constant<sink_func>>{}), map<sink_func>,(P{}),(map_parser<P, integral_co
    .parsersEq (tMod (P Exa1) (M (.map f_sink_func))) (P (.map Exa1 (.user f_sink_func))),  -- 48: DEP_ASSERT_MODIFIER_MODULO_OPERABLE_R(PP{}, map<sink_func>,(map_parser<PP, integral_constant<sink_func>>{}), P{}, map<sink_func>,(map_parser<P, integr
    .parsersEq (tCall (M (.map f_sink_func)) [(P Exa2)]) (P (.map Exa2 (.user f_sink_func))),  -- 48: DEP_ASSERT_MODIFIER_CALLABLE_R(map<sink_func>,(PP{}),(map_parser<PP, integral_constant<sink_func>>{}), map<sink_func>,(P{}),(map_parser<P, integral_co
    .parsersEq (tMod (P Exa2) (M (.map f_sink_func))) (P (.map Exa2 (.user f_sink_func))),  -- 48: DEP_ASSERT_MODIFIER_MODULO_OPERABLE_R(PP{}, map<sink_func>,(map_parser<PP, integral_constant<sink_func>>{}), P{}, map<sink_func>,(map_parser<P, integr
    .parsersEq (tCall (M (.map f_sink_func)) [(P Exa3)]) (P (.map Exa3 (.user f_sink_func))),  -- 48: DEP_ASSERT_MODIFIER_CALLABLE_R(map<sink_func>,(PP{}),(map_parser<PP, integral_constant<sink_func>>{}), map<sink_func>,(P{}),(map_parser<P, integral_co
    .parsersEq (tMod (P Exa3) (M (.map f_sink_func))) (P (.map Exa3 (.user f_sink_func))),  -- 48: DEP_ASSERT_MODIFIER_MODULO_OPERABLE_R(PP{}, map<sink_func>,(map_parser<PP, integral_constant<sink_func>>{}), P{}, map<sink_func>,(map_parser<P, integr
    .parsersEq (tCall (M (.map f_sink_func)) [(P Exa4)]) (P (.map Exa4 (.user f_sink_func))),  -- 48: DEP_ASSERT_MODIFIER_CALLABLE_R(map<sink_func>,(PP{}),(map_parser<PP, integral_constant<sink_func>>{}), map<sink_func>,(P{}),(map_parser<P, integral_co
    .parsersEq (tMod (P Exa4) (M (.map f_sink_func))) (P (.map Exa4 (.user f_sink_func))),  -- 48: DEP_ASSERT_MODIFIER_MODULO_OPERABLE_R(PP{}, map<sink_func>,(map_parser<PP, integral_constant<sink_func>>{}), P{}, map<sink_func>,(map_parser<P, integr
    .parsersEq (tCall (M (.map f_sink_func)) [(P Oom1)]) (P (.map Oom1 (.user f_sink_func))),  -- 48: DEP_ASSERT_MODIFIER_CALLABLE_R(map<sink_func>,(PP{}),(map_parser<PP, integral_constant<sink_func>>{}), map<sink_func>,(P{}),(map_parser<P, integral_co
    .parsersEq (tMod (P Oom1) (M (.map f_sink_func))) (P (.map Oom1 (.user f_sink_func))),  -- 48: DEP_ASSERT_MODIFIER_MODULO_OPERABLE_R(PP{}, map<sink_func>,(map_parser<PP, integral_constant<sink_func>>{}), P{}, map<sink_func>,(map_parser<P, integr
    .parsersEq (tCall (M (.map f_sink_func)) [(P Oom2)]) (P (.map Oom2 (.user f_sink_func))),  -- 48: DEP_ASSERT_MODIFIER_CALLABLE_R(map<sink_func>,(PP{}),(map_parser<PP, integral_constant<sink_func>>{}), map<sink_func>,(P{}),(map_parser<P, integral_co
    .parsersEq (tMod (P Oom2) (M (.map f_sink_func))) (P (.map Oom2 (.user f_sink_func))),  -- 48: DEP_ASSERT_MODIFIER_MODULO_OPERABLE_R(PP{}, map<sink_func>,(map_parser<PP, integral_constant<sink_func>>{}), P{}, map<sink_func>,(map_parser<P, integr
    .parsersEq (tCall (M (.map f_sink_func)) [(P Oom3)]) (P (.map Oom3 (.user f_sink_func))),  -- 48: DEP_ASSERT_MODIFIER_CALLABLE_R(map<sink_func>,(PP{}),(map_parser<PP, integral_constant<sink_func>>{}), map<sink_func>,(P{}),(map_parser<P, integral_co
    .parsersEq (tMod (P Oom3) (M (.map f_sink_func))) (P (.map Oom3 (.user f_sink_func))),  -- 48: DEP_ASSERT_MODIFIER_MODULO_OPERABLE_R(PP{}, map<sink_func>,(map_parser<PP, integral_constant<sink_func>>{}), P{}, map<sink_func>,(map_parser<P, integr
    .parsersEq (tCall (M (.map f_sink_func)) [(P Oom4)]) (P (.map Oom4 (.user f_sink_func))),  -- 48: DEP_ASSERT_MODIFIER_CALLABLE_R(map<sink_func>,(PP{}),(map_parser<PP, integral_constant<sink_func>>{}), map<sink_func>,(P{}),(map_parser<P, integral_co
    .parsersEq (tMod (P Oom4) (M (.map f_sink_func))) (P (.map Oom4 (.user f_sink_func))),  -- 48: DEP_ASSERT_MODIFIER_MODULO_OPERABLE_R(PP{}, map<sink_func>,(map_parser<PP, integral_constant<sink_func>>{}), P{}, map<sink_func>,(map_parser<P, integr
    .parsersEq (tCall (M (.map f_sink_func)) [(P Zom1)]) (P (.map Zom1 (.user f_sink_func))),  -- 48: DEP_ASSERT_MODIFIER_CALLABLE_R(map<sink_func>,(PP{}),(map_parser<PP, integral_constant<sink_func>>{}), map<sink_func>,(P{}),(map_parser<P, integral_co
    .parsersEq (tMod (P Zom1) (M (.map f_sink_func))) (P (.map Zom1 (.user f_sink_func))),  -- 48: DEP_ASSERT_MODIFIER_MODULO_OPERABLE_R(PP{}, map<sink_func>,(map_parser<PP, integral_constant<sink_func>>{}), P{}, map<sink_func>,(map_parser<P, integr
    .parsersEq (tCall (M (.map f_sink_func)) [(P Zom2)]) (P (.map Zom2 (.user f_sink_func))),  -- 48: DEP_ASSERT_MODIFIER_CALLABLE_R(map<sink_func>,(PP{}),(map_parser<PP, integral_constant<sink_func>>{}), map<sink_func>,(P{}),(map_parser<P, integral_co
    .parsersEq (tMod (P Zom2) (M (.map f_sink_func))) (P (.map Zom2 (.user f_sink_func))),  -- 48: DEP_ASSERT_MODIFIER_MODULO_OPERABLE_R(PP{}, map<sink_func>,(map_parser<PP, integral_constant<sink_func>>{}), P{}, map<sink_func>,(map_parser<P, integr
    .parsersEq (tCall (M (.map f_sink_func)) [(P Zom3)]) (P (.map Zom3 (.user f_sink_func))),  -- 48: DEP_ASSERT_MODIFIER_CALLABLE_R(map<sink_func>,(PP{}),(map_parser<PP, integral_constant<sink_func>>{}), map<sink_func>,(P{}),(map_parser<P, integral_co
    .parsersEq (tMod (P Zom3) (M (.map f_sink_func))) (P (.map Zom3 (.user f_sink_func))),  -- 48: DEP_ASSERT_MODIFIER_MODULO_OPERABLE_R(PP{}, map<sink_func>,(map_parser<PP, integral_constant<sink_func>>{}), P{}, map<sink_func>,(map_parser<P, integr
    .parsersEq (tCall (M (.map f_sink_func)) [(P Zom4)]) (P (.map Zom4 (.user f_sink_func))),  -- 48: DEP_ASSERT_MODIFIER_CALLABLE_R(map<sink_func>,(PP{}),(map_parser<PP, integral_constant<sink_func>>{}), map<sink_func>,(P{}),(map_parser<P, integral_co
    .parsersEq (tMod (P Zom4) (M (.map f_sink_func))) (P (.map Zom4 (.user f_sink_func))),  -- 48: DEP_ASSERT_MODIFIER_MODULO_OPERABLE_R(PP{}, map<sink_func>,(map_parser<PP, integral_constant<sink_func>>{}), P{}, map<sink_func>,(map_parser<P, integr
    .parsersEq (tCall (M (.map f_sink_func)) [(P Del1)]) (P (.map Del1 (.user f_sink_func))),  -- 48: DEP_ASSERT_MODIFIER_CALLABLE_R(map<sink_func>,(PP{}),(map_parser<PP, integral_constant<sink_func>>{}), map<sink_func>,(P{}),(map_parser<P, integral_co
    .parsersEq (tMod (P Del1) (M (.map f_sink_func))) (P (.map Del1 (.user f_sink_func)))  -- 48: DEP_ASSERT_MODIFIER_MODULO_OPERABLE_R(PP{}, map<sink_func>,(map_parser<PP, integral_constant<sink_func>>{}), P{}, map<sink_func>,(map_parser<P, integr
    ], Assertion.Holds a :=
  Assertion.holds_of_check (by decide +kernel)

/-- map modifier / modify anything (tests/char-tests/modifiers/map.cpp:48) -/
theorem charModifiersMap_3_4 : ∀ a ∈ [
    .parsersEq (tCall (M (.map f_sink_func)) [(P Del2)]) (P (.map Del2 (.user f_sink_func))),  -- 48: DEP_ASSERT_MODIFIER_CALLABLE_R(map<sink_func>,(PP{}),(map_parser<PP, integral_constant<sink_func>>{}), map<sink_func>,(P{}),(map_parser<P, integral_co
    .parsersEq (tMod (P Del2) (M (.map f_sink_func))) (P (.map Del2 (.user f_sink_func))),  -- 48: DEP_ASSERT_MODIFIER_MODULO_OPERABLE_R(PP{}, map<sink_func>,(map_parser<PP, integral_constant<sink_func>>{}), P{}, map<sink_func>,(map_parser<P, integr
    .parsersEq (tCall (M (.map f_sink_func)) [(P Del3)]) (P (.map Del3 (.user f_sink_func))),  -- 48: DEP_ASSERT_MODIFIER_CALLABLE_R(map<sink_func>,(PP{}),(map_parser<PP, integral_constant<sink_func>>{}), map<sink_func>,(P{}),(map_parser<P, integral_co
    .parsersEq (tMod (P Del3) (M (.map f_sink_func))) (P (.map Del3 (.user f_sink_func))),  -- 48: DEP_ASSERT_MODIFIER_MODULO_OPERABLE_R(PP{}, map<sink_func>,(map_parser<PP, integral_constant<sink_func>>{}), P{}, map<sink_func>,(map_parser<P, integr
    .parsersEq (tCall (M (.map f_sink_func)) [(P Del4)]) (P (.map Del4 (.user f_sink_func))),  -- 48: DEP_ASSERT_MODIFIER_CALLABLE_R(map<sink_func>,(PP{}),(map_parser<PP, integral_constant<sink_func>>{}), map<sink_func>,(P{}),(map_parser<P, integral_co
    .parsersEq (tMod (P Del4) (M (.map f_sink_func))) (P (.map Del4 (.user f_sink_func))),  -- 48: DEP_ASSERT_MODIFIER_MODULO_OPERABLE_R(PP{}, map<sink_func>,(map_parser<PP, integral_constant<sink_func>>{}), P{}, map<sink_func>,(map_parser<P, integr
    .parsersEq (tCall (M (.map f_sink_func)) [(P Del5)]) (P (.map Del5 (.user f_sink_func))),  -- 48: DEP_ASSERT_MODIFIER_CALLABLE_R(map<sink_func>,(PP{}),(map_parser<PP, integral_constant<sink_func>>{}), map<sink_func>,(P{}),(map_parser<P, integral_co
    .parsersEq (tMod (P Del5) (M (.map f_sink_func))) (P (.map Del5 (.user f_sink_func))),  -- 48: DEP_ASSERT_MODIFIER_MODULO_OPERABLE_R(PP{}, map<sink_func>,(map_parser<PP, integral_constant<sink_func>>{}), P{}, map<sink_func>,(map_parser<P, integr
    .parsersEq (tCall (M (.map f_sink_func)) [(P Del6)]) (P (.map Del6 (.user f_sink_func))),  -- 48: DEP_ASSERT_MODIFIER_CALLABLE_R(map<sink_func>,(PP{}),(map_parser<PP, integral_constant<sink_func>>{}), map<sink_func>,(P{}),(map_parser<P, integral_co
    .parsersEq (tMod (P Del6) (M (.map f_sink_func))) (P (.map Del6 (.user f_sink_func))),  -- 48: DEP_ASSERT_MODIFIER_MODULO_OPERABLE_R(PP{}, map<sink_func>,(map_parser<PP, integral_constant<sink_func>>{}), P{}, map<sink_func>,(map_parser<P, integr
    .parsersEq (tCall (M (.map f_sink_func)) [(P Del7)]) (P (.map Del7 (.user f_sink_func))),  -- 48: DEP_ASSERT_MODIFIER_CALLABLE_R(map<sink_func>,(PP{}),(map_parser<PP, integral_constant<sink_func>>{}), map<sink_func>,(P{}),(map_parser<P, integral_co
    .parsersEq (tMod (P Del7) (M (.map f_sink_func))) (P (.map Del7 (.user f_sink_func))),  -- 48: DEP_ASSERT_MODIFIER_MODULO_OPERABLE_R(PP{}, map<sink_func>,(map_parser<PP, integral_constant<sink_func>>{}), P{}, map<sink_func>,(map_parser<P, integr
    .parsersEq (tCall (M (.map f_sink_func)) [(P Del8)]) (P (.map Del8 (.user f_sink_func))),  -- 48: DEP_ASSERT_MODIFIER_CALLABLE_R(map<sink_func>,(PP{}),(map_parser<PP, integral_constant<sink_func>>{}), map<sink_func>,(P{}),(map_parser<P, integral_co
    .parsersEq (tMod (P Del8) (M (.map f_sink_func))) (P (.map Del8 (.user f_sink_func))),  -- 48: DEP_ASSERT_MODIFIER_MODULO_OPERABLE_R(PP{}, map<sink_func>,(map_parser<PP, integral_constant<sink_func>>{}), P{}, map<sink_func>,(map_parser<P, integr
    .parsersEq (tCall (M (.map f_sink_func)) [(P Dek1)]) (P (.map Dek1 (.user f_sink_func))),  -- 48: DEP_ASSERT_MODIFIER_CALLABLE_R(map<sink_func>,(PP{}),(map_parser<PP, integral_constant<sink_func>>{}), map<sink_func>,(P{}),(map_parser<P, integral_co
    .parsersEq (tMod (P Dek1) (M (.map f_sink_func))) (P (.map Dek1 (.user f_sink_func))),  -- 48: DEP_ASSERT_MODIFIER_MODULO_OPERABLE_R(PP{}, map<sink_func>,(map_parser<PP, integral_constant<sink_func>>{}), P{}, map<sink_func>,(map_parser<P, integr
    .parsersEq (tCall (M (.map f_sink_func)) [(P Dek2)]) (P (.map Dek2 (.user f_sink_func))),  -- 48: DEP_ASSERT_MODIFIER_CALLABLE_R(map<sink_func>,(PP{}),(map_parser<PP, integral_constant<sink_func>>{}), map<sink_func>,(P{}),(map_parser<P, integral_co
    .parsersEq (tMod (P Dek2) (M (.map f_sink_func))) (P (.map Dek2 (.user f_sink_func))),  -- 48: DEP_ASSERT_MODIFIER_MODULO_OPERABLE_R(PP{}, map<sink_func>,(map_parser<PP, integral_constant<sink_func>>{}), P{}, map<sink_func>,(map_parser<P, integr
    .parsersEq (tCall (M (.map f_sink_func)) [(P Dek3)]) (P (.map Dek3 (.user f_sink_func))),  -- 48: DEP_ASSERT_MODIFIER_CALLABLE_R(map<sink_func>,(PP{}),(map_parser<PP, integral_constant<sink_func>>{}), map<sink_func>,(P{}),(map_parser<P, integral_co
    .parsersEq (tMod (P Dek3) (M (.map f_sink_func))) (P (.map Dek3 (.user f_sink_func))),  -- 48: DEP_ASSERT_MODIFIER_MODULO_OPERABLE_R(PP{}, map<sink_func>,(map_parser<PP, integral_constant<sink_func>>{}), P{}, map<sink_func>,(map_parser<P, integr
    .parsersEq (tCall (M (.map f_sink_func)) [(P Dek4)]) (P (.map Dek4 (.user f_sink_func))),  -- 48: DEP_ASSERT_MODIFIER_CALLABLE_R(map<sink_func>,(PP{}),(map_parser<PP, integral_constant<sink_func>>{}), map<sink_func>,(P{}),(map_parser<P, integral_co
    .parsersEq (tMod (P Dek4) (M (.map f_sink_func))) (P (.map Dek4 (.user f_sink_func))),  -- 48: DEP_ASSERT_MODIFIER_MODULO_OPERABLE_R(PP{}, map<sink_func>,(map_parser<PP, integral_constant<sink_func>>{}), P{}, map<sink_func>,(map_parser<P, integr
    .parsersEq (tCall (M (.map f_sink_func)) [(P Dek5)]) (P (.map Dek5 (.user f_sink_func))),  -- 48: DEP_ASSERT_MODIFIER_CALLABLE_R(map<sink_func>,(PP{}),(map_parser<PP, integral_constant<sink_func>>{}), map<sink_func>,(P{}),(map_parser<P, integral_co
    .parsersEq (tMod (P Dek5) (M (.map f_sink_func))) (P (.map Dek5 (.user f_sink_func))),  -- 48: DEP_ASSERT_MODIFIER_MODULO_OPERABLE_R(PP{}, map<sink_func>,(map_parser<PP, integral_constant<sink_func>>{}), P{}, map<sink_func>,(map_parser<P, integr
    .parsersEq (tCall (M (.map f_sink_func)) [(P Dek6)]) (P (.map Dek6 (.user f_sink_func))),  -- 48: DEP_ASSERT_MODIFIER_CALLABLE_R(map<sink_func>,(PP{}),(map_parser<PP, integral_constant<sink_func>>{}), map<sink_func>,(P{}),(map_parser<P, integral_co
    .parsersEq (tMod (P Dek6) (M (.map f_sink_func))) (P (.map Dek6 (.user f_sink_func))),  -- 48: DEP_ASSERT_MODIFIER_MODULO_OPERABLE_R(PP{}, map<sink_func>,(map_parser<PP, integral_constant<sink_func>>{}), P{}, map<sink_func>,(map_parser<P, integr
    .parsersEq (tCall (M (.map f_sink_func)) [(P Dek7)]) (P (.map Dek7 (.user f_sink_func))),  -- 48: DEP_ASSERT_MODIFIER_CALLABLE_R(map<sink_func>,(PP{}),(map_parser<PP, integral_constant<sink_func>>{}), map<sink_func>,(P{}),(map_parser<P, integral_co
    .parsersEq (tMod (P Dek7) (M (.map f_sink_func))) (P (.map Dek7 (.user f_sink_func))),  -- 48: DEP_ASSERT_MODIFIER_MODULO_OPERABLE_R(PP{}, map<sink_func>,(map_parser<PP, integral_constant<sink_func>>{}), P{}, map<sink_func>,(map_parser<P, integr
    .parsersEq (tCall (M (.map f_sink_func)) [(P Dek8)]) (P (.map Dek8 (.user f_sink_func))),  -- 48: DEP_ASSERT_MODIFIER_CALLABLE_R(map<sink_func>,(PP{}),(map_parser<PP, integral_constant<sink_func>>{}), map<sink_func>,(P{}),(map_parser<P, integral_co
    .parsersEq (tMod (P Dek8) (M (.map f_sink_func))) (P (.map Dek8 (.user f_sink_func)))  -- 48: DEP_ASSERT_MODIFIER_MODULO_OPERABLE_R(PP{}, map<sink_func>,(map_parser<PP, integral_constant<sink_func>>{}), P{}, map<sink_func>,(map_parser<P, integr
    ], Assertion.Holds a :=
  Assertion.holds_of_check (by decide +kernel)

end Tok3n.Tests
