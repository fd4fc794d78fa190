import Verif.Tests.Gen.SamplesChar
/- Generated by tools/tests2lean.py from tests/char-tests/modifiers/filter.cpp. -/

namespace Tok3n.Tests

/-- filter modifier / prefix (tests/char-tests/modifiers/filter.cpp:14) -/
theorem charModifiersFilter_1 : ∀ a ∈ [
    .parsersEq (P Fil1) (tCall (M (.filter f_filter_func1)) [(tPlus (P ABC))]),  -- 14: ASSERT_PARSER_VALUES_EQ(fil1, filter<filter_func1>(+ abc))
    .parsersEq (P Fil2) (tCall (M (.filter f_filter_func2)) [(tMaybe (tOr (P ABC) (P QQ)))]),  -- 15: ASSERT_PARSER_VALUES_EQ(fil2, filter<filter_func2>(~(abc | qq)))
    .parsersEq (P Fil3) (tCall (M (.filter f_filter_func3)) [(tThen (P ABC) (tStar (P QQ)))])  -- 16: ASSERT_PARSER_VALUES_EQ(fil3, filter<filter_func3>(abc>> * qq))
    ], Assertion.Holds a :=
  Assertion.holds_of_check (by decide +kernel)

/-- filter modifier / infix (tests/char-tests/modifiers/filter.cpp:21) -/
theorem charModifiersFilter_2 : ∀ a ∈ [
    .parsersEq (P Fil1) (tMod (tPlus (P ABC)) (M (.filter f_filter_func1))),  -- 21: ASSERT_PARSER_VALUES_EQ(fil1, + abc % filter<filter_func1>)
    .parsersEq (P Fil2) (tMod (tMaybe (tOr (P ABC) (P QQ))) (M (.filter f_filter_func2))),  -- 22: ASSERT_PARSER_VALUES_EQ(fil2, ~(abc | qq) % filter<filter_func2>)
    .parsersEq (P Fil3) (tMod (tThen (P ABC) (tStar (P QQ))) (M (.filter f_filter_func3)))  -- 23: ASSERT_PARSER_VALUES_EQ(fil3,(abc>> * qq) % filter<filter_func3>)
    ], Assertion.Holds a :=
  Assertion.holds_of_check (by decide +kernel)

/-- filter modifier / modify anything (tests/char-tests/modifiers/filter.cpp:44) -/
theorem charModifiersFilter_3_1 : ∀ a ∈ [
    .parsersEq (tCall (M (.filter f_true_filter)) [(P Ign1)]) (P (.filter Ign1 (.user f_true_filter))),  -- 44: DEP_ASSERT_MODIFIER_CALLABLE_R(filter<true_filter>,(PP{}),(filter_parser<PP, integral_constant<true_filter>>{}), filter<true_filter>,(P{}),(filter_par
    .parsersEq (tMod (P Ign1) (M (.filter f_true_filter))) (P (.filter Ign1 (.user f_true_filter))),  -- 44: DEP_ASSERT_MODIFIER_MODULO_OPERABLE_R(PP{}, filter<true_filter>,(filter_parser<PP, integral_constant<true_filter>>{}), P{}, filter<true_filter>,(filte
    .parsersEq (tCall (M (.filter f_true_filter)) [(P Ign2)]) (P (.filter Ign2 (.user f_true_filter))),  -- 44: DEP_ASSERT_MODIFIER_CALLABLE_R(filter<true_filter>,(PP{}),(filter_parser<PP, integral_constant<true_filter>>{}), filter<true_filter>,(P{}),(filter_par
    .parsersEq (tMod (P Ign2) (M (.filter f_true_filter))) (P (.filter Ign2 (.user f_true_filter))),  -- 44: DEP_ASSERT_MODIFIER_MODULO_OPERABLE_R(PP{}, filter<true_filter>,(filter_parser<PP, integral_constant<true_filter>>{}), P{}, filter<true_filter>,(filte
    .parsersEq (tCall (M (.filter f_true_filter)) [(P Ign3)]) (P (.filter Ign3 (.user f_true_filter))),  -- 44: DEP_ASSERT_MODIFIER_CALLABLE_R(filter<true_filter>,(PP{}),(filter_parser<PP, integral_constant<true_filter>>{}), filter<true_filter>,(P{}),(filter_par
    .parsersEq (tMod (P Ign3) (M (.filter f_true_filter))) (P (.filter Ign3 (.user f_true_filter))),  -- 44: DEP_ASSERT_MODIFIER_MODULO_OPERABLE_R(PP{}, filter<true_filter>,(filter_parser<PP, integral_constant<true_filter>>{}), P{}, filter<true_filter>,(filte
    .parsersEq (tCall (M (.filter f_true_filter)) [(P Ign4)]) (P (.filter Ign4 (.user f_true_filter))),  -- 44: DEP_ASSERT_MODIFIER_CALLABLE_R(filter<true_filter>,(PP{}),(filter_parser<PP, integral_constant<true_filter>>{}), filter<true_filter>,(P{}),(filter_par
    .parsersEq (tMod (P Ign4) (M (.filter f_true_filter))) (P (.filter Ign4 (.user f_true_filter))),  -- 44: DEP_ASSERT_MODIFIER_MODULO_OPERABLE_R(PP{}, filter<true_filter>,(filter_parser<PP, integral_constant<true_filter>>{}), P{}, filter<true_filter>,(filte
    .parsersEq (tCall (M (.filter f_true_filter)) [(P Ign5)]) (P (.filter Ign5 (.user f_true_filter))),  -- 44: DEP_ASSERT_MODIFIER_CALLABLE_R(filter<true_filter>,(PP{}),(filter_parser<PP, integral_constant<true_filter>>{}), filter<true_filter>,(P{}),(filter_par
    .parsersEq (tMod (P Ign5) (M (.filter f_true_filter))) (P (.filter Ign5 (.user f_true_filter))),  -- 44: DEP_ASSERT_MODIFIER_MODULO_OPERABLE_R(PP{}, filter<true_filter>,(filter_parser<PP, integral_constant<true_filter>>{}), P{}, filter<true_filter>,(filte
    .parsersEq (tCall (M (.filter f_true_filter)) [(P Com1)]) (P (.filter Com1 (.user f_true_filter))),  -- 44: DEP_ASSERT_MODIFIER_CALLABLE_R(filter<true_filter>,(PP{}),(filter_parser<PP, integral_constant<true_filter>>{}), filter<true_filter>,(P{}),(filter_par
    .parsersEq (tMod (P Com1) (M (.filter f_true_filter))) (P (.filter Com1 (.user f_true_filter))),  -- 44: DEP_ASSERT_MODIFIER_MODULO_OPERABLE_R(PP{}, filter<true_filter>,(filter_parser<PP, integral_constant<true_filter>>{}), P{}, filter<true_filter>,(filte
    .parsersEq (tCall (M (.filter f_true_filter)) [(P Com2)]) (P (.filter Com2 (.user f_true_filter))),  -- 44: DEP_ASSERT_MODIFIER_CALLABLE_R(filter<true_filter>,(PP{}),(filter_parser<PP, integral_constant<true_filter>>{}), filter<true_filter>,(P{}),(filter_par
    .parsersEq (tMod (P Com2) (M (.filter f_true_filter))) (P (.filter Com2 (.user f_true_filter))),  -- 44: DEP_ASSERT_MODIFIER_MODULO_OPERABLE_R(PP{}, filter<true_filter>,(filter_parser<PP, integral_constant<true_filter>>{}), P{}, filter<true_filter>,(filte
    .parsersEq (tCall (M (.filter f_true_filter)) [(P Com3)]) (P (.filter Com3 (.user f_true_filter))),  -- 44: DEP_ASSERT_MODIFIER_CALLABLE_R(filter<true_filter>,(PP{}),(filter_parser<PP, integral_constant<true_filter>>{}), filter<true_filter>,(P{}),(filter_par
    .parsersEq (tMod (P Com3) (M (.filter f_true_filter))) (P (.filter Com3 (.user f_true_filter))),  -- 44: DEP_ASSERT_MODIFIER_MODULO_OPERABLE_R(PP{}, filter<true_filter>,(filter_parser<PP, integral_constant<true_filter>>{}), P{}, filter<true_filter>,(filte
    .parsersEq (tCall (M (.filter f_true_filter)) [(P Com4)]) (P (.filter Com4 (.user f_true_filter))),  -- 44: DEP_ASSERT_MODIFIER_CALLABLE_R(filter<true_filter>,(PP{}),(filter_parser<PP, integral_constant<true_filter>>{}), filter<true_filter>,(P{}),(filter_par
    .parsersEq (tMod (P Com4) (M (.filter f_true_filter))) (P (.filter Com4 (.user f_true_filter))),  -- 44: DEP_ASSERT_MODIFIER_MODULO_OPERABLE_R(PP{}, filter<true_filter>,(filter_parser<PP, integral_constant<true_filter>>{}), P{}, filter<true_filter>,(filte
    .parsersEq (tCall (M (.filter f_true_filter)) [(P Com5)]) (P (.filter Com5 (.user f_true_filter))),  -- 44: DEP_ASSERT_MODIFIER_CALLABLE_R(filter<true_filter>,(PP{}),(filter_parser<PP, integral_constant<true_filter>>{}), filter<true_filter>,(P{}),(filter_par
    .parsersEq (tMod (P Com5) (M (.filter f_true_filter))) (P (.filter Com5 (.user f_true_filter))),  -- 44: DEP_ASSERT_MODIFIER_MODULO_OPERABLE_R(PP{}, filter<true_filter>,(filter_parser<PP, integral_constant<true_filter>>{}), P{}, filter<true_filter>,(filte
    .parsersEq (tCall (M (.filter f_true_filter)) [(P Com6)]) (P (.filter Com6 (.user f_true_filter))),  -- 44: DEP_ASSERT_MODIFIER_CALLABLE_R(filter<true_filter>,(PP{}),(filter_parser<PP, integral_constant<true_filter>>{}), filter<true_filter>,(P{}),(filter_par
    .parsersEq (tMod (P Com6) (M (.filter f_true_filter))) (P (.filter Com6 (.user f_true_filter))),  -- 44: DEP_ASSERT_MODIFIER_MODULO_OPERABLE_R(PP{}, filter<true_filter>,(filter_parser<PP, integral_constant<true_filter>>{}), P{}, filter<true_filter>,(filte
    .parsersEq (tCall (M (.filter f_true_filter)) [(P Com7)]) (P (.filter Com7 (.user f_true_filter))),  -- 44: DEP_ASSERT_MODIFIER_CALLABLE_R(filter<true_filter>,(PP{}),(filter_parser<PP, integral_constant<true_filter>>{}), filter<true_filter>,(P{}),(filter_par
    .parsersEq (tMod (P Com7) (M (.filter f_true_filter))) (P (.filter Com7 (.user f_true_filter))),  -- 44: DEP_ASSERT_MODIFIER_MODULO_OPERABLE_R(PP{}, filter<true_filter>,(filter_parser<PP, integral_constant<true_filter>>{}), P{}, filter<true_filter>,(filte
    .parsersEq (tCall (M (.filter f_true_filter)) [(P Nam1)]) (P (.filter Nam1 (.user f_true_filter))),  -- 44: DEP_ASSERT_MODIFIER_CALLABLE_R(filter<true_filter>,(PP{}),(filter_parser<PP, integral_constant<true_filter>>{}), filter<true_filter>,(P{}),(filter_par
    .parsersEq (tMod (P Nam1) (M (.filter f_true_filter))) (P (.filter Nam1 (.user f_true_filter))),  -- 44: DEP_ASSERT_MODIFIER_MODULO_OPERABLE_R(PP{}, filter<true_filter>,(filter_parser<PP, integral_constant<true_filter>>{}), P{}, filter<true_filter>,(filte
    .parsersEq (tCall (M (.filter f_true_filter)) [(P Nam2)]) (P (.filter Nam2 (.user f_true_filter))),  -- 44: DEP_ASSERT_MODIFIER_CALLABLE_R(filter<true_filter>,(PP{}),(filter_parser<PP, integral_constant<true_filter>>{}), filter<true_filter>,(P{}),(filter_par
    .parsersEq (tMod (P Nam2) (M (.filter f_true_filter))) (P (.filter Nam2 (.user f_true_filter))),  -- 44: DEP_ASSERT_MODIFIER_MODULO_OPERABLE_R(PP{}, filter<true_filter>,(filter_parser<PP, integral_constant<true_filter>>{}), P{}, filter<true_filter>,(filte
    .parsersEq (tCall (M (.filter f_true_filter)) [(P Nam3)]) (P (.filter Nam3 (.user f_true_filter))),  -- 44: DEP_ASSERT_MODIFIER_CALLABLE_R(filter<true_filter>,(PP{}),(filter_parser<PP, integral_constant<true_filter>>{}), filter<true_filter>,(P{}),(filter_par
    .parsersEq (tMod (P Nam3) (M (.filter f_true_filter))) (P (.filter Nam3 (.user f_true_filter))),  -- 44: DEP_ASSERT_MODIFIER_MODULO_OPERABLE_R(PP{}, filter<true_filter>,(filter_parser<PP, integral_constant<true_filter>>{}), P{}, filter<true_filter>,(filte
    .parsersEq (tCall (M (.filter f_true_filter)) [(P Nam4)]) (P (.filter Nam4 (.user f_true_filter))),  -- 44: DEP_ASSERT_MODIFIER_CALLABLE_R(filter<true_filter>,(PP{}),(filter_parser<PP, integral_constant<true_filter>>{}), filter<true_filter>,(P{}),(filter_par
    .parsersEq (tMod (P Nam4) (M (.filter f_true_filter))) (P (.filter Nam4 (.user f_true_filter))),  -- 44: DEP_ASSERT_MODIFIER_MODULO_OPERABLE_R(PP{}, filter<true_filter>,(filter_parser<PP, integral_constant<true_filter>>{}), P{}, filter<true_filter>,(filte
    .parsersEq (tCall (M (.filter f_true_filter)) [(P Any1)]) (P (.filter Any1 (.user f_true_filter))),  -- 44: DEP_ASSERT_MODIFIER_CALLABLE_R(filter<true_filter>,(PP{}),(filter_parser<PP, integral_constant<true_filter>>{}), filter<true_filter>,(P{}),(filter_par
    .parsersEq (tMod (P Any1) (M (.filter f_true_filter))) (P (.filter Any1 (.user f_true_filter))),  -- 44: DEP_ASSERT_MODIFIER_MODULO_OPERABLE_R(PP{}, filter<true_filter>,(filter_parser<PP, integral_constant<true_filter>>{}), P{}, filter<true_filter>,(filte
    .parsersEq (tCall (M (.filter f_true_filter)) [(P Any2)]) (P (.filter Any2 (.user f_true_filter))),  -- 44: DEP_ASSERT_MODIFIER_CALLABLE_R(filter<true_filter>,(PP{}),(filter_parser<PP, integral_constant<true_filter>>{}), filter<true_filter>,(P{}),(filter_par
    .parsersEq (tMod (P Any2) (M (.filter f_true_filter))) (P (.filter Any2 (.user f_true_filter))),  -- 44: DEP_ASSERT_MODIFIER_MODULO_OPERABLE_R(PP{}, filter<true_filter>,(filter_parser<PP, integral_constant<true_filter>>{}), P{}, filter<true_filter>,(filte
    .parsersEq (tCall (M (.filter f_true_filter)) [(P Any3)]) (P (.filter Any3 (.user f_true_filter))),  -- 44: DEP_ASSERT_MODIFIER_CALLABLE_R(filter<true_filter>,(PP{}),(filter_parser<PP, integral_constant<true_filter>>{}), filter<true_filter>,(P{}),(filter_par
    .parsersEq (tMod (P Any3) (M (.filter f_true_filter))) (P (.filter Any3 (.user f_true_filter))),  -- 44: DEP_ASSERT_MODIFIER_MODULO_OPERABLE_R(PP{}, filter<true_filter>,(filter_parser<PP, integral_constant<true_filter>>{}), P{}, filter<true_filter>,(filte
    .parsersEq (tCall (M (.filter f_true_filter)) [(P Any4)]) (P (.filter Any4 (.user f_true_filter))),  -- 44: DEP_ASSERT_MODIFIER_CALLABLE_R(filter<true_filter>,(PP{}),(filter_parser<PP, integral_constant<true_filter>>{}), filter<true_filter>,(P{}),(filter_par
    .parsersEq (tMod (P Any4) (M (.filter f_true_filter))) (P (.filter Any4 (.user f_true_filter))),  -- 44: DEP_ASSERT_MODIFIER_MODULO_OPERABLE_R(PP{}, filter<true_filter>,(filter_parser<PP, integral_constant<true_filter>>{}), P{}, filter<true_filter>,(filte
    .parsersEq (tCall (M (.filter f_true_filter)) [(P Non1)]) (P (.filter Non1 (.user f_true_filter))),  -- 44: DEP_ASSERT_MODIFIER_CALLABLE_R(filter<true_filter>,(PP{}),(filter_parser<PP, integral_constant<true_filter>>{}), filter<true_filter>,(P{}),(filter_par
    .parsersEq (tMod (P Non1) (M (.filter f_true_filter))) (P (.filter Non1 (.user f_true_filter))),  -- 44: DEP_ASSERT_MODIFIER_MODULO_OPERABLE_R(PP{}, filter<true_filter>,(filter_parser<PP, integral_constant<true_filter>>{}), P{}, filter<true_filter>,(filte
    .parsersEq (tCall (M (.filter f_true_filter)) [(P Non2)]) (P (.filter Non2 (.user f_true_filter))),  -- 44: DEP_ASSERT_MODIFIER_CALLABLE_R(filter<true_filter>,(PP{}),(filter_parser<PP, integral_constant<true_filter>>{}), filter<true_filter>,(P{}),(filter_par
    .parsersEq (tMod (P Non2) (M (.filter f_true_filter))) (P (.filter Non2 (.user f_true_filter))),  -- 44: DEP_ASSERT_MODIFIER_MODULO_OPERABLE_R(PP{}, filter<true_filter>,(filter_parser<PP, integral_constant<true_filter>>{}), P{}, filter<true_filter>,(filte
    .parsersEq (tCall (M (.filter f_true_filter)) [(P Non3)]) (P (.filter Non3 (.user f_true_filter))),  -- 44: DEP_ASSERT_MODIFIER_CALLABLE_R(filter<true_filter>,(PP{}),(filter_parser<PP, integral_constant<true_filter>>{}), filter<true_filter>,(P{}),(filter_par
    .parsersEq (tMod (P Non3) (M (.filter f_true_filter))) (P (.filter Non3 (.user f_true_filter))),  -- 44: DEP_ASSERT_MODIFIER_MODULO_OPERABLE_R(PP{}, filter<true_filter>,(filter_parser<PP, integral_constant<true_filter>>{}), P{}, filter<true_filter>,(filte
    .parsersEq (tCall (M (.filter f_true_filter)) [(P Non4)]) (P (.filter Non4 (.user f_true_filter))),  -- 44: DEP_ASSERT_MODIFIER_CALLABLE_R(filter<true_filter>,(PP{}),(filter_parser<PP, integral_constant<true_filter>>{}), filter<true_filter>,(P{}),(filter_par
    .parsersEq (tMod (P Non4) (M (.filter f_true_filter))) (P (.filter Non4 (.user f_true_filter))),  -- 44: DEP_ASSERT_MODIFIER_MODULO_OPERABLE_R(PP{}, filter<true_filter>,(filter_parser<PP, integral_constant<true_filter>>{}), P{}, filter<true_filter>,(filte
    .parsersEq (tCall (M (.filter f_true_filter)) [(P Non5)]) (P (.filter Non5 (.user f_true_filter))),  -- 44: DEP_ASSERT_MODIFIER_CALLABLE_R(filter<true_filter>,(PP{}),(filter_parser<PP, integral_constant<true_filter>>{}), filter<true_filter>,(P{}),(filter_par
    .parsersEq (tMod (P Non5) (M (.filter f_true_filter))) (P (.filter Non5 (.user f_true_filter))),  -- 44: DEP_ASSERT_MODIFIER_MODULO_OPERABLE_R(PP{}, filter<true_filter>,(filter_parser<PP, integral_constant<true_filter>>{}), P{}, filter<true_filter>,(filte
    .parsersEq (tCall (M (.filter f_true_filter)) [(P All1)]) (P (.filter All1 (.user f_true_filter))),  -- 44: DEP_ASSERT_MODIFIER_CALLABLE_R(filter<true_filter>,(PP{}),(filter_parser<PP, integral_constant<true_filter>>{}), filter<true_filter>,(P{}),(filter_par
    .parsersEq (tMod (P All1) (M (.filter f_true_filter))) (P (.filter All1 (.user f_true_filter))),  -- 44: DEP_ASSERT_MODIFIER_MODULO_OPERABLE_R(PP{}, filter<true_filter>,(filter_parser<PP, integral_constant<true_filter>>{}), P{}, filter<true_filter>,(filte
    .parsersEq (tCall (M (.filter f_true_filter)) [(P All2)]) (P (.filter All2 (.user f_true_filter))),  -- 44: DEP_ASSERT_MODIFIER_CALLABLE_R(filter<true_filter>,(PP{}),(filter_parser<PP, integral_constant<true_filter>>{}), filter<true_filter>,(P{}),(filter_par
    .parsersEq (tMod (P All2) (M (.filter f_true_filter))) (P (.filter All2 (.user f_true_filter))),  -- 44: DEP_ASSERT_MODIFIER_MODULO_OPERABLE_R(PP{}, filter<true_filter>,(filter_parser<PP, integral_constant<true_filter>>{}), P{}, filter<true_filter>,(filte
    .parsersEq (tCall (M (.filter f_true_filter)) [(P All3)]) (P (.filter All3 (.user f_true_filter))),  -- 44: DEP_ASSERT_MODIFIER_CALLABLE_R(filter<true_filter>,(PP{}),(filter_parser<PP, integral_constant<true_filter>>{}), filter<true_filter>,(P{}),(filter_par
    .parsersEq (tMod (P All3) (M (.filter f_true_filter))) (P (.filter All3 (.user f_true_filter))),  -- 44: DEP_ASSERT_MODIFIER_MODULO_OPERABLE_R(PP{}, filter<true_filter>,(filter_parser<PP, integral_constant<true_filter>>{}), P{}, filter<true_filter>,(filte
    .parsersEq (tCall (M (.filter f_true_filter)) [(P All4)]) (P (.filter All4 (.user f_true_filter))),  -- 44: DEP_ASSERT_MODIFIER_CALLABLE_R(filter<true_filter>,(PP{}),(filter_parser<PP, integral_constant<true_filter>>{}), filter<true_filter>,(P{}),(filter_par
    .parsersEq (tMod (P All4) (M (.filter f_true_filter))) (P (.filter All4 (.user f_true_filter))),  -- 44: DEP_ASSERT_MODIFIER_MODULO_OPERABLE_R(PP{}, filter<true_filter>,(filter_parser<PP, integral_constant<true_filter>>{}), P{}, filter<true_filter>,(filte
    .parsersEq (tCall (M (.filter f_true_filter)) [(P Eps1)]) (P (.filter Eps1 (.user f_true_filter))),  -- 44: DEP_ASSERT_MODIFIER_CALLABLE_R(filter<true_filter>,(PP{}),(filter_parser<PP, integral_constant<true_filter>>{}), filter<true_filter>,(P{}),(filter_par
    .parsersEq (tMod (P Eps1) (M (.filter f_true_filter))) (P (.filter Eps1 (.user f_true_filter)))  -- 44: DEP_ASSERT_MODIFIER_MODULO_OPERABLE_R(PP{}, filter<true_filter>,(filter_parser<PP, integral_constant<true_filter>>{}), P{}, filter<true_filter>,(filte
    ], Assertion.Holds a :=
  Assertion.holds_of_check (by decide +kernel)

/-- filter modifier / modify anything (tests/char-tests/modifiers/filter.cpp:44) -/
theorem charModifiersFilter_3_2 : ∀ a ∈ [
    .parsersEq (tCall (M (.filter f_true_filter)) [(P Ant1)]) (P (.filter Ant1 (.user f_true_filter))),  -- 44: DEP_ASSERT_MODIFIER_CALLABLE_R(filter<true_filter>,(PP{}),(filter_parser<PP, integral_constant<true_filter>>{}), filter<true_filter>,(P{}),(filter_par
    .parsersEq (tMod (P Ant1) (M (.filter f_true_filter))) (P (.filter Ant1 (.user f_true_filter))),  -- 44: DEP_ASSERT_MODIFIER_MODULO_OPERABLE_R(PP{}, filter<true_filter>,(filter_parser<PP, integral_constant<true_filter>>{}), P{}, filter<true_filter>,(filte
    .parsersEq (tCall (M (.filter f_true_filter)) [(P QQ)]) (P (.filter QQ (.user f_true_filter))),  -- 44: DEP_ASSERT_MODIFIER_CALLABLE_R(filter<true_filter>,(PP{}),(filter_parser<PP, integral_constant<true_filter>>{}), filter<true_filter>,(P{}),(filter_par
    .parsersEq (tMod (P QQ) (M (.filter f_true_filter))) (P (.filter QQ (.user f_true_filter))),  -- 44: DEP_ASSERT_MODIFIER_MODULO_OPERABLE_R(PP{}, filter<true_filter>,(filter_parser<PP, integral_constant<true_filter>>{}), P{}, filter<true_filter>,(filte
    .parsersEq (tCall (M (.filter f_true_filter)) [(P ABC)]) (P (.filter ABC (.user f_true_filter))),  -- 44: DEP_ASSERT_MODIFIER_CALLABLE_R(filter<true_filter>,(PP{}),(filter_parser<PP, integral_constant<true_filter>>{}), filter<true_filter>,(P{}),(filter_par
    .parsersEq (tMod (P ABC) (M (.filter f_true_filter))) (P (.filter ABC (.user f_true_filter))),  -- 44: DEP_ASSERT_MODIFIER_MODULO_OPERABLE_R(PP{}, filter<true_filter>,(filter_parser<PP, integral_constant<true_filter>>{}), P{}, filter<true_filter>,(filte
    .parsersEq (tCall (M (.filter f_true_filter)) [(P Comma)]) (P (.filter Comma (.user f_true_filter))),  -- 44: DEP_ASSERT_MODIFIER_CALLABLE_R(filter<true_filter>,(PP{}),(filter_parser<PP, integral_constant<true_filter>>{}), filter<true_filter>,(P{}),(filter_par
    .parsersEq (tMod (P Comma) (M (.filter f_true_filter))) (P (.filter Comma (.user f_true_filter))),  -- 44: DEP_ASSERT_MODIFIER_MODULO_OPERABLE_R(PP{}, filter<true_filter>,(filter_parser<PP, integral_constant<true_filter>>{}), P{}, filter<true_filter>,(filte
    .parsersEq (tCall (M (.filter f_true_filter)) [(P SpaceDot)]) (P (.filter SpaceDot (.user f_true_filter))),  -- 44: DEP_ASSERT_MODIFIER_CALLABLE_R(filter<true_filter>,(PP{}),(filter_parser<PP, integral_constant<true_filter>>{}), filter<true_filter>,(P{}),(filter_par
    .parsersEq (tMod (P SpaceDot) (M (.filter f_true_filter))) (P (.filter SpaceDot (.user f_true_filter))),  -- 44: DEP_ASSERT_MODIFIER_MODULO_OPERABLE_R(PP{}, filter<true_filter>,(filter_parser<PP, integral_constant<true_filter>>{}), P{}, filter<true_filter>,(filte
    .parsersEq (tCall (M (.filter f_true_filter)) [(P Cho1)]) (P (.filter Cho1 (.user f_true_filter))),  -- 44: DEP_ASSERT_MODIFIER_CALLABLE_R(filter<true_filter>,(PP{}),(filter_parser<PP, integral_constant<true_filter>>{}), filter<true_filter>,(P{}),(filter_par
    .parsersEq (tMod (P Cho1) (M (.filter f_true_filter))) (P (.filter Cho1 (.user f_true_filter))),  -- 44: DEP_ASSERT_MODIFIER_MODULO_OPERABLE_R(PP{}, filter<true_filter>,(filter_parser<PP, integral_constant<true_filter>>{}), P{}, filter<true_filter>,(filte
    .parsersEq (tCall (M (.filter f_true_filter)) [(P Cho2)]) (P (.filter Cho2 (.user f_true_filter))),  -- 44: DEP_ASSERT_MODIFIER_CALLABLE_R(filter<true_filter>,(PP{}),(filter_parser<PP, integral_constant<true_filter>>{}), filter<true_filter>,(P{}),(filter_par
    .parsersEq (tMod (P Cho2) (M (.filter f_true_filter))) (P (.filter Cho2 (.user f_true_filter))),  -- 44: DEP_ASSERT_MODIFIER_MODULO_OPERABLE_R(PP{}, filter<true_filter>,(filter_parser<PP, integral_constant<true_filter>>{}), P{}, filter<true_filter>,(filte
    .parsersEq (tCall (M (.filter f_true_filter)) [(P Cho3)]) (P (.filter Cho3 (.user f_true_filter))),  -- 44: DEP_ASSERT_MODIFIER_CALLABLE_R(filter<true_filter>,(PP{}),(filter_parser<PP, integral_constant<true_filter>>{}), filter<true_filter>,(P{}),(filter_par
    .parsersEq (tMod (P Cho3) (M (.filter f_true_filter))) (P (.filter Cho3 (.user f_true_filter))),  -- 44: DEP_ASSERT_MODIFIER_MODULO_OPERABLE_R(PP{}, filter<true_filter>,(filter_parser<PP, integral_constant<true_filter>>{}), P{}, filter<true_filter>,(filte
    .parsersEq (tCall (M (.filter f_true_filter)) [(P Cho4)]) (P (.filter Cho4 (.user f_true_filter))),  -- 44: DEP_ASSERT_MODIFIER_CALLABLE_R(filter<true_filter>,(PP{}),(filter_parser<PP, integral_constant<true_filter>>{}), filter<true_filter>,(P{}),(filter_par
    .parsersEq (tMod (P Cho4) (M (.filter f_true_filter))) (P (.filter Cho4 (.user f_true_filter))),  -- 44: DEP_ASSERT_MODIFIER_MODULO_OPERABLE_R(PP{}, filter<true_filter>,(filter_parser<PP, integral_constant<true_filter>>{}), P{}, filter<true_filter>,(filte
    .parsersEq (tCall (M (.filter f_true_filter)) [(P Cho5)]) (P (.filter Cho5 (.user f_true_filter))),  -- 44: DEP_ASSERT_MODIFIER_CALLABLE_R(filter<true_filter>,(PP{}),(filter_parser<PP, integral_constant<true_filter>>{}), filter<true_filter>,(P{}),(filter_par
    .parsersEq (tMod (P Cho5) (M (.filter f_true_filter))) (P (.filter Cho5 (.user f_true_filter))),  -- 44: DEP_ASSERT_MODIFIER_MODULO_OPERABLE_R(PP{}, filter<true_filter>,(filter_parser<PP, integral_constant<true_filter>>{}), P{}, filter<true_filter>,(filte
    .parsersEq (tCall (M (.filter f_true_filter)) [(P Seq1)]) (P (.filter Seq1 (.user f_true_filter))),  -- 44: DEP_ASSERT_MODIFIER_CALLABLE_R(filter<true_filter>,(PP{}),(filter_parser<PP, integral_constant<true_filter>>{}), filter<true_filter>,(P{}),(filter_par
    .parsersEq (tMod (P Seq1) (M (.filter f_true_filter))) (P (.filter Seq1 (.user f_true_filter))),  -- 44: DEP_ASSERT_MODIFIER_MODULO_OPERABLE_R(PP{}, filter<true_filter>,(filter_parser<PP, integral_constant<true_filter>>{}), P{}, filter<true_filter>,(filte
    .parsersEq (tCall (M (.filter f_true_filter)) [(P Seq2)]) (P (.filter Seq2 (.user f_true_filter))),  -- 44: DEP_ASSERT_MODIFIER_CALLABLE_R(filter<true_filter>,(PP{}),(filter_parser<PP, integral_constant<true_filter>>{}), filter<true_filter>,(P{}),(filter_par
    .parsersEq (tMod (P Seq2) (M (.filter f_true_filter))) (P (.filter Seq2 (.user f_true_filter))),  -- 44: DEP_ASSERT_MODIFIER_MODULO_OPERABLE_R(PP{}, filter<true_filter>,(filter_parser<PP, integral_constant<true_filter>>{}), P{}, filter<true_filter>,(filte
    .parsersEq (tCall (M (.filter f_true_filter)) [(P Seq3)]) (P (.filter Seq3 (.user f_true_filter))),  -- 44: DEP_ASSERT_MODIFIER_CALLABLE_R(filter<true_filter>,(PP{}),(filter_parser<PP, integral_constant<true_filter>>{}), filter<true_filter>,(P{}),(filter_par
    .parsersEq (tMod (P Seq3) (M (.filter f_true_filter))) (P (.filter Seq3 (.user f_true_filter))),  -- 44: DEP_ASSERT_MODIFIER_MODULO_OPERABLE_R(PP{}, filter<true_filter>,(filter_parser<PP, integral_constant<true_filter>>{}), P{}, filter<true_filter>,(filte
    .parsersEq (tCall (M (.filter f_true_filter)) [(P Seq4)]) (P (.filter Seq4 (.user f_true_filter))),  -- 44: DEP_ASSERT_MODIFIER_CALLABLE_R(filter<true_filter>,(PP{}),(filter_parser<PP, integral_constant<true_filter>>{}), filter<true_filter>,(P{}),(filter_par
    .parsersEq (tMod (P Seq4) (M (.filter f_true_filter))) (P (.filter Seq4 (.user f_true_filter))),  -- 44: DEP_ASSERT_MODIFIER_MODULO_OPERABLE_R(PP{}, filter<true_filter>,(filter_parser<PP, integral_constant<true_filter>>{}), P{}, filter<true_filter>,(filte
    .parsersEq (tCall (M (.filter f_true_filter)) [(P Seq5)]) (P (.filter Seq5 (.user f_true_filter))),  -- 44: DEP_ASSERT_MODIFIER_CALLABLE_R(filter<true_filter>,(PP{}),(filter_parser<PP, integral_constant<true_filter>>{}), filter<true_filter>,(P{}),(filter_par
    .parsersEq (tMod (P Seq5) (M (.filter f_true_filter))) (P (.filter Seq5 (.user f_true_filter))),  -- 44: DEP_ASSERT_MODIFIER_MODULO_OPERABLE_R(PP{}, filter<true_filter>,(filter_parser<PP, integral_constant<true_filter>>{}), P{}, filter<true_filter>,(filte
    .parsersEq (tCall (M (.filter f_true_filter)) [(P Joi1)]) (P (.filter Joi1 (.user f_true_filter))),  -- 44: DEP_ASSERT_MODIFIER_CALLABLE_R(filter<true_filter>,(PP{}),(filter_parser<PP, integral_constant<true_filter>>{}), filter<true_filter>,(P{}),(filter_par
    .parsersEq (tMod (P Joi1) (M (.filter f_true_filter))) (P (.filter Joi1 (.user f_true_filter))),  -- 44: DEP_ASSERT_MODIFIER_MODULO_OPERABLE_R(PP{}, filter<true_filter>,(filter_parser<PP, integral_constant<true_filter>>{}), P{}, filter<true_filter>,(filte
    .parsersEq (tCall (M (.filter f_true_filter)) [(P Joi2)]) (P (.filter Joi2 (.user f_true_filter))),  -- 44: DEP_ASSERT_MODIFIER_CALLABLE_R(filter<true_filter>,(PP{}),(filter_parser<PP, integral_constant<true_filter>>{}), filter<true_filter>,(P{}),(filter_par
    .parsersEq (tMod (P Joi2) (M (.filter f_true_filter))) (P (.filter Joi2 (.user f_true_filter))),  -- 44: DEP_ASSERT_MODIFIER_MODULO_OPERABLE_R(PP{}, filter<true_filter>,(filter_parser<PP, integral_constant<true_filter>>{}), P{}, filter<true_filter>,(filte
    .parsersEq (tCall (M (.filter f_true_filter)) [(P Joi3)]) (P (.filter Joi3 (.user f_true_filter))),  -- 44: DEP_ASSERT_MODIFIER_CALLABLE_R(filter<true_filter>,(PP{}),(filter_parser<PP, integral_constant<true_filter>>{}), filter<true_filter>,(P{}),(filter_par
    .parsersEq (tMod (P Joi3) (M (.filter f_true_filter))) (P (.filter Joi3 (.user f_true_filter))),  -- 44: DEP_ASSERT_MODIFIER_MODULO_OPERABLE_R(PP{}, filter<true_filter>,(filter_parser<PP, integral_constant<true_filter>>{}), P{}, filter<true_filter>,(filte
    .parsersEq (tCall (M (.filter f_true_filter)) [(P Joi4)]) (P (.filter Joi4 (.user f_true_filter))),  -- 44: DEP_ASSERT_MODIFIER_CALLABLE_R(filter<true_filter>,(PP{}),(filter_parser<PP, integral_constant<true_filter>>{}), filter<true_filter>,(P{}),(filter_par
    .parsersEq (tMod (P Joi4) (M (.filter f_true_filter))) (P (.filter Joi4 (.user f_true_filter))),  -- 44: DEP_ASSERT_MODIFIER_MODULO_OPERABLE_R(PP{}, filter<true_filter>,(filter_parser<PP, integral_constant<true_filter>>{}), P{}, filter<true_filter>,(filte
    .parsersEq (tCall (M (.filter f_true_filter)) [(P Joi5)]) (P (.filter Joi5 (.user f_true_filter))),  -- 44: DEP_ASSERT_MODIFIER_CALLABLE_R(filter<true_filter>,(PP{}),(filter_parser<PP, integral_constant<true_filter>>{}), filter<true_filter>,(P{}),(filter_par
    .parsersEq (tMod (P Joi5) (M (.filter f_true_filter))) (P (.filter Joi5 (.user f_true_filter))),  -- 44: DEP_ASSERT_MODIFIER_MODULO_OPERABLE_R(PP{}, filter<true_filter>,(filter_parser<PP, integral_constant<true_filter>>{}), P{}, filter<true_filter>,(filte
    .parsersEq (tCall (M (.filter f_true_filter)) [(P Map1)]) (P (.filter Map1 (.user f_true_filter))),  -- 44: DEP_ASSERT_MODIFIER_CALLABLE_R(filter<true_filter>,(PP{}),(filter_parser<PP, integral_constant<true_filter>>{}), filter<true_filter>,(P{}),(filter_par
    .parsersEq (tMod (P Map1) (M (.filter f_true_filter))) (P (.filter Map1 (.user f_true_filter))),  -- 44: DEP_ASSERT_MODIFIER_MODULO_OPERABLE_R(PP{}, filter<true_filter>,(filter_parser<PP, integral_constant<true_filter>>{}), P{}, filter<true_filter>,(filte
    .parsersEq (tCall (M (.filter f_true_filter)) [(P Map2)]) (P (.filter Map2 (.user f_true_filter))),  -- 44: DEP_ASSERT_MODIFIER_CALLABLE_R(filter<true_filter>,(PP{}),(filter_parser<PP, integral_constant<true_filter>>{}), filter<true_filter>,(P{}),(filter_par
    .parsersEq (tMod (P Map2) (M (.filter f_true_filter))) (P (.filter Map2 (.user f_true_filter))),  -- 44: DEP_ASSERT_MODIFIER_MODULO_OPERABLE_R(PP{}, filter<true_filter>,(filter_parser<PP, integral_constant<true_filter>>{}), P{}, filter<true_filter>,(filte
    .parsersEq (tCall (M (.filter f_true_filter)) [(P Map3)]) (P (.filter Map3 (.user f_true_filter))),  -- 44: DEP_ASSERT_MODIFIER_CALLABLE_R(filter<true_filter>,(PP{}),(filter_parser<PP, integral_constant<true_filter>>{}), filter<true_filter>,(P{}),(filter_par
    .parsersEq (tMod (P Map3) (M (.filter f_true_filter))) (P (.filter Map3 (.user f_true_filter))),  -- 44: DEP_ASSERT_MODIFIER_MODULO_OPERABLE_R(PP{}, filter<true_filter>,(filter_parser<PP, integral_constant<true_filter>>{}), P{}, filter<true_filter>,(filte
    .parsersEq (tCall (M (.filter f_true_filter)) [(P Map4)]) (P (.filter Map4 (.user f_true_filter))),  -- 44: DEP_ASSERT_MODIFIER_CALLABLE_R(filter<true_filter>,(PP{}),(filter_parser<PP, integral_constant<true_filter>>{}), filter<true_filter>,(P{}),(filter_par
    .parsersEq (tMod (P Map4) (M (.filter f_true_filter))) (P (.filter Map4 (.user f_true_filter))),  -- 44: DEP_ASSERT_MODIFIER_MODULO_OPERABLE_R(PP{}, filter<true_filter>,(filter_parser<PP, integral_constant<true_filter>>{}), P{}, filter<true_filter>,(filte
    .parsersEq (tCall (M (.filter f_true_filter)) [(P Fil1)]) (P (.filter Fil1 (.user f_true_filter))),  -- 44: DEP_ASSERT_MODIFIER_CALLABLE_R(filter<true_filter>,(PP{}),(filter_parser<PP, integral_constant<true_filter>>{}), filter<true_filter>,(P{}),(filter_par
    .parsersEq (tMod (P Fil1) (M (.filter f_true_filter))) (P (.filter Fil1 (.user f_true_filter))),  -- 44: DEP_ASSERT_MODIFIER_MODULO_OPERABLE_R(PP{}, filter<true_filter>,(filter_parser<PP, integral_constant<true_filter>>{}), P{}, filter<true_filter>,(filte
    .parsersEq (tCall (M (.filter f_true_filter)) [(P Fil2)]) (P (.filter Fil2 (.user f_true_filter))),  -- 44: DEP_ASSERT_MODIFIER_CALLABLE_R(filter<true_filter>,(PP{}),(filter_parser<PP, integral_constant<true_filter>>{}), filter<true_filter>,(P{}),(filter_par
    .parsersEq (tMod (P Fil2) (M (.filter f_true_filter))) (P (.filter Fil2 (.user f_true_filter))),  -- 44: DEP_ASSERT_MODIFIER_MODULO_OPERABLE_R(PP{}, filter<true_filter>,(filter_parser<PP, integral_constant<true_filter>>{}), P{}, filter<true_filter>,(filte
    .parsersEq (tCall (M (.filter f_true_filter)) [(P Fil3)]) (P (.filter Fil3 (.user f_true_filter))),  -- 44: DEP_ASSERT_MODIFIER_CALLABLE_R(filter<true_filter>,(PP{}),(filter_parser<PP, integral_constant<true_filter>>{}), filter<true_filter>,(P{}),(filter_par
    .parsersEq (tMod (P Fil3) (M (.filter f_true_filter))) (P (.filter Fil3 (.user f_true_filter))),  -- 44: DEP_ASSERT_MODIFIER_MODULO_OPERABLE_R(PP{}, filter<true_filter>,(filter_parser<PP, integral_constant<true_filter>>{}), P{}, filter<true_filter>,(filte
    .parsersEq (tCall (M (.filter f_true_filter)) [(P Apm1)]) (P (.filter Apm1 (.user f_true_filter))),  -- 44: DEP_ASSERT_MODIFIER_CALLABLE_R(filter<true_filter>,(PP{}),(filter_parser<PP, integral_constant<true_filter>>{}), filter<true_filter>,(P{}),(filter_par
    .parsersEq (tMod (P Apm1) (M (.filter f_true_filter))) (P (.filter Apm1 (.user f_true_filter))),  -- 44: DEP_ASSERT_MODIFIER_MODULO_OPERABLE_R(PP{}, filter<true_filter>,(filter_parser<PP, integral_constant<true_filter>>{}), P{}, filter<true_filter>,(filte
    .parsersEq (tCall (M (.filter f_true_filter)) [(P Apm2)]) (P (.filter Apm2 (.user f_true_filter))),  -- 44: DEP_ASSERT_MODIFIER_CALLABLE_R(filter<true_filter>,(PP{}),(filter_parser<PP, integral_constant<true_filter>>{}), filter<true_filter>,(P{}),(filter_par
    .parsersEq (tMod (P Apm2) (M (.filter f_true_filter))) (P (.filter Apm2 (.user f_true_filter))),  -- 44: DEP_ASSERT_MODIFIER_MODULO_OPERABLE_R(PP{}, filter<true_filter>,(filter_parser<PP, integral_constant<true_filter>>{}), P{}, filter<true_filter>,(filte
    .parsersEq (tCall (M (.filter f_true_filter)) [(P Apf1)]) (P (.filter Apf1 (.user f_true_filter))),  -- 44: DEP_ASSERT_MODIFIER_CALLABLE_R(filter<true_filter>,(PP{}),(filter_parser<PP, integral_constant<true_filter>>{}), filter<true_filter>,(P{}),(filter_par
    .parsersEq (tMod (P Apf1) (M (.filter f_true_filter))) (P (.filter Apf1 (.user f_true_filter)))  -- 44: DEP_ASSERT_MODIFIER_MODULO_OPERABLE_R(PP{}, filter<true_filter>,(filter_parser<PP, integral_constant<true_filter>>{}), P{}, filter<true_filter>,(filte
    ], Assertion.Holds a :=
  Assertion.holds_of_check (by decide +kernel)

/-- filter modifier / modify anything (tests/char-tests/modifiers/filter.cpp:44) -/
theorem charModifiersFilter_3_3 : ∀ a ∈ [
    .parsersEq (tCall (M (.filter f_true_filter)) [(P Int1)]) (P (.filter Int1 (.user f_true_filter))),  -- 44: DEP_ASSERT_MODIFIER_CALLABLE_R(filter<true_filter>,(PP{}),(filter_parser<PP, integral_constant<true_filter>>{}), filter<true_filter>,(P{}),(filter_par
    .parsersEq (tMod (P Int1) (M (.filter f_true_filter))) (P (.filter Int1 (.user f_true_filter))),  -- 44: DEP_ASSERT_MODIFIER_MODULO_OPERABLE_R(PP{}, filter<true_filter>,(filter_parser<PP, integral_constant<true_filter>>{}), P{}, filter<true_filter>,(filte
    .parsersEq (tCall (M (.filter f_true_filter)) [(P Int2)]) (P (.filter Int2 (.user f_true_filter))),  -- 44: DEP_ASSERT_MODIFIER_CALLABLE_R(filter<true_filter>,(PP{}),(filter_parser<PP, integral_constant<true_filter>>{}), filter<true_filter>,(P{}),(filter_par
    .parsersEq (tMod (P Int2) (M (.filter f_true_filter))) (P (.filter Int2 (.user f_true_filter))),  -- 44: DEP_ASSERT_MODIFIER_MODULO_OPERABLE_R(PP{}, filter<true_filter>,(filter_parser<PP, integral_constant<true_filter>>{}), P{}, filter<true_filter>,(filte
    .parsersEq (tCall (M (.filter f_true_filter)) [(P Int3)]) (P (.filter Int3 (.user f_true_filter))),  -- 44: DEP_ASSERT_MODIFIER_CALLABLE_R(filter<true_filter>,(PP{}),(filter_parser<PP, integral_constant<true_filter>>{}), filter<true_filter>,(P{}),(filter_par
    .parsersEq (tMod (P Int3) (M (.filter f_true_filter))) (P (.filter Int3 (.user f_true_filter))),  -- 44: DEP_ASSERT_MODIFIER_MODULO_OPERABLE_R(PP{}, filter<true_filter>,(filter_parser<PP, integral_constant<true_filter>>{}), P{}, filter<true_filter>,(filte
    .parsersEq (tCall (M (.filter f_true_filter)) [(P Api1)]) (P (.filter Api1 (.user f_true_filter))),  -- 44: DEP_ASSERT_MODIFIER_CALLABLE_R(filter<true_filter>,(PP{}),(filter_parser<PP, integral_constant<true_filter>>{}), filter<true_filter>,(P{}),(filter_par
    .parsersEq (tMod (P Api1) (M (.filter f_true_filter))) (P (.filter Api1 (.user f_true_filter))),  -- 44: DEP_ASSERT_MODIFIER_MODULO_OPERABLE_R(PP{}, filter<true_filter>,(filter_parser<PP, integral_constant<true_filter>>{}), P{}, filter<true_filter>,(filte
    .parsersEq (tCall (M (.filter f_true_filter)) [(P Api2)]) (P (.filter Api2 (.user f_true_filter))),  -- 44: DEP_ASSERT_MODIFIER_CALLABLE_R(filter<true_filter>,(PP{}),(filter_parser<PP, integral_constant<true_filter>>{}), filter<true_filter>,(P{}),(filter_par
    .parsersEq (tMod (P Api2) (M (.filter f_true_filter))) (P (.filter Api2 (.user f_true_filter))),  -- 44: DEP_ASSERT_MODIFIER_MODULO_OPERABLE_R(PP{}, filter<true_filter>,(filter_parser<PP, integral_constant<true_filter>>{}), P{}, filter<true_filter>,(filte
    .parsersEq (tCall (M (.filter f_true_filter)) [(P Con1)]) (P (.filter Con1 (.user f_true_filter))),  -- 44: DEP_ASSERT_MODIFIER_CALLABLE_R(filter<true_filter>,(PP{}),(filter_parser<PP, integral_constant<true_filter>>{}), filter<true_filter>,(P{}),(filter_par
    .parsersEq (tMod (P Con1) (M (.filter f_true_filter))) (P (.filter Con1 (.user f_true_filter))),  -- 44: DEP_ASSERT_MODIFIER_MODULO_OPERABLE_R(PP{}, filter<true_filter>,(filter_parser<PP, integral_constant<true_filter>>{}), P{}, filter<true_filter>,(filte
    .parsersEq (tCall (M (.filter f_true_filter)) [(P Con2)]) (P (.filter Con2 (.user f_true_filter))),  -- 44: DEP_ASSERT_MODIFIER_CALLABLE_R(filter<true_filter>,(PP{}),(filter_parser<PP, integral_constant<true_filter>>{}), filter<true_filter>,(P{}),(filter_par
    .parsersEq (tMod (P Con2) (M (.filter f_true_filter))) (P (.filter Con2 (.user f_true_filter))),  -- 44: DEP_ASSERT_MODIFIER_MODULO_OPERABLE_R(PP{}, filter<true_filter>,(filter_parser<PP, integral_constant<true_filter>>{}), P{}, filter<true_filter>,(filte
    .parsersEq (tCall (M (.filter f_true_filter)) [(P Con3)]) (P (.filter Con3 (.user f_true_filter))),  -- 44: DEP_ASSERT_MODIFIER_CALLABLE_R(filter<true_filter>,(PP{}),(filter_parser<PP, integral_constant<true_filter>>{}), filter<true_filter>,(P{}),(filter_par
    .parsersEq (tMod (P Con3) (M (.filter f_true_filter))) (P (.filter Con3 (.user f_true_filter))),  -- 44: DEP_ASSERT_MODIFIER_MODULO_OPERABLE_R(PP{}, filter<true_filter>,(filter_parser<PP, integral_constant<true_filter>>{}), P{}, filter<true_filter>,(filte
    .parsersEq (tCall (M (.filter f_true_filter)) [(P Con4)]) (P (.filter Con4 (.user f_true_filter))),  -- 44: DEP_ASSERT_MODIFIER_CALLABLE_R(filter<true_filter>,(PP{}),(filter_parser<PP, integral_constant<true_filter>>{}), filter<true_filter>,(P{}),(filter_par
    .parsersEq (tMod (P Con4) (M (.filter f_true_filter))) (P (.filter Con4 (.user f_true_filter))),  -- 44: DEP_ASSERT_MODIFIER_MODULO_OPERABLE_R(PP{}, filter<true_filter>,(filter_parser<PP, integral_constant<true_filter>>{}), P{}, filter<true_filter>,(filte
    .parsersEq (tCall (M (.filter f_true_filter)) [(P Def1)]) (P (.filter Def1 (.user f_true_filter))),  -- 44: DEP_ASSERT_MODIFIER_CALLABLE_R(filter<true_filter>,(PP{}),(filter_parser<PP, integral_constant<true_filter>>{}), filter<true_filter>,(P{}),(filter_par
    .parsersEq (tMod (P Def1) (M (.filter f_true_filter))) (P (.filter Def1 (.user f_true_filter))),  -- 44: DEP_ASSERT_MODIFIER_MODULO_OPERABLE_R(PP{}, filter<true_filter>,(filter_parser<PP, integral_constant<true_filter>>{}), P{}, filter<true_filter>,(filte
    .parsersEq (tCall (M (.filter f_true_filter)) [(P Def2)]) (P (.filter Def2 (.user f_true_filter))),  -- 44: DEP_ASSERT_MODIFIER_CALLABLE_R(filter<true_filter>,(PP{}),(filter_parser<PP, integral_constant<true_filter>>{}), filter<true_filter>,(P{}),(filter_par
    .parsersEq (tMod (P Def2) (M (.filter f_true_filter))) (P (.filter Def2 (.user f_true_filter))),  -- 44: DEP_ASSERT_MODIFIER_MODULO_OPERABLE_R(PP{}, filter<true_filter>,(filter_parser<PP, integral_constant<true_filter>>{}), P{}, filter<true_filter>,(filte
    .parsersEq (tCall (M (.filter f_true_filter)) [(P (.custom 0))]) (P (.filter (.custom 0) (.user f_true_filter))),  -- 44: DEP_ASSERT_MODIFIER_CALLABLE_R(filter<true_filter>,(PP{}),(filter_parser<PP, integral_constant<true_filter>>{}), filter<true_filter>,(P{}),(filter_par
    .parsersEq (tMod (P (.custom 0)) (M (.filter f_true_filter))) (P (.filter (.custom 0) (.user f_true_filter))),  -- 44: DEP_ASSERT_MODIFIER_MODULO_OPERABLE_R(PP{}, filter<true_filter>,(filter_parser<PP, integral_constant<true_filter>>{}), P{}, filter<true_filter>,(filte
    .parsersEq (tCall (M (.filter f_true_filter)) [(P (.custom 1))]) (P (.filter (.custom 1) (.user f_true_filter))),  -- 44: DEP_ASSERT_MODIFIER_CALLABLE_R(filter<true_filter>,(PP{}),(filter_parser<PP, integral_constant<true_filter>>{}), filter<true_filter>,(P{}),(filter_par
    .parsersEq (tMod (P (.custom 1)) (M (.filter f_true_filter))) (P (.filter (.custom 1) (.user f_true_filter))),  -- 44: DEP_ASSERT_MODIFIER_MODULO_OPERABLE_R(PP{}, filter<true_filter>,(filter_parser<PP, integral_constant<true_filter>>{}), P{}, filter<true_filter>,(filte
    .parsersEq (tCall (M (.filter f_true_filter)) [(P May1)]) (P (.filter May1 (.user f_true_filter))),  -- 44: DEP_ASSERT_MODIFIER_CALLABLE_R(filter<true_filter>,(PP{}),(filter_parser<PP, integral_constant<true_filter>>{}), filter<true_filter>,(P{}),(filter_par
    .parsersEq (tMod (P May1) (M (.filter f_true_filter))) (P (.filter May1 (.user f_true_filter))),  -- 44: DEP_ASSERT_MODIFIER_MODULO_OPERABLE_R(PP{}, filter<true_filter>,(filter_parser<PP, integral_constant<true_filter>>{}), P{}, filter<true_filter>,(filte
    .parsersEq (tCall (M (.filter f_true_filter)) [(P May2)]) (P (.filter May2 (.user f_true_filter))),  -- 44: DEP_ASSERT_MODIFIER_CALLABLE_R(filter<true_filter>,(PP{}),(filter_parser<PP, integral_constant<true_filter>>{}), filter<true_filter>,(P{}),(filter_par
    .parsersEq (tMod (P May2) (M (.filter f_true_filter))) (P (.filter May2 (.user f_true_filter))),  -- 44: DEP_ASSERT_MODIFIER_MODULO_OPERABLE_R(PP{}, filter<true_filter>,(filter_parser<PP, integral_constant<true_filter>>{}), P{}, filter<true_filter>,(filte
    .parsersEq (tCall (M (.filter f_true_filter)) [(P May3)]) (P (.filter May3 (.user f_true_filter))),  -- 44: DEP_ASSERT_MODIFIER_CALLABLE_R(filter<true_filter>,(PP{}),(filter_parser<PP, integral_constant<true_filter>>{}), filter<true_filter>,(P{}),(filter_par
    .parsersEq (tMod (P May3) (M (.filter f_true_filter))) (P (.filter May3 (.user f_true_filter))),  -- 44: DEP_ASSERT_MODIFIER_MODULO_OPERABLE_R(PP{}, filter<true_filter>,(filter_parser<PP, integral_constant<true_filter>>{}), P{}, filter<true_filter>,(filte
    .parsersEq (tCall (M (.filter f_true_filter)) [(P May4)]) (P (.filter May4 (.user f_true_filter))),  -- 44: DEP_ASSERT_MODIFIER_CALLABLE_R(filter<true_filter>,(PP{}),(filter_parser<PP, integral_constant<true_filter>>{}), filter<true_filter>,(P{}),(filter_par
    .parsersEq (tMod (P May4) (M (.filter f_true_filter))) (P (.filter May4 (.user f_true_filter))),  -- 44: DEP_ASSERT_MODIFIER_MODULO_OPERABLE_R(PP{}, filter<true_filter>,(filter_parser<PP, integral_constant<true_filter>>{}), P{}, filter<true_filter>,(filte
    .parsersEq (tCall (M (.filter f_true_filter)) [(P Exa1)]) (P (.filter Exa1 (.user f_true_filter))),  -- 44: DEP_ASSERT_MODIFIER_CALLABLE_R(filter<true_filter>,(PP{}),(filter_parser<PP, integral_constant<true_filter>>{}), filter<true_filter>,(P{}),(filter_par
    .parsersEq (tMod (P Exa1) (M (.filter f_true_filter))) (P (.filter Exa1 (.user f_true_filter))),  -- 44: DEP_ASSERT_MODIFIER_MODULO_OPERABLE_R(PP{}, filter<true_filter>,(filter_parser<PP, integral_constant<true_filter>>{}), P{}, filter<true_filter>,(filte
    .parsersEq (tCall (M (.filter f_true_filter)) [(P Exa2)]) (P (.filter Exa2 (.user f_true_filter))),  -- 44: DEP_ASSERT_MODIFIER_CALLABLE_R(filter<true_filter>,(PP{}),(filter_parser<PP, integral_constant<true_filter>>{}), filter<true_filter>,(P{}),(filter_par
    .parsersEq (tMod (P Exa2) (M (.filter f_true_filter))) (P (.filter Exa2 (.user f_true_filter))),  -- 44: DEP_ASSERT_MODIFIER_MODULO_OPERABLE_R(PP{}, filter<true_filter>,(filter_parser<PP, integral_constant<true_filter>>{}), P{}, filter<true_filter>,(filte
    .parsersEq (tCall (M (.filter f_true_filter)) [(P Exa3)]) (P (.filter Exa3 (.user f_true_filter))),  -- 44: DEP_ASSERT_MODIFIER_CALLABLE_R(filter<true_filter>,(PP{}),(filter_parser<PP, integral_constant<true_filter>>{}), filter<true_filter>,(P{}),(filter_par
    .parsersEq (tMod (P Exa3) (M (.filter f_true_filter))) (P (.filter Exa3 (.user f_true_filter))),  -- 44: DEP_ASSERT_MODIFIER_MODULO_OPERABLE_R(PP{}, filter<true_filter>,(filter_parser<PP, integral_constant<true_filter>>{}), P{}, filter<true_filter>,(filte
    .parsersEq (tCall (M (.filter f_true_filter)) [(P Exa4)]) (P (.filter Exa4 (.user f_true_filter))),  -- 44: DEP_ASSERT_MODIFIER_CALLABLE_R(filter<true_filter>,(PP{}),(filter_parser<PP, integral_constant<true_filter>>{}), filter<true_filter>,(P{}),(filter_par
    .parsersEq (tMod (P Exa4) (M (.filter f_true_filter))) (P (.filter Exa4 (.user f_true_filter))),  -- 44: DEP_ASSERT_MODIFIER_MODULO_OPERABLE_R(PP{}, filter<true_filter>,(filter_parser<PP, integral_constant<true_filter>>{}), P{}, filter<true_filter>,(filte
    .parsersEq (tCall (M (.filter f_true_filter)) [(P Oom1)]) (P (.filter Oom1 (.user f_true_filter))),  -- 44: DEP_ASSERT_MODIFIER_CALLABLE_R(filter<true_filter>,(PP{}),(filter_parser<PP, integral_constant<true_filter>>{}), filter<true_filter>,(P{}),(filter_par
    .parsersEq (tMod (P Oom1) (M (.filter f_true_filter))) (P (.filter Oom1 (.user f_true_filter))),  -- 44: DEP_ASSERT_MODIFIER_MODULO_OPERABLE_R(PP{}, filter<true_filter>,(filter_parser<PP, integral_constant<true_filter>>{}), P{}, filter<true_filter>,(filte
    .parsersEq (tCall (M (.filter f_true_filter)) [(P Oom2)]) (P (.filter Oom2 (.user f_true_filter))),  -- 44: DEP_ASSERT_MODIFIER_CALLABLE_R(filter<true_filter>,(PP{}),(filter_parser<PP, integral_constant<true_filter>>{}), filter<true_filter>,(P{}),(filter_par
    .parsersEq (tMod (P Oom2) (M (.filter f_true_filter))) (P (.filter Oom2 (.user f_true_filter))),  -- 44: DEP_ASSERT_MODIFIER_MODULO_OPERABLE_R(PP{}, filter<true_filter>,(filter_parser<PP, integral_constant<true_filter>>{}), P{}, filter<true_filter>,(filte
    .parsersEq (tCall (M (.filter f_true_filter)) [(P Oom3)]) (P (.filter Oom3 (.user f_true_filter))),  -- 44: DEP_ASSERT_MODIFIER_CALLABLE_R(filter<true_filter>,(PP{}),(filter_parser<PP, integral_constant<true_filter>>{}), filter<true_filter>,(P{}),(filter_par
    .parsersEq (tMod (P Oom3) (M (.filter f_true_filter))) (P (.filter Oom3 (.user f_true_filter))),  -- 44: DEP_ASSERT_MODIFIER_MODULO_OPERABLE_R(PP{}, filter<true_filter>,(filter_parser<PP, integral_constant<true_filter>>{}), P{}, filter<true_filter>,(filte
    .parsersEq (tCall (M (.filter f_true_filter)) [(P Oom4)]) (P (.filter Oom4 (.user f_true_filter))),  -- 44: DEP_ASSERT_MODIFIER_CALLABLE_R(filter<true_filter>,(PP{}),(filter_parser<PP, integral_constant<true_filter>>{}), filter<true_filter>,(P{}),(filter_par
    .parsersEq (tMod (P Oom4) (M (.filter f_true_filter))) (P (.filter Oom4 (.user f_true_filter))),  -- 44: DEP_ASSERT_MODIFIER_MODULO_OPERABLE_R(PP{}, filter<true_filter>,(filter_parser<PP, integral_constant<true_filter>>{}), P{}, filter<true_filter>,(filte
    .parsersEq (tCall (M (.filter f_true_filter)) [(P Zom1)]) (P (.filter Zom1 (.user f_true_filter))),  -- 44: DEP_ASSERT_MODIFIER_CALLABLE_R(filter<true_filter>,(PP{}),(filter_parser<PP, integral_constant<true_filter>>{}), filter<true_filter>,(P{}),(filter_par
    .parsersEq (tMod (P Zom1) (M (.filter f_true_filter))) (P (.filter Zom1 (.user f_true_filter))),  -- 44: DEP_ASSERT_MODIFIER_MODULO_OPERABLE_R(PP{}, filter<true_filter>,(filter_parser<PP, integral_constant<true_filter>>{}), P{}, filter<true_filter>,(filte
    .parsersEq (tCall (M (.filter f_true_filter)) [(P Zom2)]) (P (.filter Zom2 (.user f_true_filter))),  -- 44: DEP_ASSERT_MODIFIER_CALLABLE_R(filter<true_filter>,(PP{}),(filter_parser<PP, integral_constant<true_filter>>{}), filter<true_filter>,(P{}),(filter_par
    .parsersEq (tMod (P Zom2) (M (.filter f_true_filter))) (P (.filter Zom2 (.user f_true_filter))),  -- 44: DEP_ASSERT_MODIFIER_MODULO_OPERABLE_R(PP{}, filter<true_filter>,(filter_parser<PP, integral_constant<true_filter>>{}), P{}, filter<true_filter>,(filte
    .parsersEq (tCall (M (.filter f_true_filter)) [(P Zom3)]) (P (.filter Zom3 (.user f_true_filter))),  -- 44: DEP_ASSERT_MODIFIER_CALLABLE_R(filter<true_filter>,(PP{}),(filter_parser<PP, integral_constant<true_filter>>{}), filter<true_filter>,(P{}),(filter_par
    .parsersEq (tMod (P Zom3) (M (.filter f_true_filter))) (P (.filter Zom3 (.user f_true_filter))),  -- 44: DEP_ASSERT_MODIFIER_MODULO_OPERABLE_R(PP{}, filter<true_filter>,(filter_parser<PP, integral_constant<true_filter>>{}), P{}, filter<true_filter>,(filte
    .parsersEq (tCall (M (.filter f_true_filter)) [(P Zom4)]) (P (.filter Zom4 (.user f_true_filter))),  -- 44: DEP_ASSERT_MODIFIER_CALLABLE_R(filter<true_filter>,(PP{}),(filter_parser<PP, integral_constant<true_filter>>{}), filter<true_filter>,(P{}),(filter_par
    .parsersEq (tMod (P Zom4) (M (.filter f_true_filter))) (P (.filter Zom4 (.user f_true_filter))),  -- 44: DEP_ASSERT_MODIFIER_MODULO_OPERABLE_R(PP{}, filter<true_filter>,(filter_parser<PP, integral_constant<true_filter>>{}), P{}, filter<true_filter>,(filte
    .parsersEq (tCall (M (.filter f_true_filter)) [(P Del1)]) (P (.filter Del1 (.user f_true_filter))),  -- 44: DEP_ASSERT_MODIFIER_CALLABLE_R(filter<true_filter>,(PP{}),(filter_parser<PP, integral_constant<true_filter>>{}), filter<true_filter>,(P{}),(filter_par
    .parsersEq (tMod (P Del1) (M (.filter f_true_filter))) (P (.filter Del1 (.user f_true_filter)))  -- 44: DEP_ASSERT_MODIFIER_MODULO_OPERABLE_R(PP{}, filter<true_filter>,(filter_parser<PP, integral_constant<true_filter>>{}), P{}, filter<true_filter>,(filte
    ], Assertion.Holds a :=
  Assertion.holds_of_check (by decide +kernel)

/-- filter modifier / modify anything (tests/char-tests/modifiers/filter.cpp:44) -/
theorem charModifiersFilter_3_4 : ∀ a ∈ [
    .parsersEq (tCall (M (.filter f_true_filter)) [(P Del2)]) (P (.filter Del2 (.user f_true_filter))),  -- 44: DEP_ASSERT_MODIFIER_CALLABLE_R(filter<true_filter>,(PP{}),(filter_parser<PP, integral_constant<true_filter>>{}), filter<true_filter>,(P{}),(filter_par
    .parsersEq (tMod (P Del2) (M (.filter f_true_filter))) (P (.filter Del2 (.user f_true_filter))),  -- 44: DEP_ASSERT_MODIFIER_MODULO_OPERABLE_R(PP{}, filter<true_filter>,(filter_parser<PP, integral_constant<true_filter>>{}), P{}, filter<true_filter>,(filte
    .parsersEq (tCall (M (.filter f_true_filter)) [(P Del3)]) (P (.filter Del3 (.user f_true_filter))),  -- 44: DEP_ASSERT_MODIFIER_CALLABLE_R(filter<true_filter>,(PP{}),(filter_parser<PP, integral_constant<true_filter>>{}), filter<true_filter>,(P{}),(filter_par
    .parsersEq (tMod (P Del3) (M (.filter f_true_filter))) (P (.filter Del3 (.user f_true_filter))),  -- 44: DEP_ASSERT_MODIFIER_MODULO_OPERABLE_R(PP{}, filter<true_filter>,(filter_parser<PP, integral_constant<true_filter>>{}), P{}, filter<true_filter>,(filte
    .parsersEq (tCall (M (.filter f_true_filter)) [(P Del4)]) (P (.filter Del4 (.user f_true_filter))),  -- 44: DEP_ASSERT_MODIFIER_CALLABLE_R(filter<true_filter>,(PP{}),(filter_parser<PP, integral_constant<true_filter>>{}), filter<true_filter>,(P{}),(filter_par
    .parsersEq (tMod (P Del4) (M (.filter f_true_filter))) (P (.filter Del4 (.user f_true_filter))),  -- 44: DEP_ASSERT_MODIFIER_MODULO_OPERABLE_R(PP{}, filter<true_filter>,(filter_parser<PP, integral_constant<true_filter>>{}), P{}, filter<true_filter>,(filte
    .parsersEq (tCall (M (.filter f_true_filter)) [(P Del5)]) (P (.filter Del5 (.user f_true_filter))),  -- 44: DEP_ASSERT_MODIFIER_CALLABLE_R(filter<true_filter>,(PP{}),(filter_parser<PP, integral_constant<true_filter>>{}), filter<true_filter>,(P{}),(filter_par
    .parsersEq (tMod (P Del5) (M (.filter f_true_filter))) (P (.filter Del5 (.user f_true_filter))),  -- 44: DEP_ASSERT_MODIFIER_MODULO_OPERABLE_R(PP{}, filter<true_filter>,(filter_parser<PP, integral_constant<true_filter>>{}), P{}, filter<true_filter>,(filte
    .parsersEq (tCall (M (.filter f_true_filter)) [(P Del6)]) (P (.filter Del6 (.user f_true_filter))),  -- 44: DEP_ASSERT_MODIFIER_CALLABLE_R(filter<true_filter>,(PP{}),(filter_parser<PP, integral_constant<true_filter>>{}), filter<true_filter>,(P{}),(filter_par
    .parsersEq (tMod (P Del6) (M (.filter f_true_filter))) (P (.filter Del6 (.user f_true_filter))),  -- 44: DEP_ASSERT_MODIFIER_MODULO_OPERABLE_R(PP{}, filter<true_filter>,(filter_parser<PP, integral_constant<true_filter>>{}), P{}, filter<true_filter>,(filte
    .parsersEq (tCall (M (.filter f_true_filter)) [(P Del7)]) (P (.filter Del7 (.user f_true_filter))),  -- 44: DEP_ASSERT_MODIFIER_CALLABLE_R(filter<true_filter>,(PP{}),(filter_parser<PP, integral_constant<true_filter>>{}), filter<true_filter>,(P{}),(filter_par
    .parsersEq (tMod (P Del7) (M (.filter f_true_filter))) (P (.filter Del7 (.user f_true_filter))),  -- 44: DEP_ASSERT_MODIFIER_MODULO_OPERABLE_R(PP{}, filter<true_filter>,(filter_parser<PP, integral_constant<true_filter>>{}), P{}, filter<true_filter>,(filte
    .parsersEq (tCall (M (.filter f_true_filter)) [(P Del8)]) (P (.filter Del8 (.user f_true_filter))),  -- 44: DEP_ASSERT_MODIFIER_CALLABLE_R(filter<true_filter>,(PP{}),(filter_parser<PP, integral_constant<true_filter>>{}), filter<true_filter>,(P{}),(filter_par
    .parsersEq (tMod (P Del8) (M (.filter f_true_filter))) (P (.filter Del8 (.user f_true_filter))),  -- 44: DEP_ASSERT_MODIFIER_MODULO_OPERABLE_R(PP{}, filter<true_filter>,(filter_parser<PP, integral_constant<true_filter>>{}), P{}, filter<true_filter>,(filte
    .parsersEq (tCall (M (.filter f_true_filter)) [(P Dek1)]) (P (.filter Dek1 (.user f_true_filter))),  -- 44: DEP_ASSERT_MODIFIER_CALLABLE_R(filter<true_filter>,(PP{}),(filter_parser<PP, integral_constant<true_filter>>{}), filter<true_filter>,(P{}),(filter_par
    .parsersEq (tMod (P Dek1) (M (.filter f_true_filter))) (P (.filter Dek1 (.user f_true_filter))),  -- 44: DEP_ASSERT_MODIFIER_MODULO_OPERABLE_R(PP{}, filter<true_filter>,(filter_parser<PP, integral_constant<true_filter>>{}), P{}, filter<true_filter>,(filte
    .parsersEq (tCall (M (.filter f_true_filter)) [(P Dek2)]) (P (.filter Dek2 (.user f_true_filter))),  -- 44: DEP_ASSERT_MODIFIER_CALLABLE_R(filter<true_filter>,(PP{}),(filter_parser<PP, integral_constant<true_filter>>{}), filter<true_filter>,(P{}),(filter_par
    .parsersEq (tMod (P Dek2) (M (.filter f_true_filter))) (P (.filter Dek2 (.user f_true_filter))),  -- 44: DEP_ASSERT_MODIFIER_MODULO_OPERABLE_R(PP{}, filter<true_filter>,(filter_parser<PP, integral_constant<true_filter>>{}), P{}, filter<true_filter>,(filte
    .parsersEq (tCall (M (.filter f_true_filter)) [(P Dek3)]) (P (.filter Dek3 (.user f_true_filter))),  -- 44: DEP_ASSERT_MODIFIER_CALLABLE_R(filter<true_filter>,(PP{}),(filter_parser<PP, integral_constant<true_filter>>{}), filter<true_filter>,(P{}),(filter_par
    .parsersEq (tMod (P Dek3) (M (.filter f_true_filter))) (P (.filter Dek3 (.user f_true_filter))),  -- 44: DEP_ASSERT_MODIFIER_MODULO_OPERABLE_R(PP{}, filter<true_filter>,(filter_parser<PP, integral_constant<true_filter>>{}), P{}, filter<true_filter>,(filte
    .parsersEq (tCall (M (.filter f_true_filter)) [(P Dek4)]) (P (.filter Dek4 (.user f_true_filter))),  -- 44: DEP_ASSERT_MODIFIER_CALLABLE_R(filter<true_filter>,(PP{}),(filter_parser<PP, integral_constant<true_filter>>{}), filter<true_filter>,(P{}),(filter_par
    .parsersEq (tMod (P Dek4) (M (.filter f_true_filter))) (P (.filter Dek4 (.user f_true_filter))),  -- 44: DEP_ASSERT_MODIFIER_MODULO_OPERABLE_R(PP{}, filter<true_filter>,(filter_parser<PP, integral_constant<true_filter>>{}), P{}, filter<true_filter>,(filte
    .parsersEq (tCall (M (.filter f_true_filter)) [(P Dek5)]) (P (.filter Dek5 (.user f_true_filter))),  -- 44: DEP_ASSERT_MODIFIER_CALLABLE_R(filter<true_filter>,(PP{}),(filter_parser<PP, integral_constant<true_filter>>{}), filter<true_filter>,(P{}),(filter_par
    .parsersEq (tMod (P Dek5) (M (.filter f_true_filter))) (P (.filter Dek5 (.user f_true_filter))),  -- 44: DEP_ASSERT_MODIFIER_MODULO_OPERABLE_R(PP{}, filter<true_filter>,(filter_parser<PP, integral_constant<true_filter>>{}), P{}, filter<true_filter>,(filte
    .parsersEq (tCall (M (.filter f_true_filter)) [(P Dek6)]) (P (.filter Dek6 (.user f_true_filter))),  -- 44: DEP_ASSERT_MODIFIER_CALLABLE_R(filter<true_filter>,(PP{}),(filter_parser<PP, integral_constant<true_filter>>{}), filter<true_filter>,(P{}),(filter_par
    .parsersEq (tMod (P Dek6) (M (.filter f_true_filter))) (P (.filter Dek6 (.user f_true_filter))),  -- 44: DEP_ASSERT_MODIFIER_MODULO_OPERABLE_R(PP{}, filter<true_filter>,(filter_parser<PP, integral_constant<true_filter>>{}), P{}, filter<true_filter>,(filte
    .parsersEq (tCall (M (.filter f_true_filter)) [(P Dek7)]) (P (.filter Dek7 (.user f_true_filter))),  -- 44: DEP_ASSERT_MODIFIER_CALLABLE_R(filter<true_filter>,(PP{}),(filter_parser<PP, integral_constant<true_filter>>{}), filter<true_filter>,(P{}),(filter_par
    .parsersEq (tMod (P Dek7) (M (.filter f_true_filter))) (P (.filter Dek7 (.user f_true_filter))),  -- 44: DEP_ASSERT_MODIFIER_MODULO_OPERABLE_R(PP{}, filter<true_filter>,(filter_parser<PP, integral_constant<true_filter>>{}), P{}, filter<true_filter>,(filte
    .parsersEq (tCall (M (.filter f_true_filter)) [(P Dek8)]) (P (.filter Dek8 (.user f_true_filter))),  -- 44: DEP_ASSERT_MODIFIER_CALLABLE_R(filter<true_filter>,(PP{}),(filter_parser<PP, integral_constant<true_filter>>{}), filter<true_filter>,(P{}),(filter_par
    .parsersEq (tMod (P Dek8) (M (.filter f_true_filter))) (P (.filter Dek8 (.user f_true_filter)))  -- 44: DEP_ASSERT_MODIFIER_MODULO_OPERABLE_R(PP{}, filter<true_filter>,(filter_parser<PP, integral_constant<true_filter>>{}), P{}, filter<true_filter>,(filte
    ], Assertion.Holds a :=
  Assertion.holds_of_check (by decide +kernel)

end Tok3n.Tests
