import Verif.Tests.Gen.SamplesChar
/- Generated by tools/tests2lean.py from tests/char-tests/modifiers/apply_filter.cpp. -/

namespace Tok3n.Tests

/-- apply_filter modifier / prefix (tests/char-tests/modifiers/apply_filter.cpp:14) -/
theorem charModifiersApplyFilter_1 : ∀ a ∈ [
    .parsersEq (P Apf1) (tCall (M (.applyFilter f_filter_func3_apply)) [(tThen (P ABC) (tStar (P QQ)))])  -- 14: ASSERT_PARSER_VALUES_EQ(apf1, apply_filter<filter_func3_apply>(abc>> * qq))
    ], Assertion.Holds a :=
  Assertion.holds_of_check (by decide +kernel)

/-- apply_filter modifier / infix (tests/char-tests/modifiers/apply_filter.cpp:19) -/
theorem charModifiersApplyFilter_2 : ∀ a ∈ [
    .parsersEq (P Apf1) (tMod (tThen (P ABC) (tStar (P QQ))) (M (.applyFilter f_filter_func3_apply)))  -- 19: ASSERT_PARSER_VALUES_EQ(apf1,(abc>> * qq) % apply_filter<filter_func3_apply>)
    ], Assertion.Holds a :=
  Assertion.holds_of_check (by decide +kernel)

/-- apply_filter modifier / modify anything (tests/char-tests/modifiers/apply_filter.cpp:40) -/
theorem charModifiersApplyFilter_3_1 : ∀ a ∈ [
    .parsersEq (tCall (M (.applyFilter f_true_filter)) [(P Ign1)]) (P (.filter Ign1 (.apply (.user f_true_filter)))),  -- 40: DEP_ASSERT_MODIFIER_CALLABLE_R(apply_filter<true_filter>,(PP{}),(apply_filter_parser<PP, integral_constant<true_filter>>{}), apply_filter<true_filter>
    .parsersEq (tMod (P Ign1) (M (.applyFilter f_true_filter))) (P (.filter Ign1 (.apply (.user f_true_filter)))),  -- 40: DEP_ASSERT_MODIFIER_MODULO_OPERABLE_R(PP{}, apply_filter<true_filter>,(apply_filter_parser<PP, integral_constant<true_filter>>{}), P{}, apply_filter<t
    .parsersEq (tCall (M (.applyFilter f_true_filter)) [(P Ign2)]) (P (.filter Ign2 (.apply (.user f_true_filter)))),  -- 40: DEP_ASSERT_MODIFIER_CALLABLE_R(apply_filter<true_filter>,(PP{}),(apply_filter_parser<PP, integral_constant<true_filter>>{}), apply_filter<true_filter>
    .parsersEq (tMod (P Ign2) (M (.applyFilter f_true_filter))) (P (.filter Ign2 (.apply (.user f_true_filter)))),  -- 40: DEP_ASSERT_MODIFIER_MODULO_OPERABLE_R(PP{}, apply_filter<true_filter>,(apply_filter_parser<PP, integral_constant<true_filter>>{}), P{}, apply_filter<t
    .parsersEq (tCall (M (.applyFilter f_true_filter)) [(P Ign3)]) (P (.filter Ign3 (.apply (.user f_true_filter)))),  -- 40: DEP_ASSERT_MODIFIER_CALLABLE_R(apply_filter<true_filter>,(PP{}),(apply_filter_parser<PP, integral_constant<true_filter>>{}), apply_filter<true_filter>
    .parsersEq (tMod (P Ign3) (M (.applyFilter f_true_filter))) (P (.filter Ign3 (.apply (.user f_true_filter)))),  -- 40: DEP_ASSERT_MODIFIER_MODULO_OPERABLE_R(PP{}, apply_filter<true_filter>,(apply_filter_parser<PP, integral_constant<true_filter>>{}), P{}, apply_filter<t
    .parsersEq (tCall (M (.applyFilter f_true_filter)) [(P Ign4)]) (P (.filter Ign4 (.apply (.user f_true_filter)))),  -- 40: DEP_ASSERT_MODIFIER_CALLABLE_R(apply_filter<true_filter>,(PP{}),(apply_filter_parser<PP, integral_constant<true_filter>>{}), apply_filter<true_filter>
    .parsersEq (tMod (P Ign4) (M (.applyFilter f_true_filter))) (P (.filter Ign4 (.apply (.user f_true_filter)))),  -- 40: DEP_ASSERT_MODIFIER_MODULO_OPERABLE_R(PP{}, apply_filter<true_filter>,(apply_filter_parser<PP, integral_constant<true_filter>>{}), P{}, apply_filter<t
    .parsersEq (tCall (M (.applyFilter f_true_filter)) [(P Ign5)]) (P (.filter Ign5 (.apply (.user f_true_filter)))),  -- 40: DEP_ASSERT_MODIFIER_CALLABLE_R(apply_filter<true_filter>,(PP{}),(apply_filter_parser<PP, integral_constant<true_filter>>{}), apply_filter<true_filter>
    .parsersEq (tMod (P Ign5) (M (.applyFilter f_true_filter))) (P (.filter Ign5 (.apply (.user f_true_filter)))),  -- 40: DEP_ASSERT_MODIFIER_MODULO_OPERABLE_R(PP{}, apply_filter<true_filter>,(apply_filter_parser<PP, integral_constant<true_filter>>{}), P{}, apply_filter<t
    .parsersEq (tCall (M (.applyFilter f_true_filter)) [(P Com1)]) (P (.filter Com1 (.apply (.user f_true_filter)))),  -- 40: DEP_ASSERT_MODIFIER_CALLABLE_R(apply_filter<true_filter>,(PP{}),(apply_filter_parser<PP, integral_constant<true_filter>>{}), apply_filter<true_filter>
    .parsersEq (tMod (P Com1) (M (.applyFilter f_true_filter))) (P (.filter Com1 (.apply (.user f_true_filter)))),  -- 40: DEP_ASSERT_MODIFIER_MODULO_OPERABLE_R(PP{}, apply_filter<true_filter>,(apply_filter_parser<PP, integral_constant<true_filter>>{}), P{}, apply_filter<t
    .parsersEq (tCall (M (.applyFilter f_true_filter)) [(P Com2)]) (P (.filter Com2 (.apply (.user f_true_filter)))),  -- 40: DEP_ASSERT_MODIFIER_CALLABLE_R(apply_filter<true_filter>,(PP{}),(apply_filter_parser<PP, integral_constant<true_filter>>{}), apply_filter<true_filter>
    .parsersEq (tMod (P Com2) (M (.applyFilter f_true_filter))) (P (.filter Com2 (.apply (.user f_true_filter)))),  -- 40: DEP_ASSERT_MODIFIER_MODULO_OPERABLE_R(PP{}, apply_filter<true_filter>,(apply_filter_parser<PP, integral_constant<true_filter>>{}), P{}, apply_filter<t
    .parsersEq (tCall (M (.applyFilter f_true_filter)) [(P Com3)]) (P (.filter Com3 (.apply (.user f_true_filter)))),  -- 40: DEP_ASSERT_MODIFIER_CALLABLE_R(apply_filter<true_filter>,(PP{}),(apply_filter_parser<PP, integral_constant<true_filter>>{}), apply_filter<true_filter>
    .parsersEq (tMod (P Com3) (M (.applyFilter f_true_filter))) (P (.filter Com3 (.apply (.user f_true_filter)))),  -- 40: DEP_ASSERT_MODIFIER_MODULO_OPERABLE_R(PP{}, apply_filter<true_filter>,(apply_filter_parser<PP, integral_constant<true_filter>>{}), P{}, apply_filter<t
    .parsersEq (tCall (M (.applyFilter f_true_filter)) [(P Com4)]) (P (.filter Com4 (.apply (.user f_true_filter)))),  -- 40: DEP_ASSERT_MODIFIER_CALLABLE_R(apply_filter<true_filter>,(PP{}),(apply_filter_parser<PP, integral_constant<true_filter>>{}), apply_filter<true_filter>
    .parsersEq (tMod (P Com4) (M (.applyFilter f_true_filter))) (P (.filter Com4 (.apply (.user f_true_filter)))),  -- 40: DEP_ASSERT_MODIFIER_MODULO_OPERABLE_R(PP{}, apply_filter<true_filter>,(apply_filter_parser<PP, integral_constant<true_filter>>{}), P{}, apply_filter<t
    .parsersEq (tCall (M (.applyFilter f_true_filter)) [(P Com5)]) (P (.filter Com5 (.apply (.user f_true_filter)))),  -- 40: DEP_ASSERT_MODIFIER_CALLABLE_R(apply_filter<true_filter>,(PP{}),(apply_filter_parser<PP, integral_constant<true_filter>>{}), apply_filter<true_filter>
    .parsersEq (tMod (P Com5) (M (.applyFilter f_true_filter))) (P (.filter Com5 (.apply (.user f_true_filter)))),  -- 40: DEP_ASSERT_MODIFIER_MODULO_OPERABLE_R(PP{}, apply_filter<true_filter>,(apply_filter_parser<PP, integral_constant<true_filter>>{}), P{}, apply_filter<t
    .parsersEq (tCall (M (.applyFilter f_true_filter)) [(P Com6)]) (P (.filter Com6 (.apply (.user f_true_filter)))),  -- 40: DEP_ASSERT_MODIFIER_CALLABLE_R(apply_filter<true_filter>,(PP{}),(apply_filter_parser<PP, integral_constant<true_filter>>{}), apply_filter<true_filter>
    .parsersEq (tMod (P Com6) (M (.applyFilter f_true_filter))) (P (.filter Com6 (.apply (.user f_true_filter)))),  -- 40: DEP_ASSERT_MODIFIER_MODULO_OPERABLE_R(PP{}, apply_filter<true_filter>,(apply_filter_parser<PP, integral_constant<true_filter>>{}), P{}, apply_filter<t
    .parsersEq (tCall (M (.applyFilter f_true_filter)) [(P Com7)]) (P (.filter Com7 (.apply (.user f_true_filter)))),  -- 40: DEP_ASSERT_MODIFIER_CALLABLE_R(apply_filter<true_filter>,(PP{}),(apply_filter_parser<PP, integral_constant<true_filter>>{}), apply_filter<true_filter>
    .parsersEq (tMod (P Com7) (M (.applyFilter f_true_filter))) (P (.filter Com7 (.apply (.user f_true_filter)))),  -- 40: DEP_ASSERT_MODIFIER_MODULO_OPERABLE_R(PP{}, apply_filter<true_filter>,(apply_filter_parser<PP, integral_constant<true_filter>>{}), P{}, apply_filter<t
    .parsersEq (tCall (M (.applyFilter f_true_filter)) [(P Nam1)]) (P (.filter Nam1 (.apply (.user f_true_filter)))),  -- 40: DEP_ASSERT_MODIFIER_CALLABLE_R(apply_filter<true_filter>,(PP{}),(apply_filter_parser<PP, integral_constant<true_filter>>{}), apply_filter<true_filter>
    .parsersEq (tMod (P Nam1) (M (.applyFilter f_true_filter))) (P (.filter Nam1 (.apply (.user f_true_filter)))),  -- 40: DEP_ASSERT_MODIFIER_MODULO_OPERABLE_R(PP{}, apply_filter<true_filter>,(apply_filter_parser<PP, integral_constant<true_filter>>{}), P{}, apply_filter<t
    .parsersEq (tCall (M (.applyFilter f_true_filter)) [(P Nam2)]) (P (.filter Nam2 (.apply (.user f_true_filter)))),  -- 40: DEP_ASSERT_MODIFIER_CALLABLE_R(apply_filter<true_filter>,(PP{}),(apply_filter_parser<PP, integral_constant<true_filter>>{}), apply_filter<true_filter>
    .parsersEq (tMod (P Nam2) (M (.applyFilter f_true_filter))) (P (.filter Nam2 (.apply (.user f_true_filter)))),  -- 40: DEP_ASSERT_MODIFIER_MODULO_OPERABLE_R(PP{}, apply_filter<true_filter>,(apply_filter_parser<PP, integral_constant<true_filter>>{}), P{}, apply_filter<t
    .parsersEq (tCall (M (.applyFilter f_true_filter)) [(P Nam3)]) (P (.filter Nam3 (.apply (.user f_true_filter)))),  -- 40: DEP_ASSERT_MODIFIER_CALLABLE_R(apply_filter<true_filter>,(PP{}),(apply_filter_parser<PP, integral_constant<true_filter>>{}), apply_filter<true_filter>
    .parsersEq (tMod (P Nam3) (M (.applyFilter f_true_filter))) (P (.filter Nam3 (.apply (.user f_true_filter)))),  -- 40: DEP_ASSERT_MODIFIER_MODULO_OPERABLE_R(PP{}, apply_filter<true_filter>,(apply_filter_parser<PP, integral_constant<true_filter>>{}), P{}, apply_filter<t
    .parsersEq (tCall (M (.applyFilter f_true_filter)) [(P Nam4)]) (P (.filter Nam4 (.apply (.user f_true_filter)))),  -- 40: DEP_ASSERT_MODIFIER_CALLABLE_R(apply_filter<true_filter>,(PP{}),(apply_filter_parser<PP, integral_constant<true_filter>>{}), apply_filter<true_filter>
    .parsersEq (tMod (P Nam4) (M (.applyFilter f_true_filter))) (P (.filter Nam4 (.apply (.user f_true_filter)))),  -- 40: DEP_ASSERT_MODIFIER_MODULO_OPERABLE_R(PP{}, apply_filter<true_filter>,(apply_filter_parser<PP, integral_constant<true_filter>>{}), P{}, apply_filter<t
    .parsersEq (tCall (M (.applyFilter f_true_filter)) [(P Any1)]) (P (.filter Any1 (.apply (.user f_true_filter)))),  -- 40: DEP_ASSERT_MODIFIER_CALLABLE_R(apply_filter<true_filter>,(PP{}),(apply_filter_parser<PP, integral_constant<true_filter>>{}), apply_filter<true_filter>
    .parsersEq (tMod (P Any1) (M (.applyFilter f_true_filter))) (P (.filter Any1 (.apply (.user f_true_filter)))),  -- 40: DEP_ASSERT_MODIFIER_MODULO_OPERABLE_R(PP{}, apply_filter<true_filter>,(apply_filter_parser<PP, integral_constant<true_filter>>{}), P{}, apply_filter<t
    .parsersEq (tCall (M (.applyFilter f_true_filter)) [(P Any2)]) (P (.filter Any2 (.apply (.user f_true_filter)))),  -- 40: DEP_ASSERT_MODIFIER_CALLABLE_R(apply_filter<true_filter>,(PP{}),(apply_filter_parser<PP, integral_constant<true_filter>>{}), apply_filter<true_filter>
    .parsersEq (tMod (P Any2) (M (.applyFilter f_true_filter))) (P (.filter Any2 (.apply (.user f_true_filter)))),  -- 40: DEP_ASSERT_MODIFIER_MODULO_OPERABLE_R(PP{}, apply_filter<true_filter>,(apply_filter_parser<PP, integral_constant<true_filter>>{}), P{}, apply_filter<t
    .parsersEq (tCall (M (.applyFilter f_true_filter)) [(P Any3)]) (P (.filter Any3 (.apply (.user f_true_filter)))),  -- 40: DEP_ASSERT_MODIFIER_CALLABLE_R(apply_filter<true_filter>,(PP{}),(apply_filter_parser<PP, integral_constant<true_filter>>{}), apply_filter<true_filter>
    .parsersEq (tMod (P Any3) (M (.applyFilter f_true_filter))) (P (.filter Any3 (.apply (.user f_true_filter)))),  -- 40: DEP_ASSERT_MODIFIER_MODULO_OPERABLE_R(PP{}, apply_filter<true_filter>,(apply_filter_parser<PP, integral_constant<true_filter>>{}), P{}, apply_filter<t
    .parsersEq (tCall (M (.applyFilter f_true_filter)) [(P Any4)]) (P (.filter Any4 (.apply (.user f_true_filter)))),  -- 40: DEP_ASSERT_MODIFIER_CALLABLE_R(apply_filter<true_filter>,(PP{}),(apply_filter_parser<PP, integral_constant<true_filter>>{}), apply_filter<true_filter>
    .parsersEq (tMod (P Any4) (M (.applyFilter f_true_filter))) (P (.filter Any4 (.apply (.user f_true_filter)))),  -- 40: DEP_ASSERT_MODIFIER_MODULO_OPERABLE_R(PP{}, apply_filter<true_filter>,(apply_filter_parser<PP, integral_constant<true_filter>>{}), P{}, apply_filter<t
    .parsersEq (tCall (M (.applyFilter f_true_filter)) [(P Non1)]) (P (.filter Non1 (.apply (.user f_true_filter)))),  -- 40: DEP_ASSERT_MODIFIER_CALLABLE_R(apply_filter<true_filter>,(PP{}),(apply_filter_parser<PP, integral_constant<true_filter>>{}), apply_filter<true_filter>
    .parsersEq (tMod (P Non1) (M (.applyFilter f_true_filter))) (P (.filter Non1 (.apply (.user f_true_filter)))),  -- 40: DEP_ASSERT_MODIFIER_MODULO_OPERABLE_R(PP{}, apply_filter<true_filter>,(apply_filter_parser<PP, integral_constant<true_filter>>{}), P{}, apply_filter<t
    .parsersEq (tCall (M (.applyFilter f_true_filter)) [(P Non2)]) (P (.filter Non2 (.apply (.user f_true_filter)))),  -- 40: DEP_ASSERT_MODIFIER_CALLABLE_R(apply_filter<true_filter>,(PP{}),(apply_filter_parser<PP, integral_constant<true_filter>>{}), apply_filter<true_filter>
    .parsersEq (tMod (P Non2) (M (.applyFilter f_true_filter))) (P (.filter Non2 (.apply (.user f_true_filter)))),  -- 40: DEP_ASSERT_MODIFIER_MODULO_OPERABLE_R(PP{}, apply_filter<true_filter>,(apply_filter_parser<PP, integral_constant<true_filter>>{}), P{}, apply_filter<t
    .parsersEq (tCall (M (.applyFilter f_true_filter)) [(P Non3)]) (P (.filter Non3 (.apply (.user f_true_filter)))),  -- 40: DEP_ASSERT_MODIFIER_CALLABLE_R(apply_filter<true_filter>,(PP{}),(apply_filter_parser<PP, integral_constant<true_filter>>{}), apply_filter<true_filter>
    .parsersEq (tMod (P Non3) (M (.applyFilter f_true_filter))) (P (.filter Non3 (.apply (.user f_true_filter)))),  -- 40: DEP_ASSERT_MODIFIER_MODULO_OPERABLE_R(PP{}, apply_filter<true_filter>,(apply_filter_parser<PP, integral_constant<true_filter>>{}), P{}, apply_filter<t
    .parsersEq (tCall (M (.applyFilter f_true_filter)) [(P Non4)]) (P (.filter Non4 (.apply (.user f_true_filter)))),  -- 40: DEP_ASSERT_MODIFIER_CALLABLE_R(apply_filter<true_filter>,(PP{}),(apply_filter_parser<PP, integral_constant<true_filter>>{}), apply_filter<true_filter>
    .parsersEq (tMod (P Non4) (M (.applyFilter f_true_filter))) (P (.filter Non4 (.apply (.user f_true_filter)))),  -- 40: DEP_ASSERT_MODIFIER_MODULO_OPERABLE_R(PP{}, apply_filter<true_filter>,(apply_filter_parser<PP, integral_constant<true_filter>>{}), P{}, apply_filter<t
    .parsersEq (tCall (M (.applyFilter f_true_filter)) [(P Non5)]) (P (.filter Non5 (.apply (.user f_true_filter)))),  -- 40: DEP_ASSERT_MODIFIER_CALLABLE_R(apply_filter<true_filter>,(PP{}),(apply_filter_parser<PP, integral_constant<true_filter>>{}), apply_filter<true_filter>
    .parsersEq (tMod (P Non5) (M (.applyFilter f_true_filter))) (P (.filter Non5 (.apply (.user f_true_filter)))),  -- 40: DEP_ASSERT_MODIFIER_MODULO_OPERABLE_R(PP{}, apply_filter<true_filter>,(apply_filter_parser<PP, integral_constant<true_filter>>{}), P{}, apply_filter<t
    .parsersEq (tCall (M (.applyFilter f_true_filter)) [(P All1)]) (P (.filter All1 (.apply (.user f_true_filter)))),  -- 40: DEP_ASSERT_MODIFIER_CALLABLE_R(apply_filter<true_filter>,(PP{}),(apply_filter_parser<PP, integral_constant<true_filter>>{}), apply_filter<true_filter>
    .parsersEq (tMod (P All1) (M (.applyFilter f_true_filter))) (P (.filter All1 (.apply (.user f_true_filter)))),  -- 40: DEP_ASSERT_MODIFIER_MODULO_OPERABLE_R(PP{}, apply_filter<true_filter>,(apply_filter_parser<PP, integral_constant<true_filter>>{}), P{}, apply_filter<t
    .parsersEq (tCall (M (.applyFilter f_true_filter)) [(P All2)]) (P (.filter All2 (.apply (.user f_true_filter)))),  -- 40: DEP_ASSERT_MODIFIER_CALLABLE_R(apply_filter<true_filter>,(PP{}),(apply_filter_parser<PP, integral_constant<true_filter>>{}), apply_filter<true_filter>
    .parsersEq (tMod (P All2) (M (.applyFilter f_true_filter))) (P (.filter All2 (.apply (.user f_true_filter)))),  -- 40: DEP_ASSERT_MODIFIER_MODULO_OPERABLE_R(PP{}, apply_filter<true_filter>,(apply_filter_parser<PP, integral_constant<true_filter>>{}), P{}, apply_filter<t
    .parsersEq (tCall (M (.applyFilter f_true_filter)) [(P All3)]) (P (.filter All3 (.apply (.user f_true_filter)))),  -- 40: DEP_ASSERT_MODIFIER_CALLABLE_R(apply_filter<true_filter>,(PP{}),(apply_filter_parser<PP, integral_constant<true_filter>>{}), apply_filter<true_filter>
    .parsersEq (tMod (P All3) (M (.applyFilter f_true_filter))) (P (.filter All3 (.apply (.user f_true_filter)))),  -- 40: DEP_ASSERT_MODIFIER_MODULO_OPERABLE_R(PP{}, apply_filter<true_filter>,(apply_filter_parser<PP, integral_constant<true_filter>>{}), P{}, apply_filter<t
    .parsersEq (tCall (M (.applyFilter f_true_filter)) [(P All4)]) (P (.filter All4 (.apply (.user f_true_filter)))),  -- 40: DEP_ASSERT_MODIFIER_CALLABLE_R(apply_filter<true_filter>,(PP{}),(apply_filter_parser<PP, integral_constant<true_filter>>{}), apply_filter<true_filter>
    .parsersEq (tMod (P All4) (M (.applyFilter f_true_filter))) (P (.filter All4 (.apply (.user f_true_filter)))),  -- 40: DEP_ASSERT_MODIFIER_MODULO_OPERABLE_R(PP{}, apply_filter<true_filter>,(apply_filter_parser<PP, integral_constant<true_filter>>{}), P{}, apply_filter<t
    .parsersEq (tCall (M (.applyFilter f_true_filter)) [(P Eps1)]) (P (.filter Eps1 (.apply (.user f_true_filter)))),  -- 40: DEP_ASSERT_MODIFIER_CALLABLE_R(apply_filter<true_filter>,(PP{}),(apply_filter_parser<PP, integral_constant<true_filter>>{}), apply_filter<true_filter>
    .parsersEq (tMod (P Eps1) (M (.applyFilter f_true_filter))) (P (.filter Eps1 (.apply (.user f_true_filter))))  -- 40: DEP_ASSERT_MODIFIER_MODULO_OPERABLE_R(PP{}, apply_filter<true_filter>,(apply_filter_parser<PP, integral_constant<true_filter>>{}), P{}, apply_filter<t
    ], Assertion.Holds a :=
  Assertion.holds_of_check (by decide +kernel)

/-- apply_filter modifier / modify anything (tests/char-tests/modifiers/apply_filter.cpp:40) -/
theorem charModifiersApplyFilter_3_2 : ∀ a ∈ [
    .parsersEq (tCall (M (.applyFilter f_true_filter)) [(P Ant1)]) (P (.filter Ant1 (.apply (.user f_true_filter)))),  -- 40: DEP_ASSERT_MODIFIER_CALLABLE_R(apply_filter<true_filter>,(PP{}),(apply_filter_parser<PP, integral_constant<true_filter>>{}), apply_filter<true_filter>
    .parsersEq (tMod (P Ant1) (M (.applyFilter f_true_filter))) (P (.filter Ant1 (.apply (.user f_true_filter)))),  -- 40: DEP_ASSERT_MODIFIER_MODULO_OPERABLE_R(PP{}, apply_filter<true_filter>,(apply_filter_parser<PP, integral_constant<true_filter>>{}), P{}, apply_filter<t
    .parsersEq (tCall (M (.applyFilter f_true_filter)) [(P QQ)]) (P (.filter QQ (.apply (.user f_true_filter)))),  -- 40: DEP_ASSERT_MODIFIER_CALLABLE_R(apply_filter<true_filter>,(PP{}),(apply_filter_parser<PP, integral_constant<true_filter>>{}), apply_filter<true_filter>
    .parsersEq (tMod (P QQ) (M (.applyFilter f_true_filter))) (P (.filter QQ (.apply (.user f_true_filter)))),  -- 40: DEP_ASSERT_MODIFIER_MODULO_OPERABLE_R(PP{}, apply_filter<true_filter>,(apply_filter_parser<PP, integral_constant<true_filter>>{}), P{}, apply_filter<t
    .parsersEq (tCall (M (.applyFilter f_true_filter)) [(P ABC)]) (P (.filter ABC (.apply (.user f_true_filter)))),  -- 40: DEP_ASSERT_MODIFIER_CALLABLE_R(apply_filter<true_filter>,(PP{}),(apply_filter_parser<PP, integral_constant<true_filter>>{}), apply_filter<true_filter>
    .parsersEq (tMod (P ABC) (M (.applyFilter f_true_filter))) (P (.filter ABC (.apply (.user f_true_filter)))),  -- 40: DEP_ASSERT_MODIFIER_MODULO_OPERABLE_R(PP{}, apply_filter<true_filter>,(apply_filter_parser<PP, integral_constant<true_filter>>{}), P{}, apply_filter<t
    .parsersEq (tCall (M (.applyFilter f_true_filter)) [(P Comma)]) (P (.filter Comma (.apply (.user f_true_filter)))),  -- 40: DEP_ASSERT_MODIFIER_CALLABLE_R(apply_filter<true_filter>,(PP{}),(apply_filter_parser<PP, integral_constant<true_filter>>{}), apply_filter<true_filter>
    .parsersEq (tMod (P Comma) (M (.applyFilter f_true_filter))) (P (.filter Comma (.apply (.user f_true_filter)))),  -- 40: DEP_ASSERT_MODIFIER_MODULO_OPERABLE_R(PP{}, apply_filter<true_filter>,(apply_filter_parser<PP, integral_constant<true_filter>>{}), P{}, apply_filter<t
    .parsersEq (tCall (M (.applyFilter f_true_filter)) [(P SpaceDot)]) (P (.filter SpaceDot (.apply (.user f_true_filter)))),  -- 40: DEP_ASSERT_MODIFIER_CALLABLE_R(apply_filter<true_filter>,(PP{}),(apply_filter_parser<PP, integral_constant<true_filter>>{}), apply_filter<true_filter>
    .parsersEq (tMod (P SpaceDot) (M (.applyFilter f_true_filter))) (P (.filter SpaceDot (.apply (.user f_true_filter)))),  -- 40: DEP_ASSERT_MODIFIER_MODULO_OPERABLE_R(PP{}, apply_filter<true_filter>,(apply_filter_parser<PP, integral_constant<true_filter>>{}), P{}, apply_filter<t
    .parsersEq (tCall (M (.applyFilter f_true_filter)) [(P Cho1)]) (P (.filter Cho1 (.apply (.user f_true_filter)))),  -- 40: DEP_ASSERT_MODIFIER_CALLABLE_R(apply_filter<true_filter>,(PP{}),(apply_filter_parser<PP, integral_constant<true_filter>>{}), apply_filter<true_filter>
    .parsersEq (tMod (P Cho1) (M (.applyFilter f_true_filter))) (P (.filter Cho1 (.apply (.user f_true_filter)))),  -- 40: DEP_ASSERT_MODIFIER_MODULO_OPERABLE_R(PP{}, apply_filter<true_filter>,(apply_filter_parser<PP, integral_constant<true_filter>>{}), P{}, apply_filter<t
    .parsersEq (tCall (M (.applyFilter f_true_filter)) [(P Cho2)]) (P (.filter Cho2 (.apply (.user f_true_filter)))),  -- 40: DEP_ASSERT_MODIFIER_CALLABLE_R(apply_filter<true_filter>,(PP{}),(apply_filter_parser<PP, integral_constant<true_filter>>{}), apply_filter<true_filter>
    .parsersEq (tMod (P Cho2) (M (.applyFilter f_true_filter))) (P (.filter Cho2 (.apply (.user f_true_filter)))),  -- 40: DEP_ASSERT_MODIFIER_MODULO_OPERABLE_R(PP{}, apply_filter<true_filter>,(apply_filter_parser<PP, integral_constant<true_filter>>{}), P{}, apply_filter<t
    .parsersEq (tCall (M (.applyFilter f_true_filter)) [(P Cho3)]) (P (.filter Cho3 (.apply (.user f_true_filter)))),  -- 40: DEP_ASSERT_MODIFIER_CALLABLE_R(apply_filter<true_filter>,(PP{}),(apply_filter_parser<PP, integral_constant<true_filter>>{}), apply_filter<true_filter>
    .parsersEq (tMod (P Cho3) (M (.applyFilter f_true_filter))) (P (.filter Cho3 (.apply (.user f_true_filter)))),  -- 40: DEP_ASSERT_MODIFIER_MODULO_OPERABLE_R(PP{}, apply_filter<true_filter>,(apply_filter_parser<PP, integral_constant<true_filter>>{}), P{}, apply_filter<t
    .parsersEq (tCall (M (.applyFilter f_true_filter)) [(P Cho4)]) (P (.filter Cho4 (.apply (.user f_true_filter)))),  -- 40: DEP_ASSERT_MODIFIER_CALLABLE_R(apply_filter<true_filter>,(PP{}),(apply_filter_parser<PP, integral_constant<true_filter>>{}), apply_filter<true_filter>
    .parsersEq (tMod (P Cho4) (M (.applyFilter f_true_filter))) (P (.filter Cho4 (.apply (.user f_true_filter)))),  -- 40: DEP_ASSERT_MODIFIER_MODULO_OPERABLE_R(PP{}, apply_filter<true_filter>,(apply_filter_parser<PP, integral_constant<true_filter>>{}), P{}, apply_filter<t
    .parsersEq (tCall (M (.applyFilter f_true_filter)) [(P Cho5)]) (P (.filter Cho5 (.apply (.user f_true_filter)))),  -- 40: DEP_ASSERT_MODIFIER_CALLABLE_R(apply_filter<true_filter>,(PP{}),(apply_filter_parser<PP, integral_constant<true_filter>>{}), apply_filter<true_filter>
    .parsersEq (tMod (P Cho5) (M (.applyFilter f_true_filter))) (P (.filter Cho5 (.apply (.user f_true_filter)))),  -- 40: DEP_ASSERT_MODIFIER_MODULO_OPERABLE_R(PP{}, apply_filter<true_filter>,(apply_filter_parser<PP, integral_constant<true_filter>>{}), P{}, apply_filter<t
    .parsersEq (tCall (M (.applyFilter f_true_filter)) [(P Seq1)]) (P (.filter Seq1 (.apply (.user f_true_filter)))),  -- 40: DEP_ASSERT_MODIFIER_CALLABLE_R(apply_filter<true_filter>,(PP{}),(apply_filter_parser<PP, integral_constant<true_filter>>{}), apply_filter<true_filter>
    .parsersEq (tMod (P Seq1) (M (.applyFilter f_true_filter))) (P (.filter Seq1 (.apply (.user f_true_filter)))),  -- 40: DEP_ASSERT_MODIFIER_MODULO_OPERABLE_R(PP{}, apply_filter<true_filter>,(apply_filter_parser<PP, integral_constant<true_filter>>{}), P{}, apply_filter<t
    .parsersEq (tCall (M (.applyFilter f_true_filter)) [(P Seq2)]) (P (.filter Seq2 (.apply (.user f_true_filter)))),  -- 40: DEP_ASSERT_MODIFIER_CALLABLE_R(apply_filter<true_filter>,(PP{}),(apply_filter_parser<PP, integral_constant<true_filter>>{}), apply_filter<true_filter>
    .parsersEq (tMod (P Seq2) (M (.applyFilter f_true_filter))) (P (.filter Seq2 (.apply (.user f_true_filter)))),  -- 40: DEP_ASSERT_MODIFIER_MODULO_OPERABLE_R(PP{}, apply_filter<true_filter>,(apply_filter_parser<PP, integral_constant<true_filter>>{}), P{}, apply_filter<t
    .parsersEq (tCall (M (.applyFilter f_true_filter)) [(P Seq3)]) (P (.filter Seq3 (.apply (.user f_true_filter)))),  -- 40: DEP_ASSERT_MODIFIER_CALLABLE_R(apply_filter<true_filter>,(PP{}),(apply_filter_parser<PP, integral_constant<true_filter>>{}), apply_filter<true_filter>
    .parsersEq (tMod (P Seq3) (M (.applyFilter f_true_filter))) (P (.filter Seq3 (.apply (.user f_true_filter)))),  -- 40: DEP_ASSERT_MODIFIER_MODULO_OPERABLE_R(PP{}, apply_filter<true_filter>,(apply_filter_parser<PP, integral_constant<true_filter>>{}), P{}, apply_filter<t
    .parsersEq (tCall (M (.applyFilter f_true_filter)) [(P Seq4)]) (P (.filter Seq4 (.apply (.user f_true_filter)))),  -- 40: DEP_ASSERT_MODIFIER_CALLABLE_R(apply_filter<true_filter>,(PP{}),(apply_filter_parser<PP, integral_constant<true_filter>>{}), apply_filter<true_filter>
    .parsersEq (tMod (P Seq4) (M (.applyFilter f_true_filter))) (P (.filter Seq4 (.apply (.user f_true_filter)))),  -- 40: DEP_ASSERT_MODIFIER_MODULO_OPERABLE_R(PP{}, apply_filter<true_filter>,(apply_filter_parser<PP, integral_constant<true_filter>>{}), P{}, apply_filter<t
    .parsersEq (tCall (M (.applyFilter f_true_filter)) [(P Seq5)]) (P (.filter Seq5 (.apply (.user f_true_filter)))),  -- 40: DEP_ASSERT_MODIFIER_CALLABLE_R(apply_filter<true_filter>,(PP{}),(apply_filter_parser<PP, integral_constant<true_filter>>{}), apply_filter<true_filter>
    .parsersEq (tMod (P Seq5) (M (.applyFilter f_true_filter))) (P (.filter Seq5 (.apply (.user f_true_filter)))),  -- 40: DEP_ASSERT_MODIFIER_MODULO_OPERABLE_R(PP{}, apply_filter<true_filter>,(apply_filter_parser<PP, integral_constant<true_filter>>{}), P{}, apply_filter<t
    .parsersEq (tCall (M (.applyFilter f_true_filter)) [(P Joi1)]) (P (.filter Joi1 (.apply (.user f_true_filter)))),  -- 40: DEP_ASSERT_MODIFIER_CALLABLE_R(apply_filter<true_filter>,(PP{}),(apply_filter_parser<PP, integral_constant<true_filter>>{}), apply_filter<true_filter>
    .parsersEq (tMod (P Joi1) (M (.applyFilter f_true_filter))) (P (.filter Joi1 (.apply (.user f_true_filter)))),  -- 40: DEP_ASSERT_MODIFIER_MODULO_OPERABLE_R(PP{}, apply_filter<true_filter>,(apply_filter_parser<PP, integral_constant<true_filter>>{}), P{}, apply_filter<t
    .parsersEq (tCall (M (.applyFilter f_true_filter)) [(P Joi2)]) (P (.filter Joi2 (.apply (.user f_true_filter)))),  -- 40: DEP_ASSERT_MODIFIER_CALLABLE_R(apply_filter<true_filter>,(PP{}),(apply_filter_parser<PP, integral_constant<true_filter>>{}), apply_filter<true_filter>
    .parsersEq (tMod (P Joi2) (M (.applyFilter f_true_filter))) (P (.filter Joi2 (.apply (.user f_true_filter)))),  -- 40: DEP_ASSERT_MODIFIER_MODULO_OPERABLE_R(PP{}, apply_filter<true_filter>,(apply_filter_parser<PP, integral_constant<true_filter>>{}), P{}, apply_filter<t
    .parsersEq (tCall (M (.applyFilter f_true_filter)) [(P Joi3)]) (P (.filter Joi3 (.apply (.user f_true_filter)))),  -- 40: DEP_ASSERT_MODIFIER_CALLABLE_R(apply_filter<true_filter>,(PP{}),(apply_filter_parser<PP, integral_constant<true_filter>>{}), apply_filter<true_filter>
    .parsersEq (tMod (P Joi3) (M (.applyFilter f_true_filter))) (P (.filter Joi3 (.apply (.user f_true_filter)))),  -- 40: DEP_ASSERT_MODIFIER_MODULO_OPERABLE_R(PP{}, apply_filter<true_filter>,(apply_filter_parser<PP, integral_constant<true_filter>>{}), P{}, apply_filter<t
    .parsersEq (tCall (M (.applyFilter f_true_filter)) [(P Joi4)]) (P (.filter Joi4 (.apply (.user f_true_filter)))),  -- 40: DEP_ASSERT_MODIFIER_CALLABLE_R(apply_filter<true_filter>,(PP{}),(apply_filter_parser<PP, integral_constant<true_filter>>{}), apply_filter<true_filter>
    .parsersEq (tMod (P Joi4) (M (.applyFilter f_true_filter))) (P (.filter Joi4 (.apply (.user f_true_filter)))),  -- 40: DEP_ASSERT_MODIFIER_MODULO_OPERABLE_R(PP{}, apply_filter<true_filter>,(apply_filter_parser<PP, integral_constant<true_filter>>{}), P{}, apply_filter<t
    .parsersEq (tCall (M (.applyFilter f_true_filter)) [(P Joi5)]) (P (.filter Joi5 (.apply (.user f_true_filter)))),  -- 40: DEP_ASSERT_MODIFIER_CALLABLE_R(apply_filter<true_filter>,(PP{}),(apply_filter_parser<PP, integral_constant<true_filter>>{}), apply_filter<true_filter>
    .parsersEq (tMod (P Joi5) (M (.applyFilter f_true_filter))) (P (.filter Joi5 (.apply (.user f_true_filter)))),  -- 40: DEP_ASSERT_MODIFIER_MODULO_OPERABLE_R(PP{}, apply_filter<true_filter>,(apply_filter_parser<PP, integral_constant<true_filter>>{}), P{}, apply_filter<t
    .parsersEq (tCall (M (.applyFilter f_true_filter)) [(P Map1)]) (P (.filter Map1 (.apply (.user f_true_filter)))),  -- 40: DEP_ASSERT_MODIFIER_CALLABLE_R(apply_filter<true_filter>,(PP{}),(apply_filter_parser<PP, integral_constant<true_filter>>{}), apply_filter<true_filter>
    .parsersEq (tMod (P Map1) (M (.applyFilter f_true_filter))) (P (.filter Map1 (.apply (.user f_true_filter)))),  -- 40: DEP_ASSERT_MODIFIER_MODULO_OPERABLE_R(PP{}, apply_filter<true_filter>,(apply_filter_parser<PP, integral_constant<true_filter>>{}), P{}, apply_filter<t
    .parsersEq (tCall (M (.applyFilter f_true_filter)) [(P Map2)]) (P (.filter Map2 (.apply (.user f_true_filter)))),  -- 40: DEP_ASSERT_MODIFIER_CALLABLE_R(apply_filter<true_filter>,(PP{}),(apply_filter_parser<PP, integral_constant<true_filter>>{}), apply_filter<true_filter>
    .parsersEq (tMod (P Map2) (M (.applyFilter f_true_filter))) (P (.filter Map2 (.apply (.user f_true_filter)))),  -- 40: DEP_ASSERT_MODIFIER_MODULO_OPERABLE_R(PP{}, apply_filter<true_filter>,(apply_filter_parser<PP, integral_constant<true_filter>>{}), P{}, apply_filter<t
    .parsersEq (tCall (M (.applyFilter f_true_filter)) [(P Map3)]) (P (.filter Map3 (.apply (.user f_true_filter)))),  -- 40: DEP_ASSERT_MODIFIER_CALLABLE_R(apply_filter<true_filter>,(PP{}),(apply_filter_parser<PP, integral_constant<true_filter>>{}), apply_filter<true_filter>
    .parsersEq (tMod (P Map3) (M (.applyFilter f_true_filter))) (P (.filter Map3 (.apply (.user f_true_filter)))),  -- 40: DEP_ASSERT_MODIFIER_MODULO_OPERABLE_R(PP{}, apply_filter<true_filter>,(apply_filter_parser<PP, integral_constant<true_filter>>{}), P{}, apply_filter<t
    .parsersEq (tCall (M (.applyFilter f_true_filter)) [(P Map4)]) (P (.filter Map4 (.apply (.user f_true_filter)))),  -- 40: DEP_ASSERT_MODIFIER_CALLABLE_R(apply_filter<true_filter>,(PP{}),(apply_filter_parser<PP, integral_constant<true_filter>>{}), apply_filter<true_filter>
    .parsersEq (tMod (P Map4) (M (.applyFilter f_true_filter))) (P (.filter Map4 (.apply (.user f_true_filter)))),  -- 40: DEP_ASSERT_MODIFIER_MODULO_OPERABLE_R(PP{}, apply_filter<true_filter>,(apply_filter_parser<PP, integral_constant<true_filter>>{}), P{}, apply_filter<t
    .parsersEq (tCall (M (.applyFilter f_true_filter)) [(P Fil1)]) (P (.filter Fil1 (.apply (.user f_true_filter)))),  -- 40: DEP_ASSERT_MODIFIER_CALLABLE_R(apply_filter<true_filter>,(PP{}),(apply_filter_parser<PP, integral_constant<true_filter>>{}), apply_filter<true_filter>
    .parsersEq (tMod (P Fil1) (M (.applyFilter f_true_filter))) (P (.filter Fil1 (.apply (.user f_true_filter)))),  -- 40: DEP_ASSERT_MODIFIER_MODULO_OPERABLE_R(PP{}, apply_filter<true_filter>,(apply_filter_parser<PP, integral_constant<true_filter>>{}), P{}, apply_filter<t
    .parsersEq (tCall (M (.applyFilter f_true_filter)) [(P Fil2)]) (P (.filter Fil2 (.apply (.user f_true_filter)))),  -- 40: DEP_ASSERT_MODIFIER_CALLABLE_R(apply_filter<true_filter>,(PP{}),(apply_filter_parser<PP, integral_constant<true_filter>>{}), apply_filter<true_filter>
    .parsersEq (tMod (P Fil2) (M (.applyFilter f_true_filter))) (P (.filter Fil2 (.apply (.user f_true_filter)))),  -- 40: DEP_ASSERT_MODIFIER_MODULO_OPERABLE_R(PP{}, apply_filter<true_filter>,(apply_filter_parser<PP, integral_constant<true_filter>>{}), P{}, apply_filter<t
    .parsersEq (tCall (M (.applyFilter f_true_filter)) [(P Fil3)]) (P (.filter Fil3 (.apply (.user f_true_filter)))),  -- 40: DEP_ASSERT_MODIFIER_CALLABLE_R(apply_filter<true_filter>,(PP{}),(apply_filter_parser<PP, integral_constant<true_filter>>{}), apply_filter<true_filter>
    .parsersEq (tMod (P Fil3) (M (.applyFilter f_true_filter))) (P (.filter Fil3 (.apply (.user f_true_filter)))),  -- 40: DEP_ASSERT_MODIFIER_MODULO_OPERABLE_R(PP{}, apply_filter<true_filter>,(apply_filter_parser<PP, integral_constant<true_filter>>{}), P{}, apply_filter<t
    .parsersEq (tCall (M (.applyFilter f_true_filter)) [(P Apm1)]) (P (.filter Apm1 (.apply (.user f_true_filter)))),  -- 40: DEP_ASSERT_MODIFIER_CALLABLE_R(apply_filter<true_filter>,(PP{}),(apply_filter_parser<PP, integral_constant<true_filter>>{}), apply_filter<true_filter>
    .parsersEq (tMod (P Apm1) (M (.applyFilter f_true_filter))) (P (.filter Apm1 (.apply (.user f_true_filter)))),  -- 40: DEP_ASSERT_MODIFIER_MODULO_OPERABLE_R(PP{}, apply_filter<true_filter>,(apply_filter_parser<PP, integral_constant<true_filter>>{}), P{}, apply_filter<t
    .parsersEq (tCall (M (.applyFilter f_true_filter)) [(P Apm2)]) (P (.filter Apm2 (.apply (.user f_true_filter)))),  -- 40: DEP_ASSERT_MODIFIER_CALLABLE_R(apply_filter<true_filter>,(PP{}),(apply_filter_parser<PP, integral_constant<true_filter>>{}), apply_filter<true_filter>
    .parsersEq (tMod (P Apm2) (M (.applyFilter f_true_filter))) (P (.filter Apm2 (.apply (.user f_true_filter)))),  -- 40: DEP_ASSERT_MODIFIER_MODULO_OPERABLE_R(PP{}, apply_filter<true_filter>,(apply_filter_parser<PP, integral_constant<true_filter>>{}), P{}, apply_filter<t
    .parsersEq (tCall (M (.applyFilter f_true_filter)) [(P Apf1)]) (P (.filter Apf1 (.apply (.user f_true_filter)))),  -- 40: DEP_ASSERT_MODIFIER_CALLABLE_R(apply_filter<true_filter>,(PP{}),(apply_filter_parser<PP, integral_constant<true_filter>>{}), apply_filter<true_filter>
    .parsersEq (tMod (P Apf1) (M (.applyFilter f_true_filter))) (P (.filter Apf1 (.apply (.user f_true_filter))))  -- 40: DEP_ASSERT_MODIFIER_MODULO_OPERABLE_R(PP{}, apply_filter<true_filter>,(apply_filter_parser<PP, integral_constant<true_filter>>{}), P{}, apply_filter<t
    ], Assertion.Holds a :=
  Assertion.holds_of_check (by decide +kernel)

/-- apply_filter modifier / modify anything (tests/char-tests/modifiers/apply_filter.cpp:40) -/
theorem charModifiersApplyFilter_3_3 : ∀ a ∈ [
    .parsersEq (tCall (M (.applyFilter f_true_filter)) [(P Int1)]) (P (.filter Int1 (.apply (.user f_true_filter)))),  -- 40: DEP_ASSERT_MODIFIER_CALLABLE_R(apply_filter<true_filter>,(PP{}),(apply_filter_parser<PP, integral_constant<true_filter>>{}), apply_filter<true_filter>
    .parsersEq (tMod (P Int1) (M (.applyFilter f_true_filter))) (P (.filter Int1 (.apply (.user f_true_filter)))),  -- 40: DEP_ASSERT_MODIFIER_MODULO_OPERABLE_R(PP{}, apply_filter<true_filter>,(apply_filter_parser<PP, integral_constant<true_filter>>{}), P{}, apply_filter<t
    .parsersEq (tCall (M (.applyFilter f_true_filter)) [(P Int2)]) (P (.filter Int2 (.apply (.user f_true_filter)))),  -- 40: DEP_ASSERT_MODIFIER_CALLABLE_R(apply_filter<true_filter>,(PP{}),(apply_filter_parser<PP, integral_constant<true_filter>>{}), apply_filter<true_filter>
    .parsersEq (tMod (P Int2) (M (.applyFilter f_true_filter))) (P (.filter Int2 (.apply (.user f_true_filter)))),  -- 40: DEP_ASSERT_MODIFIER_MODULO_OPERABLE_R(PP{}, apply_filter<true_filter>,(apply_filter_parser<PP, integral_constant<true_filter>>{}), P{}, apply_filter<t
    .parsersEq (tCall (M (.applyFilter f_true_filter)) [(P Int3)]) (P (.filter Int3 (.apply (.user f_true_filter)))),  -- 40: DEP_ASSERT_MODIFIER_CALLABLE_R(apply_filter<true_filter>,(PP{}),(apply_filter_parser<PP, integral_constant<true_filter>>{}), apply_filter<true_filter>
    .parsersEq (tMod (P Int3) (M (.applyFilter f_true_filter))) (P (.filter Int3 (.apply (.user f_true_filter)))),  -- 40: DEP_ASSERT_MODIFIER_MODULO_OPERABLE_R(PP{}, apply_filter<true_filter>,(apply_filter_parser<PP, integral_constant<true_filter>>{}), P{}, apply_filter<t
    .parsersEq (tCall (M (.applyFilter f_true_filter)) [(P Api1)]) (P (.filter Api1 (.apply (.user f_true_filter)))),  -- 40: DEP_ASSERT_MODIFIER_CALLABLE_R(apply_filter<true_filter>,(PP{}),(apply_filter_parser<PP, integral_constant<true_filter>>{}), apply_filter<true_filter>
    .parsersEq (tMod (P Api1) (M (.applyFilter f_true_filter))) (P (.filter Api1 (.apply (.user f_true_filter)))),  -- 40: DEP_ASSERT_MODIFIER_MODULO_OPERABLE_R(PP{}, apply_filter<true_filter>,(apply_filter_parser<PP, integral_constant<true_filter>>{}), P{}, apply_filter<t
    .parsersEq (tCall (M (.applyFilter f_true_filter)) [(P Api2)]) (P (.filter Api2 (.apply (.user f_true_filter)))),  -- 40: DEP_ASSERT_MODIFIER_CALLABLE_R(apply_filter<true_filter>,(PP{}),(apply_filter_parser<PP, integral_constant<true_filter>>{}), apply_filter<true_filter>
    .parsersEq (tMod (P Api2) (M (.applyFilter f_true_filter))) (P (.filter Api2 (.apply (.user f_true_filter)))),  -- 40: DEP_ASSERT_MODIFIER_MODULO_OPERABLE_R(PP{}, apply_filter<true_filter>,(apply_filter_parser<PP, integral_constant<true_filter>>{}), P{}, apply_filter<t
    .parsersEq (tCall (M (.applyFilter f_true_filter)) [(P Con1)]) (P (.filter Con1 (.apply (.user f_true_filter)))),  -- 40: DEP_ASSERT_MODIFIER_CALLABLE_R(apply_filter<true_filter>,(PP{}),(apply_filter_parser<PP, integral_constant<true_filter>>{}), apply_filter<true_filter>
    .parsersEq (tMod (P Con1) (M (.applyFilter f_true_filter))) (P (.filter Con1 (.apply (.user f_true_filter)))),  -- 40: DEP_ASSERT_MODIFIER_MODULO_OPERABLE_R(PP{}, apply_filter<true_filter>,(apply_filter_parser<PP, integral_constant<true_filter>>{}), P{}, apply_filter<t
    .parsersEq (tCall (M (.applyFilter f_true_filter)) [(P Con2)]) (P (.filter Con2 (.apply (.user f_true_filter)))),  -- 40: DEP_ASSERT_MODIFIER_CALLABLE_R(apply_filter<true_filter>,(PP{}),(apply_filter_parser<PP, integral_constant<true_filter>>{}), apply_filter<true_filter>
    .parsersEq (tMod (P Con2) (M (.applyFilter f_true_filter))) (P (.filter Con2 (.apply (.user f_true_filter)))),  -- 40: DEP_ASSERT_MODIFIER_MODULO_OPERABLE_R(PP{}, apply_filter<true_filter>,(apply_filter_parser<PP, integral_constant<true_filter>>{}), P{}, apply_filter<t
    .parsersEq (tCall (M (.applyFilter f_true_filter)) [(P Con3)]) (P (.filter Con3 (.apply (.user f_true_filter)))),  -- 40: DEP_ASSERT_MODIFIER_CALLABLE_R(apply_filter<true_filter>,(PP{}),(apply_filter_parser<PP, integral_constant<true_filter>>{}), apply_filter<true_filter>
    .parsersEq (tMod (P Con3) (M (.applyFilter f_true_filter))) (P (.filter Con3 (.apply (.user f_true_filter)))),  -- 40: DEP_ASSERT_MODIFIER_MODULO_OPERABLE_R(PP{}, apply_filter<true_filter>,(apply_filter_parser<PP, integral_constant<true_filter>>{}), P{}, apply_filter<t
    .parsersEq (tCall (M (.applyFilter f_true_filter)) [(P Con4)]) (P (.filter Con4 (.apply (.user f_true_filter)))),  -- 40: DEP_ASSERT_MODIFIER_CALLABLE_R(apply_filter<true_filter>,(PP{}),(apply_filter_parser<PP, integral_constant<true_filter>>{}), apply_filter<true_filter>
    .parsersEq (tMod (P Con4) (M (.applyFilter f_true_filter))) (P (.filter Con4 (.apply (.user f_true_filter)))),  -- 40: DEP_ASSERT_MODIFIER_MODULO_OPERABLE_R(PP{}, apply_filter<true_filter>,(apply_filter_parser<PP, integral_constant<true_filter>>{}), P{}, apply_filter<t
    .parsersEq (tCall (M (.applyFilter f_true_filter)) [(P Def1)]) (P (.filter Def1 (.apply (.user f_true_filter)))),  -- 40: DEP_ASSERT_MODIFIER_CALLABLE_R(apply_filter<true_filter>,(PP{}),(apply_filter_parser<PP, integral_constant<true_filter>>{}), apply_filter<true_filter>
    .parsersEq (tMod (P Def1) (M (.applyFilter f_true_filter))) (P (.filter Def1 (.apply (.user f_true_filter)))),  -- 40: DEP_ASSERT_MODIFIER_MODULO_OPERABLE_R(PP{}, apply_filter<true_filter>,(apply_filter_parser<PP, integral_constant<true_filter>>{}), P{}, apply_filter<t
    .parsersEq (tCall (M (.applyFilter f_true_filter)) [(P Def2)]) (P (.filter Def2 (.apply (.user f_true_filter)))),  -- 40: DEP_ASSERT_MODIFIER_CALLABLE_R(apply_filter<true_filter>,(PP{}),(apply_filter_parser<PP, integral_constant<true_filter>>{}), apply_filter<true_filter>
    .parsersEq (tMod (P Def2) (M (.applyFilter f_true_filter))) (P (.filter Def2 (.apply (.user f_true_filter)))),  -- 40: DEP_ASSERT_MODIFIER_MODULO_OPERABLE_R(PP{}, apply_filter<true_filter>,(apply_filter_parser<PP, integral_constant<true_filter>>{}), P{}, apply_filter<t
    .parsersEq (tCall (M (.applyFilter f_true_filter)) [(P (.custom 0))]) (P (.filter (.custom 0) (.apply (.user f_true_filter)))),  -- 40: DEP_ASSERT_MODIFIER_CALLABLE_R(apply_filter<true_filter>,(PP{}),(apply_filter_parser<PP, integral_constant<true_filter>>{}), apply_filter<true_filter>
    .parsersEq (tMod (P (.custom 0)) (M (.applyFilter f_true_filter))) (P (.filter (.custom 0) (.apply (.user f_true_filter)))),  -- 40: DEP_ASSERT_MODIFIER_MODULO_OPERABLE_R(PP{}, apply_filter<true_filter>,(apply_filter_parser<PP, integral_constant<true_filter>>{}), P{}, apply_filter<t
    .parsersEq (tCall (M (.applyFilter f_true_filter)) [(P (.custom 1))]) (P (.filter (.custom 1) (.apply (.user f_true_filter)))),  -- 40: DEP_ASSERT_MODIFIER_CALLABLE_R(apply_filter<true_filter>,(PP{}),(apply_filter_parser<PP, integral_constant<true_filter>>{}), apply_filter<true_filter>
    .parsersEq (tMod (P (.custom 1)) (M (.applyFilter f_true_filter))) (P (.filter (.custom 1) (.apply (.user f_true_filter)))),  -- 40: DEP_ASSERT_MODIFIER_MODULO_OPERABLE_R(PP{}, apply_filter<true_filter>,(apply_filter_parser<PP, integral_constant<true_filter>>{}), P{}, apply_filter<t
    .parsersEq (tCall (M (.applyFilter f_true_filter)) [(P May1)]) (P (.filter May1 (.apply (.user f_true_filter)))),  -- 40: DEP_ASSERT_MODIFIER_CALLABLE_R(apply_filter<true_filter>,(PP{}),(apply_filter_parser<PP, integral_constant<true_filter>>{}), apply_filter<true_filter>
    .parsersEq (tMod (P May1) (M (.applyFilter f_true_filter))) (P (.filter May1 (.apply (.user f_true_filter)))),  -- 40: DEP_ASSERT_MODIFIER_MODULO_OPERABLE_R(PP{}, apply_filter<true_filter>,(apply_filter_parser<PP, integral_constant<true_filter>>{}), P{}, apply_filter<t
    .parsersEq (tCall (M (.applyFilter f_true_filter)) [(P May2)]) (P (.filter May2 (.apply (.user f_true_filter)))),  -- 40: DEP_ASSERT_MODIFIER_CALLABLE_R(apply_filter<true_filter>,(PP{}),(apply_filter_parser<PP, integral_constant<true_filter>>{}), apply_filter<true_filter>
    .parsersEq (tMod (P May2) (M (.applyFilter f_true_filter))) (P (.filter May2 (.apply (.user f_true_filter)))),  -- 40: DEP_ASSERT_MODIFIER_MODULO_OPERABLE_R(PP{}, apply_filter<true_filter>,(apply_filter_parser<PP, integral_constant<true_filter>>{}), P{}, apply_filter<t
    .parsersEq (tCall (M (.applyFilter f_true_filter)) [(P May3)]) (P (.filter May3 (.apply (.user f_true_filter)))),  -- 40: DEP_ASSERT_MODIFIER_CALLABLE_R(apply_filter<true_filter>,(PP{}),(apply_filter_parser<PP, integral_constant<true_filter>>{}), apply_filter<true_filter>
    .parsersEq (tMod (P May3) (M (.applyFilter f_true_filter))) (P (.filter May3 (.apply (.user f_true_filter)))),  -- 40: DEP_ASSERT_MODIFIER_MODULO_OPERABLE_R(PP{}, apply_filter<true_filter>,(apply_filter_parser<PP, integral_constant<true_filter>>{}), P{}, apply_filter<t
    .parsersEq (tCall (M (.applyFilter f_true_filter)) [(P May4)]) (P (.filter May4 (.apply (.user f_true_filter)))),  -- 40: DEP_ASSERT_MODIFIER_CALLABLE_R(apply_filter<true_filter>,(PP{}),(apply_filter_parser<PP, integral_constant<true_filter>>{}), apply_filter<true_filter>
    .parsersEq (tMod (P May4) (M (.applyFilter f_true_filter))) (P (.filter May4 (.apply (.user f_true_filter)))),  -- 40: DEP_ASSERT_MODIFIER_MODULO_OPERABLE_R(PP{}, apply_filter<true_filter>,(apply_filter_parser<PP, integral_constant<true_filter>>{}), P{}, apply_filter<t
    .parsersEq (tCall (M (.applyFilter f_true_filter)) [(P Exa1)]) (P (.filter Exa1 (.apply (.user f_true_filter)))),  -- 40: DEP_ASSERT_MODIFIER_CALLABLE_R(apply_filter<true_filter>,(PP{}),(apply_filter_parser<PP, integral_constant<true_filter>>{}), apply_filter<true_filter>
    .parsersEq (tMod (P Exa1) (M (.applyFilter f_true_filter))) (P (.filter Exa1 (.apply (.user f_true_filter)))),  -- 40: DEP_ASSERT_MODIFIER_MODULO_OPERABLE_R(PP{}, apply_filter<true_filter>,(apply_filter_parser<PP, integral_constant<true_filter>>{}), P{}, apply_filter<t
    .parsersEq (tCall (M (.applyFilter f_true_filter)) [(P Exa2)]) (P (.filter Exa2 (.apply (.user f_true_filter)))),  -- 40: DEP_ASSERT_MODIFIER_CALLABLE_R(apply_filter<true_filter>,(PP{}),(apply_filter_parser<PP, integral_constant<true_filter>>{}), apply_filter<true_filter>
    .parsersEq (tMod (P Exa2) (M (.applyFilter f_true_filter))) (P (.filter Exa2 (.apply (.user f_true_filter)))),  -- 40: DEP_ASSERT_MODIFIER_MODULO_OPERABLE_R(PP{}, apply_filter<true_filter>,(apply_filter_parser<PP, integral_constant<true_filter>>{}), P{}, apply_filter<t
    .parsersEq (tCall (M (.applyFilter f_true_filter)) [(P Exa3)]) (P (.filter Exa3 (.apply (.user f_true_filter)))),  -- 40: DEP_ASSERT_MODIFIER_CALLABLE_R(apply_filter<true_filter>,(PP{}),(apply_filter_parser<PP, integral_constant<true_filter>>{}), apply_filter<true_filter>
    .parsersEq (tMod (P Exa3) (M (.applyFilter f_true_filter))) (P (.filter Exa3 (.apply (.user f_true_filter)))),  -- 40: DEP_ASSERT_MODIFIER_MODULO_OPERABLE_R(PP{}, apply_filter<true_filter>,(apply_filter_parser<PP, integral_constant<true_filter>>{}), P{}, apply_filter<t
    .parsersEq (tCall (M (.applyFilter f_true_filter)) [(P Exa4)]) (P (.filter Exa4 (.apply (.user f_true_filter)))),  -- 40: DEP_ASSERT_MODIFIER_CALLABLE_R(apply_filter<true_filter>,(PP{}),(apply_filter_parser<PP, integral_constant<true_filter>>{}), apply_filter<true_filter>
    .parsersEq (tMod (P Exa4) (M (.applyFilter f_true_filter))) (P (.filter Exa4 (.apply (.user f_true_filter)))),  -- 40: DEP_ASSERT_MODIFIER_MODULO_OPERABLE_R(PP{}, apply_filter<true_filter>,(apply_filter_parser<PP, integral_constant<true_filter>>{}), P{}, apply_filter<t
    .parsersEq (tCall (M (.applyFilter f_true_filter)) [(P Oom1)]) (P (.filter Oom1 (.apply (.user f_true_filter)))),  -- 40: DEP_ASSERT_MODIFIER_CALLABLE_R(apply_filter<true_filter>,(PP{}),(apply_filter_parser<PP, integral_constant<true_filter>>{}), apply_filter<true_filter>
    .parsersEq (tMod (P Oom1) (M (.applyFilter f_true_filter))) (P (.filter Oom1 (.apply (.user f_true_filter)))),  -- 40: DEP_ASSERT_MODIFIER_MODULO_OPERABLE_R(PP{}, apply_filter<true_filter>,(apply_filter_parser<PP, integral_constant<true_filter>>{}), P{}, apply_filter<t
    .parsersEq (tCall (M (.applyFilter f_true_filter)) [(P Oom2)]) (P (.filter Oom2 (.apply (.user f_true_filter)))),  -- 40: DEP_ASSERT_MODIFIER_CALLABLE_R(apply_filter<true_filter>,(PP{}),(apply_filter_parser<PP, integral_constant<true_filter>>{}), apply_filter<true_filter>
    .parsersEq (tMod (P Oom2) (M (.applyFilter f_true_filter))) (P (.filter Oom2 (.apply (.user f_true_filter)))),  -- 40: DEP_ASSERT_MODIFIER_MODULO_OPERABLE_R(PP{}, apply_filter<true_filter>,(apply_filter_parser<PP, integral_constant<true_filter>>{}), P{}, apply_filter<t
    .parsersEq (tCall (M (.applyFilter f_true_filter)) [(P Oom3)]) (P (.filter Oom3 (.apply (.user f_true_filter)))),  -- 40: DEP_ASSERT_MODIFIER_CALLABLE_R(apply_filter<true_filter>,(PP{}),(apply_filter_parser<PP, integral_constant<true_filter>>{}), apply_filter<true_filter>
    .parsersEq (tMod (P Oom3) (M (.applyFilter f_true_filter))) (P (.filter Oom3 (.apply (.user f_true_filter)))),  -- 40: DEP_ASSERT_MODIFIER_MODULO_OPERABLE_R(PP{}, apply_filter<true_filter>,(apply_filter_parser<PP, integral_constant<true_filter>>{}), P{}, apply_filter<t
    .parsersEq (tCall (M (.applyFilter f_true_filter)) [(P Oom4)]) (P (.filter Oom4 (.apply (.user f_true_filter)))),  -- 40: DEP_ASSERT_MODIFIER_CALLABLE_R(apply_filter<true_filter>,(PP{}),(apply_filter_parser<PP, integral_constant<true_filter>>{}), apply_filter<true_filter>
    .parsersEq (tMod (P Oom4) (M (.applyFilter f_true_filter))) (P (.filter Oom4 (.apply (.user f_true_filter)))),  -- 40: DEP_ASSERT_MODIFIER_MODULO_OPERABLE_R(PP{}, apply_filter<true_filter>,(apply_filter_parser<PP, integral_constant<true_filter>>{}), P{}, apply_filter<t
    .parsersEq (tCall (M (.applyFilter f_true_filter)) [(P Zom1)]) (P (.filter Zom1 (.apply (.user f_true_filter)))),  -- 40: DEP_ASSERT_MODIFIER_CALLABLE_R(apply_filter<true_filter>,(PP{}),(apply_filter_parser<PP, integral_constant<true_filter>>{}), apply_filter<true_filter>
    .parsersEq (tMod (P Zom1) (M (.applyFilter f_true_filter))) (P (.filter Zom1 (.apply (.user f_true_filter)))),  -- 40: DEP_ASSERT_MODIFIER_MODULO_OPERABLE_R(PP{}, apply_filter<true_filter>,(apply_filter_parser<PP, integral_constant<true_filter>>{}), P{}, apply_filter<t
    .parsersEq (tCall (M (.applyFilter f_true_filter)) [(P Zom2)]) (P (.filter Zom2 (.apply (.user f_true_filter)))),  -- 40: DEP_ASSERT_MODIFIER_CALLABLE_R(apply_filter<true_filter>,(PP{}),(apply_filter_parser<PP, integral_constant<true_filter>>{}), apply_filter<true_filter>
    .parsersEq (tMod (P Zom2) (M (.applyFilter f_true_filter))) (P (.filter Zom2 (.apply (.user f_true_filter)))),  -- 40: DEP_ASSERT_MODIFIER_MODULO_OPERABLE_R(PP{}, apply_filter<true_filter>,(apply_filter_parser<PP, integral_constant<true_filter>>{}), P{}, apply_filter<t
    .parsersEq (tCall (M (.applyFilter f_true_filter)) [(P Zom3)]) (P (.filter Zom3 (.apply (.user f_true_filter)))),  -- 40: DEP_ASSERT_MODIFIER_CALLABLE_R(apply_filter<true_filter>,(PP{}),(apply_filter_parser<PP, integral_constant<true_filter>>{}), apply_filter<true_filter>
    .parsersEq (tMod (P Zom3) (M (.applyFilter f_true_filter))) (P (.filter Zom3 (.apply (.user f_true_filter)))),  -- 40: DEP_ASSERT_MODIFIER_MODULO_OPERABLE_R(PP{}, apply_filter<true_filter>,(apply_filter_parser<PP, integral_constant<true_filter>>{}), P{}, apply_filter<t
    .parsersEq (tCall (M (.applyFilter f_true_filter)) [(P Zom4)]) (P (.filter Zom4 (.apply (.user f_true_filter)))),  -- 40: DEP_ASSERT_MODIFIER_CALLABLE_R(apply_filter<true_filter>,(PP{}),(apply_filter_parser<PP, integral_constant<true_filter>>{}), apply_filter<true_filter>
    .parsersEq (tMod (P Zom4) (M (.applyFilter f_true_filter))) (P (.filter Zom4 (.apply (.user f_true_filter)))),  -- 40: DEP_ASSERT_MODIFIER_MODULO_OPERABLE_R(PP{}, apply_filter<true_filter>,(apply_filter_parser<PP, integral_constant<true_filter>>{}), P{}, apply_filter<t
    .parsersEq (tCall (M (.applyFilter f_true_filter)) [(P Del1)]) (P (.filter Del1 (.apply (.user f_true_filter)))),  -- 40: DEP_ASSERT_MODIFIER_CALLABLE_R(apply_filter<true_filter>,(PP{}),(apply_filter_parser<PP, integral_constant<true_filter>>{}), apply_filter<true_filter>
    .parsersEq (tMod (P Del1) (M (.applyFilter f_true_filter))) (P (.filter Del1 (.apply (.user f_true_filter))))  -- 40: DEP_ASSERT_MODIFIER_MODULO_OPERABLE_R(PP{}, apply_filter<true_filter>,(apply_filter_parser<PP, integral_constant<true_filter>>{}), P{}, apply_filter<t
    ], Assertion.Holds a :=
  Assertion.holds_of_check (by decide +kernel)

/-- apply_filter modifier / modify anything (tests/char-tests/modifiers/apply_filter.cpp:40) -/
theorem charModifiersApplyFilter_3_4 : ∀ a ∈ [
    .parsersEq (tCall (M (.applyFilter f_true_filter)) [(P Del2)]) (P (.filter Del2 (.apply (.user f_true_filter)))),  -- 40: DEP_ASSERT_MODIFIER_CALLABLE_R(apply_filter<true_filter>,(PP{}),(apply_filter_parser<PP, integral_constant<true_filter>>{}), apply_filter<true_filter>
    .parsersEq (tMod (P Del2) (M (.applyFilter f_true_filter))) (P (.filter Del2 (.apply (.user f_true_filter)))),  -- 40: DEP_ASSERT_MODIFIER_MODULO_OPERABLE_R(PP{}, apply_filter<true_filter>,(apply_filter_parser<PP, integral_constant<true_filter>>{}), P{}, apply_filter<t
    .parsersEq (tCall (M (.applyFilter f_true_filter)) [(P Del3)]) (P (.filter Del3 (.apply (.user f_true_filter)))),  -- 40: DEP_ASSERT_MODIFIER_CALLABLE_R(apply_filter<true_filter>,(PP{}),(apply_filter_parser<PP, integral_constant<true_filter>>{}), apply_filter<true_filter>
    .parsersEq (tMod (P Del3) (M (.applyFilter f_true_filter))) (P (.filter Del3 (.apply (.user f_true_filter)))),  -- 40: DEP_ASSERT_MODIFIER_MODULO_OPERABLE_R(PP{}, apply_filter<true_filter>,(apply_filter_parser<PP, integral_constant<true_filter>>{}), P{}, apply_filter<t
    .parsersEq (tCall (M (.applyFilter f_true_filter)) [(P Del4)]) (P (.filter Del4 (.apply (.user f_true_filter)))),  -- 40: DEP_ASSERT_MODIFIER_CALLABLE_R(apply_filter<true_filter>,(PP{}),(apply_filter_parser<PP, integral_constant<true_filter>>{}), apply_filter<true_filter>
    .parsersEq (tMod (P Del4) (M (.applyFilter f_true_filter))) (P (.filter Del4 (.apply (.user f_true_filter)))),  -- 40: DEP_ASSERT_MODIFIER_MODULO_OPERABLE_R(PP{}, apply_filter<true_filter>,(apply_filter_parser<PP, integral_constant<true_filter>>{}), P{}, apply_filter<t
    .parsersEq (tCall (M (.applyFilter f_true_filter)) [(P Del5)]) (P (.filter Del5 (.apply (.user f_true_filter)))),  -- 40: DEP_ASSERT_MODIFIER_CALLABLE_R(apply_filter<true_filter>,(PP{}),(apply_filter_parser<PP, integral_constant<true_filter>>{}), apply_filter<true_filter>
    .parsersEq (tMod (P Del5) (M (.applyFilter f_true_filter))) (P (.filter Del5 (.apply (.user f_true_filter)))),  -- 40: DEP_ASSERT_MODIFIER_MODULO_OPERABLE_R(PP{}, apply_filter<true_filter>,(apply_filter_parser<PP, integral_constant<true_filter>>{}), P{}, apply_filter<t
    .parsersEq (tCall (M (.applyFilter f_true_filter)) [(P Del6)]) (P (.filter Del6 (.apply (.user f_true_filter)))),  -- 40: DEP_ASSERT_MODIFIER_CALLABLE_R(apply_filter<true_filter>,(PP{}),(apply_filter_parser<PP, integral_constant<true_filter>>{}), apply_filter<true_filter>
    .parsersEq (tMod (P Del6) (M (.applyFilter f_true_filter))) (P (.filter Del6 (.apply (.user f_true_filter)))),  -- 40: DEP_ASSERT_MODIFIER_MODULO_OPERABLE_R(PP{}, apply_filter<true_filter>,(apply_filter_parser<PP, integral_constant<true_filter>>{}), P{}, apply_filter<t
    .parsersEq (tCall (M (.applyFilter f_true_filter)) [(P Del7)]) (P (.filter Del7 (.apply (.user f_true_filter)))),  -- 40: DEP_ASSERT_MODIFIER_CALLABLE_R(apply_filter<true_filter>,(PP{}),(apply_filter_parser<PP, integral_constant<true_filter>>{}), apply_filter<true_filter>
    .parsersEq (tMod (P Del7) (M (.applyFilter f_true_filter))) (P (.filter Del7 (.apply (.user f_true_filter)))),  -- 40: DEP_ASSERT_MODIFIER_MODULO_OPERABLE_R(PP{}, apply_filter<true_filter>,(apply_filter_parser<PP, integral_constant<true_filter>>{}), P{}, apply_filter<t
    .parsersEq (tCall (M (.applyFilter f_true_filter)) [(P Del8)]) (P (.filter Del8 (.apply (.user f_true_filter)))),  -- 40: DEP_ASSERT_MODIFIER_CALLABLE_R(apply_filter<true_filter>,(PP{}),(apply_filter_parser<PP, integral_constant<true_filter>>{}), apply_filter<true_filter>
    .parsersEq (tMod (P Del8) (M (.applyFilter f_true_filter))) (P (.filter Del8 (.apply (.user f_true_filter)))),  -- 40: DEP_ASSERT_MODIFIER_MODULO_OPERABLE_R(PP{}, apply_filter<true_filter>,(apply_filter_parser<PP, integral_constant<true_filter>>{}), P{}, apply_filter<t
    .parsersEq (tCall (M (.applyFilter f_true_filter)) [(P Dek1)]) (P (.filter Dek1 (.apply (.user f_true_filter)))),  -- 40: DEP_ASSERT_MODIFIER_CALLABLE_R(apply_filter<true_filter>,(PP{}),(apply_filter_parser<PP, integral_constant<true_filter>>{}), apply_filter<true_filter>
    .parsersEq (tMod (P Dek1) (M (.applyFilter f_true_filter))) (P (.filter Dek1 (.apply (.user f_true_filter)))),  -- 40: DEP_ASSERT_MODIFIER_MODULO_OPERABLE_R(PP{}, apply_filter<true_filter>,(apply_filter_parser<PP, integral_constant<true_filter>>{}), P{}, apply_filter<t
    .parsersEq (tCall (M (.applyFilter f_true_filter)) [(P Dek2)]) (P (.filter Dek2 (.apply (.user f_true_filter)))),  -- 40: DEP_ASSERT_MODIFIER_CALLABLE_R(apply_filter<true_filter>,(PP{}),(apply_filter_parser<PP, integral_constant<true_filter>>{}), apply_filter<true_filter>
    .parsersEq (tMod (P Dek2) (M (.applyFilter f_true_filter))) (P (.filter Dek2 (.apply (.user f_true_filter)))),  -- 40: DEP_ASSERT_MODIFIER_MODULO_OPERABLE_R(PP{}, apply_filter<true_filter>,(apply_filter_parser<PP, integral_constant<true_filter>>{}), P{}, apply_filter<t
    .parsersEq (tCall (M (.applyFilter f_true_filter)) [(P Dek3)]) (P (.filter Dek3 (.apply (.user f_true_filter)))),  -- 40: DEP_ASSERT_MODIFIER_CALLABLE_R(apply_filter<true_filter>,(PP{}),(apply_filter_parser<PP, integral_constant<true_filter>>{}), apply_filter<true_filter>
    .parsersEq (tMod (P Dek3) (M (.applyFilter f_true_filter))) (P (.filter Dek3 (.apply (.user f_true_filter)))),  -- 40: DEP_ASSERT_MODIFIER_MODULO_OPERABLE_R(PP{}, apply_filter<true_filter>,(apply_filter_parser<PP, integral_constant<true_filter>>{}), P{}, apply_filter<t
    .parsersEq (tCall (M (.applyFilter f_true_filter)) [(P Dek4)]) (P (.filter Dek4 (.apply (.user f_true_filter)))),  -- 40: DEP_ASSERT_MODIFIER_CALLABLE_R(apply_filter<true_filter>,(PP{}),(apply_filter_parser<PP, integral_constant<true_filter>>{}), apply_filter<true_filter>
    .parsersEq (tMod (P Dek4) (M (.applyFilter f_true_filter))) (P (.filter Dek4 (.apply (.user f_true_filter)))),  -- 40: DEP_ASSERT_MODIFIER_MODULO_OPERABLE_R(PP{}, apply_filter<true_filter>,(apply_filter_parser<PP, integral_constant<true_filter>>{}), P{}, apply_filter<t
    .parsersEq (tCall (M (.applyFilter f_true_filter)) [(P Dek5)]) (P (.filter Dek5 (.apply (.user f_true_filter)))),  -- 40: DEP_ASSERT_MODIFIER_CALLABLE_R(apply_filter<true_filter>,(PP{}),(apply_filter_parser<PP, integral_constant<true_filter>>{}), apply_filter<true_filter>
    .parsersEq (tMod (P Dek5) (M (.applyFilter f_true_filter))) (P (.filter Dek5 (.apply (.user f_true_filter)))),  -- 40: DEP_ASSERT_MODIFIER_MODULO_OPERABLE_R(PP{}, apply_filter<true_filter>,(apply_filter_parser<PP, integral_constant<true_filter>>{}), P{}, apply_filter<t
    .parsersEq (tCall (M (.applyFilter f_true_filter)) [(P Dek6)]) (P (.filter Dek6 (.apply (.user f_true_filter)))),  -- 40: DEP_ASSERT_MODIFIER_CALLABLE_R(apply_filter<true_filter>,(PP{}),(apply_filter_parser<PP, integral_constant<true_filter>>{}), apply_filter<true_filter>
    .parsersEq (tMod (P Dek6) (M (.applyFilter f_true_filter))) (P (.filter Dek6 (.apply (.user f_true_filter)))),  -- 40: DEP_ASSERT_MODIFIER_MODULO_OPERABLE_R(PP{}, apply_filter<true_filter>,(apply_filter_parser<PP, integral_constant<true_filter>>{}), P{}, apply_filter<t
    .parsersEq (tCall (M (.applyFilter f_true_filter)) [(P Dek7)]) (P (.filter Dek7 (.apply (.user f_true_filter)))),  -- 40: DEP_ASSERT_MODIFIER_CALLABLE_R(apply_filter<true_filter>,(PP{}),(apply_filter_parser<PP, integral_constant<true_filter>>{}), apply_filter<true_filter>
    .parsersEq (tMod (P Dek7) (M (.applyFilter f_true_filter))) (P (.filter Dek7 (.apply (.user f_true_filter)))),  -- 40: DEP_ASSERT_MODIFIER_MODULO_OPERABLE_R(PP{}, apply_filter<true_filter>,(apply_filter_parser<PP, integral_constant<true_filter>>{}), P{}, apply_filter<t
    .parsersEq (tCall (M (.applyFilter f_true_filter)) [(P Dek8)]) (P (.filter Dek8 (.apply (.user f_true_filter)))),  -- 40: DEP_ASSERT_MODIFIER_CALLABLE_R(apply_filter<true_filter>,(PP{}),(apply_filter_parser<PP, integral_constant<true_filter>>{}), apply_filter<true_filter>
    .parsersEq (tMod (P Dek8) (M (.applyFilter f_true_filter))) (P (.filter Dek8 (.apply (.user f_true_filter))))  -- 40: DEP_ASSERT_MODIFIER_MODULO_OPERABLE_R(PP{}, apply_filter<true_filter>,(apply_filter_parser<PP, integral_constant<true_filter>>{}), P{}, apply_filter<t
    ], Assertion.Holds a :=
  Assertion.holds_of_check (by decide +kernel)

end Tok3n.Tests
