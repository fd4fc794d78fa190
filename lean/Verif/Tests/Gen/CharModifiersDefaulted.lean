import Verif.Tests.Gen.SamplesChar
/- Generated by tools/tests2lean.py from tests/char-tests/modifiers/defaulted.cpp. -/

namespace Tok3n.Tests

/-- defaulted modifier / prefix (tests/char-tests/modifiers/defaulted.cpp:14) -/
theorem charModifiersDefaulted_1 : ∀ a ∈ [
    .parsersEq (P Def1) (tCall (M (.defaulted tInt)) [(tPlus (P ABC))]),  -- 14: ASSERT_PARSER_VALUES_EQ(def1, defaulted<int>(+ abc))
    .parsersEq (P Def2) (tCall (M (.defaulted tClass3)) [(tMaybe (tOr (P ABC) (P QQ)))])  -- 15: ASSERT_PARSER_VALUES_EQ(def2, defaulted<Class3>(~(abc | qq)))
    ], Assertion.Holds a :=
  Assertion.holds_of_check (by decide +kernel)

/-- defaulted modifier / infix (tests/char-tests/modifiers/defaulted.cpp:20) -/
theorem charModifiersDefaulted_2 : ∀ a ∈ [
    .parsersEq (P Def1) (tMod (tPlus (P ABC)) (M (.defaulted tInt))),  -- 20: ASSERT_PARSER_VALUES_EQ(def1, + abc % defaulted<int>)
    .parsersEq (P Def2) (tMod (tMaybe (tOr (P ABC) (P QQ))) (M (.defaulted tClass3)))  -- 21: ASSERT_PARSER_VALUES_EQ(def2, ~(abc | qq) % defaulted<Class3>)
    ], Assertion.Holds a :=
  Assertion.holds_of_check (by decide +kernel)

/-- defaulted modifier / modify anything (tests/char-tests/modifiers/defaulted.cpp:38) -/
theorem charModifiersDefaulted_3_1 : ∀ a ∈ [
    .parsersEq (tCall (M (.defaulted tBool)) [(P Ign1)]) (P (.map Ign1 (.deflt tBool))),  -- 38: ASSERT_MODIFIER_CALLABLE_R(defaulted<bool>,(P{}),(defaulted_parser<P, bool>{}))
    .parsersEq (tMod (P Ign1) (M (.defaulted tBool))) (P (.map Ign1 (.deflt tBool))),  -- 38: ASSERT_MODIFIER_MODULO_OPERABLE_R(P{}, defaulted<bool>,(defaulted_parser<P, bool>{}))
    .parsersEq (tCall (M (.defaulted tBool)) [(P Ign2)]) (P (.map Ign2 (.deflt tBool))),  -- 38: ASSERT_MODIFIER_CALLABLE_R(defaulted<bool>,(P{}),(defaulted_parser<P, bool>{}))
    .parsersEq (tMod (P Ign2) (M (.defaulted tBool))) (P (.map Ign2 (.deflt tBool))),  -- 38: ASSERT_MODIFIER_MODULO_OPERABLE_R(P{}, defaulted<bool>,(defaulted_parser<P, bool>{}))
    .parsersEq (tCall (M (.defaulted tBool)) [(P Ign3)]) (P (.map Ign3 (.deflt tBool))),  -- 38: ASSERT_MODIFIER_CALLABLE_R(defaulted<bool>,(P{}),(defaulted_parser<P, bool>{}))
    .parsersEq (tMod (P Ign3) (M (.defaulted tBool))) (P (.map Ign3 (.deflt tBool))),  -- 38: ASSERT_MODIFIER_MODULO_OPERABLE_R(P{}, defaulted<bool>,(defaulted_parser<P, bool>{}))
    .parsersEq (tCall (M (.defaulted tBool)) [(P Ign4)]) (P (.map Ign4 (.deflt tBool))),  -- 38: ASSERT_MODIFIER_CALLABLE_R(defaulted<bool>,(P{}),(defaulted_parser<P, bool>{}))
    .parsersEq (tMod (P Ign4) (M (.defaulted tBool))) (P (.map Ign4 (.deflt tBool))),  -- 38: ASSERT_MODIFIER_MODULO_OPERABLE_R(P{}, defaulted<bool>,(defaulted_parser<P, bool>{}))
    .parsersEq (tCall (M (.defaulted tBool)) [(P Ign5)]) (P (.map Ign5 (.deflt tBool))),  -- 38: ASSERT_MODIFIER_CALLABLE_R(defaulted<bool>,(P{}),(defaulted_parser<P, bool>{}))
    .parsersEq (tMod (P Ign5) (M (.defaulted tBool))) (P (.map Ign5 (.deflt tBool))),  -- 38: ASSERT_MODIFIER_MODULO_OPERABLE_R(P{}, defaulted<bool>,(defaulted_parser<P, bool>{}))
    .parsersEq (tCall (M (.defaulted tBool)) [(P Com1)]) (P (.map Com1 (.deflt tBool))),  -- 38: ASSERT_MODIFIER_CALLABLE_R(defaulted<bool>,(P{}),(defaulted_parser<P, bool>{}))
    .parsersEq (tMod (P Com1) (M (.defaulted tBool))) (P (.map Com1 (.deflt tBool))),  -- 38: ASSERT_MODIFIER_MODULO_OPERABLE_R(P{}, defaulted<bool>,(defaulted_parser<P, bool>{}))
    .parsersEq (tCall (M (.defaulted tBool)) [(P Com2)]) (P (.map Com2 (.deflt tBool))),  -- 38: ASSERT_MODIFIER_CALLABLE_R(defaulted<bool>,(P{}),(defaulted_parser<P, bool>{}))
    .parsersEq (tMod (P Com2) (M (.defaulted tBool))) (P (.map Com2 (.deflt tBool))),  -- 38: ASSERT_MODIFIER_MODULO_OPERABLE_R(P{}, defaulted<bool>,(defaulted_parser<P, bool>{}))
    .parsersEq (tCall (M (.defaulted tBool)) [(P Com3)]) (P (.map Com3 (.deflt tBool))),  -- 38: ASSERT_MODIFIER_CALLABLE_R(defaulted<bool>,(P{}),(defaulted_parser<P, bool>{}))
    .parsersEq (tMod (P Com3) (M (.defaulted tBool))) (P (.map Com3 (.deflt tBool))),  -- 38: ASSERT_MODIFIER_MODULO_OPERABLE_R(P{}, defaulted<bool>,(defaulted_parser<P, bool>{}))
    .parsersEq (tCall (M (.defaulted tBool)) [(P Com4)]) (P (.map Com4 (.deflt tBool))),  -- 38: ASSERT_MODIFIER_CALLABLE_R(defaulted<bool>,(P{}),(defaulted_parser<P, bool>{}))
    .parsersEq (tMod (P Com4) (M (.defaulted tBool))) (P (.map Com4 (.deflt tBool))),  -- 38: ASSERT_MODIFIER_MODULO_OPERABLE_R(P{}, defaulted<bool>,(defaulted_parser<P, bool>{}))
    .parsersEq (tCall (M (.defaulted tBool)) [(P Com5)]) (P (.map Com5 (.deflt tBool))),  -- 38: ASSERT_MODIFIER_CALLABLE_R(defaulted<bool>,(P{}),(defaulted_parser<P, bool>{}))
    .parsersEq (tMod (P Com5) (M (.defaulted tBool))) (P (.map Com5 (.deflt tBool))),  -- 38: ASSERT_MODIFIER_MODULO_OPERABLE_R(P{}, defaulted<bool>,(defaulted_parser<P, bool>{}))
    .parsersEq (tCall (M (.defaulted tBool)) [(P Com6)]) (P (.map Com6 (.deflt tBool))),  -- 38: ASSERT_MODIFIER_CALLABLE_R(defaulted<bool>,(P{}),(defaulted_parser<P, bool>{}))
    .parsersEq (tMod (P Com6) (M (.defaulted tBool))) (P (.map Com6 (.deflt tBool))),  -- 38: ASSERT_MODIFIER_MODULO_OPERABLE_R(P{}, defaulted<bool>,(defaulted_parser<P, bool>{}))
    .parsersEq (tCall (M (.defaulted tBool)) [(P Com7)]) (P (.map Com7 (.deflt tBool))),  -- 38: ASSERT_MODIFIER_CALLABLE_R(defaulted<bool>,(P{}),(defaulted_parser<P, bool>{}))
    .parsersEq (tMod (P Com7) (M (.defaulted tBool))) (P (.map Com7 (.deflt tBool))),  -- 38: ASSERT_MODIFIER_MODULO_OPERABLE_R(P{}, defaulted<bool>,(defaulted_parser<P, bool>{}))
    .parsersEq (tCall (M (.defaulted tBool)) [(P Nam1)]) (P (.map Nam1 (.deflt tBool))),  -- 38: ASSERT_MODIFIER_CALLABLE_R(defaulted<bool>,(P{}),(defaulted_parser<P, bool>{}))
    .parsersEq (tMod (P Nam1) (M (.defaulted tBool))) (P (.map Nam1 (.deflt tBool))),  -- 38: ASSERT_MODIFIER_MODULO_OPERABLE_R(P{}, defaulted<bool>,(defaulted_parser<P, bool>{}))
    .parsersEq (tCall (M (.defaulted tBool)) [(P Nam2)]) (P (.map Nam2 (.deflt tBool))),  -- 38: ASSERT_MODIFIER_CALLABLE_R(defaulted<bool>,(P{}),(defaulted_parser<P, bool>{}))
    .parsersEq (tMod (P Nam2) (M (.defaulted tBool))) (P (.map Nam2 (.deflt tBool))),  -- 38: ASSERT_MODIFIER_MODULO_OPERABLE_R(P{}, defaulted<bool>,(defaulted_parser<P, bool>{}))
    .parsersEq (tCall (M (.defaulted tBool)) [(P Nam3)]) (P (.map Nam3 (.deflt tBool))),  -- 38: ASSERT_MODIFIER_CALLABLE_R(defaulted<bool>,(P{}),(defaulted_parser<P, bool>{}))
    .parsersEq (tMod (P Nam3) (M (.defaulted tBool))) (P (.map Nam3 (.deflt tBool))),  -- 38: ASSERT_MODIFIER_MODULO_OPERABLE_R(P{}, defaulted<bool>,(defaulted_parser<P, bool>{}))
    .parsersEq (tCall (M (.defaulted tBool)) [(P Nam4)]) (P (.map Nam4 (.deflt tBool))),  -- 38: ASSERT_MODIFIER_CALLABLE_R(defaulted<bool>,(P{}),(defaulted_parser<P, bool>{}))
    .parsersEq (tMod (P Nam4) (M (.defaulted tBool))) (P (.map Nam4 (.deflt tBool))),  -- 38: ASSERT_MODIFIER_MODULO_OPERABLE_R(P{}, defaulted<bool>,(defaulted_parser<P, bool>{}))
    .parsersEq (tCall (M (.defaulted tBool)) [(P Any1)]) (P (.map Any1 (.deflt tBool))),  -- 38: ASSERT_MODIFIER_CALLABLE_R(defaulted<bool>,(P{}),(defaulted_parser<P, bool>{}))
    .parsersEq (tMod (P Any1) (M (.defaulted tBool))) (P (.map Any1 (.deflt tBool))),  -- 38: ASSERT_MODIFIER_MODULO_OPERABLE_R(P{}, defaulted<bool>,(defaulted_parser<P, bool>{}))
    .parsersEq (tCall (M (.defaulted tBool)) [(P Any2)]) (P (.map Any2 (.deflt tBool))),  -- 38: ASSERT_MODIFIER_CALLABLE_R(defaulted<bool>,(P{}),(defaulted_parser<P, bool>{}))
    .parsersEq (tMod (P Any2) (M (.defaulted tBool))) (P (.map Any2 (.deflt tBool))),  -- 38: ASSERT_MODIFIER_MODULO_OPERABLE_R(P{}, defaulted<bool>,(defaulted_parser<P, bool>{}))
    .parsersEq (tCall (M (.defaulted tBool)) [(P Any3)]) (P (.map Any3 (.deflt tBool))),  -- 38: ASSERT_MODIFIER_CALLABLE_R(defaulted<bool>,(P{}),(defaulted_parser<P, bool>{}))
    .parsersEq (tMod (P Any3) (M (.defaulted tBool))) (P (.map Any3 (.deflt tBool))),  -- 38: ASSERT_MODIFIER_MODULO_OPERABLE_R(P{}, defaulted<bool>,(defaulted_parser<P, bool>{}))
    .parsersEq (tCall (M (.defaulted tBool)) [(P Any4)]) (P (.map Any4 (.deflt tBool))),  -- 38: ASSERT_MODIFIER_CALLABLE_R(defaulted<bool>,(P{}),(defaulted_parser<P, bool>{}))
    .parsersEq (tMod (P Any4) (M (.defaulted tBool))) (P (.map Any4 (.deflt tBool))),  -- 38: ASSERT_MODIFIER_MODULO_OPERABLE_R(P{}, defaulted<bool>,(defaulted_parser<P, bool>{}))
    .parsersEq (tCall (M (.defaulted tBool)) [(P Non1)]) (P (.map Non1 (.deflt tBool))),  -- 38: ASSERT_MODIFIER_CALLABLE_R(defaulted<bool>,(P{}),(defaulted_parser<P, bool>{}))
    .parsersEq (tMod (P Non1) (M (.defaulted tBool))) (P (.map Non1 (.deflt tBool))),  -- 38: ASSERT_MODIFIER_MODULO_OPERABLE_R(P{}, defaulted<bool>,(defaulted_parser<P, bool>{}))
    .parsersEq (tCall (M (.defaulted tBool)) [(P Non2)]) (P (.map Non2 (.deflt tBool))),  -- 38: ASSERT_MODIFIER_CALLABLE_R(defaulted<bool>,(P{}),(defaulted_parser<P, bool>{}))
    .parsersEq (tMod (P Non2) (M (.defaulted tBool))) (P (.map Non2 (.deflt tBool))),  -- 38: ASSERT_MODIFIER_MODULO_OPERABLE_R(P{}, defaulted<bool>,(defaulted_parser<P, bool>{}))
    .parsersEq (tCall (M (.defaulted tBool)) [(P Non3)]) (P (.map Non3 (.deflt tBool))),  -- 38: ASSERT_MODIFIER_CALLABLE_R(defaulted<bool>,(P{}),(defaulted_parser<P, bool>{}))
    .parsersEq (tMod (P Non3) (M (.defaulted tBool))) (P (.map Non3 (.deflt tBool))),  -- 38: ASSERT_MODIFIER_MODULO_OPERABLE_R(P{}, defaulted<bool>,(defaulted_parser<P, bool>{}))
    .parsersEq (tCall (M (.defaulted tBool)) [(P Non4)]) (P (.map Non4 (.deflt tBool))),  -- 38: ASSERT_MODIFIER_CALLABLE_R(defaulted<bool>,(P{}),(defaulted_parser<P, bool>{}))
    .parsersEq (tMod (P Non4) (M (.defaulted tBool))) (P (.map Non4 (.deflt tBool))),  -- 38: ASSERT_MODIFIER_MODULO_OPERABLE_R(P{}, defaulted<bool>,(defaulted_parser<P, bool>{}))
    .parsersEq (tCall (M (.defaulted tBool)) [(P Non5)]) (P (.map Non5 (.deflt tBool))),  -- 38: ASSERT_MODIFIER_CALLABLE_R(defaulted<bool>,(P{}),(defaulted_parser<P, bool>{}))
    .parsersEq (tMod (P Non5) (M (.defaulted tBool))) (P (.map Non5 (.deflt tBool))),  -- 38: ASSERT_MODIFIER_MODULO_OPERABLE_R(P{}, defaulted<bool>,(defaulted_parser<P, bool>{}))
    .parsersEq (tCall (M (.defaulted tBool)) [(P All1)]) (P (.map All1 (.deflt tBool))),  -- 38: ASSERT_MODIFIER_CALLABLE_R(defaulted<bool>,(P{}),(defaulted_parser<P, bool>{}))
    .parsersEq (tMod (P All1) (M (.defaulted tBool))) (P (.map All1 (.deflt tBool))),  -- 38: ASSERT_MODIFIER_MODULO_OPERABLE_R(P{}, defaulted<bool>,(defaulted_parser<P, bool>{}))
    .parsersEq (tCall (M (.defaulted tBool)) [(P All2)]) (P (.map All2 (.deflt tBool))),  -- 38: ASSERT_MODIFIER_CALLABLE_R(defaulted<bool>,(P{}),(defaulted_parser<P, bool>{}))
    .parsersEq (tMod (P All2) (M (.defaulted tBool))) (P (.map All2 (.deflt tBool))),  -- 38: ASSERT_MODIFIER_MODULO_OPERABLE_R(P{}, defaulted<bool>,(defaulted_parser<P, bool>{}))
    .parsersEq (tCall (M (.defaulted tBool)) [(P All3)]) (P (.map All3 (.deflt tBool))),  -- 38: ASSERT_MODIFIER_CALLABLE_R(defaulted<bool>,(P{}),(defaulted_parser<P, bool>{}))
    .parsersEq (tMod (P All3) (M (.defaulted tBool))) (P (.map All3 (.deflt tBool))),  -- 38: ASSERT_MODIFIER_MODULO_OPERABLE_R(P{}, defaulted<bool>,(defaulted_parser<P, bool>{}))
    .parsersEq (tCall (M (.defaulted tBool)) [(P All4)]) (P (.map All4 (.deflt tBool))),  -- 38: ASSERT_MODIFIER_CALLABLE_R(defaulted<bool>,(P{}),(defaulted_parser<P, bool>{}))
    .parsersEq (tMod (P All4) (M (.defaulted tBool))) (P (.map All4 (.deflt tBool))),  -- 38: ASSERT_MODIFIER_MODULO_OPERABLE_R(P{}, defaulted<bool>,(defaulted_parser<P, bool>{}))
    .parsersEq (tCall (M (.defaulted tBool)) [(P Eps1)]) (P (.map Eps1 (.deflt tBool))),  -- 38: ASSERT_MODIFIER_CALLABLE_R(defaulted<bool>,(P{}),(defaulted_parser<P, bool>{}))
    .parsersEq (tMod (P Eps1) (M (.defaulted tBool))) (P (.map Eps1 (.deflt tBool)))  -- 38: ASSERT_MODIFIER_MODULO_OPERABLE_R(P{}, defaulted<bool>,(defaulted_parser<P, bool>{}))
    ], Assertion.Holds a :=
  Assertion.holds_of_check (by decide +kernel)

/-- defaulted modifier / modify anything (tests/char-tests/modifiers/defaulted.cpp:38) -/
theorem charModifiersDefaulted_3_2 : ∀ a ∈ [
    .parsersEq (tCall (M (.defaulted tBool)) [(P Ant1)]) (P (.map Ant1 (.deflt tBool))),  -- 38: ASSERT_MODIFIER_CALLABLE_R(defaulted<bool>,(P{}),(defaulted_parser<P, bool>{}))
    .parsersEq (tMod (P Ant1) (M (.defaulted tBool))) (P (.map Ant1 (.deflt tBool))),  -- 38: ASSERT_MODIFIER_MODULO_OPERABLE_R(P{}, defaulted<bool>,(defaulted_parser<P, bool>{}))
    .parsersEq (tCall (M (.defaulted tBool)) [(P QQ)]) (P (.map QQ (.deflt tBool))),  -- 38: ASSERT_MODIFIER_CALLABLE_R(defaulted<bool>,(P{}),(defaulted_parser<P, bool>{}))
    .parsersEq (tMod (P QQ) (M (.defaulted tBool))) (P (.map QQ (.deflt tBool))),  -- 38: ASSERT_MODIFIER_MODULO_OPERABLE_R(P{}, defaulted<bool>,(defaulted_parser<P, bool>{}))
    .parsersEq (tCall (M (.defaulted tBool)) [(P ABC)]) (P (.map ABC (.deflt tBool))),  -- 38: ASSERT_MODIFIER_CALLABLE_R(defaulted<bool>,(P{}),(defaulted_parser<P, bool>{}))
    .parsersEq (tMod (P ABC) (M (.defaulted tBool))) (P (.map ABC (.deflt tBool))),  -- 38: ASSERT_MODIFIER_MODULO_OPERABLE_R(P{}, defaulted<bool>,(defaulted_parser<P, bool>{}))
    .parsersEq (tCall (M (.defaulted tBool)) [(P Comma)]) (P (.map Comma (.deflt tBool))),  -- 38: ASSERT_MODIFIER_CALLABLE_R(defaulted<bool>,(P{}),(defaulted_parser<P, bool>{}))
    .parsersEq (tMod (P Comma) (M (.defaulted tBool))) (P (.map Comma (.deflt tBool))),  -- 38: ASSERT_MODIFIER_MODULO_OPERABLE_R(P{}, defaulted<bool>,(defaulted_parser<P, bool>{}))
    .parsersEq (tCall (M (.defaulted tBool)) [(P SpaceDot)]) (P (.map SpaceDot (.deflt tBool))),  -- 38: ASSERT_MODIFIER_CALLABLE_R(defaulted<bool>,(P{}),(defaulted_parser<P, bool>{}))
    .parsersEq (tMod (P SpaceDot) (M (.defaulted tBool))) (P (.map SpaceDot (.deflt tBool))),  -- 38: ASSERT_MODIFIER_MODULO_OPERABLE_R(P{}, defaulted<bool>,(defaulted_parser<P, bool>{}))
    .parsersEq (tCall (M (.defaulted tBool)) [(P Cho1)]) (P (.map Cho1 (.deflt tBool))),  -- 38: ASSERT_MODIFIER_CALLABLE_R(defaulted<bool>,(P{}),(defaulted_parser<P, bool>{}))
    .parsersEq (tMod (P Cho1) (M (.defaulted tBool))) (P (.map Cho1 (.deflt tBool))),  -- 38: ASSERT_MODIFIER_MODULO_OPERABLE_R(P{}, defaulted<bool>,(defaulted_parser<P, bool>{}))
    .parsersEq (tCall (M (.defaulted tBool)) [(P Cho2)]) (P (.map Cho2 (.deflt tBool))),  -- 38: ASSERT_MODIFIER_CALLABLE_R(defaulted<bool>,(P{}),(defaulted_parser<P, bool>{}))
    .parsersEq (tMod (P Cho2) (M (.defaulted tBool))) (P (.map Cho2 (.deflt tBool))),  -- 38: ASSERT_MODIFIER_MODULO_OPERABLE_R(P{}, defaulted<bool>,(defaulted_parser<P, bool>{}))
    .parsersEq (tCall (M (.defaulted tBool)) [(P Cho3)]) (P (.map Cho3 (.deflt tBool))),  -- 38: ASSERT_MODIFIER_CALLABLE_R(defaulted<bool>,(P{}),(defaulted_parser<P, bool>{}))
    .parsersEq (tMod (P Cho3) (M (.defaulted tBool))) (P (.map Cho3 (.deflt tBool))),  -- 38: ASSERT_MODIFIER_MODULO_OPERABLE_R(P{}, defaulted<bool>,(defaulted_parser<P, bool>{}))
    .parsersEq (tCall (M (.defaulted tBool)) [(P Cho4)]) (P (.map Cho4 (.deflt tBool))),  -- 38: ASSERT_MODIFIER_CALLABLE_R(defaulted<bool>,(P{}),(defaulted_parser<P, bool>{}))
    .parsersEq (tMod (P Cho4) (M (.defaulted tBool))) (P (.map Cho4 (.deflt tBool))),  -- 38: ASSERT_MODIFIER_MODULO_OPERABLE_R(P{}, defaulted<bool>,(defaulted_parser<P, bool>{}))
    .parsersEq (tCall (M (.defaulted tBool)) [(P Cho5)]) (P (.map Cho5 (.deflt tBool))),  -- 38: ASSERT_MODIFIER_CALLABLE_R(defaulted<bool>,(P{}),(defaulted_parser<P, bool>{}))
    .parsersEq (tMod (P Cho5) (M (.defaulted tBool))) (P (.map Cho5 (.deflt tBool))),  -- 38: ASSERT_MODIFIER_MODULO_OPERABLE_R(P{}, defaulted<bool>,(defaulted_parser<P, bool>{}))
    .parsersEq (tCall (M (.defaulted tBool)) [(P Seq1)]) (P (.map Seq1 (.deflt tBool))),  -- 38: ASSERT_MODIFIER_CALLABLE_R(defaulted<bool>,(P{}),(defaulted_parser<P, bool>{}))
    .parsersEq (tMod (P Seq1) (M (.defaulted tBool))) (P (.map Seq1 (.deflt tBool))),  -- 38: ASSERT_MODIFIER_MODULO_OPERABLE_R(P{}, defaulted<bool>,(defaulted_parser<P, bool>{}))
    .parsersEq (tCall (M (.defaulted tBool)) [(P Seq2)]) (P (.map Seq2 (.deflt tBool))),  -- 38: ASSERT_MODIFIER_CALLABLE_R(defaulted<bool>,(P{}),(defaulted_parser<P, bool>{}))
    .parsersEq (tMod (P Seq2) (M (.defaulted tBool))) (P (.map Seq2 (.deflt tBool))),  -- 38: ASSERT_MODIFIER_MODULO_OPERABLE_R(P{}, defaulted<bool>,(defaulted_parser<P, bool>{}))
    .parsersEq (tCall (M (.defaulted tBool)) [(P Seq3)]) (P (.map Seq3 (.deflt tBool))),  -- 38: ASSERT_MODIFIER_CALLABLE_R(defaulted<bool>,(P{}),(defaulted_parser<P, bool>{}))
    .parsersEq (tMod (P Seq3) (M (.defaulted tBool))) (P (.map Seq3 (.deflt tBool))),  -- 38: ASSERT_MODIFIER_MODULO_OPERABLE_R(P{}, defaulted<bool>,(defaulted_parser<P, bool>{}))
    .parsersEq (tCall (M (.defaulted tBool)) [(P Seq4)]) (P (.map Seq4 (.deflt tBool))),  -- 38: ASSERT_MODIFIER_CALLABLE_R(defaulted<bool>,(P{}),(defaulted_parser<P, bool>{}))
    .parsersEq (tMod (P Seq4) (M (.defaulted tBool))) (P (.map Seq4 (.deflt tBool))),  -- 38: ASSERT_MODIFIER_MODULO_OPERABLE_R(P{}, defaulted<bool>,(defaulted_parser<P, bool>{}))
    .parsersEq (tCall (M (.defaulted tBool)) [(P Seq5)]) (P (.map Seq5 (.deflt tBool))),  -- 38: ASSERT_MODIFIER_CALLABLE_R(defaulted<bool>,(P{}),(defaulted_parser<P, bool>{}))
    .parsersEq (tMod (P Seq5) (M (.defaulted tBool))) (P (.map Seq5 (.deflt tBool))),  -- 38: ASSERT_MODIFIER_MODULO_OPERABLE_R(P{}, defaulted<bool>,(defaulted_parser<P, bool>{}))
    .parsersEq (tCall (M (.defaulted tBool)) [(P Joi1)]) (P (.map Joi1 (.deflt tBool))),  -- 38: ASSERT_MODIFIER_CALLABLE_R(defaulted<bool>,(P{}),(defaulted_parser<P, bool>{}))
    .parsersEq (tMod (P Joi1) (M (.defaulted tBool))) (P (.map Joi1 (.deflt tBool))),  -- 38: ASSERT_MODIFIER_MODULO_OPERABLE_R(P{}, defaulted<bool>,(defaulted_parser<P, bool>{}))
    .parsersEq (tCall (M (.defaulted tBool)) [(P Joi2)]) (P (.map Joi2 (.deflt tBool))),  -- 38: ASSERT_MODIFIER_CALLABLE_R(defaulted<bool>,(P{}),(defaulted_parser<P, bool>{}))
    .parsersEq (tMod (P Joi2) (M (.defaulted tBool))) (P (.map Joi2 (.deflt tBool))),  -- 38: ASSERT_MODIFIER_MODULO_OPERABLE_R(P{}, defaulted<bool>,(defaulted_parser<P, bool>{}))
    .parsersEq (tCall (M (.defaulted tBool)) [(P Joi3)]) (P (.map Joi3 (.deflt tBool))),  -- 38: ASSERT_MODIFIER_CALLABLE_R(defaulted<bool>,(P{}),(defaulted_parser<P, bool>{}))
    .parsersEq (tMod (P Joi3) (M (.defaulted tBool))) (P (.map Joi3 (.deflt tBool))),  -- 38: ASSERT_MODIFIER_MODULO_OPERABLE_R(P{}, defaulted<bool>,(defaulted_parser<P, bool>{}))
    .parsersEq (tCall (M (.defaulted tBool)) [(P Joi4)]) (P (.map Joi4 (.deflt tBool))),  -- 38: ASSERT_MODIFIER_CALLABLE_R(defaulted<bool>,(P{}),(defaulted_parser<P, bool>{}))
    .parsersEq (tMod (P Joi4) (M (.defaulted tBool))) (P (.map Joi4 (.deflt tBool))),  -- 38: ASSERT_MODIFIER_MODULO_OPERABLE_R(P{}, defaulted<bool>,(defaulted_parser<P, bool>{}))
    .parsersEq (tCall (M (.defaulted tBool)) [(P Joi5)]) (P (.map Joi5 (.deflt tBool))),  -- 38: ASSERT_MODIFIER_CALLABLE_R(defaulted<bool>,(P{}),(defaulted_parser<P, bool>{}))
    .parsersEq (tMod (P Joi5) (M (.defaulted tBool))) (P (.map Joi5 (.deflt tBool))),  -- 38: ASSERT_MODIFIER_MODULO_OPERABLE_R(P{}, defaulted<bool>,(defaulted_parser<P, bool>{}))
    .parsersEq (tCall (M (.defaulted tBool)) [(P Map1)]) (P (.map Map1 (.deflt tBool))),  -- 38: ASSERT_MODIFIER_CALLABLE_R(defaulted<bool>,(P{}),(defaulted_parser<P, bool>{}))
    .parsersEq (tMod (P Map1) (M (.defaulted tBool))) (P (.map Map1 (.deflt tBool))),  -- 38: ASSERT_MODIFIER_MODULO_OPERABLE_R(P{}, defaulted<bool>,(defaulted_parser<P, bool>{}))
    .parsersEq (tCall (M (.defaulted tBool)) [(P Map2)]) (P (.map Map2 (.deflt tBool))),  -- 38: ASSERT_MODIFIER_CALLABLE_R(defaulted<bool>,(P{}),(defaulted_parser<P, bool>{}))
    .parsersEq (tMod (P Map2) (M (.defaulted tBool))) (P (.map Map2 (.deflt tBool))),  -- 38: ASSERT_MODIFIER_MODULO_OPERABLE_R(P{}, defaulted<bool>,(defaulted_parser<P, bool>{}))
    .parsersEq (tCall (M (.defaulted tBool)) [(P Map3)]) (P (.map Map3 (.deflt tBool))),  -- 38: ASSERT_MODIFIER_CALLABLE_R(defaulted<bool>,(P{}),(defaulted_parser<P, bool>{}))
    .parsersEq (tMod (P Map3) (M (.defaulted tBool))) (P (.map Map3 (.deflt tBool))),  -- 38: ASSERT_MODIFIER_MODULO_OPERABLE_R(P{}, defaulted<bool>,(defaulted_parser<P, bool>{}))
    .parsersEq (tCall (M (.defaulted tBool)) [(P Map4)]) (P (.map Map4 (.deflt tBool))),  -- 38: ASSERT_MODIFIER_CALLABLE_R(defaulted<bool>,(P{}),(defaulted_parser<P, bool>{}))
    .parsersEq (tMod (P Map4) (M (.defaulted tBool))) (P (.map Map4 (.deflt tBool))),  -- 38: ASSERT_MODIFIER_MODULO_OPERABLE_R(P{}, defaulted<bool>,(defaulted_parser<P, bool>{}))
    .parsersEq (tCall (M (.defaulted tBool)) [(P Fil1)]) (P (.map Fil1 (.deflt tBool))),  -- 38: ASSERT_MODIFIER_CALLABLE_R(defaulted<bool>,(P{}),(defaulted_parser<P, bool>{}))
    .parsersEq (tMod (P Fil1) (M (.defaulted tBool))) (P (.map Fil1 (.deflt tBool))),  -- 38: ASSERT_MODIFIER_MODULO_OPERABLE_R(P{}, defaulted<bool>,(defaulted_parser<P, bool>{}))
    .parsersEq (tCall (M (.defaulted tBool)) [(P Fil2)]) (P (.map Fil2 (.deflt tBool))),  -- 38: ASSERT_MODIFIER_CALLABLE_R(defaulted<bool>,(P{}),(defaulted_parser<P, bool>{}))
    .parsersEq (tMod (P Fil2) (M (.defaulted tBool))) (P (.map Fil2 (.deflt tBool))),  -- 38: ASSERT_MODIFIER_MODULO_OPERABLE_R(P{}, defaulted<bool>,(defaulted_parser<P, bool>{}))
    .parsersEq (tCall (M (.defaulted tBool)) [(P Fil3)]) (P (.map Fil3 (.deflt tBool))),  -- 38: ASSERT_MODIFIER_CALLABLE_R(defaulted<bool>,(P{}),(defaulted_parser<P, bool>{}))
    .parsersEq (tMod (P Fil3) (M (.defaulted tBool))) (P (.map Fil3 (.deflt tBool))),  -- 38: ASSERT_MODIFIER_MODULO_OPERABLE_R(P{}, defaulted<bool>,(defaulted_parser<P, bool>{}))
    .parsersEq (tCall (M (.defaulted tBool)) [(P Apm1)]) (P (.map Apm1 (.deflt tBool))),  -- 38: ASSERT_MODIFIER_CALLABLE_R(defaulted<bool>,(P{}),(defaulted_parser<P, bool>{}))
    .parsersEq (tMod (P Apm1) (M (.defaulted tBool))) (P (.map Apm1 (.deflt tBool))),  -- 38: ASSERT_MODIFIER_MODULO_OPERABLE_R(P{}, defaulted<bool>,(defaulted_parser<P, bool>{}))
    .parsersEq (tCall (M (.defaulted tBool)) [(P Apm2)]) (P (.map Apm2 (.deflt tBool))),  -- 38: ASSERT_MODIFIER_CALLABLE_R(defaulted<bool>,(P{}),(defaulted_parser<P, bool>{}))
    .parsersEq (tMod (P Apm2) (M (.defaulted tBool))) (P (.map Apm2 (.deflt tBool))),  -- 38: ASSERT_MODIFIER_MODULO_OPERABLE_R(P{}, defaulted<bool>,(defaulted_parser<P, bool>{}))
    .parsersEq (tCall (M (.defaulted tBool)) [(P Apf1)]) (P (.map Apf1 (.deflt tBool))),  -- 38: ASSERT_MODIFIER_CALLABLE_R(defaulted<bool>,(P{}),(defaulted_parser<P, bool>{}))
    .parsersEq (tMod (P Apf1) (M (.defaulted tBool))) (P (.map Apf1 (.deflt tBool)))  -- 38: ASSERT_MODIFIER_MODULO_OPERABLE_R(P{}, defaulted<bool>,(defaulted_parser<P, bool>{}))
    ], Assertion.Holds a :=
  Assertion.holds_of_check (by decide +kernel)

/-- defaulted modifier / modify anything (tests/char-tests/modifiers/defaulted.cpp:38) -/
theorem charModifiersDefaulted_3_3 : ∀ a ∈ [
    .parsersEq (tCall (M (.defaulted tBool)) [(P Int1)]) (P (.map Int1 (.deflt tBool))),  -- 38: ASSERT_MODIFIER_CALLABLE_R(defaulted<bool>,(P{}),(defaulted_parser<P, bool>{}))
    .parsersEq (tMod (P Int1) (M (.defaulted tBool))) (P (.map Int1 (.deflt tBool))),  -- 38: ASSERT_MODIFIER_MODULO_OPERABLE_R(P{}, defaulted<bool>,(defaulted_parser<P, bool>{}))
    .parsersEq (tCall (M (.defaulted tBool)) [(P Int2)]) (P (.map Int2 (.deflt tBool))),  -- 38: ASSERT_MODIFIER_CALLABLE_R(defaulted<bool>,(P{}),(defaulted_parser<P, bool>{}))
    .parsersEq (tMod (P Int2) (M (.defaulted tBool))) (P (.map Int2 (.deflt tBool))),  -- 38: ASSERT_MODIFIER_MODULO_OPERABLE_R(P{}, defaulted<bool>,(defaulted_parser<P, bool>{}))
    .parsersEq (tCall (M (.defaulted tBool)) [(P Int3)]) (P (.map Int3 (.deflt tBool))),  -- 38: ASSERT_MODIFIER_CALLABLE_R(defaulted<bool>,(P{}),(defaulted_parser<P, bool>{}))
    .parsersEq (tMod (P Int3) (M (.defaulted tBool))) (P (.map Int3 (.deflt tBool))),  -- 38: ASSERT_MODIFIER_MODULO_OPERABLE_R(P{}, defaulted<bool>,(defaulted_parser<P, bool>{}))
    .parsersEq (tCall (M (.defaulted tBool)) [(P Api1)]) (P (.map Api1 (.deflt tBool))),  -- 38: ASSERT_MODIFIER_CALLABLE_R(defaulted<bool>,(P{}),(defaulted_parser<P, bool>{}))
    .parsersEq (tMod (P Api1) (M (.defaulted tBool))) (P (.map Api1 (.deflt tBool))),  -- 38: ASSERT_MODIFIER_MODULO_OPERABLE_R(P{}, defaulted<bool>,(defaulted_parser<P, bool>{}))
    .parsersEq (tCall (M (.defaulted tBool)) [(P Api2)]) (P (.map Api2 (.deflt tBool))),  -- 38: ASSERT_MODIFIER_CALLABLE_R(defaulted<bool>,(P{}),(defaulted_parser<P, bool>{}))
    .parsersEq (tMod (P Api2) (M (.defaulted tBool))) (P (.map Api2 (.deflt tBool))),  -- 38: ASSERT_MODIFIER_MODULO_OPERABLE_R(P{}, defaulted<bool>,(defaulted_parser<P, bool>{}))
    .parsersEq (tCall (M (.defaulted tBool)) [(P Con1)]) (P (.map Con1 (.deflt tBool))),  -- 38: ASSERT_MODIFIER_CALLABLE_R(defaulted<bool>,(P{}),(defaulted_parser<P, bool>{}))
    .parsersEq (tMod (P Con1) (M (.defaulted tBool))) (P (.map Con1 (.deflt tBool))),  -- 38: ASSERT_MODIFIER_MODULO_OPERABLE_R(P{}, defaulted<bool>,(defaulted_parser<P, bool>{}))
    .parsersEq (tCall (M (.defaulted tBool)) [(P Con2)]) (P (.map Con2 (.deflt tBool))),  -- 38: ASSERT_MODIFIER_CALLABLE_R(defaulted<bool>,(P{}),(defaulted_parser<P, bool>{}))
    .parsersEq (tMod (P Con2) (M (.defaulted tBool))) (P (.map Con2 (.deflt tBool))),  -- 38: ASSERT_MODIFIER_MODULO_OPERABLE_R(P{}, defaulted<bool>,(defaulted_parser<P, bool>{}))
    .parsersEq (tCall (M (.defaulted tBool)) [(P Con3)]) (P (.map Con3 (.deflt tBool))),  -- 38: ASSERT_MODIFIER_CALLABLE_R(defaulted<bool>,(P{}),(defaulted_parser<P, bool>{}))
    .parsersEq (tMod (P Con3) (M (.defaulted tBool))) (P (.map Con3 (.deflt tBool))),  -- 38: ASSERT_MODIFIER_MODULO_OPERABLE_R(P{}, defaulted<bool>,(defaulted_parser<P, bool>{}))
    .parsersEq (tCall (M (.defaulted tBool)) [(P Con4)]) (P (.map Con4 (.deflt tBool))),  -- 38: ASSERT_MODIFIER_CALLABLE_R(defaulted<bool>,(P{}),(defaulted_parser<P, bool>{}))
    .parsersEq (tMod (P Con4) (M (.defaulted tBool))) (P (.map Con4 (.deflt tBool))),  -- 38: ASSERT_MODIFIER_MODULO_OPERABLE_R(P{}, defaulted<bool>,(defaulted_parser<P, bool>{}))
    .parsersEq (tCall (M (.defaulted tBool)) [(P Def1)]) (P (.map Def1 (.deflt tBool))),  -- 38: ASSERT_MODIFIER_CALLABLE_R(defaulted<bool>,(P{}),(defaulted_parser<P, bool>{}))
    .parsersEq (tMod (P Def1) (M (.defaulted tBool))) (P (.map Def1 (.deflt tBool))),  -- 38: ASSERT_MODIFIER_MODULO_OPERABLE_R(P{}, defaulted<bool>,(defaulted_parser<P, bool>{}))
    .parsersEq (tCall (M (.defaulted tBool)) [(P Def2)]) (P (.map Def2 (.deflt tBool))),  -- 38: ASSERT_MODIFIER_CALLABLE_R(defaulted<bool>,(P{}),(defaulted_parser<P, bool>{}))
    .parsersEq (tMod (P Def2) (M (.defaulted tBool))) (P (.map Def2 (.deflt tBool))),  -- 38: ASSERT_MODIFIER_MODULO_OPERABLE_R(P{}, defaulted<bool>,(defaulted_parser<P, bool>{}))
    .parsersEq (tCall (M (.defaulted tBool)) [(P (.custom 0))]) (P (.map (.custom 0) (.deflt tBool))),  -- 38: ASSERT_MODIFIER_CALLABLE_R(defaulted<bool>,(P{}),(defaulted_parser<P, bool>{}))
    .parsersEq (tMod (P (.custom 0)) (M (.defaulted tBool))) (P (.map (.custom 0) (.deflt tBool))),  -- 38: ASSERT_MODIFIER_MODULO_OPERABLE_R(P{}, defaulted<bool>,(defaulted_parser<P, bool>{}))
    .parsersEq (tCall (M (.defaulted tBool)) [(P (.custom 1))]) (P (.map (.custom 1) (.deflt tBool))),  -- 38: ASSERT_MODIFIER_CALLABLE_R(defaulted<bool>,(P{}),(defaulted_parser<P, bool>{}))
    .parsersEq (tMod (P (.custom 1)) (M (.defaulted tBool))) (P (.map (.custom 1) (.deflt tBool))),  -- 38: ASSERT_MODIFIER_MODULO_OPERABLE_R(P{}, defaulted<bool>,(defaulted_parser<P, bool>{}))
    .parsersEq (tCall (M (.defaulted tBool)) [(P May1)]) (P (.map May1 (.deflt tBool))),  -- 38: ASSERT_MODIFIER_CALLABLE_R(defaulted<bool>,(P{}),(defaulted_parser<P, bool>{}))
    .parsersEq (tMod (P May1) (M (.defaulted tBool))) (P (.map May1 (.deflt tBool))),  -- 38: ASSERT_MODIFIER_MODULO_OPERABLE_R(P{}, defaulted<bool>,(defaulted_parser<P, bool>{}))
    .parsersEq (tCall (M (.defaulted tBool)) [(P May2)]) (P (.map May2 (.deflt tBool))),  -- 38: ASSERT_MODIFIER_CALLABLE_R(defaulted<bool>,(P{}),(defaulted_parser<P, bool>{}))
    .parsersEq (tMod (P May2) (M (.defaulted tBool))) (P (.map May2 (.deflt tBool))),  -- 38: ASSERT_MODIFIER_MODULO_OPERABLE_R(P{}, defaulted<bool>,(defaulted_parser<P, bool>{}))
    .parsersEq (tCall (M (.defaulted tBool)) [(P May3)]) (P (.map May3 (.deflt tBool))),  -- 38: ASSERT_MODIFIER_CALLABLE_R(defaulted<bool>,(P{}),(defaulted_parser<P, bool>{}))
    .parsersEq (tMod (P May3) (M (.defaulted tBool))) (P (.map May3 (.deflt tBool))),  -- 38: ASSERT_MODIFIER_MODULO_OPERABLE_R(P{}, defaulted<bool>,(defaulted_parser<P, bool>{}))
    .parsersEq (tCall (M (.defaulted tBool)) [(P May4)]) (P (.map May4 (.deflt tBool))),  -- 38: ASSERT_MODIFIER_CALLABLE_R(defaulted<bool>,(P{}),(defaulted_parser<P, bool>{}))
    .parsersEq (tMod (P May4) (M (.defaulted tBool))) (P (.map May4 (.deflt tBool))),  -- 38: ASSERT_MODIFIER_MODULO_OPERABLE_R(P{}, defaulted<bool>,(defaulted_parser<P, bool>{}))
    .parsersEq (tCall (M (.defaulted tBool)) [(P Exa1)]) (P (.map Exa1 (.deflt tBool))),  -- 38: ASSERT_MODIFIER_CALLABLE_R(defaulted<bool>,(P{}),(defaulted_parser<P, bool>{}))
    .parsersEq (tMod (P Exa1) (M (.defaulted tBool))) (P (.map Exa1 (.deflt tBool))),  -- 38: ASSERT_MODIFIER_MODULO_OPERABLE_R(P{}, defaulted<bool>,(defaulted_parser<P, bool>{}))
    .parsersEq (tCall (M (.defaulted tBool)) [(P Exa2)]) (P (.map Exa2 (.deflt tBool))),  -- 38: ASSERT_MODIFIER_CALLABLE_R(defaulted<bool>,(P{}),(defaulted_parser<P, bool>{}))
    .parsersEq (tMod (P Exa2) (M (.defaulted tBool))) (P (.map Exa2 (.deflt tBool))),  -- 38: ASSERT_MODIFIER_MODULO_OPERABLE_R(P{}, defaulted<bool>,(defaulted_parser<P, bool>{}))
    .parsersEq (tCall (M (.defaulted tBool)) [(P Exa3)]) (P (.map Exa3 (.deflt tBool))),  -- 38: ASSERT_MODIFIER_CALLABLE_R(defaulted<bool>,(P{}),(defaulted_parser<P, bool>{}))
    .parsersEq (tMod (P Exa3) (M (.defaulted tBool))) (P (.map Exa3 (.deflt tBool))),  -- 38: ASSERT_MODIFIER_MODULO_OPERABLE_R(P{}, defaulted<bool>,(defaulted_parser<P, bool>{}))
    .parsersEq (tCall (M (.defaulted tBool)) [(P Exa4)]) (P (.map Exa4 (.deflt tBool))),  -- 38: ASSERT_MODIFIER_CALLABLE_R(defaulted<bool>,(P{}),(defaulted_parser<P, bool>{}))
    .parsersEq (tMod (P Exa4) (M (.defaulted tBool))) (P (.map Exa4 (.deflt tBool))),  -- 38: ASSERT_MODIFIER_MODULO_OPERABLE_R(P{}, defaulted<bool>,(defaulted_parser<P, bool>{}))
    .parsersEq (tCall (M (.defaulted tBool)) [(P Oom1)]) (P (.map Oom1 (.deflt tBool))),  -- 38: ASSERT_MODIFIER_CALLABLE_R(defaulted<bool>,(P{}),(defaulted_parser<P, bool>{}))
    .parsersEq (tMod (P Oom1) (M (.defaulted tBool))) (P (.map Oom1 (.deflt tBool))),  -- 38: ASSERT_MODIFIER_MODULO_OPERABLE_R(P{}, defaulted<bool>,(defaulted_parser<P, bool>{}))
    .parsersEq (tCall (M (.defaulted tBool)) [(P Oom2)]) (P (.map Oom2 (.deflt tBool))),  -- 38: ASSERT_MODIFIER_CALLABLE_R(defaulted<bool>,(P{}),(defaulted_parser<P, bool>{}))
    .parsersEq (tMod (P Oom2) (M (.defaulted tBool))) (P (.map Oom2 (.deflt tBool))),  -- 38: ASSERT_MODIFIER_MODULO_OPERABLE_R(P{}, defaulted<bool>,(defaulted_parser<P, bool>{}))
    .parsersEq (tCall (M (.defaulted tBool)) [(P Oom3)]) (P (.map Oom3 (.deflt tBool))),  -- 38: ASSERT_MODIFIER_CALLABLE_R(defaulted<bool>,(P{}),(defaulted_parser<P, bool>{}))
    .parsersEq (tMod (P Oom3) (M (.defaulted tBool))) (P (.map Oom3 (.deflt tBool))),  -- 38: ASSERT_MODIFIER_MODULO_OPERABLE_R(P{}, defaulted<bool>,(defaulted_parser<P, bool>{}))
    .parsersEq (tCall (M (.defaulted tBool)) [(P Oom4)]) (P (.map Oom4 (.deflt tBool))),  -- 38: ASSERT_MODIFIER_CALLABLE_R(defaulted<bool>,(P{}),(defaulted_parser<P, bool>{}))
    .parsersEq (tMod (P Oom4) (M (.defaulted tBool))) (P (.map Oom4 (.deflt tBool))),  -- 38: ASSERT_MODIFIER_MODULO_OPERABLE_R(P{}, defaulted<bool>,(defaulted_parser<P, bool>{}))
    .parsersEq (tCall (M (.defaulted tBool)) [(P Zom1)]) (P (.map Zom1 (.deflt tBool))),  -- 38: ASSERT_MODIFIER_CALLABLE_R(defaulted<bool>,(P{}),(defaulted_parser<P, bool>{}))
    .parsersEq (tMod (P Zom1) (M (.defaulted tBool))) (P (.map Zom1 (.deflt tBool))),  -- 38: ASSERT_MODIFIER_MODULO_OPERABLE_R(P{}, defaulted<bool>,(defaulted_parser<P, bool>{}))
    .parsersEq (tCall (M (.defaulted tBool)) [(P Zom2)]) (P (.map Zom2 (.deflt tBool))),  -- 38: ASSERT_MODIFIER_CALLABLE_R(defaulted<bool>,(P{}),(defaulted_parser<P, bool>{}))
    .parsersEq (tMod (P Zom2) (M (.defaulted tBool))) (P (.map Zom2 (.deflt tBool))),  -- 38: ASSERT_MODIFIER_MODULO_OPERABLE_R(P{}, defaulted<bool>,(defaulted_parser<P, bool>{}))
    .parsersEq (tCall (M (.defaulted tBool)) [(P Zom3)]) (P (.map Zom3 (.deflt tBool))),  -- 38: ASSERT_MODIFIER_CALLABLE_R(defaulted<bool>,(P{}),(defaulted_parser<P, bool>{}))
    .parsersEq (tMod (P Zom3) (M (.defaulted tBool))) (P (.map Zom3 (.deflt tBool))),  -- 38: ASSERT_MODIFIER_MODULO_OPERABLE_R(P{}, defaulted<bool>,(defaulted_parser<P, bool>{}))
    .parsersEq (tCall (M (.defaulted tBool)) [(P Zom4)]) (P (.map Zom4 (.deflt tBool))),  -- 38: ASSERT_MODIFIER_CALLABLE_R(defaulted<bool>,(P{}),(defaulted_parser<P, bool>{}))
    .parsersEq (tMod (P Zom4) (M (.defaulted tBool))) (P (.map Zom4 (.deflt tBool))),  -- 38: ASSERT_MODIFIER_MODULO_OPERABLE_R(P{}, defaulted<bool>,(defaulted_parser<P, bool>{}))
    .parsersEq (tCall (M (.defaulted tBool)) [(P Del1)]) (P (.map Del1 (.deflt tBool))),  -- 38: ASSERT_MODIFIER_CALLABLE_R(defaulted<bool>,(P{}),(defaulted_parser<P, bool>{}))
    .parsersEq (tMod (P Del1) (M (.defaulted tBool))) (P (.map Del1 (.deflt tBool)))  -- 38: ASSERT_MODIFIER_MODULO_OPERABLE_R(P{}, defaulted<bool>,(defaulted_parser<P, bool>{}))
    ], Assertion.Holds a :=
  Assertion.holds_of_check (by decide +kernel)

/-- defaulted modifier / modify anything (tests/char-tests/modifiers/defaulted.cpp:38) -/
theorem charModifiersDefaulted_3_4 : ∀ a ∈ [
    .parsersEq (tCall (M (.defaulted tBool)) [(P Del2)]) (P (.map Del2 (.deflt tBool))),  -- 38: ASSERT_MODIFIER_CALLABLE_R(defaulted<bool>,(P{}),(defaulted_parser<P, bool>{}))
    .parsersEq (tMod (P Del2) (M (.defaulted tBool))) (P (.map Del2 (.deflt tBool))),  -- 38: ASSERT_MODIFIER_MODULO_OPERABLE_R(P{}, defaulted<bool>,(defaulted_parser<P, bool>{}))
    .parsersEq (tCall (M (.defaulted tBool)) [(P Del3)]) (P (.map Del3 (.deflt tBool))),  -- 38: ASSERT_MODIFIER_CALLABLE_R(defaulted<bool>,(P{}),(defaulted_parser<P, bool>{}))
    .parsersEq (tMod (P Del3) (M (.defaulted tBool))) (P (.map Del3 (.deflt tBool))),  -- 38: ASSERT_MODIFIER_MODULO_OPERABLE_R(P{}, defaulted<bool>,(defaulted_parser<P, bool>{}))
    .parsersEq (tCall (M (.defaulted tBool)) [(P Del4)]) (P (.map Del4 (.deflt tBool))),  -- 38: ASSERT_MODIFIER_CALLABLE_R(defaulted<bool>,(P{}),(defaulted_parser<P, bool>{}))
    .parsersEq (tMod (P Del4) (M (.defaulted tBool))) (P (.map Del4 (.deflt tBool))),  -- 38: ASSERT_MODIFIER_MODULO_OPERABLE_R(P{}, defaulted<bool>,(defaulted_parser<P, bool>{}))
    .parsersEq (tCall (M (.defaulted tBool)) [(P Del5)]) (P (.map Del5 (.deflt tBool))),  -- 38: ASSERT_MODIFIER_CALLABLE_R(defaulted<bool>,(P{}),(defaulted_parser<P, bool>{}))
    .parsersEq (tMod (P Del5) (M (.defaulted tBool))) (P (.map Del5 (.deflt tBool))),  -- 38: ASSERT_MODIFIER_MODULO_OPERABLE_R(P{}, defaulted<bool>,(defaulted_parser<P, bool>{}))
    .parsersEq (tCall (M (.defaulted tBool)) [(P Del6)]) (P (.map Del6 (.deflt tBool))),  -- 38: ASSERT_MODIFIER_CALLABLE_R(defaulted<bool>,(P{}),(defaulted_parser<P, bool>{}))
    .parsersEq (tMod (P Del6) (M (.defaulted tBool))) (P (.map Del6 (.deflt tBool))),  -- 38: ASSERT_MODIFIER_MODULO_OPERABLE_R(P{}, defaulted<bool>,(defaulted_parser<P, bool>{}))
    .parsersEq (tCall (M (.defaulted tBool)) [(P Del7)]) (P (.map Del7 (.deflt tBool))),  -- 38: ASSERT_MODIFIER_CALLABLE_R(defaulted<bool>,(P{}),(defaulted_parser<P, bool>{}))
    .parsersEq (tMod (P Del7) (M (.defaulted tBool))) (P (.map Del7 (.deflt tBool))),  -- 38: ASSERT_MODIFIER_MODULO_OPERABLE_R(P{}, defaulted<bool>,(defaulted_parser<P, bool>{}))
    .parsersEq (tCall (M (.defaulted tBool)) [(P Del8)]) (P (.map Del8 (.deflt tBool))),  -- 38: ASSERT_MODIFIER_CALLABLE_R(defaulted<bool>,(P{}),(defaulted_parser<P, bool>{}))
    .parsersEq (tMod (P Del8) (M (.defaulted tBool))) (P (.map Del8 (.deflt tBool))),  -- 38: ASSERT_MODIFIER_MODULO_OPERABLE_R(P{}, defaulted<bool>,(defaulted_parser<P, bool>{}))
    .parsersEq (tCall (M (.defaulted tBool)) [(P Dek1)]) (P (.map Dek1 (.deflt tBool))),  -- 38: ASSERT_MODIFIER_CALLABLE_R(defaulted<bool>,(P{}),(defaulted_parser<P, bool>{}))
    .parsersEq (tMod (P Dek1) (M (.defaulted tBool))) (P (.map Dek1 (.deflt tBool))),  -- 38: ASSERT_MODIFIER_MODULO_OPERABLE_R(P{}, defaulted<bool>,(defaulted_parser<P, bool>{}))
    .parsersEq (tCall (M (.defaulted tBool)) [(P Dek2)]) (P (.map Dek2 (.deflt tBool))),  -- 38: ASSERT_MODIFIER_CALLABLE_R(defaulted<bool>,(P{}),(defaulted_parser<P, bool>{}))
    .parsersEq (tMod (P Dek2) (M (.defaulted tBool))) (P (.map Dek2 (.deflt tBool))),  -- 38: ASSERT_MODIFIER_MODULO_OPERABLE_R(P{}, defaulted<bool>,(defaulted_parser<P, bool>{}))
    .parsersEq (tCall (M (.defaulted tBool)) [(P Dek3)]) (P (.map Dek3 (.deflt tBool))),  -- 38: ASSERT_MODIFIER_CALLABLE_R(defaulted<bool>,(P{}),(defaulted_parser<P, bool>{}))
    .parsersEq (tMod (P Dek3) (M (.defaulted tBool))) (P (.map Dek3 (.deflt tBool))),  -- 38: ASSERT_MODIFIER_MODULO_OPERABLE_R(P{}, defaulted<bool>,(defaulted_parser<P, bool>{}))
    .parsersEq (tCall (M (.defaulted tBool)) [(P Dek4)]) (P (.map Dek4 (.deflt tBool))),  -- 38: ASSERT_MODIFIER_CALLABLE_R(defaulted<bool>,(P{}),(defaulted_parser<P, bool>{}))
    .parsersEq (tMod (P Dek4) (M (.defaulted tBool))) (P (.map Dek4 (.deflt tBool))),  -- 38: ASSERT_MODIFIER_MODULO_OPERABLE_R(P{}, defaulted<bool>,(defaulted_parser<P, bool>{}))
    .parsersEq (tCall (M (.defaulted tBool)) [(P Dek5)]) (P (.map Dek5 (.deflt tBool))),  -- 38: ASSERT_MODIFIER_CALLABLE_R(defaulted<bool>,(P{}),(defaulted_parser<P, bool>{}))
    .parsersEq (tMod (P Dek5) (M (.defaulted tBool))) (P (.map Dek5 (.deflt tBool))),  -- 38: ASSERT_MODIFIER_MODULO_OPERABLE_R(P{}, defaulted<bool>,(defaulted_parser<P, bool>{}))
    .parsersEq (tCall (M (.defaulted tBool)) [(P Dek6)]) (P (.map Dek6 (.deflt tBool))),  -- 38: ASSERT_MODIFIER_CALLABLE_R(defaulted<bool>,(P{}),(defaulted_parser<P, bool>{}))
    .parsersEq (tMod (P Dek6) (M (.defaulted tBool))) (P (.map Dek6 (.deflt tBool))),  -- 38: ASSERT_MODIFIER_MODULO_OPERABLE_R(P{}, defaulted<bool>,(defaulted_parser<P, bool>{}))
    .parsersEq (tCall (M (.defaulted tBool)) [(P Dek7)]) (P (.map Dek7 (.deflt tBool))),  -- 38: ASSERT_MODIFIER_CALLABLE_R(defaulted<bool>,(P{}),(defaulted_parser<P, bool>{}))
    .parsersEq (tMod (P Dek7) (M (.defaulted tBool))) (P (.map Dek7 (.deflt tBool))),  -- 38: ASSERT_MODIFIER_MODULO_OPERABLE_R(P{}, defaulted<bool>,(defaulted_parser<P, bool>{}))
    .parsersEq (tCall (M (.defaulted tBool)) [(P Dek8)]) (P (.map Dek8 (.deflt tBool))),  -- 38: ASSERT_MODIFIER_CALLABLE_R(defaulted<bool>,(P{}),(defaulted_parser<P, bool>{}))
    .parsersEq (tMod (P Dek8) (M (.defaulted tBool))) (P (.map Dek8 (.deflt tBool)))  -- 38: ASSERT_MODIFIER_MODULO_OPERABLE_R(P{}, defaulted<bool>,(defaulted_parser<P, bool>{}))
    ], Assertion.Holds a :=
  Assertion.holds_of_check (by decide +kernel)

end Tok3n.Tests
