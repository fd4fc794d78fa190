import Verif.Tests.Gen.SamplesChar
/- Generated by tools/tests2lean.py from tests/char-tests/modifiers/apply_into.cpp. -/

namespace Tok3n.Tests

/-- apply_into modifier / prefix (tests/char-tests/modifiers/apply_into.cpp:14) -/
theorem charModifiersApplyInto_1 : ∀ a ∈ [
    .parsersEq (P Api1) (tCall (M (.applyInto tClass2)) [(tThen (P ABC) (P SpaceDot))]),  -- 14: ASSERT_PARSER_VALUES_EQ(api1, apply_into<Class2>(abc>> spacedot))
    .parsersEq (P Api2) (tCall (M (.applyInto tClass5)) [(tThen (P SpaceDot) (P ABC))])  -- 15: ASSERT_PARSER_VALUES_EQ(api2, apply_into<Class5>(spacedot>> abc))
    ], Assertion.Holds a :=
  Assertion.holds_of_check (by decide +kernel)

/-- apply_into modifier / infix (tests/char-tests/modifiers/apply_into.cpp:20) -/
theorem charModifiersApplyInto_2 : ∀ a ∈ [
    .parsersEq (P Api1) (tMod (tThen (P ABC) (P SpaceDot)) (M (.applyInto tClass2))),  -- 20: ASSERT_PARSER_VALUES_EQ(api1,(abc>> spacedot) % apply_into<Class2>)
    .parsersEq (P Api2) (tMod (tThen (P SpaceDot) (P ABC)) (M (.applyInto tClass5)))  -- 21: ASSERT_PARSER_VALUES_EQ(api2,(spacedot>> abc) % apply_into<Class5>)
    ], Assertion.Holds a :=
  Assertion.holds_of_check (by decide +kernel)

/-- apply_into modifier / modify anything (tests/char-tests/modifiers/apply_into.cpp:42) -/
theorem charModifiersApplyInto_3_1 : ∀ a ∈ [
    .parsersEq (tCall (M (.applyInto tSink)) [(P Ign1)]) (P (.map Ign1 (.apply (.construct tSink)))),  -- 42: DEP_ASSERT_MODIFIER_CALLABLE_R(apply_into<Sink>,(PP{}),(apply_into_parser<PP, Sink>{}), apply_into<Sink>,(P{}),(apply_into_parser<P, Sink>{}))
    .parsersEq (tMod (P Ign1) (M (.applyInto tSink))) (P (.map Ign1 (.apply (.construct tSink)))),  -- 42: DEP_ASSERT_MODIFIER_MODULO_OPERABLE_R(PP{}, apply_into<Sink>,(apply_into_parser<PP, Sink>{}), P{}, apply_into<Sink>,(apply_into_parser<P, Sink>{}))
    .parsersEq (tCall (M (.applyInto tSink)) [(P Ign2)]) (P (.map Ign2 (.apply (.construct tSink)))),  -- 42: DEP_ASSERT_MODIFIER_CALLABLE_R(apply_into<Sink>,(PP{}),(apply_into_parser<PP, Sink>{}), apply_into<Sink>,(P{}),(apply_into_parser<P, Sink>{}))
    .parsersEq (tMod (P Ign2) (M (.applyInto tSink))) (P (.map Ign2 (.apply (.construct tSink)))),  -- 42: DEP_ASSERT_MODIFIER_MODULO_OPERABLE_R(PP{}, apply_into<Sink>,(apply_into_parser<PP, Sink>{}), P{}, apply_into<Sink>,(apply_into_parser<P, Sink>{}))
    .parsersEq (tCall (M (.applyInto tSink)) [(P Ign3)]) (P (.map Ign3 (.apply (.construct tSink)))),  -- 42: DEP_ASSERT_MODIFIER_CALLABLE_R(apply_into<Sink>,(PP{}),(apply_into_parser<PP, Sink>{}), apply_into<Sink>,(P{}),(apply_into_parser<P, Sink>{}))
    .parsersEq (tMod (P Ign3) (M (.applyInto tSink))) (P (.map Ign3 (.apply (.construct tSink)))),  -- 42: DEP_ASSERT_MODIFIER_MODULO_OPERABLE_R(PP{}, apply_into<Sink>,(apply_into_parser<PP, Sink>{}), P{}, apply_into<Sink>,(apply_into_parser<P, Sink>{}))
    .parsersEq (tCall (M (.applyInto tSink)) [(P Ign4)]) (P (.map Ign4 (.apply (.construct tSink)))),  -- 42: DEP_ASSERT_MODIFIER_CALLABLE_R(apply_into<Sink>,(PP{}),(apply_into_parser<PP, Sink>{}), apply_into<Sink>,(P{}),(apply_into_parser<P, Sink>{}))
    .parsersEq (tMod (P Ign4) (M (.applyInto tSink))) (P (.map Ign4 (.apply (.construct tSink)))),  -- 42: DEP_ASSERT_MODIFIER_MODULO_OPERABLE_R(PP{}, apply_into<Sink>,(apply_into_parser<PP, Sink>{}), P{}, apply_into<Sink>,(apply_into_parser<P, Sink>{}))
    .parsersEq (tCall (M (.applyInto tSink)) [(P Ign5)]) (P (.map Ign5 (.apply (.construct tSink)))),  -- 42: DEP_ASSERT_MODIFIER_CALLABLE_R(apply_into<Sink>,(PP{}),(apply_into_parser<PP, Sink>{}), apply_into<Sink>,(P{}),(apply_into_parser<P, Sink>{}))
    .parsersEq (tMod (P Ign5) (M (.applyInto tSink))) (P (.map Ign5 (.apply (.construct tSink)))),  -- 42: DEP_ASSERT_MODIFIER_MODULO_OPERABLE_R(PP{}, apply_into<Sink>,(apply_into_parser<PP, Sink>{}), P{}, apply_into<Sink>,(apply_into_parser<P, Sink>{}))
    .parsersEq (tCall (M (.applyInto tSink)) [(P Com1)]) (P (.map Com1 (.apply (.construct tSink)))),  -- 42: DEP_ASSERT_MODIFIER_CALLABLE_R(apply_into<Sink>,(PP{}),(apply_into_parser<PP, Sink>{}), apply_into<Sink>,(P{}),(apply_into_parser<P, Sink>{}))
    .parsersEq (tMod (P Com1) (M (.applyInto tSink))) (P (.map Com1 (.apply (.construct tSink)))),  -- 42: DEP_ASSERT_MODIFIER_MODULO_OPERABLE_R(PP{}, apply_into<Sink>,(apply_into_parser<PP, Sink>{}), P{}, apply_into<Sink>,(apply_into_parser<P, Sink>{}))
    .parsersEq (tCall (M (.applyInto tSink)) [(P Com2)]) (P (.map Com2 (.apply (.construct tSink)))),  -- 42: DEP_ASSERT_MODIFIER_CALLABLE_R(apply_into<Sink>,(PP{}),(apply_into_parser<PP, Sink>{}), apply_into<Sink>,(P{}),(apply_into_parser<P, Sink>{}))
    .parsersEq (tMod (P Com2) (M (.applyInto tSink))) (P (.map Com2 (.apply (.construct tSink)))),  -- 42: DEP_ASSERT_MODIFIER_MODULO_OPERABLE_R(PP{}, apply_into<Sink>,(apply_into_parser<PP, Sink>{}), P{}, apply_into<Sink>,(apply_into_parser<P, Sink>{}))
    .parsersEq (tCall (M (.applyInto tSink)) [(P Com3)]) (P (.map Com3 (.apply (.construct tSink)))),  -- 42: DEP_ASSERT_MODIFIER_CALLABLE_R(apply_into<Sink>,(PP{}),(apply_into_parser<PP, Sink>{}), apply_into<Sink>,(P{}),(apply_into_parser<P, Sink>{}))
    .parsersEq (tMod (P Com3) (M (.applyInto tSink))) (P (.map Com3 (.apply (.construct tSink)))),  -- 42: DEP_ASSERT_MODIFIER_MODULO_OPERABLE_R(PP{}, apply_into<Sink>,(apply_into_parser<PP, Sink>{}), P{}, apply_into<Sink>,(apply_into_parser<P, Sink>{}))
    .parsersEq (tCall (M (.applyInto tSink)) [(P Com4)]) (P (.map Com4 (.apply (.construct tSink)))),  -- 42: DEP_ASSERT_MODIFIER_CALLABLE_R(apply_into<Sink>,(PP{}),(apply_into_parser<PP, Sink>{}), apply_into<Sink>,(P{}),(apply_into_parser<P, Sink>{}))
    .parsersEq (tMod (P Com4) (M (.applyInto tSink))) (P (.map Com4 (.apply (.construct tSink)))),  -- 42: DEP_ASSERT_MODIFIER_MODULO_OPERABLE_R(PP{}, apply_into<Sink>,(apply_into_parser<PP, Sink>{}), P{}, apply_into<Sink>,(apply_into_parser<P, Sink>{}))
    .parsersEq (tCall (M (.applyInto tSink)) [(P Com5)]) (P (.map Com5 (.apply (.construct tSink)))),  -- 42: DEP_ASSERT_MODIFIER_CALLABLE_R(apply_into<Sink>,(PP{}),(apply_into_parser<PP, Sink>{}), apply_into<Sink>,(P{}),(apply_into_parser<P, Sink>{}))
    .parsersEq (tMod (P Com5) (M (.applyInto tSink))) (P (.map Com5 (.apply (.construct tSink)))),  -- 42: DEP_ASSERT_MODIFIER_MODULO_OPERABLE_R(PP{}, apply_into<Sink>,(apply_into_parser<PP, Sink>{}), P{}, apply_into<Sink>,(apply_into_parser<P, Sink>{}))
    .parsersEq (tCall (M (.applyInto tSink)) [(P Com6)]) (P (.map Com6 (.apply (.construct tSink)))),  -- 42: DEP_ASSERT_MODIFIER_CALLABLE_R(apply_into<Sink>,(PP{}),(apply_into_parser<PP, Sink>{}), apply_into<Sink>,(P{}),(apply_into_parser<P, Sink>{}))
    .parsersEq (tMod (P Com6) (M (.applyInto tSink))) (P (.map Com6 (.apply (.construct tSink)))),  -- 42: DEP_ASSERT_MODIFIER_MODULO_OPERABLE_R(PP{}, apply_into<Sink>,(apply_into_parser<PP, Sink>{}), P{}, apply_into<Sink>,(apply_into_parser<P, Sink>{}))
    .parsersEq (tCall (M (.applyInto tSink)) [(P Com7)]) (P (.map Com7 (.apply (.construct tSink)))),  -- 42: DEP_ASSERT_MODIFIER_CALLABLE_R(apply_into<Sink>,(PP{}),(apply_into_parser<PP, Sink>{}), apply_into<Sink>,(P{}),(apply_into_parser<P, Sink>{}))
    .parsersEq (tMod (P Com7) (M (.applyInto tSink))) (P (.map Com7 (.apply (.construct tSink)))),  -- 42: DEP_ASSERT_MODIFIER_MODULO_OPERABLE_R(PP{}, apply_into<Sink>,(apply_into_parser<PP, Sink>{}), P{}, apply_into<Sink>,(apply_into_parser<P, Sink>{}))
    .parsersEq (tCall (M (.applyInto tSink)) [(P Nam1)]) (P (.map Nam1 (.apply (.construct tSink)))),  -- 42: DEP_ASSERT_MODIFIER_CALLABLE_R(apply_into<Sink>,(PP{}),(apply_into_parser<PP, Sink>{}), apply_into<Sink>,(P{}),(apply_into_parser<P, Sink>{}))
    .parsersEq (tMod (P Nam1) (M (.applyInto tSink))) (P (.map Nam1 (.apply (.construct tSink)))),  -- 42: DEP_ASSERT_MODIFIER_MODULO_OPERABLE_R(PP{}, apply_into<Sink>,(apply_into_parser<PP, Sink>{}), P{}, apply_into<Sink>,(apply_into_parser<P, Sink>{}))
    .parsersEq (tCall (M (.applyInto tSink)) [(P Nam2)]) (P (.map Nam2 (.apply (.construct tSink)))),  -- 42: DEP_ASSERT_MODIFIER_CALLABLE_R(apply_into<Sink>,(PP{}),(apply_into_parser<PP, Sink>{}), apply_into<Sink>,(P{}),(apply_into_parser<P, Sink>{}))
    .parsersEq (tMod (P Nam2) (M (.applyInto tSink))) (P (.map Nam2 (.apply (.construct tSink)))),  -- 42: DEP_ASSERT_MODIFIER_MODULO_OPERABLE_R(PP{}, apply_into<Sink>,(apply_into_parser<PP, Sink>{}), P{}, apply_into<Sink>,(apply_into_parser<P, Sink>{}))
    .parsersEq (tCall (M (.applyInto tSink)) [(P Nam3)]) (P (.map Nam3 (.apply (.construct tSink)))),  -- 42: DEP_ASSERT_MODIFIER_CALLABLE_R(apply_into<Sink>,(PP{}),(apply_into_parser<PP, Sink>{}), apply_into<Sink>,(P{}),(apply_into_parser<P, Sink>{}))
    .parsersEq (tMod (P Nam3) (M (.applyInto tSink))) (P (.map Nam3 (.apply (.construct tSink)))),  -- 42: DEP_ASSERT_MODIFIER_MODULO_OPERABLE_R(PP{}, apply_into<Sink>,(apply_into_parser<PP, Sink>{}), P{}, apply_into<Sink>,(apply_into_parser<P, Sink>{}))
    .parsersEq (tCall (M (.applyInto tSink)) [(P Nam4)]) (P (.map Nam4 (.apply (.construct tSink)))),  -- 42: DEP_ASSERT_MODIFIER_CALLABLE_R(apply_into<Sink>,(PP{}),(apply_into_parser<PP, Sink>{}), apply_into<Sink>,(P{}),(apply_into_parser<P, Sink>{}))
    .parsersEq (tMod (P Nam4) (M (.applyInto tSink))) (P (.map Nam4 (.apply (.construct tSink)))),  -- 42: DEP_ASSERT_MODIFIER_MODULO_OPERABLE_R(PP{}, apply_into<Sink>,(apply_into_parser<PP, Sink>{}), P{}, apply_into<Sink>,(apply_into_parser<P, Sink>{}))
    .parsersEq (tCall (M (.applyInto tSink)) [(P Any1)]) (P (.map Any1 (.apply (.construct tSink)))),  -- 42: DEP_ASSERT_MODIFIER_CALLABLE_R(apply_into<Sink>,(PP{}),(apply_into_parser<PP, Sink>{}), apply_into<Sink>,(P{}),(apply_into_parser<P, Sink>{}))
    .parsersEq (tMod (P Any1) (M (.applyInto tSink))) (P (.map Any1 (.apply (.construct tSink)))),  -- 42: DEP_ASSERT_MODIFIER_MODULO_OPERABLE_R(PP{}, apply_into<Sink>,(apply_into_parser<PP, Sink>{}), P{}, apply_into<Sink>,(apply_into_parser<P, Sink>{}))
    .parsersEq (tCall (M (.applyInto tSink)) [(P Any2)]) (P (.map Any2 (.apply (.construct tSink)))),  -- 42: DEP_ASSERT_MODIFIER_CALLABLE_R(apply_into<Sink>,(PP{}),(apply_into_parser<PP, Sink>{}), apply_into<Sink>,(P{}),(apply_into_parser<P, Sink>{}))
    .parsersEq (tMod (P Any2) (M (.applyInto tSink))) (P (.map Any2 (.apply (.construct tSink)))),  -- 42: DEP_ASSERT_MODIFIER_MODULO_OPERABLE_R(PP{}, apply_into<Sink>,(apply_into_parser<PP, Sink>{}), P{}, apply_into<Sink>,(apply_into_parser<P, Sink>{}))
    .parsersEq (tCall (M (.applyInto tSink)) [(P Any3)]) (P (.map Any3 (.apply (.construct tSink)))),  -- 42: DEP_ASSERT_MODIFIER_CALLABLE_R(apply_into<Sink>,(PP{}),(apply_into_parser<PP, Sink>{}), apply_into<Sink>,(P{}),(apply_into_parser<P, Sink>{}))
    .parsersEq (tMod (P Any3) (M (.applyInto tSink))) (P (.map Any3 (.apply (.construct tSink)))),  -- 42: DEP_ASSERT_MODIFIER_MODULO_OPERABLE_R(PP{}, apply_into<Sink>,(apply_into_parser<PP, Sink>{}), P{}, apply_into<Sink>,(apply_into_parser<P, Sink>{}))
    .parsersEq (tCall (M (.applyInto tSink)) [(P Any4)]) (P (.map Any4 (.apply (.construct tSink)))),  -- 42: DEP_ASSERT_MODIFIER_CALLABLE_R(apply_into<Sink>,(PP{}),(apply_into_parser<PP, Sink>{}), apply_into<Sink>,(P{}),(apply_into_parser<P, Sink>{}))
    .parsersEq (tMod (P Any4) (M (.applyInto tSink))) (P (.map Any4 (.apply (.construct tSink)))),  -- 42: DEP_ASSERT_MODIFIER_MODULO_OPERABLE_R(PP{}, apply_into<Sink>,(apply_into_parser<PP, Sink>{}), P{}, apply_into<Sink>,(apply_into_parser<P, Sink>{}))
    .parsersEq (tCall (M (.applyInto tSink)) [(P Non1)]) (P (.map Non1 (.apply (.construct tSink)))),  -- 42: DEP_ASSERT_MODIFIER_CALLABLE_R(apply_into<Sink>,(PP{}),(apply_into_parser<PP, Sink>{}), apply_into<Sink>,(P{}),(apply_into_parser<P, Sink>{}))
    .parsersEq (tMod (P Non1) (M (.applyInto tSink))) (P (.map Non1 (.apply (.construct tSink)))),  -- 42: DEP_ASSERT_MODIFIER_MODULO_OPERABLE_R(PP{}, apply_into<Sink>,(apply_into_parser<PP, Sink>{}), P{}, apply_into<Sink>,(apply_into_parser<P, Sink>{}))
    .parsersEq (tCall (M (.applyInto tSink)) [(P Non2)]) (P (.map Non2 (.apply (.construct tSink)))),  -- 42: DEP_ASSERT_MODIFIER_CALLABLE_R(apply_into<Sink>,(PP{}),(apply_into_parser<PP, Sink>{}), apply_into<Sink>,(P{}),(apply_into_parser<P, Sink>{}))
    .parsersEq (tMod (P Non2) (M (.applyInto tSink))) (P (.map Non2 (.apply (.construct tSink)))),  -- 42: DEP_ASSERT_MODIFIER_MODULO_OPERABLE_R(PP{}, apply_into<Sink>,(apply_into_parser<PP, Sink>{}), P{}, apply_into<Sink>,(apply_into_parser<P, Sink>{}))
    .parsersEq (tCall (M (.applyInto tSink)) [(P Non3)]) (P (.map Non3 (.apply (.construct tSink)))),  -- 42: DEP_ASSERT_MODIFIER_CALLABLE_R(apply_into<Sink>,(PP{}),(apply_into_parser<PP, Sink>{}), apply_into<Sink>,(P{}),(apply_into_parser<P, Sink>{}))
    .parsersEq (tMod (P Non3) (M (.applyInto tSink))) (P (.map Non3 (.apply (.construct tSink)))),  -- 42: DEP_ASSERT_MODIFIER_MODULO_OPERABLE_R(PP{}, apply_into<Sink>,(apply_into_parser<PP, Sink>{}), P{}, apply_into<Sink>,(apply_into_parser<P, Sink>{}))
    .parsersEq (tCall (M (.applyInto tSink)) [(P Non4)]) (P (.map Non4 (.apply (.construct tSink)))),  -- 42: DEP_ASSERT_MODIFIER_CALLABLE_R(apply_into<Sink>,(PP{}),(apply_into_parser<PP, Sink>{}), apply_into<Sink>,(P{}),(apply_into_parser<P, Sink>{}))
    .parsersEq (tMod (P Non4) (M (.applyInto tSink))) (P (.map Non4 (.apply (.construct tSink)))),  -- 42: DEP_ASSERT_MODIFIER_MODULO_OPERABLE_R(PP{}, apply_into<Sink>,(apply_into_parser<PP, Sink>{}), P{}, apply_into<Sink>,(apply_into_parser<P, Sink>{}))
    .parsersEq (tCall (M (.applyInto tSink)) [(P Non5)]) (P (.map Non5 (.apply (.construct tSink)))),  -- 42: DEP_ASSERT_MODIFIER_CALLABLE_R(apply_into<Sink>,(PP{}),(apply_into_parser<PP, Sink>{}), apply_into<Sink>,(P{}),(apply_into_parser<P, Sink>{}))
    .parsersEq (tMod (P Non5) (M (.applyInto tSink))) (P (.map Non5 (.apply (.construct tSink)))),  -- 42: DEP_ASSERT_MODIFIER_MODULO_OPERABLE_R(PP{}, apply_into<Sink>,(apply_into_parser<PP, Sink>{}), P{}, apply_into<Sink>,(apply_into_parser<P, Sink>{}))
    .parsersEq (tCall (M (.applyInto tSink)) [(P All1)]) (P (.map All1 (.apply (.construct tSink)))),  -- 42: DEP_ASSERT_MODIFIER_CALLABLE_R(apply_into<Sink>,(PP{}),(apply_into_parser<PP, Sink>{}), apply_into<Sink>,(P{}),(apply_into_parser<P, Sink>{}))
    .parsersEq (tMod (P All1) (M (.applyInto tSink))) (P (.map All1 (.apply (.construct tSink)))),  -- 42: DEP_ASSERT_MODIFIER_MODULO_OPERABLE_R(PP{}, apply_into<Sink>,(apply_into_parser<PP, Sink>{}), P{}, apply_into<Sink>,(apply_into_parser<P, Sink>{}))
    .parsersEq (tCall (M (.applyInto tSink)) [(P All2)]) (P (.map All2 (.apply (.construct tSink)))),  -- 42: DEP_ASSERT_MODIFIER_CALLABLE_R(apply_into<Sink>,(PP{}),(apply_into_parser<PP, Sink>{}), apply_into<Sink>,(P{}),(apply_into_parser<P, Sink>{}))
    .parsersEq (tMod (P All2) (M (.applyInto tSink))) (P (.map All2 (.apply (.construct tSink)))),  -- 42: DEP_ASSERT_MODIFIER_MODULO_OPERABLE_R(PP{}, apply_into<Sink>,(apply_into_parser<PP, Sink>{}), P{}, apply_into<Sink>,(apply_into_parser<P, Sink>{}))
    .parsersEq (tCall (M (.applyInto tSink)) [(P All3)]) (P (.map All3 (.apply (.construct tSink)))),  -- 42: DEP_ASSERT_MODIFIER_CALLABLE_R(apply_into<Sink>,(PP{}),(apply_into_parser<PP, Sink>{}), apply_into<Sink>,(P{}),(apply_into_parser<P, Sink>{}))
    .parsersEq (tMod (P All3) (M (.applyInto tSink))) (P (.map All3 (.apply (.construct tSink)))),  -- 42: DEP_ASSERT_MODIFIER_MODULO_OPERABLE_R(PP{}, apply_into<Sink>,(apply_into_parser<PP, Sink>{}), P{}, apply_into<Sink>,(apply_into_parser<P, Sink>{}))
    .parsersEq (tCall (M (.applyInto tSink)) [(P All4)]) (P (.map All4 (.apply (.construct tSink)))),  -- 42: DEP_ASSERT_MODIFIER_CALLABLE_R(apply_into<Sink>,(PP{}),(apply_into_parser<PP, Sink>{}), apply_into<Sink>,(P{}),(apply_into_parser<P, Sink>{}))
    .parsersEq (tMod (P All4) (M (.applyInto tSink))) (P (.map All4 (.apply (.construct tSink)))),  -- 42: DEP_ASSERT_MODIFIER_MODULO_OPERABLE_R(PP{}, apply_into<Sink>,(apply_into_parser<PP, Sink>{}), P{}, apply_into<Sink>,(apply_into_parser<P, Sink>{}))
    .parsersEq (tCall (M (.applyInto tSink)) [(P Eps1)]) (P (.map Eps1 (.apply (.construct tSink)))),  -- 42: DEP_ASSERT_MODIFIER_CALLABLE_R(apply_into<Sink>,(PP{}),(apply_into_parser<PP, Sink>{}), apply_into<Sink>,(P{}),(apply_into_parser<P, Sink>{}))
    .parsersEq (tMod (P Eps1) (M (.applyInto tSink))) (P (.map Eps1 (.apply (.construct tSink))))  -- 42: DEP_ASSERT_MODIFIER_MODULO_OPERABLE_R(PP{}, apply_into<Sink>,(apply_into_parser<PP, Sink>{}), P{}, apply_into<Sink>,(apply_into_parser<P, Sink>{}))
    ], Assertion.Holds a :=
  Assertion.holds_of_check (by decide +kernel)

/-- apply_into modifier / modify anything (tests/char-tests/modifiers/apply_into.cpp:42) -/
theorem charModifiersApplyInto_3_2 : ∀ a ∈ [
    .parsersEq (tCall (M (.applyInto tSink)) [(P Ant1)]) (P (.map Ant1 (.apply (.construct tSink)))),  -- 42: DEP_ASSERT_MODIFIER_CALLABLE_R(apply_into<Sink>,(PP{}),(apply_into_parser<PP, Sink>{}), apply_into<Sink>,(P{}),(apply_into_parser<P, Sink>{}))
    .parsersEq (tMod (P Ant1) (M (.applyInto tSink))) (P (.map Ant1 (.apply (.construct tSink)))),  -- 42: DEP_ASSERT_MODIFIER_MODULO_OPERABLE_R(PP{}, apply_into<Sink>,(apply_into_parser<PP, Sink>{}), P{}, apply_into<Sink>,(apply_into_parser<P, Sink>{}))
    .parsersEq (tCall (M (.applyInto tSink)) [(P QQ)]) (P (.map QQ (.apply (.construct tSink)))),  -- 42: DEP_ASSERT_MODIFIER_CALLABLE_R(apply_into<Sink>,(PP{}),(apply_into_parser<PP, Sink>{}), apply_into<Sink>,(P{}),(apply_into_parser<P, Sink>{}))
    .parsersEq (tMod (P QQ) (M (.applyInto tSink))) (P (.map QQ (.apply (.construct tSink)))),  -- 42: DEP_ASSERT_MODIFIER_MODULO_OPERABLE_R(PP{}, apply_into<Sink>,(apply_into_parser<PP, Sink>{}), P{}, apply_into<Sink>,(apply_into_parser<P, Sink>{}))
    .parsersEq (tCall (M (.applyInto tSink)) [(P ABC)]) (P (.map ABC (.apply (.construct tSink)))),  -- 42: DEP_ASSERT_MODIFIER_CALLABLE_R(apply_into<Sink>,(PP{}),(apply_into_parser<PP, Sink>{}), apply_into<Sink>,(P{}),(apply_into_parser<P, Sink>{}))
    .parsersEq (tMod (P ABC) (M (.applyInto tSink))) (P (.map ABC (.apply (.construct tSink)))),  -- 42: DEP_ASSERT_MODIFIER_MODULO_OPERABLE_R(PP{}, apply_into<Sink>,(apply_into_parser<PP, Sink>{}), P{}, apply_into<Sink>,(apply_into_parser<P, Sink>{}))
    .parsersEq (tCall (M (.applyInto tSink)) [(P Comma)]) (P (.map Comma (.apply (.construct tSink)))),  -- 42: DEP_ASSERT_MODIFIER_CALLABLE_R(apply_into<Sink>,(PP{}),(apply_into_parser<PP, Sink>{}), apply_into<Sink>,(P{}),(apply_into_parser<P, Sink>{}))
    .parsersEq (tMod (P Comma) (M (.applyInto tSink))) (P (.map Comma (.apply (.construct tSink)))),  -- 42: DEP_ASSERT_MODIFIER_MODULO_OPERABLE_R(PP{}, apply_into<Sink>,(apply_into_parser<PP, Sink>{}), P{}, apply_into<Sink>,(apply_into_parser<P, Sink>{}))
    .parsersEq (tCall (M (.applyInto tSink)) [(P SpaceDot)]) (P (.map SpaceDot (.apply (.construct tSink)))),  -- 42: DEP_ASSERT_MODIFIER_CALLABLE_R(apply_into<Sink>,(PP{}),(apply_into_parser<PP, Sink>{}), apply_into<Sink>,(P{}),(apply_into_parser<P, Sink>{}))
    .parsersEq (tMod (P SpaceDot) (M (.applyInto tSink))) (P (.map SpaceDot (.apply (.construct tSink)))),  -- 42: DEP_ASSERT_MODIFIER_MODULO_OPERABLE_R(PP{}, apply_into<Sink>,(apply_into_parser<PP, Sink>{}), P{}, apply_into<Sink>,(apply_into_parser<P, Sink>{}))
    .parsersEq (tCall (M (.applyInto tSink)) [(P Cho1)]) (P (.map Cho1 (.apply (.construct tSink)))),  -- 42: DEP_ASSERT_MODIFIER_CALLABLE_R(apply_into<Sink>,(PP{}),(apply_into_parser<PP, Sink>{}), apply_into<Sink>,(P{}),(apply_into_parser<P, Sink>{}))
    .parsersEq (tMod (P Cho1) (M (.applyInto tSink))) (P (.map Cho1 (.apply (.construct tSink)))),  -- 42: DEP_ASSERT_MODIFIER_MODULO_OPERABLE_R(PP{}, apply_into<Sink>,(apply_into_parser<PP, Sink>{}), P{}, apply_into<Sink>,(apply_into_parser<P, Sink>{}))
    .parsersEq (tCall (M (.applyInto tSink)) [(P Cho2)]) (P (.map Cho2 (.apply (.construct tSink)))),  -- 42: DEP_ASSERT_MODIFIER_CALLABLE_R(apply_into<Sink>,(PP{}),(apply_into_parser<PP, Sink>{}), apply_into<Sink>,(P{}),(apply_into_parser<P, Sink>{}))
    .parsersEq (tMod (P Cho2) (M (.applyInto tSink))) (P (.map Cho2 (.apply (.construct tSink)))),  -- 42: DEP_ASSERT_MODIFIER_MODULO_OPERABLE_R(PP{}, apply_into<Sink>,(apply_into_parser<PP, Sink>{}), P{}, apply_into<Sink>,(apply_into_parser<P, Sink>{}))
    .parsersEq (tCall (M (.applyInto tSink)) [(P Cho3)]) (P (.map Cho3 (.apply (.construct tSink)))),  -- 42: DEP_ASSERT_MODIFIER_CALLABLE_R(apply_into<Sink>,(PP{}),(apply_into_parser<PP, Sink>{}), apply_into<Sink>,(P{}),(apply_into_parser<P, Sink>{}))
    .parsersEq (tMod (P Cho3) (M (.applyInto tSink))) (P (.map Cho3 (.apply (.construct tSink)))),  -- 42: DEP_ASSERT_MODIFIER_MODULO_OPERABLE_R(PP{}, apply_into<Sink>,(apply_into_parser<PP, Sink>{}), P{}, apply_into<Sink>,(apply_into_parser<P, Sink>{}))
    .parsersEq (tCall (M (.applyInto tSink)) [(P Cho4)]) (P (.map Cho4 (.apply (.construct tSink)))),  -- 42: DEP_ASSERT_MODIFIER_CALLABLE_R(apply_into<Sink>,(PP{}),(apply_into_parser<PP, Sink>{}), apply_into<Sink>,(P{}),(apply_into_parser<P, Sink>{}))
    .parsersEq (tMod (P Cho4) (M (.applyInto tSink))) (P (.map Cho4 (.apply (.construct tSink)))),  -- 42: DEP_ASSERT_MODIFIER_MODULO_OPERABLE_R(PP{}, apply_into<Sink>,(apply_into_parser<PP, Sink>{}), P{}, apply_into<Sink>,(apply_into_parser<P, Sink>{}))
    .parsersEq (tCall (M (.applyInto tSink)) [(P Cho5)]) (P (.map Cho5 (.apply (.construct tSink)))),  -- 42: DEP_ASSERT_MODIFIER_CALLABLE_R(apply_into<Sink>,(PP{}),(apply_into_parser<PP, Sink>{}), apply_into<Sink>,(P{}),(apply_into_parser<P, Sink>{}))
    .parsersEq (tMod (P Cho5) (M (.applyInto tSink))) (P (.map Cho5 (.apply (.construct tSink)))),  -- 42: DEP_ASSERT_MODIFIER_MODULO_OPERABLE_R(PP{}, apply_into<Sink>,(apply_into_parser<PP, Sink>{}), P{}, apply_into<Sink>,(apply_into_parser<P, Sink>{}))
    .parsersEq (tCall (M (.applyInto tSink)) [(P Seq1)]) (P (.map Seq1 (.apply (.construct tSink)))),  -- 42: DEP_ASSERT_MODIFIER_CALLABLE_R(apply_into<Sink>,(PP{}),(apply_into_parser<PP, Sink>{}), apply_into<Sink>,(P{}),(apply_into_parser<P, Sink>{}))
    .parsersEq (tMod (P Seq1) (M (.applyInto tSink))) (P (.map Seq1 (.apply (.construct tSink)))),  -- 42: DEP_ASSERT_MODIFIER_MODULO_OPERABLE_R(PP{}, apply_into<Sink>,(apply_into_parser<PP, Sink>{}), P{}, apply_into<Sink>,(apply_into_parser<P, Sink>{}))
    .parsersEq (tCall (M (.applyInto tSink)) [(P Seq2)]) (P (.map Seq2 (.apply (.construct tSink)))),  -- 42: DEP_ASSERT_MODIFIER_CALLABLE_R(apply_into<Sink>,(PP{}),(apply_into_parser<PP, Sink>{}), apply_into<Sink>,(P{}),(apply_into_parser<P, Sink>{}))
    .parsersEq (tMod (P Seq2) (M (.applyInto tSink))) (P (.map Seq2 (.apply (.construct tSink)))),  -- 42: DEP_ASSERT_MODIFIER_MODULO_OPERABLE_R(PP{}, apply_into<Sink>,(apply_into_parser<PP, Sink>{}), P{}, apply_into<Sink>,(apply_into_parser<P, Sink>{}))
    .parsersEq (tCall (M (.applyInto tSink)) [(P Seq3)]) (P (.map Seq3 (.apply (.construct tSink)))),  -- 42: DEP_ASSERT_MODIFIER_CALLABLE_R(apply_into<Sink>,(PP{}),(apply_into_parser<PP, Sink>{}), apply_into<Sink>,(P{}),(apply_into_parser<P, Sink>{}))
    .parsersEq (tMod (P Seq3) (M (.applyInto tSink))) (P (.map Seq3 (.apply (.construct tSink)))),  -- 42: DEP_ASSERT_MODIFIER_MODULO_OPERABLE_R(PP{}, apply_into<Sink>,(apply_into_parser<PP, Sink>{}), P{}, apply_into<Sink>,(apply_into_parser<P, Sink>{}))
    .parsersEq (tCall (M (.applyInto tSink)) [(P Seq4)]) (P (.map Seq4 (.apply (.construct tSink)))),  -- 42: DEP_ASSERT_MODIFIER_CALLABLE_R(apply_into<Sink>,(PP{}),(apply_into_parser<PP, Sink>{}), apply_into<Sink>,(P{}),(apply_into_parser<P, Sink>{}))
    .parsersEq (tMod (P Seq4) (M (.applyInto tSink))) (P (.map Seq4 (.apply (.construct tSink)))),  -- 42: DEP_ASSERT_MODIFIER_MODULO_OPERABLE_R(PP{}, apply_into<Sink>,(apply_into_parser<PP, Sink>{}), P{}, apply_into<Sink>,(apply_into_parser<P, Sink>{}))
    .parsersEq (tCall (M (.applyInto tSink)) [(P Seq5)]) (P (.map Seq5 (.apply (.construct tSink)))),  -- 42: DEP_ASSERT_MODIFIER_CALLABLE_R(apply_into<Sink>,(PP{}),(apply_into_parser<PP, Sink>{}), apply_into<Sink>,(P{}),(apply_into_parser<P, Sink>{}))
    .parsersEq (tMod (P Seq5) (M (.applyInto tSink))) (P (.map Seq5 (.apply (.construct tSink)))),  -- 42: DEP_ASSERT_MODIFIER_MODULO_OPERABLE_R(PP{}, apply_into<Sink>,(apply_into_parser<PP, Sink>{}), P{}, apply_into<Sink>,(apply_into_parser<P, Sink>{}))
    .parsersEq (tCall (M (.applyInto tSink)) [(P Joi1)]) (P (.map Joi1 (.apply (.construct tSink)))),  -- 42: DEP_ASSERT_MODIFIER_CALLABLE_R(apply_into<Sink>,(PP{}),(apply_into_parser<PP, Sink>{}), apply_into<Sink>,(P{}),(apply_into_parser<P, Sink>{}))
    .parsersEq (tMod (P Joi1) (M (.applyInto tSink))) (P (.map Joi1 (.apply (.construct tSink)))),  -- 42: DEP_ASSERT_MODIFIER_MODULO_OPERABLE_R(PP{}, apply_into<Sink>,(apply_into_parser<PP, Sink>{}), P{}, apply_into<Sink>,(apply_into_parser<P, Sink>{}))
    .parsersEq (tCall (M (.applyInto tSink)) [(P Joi2)]) (P (.map Joi2 (.apply (.construct tSink)))),  -- 42: DEP_ASSERT_MODIFIER_CALLABLE_R(apply_into<Sink>,(PP{}),(apply_into_parser<PP, Sink>{}), apply_into<Sink>,(P{}),(apply_into_parser<P, Sink>{}))
    .parsersEq (tMod (P Joi2) (M (.applyInto tSink))) (P (.map Joi2 (.apply (.construct tSink)))),  -- 42: DEP_ASSERT_MODIFIER_MODULO_OPERABLE_R(PP{}, apply_into<Sink>,(apply_into_parser<PP, Sink>{}), P{}, apply_into<Sink>,(apply_into_parser<P, Sink>{}))
    .parsersEq (tCall (M (.applyInto tSink)) [(P Joi3)]) (P (.map Joi3 (.apply (.construct tSink)))),  -- 42: DEP_ASSERT_MODIFIER_CALLABLE_R(apply_into<Sink>,(PP{}),(apply_into_parser<PP, Sink>{}), apply_into<Sink>,(P{}),(apply_into_parser<P, Sink>{}))
    .parsersEq (tMod (P Joi3) (M (.applyInto tSink))) (P (.map Joi3 (.apply (.construct tSink)))),  -- 42: DEP_ASSERT_MODIFIER_MODULO_OPERABLE_R(PP{}, apply_into<Sink>,(apply_into_parser<PP, Sink>{}), P{}, apply_into<Sink>,(apply_into_parser<P, Sink>{}))
    .parsersEq (tCall (M (.applyInto tSink)) [(P Joi4)]) (P (.map Joi4 (.apply (.construct tSink)))),  -- 42: DEP_ASSERT_MODIFIER_CALLABLE_R(apply_into<Sink>,(PP{}),(apply_into_parser<PP, Sink>{}), apply_into<Sink>,(P{}),(apply_into_parser<P, Sink>{}))
    .parsersEq (tMod (P Joi4) (M (.applyInto tSink))) (P (.map Joi4 (.apply (.construct tSink)))),  -- 42: DEP_ASSERT_MODIFIER_MODULO_OPERABLE_R(PP{}, apply_into<Sink>,(apply_into_parser<PP, Sink>{}), P{}, apply_into<Sink>,(apply_into_parser<P, Sink>{}))
    .parsersEq (tCall (M (.applyInto tSink)) [(P Joi5)]) (P (.map Joi5 (.apply (.construct tSink)))),  -- 42: DEP_ASSERT_MODIFIER_CALLABLE_R(apply_into<Sink>,(PP{}),(apply_into_parser<PP, Sink>{}), apply_into<Sink>,(P{}),(apply_into_parser<P, Sink>{}))
    .parsersEq (tMod (P Joi5) (M (.applyInto tSink))) (P (.map Joi5 (.apply (.construct tSink)))),  -- 42: DEP_ASSERT_MODIFIER_MODULO_OPERABLE_R(PP{}, apply_into<Sink>,(apply_into_parser<PP, Sink>{}), P{}, apply_into<Sink>,(apply_into_parser<P, Sink>{}))
    .parsersEq (tCall (M (.applyInto tSink)) [(P Map1)]) (P (.map Map1 (.apply (.construct tSink)))),  -- 42: DEP_ASSERT_MODIFIER_CALLABLE_R(apply_into<Sink>,(PP{}),(apply_into_parser<PP, Sink>{}), apply_into<Sink>,(P{}),(apply_into_parser<P, Sink>{}))
    .parsersEq (tMod (P Map1) (M (.applyInto tSink))) (P (.map Map1 (.apply (.construct tSink)))),  -- 42: DEP_ASSERT_MODIFIER_MODULO_OPERABLE_R(PP{}, apply_into<Sink>,(apply_into_parser<PP, Sink>{}), P{}, apply_into<Sink>,(apply_into_parser<P, Sink>{}))
    .parsersEq (tCall (M (.applyInto tSink)) [(P Map2)]) (P (.map Map2 (.apply (.construct tSink)))),  -- 42: DEP_ASSERT_MODIFIER_CALLABLE_R(apply_into<Sink>,(PP{}),(apply_into_parser<PP, Sink>{}), apply_into<Sink>,(P{}),(apply_into_parser<P, Sink>{}))
    .parsersEq (tMod (P Map2) (M (.applyInto tSink))) (P (.map Map2 (.apply (.construct tSink)))),  -- 42: DEP_ASSERT_MODIFIER_MODULO_OPERABLE_R(PP{}, apply_into<Sink>,(apply_into_parser<PP, Sink>{}), P{}, apply_into<Sink>,(apply_into_parser<P, Sink>{}))
    .parsersEq (tCall (M (.applyInto tSink)) [(P Map3)]) (P (.map Map3 (.apply (.construct tSink)))),  -- 42: DEP_ASSERT_MODIFIER_CALLABLE_R(apply_into<Sink>,(PP{}),(apply_into_parser<PP, Sink>{}), apply_into<Sink>,(P{}),(apply_into_parser<P, Sink>{}))
    .parsersEq (tMod (P Map3) (M (.applyInto tSink))) (P (.map Map3 (.apply (.construct tSink)))),  -- 42: DEP_ASSERT_MODIFIER_MODULO_OPERABLE_R(PP{}, apply_into<Sink>,(apply_into_parser<PP, Sink>{}), P{}, apply_into<Sink>,(apply_into_parser<P, Sink>{}))
    .parsersEq (tCall (M (.applyInto tSink)) [(P Map4)]) (P (.map Map4 (.apply (.construct tSink)))),  -- 42: DEP_ASSERT_MODIFIER_CALLABLE_R(apply_into<Sink>,(PP{}),(apply_into_parser<PP, Sink>{}), apply_into<Sink>,(P{}),(apply_into_parser<P, Sink>{}))
    .parsersEq (tMod (P Map4) (M (.applyInto tSink))) (P (.map Map4 (.apply (.construct tSink)))),  -- 42: DEP_ASSERT_MODIFIER_MODULO_OPERABLE_R(PP{}, apply_into<Sink>,(apply_into_parser<PP, Sink>{}), P{}, apply_into<Sink>,(apply_into_parser<P, Sink>{}))
    .parsersEq (tCall (M (.applyInto tSink)) [(P Fil1)]) (P (.map Fil1 (.apply (.construct tSink)))),  -- 42: DEP_ASSERT_MODIFIER_CALLABLE_R(apply_into<Sink>,(PP{}),(apply_into_parser<PP, Sink>{}), apply_into<Sink>,(P{}),(apply_into_parser<P, Sink>{}))
    .parsersEq (tMod (P Fil1) (M (.applyInto tSink))) (P (.map Fil1 (.apply (.construct tSink)))),  -- 42: DEP_ASSERT_MODIFIER_MODULO_OPERABLE_R(PP{}, apply_into<Sink>,(apply_into_parser<PP, Sink>{}), P{}, apply_into<Sink>,(apply_into_parser<P, Sink>{}))
    .parsersEq (tCall (M (.applyInto tSink)) [(P Fil2)]) (P (.map Fil2 (.apply (.construct tSink)))),  -- 42: DEP_ASSERT_MODIFIER_CALLABLE_R(apply_into<Sink>,(PP{}),(apply_into_parser<PP, Sink>{}), apply_into<Sink>,(P{}),(apply_into_parser<P, Sink>{}))
    .parsersEq (tMod (P Fil2) (M (.applyInto tSink))) (P (.map Fil2 (.apply (.construct tSink)))),  -- 42: DEP_ASSERT_MODIFIER_MODULO_OPERABLE_R(PP{}, apply_into<Sink>,(apply_into_parser<PP, Sink>{}), P{}, apply_into<Sink>,(apply_into_parser<P, Sink>{}))
    .parsersEq (tCall (M (.applyInto tSink)) [(P Fil3)]) (P (.map Fil3 (.apply (.construct tSink)))),  -- 42: DEP_ASSERT_MODIFIER_CALLABLE_R(apply_into<Sink>,(PP{}),(apply_into_parser<PP, Sink>{}), apply_into<Sink>,(P{}),(apply_into_parser<P, Sink>{}))
    .parsersEq (tMod (P Fil3) (M (.applyInto tSink))) (P (.map Fil3 (.apply (.construct tSink)))),  -- 42: DEP_ASSERT_MODIFIER_MODULO_OPERABLE_R(PP{}, apply_into<Sink>,(apply_into_parser<PP, Sink>{}), P{}, apply_into<Sink>,(apply_into_parser<P, Sink>{}))
    .parsersEq (tCall (M (.applyInto tSink)) [(P Apm1)]) (P (.map Apm1 (.apply (.construct tSink)))),  -- 42: DEP_ASSERT_MODIFIER_CALLABLE_R(apply_into<Sink>,(PP{}),(apply_into_parser<PP, Sink>{}), apply_into<Sink>,(P{}),(apply_into_parser<P, Sink>{}))
    .parsersEq (tMod (P Apm1) (M (.applyInto tSink))) (P (.map Apm1 (.apply (.construct tSink)))),  -- 42: DEP_ASSERT_MODIFIER_MODULO_OPERABLE_R(PP{}, apply_into<Sink>,(apply_into_parser<PP, Sink>{}), P{}, apply_into<Sink>,(apply_into_parser<P, Sink>{}))
    .parsersEq (tCall (M (.applyInto tSink)) [(P Apm2)]) (P (.map Apm2 (.apply (.construct tSink)))),  -- 42: DEP_ASSERT_MODIFIER_CALLABLE_R(apply_into<Sink>,(PP{}),(apply_into_parser<PP, Sink>{}), apply_into<Sink>,(P{}),(apply_into_parser<P, Sink>{}))
    .parsersEq (tMod (P Apm2) (M (.applyInto tSink))) (P (.map Apm2 (.apply (.construct tSink)))),  -- 42: DEP_ASSERT_MODIFIER_MODULO_OPERABLE_R(PP{}, apply_into<Sink>,(apply_into_parser<PP, Sink>{}), P{}, apply_into<Sink>,(apply_into_parser<P, Sink>{}))
    .parsersEq (tCall (M (.applyInto tSink)) [(P Apf1)]) (P (.map Apf1 (.apply (.construct tSink)))),  -- 42: DEP_ASSERT_MODIFIER_CALLABLE_R(apply_into<Sink>,(PP{}),(apply_into_parser<PP, Sink>{}), apply_into<Sink>,(P{}),(apply_into_parser<P, Sink>{}))
    .parsersEq (tMod (P Apf1) (M (.applyInto tSink))) (P (.map Apf1 (.apply (.construct tSink))))  -- 42: DEP_ASSERT_MODIFIER_MODULO_OPERABLE_R(PP{}, apply_into<Sink>,(apply_into_parser<PP, Sink>{}), P{}, apply_into<Sink>,(apply_into_parser<P, Sink>{}))
    ], Assertion.Holds a :=
  Assertion.holds_of_check (by decide +kernel)

/-- apply_into modifier / modify anything (tests/char-tests/modifiers/apply_into.cpp:42) -/
theorem charModifiersApplyInto_3_3 : ∀ a ∈ [
    .parsersEq (tCall (M (.applyInto tSink)) [(P Int1)]) (P (.map Int1 (.apply (.construct tSink)))),  -- 42: DEP_ASSERT_MODIFIER_CALLABLE_R(apply_into<Sink>,(PP{}),(apply_into_parser<PP, Sink>{}), apply_into<Sink>,(P{}),(apply_into_parser<P, Sink>{}))
    .parsersEq (tMod (P Int1) (M (.applyInto tSink))) (P (.map Int1 (.apply (.construct tSink)))),  -- 42: DEP_ASSERT_MODIFIER_MODULO_OPERABLE_R(PP{}, apply_into<Sink>,(apply_into_parser<PP, Sink>{}), P{}, apply_into<Sink>,(apply_into_parser<P, Sink>{}))
    .parsersEq (tCall (M (.applyInto tSink)) [(P Int2)]) (P (.map Int2 (.apply (.construct tSink)))),  -- 42: DEP_ASSERT_MODIFIER_CALLABLE_R(apply_into<Sink>,(PP{}),(apply_into_parser<PP, Sink>{}), apply_into<Sink>,(P{}),(apply_into_parser<P, Sink>{}))
    .parsersEq (tMod (P Int2) (M (.applyInto tSink))) (P (.map Int2 (.apply (.construct tSink)))),  -- 42: DEP_ASSERT_MODIFIER_MODULO_OPERABLE_R(PP{}, apply_into<Sink>,(apply_into_parser<PP, Sink>{}), P{}, apply_into<Sink>,(apply_into_parser<P, Sink>{}))
    .parsersEq (tCall (M (.applyInto tSink)) [(P Int3)]) (P (.map Int3 (.apply (.construct tSink)))),  -- 42: DEP_ASSERT_MODIFIER_CALLABLE_R(apply_into<Sink>,(PP{}),(apply_into_parser<PP, Sink>{}), apply_into<Sink>,(P{}),(apply_into_parser<P, Sink>{}))
    .parsersEq (tMod (P Int3) (M (.applyInto tSink))) (P (.map Int3 (.apply (.construct tSink)))),  -- 42: DEP_ASSERT_MODIFIER_MODULO_OPERABLE_R(PP{}, apply_into<Sink>,(apply_into_parser<PP, Sink>{}), P{}, apply_into<Sink>,(apply_into_parser<P, Sink>{}))
    .parsersEq (tCall (M (.applyInto tSink)) [(P Api1)]) (P (.map Api1 (.apply (.construct tSink)))),  -- 42: DEP_ASSERT_MODIFIER_CALLABLE_R(apply_into<Sink>,(PP{}),(apply_into_parser<PP, Sink>{}), apply_into<Sink>,(P{}),(apply_into_parser<P, Sink>{}))
    .parsersEq (tMod (P Api1) (M (.applyInto tSink))) (P (.map Api1 (.apply (.construct tSink)))),  -- 42: DEP_ASSERT_MODIFIER_MODULO_OPERABLE_R(PP{}, apply_into<Sink>,(apply_into_parser<PP, Sink>{}), P{}, apply_into<Sink>,(apply_into_parser<P, Sink>{}))
    .parsersEq (tCall (M (.applyInto tSink)) [(P Api2)]) (P (.map Api2 (.apply (.construct tSink)))),  -- 42: DEP_ASSERT_MODIFIER_CALLABLE_R(apply_into<Sink>,(PP{}),(apply_into_parser<PP, Sink>{}), apply_into<Sink>,(P{}),(apply_into_parser<P, Sink>{}))
    .parsersEq (tMod (P Api2) (M (.applyInto tSink))) (P (.map Api2 (.apply (.construct tSink)))),  -- 42: DEP_ASSERT_MODIFIER_MODULO_OPERABLE_R(PP{}, apply_into<Sink>,(apply_into_parser<PP, Sink>{}), P{}, apply_into<Sink>,(apply_into_parser<P, Sink>{}))
    .parsersEq (tCall (M (.applyInto tSink)) [(P Con1)]) (P (.map Con1 (.apply (.construct tSink)))),  -- 42: DEP_ASSERT_MODIFIER_CALLABLE_R(apply_into<Sink>,(PP{}),(apply_into_parser<PP, Sink>{}), apply_into<Sink>,(P{}),(apply_into_parser<P, Sink>{}))
    .parsersEq (tMod (P Con1) (M (.applyInto tSink))) (P (.map Con1 (.apply (.construct tSink)))),  -- 42: DEP_ASSERT_MODIFIER_MODULO_OPERABLE_R(PP{}, apply_into<Sink>,(apply_into_parser<PP, Sink>{}), P{}, apply_into<Sink>,(apply_into_parser<P, Sink>{}))
    .parsersEq (tCall (M (.applyInto tSink)) [(P Con2)]) (P (.map Con2 (.apply (.construct tSink)))),  -- 42: DEP_ASSERT_MODIFIER_CALLABLE_R(apply_into<Sink>,(PP{}),(apply_into_parser<PP, Sink>{}), apply_into<Sink>,(P{}),(apply_into_parser<P, Sink>{}))
    .parsersEq (tMod (P Con2) (M (.applyInto tSink))) (P (.map Con2 (.apply (.construct tSink)))),  -- 42: DEP_ASSERT_MODIFIER_MODULO_OPERABLE_R(PP{}, apply_into<Sink>,(apply_into_parser<PP, Sink>{}), P{}, apply_into<Sink>,(apply_into_parser<P, Sink>{}))
    .parsersEq (tCall (M (.applyInto tSink)) [(P Con3)]) (P (.map Con3 (.apply (.construct tSink)))),  -- 42: DEP_ASSERT_MODIFIER_CALLABLE_R(apply_into<Sink>,(PP{}),(apply_into_parser<PP, Sink>{}), apply_into<Sink>,(P{}),(apply_into_parser<P, Sink>{}))
    .parsersEq (tMod (P Con3) (M (.applyInto tSink))) (P (.map Con3 (.apply (.construct tSink)))),  -- 42: DEP_ASSERT_MODIFIER_MODULO_OPERABLE_R(PP{}, apply_into<Sink>,(apply_into_parser<PP, Sink>{}), P{}, apply_into<Sink>,(apply_into_parser<P, Sink>{}))
    .parsersEq (tCall (M (.applyInto tSink)) [(P Con4)]) (P (.map Con4 (.apply (.construct tSink)))),  -- 42: DEP_ASSERT_MODIFIER_CALLABLE_R(apply_into<Sink>,(PP{}),(apply_into_parser<PP, Sink>{}), apply_into<Sink>,(P{}),(apply_into_parser<P, Sink>{}))
    .parsersEq (tMod (P Con4) (M (.applyInto tSink))) (P (.map Con4 (.apply (.construct tSink)))),  -- 42: DEP_ASSERT_MODIFIER_MODULO_OPERABLE_R(PP{}, apply_into<Sink>,(apply_into_parser<PP, Sink>{}), P{}, apply_into<Sink>,(apply_into_parser<P, Sink>{}))
    .parsersEq (tCall (M (.applyInto tSink)) [(P Def1)]) (P (.map Def1 (.apply (.construct tSink)))),  -- 42: DEP_ASSERT_MODIFIER_CALLABLE_R(apply_into<Sink>,(PP{}),(apply_into_parser<PP, Sink>{}), apply_into<Sink>,(P{}),(apply_into_parser<P, Sink>{}))
    .parsersEq (tMod (P Def1) (M (.applyInto tSink))) (P (.map Def1 (.apply (.construct tSink)))),  -- 42: DEP_ASSERT_MODIFIER_MODULO_OPERABLE_R(PP{}, apply_into<Sink>,(apply_into_parser<PP, Sink>{}), P{}, apply_into<Sink>,(apply_into_parser<P, Sink>{}))
    .parsersEq (tCall (M (.applyInto tSink)) [(P Def2)]) (P (.map Def2 (.apply (.construct tSink)))),  -- 42: DEP_ASSERT_MODIFIER_CALLABLE_R(apply_into<Sink>,(PP{}),(apply_into_parser<PP, Sink>{}), apply_into<Sink>,(P{}),(apply_into_parser<P, Sink>{}))
    .parsersEq (tMod (P Def2) (M (.applyInto tSink))) (P (.map Def2 (.apply (.construct tSink)))),  -- 42: DEP_ASSERT_MODIFIER_MODULO_OPERABLE_R(PP{}, apply_into<Sink>,(apply_into_parser<PP, Sink>{}), P{}, apply_into<Sink>,(apply_into_parser<P, Sink>{}))
    .parsersEq (tCall (M (.applyInto tSink)) [(P (.custom 0))]) (P (.map (.custom 0) (.apply (.construct tSink)))),  -- 42: DEP_ASSERT_MODIFIER_CALLABLE_R(apply_into<Sink>,(PP{}),(apply_into_parser<PP, Sink>{}), apply_into<Sink>,(P{}),(apply_into_parser<P, Sink>{}))
    .parsersEq (tMod (P (.custom 0)) (M (.applyInto tSink))) (P (.map (.custom 0) (.apply (.construct tSink)))),  -- 42: DEP_ASSERT_MODIFIER_MODULO_OPERABLE_R(PP{}, apply_into<Sink>,(apply_into_parser<PP, Sink>{}), P{}, apply_into<Sink>,(apply_into_parser<P, Sink>{}))
    .parsersEq (tCall (M (.applyInto tSink)) [(P (.custom 1))]) (P (.map (.custom 1) (.apply (.construct tSink)))),  -- 42: DEP_ASSERT_MODIFIER_CALLABLE_R(apply_into<Sink>,(PP{}),(apply_into_parser<PP, Sink>{}), apply_into<Sink>,(P{}),(apply_into_parser<P, Sink>{}))
    .parsersEq (tMod (P (.custom 1)) (M (.applyInto tSink))) (P (.map (.custom 1) (.apply (.construct tSink)))),  -- 42: DEP_ASSERT_MODIFIER_MODULO_OPERABLE_R(PP{}, apply_into<Sink>,(apply_into_parser<PP, Sink>{}), P{}, apply_into<Sink>,(apply_into_parser<P, Sink>{}))
    .parsersEq (tCall (M (.applyInto tSink)) [(P May1)]) (P (.map May1 (.apply (.construct tSink)))),  -- 42: DEP_ASSERT_MODIFIER_CALLABLE_R(apply_into<Sink>,(PP{}),(apply_into_parser<PP, Sink>{}), apply_into<Sink>,(P{}),(apply_into_parser<P, Sink>{}))
    .parsersEq (tMod (P May1) (M (.applyInto tSink))) (P (.map May1 (.apply (.construct tSink)))),  -- 42: DEP_ASSERT_MODIFIER_MODULO_OPERABLE_R(PP{}, apply_into<Sink>,(apply_into_parser<PP, Sink>{}), P{}, apply_into<Sink>,(apply_into_parser<P, Sink>{}))
    .parsersEq (tCall (M (.applyInto tSink)) [(P May2)]) (P (.map May2 (.apply (.construct tSink)))),  -- 42: DEP_ASSERT_MODIFIER_CALLABLE_R(apply_into<Sink>,(PP{}),(apply_into_parser<PP, Sink>{}), apply_into<Sink>,(P{}),(apply_into_parser<P, Sink>{}))
    .parsersEq (tMod (P May2) (M (.applyInto tSink))) (P (.map May2 (.apply (.construct tSink)))),  -- 42: DEP_ASSERT_MODIFIER_MODULO_OPERABLE_R(PP{}, apply_into<Sink>,(apply_into_parser<PP, Sink>{}), P{}, apply_into<Sink>,(apply_into_parser<P, Sink>{}))
    .parsersEq (tCall (M (.applyInto tSink)) [(P May3)]) (P (.map May3 (.apply (.construct tSink)))),  -- 42: DEP_ASSERT_MODIFIER_CALLABLE_R(apply_into<Sink>,(PP{}),(apply_into_parser<PP, Sink>{}), apply_into<Sink>,(P{}),(apply_into_parser<P, Sink>{}))
    .parsersEq (tMod (P May3) (M (.applyInto tSink))) (P (.map May3 (.apply (.construct tSink)))),  -- 42: DEP_ASSERT_MODIFIER_MODULO_OPERABLE_R(PP{}, apply_into<Sink>,(apply_into_parser<PP, Sink>{}), P{}, apply_into<Sink>,(apply_into_parser<P, Sink>{}))
    .parsersEq (tCall (M (.applyInto tSink)) [(P May4)]) (P (.map May4 (.apply (.construct tSink)))),  -- 42: DEP_ASSERT_MODIFIER_CALLABLE_R(apply_into<Sink>,(PP{}),(apply_into_parser<PP, Sink>{}), apply_into<Sink>,(P{}),(apply_into_parser<P, Sink>{}))
    .parsersEq (tMod (P May4) (M (.applyInto tSink))) (P (.map May4 (.apply (.construct tSink)))),  -- 42: DEP_ASSERT_MODIFIER_MODULO_OPERABLE_R(PP{}, apply_into<Sink>,(apply_into_parser<PP, Sink>{}), P{}, apply_into<Sink>,(apply_into_parser<P, Sink>{}))
    .parsersEq (tCall (M (.applyInto tSink)) [(P Exa1)]) (P (.map Exa1 (.apply (.construct tSink)))),  -- 42: DEP_ASSERT_MODIFIER_CALLABLE_R(apply_into<Sink>,(PP{}),(apply_into_parser<PP, Sink>{}), apply_into<Sink>,(P{}),(apply_into_parser<P, Sink>{}))
    .parsersEq (tMod (P Exa1) (M (.applyInto tSink))) (P (.map Exa1 (.apply (.construct tSink)))),  -- 42: DEP_ASSERT_MODIFIER_MODULO_OPERABLE_R(PP{}, apply_into<Sink>,(apply_into_parser<PP, Sink>{}), P{}, apply_into<Sink>,(apply_into_parser<P, Sink>{}))
    .parsersEq (tCall (M (.applyInto tSink)) [(P Exa2)]) (P (.map Exa2 (.apply (.construct tSink)))),  -- 42: DEP_ASSERT_MODIFIER_CALLABLE_R(apply_into<Sink>,(PP{}),(apply_into_parser<PP, Sink>{}), apply_into<Sink>,(P{}),(apply_into_parser<P, Sink>{}))
    .parsersEq (tMod (P Exa2) (M (.applyInto tSink))) (P (.map Exa2 (.apply (.construct tSink)))),  -- 42: DEP_ASSERT_MODIFIER_MODULO_OPERABLE_R(PP{}, apply_into<Sink>,(apply_into_parser<PP, Sink>{}), P{}, apply_into<Sink>,(apply_into_parser<P, Sink>{}))
    .parsersEq (tCall (M (.applyInto tSink)) [(P Exa3)]) (P (.map Exa3 (.apply (.construct tSink)))),  -- 42: DEP_ASSERT_MODIFIER_CALLABLE_R(apply_into<Sink>,(PP{}),(apply_into_parser<PP, Sink>{}), apply_into<Sink>,(P{}),(apply_into_parser<P, Sink>{}))
    .parsersEq (tMod (P Exa3) (M (.applyInto tSink))) (P (.map Exa3 (.apply (.construct tSink)))),  -- 42: DEP_ASSERT_MODIFIER_MODULO_OPERABLE_R(PP{}, apply_into<Sink>,(apply_into_parser<PP, Sink>{}), P{}, apply_into<Sink>,(apply_into_parser<P, Sink>{}))
    .parsersEq (tCall (M (.applyInto tSink)) [(P Exa4)]) (P (.map Exa4 (.apply (.construct tSink)))),  -- 42: DEP_ASSERT_MODIFIER_CALLABLE_R(apply_into<Sink>,(PP{}),(apply_into_parser<PP, Sink>{}), apply_into<Sink>,(P{}),(apply_into_parser<P, Sink>{}))
    .parsersEq (tMod (P Exa4) (M (.applyInto tSink))) (P (.map Exa4 (.apply (.construct tSink)))),  -- 42: DEP_ASSERT_MODIFIER_MODULO_OPERABLE_R(PP{}, apply_into<Sink>,(apply_into_parser<PP, Sink>{}), P{}, apply_into<Sink>,(apply_into_parser<P, Sink>{}))
    .parsersEq (tCall (M (.applyInto tSink)) [(P Oom1)]) (P (.map Oom1 (.apply (.construct tSink)))),  -- 42: DEP_ASSERT_MODIFIER_CALLABLE_R(apply_into<Sink>,(PP{}),(apply_into_parser<PP, Sink>{}), apply_into<Sink>,(P{}),(apply_into_parser<P, Sink>{}))
    .parsersEq (tMod (P Oom1) (M (.applyInto tSink))) (P (.map Oom1 (.apply (.construct tSink)))),  -- 42: DEP_ASSERT_MODIFIER_MODULO_OPERABLE_R(PP{}, apply_into<Sink>,(apply_into_parser<PP, Sink>{}), P{}, apply_into<Sink>,(apply_into_parser<P, Sink>{}))
    .parsersEq (tCall (M (.applyInto tSink)) [(P Oom2)]) (P (.map Oom2 (.apply (.construct tSink)))),  -- 42: DEP_ASSERT_MODIFIER_CALLABLE_R(apply_into<Sink>,(PP{}),(apply_into_parser<PP, Sink>{}), apply_into<Sink>,(P{}),(apply_into_parser<P, Sink>{}))
    .parsersEq (tMod (P Oom2) (M (.applyInto tSink))) (P (.map Oom2 (.apply (.construct tSink)))),  -- 42: DEP_ASSERT_MODIFIER_MODULO_OPERABLE_R(PP{}, apply_into<Sink>,(apply_into_parser<PP, Sink>{}), P{}, apply_into<Sink>,(apply_into_parser<P, Sink>{}))
    .parsersEq (tCall (M (.applyInto tSink)) [(P Oom3)]) (P (.map Oom3 (.apply (.construct tSink)))),  -- 42: DEP_ASSERT_MODIFIER_CALLABLE_R(apply_into<Sink>,(PP{}),(apply_into_parser<PP, Sink>{}), apply_into<Sink>,(P{}),(apply_into_parser<P, Sink>{}))
    .parsersEq (tMod (P Oom3) (M (.applyInto tSink))) (P (.map Oom3 (.apply (.construct tSink)))),  -- 42: DEP_ASSERT_MODIFIER_MODULO_OPERABLE_R(PP{}, apply_into<Sink>,(apply_into_parser<PP, Sink>{}), P{}, apply_into<Sink>,(apply_into_parser<P, Sink>{}))
    .parsersEq (tCall (M (.applyInto tSink)) [(P Oom4)]) (P (.map Oom4 (.apply (.construct tSink)))),  -- 42: DEP_ASSERT_MODIFIER_CALLABLE_R(apply_into<Sink>,(PP{}),(apply_into_parser<PP, Sink>{}), apply_into<Sink>,(P{}),(apply_into_parser<P, Sink>{}))
    .parsersEq (tMod (P Oom4) (M (.applyInto tSink))) (P (.map Oom4 (.apply (.construct tSink)))),  -- 42: DEP_ASSERT_MODIFIER_MODULO_OPERABLE_R(PP{}, apply_into<Sink>,(apply_into_parser<PP, Sink>{}), P{}, apply_into<Sink>,(apply_into_parser<P, Sink>{}))
    .parsersEq (tCall (M (.applyInto tSink)) [(P Zom1)]) (P (.map Zom1 (.apply (.construct tSink)))),  -- 42: DEP_ASSERT_MODIFIER_CALLABLE_R(apply_into<Sink>,(PP{}),(apply_into_parser<PP, Sink>{}), apply_into<Sink>,(P{}),(apply_into_parser<P, Sink>{}))
    .parsersEq (tMod (P Zom1) (M (.applyInto tSink))) (P (.map Zom1 (.apply (.construct tSink)))),  -- 42: DEP_ASSERT_MODIFIER_MODULO_OPERABLE_R(PP{}, apply_into<Sink>,(apply_into_parser<PP, Sink>{}), P{}, apply_into<Sink>,(apply_into_parser<P, Sink>{}))
    .parsersEq (tCall (M (.applyInto tSink)) [(P Zom2)]) (P (.map Zom2 (.apply (.construct tSink)))),  -- 42: DEP_ASSERT_MODIFIER_CALLABLE_R(apply_into<Sink>,(PP{}),(apply_into_parser<PP, Sink>{}), apply_into<Sink>,(P{}),(apply_into_parser<P, Sink>{}))
    .parsersEq (tMod (P Zom2) (M (.applyInto tSink))) (P (.map Zom2 (.apply (.construct tSink)))),  -- 42: DEP_ASSERT_MODIFIER_MODULO_OPERABLE_R(PP{}, apply_into<Sink>,(apply_into_parser<PP, Sink>{}), P{}, apply_into<Sink>,(apply_into_parser<P, Sink>{}))
    .parsersEq (tCall (M (.applyInto tSink)) [(P Zom3)]) (P (.map Zom3 (.apply (.construct tSink)))),  -- 42: DEP_ASSERT_MODIFIER_CALLABLE_R(apply_into<Sink>,(PP{}),(apply_into_parser<PP, Sink>{}), apply_into<Sink>,(P{}),(apply_into_parser<P, Sink>{}))
    .parsersEq (tMod (P Zom3) (M (.applyInto tSink))) (P (.map Zom3 (.apply (.construct tSink)))),  -- 42: DEP_ASSERT_MODIFIER_MODULO_OPERABLE_R(PP{}, apply_into<Sink>,(apply_into_parser<PP, Sink>{}), P{}, apply_into<Sink>,(apply_into_parser<P, Sink>{}))
    .parsersEq (tCall (M (.applyInto tSink)) [(P Zom4)]) (P (.map Zom4 (.apply (.construct tSink)))),  -- 42: DEP_ASSERT_MODIFIER_CALLABLE_R(apply_into<Sink>,(PP{}),(apply_into_parser<PP, Sink>{}), apply_into<Sink>,(P{}),(apply_into_parser<P, Sink>{}))
    .parsersEq (tMod (P Zom4) (M (.applyInto tSink))) (P (.map Zom4 (.apply (.construct tSink)))),  -- 42: DEP_ASSERT_MODIFIER_MODULO_OPERABLE_R(PP{}, apply_into<Sink>,(apply_into_parser<PP, Sink>{}), P{}, apply_into<Sink>,(apply_into_parser<P, Sink>{}))
    .parsersEq (tCall (M (.applyInto tSink)) [(P Del1)]) (P (.map Del1 (.apply (.construct tSink)))),  -- 42: DEP_ASSERT_MODIFIER_CALLABLE_R(apply_into<Sink>,(PP{}),(apply_into_parser<PP, Sink>{}), apply_into<Sink>,(P{}),(apply_into_parser<P, Sink>{}))
    .parsersEq (tMod (P Del1) (M (.applyInto tSink))) (P (.map Del1 (.apply (.construct tSink))))  -- 42: DEP_ASSERT_MODIFIER_MODULO_OPERABLE_R(PP{}, apply_into<Sink>,(apply_into_parser<PP, Sink>{}), P{}, apply_into<Sink>,(apply_into_parser<P, Sink>{}))
    ], Assertion.Holds a :=
  Assertion.holds_of_check (by decide +kernel)

/-- apply_into modifier / modify anything (tests/char-tests/modifiers/apply_into.cpp:42) -/
theorem charModifiersApplyInto_3_4 : ∀ a ∈ [
    .parsersEq (tCall (M (.applyInto tSink)) [(P Del2)]) (P (.map Del2 (.apply (.construct tSink)))),  -- 42: DEP_ASSERT_MODIFIER_CALLABLE_R(apply_into<Sink>,(PP{}),(apply_into_parser<PP, Sink>{}), apply_into<Sink>,(P{}),(apply_into_parser<P, Sink>{}))
    .parsersEq (tMod (P Del2) (M (.applyInto tSink))) (P (.map Del2 (.apply (.construct tSink)))),  -- 42: DEP_ASSERT_MODIFIER_MODULO_OPERABLE_R(PP{}, apply_into<Sink>,(apply_into_parser<PP, Sink>{}), P{}, apply_into<Sink>,(apply_into_parser<P, Sink>{}))
    .parsersEq (tCall (M (.applyInto tSink)) [(P Del3)]) (P (.map Del3 (.apply (.construct tSink)))),  -- 42: DEP_ASSERT_MODIFIER_CALLABLE_R(apply_into<Sink>,(PP{}),(apply_into_parser<PP, Sink>{}), apply_into<Sink>,(P{}),(apply_into_parser<P, Sink>{}))
    .parsersEq (tMod (P Del3) (M (.applyInto tSink))) (P (.map Del3 (.apply (.construct tSink)))),  -- 42: DEP_ASSERT_MODIFIER_MODULO_OPERABLE_R(PP{}, apply_into<Sink>,(apply_into_parser<PP, Sink>{}), P{}, apply_into<Sink>,(apply_into_parser<P, Sink>{}))
    .parsersEq (tCall (M (.applyInto tSink)) [(P Del4)]) (P (.map Del4 (.apply (.construct tSink)))),  -- 42: DEP_ASSERT_MODIFIER_CALLABLE_R(apply_into<Sink>,(PP{}),(apply_into_parser<PP, Sink>{}), apply_into<Sink>,(P{}),(apply_into_parser<P, Sink>{}))
    .parsersEq (tMod (P Del4) (M (.applyInto tSink))) (P (.map Del4 (.apply (.construct tSink)))),  -- 42: DEP_ASSERT_MODIFIER_MODULO_OPERABLE_R(PP{}, apply_into<Sink>,(apply_into_parser<PP, Sink>{}), P{}, apply_into<Sink>,(apply_into_parser<P, Sink>{}))
    .parsersEq (tCall (M (.applyInto tSink)) [(P Del5)]) (P (.map Del5 (.apply (.construct tSink)))),  -- 42: DEP_ASSERT_MODIFIER_CALLABLE_R(apply_into<Sink>,(PP{}),(apply_into_parser<PP, Sink>{}), apply_into<Sink>,(P{}),(apply_into_parser<P, Sink>{}))
    .parsersEq (tMod (P Del5) (M (.applyInto tSink))) (P (.map Del5 (.apply (.construct tSink)))),  -- 42: DEP_ASSERT_MODIFIER_MODULO_OPERABLE_R(PP{}, apply_into<Sink>,(apply_into_parser<PP, Sink>{}), P{}, apply_into<Sink>,(apply_into_parser<P, Sink>{}))
    .parsersEq (tCall (M (.applyInto tSink)) [(P Del6)]) (P (.map Del6 (.apply (.construct tSink)))),  -- 42: DEP_ASSERT_MODIFIER_CALLABLE_R(apply_into<Sink>,(PP{}),(apply_into_parser<PP, Sink>{}), apply_into<Sink>,(P{}),(apply_into_parser<P, Sink>{}))
    .parsersEq (tMod (P Del6) (M (.applyInto tSink))) (P (.map Del6 (.apply (.construct tSink)))),  -- 42: DEP_ASSERT_MODIFIER_MODULO_OPERABLE_R(PP{}, apply_into<Sink>,(apply_into_parser<PP, Sink>{}), P{}, apply_into<Sink>,(apply_into_parser<P, Sink>{}))
    .parsersEq (tCall (M (.applyInto tSink)) [(P Del7)]) (P (.map Del7 (.apply (.construct tSink)))),  -- 42: DEP_ASSERT_MODIFIER_CALLABLE_R(apply_into<Sink>,(PP{}),(apply_into_parser<PP, Sink>{}), apply_into<Sink>,(P{}),(apply_into_parser<P, Sink>{}))
    .parsersEq (tMod (P Del7) (M (.applyInto tSink))) (P (.map Del7 (.apply (.construct tSink)))),  -- 42: DEP_ASSERT_MODIFIER_MODULO_OPERABLE_R(PP{}, apply_into<Sink>,(apply_into_parser<PP, Sink>{}), P{}, apply_into<Sink>,(apply_into_parser<P, Sink>{}))
    .parsersEq (tCall (M (.applyInto tSink)) [(P Del8)]) (P (.map Del8 (.apply (.construct tSink)))),  -- 42: DEP_ASSERT_MODIFIER_CALLABLE_R(apply_into<Sink>,(PP{}),(apply_into_parser<PP, Sink>{}), apply_into<Sink>,(P{}),(apply_into_parser<P, Sink>{}))
    .parsersEq (tMod (P Del8) (M (.applyInto tSink))) (P (.map Del8 (.apply (.construct tSink)))),  -- 42: DEP_ASSERT_MODIFIER_MODULO_OPERABLE_R(PP{}, apply_into<Sink>,(apply_into_parser<PP, Sink>{}), P{}, apply_into<Sink>,(apply_into_parser<P, Sink>{}))
    .parsersEq (tCall (M (.applyInto tSink)) [(P Dek1)]) (P (.map Dek1 (.apply (.construct tSink)))),  -- 42: DEP_ASSERT_MODIFIER_CALLABLE_R(apply_into<Sink>,(PP{}),(apply_into_parser<PP, Sink>{}), apply_into<Sink>,(P{}),(apply_into_parser<P, Sink>{}))
    .parsersEq (tMod (P Dek1) (M (.applyInto tSink))) (P (.map Dek1 (.apply (.construct tSink)))),  -- 42: DEP_ASSERT_MODIFIER_MODULO_OPERABLE_R(PP{}, apply_into<Sink>,(apply_into_parser<PP, Sink>{}), P{}, apply_into<Sink>,(apply_into_parser<P, Sink>{}))
    .parsersEq (tCall (M (.applyInto tSink)) [(P Dek2)]) (P (.map Dek2 (.apply (.construct tSink)))),  -- 42: DEP_ASSERT_MODIFIER_CALLABLE_R(apply_into<Sink>,(PP{}),(apply_into_parser<PP, Sink>{}), apply_into<Sink>,(P{}),(apply_into_parser<P, Sink>{}))
    .parsersEq (tMod (P Dek2) (M (.applyInto tSink))) (P (.map Dek2 (.apply (.construct tSink)))),  -- 42: DEP_ASSERT_MODIFIER_MODULO_OPERABLE_R(PP{}, apply_into<Sink>,(apply_into_parser<PP, Sink>{}), P{}, apply_into<Sink>,(apply_into_parser<P, Sink>{}))
    .parsersEq (tCall (M (.applyInto tSink)) [(P Dek3)]) (P (.map Dek3 (.apply (.construct tSink)))),  -- 42: DEP_ASSERT_MODIFIER_CALLABLE_R(apply_into<Sink>,(PP{}),(apply_into_parser<PP, Sink>{}), apply_into<Sink>,(P{}),(apply_into_parser<P, Sink>{}))
    .parsersEq (tMod (P Dek3) (M (.applyInto tSink))) (P (.map Dek3 (.apply (.construct tSink)))),  -- 42: DEP_ASSERT_MODIFIER_MODULO_OPERABLE_R(PP{}, apply_into<Sink>,(apply_into_parser<PP, Sink>{}), P{}, apply_into<Sink>,(apply_into_parser<P, Sink>{}))
    .parsersEq (tCall (M (.applyInto tSink)) [(P Dek4)]) (P (.map Dek4 (.apply (.construct tSink)))),  -- 42: DEP_ASSERT_MODIFIER_CALLABLE_R(apply_into<Sink>,(PP{}),(apply_into_parser<PP, Sink>{}), apply_into<Sink>,(P{}),(apply_into_parser<P, Sink>{}))
    .parsersEq (tMod (P Dek4) (M (.applyInto tSink))) (P (.map Dek4 (.apply (.construct tSink)))),  -- 42: DEP_ASSERT_MODIFIER_MODULO_OPERABLE_R(PP{}, apply_into<Sink>,(apply_into_parser<PP, Sink>{}), P{}, apply_into<Sink>,(apply_into_parser<P, Sink>{}))
    .parsersEq (tCall (M (.applyInto tSink)) [(P Dek5)]) (P (.map Dek5 (.apply (.construct tSink)))),  -- 42: DEP_ASSERT_MODIFIER_CALLABLE_R(apply_into<Sink>,(PP{}),(apply_into_parser<PP, Sink>{}), apply_into<Sink>,(P{}),(apply_into_parser<P, Sink>{}))
    .parsersEq (tMod (P Dek5) (M (.applyInto tSink))) (P (.map Dek5 (.apply (.construct tSink)))),  -- 42: DEP_ASSERT_MODIFIER_MODULO_OPERABLE_R(PP{}, apply_into<Sink>,(apply_into_parser<PP, Sink>{}), P{}, apply_into<Sink>,(apply_into_parser<P, Sink>{}))
    .parsersEq (tCall (M (.applyInto tSink)) [(P Dek6)]) (P (.map Dek6 (.apply (.construct tSink)))),  -- 42: DEP_ASSERT_MODIFIER_CALLABLE_R(apply_into<Sink>,(PP{}),(apply_into_parser<PP, Sink>{}), apply_into<Sink>,(P{}),(apply_into_parser<P, Sink>{}))
    .parsersEq (tMod (P Dek6) (M (.applyInto tSink))) (P (.map Dek6 (.apply (.construct tSink)))),  -- 42: DEP_ASSERT_MODIFIER_MODULO_OPERABLE_R(PP{}, apply_into<Sink>,(apply_into_parser<PP, Sink>{}), P{}, apply_into<Sink>,(apply_into_parser<P, Sink>{}))
    .parsersEq (tCall (M (.applyInto tSink)) [(P Dek7)]) (P (.map Dek7 (.apply (.construct tSink)))),  -- 42: DEP_ASSERT_MODIFIER_CALLABLE_R(apply_into<Sink>,(PP{}),(apply_into_parser<PP, Sink>{}), apply_into<Sink>,(P{}),(apply_into_parser<P, Sink>{}))
    .parsersEq (tMod (P Dek7) (M (.applyInto tSink))) (P (.map Dek7 (.apply (.construct tSink)))),  -- 42: DEP_ASSERT_MODIFIER_MODULO_OPERABLE_R(PP{}, apply_into<Sink>,(apply_into_parser<PP, Sink>{}), P{}, apply_into<Sink>,(apply_into_parser<P, Sink>{}))
    .parsersEq (tCall (M (.applyInto tSink)) [(P Dek8)]) (P (.map Dek8 (.apply (.construct tSink)))),  -- 42: DEP_ASSERT_MODIFIER_CALLABLE_R(apply_into<Sink>,(PP{}),(apply_into_parser<PP, Sink>{}), apply_into<Sink>,(P{}),(apply_into_parser<P, Sink>{}))
    .parsersEq (tMod (P Dek8) (M (.applyInto tSink))) (P (.map Dek8 (.apply (.construct tSink))))  -- 42: DEP_ASSERT_MODIFIER_MODULO_OPERABLE_R(PP{}, apply_into<Sink>,(apply_into_parser<PP, Sink>{}), P{}, apply_into<Sink>,(apply_into_parser<P, Sink>{}))
    ], Assertion.Holds a :=
  Assertion.holds_of_check (by decide +kernel)

end Tok3n.Tests
