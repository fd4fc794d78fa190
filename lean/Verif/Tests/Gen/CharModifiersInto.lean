import Verif.Tests.Gen.SamplesChar
/- Generated by tools/tests2lean.py from tests/char-tests/modifiers/into.cpp. -/

namespace Tok3n.Tests

/-- into modifier / prefix (tests/char-tests/modifiers/into.cpp:14) -/
theorem charModifiersInto_1 : ∀ a ∈ [
    .parsersEq (P Int1) (tCall (M (.into tClass1)) [(P SpaceDot)]),  -- 14: ASSERT_PARSER_VALUES_EQ(int1, into<Class1>(spacedot))
    .parsersEq (P Int2) (tCall (M (.into tClass2)) [(tThen (P ABC) (P SpaceDot))])  -- 15: ASSERT_PARSER_VALUES_EQ(int2, into<Class2>(abc>> spacedot))
    ], Assertion.Holds a :=
  Assertion.holds_of_check (by decide +kernel)

/-- into modifier / infix (tests/char-tests/modifiers/into.cpp:20) -/
theorem charModifiersInto_2 : ∀ a ∈ [
    .parsersEq (P Int1) (tMod (P SpaceDot) (M (.into tClass1))),  -- 20: ASSERT_PARSER_VALUES_EQ(int1, spacedot % into<Class1>)
    .parsersEq (P Int2) (tMod (tThen (P ABC) (P SpaceDot)) (M (.into tClass2)))  -- 21: ASSERT_PARSER_VALUES_EQ(int2,(abc>> spacedot) % into<Class2>)
    ], Assertion.Holds a :=
  Assertion.holds_of_check (by decide +kernel)

/-- into modifier / modify anything (tests/char-tests/modifiers/into.cpp:42) -/
theorem charModifiersInto_3_1 : ∀ a ∈ [
    .parsersEq (tCall (M (.into tSink)) [(P Ign1)]) (P (.map Ign1 (.construct tSink))),  -- 42: DEP_ASSERT_MODIFIER_CALLABLE_R(into<Sink>,(PP{}),(into_parser<PP, Sink>{}), into<Sink>,(P{}),(into_parser<P, Sink>{}))
    .parsersEq (tMod (P Ign1) (M (.into tSink))) (P (.map Ign1 (.construct tSink))),  -- 42: DEP_ASSERT_MODIFIER_MODULO_OPERABLE_R(PP{}, into<Sink>,(into_parser<PP, Sink>{}), P{}, into<Sink>,(into_parser<P, Sink>{}))
    .parsersEq (tCall (M (.into tSink)) [(P Ign2)]) (P (.map Ign2 (.construct tSink))),  -- 42: DEP_ASSERT_MODIFIER_CALLABLE_R(into<Sink>,(PP{}),(into_parser<PP, Sink>{}), into<Sink>,(P{}),(into_parser<P, Sink>{}))
    .parsersEq (tMod (P Ign2) (M (.into tSink))) (P (.map Ign2 (.construct tSink))),  -- 42: DEP_ASSERT_MODIFIER_MODULO_OPERABLE_R(PP{}, into<Sink>,(into_parser<PP, Sink>{}), P{}, into<Sink>,(into_parser<P, Sink>{}))
    .parsersEq (tCall (M (.into tSink)) [(P Ign3)]) (P (.map Ign3 (.construct tSink))),  -- 42: DEP_ASSERT_MODIFIER_CALLABLE_R(into<Sink>,(PP{}),(into_parser<PP, Sink>{}), into<Sink>,(P{}),(into_parser<P, Sink>{}))
    .parsersEq (tMod (P Ign3) (M (.into tSink))) (P (.map Ign3 (.construct tSink))),  -- 42: DEP_ASSERT_MODIFIER_MODULO_OPERABLE_R(PP{}, into<Sink>,(into_parser<PP, Sink>{}), P{}, into<Sink>,(into_parser<P, Sink>{}))
    .parsersEq (tCall (M (.into tSink)) [(P Ign4)]) (P (.map Ign4 (.construct tSink))),  -- 42: DEP_ASSERT_MODIFIER_CALLABLE_R(into<Sink>,(PP{}),(into_parser<PP, Sink>{}), into<Sink>,(P{}),(into_parser<P, Sink>{}))
    .parsersEq (tMod (P Ign4) (M (.into tSink))) (P (.map Ign4 (.construct tSink))),  -- 42: DEP_ASSERT_MODIFIER_MODULO_OPERABLE_R(PP{}, into<Sink>,(into_parser<PP, Sink>{}), P{}, into<Sink>,(into_parser<P, Sink>{}))
    .parsersEq (tCall (M (.into tSink)) [(P Ign5)]) (P (.map Ign5 (.construct tSink))),  -- 42: DEP_ASSERT_MODIFIER_CALLABLE_R(into<Sink>,(PP{}),(into_parser<PP, Sink>{}), into<Sink>,(P{}),(into_parser<P, Sink>{}))
    .parsersEq (tMod (P Ign5) (M (.into tSink))) (P (.map Ign5 (.construct tSink))),  -- 42: DEP_ASSERT_MODIFIER_MODULO_OPERABLE_R(PP{}, into<Sink>,(into_parser<PP, Sink>{}), P{}, into<Sink>,(into_parser<P, Sink>{}))
    .parsersEq (tCall (M (.into tSink)) [(P Com1)]) (P (.map Com1 (.construct tSink))),  -- 42: DEP_ASSERT_MODIFIER_CALLABLE_R(into<Sink>,(PP{}),(into_parser<PP, Sink>{}), into<Sink>,(P{}),(into_parser<P, Sink>{}))
    .parsersEq (tMod (P Com1) (M (.into tSink))) (P (.map Com1 (.construct tSink))),  -- 42: DEP_ASSERT_MODIFIER_MODULO_OPERABLE_R(PP{}, into<Sink>,(into_parser<PP, Sink>{}), P{}, into<Sink>,(into_parser<P, Sink>{}))
    .parsersEq (tCall (M (.into tSink)) [(P Com2)]) (P (.map Com2 (.construct tSink))),  -- 42: DEP_ASSERT_MODIFIER_CALLABLE_R(into<Sink>,(PP{}),(into_parser<PP, Sink>{}), into<Sink>,(P{}),(into_parser<P, Sink>{}))
    .parsersEq (tMod (P Com2) (M (.into tSink))) (P (.map Com2 (.construct tSink))),  -- 42: DEP_ASSERT_MODIFIER_MODULO_OPERABLE_R(PP{}, into<Sink>,(into_parser<PP, Sink>{}), P{}, into<Sink>,(into_parser<P, Sink>{}))
    .parsersEq (tCall (M (.into tSink)) [(P Com3)]) (P (.map Com3 (.construct tSink))),  -- 42: DEP_ASSERT_MODIFIER_CALLABLE_R(into<Sink>,(PP{}),(into_parser<PP, Sink>{}), into<Sink>,(P{}),(into_parser<P, Sink>{}))
    .parsersEq (tMod (P Com3) (M (.into tSink))) (P (.map Com3 (.construct tSink))),  -- 42: DEP_ASSERT_MODIFIER_MODULO_OPERABLE_R(PP{}, into<Sink>,(into_parser<PP, Sink>{}), P{}, into<Sink>,(into_parser<P, Sink>{}))
    .parsersEq (tCall (M (.into tSink)) [(P Com4)]) (P (.map Com4 (.construct tSink))),  -- 42: DEP_ASSERT_MODIFIER_CALLABLE_R(into<Sink>,(PP{}),(into_parser<PP, Sink>{}), into<Sink>,(P{}),(into_parser<P, Sink>{}))
    .parsersEq (tMod (P Com4) (M (.into tSink))) (P (.map Com4 (.construct tSink))),  -- 42: DEP_ASSERT_MODIFIER_MODULO_OPERABLE_R(PP{}, into<Sink>,(into_parser<PP, Sink>{}), P{}, into<Sink>,(into_parser<P, Sink>{}))
    .parsersEq (tCall (M (.into tSink)) [(P Com5)]) (P (.map Com5 (.construct tSink))),  -- 42: DEP_ASSERT_MODIFIER_CALLABLE_R(into<Sink>,(PP{}),(into_parser<PP, Sink>{}), into<Sink>,(P{}),(into_parser<P, Sink>{}))
    .parsersEq (tMod (P Com5) (M (.into tSink))) (P (.map Com5 (.construct tSink))),  -- 42: DEP_ASSERT_MODIFIER_MODULO_OPERABLE_R(PP{}, into<Sink>,(into_parser<PP, Sink>{}), P{}, into<Sink>,(into_parser<P, Sink>{}))
    .parsersEq (tCall (M (.into tSink)) [(P Com6)]) (P (.map Com6 (.construct tSink))),  -- 42: DEP_ASSERT_MODIFIER_CALLABLE_R(into<Sink>,(PP{}),(into_parser<PP, Sink>{}), into<Sink>,(P{}),(into_parser<P, Sink>{}))
    .parsersEq (tMod (P Com6) (M (.into tSink))) (P (.map Com6 (.construct tSink))),  -- 42: DEP_ASSERT_MODIFIER_MODULO_OPERABLE_R(PP{}, into<Sink>,(into_parser<PP, Sink>{}), P{}, into<Sink>,(into_parser<P, Sink>{}))
    .parsersEq (tCall (M (.into tSink)) [(P Com7)]) (P (.map Com7 (.construct tSink))),  -- 42: DEP_ASSERT_MODIFIER_CALLABLE_R(into<Sink>,(PP{}),(into_parser<PP, Sink>{}), into<Sink>,(P{}),(into_parser<P, Sink>{}))
    .parsersEq (tMod (P Com7) (M (.into tSink))) (P (.map Com7 (.construct tSink))),  -- 42: DEP_ASSERT_MODIFIER_MODULO_OPERABLE_R(PP{}, into<Sink>,(into_parser<PP, Sink>{}), P{}, into<Sink>,(into_parser<P, Sink>{}))
    .parsersEq (tCall (M (.into tSink)) [(P Nam1)]) (P (.map Nam1 (.construct tSink))),  -- 42: DEP_ASSERT_MODIFIER_CALLABLE_R(into<Sink>,(PP{}),(into_parser<PP, Sink>{}), into<Sink>,(P{}),(into_parser<P, Sink>{}))
    .parsersEq (tMod (P Nam1) (M (.into tSink))) (P (.map Nam1 (.construct tSink))),  -- 42: DEP_ASSERT_MODIFIER_MODULO_OPERABLE_R(PP{}, into<Sink>,(into_parser<PP, Sink>{}), P{}, into<Sink>,(into_parser<P, Sink>{}))
    .parsersEq (tCall (M (.into tSink)) [(P Nam2)]) (P (.map Nam2 (.construct tSink))),  -- 42: DEP_ASSERT_MODIFIER_CALLABLE_R(into<Sink>,(PP{}),(into_parser<PP, Sink>{}), into<Sink>,(P{}),(into_parser<P, Sink>{}))
    .parsersEq (tMod (P Nam2) (M (.into tSink))) (P (.map Nam2 (.construct tSink))),  -- 42: DEP_ASSERT_MODIFIER_MODULO_OPERABLE_R(PP{}, into<Sink>,(into_parser<PP, Sink>{}), P{}, into<Sink>,(into_parser<P, Sink>{}))
    .parsersEq (tCall (M (.into tSink)) [(P Nam3)]) (P (.map Nam3 (.construct tSink))),  -- 42: DEP_ASSERT_MODIFIER_CALLABLE_R(into<Sink>,(PP{}),(into_parser<PP, Sink>{}), into<Sink>,(P{}),(into_parser<P, Sink>{}))
    .parsersEq (tMod (P Nam3) (M (.into tSink))) (P (.map Nam3 (.construct tSink))),  -- 42: DEP_ASSERT_MODIFIER_MODULO_OPERABLE_R(PP{}, into<Sink>,(into_parser<PP, Sink>{}), P{}, into<Sink>,(into_parser<P, Sink>{}))
    .parsersEq (tCall (M (.into tSink)) [(P Nam4)]) (P (.map Nam4 (.construct tSink))),  -- 42: DEP_ASSERT_MODIFIER_CALLABLE_R(into<Sink>,(PP{}),(into_parser<PP, Sink>{}), into<Sink>,(P{}),(into_parser<P, Sink>{}))
    .parsersEq (tMod (P Nam4) (M (.into tSink))) (P (.map Nam4 (.construct tSink))),  -- 42: DEP_ASSERT_MODIFIER_MODULO_OPERABLE_R(PP{}, into<Sink>,(into_parser<PP, Sink>{}), P{}, into<Sink>,(into_parser<P, Sink>{}))
    .parsersEq (tCall (M (.into tSink)) [(P Any1)]) (P (.map Any1 (.construct tSink))),  -- 42: DEP_ASSERT_MODIFIER_CALLABLE_R(into<Sink>,(PP{}),(into_parser<PP, Sink>{}), into<Sink>,(P{}),(into_parser<P, Sink>{}))
    .parsersEq (tMod (P Any1) (M (.into tSink))) (P (.map Any1 (.construct tSink))),  -- 42: DEP_ASSERT_MODIFIER_MODULO_OPERABLE_R(PP{}, into<Sink>,(into_parser<PP, Sink>{}), P{}, into<Sink>,(into_parser<P, Sink>{}))
    .parsersEq (tCall (M (.into tSink)) [(P Any2)]) (P (.map Any2 (.construct tSink))),  -- 42: DEP_ASSERT_MODIFIER_CALLABLE_R(into<Sink>,(PP{}),(into_parser<PP, Sink>{}), into<Sink>,(P{}),(into_parser<P, Sink>{}))
    .parsersEq (tMod (P Any2) (M (.into tSink))) (P (.map Any2 (.construct tSink))),  -- 42: DEP_ASSERT_MODIFIER_MODULO_OPERABLE_R(PP{}, into<Sink>,(into_parser<PP, Sink>{}), P{}, into<Sink>,(into_parser<P, Sink>{}))
    .parsersEq (tCall (M (.into tSink)) [(P Any3)]) (P (.map Any3 (.construct tSink))),  -- 42: DEP_ASSERT_MODIFIER_CALLABLE_R(into<Sink>,(PP{}),(into_parser<PP, Sink>{}), into<Sink>,(P{}),(into_parser<P, Sink>{}))
    .parsersEq (tMod (P Any3) (M (.into tSink))) (P (.map Any3 (.construct tSink))),  -- 42: DEP_ASSERT_MODIFIER_MODULO_OPERABLE_R(PP{}, into<Sink>,(into_parser<PP, Sink>{}), P{}, into<Sink>,(into_parser<P, Sink>{}))
    .parsersEq (tCall (M (.into tSink)) [(P Any4)]) (P (.map Any4 (.construct tSink))),  -- 42: DEP_ASSERT_MODIFIER_CALLABLE_R(into<Sink>,(PP{}),(into_parser<PP, Sink>{}), into<Sink>,(P{}),(into_parser<P, Sink>{}))
    .parsersEq (tMod (P Any4) (M (.into tSink))) (P (.map Any4 (.construct tSink))),  -- 42: DEP_ASSERT_MODIFIER_MODULO_OPERABLE_R(PP{}, into<Sink>,(into_parser<PP, Sink>{}), P{}, into<Sink>,(into_parser<P, Sink>{}))
    .parsersEq (tCall (M (.into tSink)) [(P Non1)]) (P (.map Non1 (.construct tSink))),  -- 42: DEP_ASSERT_MODIFIER_CALLABLE_R(into<Sink>,(PP{}),(into_parser<PP, Sink>{}), into<Sink>,(P{}),(into_parser<P, Sink>{}))
    .parsersEq (tMod (P Non1) (M (.into tSink))) (P (.map Non1 (.construct tSink))),  -- 42: DEP_ASSERT_MODIFIER_MODULO_OPERABLE_R(PP{}, into<Sink>,(into_parser<PP, Sink>{}), P{}, into<Sink>,(into_parser<P, Sink>{}))
    .parsersEq (tCall (M (.into tSink)) [(P Non2)]) (P (.map Non2 (.construct tSink))),  -- 42: DEP_ASSERT_MODIFIER_CALLABLE_R(into<Sink>,(PP{}),(into_parser<PP, Sink>{}), into<Sink>,(P{}),(into_parser<P, Sink>{}))
    .parsersEq (tMod (P Non2) (M (.into tSink))) (P (.map Non2 (.construct tSink))),  -- 42: DEP_ASSERT_MODIFIER_MODULO_OPERABLE_R(PP{}, into<Sink>,(into_parser<PP, Sink>{}), P{}, into<Sink>,(into_parser<P, Sink>{}))
    .parsersEq (tCall (M (.into tSink)) [(P Non3)]) (P (.map Non3 (.construct tSink))),  -- 42: DEP_ASSERT_MODIFIER_CALLABLE_R(into<Sink>,(PP{}),(into_parser<PP, Sink>{}), into<Sink>,(P{}),(into_parser<P, Sink>{}))
    .parsersEq (tMod (P Non3) (M (.into tSink))) (P (.map Non3 (.construct tSink))),  -- 42: DEP_ASSERT_MODIFIER_MODULO_OPERABLE_R(PP{}, into<Sink>,(into_parser<PP, Sink>{}), P{}, into<Sink>,(into_parser<P, Sink>{}))
    .parsersEq (tCall (M (.into tSink)) [(P Non4)]) (P (.map Non4 (.construct tSink))),  -- 42: DEP_ASSERT_MODIFIER_CALLABLE_R(into<Sink>,(PP{}),(into_parser<PP, Sink>{}), into<Sink>,(P{}),(into_parser<P, Sink>{}))
    .parsersEq (tMod (P Non4) (M (.into tSink))) (P (.map Non4 (.construct tSink))),  -- 42: DEP_ASSERT_MODIFIER_MODULO_OPERABLE_R(PP{}, into<Sink>,(into_parser<PP, Sink>{}), P{}, into<Sink>,(into_parser<P, Sink>{}))
    .parsersEq (tCall (M (.into tSink)) [(P Non5)]) (P (.map Non5 (.construct tSink))),  -- 42: DEP_ASSERT_MODIFIER_CALLABLE_R(into<Sink>,(PP{}),(into_parser<PP, Sink>{}), into<Sink>,(P{}),(into_parser<P, Sink>{}))
    .parsersEq (tMod (P Non5) (M (.into tSink))) (P (.map Non5 (.construct tSink))),  -- 42: DEP_ASSERT_MODIFIER_MODULO_OPERABLE_R(PP{}, into<Sink>,(into_parser<PP, Sink>{}), P{}, into<Sink>,(into_parser<P, Sink>{}))
    .parsersEq (tCall (M (.into tSink)) [(P All1)]) (P (.map All1 (.construct tSink))),  -- 42: DEP_ASSERT_MODIFIER_CALLABLE_R(into<Sink>,(PP{}),(into_parser<PP, Sink>{}), into<Sink>,(P{}),(into_parser<P, Sink>{}))
    .parsersEq (tMod (P All1) (M (.into tSink))) (P (.map All1 (.construct tSink))),  -- 42: DEP_ASSERT_MODIFIER_MODULO_OPERABLE_R(PP{}, into<Sink>,(into_parser<PP, Sink>{}), P{}, into<Sink>,(into_parser<P, Sink>{}))
    .parsersEq (tCall (M (.into tSink)) [(P All2)]) (P (.map All2 (.construct tSink))),  -- 42: DEP_ASSERT_MODIFIER_CALLABLE_R(into<Sink>,(PP{}),(into_parser<PP, Sink>{}), into<Sink>,(P{}),(into_parser<P, Sink>{}))
    .parsersEq (tMod (P All2) (M (.into tSink))) (P (.map All2 (.construct tSink))),  -- 42: DEP_ASSERT_MODIFIER_MODULO_OPERABLE_R(PP{}, into<Sink>,(into_parser<PP, Sink>{}), P{}, into<Sink>,(into_parser<P, Sink>{}))
    .parsersEq (tCall (M (.into tSink)) [(P All3)]) (P (.map All3 (.construct tSink))),  -- 42: DEP_ASSERT_MODIFIER_CALLABLE_R(into<Sink>,(PP{}),(into_parser<PP, Sink>{}), into<Sink>,(P{}),(into_parser<P, Sink>{}))
    .parsersEq (tMod (P All3) (M (.into tSink))) (P (.map All3 (.construct tSink))),  -- 42: DEP_ASSERT_MODIFIER_MODULO_OPERABLE_R(PP{}, into<Sink>,(into_parser<PP, Sink>{}), P{}, into<Sink>,(into_parser<P, Sink>{}))
    .parsersEq (tCall (M (.into tSink)) [(P All4)]) (P (.map All4 (.construct tSink))),  -- 42: DEP_ASSERT_MODIFIER_CALLABLE_R(into<Sink>,(PP{}),(into_parser<PP, Sink>{}), into<Sink>,(P{}),(into_parser<P, Sink>{}))
    .parsersEq (tMod (P All4) (M (.into tSink))) (P (.map All4 (.construct tSink))),  -- 42: DEP_ASSERT_MODIFIER_MODULO_OPERABLE_R(PP{}, into<Sink>,(into_parser<PP, Sink>{}), P{}, into<Sink>,(into_parser<P, Sink>{}))
    .parsersEq (tCall (M (.into tSink)) [(P Eps1)]) (P (.map Eps1 (.construct tSink))),  -- 42: DEP_ASSERT_MODIFIER_CALLABLE_R(into<Sink>,(PP{}),(into_parser<PP, Sink>{}), into<Sink>,(P{}),(into_parser<P, Sink>{}))
    .parsersEq (tMod (P Eps1) (M (.into tSink))) (P (.map Eps1 (.construct tSink)))  -- 42: DEP_ASSERT_MODIFIER_MODULO_OPERABLE_R(PP{}, into<Sink>,(into_parser<PP, Sink>{}), P{}, into<Sink>,(into_parser<P, Sink>{}))
    ], Assertion.Holds a :=
  Assertion.holds_of_check (by decide +kernel)

/-- into modifier / modify anything (tests/char-tests/modifiers/into.cpp:42) -/
theorem charModifiersInto_3_2 : ∀ a ∈ [
    .parsersEq (tCall (M (.into tSink)) [(P Ant1)]) (P (.map Ant1 (.construct tSink))),  -- 42: DEP_ASSERT_MODIFIER_CALLABLE_R(into<Sink>,(PP{}),(into_parser<PP, Sink>{}), into<Sink>,(P{}),(into_parser<P, Sink>{}))
    .parsersEq (tMod (P Ant1) (M (.into tSink))) (P (.map Ant1 (.construct tSink))),  -- 42: DEP_ASSERT_MODIFIER_MODULO_OPERABLE_R(PP{}, into<Sink>,(into_parser<PP, Sink>{}), P{}, into<Sink>,(into_parser<P, Sink>{}))
    .parsersEq (tCall (M (.into tSink)) [(P QQ)]) (P (.map QQ (.construct tSink))),  -- 42: DEP_ASSERT_MODIFIER_CALLABLE_R(into<Sink>,(PP{}),(into_parser<PP, Sink>{}), into<Sink>,(P{}),(into_parser<P, Sink>{}))
    .parsersEq (tMod (P QQ) (M (.into tSink))) (P (.map QQ (.construct tSink))),  -- 42: DEP_ASSERT_MODIFIER_MODULO_OPERABLE_R(PP{}, into<Sink>,(into_parser<PP, Sink>{}), P{}, into<Sink>,(into_parser<P, Sink>{}))
    .parsersEq (tCall (M (.into tSink)) [(P ABC)]) (P (.map ABC (.construct tSink))),  -- 42: DEP_ASSERT_MODIFIER_CALLABLE_R(into<Sink>,(PP{}),(into_parser<PP, Sink>{}), into<Sink>,(P{}),(into_parser<P, Sink>{}))
    .parsersEq (tMod (P ABC) (M (.into tSink))) (P (.map ABC (.construct tSink))),  -- 42: DEP_ASSERT_MODIFIER_MODULO_OPERABLE_R(PP{}, into<Sink>,(into_parser<PP, Sink>{}), P{}, into<Sink>,(into_parser<P, Sink>{}))
    .parsersEq (tCall (M (.into tSink)) [(P Comma)]) (P (.map Comma (.construct tSink))),  -- 42: DEP_ASSERT_MODIFIER_CALLABLE_R(into<Sink>,(PP{}),(into_parser<PP, Sink>{}), into<Sink>,(P{}),(into_parser<P, Sink>{}))
    .parsersEq (tMod (P Comma) (M (.into tSink))) (P (.map Comma (.construct tSink))),  -- 42: DEP_ASSERT_MODIFIER_MODULO_OPERABLE_R(PP{}, into<Sink>,(into_parser<PP, Sink>{}), P{}, into<Sink>,(into_parser<P, Sink>{}))
    .parsersEq (tCall (M (.into tSink)) [(P SpaceDot)]) (P (.map SpaceDot (.construct tSink))),  -- 42: DEP_ASSERT_MODIFIER_CALLABLE_R(into<Sink>,(PP{}),(into_parser<PP, Sink>{}), into<Sink>,(P{}),(into_parser<P, Sink>{}))
    .parsersEq (tMod (P SpaceDot) (M (.into tSink))) (P (.map SpaceDot (.construct tSink))),  -- 42: DEP_ASSERT_MODIFIER_MODULO_OPERABLE_R(PP{}, into<Sink>,(into_parser<PP, Sink>{}), P{}, into<Sink>,(into_parser<P, Sink>{}))
    .parsersEq (tCall (M (.into tSink)) [(P Cho1)]) (P (.map Cho1 (.construct tSink))),  -- 42: DEP_ASSERT_MODIFIER_CALLABLE_R(into<Sink>,(PP{}),(into_parser<PP, Sink>{}), into<Sink>,(P{}),(into_parser<P, Sink>{}))
    .parsersEq (tMod (P Cho1) (M (.into tSink))) (P (.map Cho1 (.construct tSink))),  -- 42: DEP_ASSERT_MODIFIER_MODULO_OPERABLE_R(PP{}, into<Sink>,(into_parser<PP, Sink>{}), P{}, into<Sink>,(into_parser<P, Sink>{}))
    .parsersEq (tCall (M (.into tSink)) [(P Cho2)]) (P (.map Cho2 (.construct tSink))),  -- 42: DEP_ASSERT_MODIFIER_CALLABLE_R(into<Sink>,(PP{}),(into_parser<PP, Sink>{}), into<Sink>,(P{}),(into_parser<P, Sink>{}))
    .parsersEq (tMod (P Cho2) (M (.into tSink))) (P (.map Cho2 (.construct tSink))),  -- 42: DEP_ASSERT_MODIFIER_MODULO_OPERABLE_R(PP{}, into<Sink>,(into_parser<PP, Sink>{}), P{}, into<Sink>,(into_parser<P, Sink>{}))
    .parsersEq (tCall (M (.into tSink)) [(P Cho3)]) (P (.map Cho3 (.construct tSink))),  -- 42: DEP_ASSERT_MODIFIER_CALLABLE_R(into<Sink>,(PP{}),(into_parser<PP, Sink>{}), into<Sink>,(P{}),(into_parser<P, Sink>{}))
    .parsersEq (tMod (P Cho3) (M (.into tSink))) (P (.map Cho3 (.construct tSink))),  -- 42: DEP_ASSERT_MODIFIER_MODULO_OPERABLE_R(PP{}, into<Sink>,(into_parser<PP, Sink>{}), P{}, into<Sink>,(into_parser<P, Sink>{}))
    .parsersEq (tCall (M (.into tSink)) [(P Cho4)]) (P (.map Cho4 (.construct tSink))),  -- 42: DEP_ASSERT_MODIFIER_CALLABLE_R(into<Sink>,(PP{}),(into_parser<PP, Sink>{}), into<Sink>,(P{}),(into_parser<P, Sink>{}))
    .parsersEq (tMod (P Cho4) (M (.into tSink))) (P (.map Cho4 (.construct tSink))),  -- 42: DEP_ASSERT_MODIFIER_MODULO_OPERABLE_R(PP{}, into<Sink>,(into_parser<PP, Sink>{}), P{}, into<Sink>,(into_parser<P, Sink>{}))
    .parsersEq (tCall (M (.into tSink)) [(P Cho5)]) (P (.map Cho5 (.construct tSink))),  -- 42: DEP_ASSERT_MODIFIER_CALLABLE_R(into<Sink>,(PP{}),(into_parser<PP, Sink>{}), into<Sink>,(P{}),(into_parser<P, Sink>{}))
    .parsersEq (tMod (P Cho5) (M (.into tSink))) (P (.map Cho5 (.construct tSink))),  -- 42: DEP_ASSERT_MODIFIER_MODULO_OPERABLE_R(PP{}, into<Sink>,(into_parser<PP, Sink>{}), P{}, into<Sink>,(into_parser<P, Sink>{}))
    .parsersEq (tCall (M (.into tSink)) [(P Seq1)]) (P (.map Seq1 (.construct tSink))),  -- 42: DEP_ASSERT_MODIFIER_CALLABLE_R(into<Sink>,(PP{}),(into_parser<PP, Sink>{}), into<Sink>,(P{}),(into_parser<P, Sink>{}))
    .parsersEq (tMod (P Seq1) (M (.into tSink))) (P (.map Seq1 (.construct tSink))),  -- 42: DEP_ASSERT_MODIFIER_MODULO_OPERABLE_R(PP{}, into<Sink>,(into_parser<PP, Sink>{}), P{}, into<Sink>,(into_parser<P, Sink>{}))
    .parsersEq (tCall (M (.into tSink)) [(P Seq2)]) (P (.map Seq2 (.construct tSink))),  -- 42: DEP_ASSERT_MODIFIER_CALLABLE_R(into<Sink>,(PP{}),(into_parser<PP, Sink>{}), into<Sink>,(P{}),(into_parser<P, Sink>{}))
    .parsersEq (tMod (P Seq2) (M (.into tSink))) (P (.map Seq2 (.construct tSink))),  -- 42: DEP_ASSERT_MODIFIER_MODULO_OPERABLE_R(PP{}, into<Sink>,(into_parser<PP, Sink>{}), P{}, into<Sink>,(into_parser<P, Sink>{}))
    .parsersEq (tCall (M (.into tSink)) [(P Seq3)]) (P (.map Seq3 (.construct tSink))),  -- 42: DEP_ASSERT_MODIFIER_CALLABLE_R(into<Sink>,(PP{}),(into_parser<PP, Sink>{}), into<Sink>,(P{}),(into_parser<P, Sink>{}))
    .parsersEq (tMod (P Seq3) (M (.into tSink))) (P (.map Seq3 (.construct tSink))),  -- 42: DEP_ASSERT_MODIFIER_MODULO_OPERABLE_R(PP{}, into<Sink>,(into_parser<PP, Sink>{}), P{}, into<Sink>,(into_parser<P, Sink>{}))
    .parsersEq (tCall (M (.into tSink)) [(P Seq4)]) (P (.map Seq4 (.construct tSink))),  -- 42: DEP_ASSERT_MODIFIER_CALLABLE_R(into<Sink>,(PP{}),(into_parser<PP, Sink>{}), into<Sink>,(P{}),(into_parser<P, Sink>{}))
    .parsersEq (tMod (P Seq4) (M (.into tSink))) (P (.map Seq4 (.construct tSink))),  -- 42: DEP_ASSERT_MODIFIER_MODULO_OPERABLE_R(PP{}, into<Sink>,(into_parser<PP, Sink>{}), P{}, into<Sink>,(into_parser<P, Sink>{}))
    .parsersEq (tCall (M (.into tSink)) [(P Seq5)]) (P (.map Seq5 (.construct tSink))),  -- 42: DEP_ASSERT_MODIFIER_CALLABLE_R(into<Sink>,(PP{}),(into_parser<PP, Sink>{}), into<Sink>,(P{}),(into_parser<P, Sink>{}))
    .parsersEq (tMod (P Seq5) (M (.into tSink))) (P (.map Seq5 (.construct tSink))),  -- 42: DEP_ASSERT_MODIFIER_MODULO_OPERABLE_R(PP{}, into<Sink>,(into_parser<PP, Sink>{}), P{}, into<Sink>,(into_parser<P, Sink>{}))
    .parsersEq (tCall (M (.into tSink)) [(P Joi1)]) (P (.map Joi1 (.construct tSink))),  -- 42: DEP_ASSERT_MODIFIER_CALLABLE_R(into<Sink>,(PP{}),(into_parser<PP, Sink>{}), into<Sink>,(P{}),(into_parser<P, Sink>{}))
    .parsersEq (tMod (P Joi1) (M (.into tSink))) (P (.map Joi1 (.construct tSink))),  -- 42: DEP_ASSERT_MODIFIER_MODULO_OPERABLE_R(PP{}, into<Sink>,(into_parser<PP, Sink>{}), P{}, into<Sink>,(into_parser<P, Sink>{}))
    .parsersEq (tCall (M (.into tSink)) [(P Joi2)]) (P (.map Joi2 (.construct tSink))),  -- 42: DEP_ASSERT_MODIFIER_CALLABLE_R(into<Sink>,(PP{}),(into_parser<PP, Sink>{}), into<Sink>,(P{}),(into_parser<P, Sink>{}))
    .parsersEq (tMod (P Joi2) (M (.into tSink))) (P (.map Joi2 (.construct tSink))),  -- 42: DEP_ASSERT_MODIFIER_MODULO_OPERABLE_R(PP{}, into<Sink>,(into_parser<PP, Sink>{}), P{}, into<Sink>,(into_parser<P, Sink>{}))
    .parsersEq (tCall (M (.into tSink)) [(P Joi3)]) (P (.map Joi3 (.construct tSink))),  -- 42: DEP_ASSERT_MODIFIER_CALLABLE_R(into<Sink>,(PP{}),(into_parser<PP, Sink>{}), into<Sink>,(P{}),(into_parser<P, Sink>{}))
    .parsersEq (tMod (P Joi3) (M (.into tSink))) (P (.map Joi3 (.construct tSink))),  -- 42: DEP_ASSERT_MODIFIER_MODULO_OPERABLE_R(PP{}, into<Sink>,(into_parser<PP, Sink>{}), P{}, into<Sink>,(into_parser<P, Sink>{}))
    .parsersEq (tCall (M (.into tSink)) [(P Joi4)]) (P (.map Joi4 (.construct tSink))),  -- 42: DEP_ASSERT_MODIFIER_CALLABLE_R(into<Sink>,(PP{}),(into_parser<PP, Sink>{}), into<Sink>,(P{}),(into_parser<P, Sink>{}))
    .parsersEq (tMod (P Joi4) (M (.into tSink))) (P (.map Joi4 (.construct tSink))),  -- 42: DEP_ASSERT_MODIFIER_MODULO_OPERABLE_R(PP{}, into<Sink>,(into_parser<PP, Sink>{}), P{}, into<Sink>,(into_parser<P, Sink>{}))
    .parsersEq (tCall (M (.into tSink)) [(P Joi5)]) (P (.map Joi5 (.construct tSink))),  -- 42: DEP_ASSERT_MODIFIER_CALLABLE_R(into<Sink>,(PP{}),(into_parser<PP, Sink>{}), into<Sink>,(P{}),(into_parser<P, Sink>{}))
    .parsersEq (tMod (P Joi5) (M (.into tSink))) (P (.map Joi5 (.construct tSink))),  -- 42: DEP_ASSERT_MODIFIER_MODULO_OPERABLE_R(PP{}, into<Sink>,(into_parser<PP, Sink>{}), P{}, into<Sink>,(into_parser<P, Sink>{}))
    .parsersEq (tCall (M (.into tSink)) [(P Map1)]) (P (.map Map1 (.construct tSink))),  -- 42: DEP_ASSERT_MODIFIER_CALLABLE_R(into<Sink>,(PP{}),(into_parser<PP, Sink>{}), into<Sink>,(P{}),(into_parser<P, Sink>{}))
    .parsersEq (tMod (P Map1) (M (.into tSink))) (P (.map Map1 (.construct tSink))),  -- 42: DEP_ASSERT_MODIFIER_MODULO_OPERABLE_R(PP{}, into<Sink>,(into_parser<PP, Sink>{}), P{}, into<Sink>,(into_parser<P, Sink>{}))
    .parsersEq (tCall (M (.into tSink)) [(P Map2)]) (P (.map Map2 (.construct tSink))),  -- 42: DEP_ASSERT_MODIFIER_CALLABLE_R(into<Sink>,(PP{}),(into_parser<PP, Sink>{}), into<Sink>,(P{}),(into_parser<P, Sink>{}))
    .parsersEq (tMod (P Map2) (M (.into tSink))) (P (.map Map2 (.construct tSink))),  -- 42: DEP_ASSERT_MODIFIER_MODULO_OPERABLE_R(PP{}, into<Sink>,(into_parser<PP, Sink>{}), P{}, into<Sink>,(into_parser<P, Sink>{}))
    .parsersEq (tCall (M (.into tSink)) [(P Map3)]) (P (.map Map3 (.construct tSink))),  -- 42: DEP_ASSERT_MODIFIER_CALLABLE_R(into<Sink>,(PP{}),(into_parser<PP, Sink>{}), into<Sink>,(P{}),(into_parser<P, Sink>{}))
    .parsersEq (tMod (P Map3) (M (.into tSink))) (P (.map Map3 (.construct tSink))),  -- 42: DEP_ASSERT_MODIFIER_MODULO_OPERABLE_R(PP{}, into<Sink>,(into_parser<PP, Sink>{}), P{}, into<Sink>,(into_parser<P, Sink>{}))
    .parsersEq (tCall (M (.into tSink)) [(P Map4)]) (P (.map Map4 (.construct tSink))),  -- 42: DEP_ASSERT_MODIFIER_CALLABLE_R(into<Sink>,(PP{}),(into_parser<PP, Sink>{}), into<Sink>,(P{}),(into_parser<P, Sink>{}))
    .parsersEq (tMod (P Map4) (M (.into tSink))) (P (.map Map4 (.construct tSink))),  -- 42: DEP_ASSERT_MODIFIER_MODULO_OPERABLE_R(PP{}, into<Sink>,(into_parser<PP, Sink>{}), P{}, into<Sink>,(into_parser<P, Sink>{}))
    .parsersEq (tCall (M (.into tSink)) [(P Fil1)]) (P (.map Fil1 (.construct tSink))),  -- 42: DEP_ASSERT_MODIFIER_CALLABLE_R(into<Sink>,(PP{}),(into_parser<PP, Sink>{}), into<Sink>,(P{}),(into_parser<P, Sink>{}))
    .parsersEq (tMod (P Fil1) (M (.into tSink))) (P (.map Fil1 (.construct tSink))),  -- 42: DEP_ASSERT_MODIFIER_MODULO_OPERABLE_R(PP{}, into<Sink>,(into_parser<PP, Sink>{}), P{}, into<Sink>,(into_parser<P, Sink>{}))
    .parsersEq (tCall (M (.into tSink)) [(P Fil2)]) (P (.map Fil2 (.construct tSink))),  -- 42: DEP_ASSERT_MODIFIER_CALLABLE_R(into<Sink>,(PP{}),(into_parser<PP, Sink>{}), into<Sink>,(P{}),(into_parser<P, Sink>{}))
    .parsersEq (tMod (P Fil2) (M (.into tSink))) (P (.map Fil2 (.construct tSink))),  -- 42: DEP_ASSERT_MODIFIER_MODULO_OPERABLE_R(PP{}, into<Sink>,(into_parser<PP, Sink>{}), P{}, into<Sink>,(into_parser<P, Sink>{}))
    .parsersEq (tCall (M (.into tSink)) [(P Fil3)]) (P (.map Fil3 (.construct tSink))),  -- 42: DEP_ASSERT_MODIFIER_CALLABLE_R(into<Sink>,(PP{}),(into_parser<PP, Sink>{}), into<Sink>,(P{}),(into_parser<P, Sink>{}))
    .parsersEq (tMod (P Fil3) (M (.into tSink))) (P (.map Fil3 (.construct tSink))),  -- 42: DEP_ASSERT_MODIFIER_MODULO_OPERABLE_R(PP{}, into<Sink>,(into_parser<PP, Sink>{}), P{}, into<Sink>,(into_parser<P, Sink>{}))
    .parsersEq (tCall (M (.into tSink)) [(P Apm1)]) (P (.map Apm1 (.construct tSink))),  -- 42: DEP_ASSERT_MODIFIER_CALLABLE_R(into<Sink>,(PP{}),(into_parser<PP, Sink>{}), into<Sink>,(P{}),(into_parser<P, Sink>{}))
    .parsersEq (tMod (P Apm1) (M (.into tSink))) (P (.map Apm1 (.construct tSink))),  -- 42: DEP_ASSERT_MODIFIER_MODULO_OPERABLE_R(PP{}, into<Sink>,(into_parser<PP, Sink>{}), P{}, into<Sink>,(into_parser<P, Sink>{}))
    .parsersEq (tCall (M (.into tSink)) [(P Apm2)]) (P (.map Apm2 (.construct tSink))),  -- 42: DEP_ASSERT_MODIFIER_CALLABLE_R(into<Sink>,(PP{}),(into_parser<PP, Sink>{}), into<Sink>,(P{}),(into_parser<P, Sink>{}))
    .parsersEq (tMod (P Apm2) (M (.into tSink))) (P (.map Apm2 (.construct tSink))),  -- 42: DEP_ASSERT_MODIFIER_MODULO_OPERABLE_R(PP{}, into<Sink>,(into_parser<PP, Sink>{}), P{}, into<Sink>,(into_parser<P, Sink>{}))
    .parsersEq (tCall (M (.into tSink)) [(P Apf1)]) (P (.map Apf1 (.construct tSink))),  -- 42: DEP_ASSERT_MODIFIER_CALLABLE_R(into<Sink>,(PP{}),(into_parser<PP, Sink>{}), into<Sink>,(P{}),(into_parser<P, Sink>{}))
    .parsersEq (tMod (P Apf1) (M (.into tSink))) (P (.map Apf1 (.construct tSink)))  -- 42: DEP_ASSERT_MODIFIER_MODULO_OPERABLE_R(PP{}, into<Sink>,(into_parser<PP, Sink>{}), P{}, into<Sink>,(into_parser<P, Sink>{}))
    ], Assertion.Holds a :=
  Assertion.holds_of_check (by decide +kernel)

/-- into modifier / modify anything (tests/char-tests/modifiers/into.cpp:42) -/
theorem charModifiersInto_3_3 : ∀ a ∈ [
    .parsersEq (tCall (M (.into tSink)) [(P Int1)]) (P (.map Int1 (.construct tSink))),  -- 42: DEP_ASSERT_MODIFIER_CALLABLE_R(into<Sink>,(PP{}),(into_parser<PP, Sink>{}), into<Sink>,(P{}),(into_parser<P, Sink>{}))
    .parsersEq (tMod (P Int1) (M (.into tSink))) (P (.map Int1 (.construct tSink))),  -- 42: DEP_ASSERT_MODIFIER_MODULO_OPERABLE_R(PP{}, into<Sink>,(into_parser<PP, Sink>{}), P{}, into<Sink>,(into_parser<P, Sink>{}))
    .parsersEq (tCall (M (.into tSink)) [(P Int2)]) (P (.map Int2 (.construct tSink))),  -- 42: DEP_ASSERT_MODIFIER_CALLABLE_R(into<Sink>,(PP{}),(into_parser<PP, Sink>{}), into<Sink>,(P{}),(into_parser<P, Sink>{}))
    .parsersEq (tMod (P Int2) (M (.into tSink))) (P (.map Int2 (.construct tSink))),  -- 42: DEP_ASSERT_MODIFIER_MODULO_OPERABLE_R(PP{}, into<Sink>,(into_parser<PP, Sink>{}), P{}, into<Sink>,(into_parser<P, Sink>{}))
    .parsersEq (tCall (M (.into tSink)) [(P Int3)]) (P (.map Int3 (.construct tSink))),  -- 42: DEP_ASSERT_MODIFIER_CALLABLE_R(into<Sink>,(PP{}),(into_parser<PP, Sink>{}), into<Sink>,(P{}),(into_parser<P, Sink>{}))
    .parsersEq (tMod (P Int3) (M (.into tSink))) (P (.map Int3 (.construct tSink))),  -- 42: DEP_ASSERT_MODIFIER_MODULO_OPERABLE_R(PP{}, into<Sink>,(into_parser<PP, Sink>{}), P{}, into<Sink>,(into_parser<P, Sink>{}))
    .parsersEq (tCall (M (.into tSink)) [(P Api1)]) (P (.map Api1 (.construct tSink))),  -- 42: DEP_ASSERT_MODIFIER_CALLABLE_R(into<Sink>,(PP{}),(into_parser<PP, Sink>{}), into<Sink>,(P{}),(into_parser<P, Sink>{}))
    .parsersEq (tMod (P Api1) (M (.into tSink))) (P (.map Api1 (.construct tSink))),  -- 42: DEP_ASSERT_MODIFIER_MODULO_OPERABLE_R(PP{}, into<Sink>,(into_parser<PP, Sink>{}), P{}, into<Sink>,(into_parser<P, Sink>{}))
    .parsersEq (tCall (M (.into tSink)) [(P Api2)]) (P (.map Api2 (.construct tSink))),  -- 42: DEP_ASSERT_MODIFIER_CALLABLE_R(into<Sink>,(PP{}),(into_parser<PP, Sink>{}), into<Sink>,(P{}),(into_parser<P, Sink>{}))
    .parsersEq (tMod (P Api2) (M (.into tSink))) (P (.map Api2 (.construct tSink))),  -- 42: DEP_ASSERT_MODIFIER_MODULO_OPERABLE_R(PP{}, into<Sink>,(into_parser<PP, Sink>{}), P{}, into<Sink>,(into_parser<P, Sink>{}))
    .parsersEq (tCall (M (.into tSink)) [(P Con1)]) (P (.map Con1 (.construct tSink))),  -- 42: DEP_ASSERT_MODIFIER_CALLABLE_R(into<Sink>,(PP{}),(into_parser<PP, Sink>{}), into<Sink>,(P{}),(into_parser<P, Sink>{}))
    .parsersEq (tMod (P Con1) (M (.into tSink))) (P (.map Con1 (.construct tSink))),  -- 42: DEP_ASSERT_MODIFIER_MODULO_OPERABLE_R(PP{}, into<Sink>,(into_parser<PP, Sink>{}), P{}, into<Sink>,(into_parser<P, Sink>{}))
    .parsersEq (tCall (M (.into tSink)) [(P Con2)]) (P (.map Con2 (.construct tSink))),  -- 42: DEP_ASSERT_MODIFIER_CALLABLE_R(into<Sink>,(PP{}),(into_parser<PP, Sink>{}), into<Sink>,(P{}),(into_parser<P, Sink>{}))
    .parsersEq (tMod (P Con2) (M (.into tSink))) (P (.map Con2 (.construct tSink))),  -- 42: DEP_ASSERT_MODIFIER_MODULO_OPERABLE_R(PP{}, into<Sink>,(into_parser<PP, Sink>{}), P{}, into<Sink>,(into_parser<P, Sink>{}))
    .parsersEq (tCall (M (.into tSink)) [(P Con3)]) (P (.map Con3 (.construct tSink))),  -- 42: DEP_ASSERT_MODIFIER_CALLABLE_R(into<Sink>,(PP{}),(into_parser<PP, Sink>{}), into<Sink>,(P{}),(into_parser<P, Sink>{}))
    .parsersEq (tMod (P Con3) (M (.into tSink))) (P (.map Con3 (.construct tSink))),  -- 42: DEP_ASSERT_MODIFIER_MODULO_OPERABLE_R(PP{}, into<Sink>,(into_parser<PP, Sink>{}), P{}, into<Sink>,(into_parser<P, Sink>{}))
    .parsersEq (tCall (M (.into tSink)) [(P Con4)]) (P (.map Con4 (.construct tSink))),  -- 42: DEP_ASSERT_MODIFIER_CALLABLE_R(into<Sink>,(PP{}),(into_parser<PP, Sink>{}), into<Sink>,(P{}),(into_parser<P, Sink>{}))
    .parsersEq (tMod (P Con4) (M (.into tSink))) (P (.map Con4 (.construct tSink))),  -- 42: DEP_ASSERT_MODIFIER_MODULO_OPERABLE_R(PP{}, into<Sink>,(into_parser<PP, Sink>{}), P{}, into<Sink>,(into_parser<P, Sink>{}))
    .parsersEq (tCall (M (.into tSink)) [(P Def1)]) (P (.map Def1 (.construct tSink))),  -- 42: DEP_ASSERT_MODIFIER_CALLABLE_R(into<Sink>,(PP{}),(into_parser<PP, Sink>{}), into<Sink>,(P{}),(into_parser<P, Sink>{}))
    .parsersEq (tMod (P Def1) (M (.into tSink))) (P (.map Def1 (.construct tSink))),  -- 42: DEP_ASSERT_MODIFIER_MODULO_OPERABLE_R(PP{}, into<Sink>,(into_parser<PP, Sink>{}), P{}, into<Sink>,(into_parser<P, Sink>{}))
    .parsersEq (tCall (M (.into tSink)) [(P Def2)]) (P (.map Def2 (.construct tSink))),  -- 42: DEP_ASSERT_MODIFIER_CALLABLE_R(into<Sink>,(PP{}),(into_parser<PP, Sink>{}), into<Sink>,(P{}),(into_parser<P, Sink>{}))
    .parsersEq (tMod (P Def2) (M (.into tSink))) (P (.map Def2 (.construct tSink))),  -- 42: DEP_ASSERT_MODIFIER_MODULO_OPERABLE_R(PP{}, into<Sink>,(into_parser<PP, Sink>{}), P{}, into<Sink>,(into_parser<P, Sink>{}))
    .parsersEq (tCall (M (.into tSink)) [(P (.custom 0))]) (P (.map (.custom 0) (.construct tSink))),  -- 42: DEP_ASSERT_MODIFIER_CALLABLE_R(into<Sink>,(PP{}),(into_parser<PP, Sink>{}), into<Sink>,(P{}),(into_parser<P, Sink>{}))
    .parsersEq (tMod (P (.custom 0)) (M (.into tSink))) (P (.map (.custom 0) (.construct tSink))),  -- 42: DEP_ASSERT_MODIFIER_MODULO_OPERABLE_R(PP{}, into<Sink>,(into_parser<PP, Sink>{}), P{}, into<Sink>,(into_parser<P, Sink>{}))
    .parsersEq (tCall (M (.into tSink)) [(P (.custom 1))]) (P (.map (.custom 1) (.construct tSink))),  -- 42: DEP_ASSERT_MODIFIER_CALLABLE_R(into<Sink>,(PP{}),(into_parser<PP, Sink>{}), into<Sink>,(P{}),(into_parser<P, Sink>{}))
    .parsersEq (tMod (P (.custom 1)) (M (.into tSink))) (P (.map (.custom 1) (.construct tSink))),  -- 42: DEP_ASSERT_MODIFIER_MODULO_OPERABLE_R(PP{}, into<Sink>,(into_parser<PP, Sink>{}), P{}, into<Sink>,(into_parser<P, Sink>{}))
    .parsersEq (tCall (M (.into tSink)) [(P May1)]) (P (.map May1 (.construct tSink))),  -- 42: DEP_ASSERT_MODIFIER_CALLABLE_R(into<Sink>,(PP{}),(into_parser<PP, Sink>{}), into<Sink>,(P{}),(into_parser<P, Sink>{}))
    .parsersEq (tMod (P May1) (M (.into tSink))) (P (.map May1 (.construct tSink))),  -- 42: DEP_ASSERT_MODIFIER_MODULO_OPERABLE_R(PP{}, into<Sink>,(into_parser<PP, Sink>{}), P{}, into<Sink>,(into_parser<P, Sink>{}))
    .parsersEq (tCall (M (.into tSink)) [(P May2)]) (P (.map May2 (.construct tSink))),  -- 42: DEP_ASSERT_MODIFIER_CALLABLE_R(into<Sink>,(PP{}),(into_parser<PP, Sink>{}), into<Sink>,(P{}),(into_parser<P, Sink>{}))
    .parsersEq (tMod (P May2) (M (.into tSink))) (P (.map May2 (.construct tSink))),  -- 42: DEP_ASSERT_MODIFIER_MODULO_OPERABLE_R(PP{}, into<Sink>,(into_parser<PP, Sink>{}), P{}, into<Sink>,(into_parser<P, Sink>{}))
    .parsersEq (tCall (M (.into tSink)) [(P May3)]) (P (.map May3 (.construct tSink))),  -- 42: DEP_ASSERT_MODIFIER_CALLABLE_R(into<Sink>,(PP{}),(into_parser<PP, Sink>{}), into<Sink>,(P{}),(into_parser<P, Sink>{}))
    .parsersEq (tMod (P May3) (M (.into tSink))) (P (.map May3 (.construct tSink))),  -- 42: DEP_ASSERT_MODIFIER_MODULO_OPERABLE_R(PP{}, into<Sink>,(into_parser<PP, Sink>{}), P{}, into<Sink>,(into_parser<P, Sink>{}))
    .parsersEq (tCall (M (.into tSink)) [(P May4)]) (P (.map May4 (.construct tSink))),  -- 42: DEP_ASSERT_MODIFIER_CALLABLE_R(into<Sink>,(PP{}),(into_parser<PP, Sink>{}), into<Sink>,(P{}),(into_parser<P, Sink>{}))
    .parsersEq (tMod (P May4) (M (.into tSink))) (P (.map May4 (.construct tSink))),  -- 42: DEP_ASSERT_MODIFIER_MODULO_OPERABLE_R(PP{}, into<Sink>,(into_parser<PP, Sink>{}), P{}, into<Sink>,(into_parser<P, Sink>{}))
    .parsersEq (tCall (M (.into tSink)) [(P Exa1)]) (P (.map Exa1 (.construct tSink))),  -- 42: DEP_ASSERT_MODIFIER_CALLABLE_R(into<Sink>,(PP{}),(into_parser<PP, Sink>{}), into<Sink>,(P{}),(into_parser<P, Sink>{}))
    .parsersEq (tMod (P Exa1) (M (.into tSink))) (P (.map Exa1 (.construct tSink))),  -- 42: DEP_ASSERT_MODIFIER_MODULO_OPERABLE_R(PP{}, into<Sink>,(into_parser<PP, Sink>{}), P{}, into<Sink>,(into_parser<P, Sink>{}))
    .parsersEq (tCall (M (.into tSink)) [(P Exa2)]) (P (.map Exa2 (.construct tSink))),  -- 42: DEP_ASSERT_MODIFIER_CALLABLE_R(into<Sink>,(PP{}),(into_parser<PP, Sink>{}), into<Sink>,(P{}),(into_parser<P, Sink>{}))
    .parsersEq (tMod (P Exa2) (M (.into tSink))) (P (.map Exa2 (.construct tSink))),  -- 42: DEP_ASSERT_MODIFIER_MODULO_OPERABLE_R(PP{}, into<Sink>,(into_parser<PP, Sink>{}), P{}, into<Sink>,(into_parser<P, Sink>{}))
    .parsersEq (tCall (M (.into tSink)) [(P Exa3)]) (P (.map Exa3 (.construct tSink))),  -- 42: DEP_ASSERT_MODIFIER_CALLABLE_R(into<Sink>,(PP{}),(into_parser<PP, Sink>{}), into<Sink>,(P{}),(into_parser<P, Sink>{}))
    .parsersEq (tMod (P Exa3) (M (.into tSink))) (P (.map Exa3 (.construct tSink))),  -- 42: DEP_ASSERT_MODIFIER_MODULO_OPERABLE_R(PP{}, into<Sink>,(into_parser<PP, Sink>{}), P{}, into<Sink>,(into_parser<P, Sink>{}))
    .parsersEq (tCall (M (.into tSink)) [(P Exa4)]) (P (.map Exa4 (.construct tSink))),  -- 42: DEP_ASSERT_MODIFIER_CALLABLE_R(into<Sink>,(PP{}),(into_parser<PP, Sink>{}), into<Sink>,(P{}),(into_parser<P, Sink>{}))
    .parsersEq (tMod (P Exa4) (M (.into tSink))) (P (.map Exa4 (.construct tSink))),  -- 42: DEP_ASSERT_MODIFIER_MODULO_OPERABLE_R(PP{}, into<Sink>,(into_parser<PP, Sink>{}), P{}, into<Sink>,(into_parser<P, Sink>{}))
    .parsersEq (tCall (M (.into tSink)) [(P Oom1)]) (P (.map Oom1 (.construct tSink))),  -- 42: DEP_ASSERT_MODIFIER_CALLABLE_R(into<Sink>,(PP{}),(into_parser<PP, Sink>{}), into<Sink>,(P{}),(into_parser<P, Sink>{}))
    .parsersEq (tMod (P Oom1) (M (.into tSink))) (P (.map Oom1 (.construct tSink))),  -- 42: DEP_ASSERT_MODIFIER_MODULO_OPERABLE_R(PP{}, into<Sink>,(into_parser<PP, Sink>{}), P{}, into<Sink>,(into_parser<P, Sink>{}))
    .parsersEq (tCall (M (.into tSink)) [(P Oom2)]) (P (.map Oom2 (.construct tSink))),  -- 42: DEP_ASSERT_MODIFIER_CALLABLE_R(into<Sink>,(PP{}),(into_parser<PP, Sink>{}), into<Sink>,(P{}),(into_parser<P, Sink>{}))
    .parsersEq (tMod (P Oom2) (M (.into tSink))) (P (.map Oom2 (.construct tSink))),  -- 42: DEP_ASSERT_MODIFIER_MODULO_OPERABLE_R(PP{}, into<Sink>,(into_parser<PP, Sink>{}), P{}, into<Sink>,(into_parser<P, Sink>{}))
    .parsersEq (tCall (M (.into tSink)) [(P Oom3)]) (P (.map Oom3 (.construct tSink))),  -- 42: DEP_ASSERT_MODIFIER_CALLABLE_R(into<Sink>,(PP{}),(into_parser<PP, Sink>{}), into<Sink>,(P{}),(into_parser<P, Sink>{}))
    .parsersEq (tMod (P Oom3) (M (.into tSink))) (P (.map Oom3 (.construct tSink))),  -- 42: DEP_ASSERT_MODIFIER_MODULO_OPERABLE_R(PP{}, into<Sink>,(into_parser<PP, Sink>{}), P{}, into<Sink>,(into_parser<P, Sink>{}))
    .parsersEq (tCall (M (.into tSink)) [(P Oom4)]) (P (.map Oom4 (.construct tSink))),  -- 42: DEP_ASSERT_MODIFIER_CALLABLE_R(into<Sink>,(PP{}),(into_parser<PP, Sink>{}), into<Sink>,(P{}),(into_parser<P, Sink>{}))
    .parsersEq (tMod (P Oom4) (M (.into tSink))) (P (.map Oom4 (.construct tSink))),  -- 42: DEP_ASSERT_MODIFIER_MODULO_OPERABLE_R(PP{}, into<Sink>,(into_parser<PP, Sink>{}), P{}, into<Sink>,(into_parser<P, Sink>{}))
    .parsersEq (tCall (M (.into tSink)) [(P Zom1)]) (P (.map Zom1 (.construct tSink))),  -- 42: DEP_ASSERT_MODIFIER_CALLABLE_R(into<Sink>,(PP{}),(into_parser<PP, Sink>{}), into<Sink>,(P{}),(into_parser<P, Sink>{}))
    .parsersEq (tMod (P Zom1) (M (.into tSink))) (P (.map Zom1 (.construct tSink))),  -- 42: DEP_ASSERT_MODIFIER_MODULO_OPERABLE_R(PP{}, into<Sink>,(into_parser<PP, Sink>{}), P{}, into<Sink>,(into_parser<P, Sink>{}))
    .parsersEq (tCall (M (.into tSink)) [(P Zom2)]) (P (.map Zom2 (.construct tSink))),  -- 42: DEP_ASSERT_MODIFIER_CALLABLE_R(into<Sink>,(PP{}),(into_parser<PP, Sink>{}), into<Sink>,(P{}),(into_parser<P, Sink>{}))
    .parsersEq (tMod (P Zom2) (M (.into tSink))) (P (.map Zom2 (.construct tSink))),  -- 42: DEP_ASSERT_MODIFIER_MODULO_OPERABLE_R(PP{}, into<Sink>,(into_parser<PP, Sink>{}), P{}, into<Sink>,(into_parser<P, Sink>{}))
    .parsersEq (tCall (M (.into tSink)) [(P Zom3)]) (P (.map Zom3 (.construct tSink))),  -- 42: DEP_ASSERT_MODIFIER_CALLABLE_R(into<Sink>,(PP{}),(into_parser<PP, Sink>{}), into<Sink>,(P{}),(into_parser<P, Sink>{}))
    .parsersEq (tMod (P Zom3) (M (.into tSink))) (P (.map Zom3 (.construct tSink))),  -- 42: DEP_ASSERT_MODIFIER_MODULO_OPERABLE_R(PP{}, into<Sink>,(into_parser<PP, Sink>{}), P{}, into<Sink>,(into_parser<P, Sink>{}))
    .parsersEq (tCall (M (.into tSink)) [(P Zom4)]) (P (.map Zom4 (.construct tSink))),  -- 42: DEP_ASSERT_MODIFIER_CALLABLE_R(into<Sink>,(PP{}),(into_parser<PP, Sink>{}), into<Sink>,(P{}),(into_parser<P, Sink>{}))
    .parsersEq (tMod (P Zom4) (M (.into tSink))) (P (.map Zom4 (.construct tSink))),  -- 42: DEP_ASSERT_MODIFIER_MODULO_OPERABLE_R(PP{}, into<Sink>,(into_parser<PP, Sink>{}), P{}, into<Sink>,(into_parser<P, Sink>{}))
    .parsersEq (tCall (M (.into tSink)) [(P Del1)]) (P (.map Del1 (.construct tSink))),  -- 42: DEP_ASSERT_MODIFIER_CALLABLE_R(into<Sink>,(PP{}),(into_parser<PP, Sink>{}), into<Sink>,(P{}),(into_parser<P, Sink>{}))
    .parsersEq (tMod (P Del1) (M (.into tSink))) (P (.map Del1 (.construct tSink)))  -- 42: DEP_ASSERT_MODIFIER_MODULO_OPERABLE_R(PP{}, into<Sink>,(into_parser<PP, Sink>{}), P{}, into<Sink>,(into_parser<P, Sink>{}))
    ], Assertion.Holds a :=
  Assertion.holds_of_check (by decide +kernel)

/-- into modifier / modify anything (tests/char-tests/modifiers/into.cpp:42) -/
theorem charModifiersInto_3_4 : ∀ a ∈ [
    .parsersEq (tCall (M (.into tSink)) [(P Del2)]) (P (.map Del2 (.construct tSink))),  -- 42: DEP_ASSERT_MODIFIER_CALLABLE_R(into<Sink>,(PP{}),(into_parser<PP, Sink>{}), into<Sink>,(P{}),(into_parser<P, Sink>{}))
    .parsersEq (tMod (P Del2) (M (.into tSink))) (P (.map Del2 (.construct tSink))),  -- 42: DEP_ASSERT_MODIFIER_MODULO_OPERABLE_R(PP{}, into<Sink>,(into_parser<PP, Sink>{}), P{}, into<Sink>,(into_parser<P, Sink>{}))
    .parsersEq (tCall (M (.into tSink)) [(P Del3)]) (P (.map Del3 (.construct tSink))),  -- 42: DEP_ASSERT_MODIFIER_CALLABLE_R(into<Sink>,(PP{}),(into_parser<PP, Sink>{}), into<Sink>,(P{}),(into_parser<P, Sink>{}))
    .parsersEq (tMod (P Del3) (M (.into tSink))) (P (.map Del3 (.construct tSink))),  -- 42: DEP_ASSERT_MODIFIER_MODULO_OPERABLE_R(PP{}, into<Sink>,(into_parser<PP, Sink>{}), P{}, into<Sink>,(into_parser<P, Sink>{}))
    .parsersEq (tCall (M (.into tSink)) [(P Del4)]) (P (.map Del4 (.construct tSink))),  -- 42: DEP_ASSERT_MODIFIER_CALLABLE_R(into<Sink>,(PP{}),(into_parser<PP, Sink>{}), into<Sink>,(P{}),(into_parser<P, Sink>{}))
    .parsersEq (tMod (P Del4) (M (.into tSink))) (P (.map Del4 (.construct tSink))),  -- 42: DEP_ASSERT_MODIFIER_MODULO_OPERABLE_R(PP{}, into<Sink>,(into_parser<PP, Sink>{}), P{}, into<Sink>,(into_parser<P, Sink>{}))
    .parsersEq (tCall (M (.into tSink)) [(P Del5)]) (P (.map Del5 (.construct tSink))),  -- 42: DEP_ASSERT_MODIFIER_CALLABLE_R(into<Sink>,(PP{}),(into_parser<PP, Sink>{}), into<Sink>,(P{}),(into_parser<P, Sink>{}))
    .parsersEq (tMod (P Del5) (M (.into tSink))) (P (.map Del5 (.construct tSink))),  -- 42: DEP_ASSERT_MODIFIER_MODULO_OPERABLE_R(PP{}, into<Sink>,(into_parser<PP, Sink>{}), P{}, into<Sink>,(into_parser<P, Sink>{}))
    .parsersEq (tCall (M (.into tSink)) [(P Del6)]) (P (.map Del6 (.construct tSink))),  -- 42: DEP_ASSERT_MODIFIER_CALLABLE_R(into<Sink>,(PP{}),(into_parser<PP, Sink>{}), into<Sink>,(P{}),(into_parser<P, Sink>{}))
    .parsersEq (tMod (P Del6) (M (.into tSink))) (P (.map Del6 (.construct tSink))),  -- 42: DEP_ASSERT_MODIFIER_MODULO_OPERABLE_R(PP{}, into<Sink>,(into_parser<PP, Sink>{}), P{}, into<Sink>,(into_parser<P, Sink>{}))
    .parsersEq (tCall (M (.into tSink)) [(P Del7)]) (P (.map Del7 (.construct tSink))),  -- 42: DEP_ASSERT_MODIFIER_CALLABLE_R(into<Sink>,(PP{}),(into_parser<PP, Sink>{}), into<Sink>,(P{}),(into_parser<P, Sink>{}))
    .parsersEq (tMod (P Del7) (M (.into tSink))) (P (.map Del7 (.construct tSink))),  -- 42: DEP_ASSERT_MODIFIER_MODULO_OPERABLE_R(PP{}, into<Sink>,(into_parser<PP, Sink>{}), P{}, into<Sink>,(into_parser<P, Sink>{}))
    .parsersEq (tCall (M (.into tSink)) [(P Del8)]) (P (.map Del8 (.construct tSink))),  -- 42: DEP_ASSERT_MODIFIER_CALLABLE_R(into<Sink>,(PP{}),(into_parser<PP, Sink>{}), into<Sink>,(P{}),(into_parser<P, Sink>{}))
    .parsersEq (tMod (P Del8) (M (.into tSink))) (P (.map Del8 (.construct tSink))),  -- 42: DEP_ASSERT_MODIFIER_MODULO_OPERABLE_R(PP{}, into<Sink>,(into_parser<PP, Sink>{}), P{}, into<Sink>,(into_parser<P, Sink>{}))
    .parsersEq (tCall (M (.into tSink)) [(P Dek1)]) (P (.map Dek1 (.construct tSink))),  -- 42: DEP_ASSERT_MODIFIER_CALLABLE_R(into<Sink>,(PP{}),(into_parser<PP, Sink>{}), into<Sink>,(P{}),(into_parser<P, Sink>{}))
    .parsersEq (tMod (P Dek1) (M (.into tSink))) (P (.map Dek1 (.construct tSink))),  -- 42: DEP_ASSERT_MODIFIER_MODULO_OPERABLE_R(PP{}, into<Sink>,(into_parser<PP, Sink>{}), P{}, into<Sink>,(into_parser<P, Sink>{}))
    .parsersEq (tCall (M (.into tSink)) [(P Dek2)]) (P (.map Dek2 (.construct tSink))),  -- 42: DEP_ASSERT_MODIFIER_CALLABLE_R(into<Sink>,(PP{}),(into_parser<PP, Sink>{}), into<Sink>,(P{}),(into_parser<P, Sink>{}))
    .parsersEq (tMod (P Dek2) (M (.into tSink))) (P (.map Dek2 (.construct tSink))),  -- 42: DEP_ASSERT_MODIFIER_MODULO_OPERABLE_R(PP{}, into<Sink>,(into_parser<PP, Sink>{}), P{}, into<Sink>,(into_parser<P, Sink>{}))
    .parsersEq (tCall (M (.into tSink)) [(P Dek3)]) (P (.map Dek3 (.construct tSink))),  -- 42: DEP_ASSERT_MODIFIER_CALLABLE_R(into<Sink>,(PP{}),(into_parser<PP, Sink>{}), into<Sink>,(P{}),(into_parser<P, Sink>{}))
    .parsersEq (tMod (P Dek3) (M (.into tSink))) (P (.map Dek3 (.construct tSink))),  -- 42: DEP_ASSERT_MODIFIER_MODULO_OPERABLE_R(PP{}, into<Sink>,(into_parser<PP, Sink>{}), P{}, into<Sink>,(into_parser<P, Sink>{}))
    .parsersEq (tCall (M (.into tSink)) [(P Dek4)]) (P (.map Dek4 (.construct tSink))),  -- 42: DEP_ASSERT_MODIFIER_CALLABLE_R(into<Sink>,(PP{}),(into_parser<PP, Sink>{}), into<Sink>,(P{}),(into_parser<P, Sink>{}))
    .parsersEq (tMod (P Dek4) (M (.into tSink))) (P (.map Dek4 (.construct tSink))),  -- 42: DEP_ASSERT_MODIFIER_MODULO_OPERABLE_R(PP{}, into<Sink>,(into_parser<PP, Sink>{}), P{}, into<Sink>,(into_parser<P, Sink>{}))
    .parsersEq (tCall (M (.into tSink)) [(P Dek5)]) (P (.map Dek5 (.construct tSink))),  -- 42: DEP_ASSERT_MODIFIER_CALLABLE_R(into<Sink>,(PP{}),(into_parser<PP, Sink>{}), into<Sink>,(P{}),(into_parser<P, Sink>{}))
    .parsersEq (tMod (P Dek5) (M (.into tSink))) (P (.map Dek5 (.construct tSink))),  -- 42: DEP_ASSERT_MODIFIER_MODULO_OPERABLE_R(PP{}, into<Sink>,(into_parser<PP, Sink>{}), P{}, into<Sink>,(into_parser<P, Sink>{}))
    .parsersEq (tCall (M (.into tSink)) [(P Dek6)]) (P (.map Dek6 (.construct tSink))),  -- 42: DEP_ASSERT_MODIFIER_CALLABLE_R(into<Sink>,(PP{}),(into_parser<PP, Sink>{}), into<Sink>,(P{}),(into_parser<P, Sink>{}))
    .parsersEq (tMod (P Dek6) (M (.into tSink))) (P (.map Dek6 (.construct tSink))),  -- 42: DEP_ASSERT_MODIFIER_MODULO_OPERABLE_R(PP{}, into<Sink>,(into_parser<PP, Sink>{}), P{}, into<Sink>,(into_parser<P, Sink>{}))
    .parsersEq (tCall (M (.into tSink)) [(P Dek7)]) (P (.map Dek7 (.construct tSink))),  -- 42: DEP_ASSERT_MODIFIER_CALLABLE_R(into<Sink>,(PP{}),(into_parser<PP, Sink>{}), into<Sink>,(P{}),(into_parser<P, Sink>{}))
    .parsersEq (tMod (P Dek7) (M (.into tSink))) (P (.map Dek7 (.construct tSink))),  -- 42: DEP_ASSERT_MODIFIER_MODULO_OPERABLE_R(PP{}, into<Sink>,(into_parser<PP, Sink>{}), P{}, into<Sink>,(into_parser<P, Sink>{}))
    .parsersEq (tCall (M (.into tSink)) [(P Dek8)]) (P (.map Dek8 (.construct tSink))),  -- 42: DEP_ASSERT_MODIFIER_CALLABLE_R(into<Sink>,(PP{}),(into_parser<PP, Sink>{}), into<Sink>,(P{}),(into_parser<P, Sink>{}))
    .parsersEq (tMod (P Dek8) (M (.into tSink))) (P (.map Dek8 (.construct tSink)))  -- 42: DEP_ASSERT_MODIFIER_MODULO_OPERABLE_R(PP{}, into<Sink>,(into_parser<PP, Sink>{}), P{}, into<Sink>,(into_parser<P, Sink>{}))
    ], Assertion.Holds a :=
  Assertion.holds_of_check (by decide +kernel)

end Tok3n.Tests
