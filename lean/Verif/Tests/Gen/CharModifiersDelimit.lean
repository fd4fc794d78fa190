import Verif.Tests.Gen.SamplesChar
/- Generated by tools/tests2lean.py from tests/char-tests/modifiers/delimit.cpp. -/

namespace Tok3n.Tests

/-- delimit modifier / prefix (tests/char-tests/modifiers/delimit.cpp:14) -/
theorem charModifiersDelimit_1 : ∀ a ∈ [
    .parsersEq (P Del1) (tDelimit [(P ABC), (P Comma)]),  -- 14: ASSERT_PARSER_VALUES_EQ(del1, delimit(abc, comma))
    .parsersEq (P Del2) (tDelimit [(P ABC), (P SpaceDot)]),  -- 15: ASSERT_PARSER_VALUES_EQ(del2, delimit(abc, spacedot))
    .parsersEq (P Del3) (tDelimit [(P QQ), (P Comma)]),  -- 16: ASSERT_PARSER_VALUES_EQ(del3, delimit(qq, comma))
    .parsersEq (P Del4) (tDelimit [(P QQ), (P SpaceDot)]),  -- 17: ASSERT_PARSER_VALUES_EQ(del4, delimit(qq, spacedot))
    .parsersEq (P Del5) (tDelimit [(P Comma), (P ABC)]),  -- 18: ASSERT_PARSER_VALUES_EQ(del5, delimit(comma, abc))
    .parsersEq (P Del6) (tDelimit [(P SpaceDot), (P ABC)]),  -- 19: ASSERT_PARSER_VALUES_EQ(del6, delimit(spacedot, abc))
    .parsersEq (P Del7) (tDelimit [(P Comma), (P QQ)]),  -- 20: ASSERT_PARSER_VALUES_EQ(del7, delimit(comma, qq))
    .parsersEq (P Del8) (tDelimit [(P SpaceDot), (P QQ)])  -- 21: ASSERT_PARSER_VALUES_EQ(del8, delimit(spacedot, qq))
    ], Assertion.Holds a :=
  Assertion.holds_of_check (by decide +kernel)

/-- delimit modifier / infix (tests/char-tests/modifiers/delimit.cpp:26) -/
theorem charModifiersDelimit_2 : ∀ a ∈ [
    .parsersEq (P Del1) (tMod (P ABC) (tDelimit [(P Comma)])),  -- 26: ASSERT_PARSER_VALUES_EQ(del1, abc % delimit(comma))
    .parsersEq (P Del2) (tMod (P ABC) (tDelimit [(P SpaceDot)])),  -- 27: ASSERT_PARSER_VALUES_EQ(del2, abc % delimit(spacedot))
    .parsersEq (P Del3) (tMod (P QQ) (tDelimit [(P Comma)])),  -- 28: ASSERT_PARSER_VALUES_EQ(del3, qq % delimit(comma))
    .parsersEq (P Del4) (tMod (P QQ) (tDelimit [(P SpaceDot)])),  -- 29: ASSERT_PARSER_VALUES_EQ(del4, qq % delimit(spacedot))
    .parsersEq (P Del5) (tMod (P Comma) (tDelimit [(P ABC)])),  -- 30: ASSERT_PARSER_VALUES_EQ(del5, comma % delimit(abc))
    .parsersEq (P Del6) (tMod (P SpaceDot) (tDelimit [(P ABC)])),  -- 31: ASSERT_PARSER_VALUES_EQ(del6, spacedot % delimit(abc))
    .parsersEq (P Del7) (tMod (P Comma) (tDelimit [(P QQ)])),  -- 32: ASSERT_PARSER_VALUES_EQ(del7, comma % delimit(qq))
    .parsersEq (P Del8) (tMod (P SpaceDot) (tDelimit [(P QQ)]))  -- 33: ASSERT_PARSER_VALUES_EQ(del8, spacedot % delimit(qq))
    ], Assertion.Holds a :=
  Assertion.holds_of_check (by decide +kernel)

/-- delimit modifier / modify anything (tests/char-tests/modifiers/delimit.cpp:75) -/
theorem charModifiersDelimit_3_1 : ∀ a ∈ [
    .parsersEq (tDelimit [(P Ign1), (P Comma)]) (P (.delimit Ign1 (.ignore Comma))),  -- 75: DEP_ASSERT_MODIFIER_CALLABLE_R(delimit,(PP{}, comma),(delimit_parser<PP, ignore_parser<Comma>>{}), delimit,(P{}, comma),(delimit_parser<P, ignore_pars
    .parsersEq (tMod (P Ign1) (tDelimit [(P Comma)])) (P (.delimit Ign1 (.ignore Comma))),  -- 75: DEP_ASSERT_MODIFIER_MODULO_OPERABLE_R(PP{}, delimit(comma),(delimit_parser<PP, ignore_parser<Comma>>{}), P{}, delimit(comma),(delimit_parser<P, ignore
    .parsersEq (tDelimit [(P Ign2), (P Comma)]) (P (.delimit Ign2 (.ignore Comma))),  -- 75: DEP_ASSERT_MODIFIER_CALLABLE_R(delimit,(PP{}, comma),(delimit_parser<PP, ignore_parser<Comma>>{}), delimit,(P{}, comma),(delimit_parser<P, ignore_pars
    .parsersEq (tMod (P Ign2) (tDelimit [(P Comma)])) (P (.delimit Ign2 (.ignore Comma))),  -- 75: DEP_ASSERT_MODIFIER_MODULO_OPERABLE_R(PP{}, delimit(comma),(delimit_parser<PP, ignore_parser<Comma>>{}), P{}, delimit(comma),(delimit_parser<P, ignore
    .parsersEq (tDelimit [(P Ign3), (P Comma)]) (P (.delimit Ign3 (.ignore Comma))),  -- 75: DEP_ASSERT_MODIFIER_CALLABLE_R(delimit,(PP{}, comma),(delimit_parser<PP, ignore_parser<Comma>>{}), delimit,(P{}, comma),(delimit_parser<P, ignore_pars
    .parsersEq (tMod (P Ign3) (tDelimit [(P Comma)])) (P (.delimit Ign3 (.ignore Comma))),  -- 75: DEP_ASSERT_MODIFIER_MODULO_OPERABLE_R(PP{}, delimit(comma),(delimit_parser<PP, ignore_parser<Comma>>{}), P{}, delimit(comma),(delimit_parser<P, ignore
    .parsersEq (tDelimit [(P Ign4), (P Comma)]) (P (.delimit Ign4 (.ignore Comma))),  -- 75: DEP_ASSERT_MODIFIER_CALLABLE_R(delimit,(PP{}, comma),(delimit_parser<PP, ignore_parser<Comma>>{}), delimit,(P{}, comma),(delimit_parser<P, ignore_pars
    .parsersEq (tMod (P Ign4) (tDelimit [(P Comma)])) (P (.delimit Ign4 (.ignore Comma))),  -- 75: DEP_ASSERT_MODIFIER_MODULO_OPERABLE_R(PP{}, delimit(comma),(delimit_parser<PP, ignore_parser<Comma>>{}), P{}, delimit(comma),(delimit_parser<P, ignore
    .parsersEq (tDelimit [(P Ign5), (P Comma)]) (P (.delimit Ign5 (.ignore Comma))),  -- 75: DEP_ASSERT_MODIFIER_CALLABLE_R(delimit,(PP{}, comma),(delimit_parser<PP, ignore_parser<Comma>>{}), delimit,(P{}, comma),(delimit_parser<P, ignore_pars
    .parsersEq (tMod (P Ign5) (tDelimit [(P Comma)])) (P (.delimit Ign5 (.ignore Comma))),  -- 75: DEP_ASSERT_MODIFIER_MODULO_OPERABLE_R(PP{}, delimit(comma),(delimit_parser<PP, ignore_parser<Comma>>{}), P{}, delimit(comma),(delimit_parser<P, ignore
    .parsersEq (tDelimit [(P Com1), (P Comma)]) (P (.delimit Com1 (.ignore Comma))),  -- 75: DEP_ASSERT_MODIFIER_CALLABLE_R(delimit,(PP{}, comma),(delimit_parser<PP, ignore_parser<Comma>>{}), delimit,(P{}, comma),(delimit_parser<P, ignore_pars
    .parsersEq (tMod (P Com1) (tDelimit [(P Comma)])) (P (.delimit Com1 (.ignore Comma))),  -- 75: DEP_ASSERT_MODIFIER_MODULO_OPERABLE_R(PP{}, delimit(comma),(delimit_parser<PP, ignore_parser<Comma>>{}), P{}, delimit(comma),(delimit_parser<P, ignore
    .parsersEq (tDelimit [(P Com2), (P Comma)]) (P (.delimit Com2 (.ignore Comma))),  -- 75: DEP_ASSERT_MODIFIER_CALLABLE_R(delimit,(PP{}, comma),(delimit_parser<PP, ignore_parser<Comma>>{}), delimit,(P{}, comma),(delimit_parser<P, ignore_pars
    .parsersEq (tMod (P Com2) (tDelimit [(P Comma)])) (P (.delimit Com2 (.ignore Comma))),  -- 75: DEP_ASSERT_MODIFIER_MODULO_OPERABLE_R(PP{}, delimit(comma),(delimit_parser<PP, ignore_parser<Comma>>{}), P{}, delimit(comma),(delimit_parser<P, ignore
    .parsersEq (tDelimit [(P Com3), (P Comma)]) (P (.delimit Com3 (.ignore Comma))),  -- 75: DEP_ASSERT_MODIFIER_CALLABLE_R(delimit,(PP{}, comma),(delimit_parser<PP, ignore_parser<Comma>>{}), delimit,(P{}, comma),(delimit_parser<P, ignore_pars
    .parsersEq (tMod (P Com3) (tDelimit [(P Comma)])) (P (.delimit Com3 (.ignore Comma))),  -- 75: DEP_ASSERT_MODIFIER_MODULO_OPERABLE_R(PP{}, delimit(comma),(delimit_parser<PP, ignore_parser<Comma>>{}), P{}, delimit(comma),(delimit_parser<P, ignore
    .parsersEq (tDelimit [(P Com4), (P Comma)]) (P (.delimit Com4 (.ignore Comma))),  -- 75: DEP_ASSERT_MODIFIER_CALLABLE_R(delimit,(PP{}, comma),(delimit_parser<PP, ignore_parser<Comma>>{}), delimit,(P{}, comma),(delimit_parser<P, ignore_pars
    .parsersEq (tMod (P Com4) (tDelimit [(P Comma)])) (P (.delimit Com4 (.ignore Comma))),  -- 75: DEP_ASSERT_MODIFIER_MODULO_OPERABLE_R(PP{}, delimit(comma),(delimit_parser<PP, ignore_parser<Comma>>{}), P{}, delimit(comma),(delimit_parser<P, ignore
    .parsersEq (tDelimit [(P Com5), (P Comma)]) (P (.delimit Com5 (.ignore Comma))),  -- 75: DEP_ASSERT_MODIFIER_CALLABLE_R(delimit,(PP{}, comma),(delimit_parser<PP, ignore_parser<Comma>>{}), delimit,(P{}, comma),(delimit_parser<P, ignore_pars
    .parsersEq (tMod (P Com5) (tDelimit [(P Comma)])) (P (.delimit Com5 (.ignore Comma))),  -- 75: DEP_ASSERT_MODIFIER_MODULO_OPERABLE_R(PP{}, delimit(comma),(delimit_parser<PP, ignore_parser<Comma>>{}), P{}, delimit(comma),(delimit_parser<P, ignore
    .parsersEq (tDelimit [(P Com6), (P Comma)]) (P (.delimit Com6 (.ignore Comma))),  -- 75: DEP_ASSERT_MODIFIER_CALLABLE_R(delimit,(PP{}, comma),(delimit_parser<PP, ignore_parser<Comma>>{}), delimit,(P{}, comma),(delimit_parser<P, ignore_pars
    .parsersEq (tMod (P Com6) (tDelimit [(P Comma)])) (P (.delimit Com6 (.ignore Comma))),  -- 75: DEP_ASSERT_MODIFIER_MODULO_OPERABLE_R(PP{}, delimit(comma),(delimit_parser<PP, ignore_parser<Comma>>{}), P{}, delimit(comma),(delimit_parser<P, ignore
    .parsersEq (tDelimit [(P Com7), (P Comma)]) (P (.delimit Com7 (.ignore Comma))),  -- 75: DEP_ASSERT_MODIFIER_CALLABLE_R(delimit,(PP{}, comma),(delimit_parser<PP, ignore_parser<Comma>>{}), delimit,(P{}, comma),(delimit_parser<P, ignore_pars
    .parsersEq (tMod (P Com7) (tDelimit [(P Comma)])) (P (.delimit Com7 (.ignore Comma))),  -- 75: DEP_ASSERT_MODIFIER_MODULO_OPERABLE_R(PP{}, delimit(comma),(delimit_parser<PP, ignore_parser<Comma>>{}), P{}, delimit(comma),(delimit_parser<P, ignore
    .parsersEq (tDelimit [(P Nam1), (P Comma)]) (P (.delimit Nam1 (.ignore Comma))),  -- 75: DEP_ASSERT_MODIFIER_CALLABLE_R(delimit,(PP{}, comma),(delimit_parser<PP, ignore_parser<Comma>>{}), delimit,(P{}, comma),(delimit_parser<P, ignore_pars
    .parsersEq (tMod (P Nam1) (tDelimit [(P Comma)])) (P (.delimit Nam1 (.ignore Comma))),  -- 75: DEP_ASSERT_MODIFIER_MODULO_OPERABLE_R(PP{}, delimit(comma),(delimit_parser<PP, ignore_parser<Comma>>{}), P{}, delimit(comma),(delimit_parser<P, ignore
    .parsersEq (tDelimit [(P Nam2), (P Comma)]) (P (.delimit Nam2 (.ignore Comma))),  -- 75: DEP_ASSERT_MODIFIER_CALLABLE_R(delimit,(PP{}, comma),(delimit_parser<PP, ignore_parser<Comma>>{}), delimit,(P{}, comma),(delimit_parser<P, ignore_pars
    .parsersEq (tMod (P Nam2) (tDelimit [(P Comma)])) (P (.delimit Nam2 (.ignore Comma))),  -- 75: DEP_ASSERT_MODIFIER_MODULO_OPERABLE_R(PP{}, delimit(comma),(delimit_parser<PP, ignore_parser<Comma>>{}), P{}, delimit(comma),(delimit_parser<P, ignore
    .parsersEq (tDelimit [(P Nam3), (P Comma)]) (P (.delimit Nam3 (.ignore Comma))),  -- 75: DEP_ASSERT_MODIFIER_CALLABLE_R(delimit,(PP{}, comma),(delimit_parser<PP, ignore_parser<Comma>>{}), delimit,(P{}, comma),(delimit_parser<P, ignore_pars
    .parsersEq (tMod (P Nam3) (tDelimit [(P Comma)])) (P (.delimit Nam3 (.ignore Comma))),  -- 75: DEP_ASSERT_MODIFIER_MODULO_OPERABLE_R(PP{}, delimit(comma),(delimit_parser<PP, ignore_parser<Comma>>{}), P{}, delimit(comma),(delimit_parser<P, ignore
    .parsersEq (tDelimit [(P Nam4), (P Comma)]) (P (.delimit Nam4 (.ignore Comma))),  -- 75: DEP_ASSERT_MODIFIER_CALLABLE_R(delimit,(PP{}, comma),(delimit_parser<PP, ignore_parser<Comma>>{}), delimit,(P{}, comma),(delimit_parser<P, ignore_pars
    .parsersEq (tMod (P Nam4) (tDelimit [(P Comma)])) (P (.delimit Nam4 (.ignore Comma))),  -- 75: DEP_ASSERT_MODIFIER_MODULO_OPERABLE_R(PP{}, delimit(comma),(delimit_parser<PP, ignore_parser<Comma>>{}), P{}, delimit(comma),(delimit_parser<P, ignore
    .parsersEq (tDelimit [(P Any1), (P Comma)]) (P (.delimit Any1 (.ignore Comma))),  -- 75: DEP_ASSERT_MODIFIER_CALLABLE_R(delimit,(PP{}, comma),(delimit_parser<PP, ignore_parser<Comma>>{}), delimit,(P{}, comma),(delimit_parser<P, ignore_pars
    .parsersEq (tMod (P Any1) (tDelimit [(P Comma)])) (P (.delimit Any1 (.ignore Comma))),  -- 75: DEP_ASSERT_MODIFIER_MODULO_OPERABLE_R(PP{}, delimit(comma),(delimit_parser<PP, ignore_parser<Comma>>{}), P{}, delimit(comma),(delimit_parser<P, ignore
    .parsersEq (tDelimit [(P Any2), (P Comma)]) (P (.delimit Any2 (.ignore Comma))),  -- 75: DEP_ASSERT_MODIFIER_CALLABLE_R(delimit,(PP{}, comma),(delimit_parser<PP, ignore_parser<Comma>>{}), delimit,(P{}, comma),(delimit_parser<P, ignore_pars
    .parsersEq (tMod (P Any2) (tDelimit [(P Comma)])) (P (.delimit Any2 (.ignore Comma))),  -- 75: DEP_ASSERT_MODIFIER_MODULO_OPERABLE_R(PP{}, delimit(comma),(delimit_parser<PP, ignore_parser<Comma>>{}), P{}, delimit(comma),(delimit_parser<P, ignore
    .parsersEq (tDelimit [(P Any3), (P Comma)]) (P (.delimit Any3 (.ignore Comma))),  -- 75: DEP_ASSERT_MODIFIER_CALLABLE_R(delimit,(PP{}, comma),(delimit_parser<PP, ignore_parser<Comma>>{}), delimit,(P{}, comma),(delimit_parser<P, ignore_pars
    .parsersEq (tMod (P Any3) (tDelimit [(P Comma)])) (P (.delimit Any3 (.ignore Comma))),  -- 75: DEP_ASSERT_MODIFIER_MODULO_OPERABLE_R(PP{}, delimit(comma),(delimit_parser<PP, ignore_parser<Comma>>{}), P{}, delimit(comma),(delimit_parser<P, ignore
    .parsersEq (tDelimit [(P Any4), (P Comma)]) (P (.delimit Any4 (.ignore Comma))),  -- 75: DEP_ASSERT_MODIFIER_CALLABLE_R(delimit,(PP{}, comma),(delimit_parser<PP, ignore_parser<Comma>>{}), delimit,(P{}, comma),(delimit_parser<P, ignore_pars
    .parsersEq (tMod (P Any4) (tDelimit [(P Comma)])) (P (.delimit Any4 (.ignore Comma))),  -- 75: DEP_ASSERT_MODIFIER_MODULO_OPERABLE_R(PP{}, delimit(comma),(delimit_parser<PP, ignore_parser<Comma>>{}), P{}, delimit(comma),(delimit_parser<P, ignore
    .parsersEq (tDelimit [(P Non1), (P Comma)]) (P (.delimit Non1 (.ignore Comma))),  -- 75: DEP_ASSERT_MODIFIER_CALLABLE_R(delimit,(PP{}, comma),(delimit_parser<PP, ignore_parser<Comma>>{}), delimit,(P{}, comma),(delimit_parser<P, ignore_pars
    .parsersEq (tMod (P Non1) (tDelimit [(P Comma)])) (P (.delimit Non1 (.ignore Comma))),  -- 75: DEP_ASSERT_MODIFIER_MODULO_OPERABLE_R(PP{}, delimit(comma),(delimit_parser<PP, ignore_parser<Comma>>{}), P{}, delimit(comma),(delimit_parser<P, ignore
    .parsersEq (tDelimit [(P Non2), (P Comma)]) (P (.delimit Non2 (.ignore Comma))),  -- 75: DEP_ASSERT_MODIFIER_CALLABLE_R(delimit,(PP{}, comma),(delimit_parser<PP, ignore_parser<Comma>>{}), delimit,(P{}, comma),(delimit_parser<P, ignore_pars
    .parsersEq (tMod (P Non2) (tDelimit [(P Comma)])) (P (.delimit Non2 (.ignore Comma))),  -- 75: DEP_ASSERT_MODIFIER_MODULO_OPERABLE_R(PP{}, delimit(comma),(delimit_parser<PP, ignore_parser<Comma>>{}), P{}, delimit(comma),(delimit_parser<P, ignore
    .parsersEq (tDelimit [(P Non3), (P Comma)]) (P (.delimit Non3 (.ignore Comma))),  -- 75: DEP_ASSERT_MODIFIER_CALLABLE_R(delimit,(PP{}, comma),(delimit_parser<PP, ignore_parser<Comma>>{}), delimit,(P{}, comma),(delimit_parser<P, ignore_pars
    .parsersEq (tMod (P Non3) (tDelimit [(P Comma)])) (P (.delimit Non3 (.ignore Comma))),  -- 75: DEP_ASSERT_MODIFIER_MODULO_OPERABLE_R(PP{}, delimit(comma),(delimit_parser<PP, ignore_parser<Comma>>{}), P{}, delimit(comma),(delimit_parser<P, ignore
    .parsersEq (tDelimit [(P Non4), (P Comma)]) (P (.delimit Non4 (.ignore Comma))),  -- 75: DEP_ASSERT_MODIFIER_CALLABLE_R(delimit,(PP{}, comma),(delimit_parser<PP, ignore_parser<Comma>>{}), delimit,(P{}, comma),(delimit_parser<P, ignore_pars
    .parsersEq (tMod (P Non4) (tDelimit [(P Comma)])) (P (.delimit Non4 (.ignore Comma))),  -- 75: DEP_ASSERT_MODIFIER_MODULO_OPERABLE_R(PP{}, delimit(comma),(delimit_parser<PP, ignore_parser<Comma>>{}), P{}, delimit(comma),(delimit_parser<P, ignore
    .parsersEq (tDelimit [(P Non5), (P Comma)]) (P (.delimit Non5 (.ignore Comma))),  -- 75: DEP_ASSERT_MODIFIER_CALLABLE_R(delimit,(PP{}, comma),(delimit_parser<PP, ignore_parser<Comma>>{}), delimit,(P{}, comma),(delimit_parser<P, ignore_pars
    .parsersEq (tMod (P Non5) (tDelimit [(P Comma)])) (P (.delimit Non5 (.ignore Comma))),  -- 75: DEP_ASSERT_MODIFIER_MODULO_OPERABLE_R(PP{}, delimit(comma),(delimit_parser<PP, ignore_parser<Comma>>{}), P{}, delimit(comma),(delimit_parser<P, ignore
    .parsersEq (tDelimit [(P All1), (P Comma)]) (P (.delimit All1 (.ignore Comma))),  -- 75: DEP_ASSERT_MODIFIER_CALLABLE_R(delimit,(PP{}, comma),(delimit_parser<PP, ignore_parser<Comma>>{}), delimit,(P{}, comma),(delimit_parser<P, ignore_pars
    .parsersEq (tMod (P All1) (tDelimit [(P Comma)])) (P (.delimit All1 (.ignore Comma))),  -- 75: DEP_ASSERT_MODIFIER_MODULO_OPERABLE_R(PP{}, delimit(comma),(delimit_parser<PP, ignore_parser<Comma>>{}), P{}, delimit(comma),(delimit_parser<P, ignore
    .parsersEq (tDelimit [(P All2), (P Comma)]) (P (.delimit All2 (.ignore Comma))),  -- 75: DEP_ASSERT_MODIFIER_CALLABLE_R(delimit,(PP{}, comma),(delimit_parser<PP, ignore_parser<Comma>>{}), delimit,(P{}, comma),(delimit_parser<P, ignore_pars
    .parsersEq (tMod (P All2) (tDelimit [(P Comma)])) (P (.delimit All2 (.ignore Comma))),  -- 75: DEP_ASSERT_MODIFIER_MODULO_OPERABLE_R(PP{}, delimit(comma),(delimit_parser<PP, ignore_parser<Comma>>{}), P{}, delimit(comma),(delimit_parser<P, ignore
    .parsersEq (tDelimit [(P All3), (P Comma)]) (P (.delimit All3 (.ignore Comma))),  -- 75: DEP_ASSERT_MODIFIER_CALLABLE_R(delimit,(PP{}, comma),(delimit_parser<PP, ignore_parser<Comma>>{}), delimit,(P{}, comma),(delimit_parser<P, ignore_pars
    .parsersEq (tMod (P All3) (tDelimit [(P Comma)])) (P (.delimit All3 (.ignore Comma))),  -- 75: DEP_ASSERT_MODIFIER_MODULO_OPERABLE_R(PP{}, delimit(comma),(delimit_parser<PP, ignore_parser<Comma>>{}), P{}, delimit(comma),(delimit_parser<P, ignore
    .parsersEq (tDelimit [(P All4), (P Comma)]) (P (.delimit All4 (.ignore Comma))),  -- 75: DEP_ASSERT_MODIFIER_CALLABLE_R(delimit,(PP{}, comma),(delimit_parser<PP, ignore_parser<Comma>>{}), delimit,(P{}, comma),(delimit_parser<P, ignore_pars
    .parsersEq (tMod (P All4) (tDelimit [(P Comma)])) (P (.delimit All4 (.ignore Comma))),  -- 75: DEP_ASSERT_MODIFIER_MODULO_OPERABLE_R(PP{}, delimit(comma),(delimit_parser<PP, ignore_parser<Comma>>{}), P{}, delimit(comma),(delimit_parser<P, ignore
    .parsersEq (tDelimit [(P Eps1), (P Comma)]) (P (.delimit Eps1 (.ignore Comma))),  -- 75: DEP_ASSERT_MODIFIER_CALLABLE_R(delimit,(PP{}, comma),(delimit_parser<PP, ignore_parser<Comma>>{}), delimit,(P{}, comma),(delimit_parser<P, ignore_pars
    .parsersEq (tMod (P Eps1) (tDelimit [(P Comma)])) (P (.delimit Eps1 (.ignore Comma)))  -- 75: DEP_ASSERT_MODIFIER_MODULO_OPERABLE_R(PP{}, delimit(comma),(delimit_parser<PP, ignore_parser<Comma>>{}), P{}, delimit(comma),(delimit_parser<P, ignore
    ], Assertion.Holds a :=
  Assertion.holds_of_check (by decide +kernel)

/-- delimit modifier / modify anything (tests/char-tests/modifiers/delimit.cpp:75) -/
theorem charModifiersDelimit_3_2 : ∀ a ∈ [
    .parsersEq (tDelimit [(P Ant1), (P Comma)]) (P (.delimit Ant1 (.ignore Comma))),  -- 75: DEP_ASSERT_MODIFIER_CALLABLE_R(delimit,(PP{}, comma),(delimit_parser<PP, ignore_parser<Comma>>{}), delimit,(P{}, comma),(delimit_parser<P, ignore_pars
    .parsersEq (tMod (P Ant1) (tDelimit [(P Comma)])) (P (.delimit Ant1 (.ignore Comma))),  -- 75: DEP_ASSERT_MODIFIER_MODULO_OPERABLE_R(PP{}, delimit(comma),(delimit_parser<PP, ignore_parser<Comma>>{}), P{}, delimit(comma),(delimit_parser<P, ignore
    .parsersEq (tDelimit [(P QQ), (P Comma)]) (P (.delimit QQ (.ignore Comma))),  -- 75: DEP_ASSERT_MODIFIER_CALLABLE_R(delimit,(PP{}, comma),(delimit_parser<PP, ignore_parser<Comma>>{}), delimit,(P{}, comma),(delimit_parser<P, ignore_pars
    .parsersEq (tMod (P QQ) (tDelimit [(P Comma)])) (P (.delimit QQ (.ignore Comma))),  -- 75: DEP_ASSERT_MODIFIER_MODULO_OPERABLE_R(PP{}, delimit(comma),(delimit_parser<PP, ignore_parser<Comma>>{}), P{}, delimit(comma),(delimit_parser<P, ignore
    .parsersEq (tDelimit [(P ABC), (P Comma)]) (P (.delimit ABC (.ignore Comma))),  -- 75: DEP_ASSERT_MODIFIER_CALLABLE_R(delimit,(PP{}, comma),(delimit_parser<PP, ignore_parser<Comma>>{}), delimit,(P{}, comma),(delimit_parser<P, ignore_pars
    .parsersEq (tMod (P ABC) (tDelimit [(P Comma)])) (P (.delimit ABC (.ignore Comma))),  -- 75: DEP_ASSERT_MODIFIER_MODULO_OPERABLE_R(PP{}, delimit(comma),(delimit_parser<PP, ignore_parser<Comma>>{}), P{}, delimit(comma),(delimit_parser<P, ignore
    .parsersEq (tDelimit [(P Comma), (P Comma)]) (P (.delimit Comma (.ignore Comma))),  -- 75: DEP_ASSERT_MODIFIER_CALLABLE_R(delimit,(PP{}, comma),(delimit_parser<PP, ignore_parser<Comma>>{}), delimit,(P{}, comma),(delimit_parser<P, ignore_pars
    .parsersEq (tMod (P Comma) (tDelimit [(P Comma)])) (P (.delimit Comma (.ignore Comma))),  -- 75: DEP_ASSERT_MODIFIER_MODULO_OPERABLE_R(PP{}, delimit(comma),(delimit_parser<PP, ignore_parser<Comma>>{}), P{}, delimit(comma),(delimit_parser<P, ignore
    .parsersEq (tDelimit [(P SpaceDot), (P Comma)]) (P (.delimit SpaceDot (.ignore Comma))),  -- 75: DEP_ASSERT_MODIFIER_CALLABLE_R(delimit,(PP{}, comma),(delimit_parser<PP, ignore_parser<Comma>>{}), delimit,(P{}, comma),(delimit_parser<P, ignore_pars
    .parsersEq (tMod (P SpaceDot) (tDelimit [(P Comma)])) (P (.delimit SpaceDot (.ignore Comma))),  -- 75: DEP_ASSERT_MODIFIER_MODULO_OPERABLE_R(PP{}, delimit(comma),(delimit_parser<PP, ignore_parser<Comma>>{}), P{}, delimit(comma),(delimit_parser<P, ignore
    .parsersEq (tDelimit [(P Cho1), (P Comma)]) (P (.delimit Cho1 (.ignore Comma))),  -- 75: DEP_ASSERT_MODIFIER_CALLABLE_R(delimit,(PP{}, comma),(delimit_parser<PP, ignore_parser<Comma>>{}), delimit,(P{}, comma),(delimit_parser<P, ignore_pars
    .parsersEq (tMod (P Cho1) (tDelimit [(P Comma)])) (P (.delimit Cho1 (.ignore Comma))),  -- 75: DEP_ASSERT_MODIFIER_MODULO_OPERABLE_R(PP{}, delimit(comma),(delimit_parser<PP, ignore_parser<Comma>>{}), P{}, delimit(comma),(delimit_parser<P, ignore
    .parsersEq (tDelimit [(P Cho2), (P Comma)]) (P (.delimit Cho2 (.ignore Comma))),  -- 75: DEP_ASSERT_MODIFIER_CALLABLE_R(delimit,(PP{}, comma),(delimit_parser<PP, ignore_parser<Comma>>{}), delimit,(P{}, comma),(delimit_parser<P, ignore_pars
    .parsersEq (tMod (P Cho2) (tDelimit [(P Comma)])) (P (.delimit Cho2 (.ignore Comma))),  -- 75: DEP_ASSERT_MODIFIER_MODULO_OPERABLE_R(PP{}, delimit(comma),(delimit_parser<PP, ignore_parser<Comma>>{}), P{}, delimit(comma),(delimit_parser<P, ignore
    .parsersEq (tDelimit [(P Cho3), (P Comma)]) (P (.delimit Cho3 (.ignore Comma))),  -- 75: DEP_ASSERT_MODIFIER_CALLABLE_R(delimit,(PP{}, comma),(delimit_parser<PP, ignore_parser<Comma>>{}), delimit,(P{}, comma),(delimit_parser<P, ignore_pars
    .parsersEq (tMod (P Cho3) (tDelimit [(P Comma)])) (P (.delimit Cho3 (.ignore Comma))),  -- 75: DEP_ASSERT_MODIFIER_MODULO_OPERABLE_R(PP{}, delimit(comma),(delimit_parser<PP, ignore_parser<Comma>>{}), P{}, delimit(comma),(delimit_parser<P, ignore
    .parsersEq (tDelimit [(P Cho4), (P Comma)]) (P (.delimit Cho4 (.ignore Comma))),  -- 75: DEP_ASSERT_MODIFIER_CALLABLE_R(delimit,(PP{}, comma),(delimit_parser<PP, ignore_parser<Comma>>{}), delimit,(P{}, comma),(delimit_parser<P, ignore_pars
    .parsersEq (tMod (P Cho4) (tDelimit [(P Comma)])) (P (.delimit Cho4 (.ignore Comma))),  -- 75: DEP_ASSERT_MODIFIER_MODULO_OPERABLE_R(PP{}, delimit(comma),(delimit_parser<PP, ignore_parser<Comma>>{}), P{}, delimit(comma),(delimit_parser<P, ignore
    .parsersEq (tDelimit [(P Cho5), (P Comma)]) (P (.delimit Cho5 (.ignore Comma))),  -- 75: DEP_ASSERT_MODIFIER_CALLABLE_R(delimit,(PP{}, comma),(delimit_parser<PP, ignore_parser<Comma>>{}), delimit,(P{}, comma),(delimit_parser<P, ignore_pars
    .parsersEq (tMod (P Cho5) (tDelimit [(P Comma)])) (P (.delimit Cho5 (.ignore Comma))),  -- 75: DEP_ASSERT_MODIFIER_MODULO_OPERABLE_R(PP{}, delimit(comma),(delimit_parser<PP, ignore_parser<Comma>>{}), P{}, delimit(comma),(delimit_parser<P, ignore
    .parsersEq (tDelimit [(P Seq1), (P Comma)]) (P (.delimit Seq1 (.ignore Comma))),  -- 75: DEP_ASSERT_MODIFIER_CALLABLE_R(delimit,(PP{}, comma),(delimit_parser<PP, ignore_parser<Comma>>{}), delimit,(P{}, comma),(delimit_parser<P, ignore_pars
    .parsersEq (tMod (P Seq1) (tDelimit [(P Comma)])) (P (.delimit Seq1 (.ignore Comma))),  -- 75: DEP_ASSERT_MODIFIER_MODULO_OPERABLE_R(PP{}, delimit(comma),(delimit_parser<PP, ignore_parser<Comma>>{}), P{}, delimit(comma),(delimit_parser<P, ignore
    .parsersEq (tDelimit [(P Seq2), (P Comma)]) (P (.delimit Seq2 (.ignore Comma))),  -- 75: DEP_ASSERT_MODIFIER_CALLABLE_R(delimit,(PP{}, comma),(delimit_parser<PP, ignore_parser<Comma>>{}), delimit,(P{}, comma),(delimit_parser<P, ignore_pars
    .parsersEq (tMod (P Seq2) (tDelimit [(P Comma)])) (P (.delimit Seq2 (.ignore Comma))),  -- 75: DEP_ASSERT_MODIFIER_MODULO_OPERABLE_R(PP{}, delimit(comma),(delimit_parser<PP, ignore_parser<Comma>>{}), P{}, delimit(comma),(delimit_parser<P, ignore
    .parsersEq (tDelimit [(P Seq3), (P Comma)]) (P (.delimit Seq3 (.ignore Comma))),  -- 75: DEP_ASSERT_MODIFIER_CALLABLE_R(delimit,(PP{}, comma),(delimit_parser<PP, ignore_parser<Comma>>{}), delimit,(P{}, comma),(delimit_parser<P, ignore_pars
    .parsersEq (tMod (P Seq3) (tDelimit [(P Comma)])) (P (.delimit Seq3 (.ignore Comma))),  -- 75: DEP_ASSERT_MODIFIER_MODULO_OPERABLE_R(PP{}, delimit(comma),(delimit_parser<PP, ignore_parser<Comma>>{}), P{}, delimit(comma),(delimit_parser<P, ignore
    .parsersEq (tDelimit [(P Seq4), (P Comma)]) (P (.delimit Seq4 (.ignore Comma))),  -- 75: DEP_ASSERT_MODIFIER_CALLABLE_R(delimit,(PP{}, comma),(delimit_parser<PP, ignore_parser<Comma>>{}), delimit,(P{}, comma),(delimit_parser<P, ignore_pars
    .parsersEq (tMod (P Seq4) (tDelimit [(P Comma)])) (P (.delimit Seq4 (.ignore Comma))),  -- 75: DEP_ASSERT_MODIFIER_MODULO_OPERABLE_R(PP{}, delimit(comma),(delimit_parser<PP, ignore_parser<Comma>>{}), P{}, delimit(comma),(delimit_parser<P, ignore
    .parsersEq (tDelimit [(P Seq5), (P Comma)]) (P (.delimit Seq5 (.ignore Comma))),  -- 75: DEP_ASSERT_MODIFIER_CALLABLE_R(delimit,(PP{}, comma),(delimit_parser<PP, ignore_parser<Comma>>{}), delimit,(P{}, comma),(delimit_parser<P, ignore_pars
    .parsersEq (tMod (P Seq5) (tDelimit [(P Comma)])) (P (.delimit Seq5 (.ignore Comma))),  -- 75: DEP_ASSERT_MODIFIER_MODULO_OPERABLE_R(PP{}, delimit(comma),(delimit_parser<PP, ignore_parser<Comma>>{}), P{}, delimit(comma),(delimit_parser<P, ignore
    .parsersEq (tDelimit [(P Joi1), (P Comma)]) (P (.delimit Joi1 (.ignore Comma))),  -- 75: DEP_ASSERT_MODIFIER_CALLABLE_R(delimit,(PP{}, comma),(delimit_parser<PP, ignore_parser<Comma>>{}), delimit,(P{}, comma),(delimit_parser<P, ignore_pars
    .parsersEq (tMod (P Joi1) (tDelimit [(P Comma)])) (P (.delimit Joi1 (.ignore Comma))),  -- 75: DEP_ASSERT_MODIFIER_MODULO_OPERABLE_R(PP{}, delimit(comma),(delimit_parser<PP, ignore_parser<Comma>>{}), P{}, delimit(comma),(delimit_parser<P, ignore
    .parsersEq (tDelimit [(P Joi2), (P Comma)]) (P (.delimit Joi2 (.ignore Comma))),  -- 75: DEP_ASSERT_MODIFIER_CALLABLE_R(delimit,(PP{}, comma),(delimit_parser<PP, ignore_parser<Comma>>{}), delimit,(P{}, comma),(delimit_parser<P, ignore_pars
    .parsersEq (tMod (P Joi2) (tDelimit [(P Comma)])) (P (.delimit Joi2 (.ignore Comma))),  -- 75: DEP_ASSERT_MODIFIER_MODULO_OPERABLE_R(PP{}, delimit(comma),(delimit_parser<PP, ignore_parser<Comma>>{}), P{}, delimit(comma),(delimit_parser<P, ignore
    .parsersEq (tDelimit [(P Joi3), (P Comma)]) (P (.delimit Joi3 (.ignore Comma))),  -- 75: DEP_ASSERT_MODIFIER_CALLABLE_R(delimit,(PP{}, comma),(delimit_parser<PP, ignore_parser<Comma>>{}), delimit,(P{}, comma),(delimit_parser<P, ignore_pars
    .parsersEq (tMod (P Joi3) (tDelimit [(P Comma)])) (P (.delimit Joi3 (.ignore Comma))),  -- 75: DEP_ASSERT_MODIFIER_MODULO_OPERABLE_R(PP{}, delimit(comma),(delimit_parser<PP, ignore_parser<Comma>>{}), P{}, delimit(comma),(delimit_parser<P, ignore
    .parsersEq (tDelimit [(P Joi4), (P Comma)]) (P (.delimit Joi4 (.ignore Comma))),  -- 75: DEP_ASSERT_MODIFIER_CALLABLE_R(delimit,(PP{}, comma),(delimit_parser<PP, ignore_parser<Comma>>{}), delimit,(P{}, comma),(delimit_parser<P, ignore_pars
    .parsersEq (tMod (P Joi4) (tDelimit [(P Comma)])) (P (.delimit Joi4 (.ignore Comma))),  -- 75: DEP_ASSERT_MODIFIER_MODULO_OPERABLE_R(PP{}, delimit(comma),(delimit_parser<PP, ignore_parser<Comma>>{}), P{}, delimit(comma),(delimit_parser<P, ignore
    .parsersEq (tDelimit [(P Joi5), (P Comma)]) (P (.delimit Joi5 (.ignore Comma))),  -- 75: DEP_ASSERT_MODIFIER_CALLABLE_R(delimit,(PP{}, comma),(delimit_parser<PP, ignore_parser<Comma>>{}), delimit,(P{}, comma),(delimit_parser<P, ignore_pars
    .parsersEq (tMod (P Joi5) (tDelimit [(P Comma)])) (P (.delimit Joi5 (.ignore Comma))),  -- 75: DEP_ASSERT_MODIFIER_MODULO_OPERABLE_R(PP{}, delimit(comma),(delimit_parser<PP, ignore_parser<Comma>>{}), P{}, delimit(comma),(delimit_parser<P, ignore
    .parsersEq (tDelimit [(P Map1), (P Comma)]) (P (.delimit Map1 (.ignore Comma))),  -- 75: DEP_ASSERT_MODIFIER_CALLABLE_R(delimit,(PP{}, comma),(delimit_parser<PP, ignore_parser<Comma>>{}), delimit,(P{}, comma),(delimit_parser<P, ignore_pars
    .parsersEq (tMod (P Map1) (tDelimit [(P Comma)])) (P (.delimit Map1 (.ignore Comma))),  -- 75: DEP_ASSERT_MODIFIER_MODULO_OPERABLE_R(PP{}, delimit(comma),(delimit_parser<PP, ignore_parser<Comma>>{}), P{}, delimit(comma),(delimit_parser<P, ignore
    .parsersEq (tDelimit [(P Map2), (P Comma)]) (P (.delimit Map2 (.ignore Comma))),  -- 75: DEP_ASSERT_MODIFIER_CALLABLE_R(delimit,(PP{}, comma),(delimit_parser<PP, ignore_parser<Comma>>{}), delimit,(P{}, comma),(delimit_parser<P, ignore_pars
    .parsersEq (tMod (P Map2) (tDelimit [(P Comma)])) (P (.delimit Map2 (.ignore Comma))),  -- 75: DEP_ASSERT_MODIFIER_MODULO_OPERABLE_R(PP{}, delimit(comma),(delimit_parser<PP, ignore_parser<Comma>>{}), P{}, delimit(comma),(delimit_parser<P, ignore
    .parsersEq (tDelimit [(P Map3), (P Comma)]) (P (.delimit Map3 (.ignore Comma))),  -- 75: DEP_ASSERT_MODIFIER_CALLABLE_R(delimit,(PP{}, comma),(delimit_parser<PP, ignore_parser<Comma>>{}), delimit,(P{}, comma),(delimit_parser<P, ignore_pars
    .parsersEq (tMod (P Map3) (tDelimit [(P Comma)])) (P (.delimit Map3 (.ignore Comma))),  -- 75: DEP_ASSERT_MODIFIER_MODULO_OPERABLE_R(PP{}, delimit(comma),(delimit_parser<PP, ignore_parser<Comma>>{}), P{}, delimit(comma),(delimit_parser<P, ignore
    .parsersEq (tDelimit [(P Map4), (P Comma)]) (P (.delimit Map4 (.ignore Comma))),  -- 75: DEP_ASSERT_MODIFIER_CALLABLE_R(delimit,(PP{}, comma),(delimit_parser<PP, ignore_parser<Comma>>{}), delimit,(P{}, comma),(delimit_parser<P, ignore_pars
    .parsersEq (tMod (P Map4) (tDelimit [(P Comma)])) (P (.delimit Map4 (.ignore Comma))),  -- 75: DEP_ASSERT_MODIFIER_MODULO_OPERABLE_R(PP{}, delimit(comma),(delimit_parser<PP, ignore_parser<Comma>>{}), P{}, delimit(comma),(delimit_parser<P, ignore
    .parsersEq (tDelimit [(P Fil1), (P Comma)]) (P (.delimit Fil1 (.ignore Comma))),  -- 75: DEP_ASSERT_MODIFIER_CALLABLE_R(delimit,(PP{}, comma),(delimit_parser<PP, ignore_parser<Comma>>{}), delimit,(P{}, comma),(delimit_parser<P, ignore_pars
    .parsersEq (tMod (P Fil1) (tDelimit [(P Comma)])) (P (.delimit Fil1 (.ignore Comma))),  -- 75: DEP_ASSERT_MODIFIER_MODULO_OPERABLE_R(PP{}, delimit(comma),(delimit_parser<PP, ignore_parser<Comma>>{}), P{}, delimit(comma),(delimit_parser<P, ignore
    .parsersEq (tDelimit [(P Fil2), (P Comma)]) (P (.delimit Fil2 (.ignore Comma))),  -- 75: DEP_ASSERT_MODIFIER_CALLABLE_R(delimit,(PP{}, comma),(delimit_parser<PP, ignore_parser<Comma>>{}), delimit,(P{}, comma),(delimit_parser<P, ignore_pars
    .parsersEq (tMod (P Fil2) (tDelimit [(P Comma)])) (P (.delimit Fil2 (.ignore Comma))),  -- 75: DEP_ASSERT_MODIFIER_MODULO_OPERABLE_R(PP{}, delimit(comma),(delimit_parser<PP, ignore_parser<Comma>>{}), P{}, delimit(comma),(delimit_parser<P, ignore
    .parsersEq (tDelimit [(P Fil3), (P Comma)]) (P (.delimit Fil3 (.ignore Comma))),  -- 75: DEP_ASSERT_MODIFIER_CALLABLE_R(delimit,(PP{}, comma),(delimit_parser<PP, ignore_parser<Comma>>{}), delimit,(P{}, comma),(delimit_parser<P, ignore_pars
    .parsersEq (tMod (P Fil3) (tDelimit [(P Comma)])) (P (.delimit Fil3 (.ignore Comma))),  -- 75: DEP_ASSERT_MODIFIER_MODULO_OPERABLE_R(PP{}, delimit(comma),(delimit_parser<PP, ignore_parser<Comma>>{}), P{}, delimit(comma),(delimit_parser<P, ignore
    .parsersEq (tDelimit [(P Apm1), (P Comma)]) (P (.delimit Apm1 (.ignore Comma))),  -- 75: DEP_ASSERT_MODIFIER_CALLABLE_R(delimit,(PP{}, comma),(delimit_parser<PP, ignore_parser<Comma>>{}), delimit,(P{}, comma),(delimit_parser<P, ignore_pars
    .parsersEq (tMod (P Apm1) (tDelimit [(P Comma)])) (P (.delimit Apm1 (.ignore Comma))),  -- 75: DEP_ASSERT_MODIFIER_MODULO_OPERABLE_R(PP{}, delimit(comma),(delimit_parser<PP, ignore_parser<Comma>>{}), P{}, delimit(comma),(delimit_parser<P, ignore
    .parsersEq (tDelimit [(P Apm2), (P Comma)]) (P (.delimit Apm2 (.ignore Comma))),  -- 75: DEP_ASSERT_MODIFIER_CALLABLE_R(delimit,(PP{}, comma),(delimit_parser<PP, ignore_parser<Comma>>{}), delimit,(P{}, comma),(delimit_parser<P, ignore_pars
    .parsersEq (tMod (P Apm2) (tDelimit [(P Comma)])) (P (.delimit Apm2 (.ignore Comma))),  -- 75: DEP_ASSERT_MODIFIER_MODULO_OPERABLE_R(PP{}, delimit(comma),(delimit_parser<PP, ignore_parser<Comma>>{}), P{}, delimit(comma),(delimit_parser<P, ignore
    .parsersEq (tDelimit [(P Apf1), (P Comma)]) (P (.delimit Apf1 (.ignore Comma))),  -- 75: DEP_ASSERT_MODIFIER_CALLABLE_R(delimit,(PP{}, comma),(delimit_parser<PP, ignore_parser<Comma>>{}), delimit,(P{}, comma),(delimit_parser<P, ignore_pars
    .parsersEq (tMod (P Apf1) (tDelimit [(P Comma)])) (P (.delimit Apf1 (.ignore Comma)))  -- 75: DEP_ASSERT_MODIFIER_MODULO_OPERABLE_R(PP{}, delimit(comma),(delimit_parser<PP, ignore_parser<Comma>>{}), P{}, delimit(comma),(delimit_parser<P, ignore
    ], Assertion.Holds a :=
  Assertion.holds_of_check (by decide +kernel)

/-- delimit modifier / modify anything (tests/char-tests/modifiers/delimit.cpp:75) -/
theorem charModifiersDelimit_3_3 : ∀ a ∈ [
    .parsersEq (tDelimit [(P Int1), (P Comma)]) (P (.delimit Int1 (.ignore Comma))),  -- 75: DEP_ASSERT_MODIFIER_CALLABLE_R(delimit,(PP{}, comma),(delimit_parser<PP, ignore_parser<Comma>>{}), delimit,(P{}, comma),(delimit_parser<P, ignore_pars
    .parsersEq (tMod (P Int1) (tDelimit [(P Comma)])) (P (.delimit Int1 (.ignore Comma))),  -- 75: DEP_ASSERT_MODIFIER_MODULO_OPERABLE_R(PP{}, delimit(comma),(delimit_parser<PP, ignore_parser<Comma>>{}), P{}, delimit(comma),(delimit_parser<P, ignore
    .parsersEq (tDelimit [(P Int2), (P Comma)]) (P (.delimit Int2 (.ignore Comma))),  -- 75: DEP_ASSERT_MODIFIER_CALLABLE_R(delimit,(PP{}, comma),(delimit_parser<PP, ignore_parser<Comma>>{}), delimit,(P{}, comma),(delimit_parser<P, ignore_pars
    .parsersEq (tMod (P Int2) (tDelimit [(P Comma)])) (P (.delimit Int2 (.ignore Comma))),  -- 75: DEP_ASSERT_MODIFIER_MODULO_OPERABLE_R(PP{}, delimit(comma),(delimit_parser<PP, ignore_parser<Comma>>{}), P{}, delimit(comma),(delimit_parser<P, ignore
    .parsersEq (tDelimit [(P Int3), (P Comma)]) (P (.delimit Int3 (.ignore Comma))),  -- 75: DEP_ASSERT_MODIFIER_CALLABLE_R(delimit,(PP{}, comma),(delimit_parser<PP, ignore_parser<Comma>>{}), delimit,(P{}, comma),(delimit_parser<P, ignore_pars
    .parsersEq (tMod (P Int3) (tDelimit [(P Comma)])) (P (.delimit Int3 (.ignore Comma))),  -- 75: DEP_ASSERT_MODIFIER_MODULO_OPERABLE_R(PP{}, delimit(comma),(delimit_parser<PP, ignore_parser<Comma>>{}), P{}, delimit(comma),(delimit_parser<P, ignore
    .parsersEq (tDelimit [(P Api1), (P Comma)]) (P (.delimit Api1 (.ignore Comma))),  -- 75: DEP_ASSERT_MODIFIER_CALLABLE_R(delimit,(PP{}, comma),(delimit_parser<PP, ignore_parser<Comma>>{}), delimit,(P{}, comma),(delimit_parser<P, ignore_pars
    .parsersEq (tMod (P Api1) (tDelimit [(P Comma)])) (P (.delimit Api1 (.ignore Comma))),  -- 75: DEP_ASSERT_MODIFIER_MODULO_OPERABLE_R(PP{}, delimit(comma),(delimit_parser<PP, ignore_parser<Comma>>{}), P{}, delimit(comma),(delimit_parser<P, ignore
    .parsersEq (tDelimit [(P Api2), (P Comma)]) (P (.delimit Api2 (.ignore Comma))),  -- 75: DEP_ASSERT_MODIFIER_CALLABLE_R(delimit,(PP{}, comma),(delimit_parser<PP, ignore_parser<Comma>>{}), delimit,(P{}, comma),(delimit_parser<P, ignore_pars
    .parsersEq (tMod (P Api2) (tDelimit [(P Comma)])) (P (.delimit Api2 (.ignore Comma))),  -- 75: DEP_ASSERT_MODIFIER_MODULO_OPERABLE_R(PP{}, delimit(comma),(delimit_parser<PP, ignore_parser<Comma>>{}), P{}, delimit(comma),(delimit_parser<P, ignore
    .parsersEq (tDelimit [(P Con1), (P Comma)]) (P (.delimit Con1 (.ignore Comma))),  -- 75: DEP_ASSERT_MODIFIER_CALLABLE_R(delimit,(PP{}, comma),(delimit_parser<PP, ignore_parser<Comma>>{}), delimit,(P{}, comma),(delimit_parser<P, ignore_pars
    .parsersEq (tMod (P Con1) (tDelimit [(P Comma)])) (P (.delimit Con1 (.ignore Comma))),  -- 75: DEP_ASSERT_MODIFIER_MODULO_OPERABLE_R(PP{}, delimit(comma),(delimit_parser<PP, ignore_parser<Comma>>{}), P{}, delimit(comma),(delimit_parser<P, ignore
    .parsersEq (tDelimit [(P Con2), (P Comma)]) (P (.delimit Con2 (.ignore Comma))),  -- 75: DEP_ASSERT_MODIFIER_CALLABLE_R(delimit,(PP{}, comma),(delimit_parser<PP, ignore_parser<Comma>>{}), delimit,(P{}, comma),(delimit_parser<P, ignore_pars
    .parsersEq (tMod (P Con2) (tDelimit [(P Comma)])) (P (.delimit Con2 (.ignore Comma))),  -- 75: DEP_ASSERT_MODIFIER_MODULO_OPERABLE_R(PP{}, delimit(comma),(delimit_parser<PP, ignore_parser<Comma>>{}), P{}, delimit(comma),(delimit_parser<P, ignore
    .parsersEq (tDelimit [(P Con3), (P Comma)]) (P (.delimit Con3 (.ignore Comma))),  -- 75: DEP_ASSERT_MODIFIER_CALLABLE_R(delimit,(PP{}, comma),(delimit_parser<PP, ignore_parser<Comma>>{}), delimit,(P{}, comma),(delimit_parser<P, ignore_pars
    .parsersEq (tMod (P Con3) (tDelimit [(P Comma)])) (P (.delimit Con3 (.ignore Comma))),  -- 75: DEP_ASSERT_MODIFIER_MODULO_OPERABLE_R(PP{}, delimit(comma),(delimit_parser<PP, ignore_parser<Comma>>{}), P{}, delimit(comma),(delimit_parser<P, ignore
    .parsersEq (tDelimit [(P Con4), (P Comma)]) (P (.delimit Con4 (.ignore Comma))),  -- 75: DEP_ASSERT_MODIFIER_CALLABLE_R(delimit,(PP{}, comma),(delimit_parser<PP, ignore_parser<Comma>>{}), delimit,(P{}, comma),(delimit_parser<P, ignore_pars
    .parsersEq (tMod (P Con4) (tDelimit [(P Comma)])) (P (.delimit Con4 (.ignore Comma))),  -- 75: DEP_ASSERT_MODIFIER_MODULO_OPERABLE_R(PP{}, delimit(comma),(delimit_parser<PP, ignore_parser<Comma>>{}), P{}, delimit(comma),(delimit_parser<P, ignore
    .parsersEq (tDelimit [(P Def1), (P Comma)]) (P (.delimit Def1 (.ignore Comma))),  -- 75: DEP_ASSERT_MODIFIER_CALLABLE_R(delimit,(PP{}, comma),(delimit_parser<PP, ignore_parser<Comma>>{}), delimit,(P{}, comma),(delimit_parser<P, ignore_pars
    .parsersEq (tMod (P Def1) (tDelimit [(P Comma)])) (P (.delimit Def1 (.ignore Comma))),  -- 75: DEP_ASSERT_MODIFIER_MODULO_OPERABLE_R(PP{}, delimit(comma),(delimit_parser<PP, ignore_parser<Comma>>{}), P{}, delimit(comma),(delimit_parser<P, ignore
    .parsersEq (tDelimit [(P Def2), (P Comma)]) (P (.delimit Def2 (.ignore Comma))),  -- 75: DEP_ASSERT_MODIFIER_CALLABLE_R(delimit,(PP{}, comma),(delimit_parser<PP, ignore_parser<Comma>>{}), delimit,(P{}, comma),(delimit_parser<P, ignore_pars
    .parsersEq (tMod (P Def2) (tDelimit [(P Comma)])) (P (.delimit Def2 (.ignore Comma))),  -- 75: DEP_ASSERT_MODIFIER_MODULO_OPERABLE_R(PP{}, delimit(comma),(delimit_parser<PP, ignore_parser<Comma>>{}), P{}, delimit(comma),(delimit_parser<P, ignore
    .parsersEq (tDelimit [(P (.custom 0)), (P Comma)]) (P (.delimit (.custom 0) (.ignore Comma))),  -- 75: DEP_ASSERT_MODIFIER_CALLABLE_R(delimit,(PP{}, comma),(delimit_parser<PP, ignore_parser<Comma>>{}), delimit,(P{}, comma),(delimit_parser<P, ignore_pars
    .parsersEq (tMod (P (.custom 0)) (tDelimit [(P Comma)])) (P (.delimit (.custom 0) (.ignore Comma))),  -- 75: DEP_ASSERT_MODIFIER_MODULO_OPERABLE_R(PP{}, delimit(comma),(delimit_parser<PP, ignore_parser<Comma>>{}), P{}, delimit(comma),(delimit_parser<P, ignore
    .parsersEq (tDelimit [(P (.custom 1)), (P Comma)]) (P (.delimit (.custom 1) (.ignore Comma))),  -- 75: DEP_ASSERT_MODIFIER_CALLABLE_R(delimit,(PP{}, comma),(delimit_parser<PP, ignore_parser<Comma>>{}), delimit,(P{}, comma),(delimit_parser<P, ignore_pars
    .parsersEq (tMod (P (.custom 1)) (tDelimit [(P Comma)])) (P (.delimit (.custom 1) (.ignore Comma))),  -- 75: DEP_ASSERT_MODIFIER_MODULO_OPERABLE_R(PP{}, delimit(comma),(delimit_parser<PP, ignore_parser<Comma>>{}), P{}, delimit(comma),(delimit_parser<P, ignore
    .parsersEq (tDelimit [(P May1), (P Comma)]) (P (.delimit May1 (.ignore Comma))),  -- 75: DEP_ASSERT_MODIFIER_CALLABLE_R(delimit,(PP{}, comma),(delimit_parser<PP, ignore_parser<Comma>>{}), delimit,(P{}, comma),(delimit_parser<P, ignore_pars
    .parsersEq (tMod (P May1) (tDelimit [(P Comma)])) (P (.delimit May1 (.ignore Comma))),  -- 75: DEP_ASSERT_MODIFIER_MODULO_OPERABLE_R(PP{}, delimit(comma),(delimit_parser<PP, ignore_parser<Comma>>{}), P{}, delimit(comma),(delimit_parser<P, ignore
    .parsersEq (tDelimit [(P May2), (P Comma)]) (P (.delimit May2 (.ignore Comma))),  -- 75: DEP_ASSERT_MODIFIER_CALLABLE_R(delimit,(PP{}, comma),(delimit_parser<PP, ignore_parser<Comma>>{}), delimit,(P{}, comma),(delimit_parser<P, ignore_pars
    .parsersEq (tMod (P May2) (tDelimit [(P Comma)])) (P (.delimit May2 (.ignore Comma))),  -- 75: DEP_ASSERT_MODIFIER_MODULO_OPERABLE_R(PP{}, delimit(comma),(delimit_parser<PP, ignore_parser<Comma>>{}), P{}, delimit(comma),(delimit_parser<P, ignore
    .parsersEq (tDelimit [(P May3), (P Comma)]) (P (.delimit May3 (.ignore Comma))),  -- 75: DEP_ASSERT_MODIFIER_CALLABLE_R(delimit,(PP{}, comma),(delimit_parser<PP, ignore_parser<Comma>>{}), delimit,(P{}, comma),(delimit_parser<P, ignore_pars
    .parsersEq (tMod (P May3) (tDelimit [(P Comma)])) (P (.delimit May3 (.ignore Comma))),  -- 75: DEP_ASSERT_MODIFIER_MODULO_OPERABLE_R(PP{}, delimit(comma),(delimit_parser<PP, ignore_parser<Comma>>{}), P{}, delimit(comma),(delimit_parser<P, ignore
    .parsersEq (tDelimit [(P May4), (P Comma)]) (P (.delimit May4 (.ignore Comma))),  -- 75: DEP_ASSERT_MODIFIER_CALLABLE_R(delimit,(PP{}, comma),(delimit_parser<PP, ignore_parser<Comma>>{}), delimit,(P{}, comma),(delimit_parser<P, ignore_pars
    .parsersEq (tMod (P May4) (tDelimit [(P Comma)])) (P (.delimit May4 (.ignore Comma))),  -- 75: DEP_ASSERT_MODIFIER_MODULO_OPERABLE_R(PP{}, delimit(comma),(delimit_parser<PP, ignore_parser<Comma>>{}), P{}, delimit(comma),(delimit_parser<P, ignore
    .parsersEq (tDelimit [(P Exa1), (P Comma)]) (P (.delimit Exa1 (.ignore Comma))),  -- 75: DEP_ASSERT_MODIFIER_CALLABLE_R(delimit,(PP{}, comma),(delimit_parser<PP, ignore_parser<Comma>>{}), delimit,(P{}, comma),(delimit_parser<P, ignore_pars
    .parsersEq (tMod (P Exa1) (tDelimit [(P Comma)])) (P (.delimit Exa1 (.ignore Comma))),  -- 75: DEP_ASSERT_MODIFIER_MODULO_OPERABLE_R(PP{}, delimit(comma),(delimit_parser<PP, ignore_parser<Comma>>{}), P{}, delimit(comma),(delimit_parser<P, ignore
    .parsersEq (tDelimit [(P Exa2), (P Comma)]) (P (.delimit Exa2 (.ignore Comma))),  -- 75: DEP_ASSERT_MODIFIER_CALLABLE_R(delimit,(PP{}, comma),(delimit_parser<PP, ignore_parser<Comma>>{}), delimit,(P{}, comma),(delimit_parser<P, ignore_pars
    .parsersEq (tMod (P Exa2) (tDelimit [(P Comma)])) (P (.delimit Exa2 (.ignore Comma))),  -- 75: DEP_ASSERT_MODIFIER_MODULO_OPERABLE_R(PP{}, delimit(comma),(delimit_parser<PP, ignore_parser<Comma>>{}), P{}, delimit(comma),(delimit_parser<P, ignore
    .parsersEq (tDelimit [(P Exa3), (P Comma)]) (P (.delimit Exa3 (.ignore Comma))),  -- 75: DEP_ASSERT_MODIFIER_CALLABLE_R(delimit,(PP{}, comma),(delimit_parser<PP, ignore_parser<Comma>>{}), delimit,(P{}, comma),(delimit_parser<P, ignore_pars
    .parsersEq (tMod (P Exa3) (tDelimit [(P Comma)])) (P (.delimit Exa3 (.ignore Comma))),  -- 75: DEP_ASSERT_MODIFIER_MODULO_OPERABLE_R(PP{}, delimit(comma),(delimit_parser<PP, ignore_parser<Comma>>{}), P{}, delimit(comma),(delimit_parser<P, ignore
    .parsersEq (tDelimit [(P Exa4), (P Comma)]) (P (.delimit Exa4 (.ignore Comma))),  -- 75: DEP_ASSERT_MODIFIER_CALLABLE_R(delimit,(PP{}, comma),(delimit_parser<PP, ignore_parser<Comma>>{}), delimit,(P{}, comma),(delimit_parser<P, ignore_pars
    .parsersEq (tMod (P Exa4) (tDelimit [(P Comma)])) (P (.delimit Exa4 (.ignore Comma))),  -- 75: DEP_ASSERT_MODIFIER_MODULO_OPERABLE_R(PP{}, delimit(comma),(delimit_parser<PP, ignore_parser<Comma>>{}), P{}, delimit(comma),(delimit_parser<P, ignore
    .parsersEq (tDelimit [(P Oom1), (P Comma)]) (P (.delimit Oom1 (.ignore Comma))),  -- 75: DEP_ASSERT_MODIFIER_CALLABLE_R(delimit,(PP{}, comma),(delimit_parser<PP, ignore_parser<Comma>>{}), delimit,(P{}, comma),(delimit_parser<P, ignore_pars
    .parsersEq (tMod (P Oom1) (tDelimit [(P Comma)])) (P (.delimit Oom1 (.ignore Comma))),  -- 75: DEP_ASSERT_MODIFIER_MODULO_OPERABLE_R(PP{}, delimit(comma),(delimit_parser<PP, ignore_parser<Comma>>{}), P{}, delimit(comma),(delimit_parser<P, ignore
    .parsersEq (tDelimit [(P Oom2), (P Comma)]) (P (.delimit Oom2 (.ignore Comma))),  -- 75: DEP_ASSERT_MODIFIER_CALLABLE_R(delimit,(PP{}, comma),(delimit_parser<PP, ignore_parser<Comma>>{}), delimit,(P{}, comma),(delimit_parser<P, ignore_pars
    .parsersEq (tMod (P Oom2) (tDelimit [(P Comma)])) (P (.delimit Oom2 (.ignore Comma))),  -- 75: DEP_ASSERT_MODIFIER_MODULO_OPERABLE_R(PP{}, delimit(comma),(delimit_parser<PP, ignore_parser<Comma>>{}), P{}, delimit(comma),(delimit_parser<P, ignore
    .parsersEq (tDelimit [(P Oom3), (P Comma)]) (P (.delimit Oom3 (.ignore Comma))),  -- 75: DEP_ASSERT_MODIFIER_CALLABLE_R(delimit,(PP{}, comma),(delimit_parser<PP, ignore_parser<Comma>>{}), delimit,(P{}, comma),(delimit_parser<P, ignore_pars
    .parsersEq (tMod (P Oom3) (tDelimit [(P Comma)])) (P (.delimit Oom3 (.ignore Comma))),  -- 75: DEP_ASSERT_MODIFIER_MODULO_OPERABLE_R(PP{}, delimit(comma),(delimit_parser<PP, ignore_parser<Comma>>{}), P{}, delimit(comma),(delimit_parser<P, ignore
    .parsersEq (tDelimit [(P Oom4), (P Comma)]) (P (.delimit Oom4 (.ignore Comma))),  -- 75: DEP_ASSERT_MODIFIER_CALLABLE_R(delimit,(PP{}, comma),(delimit_parser<PP, ignore_parser<Comma>>{}), delimit,(P{}, comma),(delimit_parser<P, ignore_pars
    .parsersEq (tMod (P Oom4) (tDelimit [(P Comma)])) (P (.delimit Oom4 (.ignore Comma))),  -- 75: DEP_ASSERT_MODIFIER_MODULO_OPERABLE_R(PP{}, delimit(comma),(delimit_parser<PP, ignore_parser<Comma>>{}), P{}, delimit(comma),(delimit_parser<P, ignore
    .parsersEq (tDelimit [(P Zom1), (P Comma)]) (P (.delimit Zom1 (.ignore Comma))),  -- 75: DEP_ASSERT_MODIFIER_CALLABLE_R(delimit,(PP{}, comma),(delimit_parser<PP, ignore_parser<Comma>>{}), delimit,(P{}, comma),(delimit_parser<P, ignore_pars
    .parsersEq (tMod (P Zom1) (tDelimit [(P Comma)])) (P (.delimit Zom1 (.ignore Comma))),  -- 75: DEP_ASSERT_MODIFIER_MODULO_OPERABLE_R(PP{}, delimit(comma),(delimit_parser<PP, ignore_parser<Comma>>{}), P{}, delimit(comma),(delimit_parser<P, ignore
    .parsersEq (tDelimit [(P Zom2), (P Comma)]) (P (.delimit Zom2 (.ignore Comma))),  -- 75: DEP_ASSERT_MODIFIER_CALLABLE_R(delimit,(PP{}, comma),(delimit_parser<PP, ignore_parser<Comma>>{}), delimit,(P{}, comma),(delimit_parser<P, ignore_pars
    .parsersEq (tMod (P Zom2) (tDelimit [(P Comma)])) (P (.delimit Zom2 (.ignore Comma))),  -- 75: DEP_ASSERT_MODIFIER_MODULO_OPERABLE_R(PP{}, delimit(comma),(delimit_parser<PP, ignore_parser<Comma>>{}), P{}, delimit(comma),(delimit_parser<P, ignore
    .parsersEq (tDelimit [(P Zom3), (P Comma)]) (P (.delimit Zom3 (.ignore Comma))),  -- 75: DEP_ASSERT_MODIFIER_CALLABLE_R(delimit,(PP{}, comma),(delimit_parser<PP, ignore_parser<Comma>>{}), delimit,(P{}, comma),(delimit_parser<P, ignore_pars
    .parsersEq (tMod (P Zom3) (tDelimit [(P Comma)])) (P (.delimit Zom3 (.ignore Comma))),  -- 75: DEP_ASSERT_MODIFIER_MODULO_OPERABLE_R(PP{}, delimit(comma),(delimit_parser<PP, ignore_parser<Comma>>{}), P{}, delimit(comma),(delimit_parser<P, ignore
    .parsersEq (tDelimit [(P Zom4), (P Comma)]) (P (.delimit Zom4 (.ignore Comma))),  -- 75: DEP_ASSERT_MODIFIER_CALLABLE_R(delimit,(PP{}, comma),(delimit_parser<PP, ignore_parser<Comma>>{}), delimit,(P{}, comma),(delimit_parser<P, ignore_pars
    .parsersEq (tMod (P Zom4) (tDelimit [(P Comma)])) (P (.delimit Zom4 (.ignore Comma))),  -- 75: DEP_ASSERT_MODIFIER_MODULO_OPERABLE_R(PP{}, delimit(comma),(delimit_parser<PP, ignore_parser<Comma>>{}), P{}, delimit(comma),(delimit_parser<P, ignore
    .parsersEq (tDelimit [(P Del1), (P Comma)]) (P (.delimit Del1 (.ignore Comma))),  -- 75: DEP_ASSERT_MODIFIER_CALLABLE_R(delimit,(PP{}, comma),(delimit_parser<PP, ignore_parser<Comma>>{}), delimit,(P{}, comma),(delimit_parser<P, ignore_pars
    .parsersEq (tMod (P Del1) (tDelimit [(P Comma)])) (P (.delimit Del1 (.ignore Comma)))  -- 75: DEP_ASSERT_MODIFIER_MODULO_OPERABLE_R(PP{}, delimit(comma),(delimit_parser<PP, ignore_parser<Comma>>{}), P{}, delimit(comma),(delimit_parser<P, ignore
    ], Assertion.Holds a :=
  Assertion.holds_of_check (by decide +kernel)

/-- delimit modifier / modify anything (tests/char-tests/modifiers/delimit.cpp:75) -/
theorem charModifiersDelimit_3_4 : ∀ a ∈ [
    .parsersEq (tDelimit [(P Del2), (P Comma)]) (P (.delimit Del2 (.ignore Comma))),  -- 75: DEP_ASSERT_MODIFIER_CALLABLE_R(delimit,(PP{}, comma),(delimit_parser<PP, ignore_parser<Comma>>{}), delimit,(P{}, comma),(delimit_parser<P, ignore_pars
    .parsersEq (tMod (P Del2) (tDelimit [(P Comma)])) (P (.delimit Del2 (.ignore Comma))),  -- 75: DEP_ASSERT_MODIFIER_MODULO_OPERABLE_R(PP{}, delimit(comma),(delimit_parser<PP, ignore_parser<Comma>>{}), P{}, delimit(comma),(delimit_parser<P, ignore
    .parsersEq (tDelimit [(P Del3), (P Comma)]) (P (.delimit Del3 (.ignore Comma))),  -- 75: DEP_ASSERT_MODIFIER_CALLABLE_R(delimit,(PP{}, comma),(delimit_parser<PP, ignore_parser<Comma>>{}), delimit,(P{}, comma),(delimit_parser<P, ignore_pars
    .parsersEq (tMod (P Del3) (tDelimit [(P Comma)])) (P (.delimit Del3 (.ignore Comma))),  -- 75: DEP_ASSERT_MODIFIER_MODULO_OPERABLE_R(PP{}, delimit(comma),(delimit_parser<PP, ignore_parser<Comma>>{}), P{}, delimit(comma),(delimit_parser<P, ignore
    .parsersEq (tDelimit [(P Del4), (P Comma)]) (P (.delimit Del4 (.ignore Comma))),  -- 75: DEP_ASSERT_MODIFIER_CALLABLE_R(delimit,(PP{}, comma),(delimit_parser<PP, ignore_parser<Comma>>{}), delimit,(P{}, comma),(delimit_parser<P, ignore_pars
    .parsersEq (tMod (P Del4) (tDelimit [(P Comma)])) (P (.delimit Del4 (.ignore Comma))),  -- 75: DEP_ASSERT_MODIFIER_MODULO_OPERABLE_R(PP{}, delimit(comma),(delimit_parser<PP, ignore_parser<Comma>>{}), P{}, delimit(comma),(delimit_parser<P, ignore
    .parsersEq (tDelimit [(P Del5), (P Comma)]) (P (.delimit Del5 (.ignore Comma))),  -- 75: DEP_ASSERT_MODIFIER_CALLABLE_R(delimit,(PP{}, comma),(delimit_parser<PP, ignore_parser<Comma>>{}), delimit,(P{}, comma),(delimit_parser<P, ignore_pars
    .parsersEq (tMod (P Del5) (tDelimit [(P Comma)])) (P (.delimit Del5 (.ignore Comma))),  -- 75: DEP_ASSERT_MODIFIER_MODULO_OPERABLE_R(PP{}, delimit(comma),(delimit_parser<PP, ignore_parser<Comma>>{}), P{}, delimit(comma),(delimit_parser<P, ignore
    .parsersEq (tDelimit [(P Del6), (P Comma)]) (P (.delimit Del6 (.ignore Comma))),  -- 75: DEP_ASSERT_MODIFIER_CALLABLE_R(delimit,(PP{}, comma),(delimit_parser<PP, ignore_parser<Comma>>{}), delimit,(P{}, comma),(delimit_parser<P, ignore_pars
    .parsersEq (tMod (P Del6) (tDelimit [(P Comma)])) (P (.delimit Del6 (.ignore Comma))),  -- 75: DEP_ASSERT_MODIFIER_MODULO_OPERABLE_R(PP{}, delimit(comma),(delimit_parser<PP, ignore_parser<Comma>>{}), P{}, delimit(comma),(delimit_parser<P, ignore
    .parsersEq (tDelimit [(P Del7), (P Comma)]) (P (.delimit Del7 (.ignore Comma))),  -- 75: DEP_ASSERT_MODIFIER_CALLABLE_R(delimit,(PP{}, comma),(delimit_parser<PP, ignore_parser<Comma>>{}), delimit,(P{}, comma),(delimit_parser<P, ignore_pars
    .parsersEq (tMod (P Del7) (tDelimit [(P Comma)])) (P (.delimit Del7 (.ignore Comma))),  -- 75: DEP_ASSERT_MODIFIER_MODULO_OPERABLE_R(PP{}, delimit(comma),(delimit_parser<PP, ignore_parser<Comma>>{}), P{}, delimit(comma),(delimit_parser<P, ignore
    .parsersEq (tDelimit [(P Del8), (P Comma)]) (P (.delimit Del8 (.ignore Comma))),  -- 75: DEP_ASSERT_MODIFIER_CALLABLE_R(delimit,(PP{}, comma),(delimit_parser<PP, ignore_parser<Comma>>{}), delimit,(P{}, comma),(delimit_parser<P, ignore_pars
    .parsersEq (tMod (P Del8) (tDelimit [(P Comma)])) (P (.delimit Del8 (.ignore Comma))),  -- 75: DEP_ASSERT_MODIFIER_MODULO_OPERABLE_R(PP{}, delimit(comma),(delimit_parser<PP, ignore_parser<Comma>>{}), P{}, delimit(comma),(delimit_parser<P, ignore
    .parsersEq (tDelimit [(P Dek1), (P Comma)]) (P (.delimit Dek1 (.ignore Comma))),  -- 75: DEP_ASSERT_MODIFIER_CALLABLE_R(delimit,(PP{}, comma),(delimit_parser<PP, ignore_parser<Comma>>{}), delimit,(P{}, comma),(delimit_parser<P, ignore_pars
    .parsersEq (tMod (P Dek1) (tDelimit [(P Comma)])) (P (.delimit Dek1 (.ignore Comma))),  -- 75: DEP_ASSERT_MODIFIER_MODULO_OPERABLE_R(PP{}, delimit(comma),(delimit_parser<PP, ignore_parser<Comma>>{}), P{}, delimit(comma),(delimit_parser<P, ignore
    .parsersEq (tDelimit [(P Dek2), (P Comma)]) (P (.delimit Dek2 (.ignore Comma))),  -- 75: DEP_ASSERT_MODIFIER_CALLABLE_R(delimit,(PP{}, comma),(delimit_parser<PP, ignore_parser<Comma>>{}), delimit,(P{}, comma),(delimit_parser<P, ignore_pars
    .parsersEq (tMod (P Dek2) (tDelimit [(P Comma)])) (P (.delimit Dek2 (.ignore Comma))),  -- 75: DEP_ASSERT_MODIFIER_MODULO_OPERABLE_R(PP{}, delimit(comma),(delimit_parser<PP, ignore_parser<Comma>>{}), P{}, delimit(comma),(delimit_parser<P, ignore
    .parsersEq (tDelimit [(P Dek3), (P Comma)]) (P (.delimit Dek3 (.ignore Comma))),  -- 75: DEP_ASSERT_MODIFIER_CALLABLE_R(delimit,(PP{}, comma),(delimit_parser<PP, ignore_parser<Comma>>{}), delimit,(P{}, comma),(delimit_parser<P, ignore_pars
    .parsersEq (tMod (P Dek3) (tDelimit [(P Comma)])) (P (.delimit Dek3 (.ignore Comma))),  -- 75: DEP_ASSERT_MODIFIER_MODULO_OPERABLE_R(PP{}, delimit(comma),(delimit_parser<PP, ignore_parser<Comma>>{}), P{}, delimit(comma),(delimit_parser<P, ignore
    .parsersEq (tDelimit [(P Dek4), (P Comma)]) (P (.delimit Dek4 (.ignore Comma))),  -- 75: DEP_ASSERT_MODIFIER_CALLABLE_R(delimit,(PP{}, comma),(delimit_parser<PP, ignore_parser<Comma>>{}), delimit,(P{}, comma),(delimit_parser<P, ignore_pars
    .parsersEq (tMod (P Dek4) (tDelimit [(P Comma)])) (P (.delimit Dek4 (.ignore Comma))),  -- 75: DEP_ASSERT_MODIFIER_MODULO_OPERABLE_R(PP{}, delimit(comma),(delimit_parser<PP, ignore_parser<Comma>>{}), P{}, delimit(comma),(delimit_parser<P, ignore
    .parsersEq (tDelimit [(P Dek5), (P Comma)]) (P (.delimit Dek5 (.ignore Comma))),  -- 75: DEP_ASSERT_MODIFIER_CALLABLE_R(delimit,(PP{}, comma),(delimit_parser<PP, ignore_parser<Comma>>{}), delimit,(P{}, comma),(delimit_parser<P, ignore_pars
    .parsersEq (tMod (P Dek5) (tDelimit [(P Comma)])) (P (.delimit Dek5 (.ignore Comma))),  -- 75: DEP_ASSERT_MODIFIER_MODULO_OPERABLE_R(PP{}, delimit(comma),(delimit_parser<PP, ignore_parser<Comma>>{}), P{}, delimit(comma),(delimit_parser<P, ignore
    .parsersEq (tDelimit [(P Dek6), (P Comma)]) (P (.delimit Dek6 (.ignore Comma))),  -- 75: DEP_ASSERT_MODIFIER_CALLABLE_R(delimit,(PP{}, comma),(delimit_parser<PP, ignore_parser<Comma>>{}), delimit,(P{}, comma),(delimit_parser<P, ignore_pars
    .parsersEq (tMod (P Dek6) (tDelimit [(P Comma)])) (P (.delimit Dek6 (.ignore Comma))),  -- 75: DEP_ASSERT_MODIFIER_MODULO_OPERABLE_R(PP{}, delimit(comma),(delimit_parser<PP, ignore_parser<Comma>>{}), P{}, delimit(comma),(delimit_parser<P, ignore
    .parsersEq (tDelimit [(P Dek7), (P Comma)]) (P (.delimit Dek7 (.ignore Comma))),  -- 75: DEP_ASSERT_MODIFIER_CALLABLE_R(delimit,(PP{}, comma),(delimit_parser<PP, ignore_parser<Comma>>{}), delimit,(P{}, comma),(delimit_parser<P, ignore_pars
    .parsersEq (tMod (P Dek7) (tDelimit [(P Comma)])) (P (.delimit Dek7 (.ignore Comma))),  -- 75: DEP_ASSERT_MODIFIER_MODULO_OPERABLE_R(PP{}, delimit(comma),(delimit_parser<PP, ignore_parser<Comma>>{}), P{}, delimit(comma),(delimit_parser<P, ignore
    .parsersEq (tDelimit [(P Dek8), (P Comma)]) (P (.delimit Dek8 (.ignore Comma))),  -- 75: DEP_ASSERT_MODIFIER_CALLABLE_R(delimit,(PP{}, comma),(delimit_parser<PP, ignore_parser<Comma>>{}), delimit,(P{}, comma),(delimit_parser<P, ignore_pars
    .parsersEq (tMod (P Dek8) (tDelimit [(P Comma)])) (P (.delimit Dek8 (.ignore Comma)))  -- 75: DEP_ASSERT_MODIFIER_MODULO_OPERABLE_R(PP{}, delimit(comma),(delimit_parser<PP, ignore_parser<Comma>>{}), P{}, delimit(comma),(delimit_parser<P, ignore
    ], Assertion.Holds a :=
  Assertion.holds_of_check (by decide +kernel)

end Tok3n.Tests
