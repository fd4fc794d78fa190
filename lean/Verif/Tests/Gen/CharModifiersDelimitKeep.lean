import Verif.Tests.Gen.SamplesChar
/- Generated by tools/tests2lean.py from tests/char-tests/modifiers/delimit_keep.cpp. -/

namespace Tok3n.Tests

/-- delimit_keep modifier / prefix (tests/char-tests/modifiers/delimit_keep.cpp:14) -/
theorem charModifiersDelimitKeep_1 : ∀ a ∈ [
    .parsersEq (P Dek1) (tDelimitKeep [(P ABC), (P Comma)]),  -- 14: ASSERT_PARSER_VALUES_EQ(dek1, delimit_keep(abc, comma))
    .parsersEq (P Dek2) (tDelimitKeep [(P ABC), (P SpaceDot)]),  -- 15: ASSERT_PARSER_VALUES_EQ(dek2, delimit_keep(abc, spacedot))
    .parsersEq (P Dek3) (tDelimitKeep [(P QQ), (P Comma)]),  -- 16: ASSERT_PARSER_VALUES_EQ(dek3, delimit_keep(qq, comma))
    .parsersEq (P Dek4) (tDelimitKeep [(P QQ), (P SpaceDot)]),  -- 17: ASSERT_PARSER_VALUES_EQ(dek4, delimit_keep(qq, spacedot))
    .parsersEq (P Dek5) (tDelimitKeep [(P Comma), (P ABC)]),  -- 18: ASSERT_PARSER_VALUES_EQ(dek5, delimit_keep(comma, abc))
    .parsersEq (P Dek6) (tDelimitKeep [(P SpaceDot), (P ABC)]),  -- 19: ASSERT_PARSER_VALUES_EQ(dek6, delimit_keep(spacedot, abc))
    .parsersEq (P Dek7) (tDelimitKeep [(P Comma), (P QQ)]),  -- 20: ASSERT_PARSER_VALUES_EQ(dek7, delimit_keep(comma, qq))
    .parsersEq (P Dek8) (tDelimitKeep [(P SpaceDot), (P QQ)])  -- 21: ASSERT_PARSER_VALUES_EQ(dek8, delimit_keep(spacedot, qq))
    ], Assertion.Holds a :=
  Assertion.holds_of_check (by decide +kernel)

/-- delimit_keep modifier / infix (tests/char-tests/modifiers/delimit_keep.cpp:26) -/
theorem charModifiersDelimitKeep_2 : ∀ a ∈ [
    .parsersEq (P Dek1) (tMod (P ABC) (tDelimitKeep [(P Comma)])),  -- 26: ASSERT_PARSER_VALUES_EQ(dek1, abc % delimit_keep(comma))
    .parsersEq (P Dek2) (tMod (P ABC) (tDelimitKeep [(P SpaceDot)])),  -- 27: ASSERT_PARSER_VALUES_EQ(dek2, abc % delimit_keep(spacedot))
    .parsersEq (P Dek3) (tMod (P QQ) (tDelimitKeep [(P Comma)])),  -- 28: ASSERT_PARSER_VALUES_EQ(dek3, qq % delimit_keep(comma))
    .parsersEq (P Dek4) (tMod (P QQ) (tDelimitKeep [(P SpaceDot)])),  -- 29: ASSERT_PARSER_VALUES_EQ(dek4, qq % delimit_keep(spacedot))
    .parsersEq (P Dek5) (tMod (P Comma) (tDelimitKeep [(P ABC)])),  -- 30: ASSERT_PARSER_VALUES_EQ(dek5, comma % delimit_keep(abc))
    .parsersEq (P Dek6) (tMod (P SpaceDot) (tDelimitKeep [(P ABC)])),  -- 31: ASSERT_PARSER_VALUES_EQ(dek6, spacedot % delimit_keep(abc))
    .parsersEq (P Dek7) (tMod (P Comma) (tDelimitKeep [(P QQ)])),  -- 32: ASSERT_PARSER_VALUES_EQ(dek7, comma % delimit_keep(qq))
    .parsersEq (P Dek8) (tMod (P SpaceDot) (tDelimitKeep [(P QQ)]))  -- 33: ASSERT_PARSER_VALUES_EQ(dek8, spacedot % delimit_keep(qq))
    ], Assertion.Holds a :=
  Assertion.holds_of_check (by decide +kernel)

/-- delimit_keep modifier / modify anything (tests/char-tests/modifiers/delimit_keep.cpp:75) -/
theorem charModifiersDelimitKeep_3_1 : ∀ a ∈ [
    .parsersEq (tDelimitKeep [(P Ign1), (P Comma)]) (P (.delimit Ign1 Comma)),  -- 75: DEP_ASSERT_MODIFIER_CALLABLE_R(delimit_keep,(PP{}, comma),(delimit_parser<PP, Comma>{}), delimit_keep,(P{}, comma),(delimit_parser<P, Comma>{}))
    .parsersEq (tMod (P Ign1) (tDelimitKeep [(P Comma)])) (P (.delimit Ign1 Comma)),  -- 75: DEP_ASSERT_MODIFIER_MODULO_OPERABLE_R(PP{}, delimit_keep(comma),(delimit_parser<PP, Comma>{}), P{}, delimit_keep(comma),(delimit_parser<P, Comma>{}))
    .parsersEq (tDelimitKeep [(P Ign2), (P Comma)]) (P (.delimit Ign2 Comma)),  -- 75: DEP_ASSERT_MODIFIER_CALLABLE_R(delimit_keep,(PP{}, comma),(delimit_parser<PP, Comma>{}), delimit_keep,(P{}, comma),(delimit_parser<P, Comma>{}))
    .parsersEq (tMod (P Ign2) (tDelimitKeep [(P Comma)])) (P (.delimit Ign2 Comma)),  -- 75: DEP_ASSERT_MODIFIER_MODULO_OPERABLE_R(PP{}, delimit_keep(comma),(delimit_parser<PP, Comma>{}), P{}, delimit_keep(comma),(delimit_parser<P, Comma>{}))
    .parsersEq (tDelimitKeep [(P Ign3), (P Comma)]) (P (.delimit Ign3 Comma)),  -- 75: DEP_ASSERT_MODIFIER_CALLABLE_R(delimit_keep,(PP{}, comma),(delimit_parser<PP, Comma>{}), delimit_keep,(P{}, comma),(delimit_parser<P, Comma>{}))
    .parsersEq (tMod (P Ign3) (tDelimitKeep [(P Comma)])) (P (.delimit Ign3 Comma)),  -- 75: DEP_ASSERT_MODIFIER_MODULO_OPERABLE_R(PP{}, delimit_keep(comma),(delimit_parser<PP, Comma>{}), P{}, delimit_keep(comma),(delimit_parser<P, Comma>{}))
    .parsersEq (tDelimitKeep [(P Ign4), (P Comma)]) (P (.delimit Ign4 Comma)),  -- 75: DEP_ASSERT_MODIFIER_CALLABLE_R(delimit_keep,(PP{}, comma),(delimit_parser<PP, Comma>{}), delimit_keep,(P{}, comma),(delimit_parser<P, Comma>{}))
    .parsersEq (tMod (P Ign4) (tDelimitKeep [(P Comma)])) (P (.delimit Ign4 Comma)),  -- 75: DEP_ASSERT_MODIFIER_MODULO_OPERABLE_R(PP{}, delimit_keep(comma),(delimit_parser<PP, Comma>{}), P{}, delimit_keep(comma),(delimit_parser<P, Comma>{}))
    .parsersEq (tDelimitKeep [(P Ign5), (P Comma)]) (P (.delimit Ign5 Comma)),  -- 75: DEP_ASSERT_MODIFIER_CALLABLE_R(delimit_keep,(PP{}, comma),(delimit_parser<PP, Comma>{}), delimit_keep,(P{}, comma),(delimit_parser<P, Comma>{}))
    .parsersEq (tMod (P Ign5) (tDelimitKeep [(P Comma)])) (P (.delimit Ign5 Comma)),  -- 75: DEP_ASSERT_MODIFIER_MODULO_OPERABLE_R(PP{}, delimit_keep(comma),(delimit_parser<PP, Comma>{}), P{}, delimit_keep(comma),(delimit_parser<P, Comma>{}))
    .parsersEq (tDelimitKeep [(P Com1), (P Comma)]) (P (.delimit Com1 Comma)),  -- 75: DEP_ASSERT_MODIFIER_CALLABLE_R(delimit_keep,(PP{}, comma),(delimit_parser<PP, Comma>{}), delimit_keep,(P{}, comma),(delimit_parser<P, Comma>{}))
    .parsersEq (tMod (P Com1) (tDelimitKeep [(P Comma)])) (P (.delimit Com1 Comma)),  -- 75: DEP_ASSERT_MODIFIER_MODULO_OPERABLE_R(PP{}, delimit_keep(comma),(delimit_parser<PP, Comma>{}), P{}, delimit_keep(comma),(delimit_parser<P, Comma>{}))
    .parsersEq (tDelimitKeep [(P Com2), (P Comma)]) (P (.delimit Com2 Comma)),  -- 75: DEP_ASSERT_MODIFIER_CALLABLE_R(delimit_keep,(PP{}, comma),(delimit_parser<PP, Comma>{}), delimit_keep,(P{}, comma),(delimit_parser<P, Comma>{}))
    .parsersEq (tMod (P Com2) (tDelimitKeep [(P Comma)])) (P (.delimit Com2 Comma)),  -- 75: DEP_ASSERT_MODIFIER_MODULO_OPERABLE_R(PP{}, delimit_keep(comma),(delimit_parser<PP, Comma>{}), P{}, delimit_keep(comma),(delimit_parser<P, Comma>{}))
    .parsersEq (tDelimitKeep [(P Com3), (P Comma)]) (P (.delimit Com3 Comma)),  -- 75: DEP_ASSERT_MODIFIER_CALLABLE_R(delimit_keep,(PP{}, comma),(delimit_parser<PP, Comma>{}), delimit_keep,(P{}, comma),(delimit_parser<P, Comma>{}))
    .parsersEq (tMod (P Com3) (tDelimitKeep [(P Comma)])) (P (.delimit Com3 Comma)),  -- 75: DEP_ASSERT_MODIFIER_MODULO_OPERABLE_R(PP{}, delimit_keep(comma),(delimit_parser<PP, Comma>{}), P{}, delimit_keep(comma),(delimit_parser<P, Comma>{}))
    .parsersEq (tDelimitKeep [(P Com4), (P Comma)]) (P (.delimit Com4 Comma)),  -- 75: DEP_ASSERT_MODIFIER_CALLABLE_R(delimit_keep,(PP{}, comma),(delimit_parser<PP, Comma>{}), delimit_keep,(P{}, comma),(delimit_parser<P, Comma>{}))
    .parsersEq (tMod (P Com4) (tDelimitKeep [(P Comma)])) (P (.delimit Com4 Comma)),  -- 75: DEP_ASSERT_MODIFIER_MODULO_OPERABLE_R(PP{}, delimit_keep(comma),(delimit_parser<PP, Comma>{}), P{}, delimit_keep(comma),(delimit_parser<P, Comma>{}))
    .parsersEq (tDelimitKeep [(P Com5), (P Comma)]) (P (.delimit Com5 Comma)),  -- 75: DEP_ASSERT_MODIFIER_CALLABLE_R(delimit_keep,(PP{}, comma),(delimit_parser<PP, Comma>{}), delimit_keep,(P{}, comma),(delimit_parser<P, Comma>{}))
    .parsersEq (tMod (P Com5) (tDelimitKeep [(P Comma)])) (P (.delimit Com5 Comma)),  -- 75: DEP_ASSERT_MODIFIER_MODULO_OPERABLE_R(PP{}, delimit_keep(comma),(delimit_parser<PP, Comma>{}), P{}, delimit_keep(comma),(delimit_parser<P, Comma>{}))
    .parsersEq (tDelimitKeep [(P Com6), (P Comma)]) (P (.delimit Com6 Comma)),  -- 75: DEP_ASSERT_MODIFIER_CALLABLE_R(delimit_keep,(PP{}, comma),(delimit_parser<PP, Comma>{}), delimit_keep,(P{}, comma),(delimit_parser<P, Comma>{}))
    .parsersEq (tMod (P Com6) (tDelimitKeep [(P Comma)])) (P (.delimit Com6 Comma)),  -- 75: DEP_ASSERT_MODIFIER_MODULO_OPERABLE_R(PP{}, delimit_keep(comma),(delimit_parser<PP, Comma>{}), P{}, delimit_keep(comma),(delimit_parser<P, Comma>{}))
    .parsersEq (tDelimitKeep [(P Com7), (P Comma)]) (P (.delimit Com7 Comma)),  -- 75: DEP_ASSERT_MODIFIER_CALLABLE_R(delimit_keep,(PP{}, comma),(delimit_parser<PP, Comma>{}), delimit_keep,(P{}, comma),(delimit_parser<P, Comma>{}))
    .parsersEq (tMod (P Com7) (tDelimitKeep [(P Comma)])) (P (.delimit Com7 Comma)),  -- 75: DEP_ASSERT_MODIFIER_MODULO_OPERABLE_R(PP{}, delimit_keep(comma),(delimit_parser<PP, Comma>{}), P{}, delimit_keep(comma),(delimit_parser<P, Comma>{}))
    .parsersEq (tDelimitKeep [(P Nam1), (P Comma)]) (P (.delimit Nam1 Comma)),  -- 75: DEP_ASSERT_MODIFIER_CALLABLE_R(delimit_keep,(PP{}, comma),(delimit_parser<PP, Comma>{}), delimit_keep,(P{}, comma),(delimit_parser<P, Comma>{}))
    .parsersEq (tMod (P Nam1) (tDelimitKeep [(P Comma)])) (P (.delimit Nam1 Comma)),  -- 75: DEP_ASSERT_MODIFIER_MODULO_OPERABLE_R(PP{}, delimit_keep(comma),(delimit_parser<PP, Comma>{}), P{}, delimit_keep(comma),(delimit_parser<P, Comma>{}))
    .parsersEq (tDelimitKeep [(P Nam2), (P Comma)]) (P (.delimit Nam2 Comma)),  -- 75: DEP_ASSERT_MODIFIER_CALLABLE_R(delimit_keep,(PP{}, comma),(delimit_parser<PP, Comma>{}), delimit_keep,(P{}, comma),(delimit_parser<P, Comma>{}))
    .parsersEq (tMod (P Nam2) (tDelimitKeep [(P Comma)])) (P (.delimit Nam2 Comma)),  -- 75: DEP_ASSERT_MODIFIER_MODULO_OPERABLE_R(PP{}, delimit_keep(comma),(delimit_parser<PP, Comma>{}), P{}, delimit_keep(comma),(delimit_parser<P, Comma>{}))
    .parsersEq (tDelimitKeep [(P Nam3), (P Comma)]) (P (.delimit Nam3 Comma)),  -- 75: DEP_ASSERT_MODIFIER_CALLABLE_R(delimit_keep,(PP{}, comma),(delimit_parser<PP, Comma>{}), delimit_keep,(P{}, comma),(delimit_parser<P, Comma>{}))
    .parsersEq (tMod (P Nam3) (tDelimitKeep [(P Comma)])) (P (.delimit Nam3 Comma)),  -- 75: DEP_ASSERT_MODIFIER_MODULO_OPERABLE_R(PP{}, delimit_keep(comma),(delimit_parser<PP, Comma>{}), P{}, delimit_keep(comma),(delimit_parser<P, Comma>{}))
    .parsersEq (tDelimitKeep [(P Nam4), (P Comma)]) (P (.delimit Nam4 Comma)),  -- 75: DEP_ASSERT_MODIFIER_CALLABLE_R(delimit_keep,(PP{}, comma),(delimit_parser<PP, Comma>{}), delimit_keep,(P{}, comma),(delimit_parser<P, Comma>{}))
    .parsersEq (tMod (P Nam4) (tDelimitKeep [(P Comma)])) (P (.delimit Nam4 Comma)),  -- 75: DEP_ASSERT_MODIFIER_MODULO_OPERABLE_R(PP{}, delimit_keep(comma),(delimit_parser<PP, Comma>{}), P{}, delimit_keep(comma),(delimit_parser<P, Comma>{}))
    .parsersEq (tDelimitKeep [(P Any1), (P Comma)]) (P (.delimit Any1 Comma)),  -- 75: DEP_ASSERT_MODIFIER_CALLABLE_R(delimit_keep,(PP{}, comma),(delimit_parser<PP, Comma>{}), delimit_keep,(P{}, comma),(delimit_parser<P, Comma>{}))
    .parsersEq (tMod (P Any1) (tDelimitKeep [(P Comma)])) (P (.delimit Any1 Comma)),  -- 75: DEP_ASSERT_MODIFIER_MODULO_OPERABLE_R(PP{}, delimit_keep(comma),(delimit_parser<PP, Comma>{}), P{}, delimit_keep(comma),(delimit_parser<P, Comma>{}))
    .parsersEq (tDelimitKeep [(P Any2), (P Comma)]) (P (.delimit Any2 Comma)),  -- 75: DEP_ASSERT_MODIFIER_CALLABLE_R(delimit_keep,(PP{}, comma),(delimit_parser<PP, Comma>{}), delimit_keep,(P{}, comma),(delimit_parser<P, Comma>{}))
    .parsersEq (tMod (P Any2) (tDelimitKeep [(P Comma)])) (P (.delimit Any2 Comma)),  -- 75: DEP_ASSERT_MODIFIER_MODULO_OPERABLE_R(PP{}, delimit_keep(comma),(delimit_parser<PP, Comma>{}), P{}, delimit_keep(comma),(delimit_parser<P, Comma>{}))
    .parsersEq (tDelimitKeep [(P Any3), (P Comma)]) (P (.delimit Any3 Comma)),  -- 75: DEP_ASSERT_MODIFIER_CALLABLE_R(delimit_keep,(PP{}, comma),(delimit_parser<PP, Comma>{}), delimit_keep,(P{}, comma),(delimit_parser<P, Comma>{}))
    .parsersEq (tMod (P Any3) (tDelimitKeep [(P Comma)])) (P (.delimit Any3 Comma)),  -- 75: DEP_ASSERT_MODIFIER_MODULO_OPERABLE_R(PP{}, delimit_keep(comma),(delimit_parser<PP, Comma>{}), P{}, delimit_keep(comma),(delimit_parser<P, Comma>{}))
    .parsersEq (tDelimitKeep [(P Any4), (P Comma)]) (P (.delimit Any4 Comma)),  -- 75: DEP_ASSERT_MODIFIER_CALLABLE_R(delimit_keep,(PP{}, comma),(delimit_parser<PP, Comma>{}), delimit_keep,(P{}, comma),(delimit_parser<P, Comma>{}))
    .parsersEq (tMod (P Any4) (tDelimitKeep [(P Comma)])) (P (.delimit Any4 Comma)),  -- 75: DEP_ASSERT_MODIFIER_MODULO_OPERABLE_R(PP{}, delimit_keep(comma),(delimit_parser<PP, Comma>{}), P{}, delimit_keep(comma),(delimit_parser<P, Comma>{}))
    .parsersEq (tDelimitKeep [(P Non1), (P Comma)]) (P (.delimit Non1 Comma)),  -- 75: DEP_ASSERT_MODIFIER_CALLABLE_R(delimit_keep,(PP{}, comma),(delimit_parser<PP, Comma>{}), delimit_keep,(P{}, comma),(delimit_parser<P, Comma>{}))
    .parsersEq (tMod (P Non1) (tDelimitKeep [(P Comma)])) (P (.delimit Non1 Comma)),  -- 75: DEP_ASSERT_MODIFIER_MODULO_OPERABLE_R(PP{}, delimit_keep(comma),(delimit_parser<PP, Comma>{}), P{}, delimit_keep(comma),(delimit_parser<P, Comma>{}))
    .parsersEq (tDelimitKeep [(P Non2), (P Comma)]) (P (.delimit Non2 Comma)),  -- 75: DEP_ASSERT_MODIFIER_CALLABLE_R(delimit_keep,(PP{}, comma),(delimit_parser<PP, Comma>{}), delimit_keep,(P{}, comma),(delimit_parser<P, Comma>{}))
    .parsersEq (tMod (P Non2) (tDelimitKeep [(P Comma)])) (P (.delimit Non2 Comma)),  -- 75: DEP_ASSERT_MODIFIER_MODULO_OPERABLE_R(PP{}, delimit_keep(comma),(delimit_parser<PP, Comma>{}), P{}, delimit_keep(comma),(delimit_parser<P, Comma>{}))
    .parsersEq (tDelimitKeep [(P Non3), (P Comma)]) (P (.delimit Non3 Comma)),  -- 75: DEP_ASSERT_MODIFIER_CALLABLE_R(delimit_keep,(PP{}, comma),(delimit_parser<PP, Comma>{}), delimit_keep,(P{}, comma),(delimit_parser<P, Comma>{}))
    .parsersEq (tMod (P Non3) (tDelimitKeep [(P Comma)])) (P (.delimit Non3 Comma)),  -- 75: DEP_ASSERT_MODIFIER_MODULO_OPERABLE_R(PP{}, delimit_keep(comma),(delimit_parser<PP, Comma>{}), P{}, delimit_keep(comma),(delimit_parser<P, Comma>{}))
    .parsersEq (tDelimitKeep [(P Non4), (P Comma)]) (P (.delimit Non4 Comma)),  -- 75: DEP_ASSERT_MODIFIER_CALLABLE_R(delimit_keep,(PP{}, comma),(delimit_parser<PP, Comma>{}), delimit_keep,(P{}, comma),(delimit_parser<P, Comma>{}))
    .parsersEq (tMod (P Non4) (tDelimitKeep [(P Comma)])) (P (.delimit Non4 Comma)),  -- 75: DEP_ASSERT_MODIFIER_MODULO_OPERABLE_R(PP{}, delimit_keep(comma),(delimit_parser<PP, Comma>{}), P{}, delimit_keep(comma),(delimit_parser<P, Comma>{}))
    .parsersEq (tDelimitKeep [(P Non5), (P Comma)]) (P (.delimit Non5 Comma)),  -- 75: DEP_ASSERT_MODIFIER_CALLABLE_R(delimit_keep,(PP{}, comma),(delimit_parser<PP, Comma>{}), delimit_keep,(P{}, comma),(delimit_parser<P, Comma>{}))
    .parsersEq (tMod (P Non5) (tDelimitKeep [(P Comma)])) (P (.delimit Non5 Comma)),  -- 75: DEP_ASSERT_MODIFIER_MODULO_OPERABLE_R(PP{}, delimit_keep(comma),(delimit_parser<PP, Comma>{}), P{}, delimit_keep(comma),(delimit_parser<P, Comma>{}))
    .parsersEq (tDelimitKeep [(P All1), (P Comma)]) (P (.delimit All1 Comma)),  -- 75: DEP_ASSERT_MODIFIER_CALLABLE_R(delimit_keep,(PP{}, comma),(delimit_parser<PP, Comma>{}), delimit_keep,(P{}, comma),(delimit_parser<P, Comma>{}))
    .parsersEq (tMod (P All1) (tDelimitKeep [(P Comma)])) (P (.delimit All1 Comma)),  -- 75: DEP_ASSERT_MODIFIER_MODULO_OPERABLE_R(PP{}, delimit_keep(comma),(delimit_parser<PP, Comma>{}), P{}, delimit_keep(comma),(delimit_parser<P, Comma>{}))
    .parsersEq (tDelimitKeep [(P All2), (P Comma)]) (P (.delimit All2 Comma)),  -- 75: DEP_ASSERT_MODIFIER_CALLABLE_R(delimit_keep,(PP{}, comma),(delimit_parser<PP, Comma>{}), delimit_keep,(P{}, comma),(delimit_parser<P, Comma>{}))
    .parsersEq (tMod (P All2) (tDelimitKeep [(P Comma)])) (P (.delimit All2 Comma)),  -- 75: DEP_ASSERT_MODIFIER_MODULO_OPERABLE_R(PP{}, delimit_keep(comma),(delimit_parser<PP, Comma>{}), P{}, delimit_keep(comma),(delimit_parser<P, Comma>{}))
    .parsersEq (tDelimitKeep [(P All3), (P Comma)]) (P (.delimit All3 Comma)),  -- 75: DEP_ASSERT_MODIFIER_CALLABLE_R(delimit_keep,(PP{}, comma),(delimit_parser<PP, Comma>{}), delimit_keep,(P{}, comma),(delimit_parser<P, Comma>{}))
    .parsersEq (tMod (P All3) (tDelimitKeep [(P Comma)])) (P (.delimit All3 Comma)),  -- 75: DEP_ASSERT_MODIFIER_MODULO_OPERABLE_R(PP{}, delimit_keep(comma),(delimit_parser<PP, Comma>{}), P{}, delimit_keep(comma),(delimit_parser<P, Comma>{}))
    .parsersEq (tDelimitKeep [(P All4), (P Comma)]) (P (.delimit All4 Comma)),  -- 75: DEP_ASSERT_MODIFIER_CALLABLE_R(delimit_keep,(PP{}, comma),(delimit_parser<PP, Comma>{}), delimit_keep,(P{}, comma),(delimit_parser<P, Comma>{}))
    .parsersEq (tMod (P All4) (tDelimitKeep [(P Comma)])) (P (.delimit All4 Comma)),  -- 75: DEP_ASSERT_MODIFIER_MODULO_OPERABLE_R(PP{}, delimit_keep(comma),(delimit_parser<PP, Comma>{}), P{}, delimit_keep(comma),(delimit_parser<P, Comma>{}))
    .parsersEq (tDelimitKeep [(P Eps1), (P Comma)]) (P (.delimit Eps1 Comma)),  -- 75: DEP_ASSERT_MODIFIER_CALLABLE_R(delimit_keep,(PP{}, comma),(delimit_parser<PP, Comma>{}), delimit_keep,(P{}, comma),(delimit_parser<P, Comma>{}))
    .parsersEq (tMod (P Eps1) (tDelimitKeep [(P Comma)])) (P (.delimit Eps1 Comma))  -- 75: DEP_ASSERT_MODIFIER_MODULO_OPERABLE_R(PP{}, delimit_keep(comma),(delimit_parser<PP, Comma>{}), P{}, delimit_keep(comma),(delimit_parser<P, Comma>{}))
    ], Assertion.Holds a :=
  Assertion.holds_of_check (by decide +kernel)

/-- delimit_keep modifier / modify anything (tests/char-tests/modifiers/delimit_keep.cpp:75) -/
theorem charModifiersDelimitKeep_3_2 : ∀ a ∈ [
    .parsersEq (tDelimitKeep [(P Ant1), (P Comma)]) (P (.delimit Ant1 Comma)),  -- 75: DEP_ASSERT_MODIFIER_CALLABLE_R(delimit_keep,(PP{}, comma),(delimit_parser<PP, Comma>{}), delimit_keep,(P{}, comma),(delimit_parser<P, Comma>{}))
    .parsersEq (tMod (P Ant1) (tDelimitKeep [(P Comma)])) (P (.delimit Ant1 Comma)),  -- 75: DEP_ASSERT_MODIFIER_MODULO_OPERABLE_R(PP{}, delimit_keep(comma),(delimit_parser<PP, Comma>{}), P{}, delimit_keep(comma),(delimit_parser<P, Comma>{}))
    .parsersEq (tDelimitKeep [(P QQ), (P Comma)]) (P (.delimit QQ Comma)),  -- 75: DEP_ASSERT_MODIFIER_CALLABLE_R(delimit_keep,(PP{}, comma),(delimit_parser<PP, Comma>{}), delimit_keep,(P{}, comma),(delimit_parser<P, Comma>{}))
    .parsersEq (tMod (P QQ) (tDelimitKeep [(P Comma)])) (P (.delimit QQ Comma)),  -- 75: DEP_ASSERT_MODIFIER_MODULO_OPERABLE_R(PP{}, delimit_keep(comma),(delimit_parser<PP, Comma>{}), P{}, delimit_keep(comma),(delimit_parser<P, Comma>{}))
    .parsersEq (tDelimitKeep [(P ABC), (P Comma)]) (P (.delimit ABC Comma)),  -- 75: DEP_ASSERT_MODIFIER_CALLABLE_R(delimit_keep,(PP{}, comma),(delimit_parser<PP, Comma>{}), delimit_keep,(P{}, comma),(delimit_parser<P, Comma>{}))
    .parsersEq (tMod (P ABC) (tDelimitKeep [(P Comma)])) (P (.delimit ABC Comma)),  -- 75: DEP_ASSERT_MODIFIER_MODULO_OPERABLE_R(PP{}, delimit_keep(comma),(delimit_parser<PP, Comma>{}), P{}, delimit_keep(comma),(delimit_parser<P, Comma>{}))
    .parsersEq (tDelimitKeep [(P Comma), (P Comma)]) (P (.delimit Comma Comma)),  -- 75: DEP_ASSERT_MODIFIER_CALLABLE_R(delimit_keep,(PP{}, comma),(delimit_parser<PP, Comma>{}), delimit_keep,(P{}, comma),(delimit_parser<P, Comma>{}))
    .parsersEq (tMod (P Comma) (tDelimitKeep [(P Comma)])) (P (.delimit Comma Comma)),  -- 75: DEP_ASSERT_MODIFIER_MODULO_OPERABLE_R(PP{}, delimit_keep(comma),(delimit_parser<PP, Comma>{}), P{}, delimit_keep(comma),(delimit_parser<P, Comma>{}))
    .parsersEq (tDelimitKeep [(P SpaceDot), (P Comma)]) (P (.delimit SpaceDot Comma)),  -- 75: DEP_ASSERT_MODIFIER_CALLABLE_R(delimit_keep,(PP{}, comma),(delimit_parser<PP, Comma>{}), delimit_keep,(P{}, comma),(delimit_parser<P, Comma>{}))
    .parsersEq (tMod (P SpaceDot) (tDelimitKeep [(P Comma)])) (P (.delimit SpaceDot Comma)),  -- 75: DEP_ASSERT_MODIFIER_MODULO_OPERABLE_R(PP{}, delimit_keep(comma),(delimit_parser<PP, Comma>{}), P{}, delimit_keep(comma),(delimit_parser<P, Comma>{}))
    .parsersEq (tDelimitKeep [(P Cho1), (P Comma)]) (P (.delimit Cho1 Comma)),  -- 75: DEP_ASSERT_MODIFIER_CALLABLE_R(delimit_keep,(PP{}, comma),(delimit_parser<PP, Comma>{}), delimit_keep,(P{}, comma),(delimit_parser<P, Comma>{}))
    .parsersEq (tMod (P Cho1) (tDelimitKeep [(P Comma)])) (P (.delimit Cho1 Comma)),  -- 75: DEP_ASSERT_MODIFIER_MODULO_OPERABLE_R(PP{}, delimit_keep(comma),(delimit_parser<PP, Comma>{}), P{}, delimit_keep(comma),(delimit_parser<P, Comma>{}))
    .parsersEq (tDelimitKeep [(P Cho2), (P Comma)]) (P (.delimit Cho2 Comma)),  -- 75: DEP_ASSERT_MODIFIER_CALLABLE_R(delimit_keep,(PP{}, comma),(delimit_parser<PP, Comma>{}), delimit_keep,(P{}, comma),(delimit_parser<P, Comma>{}))
    .parsersEq (tMod (P Cho2) (tDelimitKeep [(P Comma)])) (P (.delimit Cho2 Comma)),  -- 75: DEP_ASSERT_MODIFIER_MODULO_OPERABLE_R(PP{}, delimit_keep(comma),(delimit_parser<PP, Comma>{}), P{}, delimit_keep(comma),(delimit_parser<P, Comma>{}))
    .parsersEq (tDelimitKeep [(P Cho3), (P Comma)]) (P (.delimit Cho3 Comma)),  -- 75: DEP_ASSERT_MODIFIER_CALLABLE_R(delimit_keep,(PP{}, comma),(delimit_parser<PP, Comma>{}), delimit_keep,(P{}, comma),(delimit_parser<P, Comma>{}))
    .parsersEq (tMod (P Cho3) (tDelimitKeep [(P Comma)])) (P (.delimit Cho3 Comma)),  -- 75: DEP_ASSERT_MODIFIER_MODULO_OPERABLE_R(PP{}, delimit_keep(comma),(delimit_parser<PP, Comma>{}), P{}, delimit_keep(comma),(delimit_parser<P, Comma>{}))
    .parsersEq (tDelimitKeep [(P Cho4), (P Comma)]) (P (.delimit Cho4 Comma)),  -- 75: DEP_ASSERT_MODIFIER_CALLABLE_R(delimit_keep,(PP{}, comma),(delimit_parser<PP, Comma>{}), delimit_keep,(P{}, comma),(delimit_parser<P, Comma>{}))
    .parsersEq (tMod (P Cho4) (tDelimitKeep [(P Comma)])) (P (.delimit Cho4 Comma)),  -- 75: DEP_ASSERT_MODIFIER_MODULO_OPERABLE_R(PP{}, delimit_keep(comma),(delimit_parser<PP, Comma>{}), P{}, delimit_keep(comma),(delimit_parser<P, Comma>{}))
    .parsersEq (tDelimitKeep [(P Cho5), (P Comma)]) (P (.delimit Cho5 Comma)),  -- 75: DEP_ASSERT_MODIFIER_CALLABLE_R(delimit_keep,(PP{}, comma),(delimit_parser<PP, Comma>{}), delimit_keep,(P{}, comma),(delimit_parser<P, Comma>{}))
    .parsersEq (tMod (P Cho5) (tDelimitKeep [(P Comma)])) (P (.delimit Cho5 Comma)),  -- 75: DEP_ASSERT_MODIFIER_MODULO_OPERABLE_R(PP{}, delimit_keep(comma),(delimit_parser<PP, Comma>{}), P{}, delimit_keep(comma),(delimit_parser<P, Comma>{}))
    .parsersEq (tDelimitKeep [(P Seq1), (P Comma)]) (P (.delimit Seq1 Comma)),  -- 75: DEP_ASSERT_MODIFIER_CALLABLE_R(delimit_keep,(PP{}, comma),(delimit_parser<PP, Comma>{}), delimit_keep,(P{}, comma),(delimit_parser<P, Comma>{}))
    .parsersEq (tMod (P Seq1) (tDelimitKeep [(P Comma)])) (P (.delimit Seq1 Comma)),  -- 75: DEP_ASSERT_MODIFIER_MODULO_OPERABLE_R(PP{}, delimit_keep(comma),(delimit_parser<PP, Comma>{}), P{}, delimit_keep(comma),(delimit_parser<P, Comma>{}))
    .parsersEq (tDelimitKeep [(P Seq2), (P Comma)]) (P (.delimit Seq2 Comma)),  -- 75: DEP_ASSERT_MODIFIER_CALLABLE_R(delimit_keep,(PP{}, comma),(delimit_parser<PP, Comma>{}), delimit_keep,(P{}, comma),(delimit_parser<P, Comma>{}))
    .parsersEq (tMod (P Seq2) (tDelimitKeep [(P Comma)])) (P (.delimit Seq2 Comma)),  -- 75: DEP_ASSERT_MODIFIER_MODULO_OPERABLE_R(PP{}, delimit_keep(comma),(delimit_parser<PP, Comma>{}), P{}, delimit_keep(comma),(delimit_parser<P, Comma>{}))
    .parsersEq (tDelimitKeep [(P Seq3), (P Comma)]) (P (.delimit Seq3 Comma)),  -- 75: DEP_ASSERT_MODIFIER_CALLABLE_R(delimit_keep,(PP{}, comma),(delimit_parser<PP, Comma>{}), delimit_keep,(P{}, comma),(delimit_parser<P, Comma>{}))
    .parsersEq (tMod (P Seq3) (tDelimitKeep [(P Comma)])) (P (.delimit Seq3 Comma)),  -- 75: DEP_ASSERT_MODIFIER_MODULO_OPERABLE_R(PP{}, delimit_keep(comma),(delimit_parser<PP, Comma>{}), P{}, delimit_keep(comma),(delimit_parser<P, Comma>{}))
    .parsersEq (tDelimitKeep [(P Seq4), (P Comma)]) (P (.delimit Seq4 Comma)),  -- 75: DEP_ASSERT_MODIFIER_CALLABLE_R(delimit_keep,(PP{}, comma),(delimit_parser<PP, Comma>{}), delimit_keep,(P{}, comma),(delimit_parser<P, Comma>{}))
    .parsersEq (tMod (P Seq4) (tDelimitKeep [(P Comma)])) (P (.delimit Seq4 Comma)),  -- 75: DEP_ASSERT_MODIFIER_MODULO_OPERABLE_R(PP{}, delimit_keep(comma),(delimit_parser<PP, Comma>{}), P{}, delimit_keep(comma),(delimit_parser<P, Comma>{}))
    .parsersEq (tDelimitKeep [(P Seq5), (P Comma)]) (P (.delimit Seq5 Comma)),  -- 75: DEP_ASSERT_MODIFIER_CALLABLE_R(delimit_keep,(PP{}, comma),(delimit_parser<PP, Comma>{}), delimit_keep,(P{}, comma),(delimit_parser<P, Comma>{}))
    .parsersEq (tMod (P Seq5) (tDelimitKeep [(P Comma)])) (P (.delimit Seq5 Comma)),  -- 75: DEP_ASSERT_MODIFIER_MODULO_OPERABLE_R(PP{}, delimit_keep(comma),(delimit_parser<PP, Comma>{}), P{}, delimit_keep(comma),(delimit_parser<P, Comma>{}))
    .parsersEq (tDelimitKeep [(P Joi1), (P Comma)]) (P (.delimit Joi1 Comma)),  -- 75: DEP_ASSERT_MODIFIER_CALLABLE_R(delimit_keep,(PP{}, comma),(delimit_parser<PP, Comma>{}), delimit_keep,(P{}, comma),(delimit_parser<P, Comma>{}))
    .parsersEq (tMod (P Joi1) (tDelimitKeep [(P Comma)])) (P (.delimit Joi1 Comma)),  -- 75: DEP_ASSERT_MODIFIER_MODULO_OPERABLE_R(PP{}, delimit_keep(comma),(delimit_parser<PP, Comma>{}), P{}, delimit_keep(comma),(delimit_parser<P, Comma>{}))
    .parsersEq (tDelimitKeep [(P Joi2), (P Comma)]) (P (.delimit Joi2 Comma)),  -- 75: DEP_ASSERT_MODIFIER_CALLABLE_R(delimit_keep,(PP{}, comma),(delimit_parser<PP, Comma>{}), delimit_keep,(P{}, comma),(delimit_parser<P, Comma>{}))
    .parsersEq (tMod (P Joi2) (tDelimitKeep [(P Comma)])) (P (.delimit Joi2 Comma)),  -- 75: DEP_ASSERT_MODIFIER_MODULO_OPERABLE_R(PP{}, delimit_keep(comma),(delimit_parser<PP, Comma>{}), P{}, delimit_keep(comma),(delimit_parser<P, Comma>{}))
    .parsersEq (tDelimitKeep [(P Joi3), (P Comma)]) (P (.delimit Joi3 Comma)),  -- 75: DEP_ASSERT_MODIFIER_CALLABLE_R(delimit_keep,(PP{}, comma),(delimit_parser<PP, Comma>{}), delimit_keep,(P{}, comma),(delimit_parser<P, Comma>{}))
    .parsersEq (tMod (P Joi3) (tDelimitKeep [(P Comma)])) (P (.delimit Joi3 Comma)),  -- 75: DEP_ASSERT_MODIFIER_MODULO_OPERABLE_R(PP{}, delimit_keep(comma),(delimit_parser<PP, Comma>{}), P{}, delimit_keep(comma),(delimit_parser<P, Comma>{}))
    .parsersEq (tDelimitKeep [(P Joi4), (P Comma)]) (P (.delimit Joi4 Comma)),  -- 75: DEP_ASSERT_MODIFIER_CALLABLE_R(delimit_keep,(PP{}, comma),(delimit_parser<PP, Comma>{}), delimit_keep,(P{}, comma),(delimit_parser<P, Comma>{}))
    .parsersEq (tMod (P Joi4) (tDelimitKeep [(P Comma)])) (P (.delimit Joi4 Comma)),  -- 75: DEP_ASSERT_MODIFIER_MODULO_OPERABLE_R(PP{}, delimit_keep(comma),(delimit_parser<PP, Comma>{}), P{}, delimit_keep(comma),(delimit_parser<P, Comma>{}))
    .parsersEq (tDelimitKeep [(P Joi5), (P Comma)]) (P (.delimit Joi5 Comma)),  -- 75: DEP_ASSERT_MODIFIER_CALLABLE_R(delimit_keep,(PP{}, comma),(delimit_parser<PP, Comma>{}), delimit_keep,(P{}, comma),(delimit_parser<P, Comma>{}))
    .parsersEq (tMod (P Joi5) (tDelimitKeep [(P Comma)])) (P (.delimit Joi5 Comma)),  -- 75: DEP_ASSERT_MODIFIER_MODULO_OPERABLE_R(PP{}, delimit_keep(comma),(delimit_parser<PP, Comma>{}), P{}, delimit_keep(comma),(delimit_parser<P, Comma>{}))
    .parsersEq (tDelimitKeep [(P Map1), (P Comma)]) (P (.delimit Map1 Comma)),  -- 75: DEP_ASSERT_MODIFIER_CALLABLE_R(delimit_keep,(PP{}, comma),(delimit_parser<PP, Comma>{}), delimit_keep,(P{}, comma),(delimit_parser<P, Comma>{}))
    .parsersEq (tMod (P Map1) (tDelimitKeep [(P Comma)])) (P (.delimit Map1 Comma)),  -- 75: DEP_ASSERT_MODIFIER_MODULO_OPERABLE_R(PP{}, delimit_keep(comma),(delimit_parser<PP, Comma>{}), P{}, delimit_keep(comma),(delimit_parser<P, Comma>{}))
    .parsersEq (tDelimitKeep [(P Map2), (P Comma)]) (P (.delimit Map2 Comma)),  -- 75: DEP_ASSERT_MODIFIER_CALLABLE_R(delimit_keep,(PP{}, comma),(delimit_parser<PP, Comma>{}), delimit_keep,(P{}, comma),(delimit_parser<P, Comma>{}))
    .parsersEq (tMod (P Map2) (tDelimitKeep [(P Comma)])) (P (.delimit Map2 Comma)),  -- 75: DEP_ASSERT_MODIFIER_MODULO_OPERABLE_R(PP{}, delimit_keep(comma),(delimit_parser<PP, Comma>{}), P{}, delimit_keep(comma),(delimit_parser<P, Comma>{}))
    .parsersEq (tDelimitKeep [(P Map3), (P Comma)]) (P (.delimit Map3 Comma)),  -- 75: DEP_ASSERT_MODIFIER_CALLABLE_R(delimit_keep,(PP{}, comma),(delimit_parser<PP, Comma>{}), delimit_keep,(P{}, comma),(delimit_parser<P, Comma>{}))
    .parsersEq (tMod (P Map3) (tDelimitKeep [(P Comma)])) (P (.delimit Map3 Comma)),  -- 75: DEP_ASSERT_MODIFIER_MODULO_OPERABLE_R(PP{}, delimit_keep(comma),(delimit_parser<PP, Comma>{}), P{}, delimit_keep(comma),(delimit_parser<P, Comma>{}))
    .parsersEq (tDelimitKeep [(P Map4), (P Comma)]) (P (.delimit Map4 Comma)),  -- 75: DEP_ASSERT_MODIFIER_CALLABLE_R(delimit_keep,(PP{}, comma),(delimit_parser<PP, Comma>{}), delimit_keep,(P{}, comma),(delimit_parser<P, Comma>{}))
    .parsersEq (tMod (P Map4) (tDelimitKeep [(P Comma)])) (P (.delimit Map4 Comma)),  -- 75: DEP_ASSERT_MODIFIER_MODULO_OPERABLE_R(PP{}, delimit_keep(comma),(delimit_parser<PP, Comma>{}), P{}, delimit_keep(comma),(delimit_parser<P, Comma>{}))
    .parsersEq (tDelimitKeep [(P Fil1), (P Comma)]) (P (.delimit Fil1 Comma)),  -- 75: DEP_ASSERT_MODIFIER_CALLABLE_R(delimit_keep,(PP{}, comma),(delimit_parser<PP, Comma>{}), delimit_keep,(P{}, comma),(delimit_parser<P, Comma>{}))
    .parsersEq (tMod (P Fil1) (tDelimitKeep [(P Comma)])) (P (.delimit Fil1 Comma)),  -- 75: DEP_ASSERT_MODIFIER_MODULO_OPERABLE_R(PP{}, delimit_keep(comma),(delimit_parser<PP, Comma>{}), P{}, delimit_keep(comma),(delimit_parser<P, Comma>{}))
    .parsersEq (tDelimitKeep [(P Fil2), (P Comma)]) (P (.delimit Fil2 Comma)),  -- 75: DEP_ASSERT_MODIFIER_CALLABLE_R(delimit_keep,(PP{}, comma),(delimit_parser<PP, Comma>{}), delimit_keep,(P{}, comma),(delimit_parser<P, Comma>{}))
    .parsersEq (tMod (P Fil2) (tDelimitKeep [(P Comma)])) (P (.delimit Fil2 Comma)),  -- 75: DEP_ASSERT_MODIFIER_MODULO_OPERABLE_R(PP{}, delimit_keep(comma),(delimit_parser<PP, Comma>{}), P{}, delimit_keep(comma),(delimit_parser<P, Comma>{}))
    .parsersEq (tDelimitKeep [(P Fil3), (P Comma)]) (P (.delimit Fil3 Comma)),  -- 75: DEP_ASSERT_MODIFIER_CALLABLE_R(delimit_keep,(PP{}, comma),(delimit_parser<PP, Comma>{}), delimit_keep,(P{}, comma),(delimit_parser<P, Comma>{}))
    .parsersEq (tMod (P Fil3) (tDelimitKeep [(P Comma)])) (P (.delimit Fil3 Comma)),  -- 75: DEP_ASSERT_MODIFIER_MODULO_OPERABLE_R(PP{}, delimit_keep(comma),(delimit_parser<PP, Comma>{}), P{}, delimit_keep(comma),(delimit_parser<P, Comma>{}))
    .parsersEq (tDelimitKeep [(P Apm1), (P Comma)]) (P (.delimit Apm1 Comma)),  -- 75: DEP_ASSERT_MODIFIER_CALLABLE_R(delimit_keep,(PP{}, comma),(delimit_parser<PP, Comma>{}), delimit_keep,(P{}, comma),(delimit_parser<P, Comma>{}))
    .parsersEq (tMod (P Apm1) (tDelimitKeep [(P Comma)])) (P (.delimit Apm1 Comma)),  -- 75: DEP_ASSERT_MODIFIER_MODULO_OPERABLE_R(PP{}, delimit_keep(comma),(delimit_parser<PP, Comma>{}), P{}, delimit_keep(comma),(delimit_parser<P, Comma>{}))
    .parsersEq (tDelimitKeep [(P Apm2), (P Comma)]) (P (.delimit Apm2 Comma)),  -- 75: DEP_ASSERT_MODIFIER_CALLABLE_R(delimit_keep,(PP{}, comma),(delimit_parser<PP, Comma>{}), delimit_keep,(P{}, comma),(delimit_parser<P, Comma>{}))
    .parsersEq (tMod (P Apm2) (tDelimitKeep [(P Comma)])) (P (.delimit Apm2 Comma)),  -- 75: DEP_ASSERT_MODIFIER_MODULO_OPERABLE_R(PP{}, delimit_keep(comma),(delimit_parser<PP, Comma>{}), P{}, delimit_keep(comma),(delimit_parser<P, Comma>{}))
    .parsersEq (tDelimitKeep [(P Apf1), (P Comma)]) (P (.delimit Apf1 Comma)),  -- 75: DEP_ASSERT_MODIFIER_CALLABLE_R(delimit_keep,(PP{}, comma),(delimit_parser<PP, Comma>{}), delimit_keep,(P{}, comma),(delimit_parser<P, Comma>{}))
    .parsersEq (tMod (P Apf1) (tDelimitKeep [(P Comma)])) (P (.delimit Apf1 Comma))  -- 75: DEP_ASSERT_MODIFIER_MODULO_OPERABLE_R(PP{}, delimit_keep(comma),(delimit_parser<PP, Comma>{}), P{}, delimit_keep(comma),(delimit_parser<P, Comma>{}))
    ], Assertion.Holds a :=
  Assertion.holds_of_check (by decide +kernel)

/-- delimit_keep modifier / modify anything (tests/char-tests/modifiers/delimit_keep.cpp:75) -/
theorem charModifiersDelimitKeep_3_3 : ∀ a ∈ [
    .parsersEq (tDelimitKeep [(P Int1), (P Comma)]) (P (.delimit Int1 Comma)),  -- 75: DEP_ASSERT_MODIFIER_CALLABLE_R(delimit_keep,(PP{}, comma),(delimit_parser<PP, Comma>{}), delimit_keep,(P{}, comma),(delimit_parser<P, Comma>{}))
    .parsersEq (tMod (P Int1) (tDelimitKeep [(P Comma)])) (P (.delimit Int1 Comma)),  -- 75: DEP_ASSERT_MODIFIER_MODULO_OPERABLE_R(PP{}, delimit_keep(comma),(delimit_parser<PP, Comma>{}), P{}, delimit_keep(comma),(delimit_parser<P, Comma>{}))
    .parsersEq (tDelimitKeep [(P Int2), (P Comma)]) (P (.delimit Int2 Comma)),  -- 75: DEP_ASSERT_MODIFIER_CALLABLE_R(delimit_keep,(PP{}, comma),(delimit_parser<PP, Comma>{}), delimit_keep,(P{}, comma),(delimit_parser<P, Comma>{}))
    .parsersEq (tMod (P Int2) (tDelimitKeep [(P Comma)])) (P (.delimit Int2 Comma)),  -- 75: DEP_ASSERT_MODIFIER_MODULO_OPERABLE_R(PP{}, delimit_keep(comma),(delimit_parser<PP, Comma>{}), P{}, delimit_keep(comma),(delimit_parser<P, Comma>{}))
    .parsersEq (tDelimitKeep [(P Int3), (P Comma)]) (P (.delimit Int3 Comma)),  -- 75: DEP_ASSERT_MODIFIER_CALLABLE_R(delimit_keep,(PP{}, comma),(delimit_parser<PP, Comma>{}), delimit_keep,(P{}, comma),(delimit_parser<P, Comma>{}))
    .parsersEq (tMod (P Int3) (tDelimitKeep [(P Comma)])) (P (.delimit Int3 Comma)),  -- 75: DEP_ASSERT_MODIFIER_MODULO_OPERABLE_R(PP{}, delimit_keep(comma),(delimit_parser<PP, Comma>{}), P{}, delimit_keep(comma),(delimit_parser<P, Comma>{}))
    .parsersEq (tDelimitKeep [(P Api1), (P Comma)]) (P (.delimit Api1 Comma)),  -- 75: DEP_ASSERT_MODIFIER_CALLABLE_R(delimit_keep,(PP{}, comma),(delimit_parser<PP, Comma>{}), delimit_keep,(P{}, comma),(delimit_parser<P, Comma>{}))
    .parsersEq (tMod (P Api1) (tDelimitKeep [(P Comma)])) (P (.delimit Api1 Comma)),  -- 75: DEP_ASSERT_MODIFIER_MODULO_OPERABLE_R(PP{}, delimit_keep(comma),(delimit_parser<PP, Comma>{}), P{}, delimit_keep(comma),(delimit_parser<P, Comma>{}))
    .parsersEq (tDelimitKeep [(P Api2), (P Comma)]) (P (.delimit Api2 Comma)),  -- 75: DEP_ASSERT_MODIFIER_CALLABLE_R(delimit_keep,(PP{}, comma),(delimit_parser<PP, Comma>{}), delimit_keep,(P{}, comma),(delimit_parser<P, Comma>{}))
    .parsersEq (tMod (P Api2) (tDelimitKeep [(P Comma)])) (P (.delimit Api2 Comma)),  -- 75: DEP_ASSERT_MODIFIER_MODULO_OPERABLE_R(PP{}, delimit_keep(comma),(delimit_parser<PP, Comma>{}), P{}, delimit_keep(comma),(delimit_parser<P, Comma>{}))
    .parsersEq (tDelimitKeep [(P Con1), (P Comma)]) (P (.delimit Con1 Comma)),  -- 75: DEP_ASSERT_MODIFIER_CALLABLE_R(delimit_keep,(PP{}, comma),(delimit_parser<PP, Comma>{}), delimit_keep,(P{}, comma),(delimit_parser<P, Comma>{}))
    .parsersEq (tMod (P Con1) (tDelimitKeep [(P Comma)])) (P (.delimit Con1 Comma)),  -- 75: DEP_ASSERT_MODIFIER_MODULO_OPERABLE_R(PP{}, delimit_keep(comma),(delimit_parser<PP, Comma>{}), P{}, delimit_keep(comma),(delimit_parser<P, Comma>{}))
    .parsersEq (tDelimitKeep [(P Con2), (P Comma)]) (P (.delimit Con2 Comma)),  -- 75: DEP_ASSERT_MODIFIER_CALLABLE_R(delimit_keep,(PP{}, comma),(delimit_parser<PP, Comma>{}), delimit_keep,(P{}, comma),(delimit_parser<P, Comma>{}))
    .parsersEq (tMod (P Con2) (tDelimitKeep [(P Comma)])) (P (.delimit Con2 Comma)),  -- 75: DEP_ASSERT_MODIFIER_MODULO_OPERABLE_R(PP{}, delimit_keep(comma),(delimit_parser<PP, Comma>{}), P{}, delimit_keep(comma),(delimit_parser<P, Comma>{}))
    .parsersEq (tDelimitKeep [(P Con3), (P Comma)]) (P (.delimit Con3 Comma)),  -- 75: DEP_ASSERT_MODIFIER_CALLABLE_R(delimit_keep,(PP{}, comma),(delimit_parser<PP, Comma>{}), delimit_keep,(P{}, comma),(delimit_parser<P, Comma>{}))
    .parsersEq (tMod (P Con3) (tDelimitKeep [(P Comma)])) (P (.delimit Con3 Comma)),  -- 75: DEP_ASSERT_MODIFIER_MODULO_OPERABLE_R(PP{}, delimit_keep(comma),(delimit_parser<PP, Comma>{}), P{}, delimit_keep(comma),(delimit_parser<P, Comma>{}))
    .parsersEq (tDelimitKeep [(P Con4), (P Comma)]) (P (.delimit Con4 Comma)),  -- 75: DEP_ASSERT_MODIFIER_CALLABLE_R(delimit_keep,(PP{}, comma),(delimit_parser<PP, Comma>{}), delimit_keep,(P{}, comma),(delimit_parser<P, Comma>{}))
    .parsersEq (tMod (P Con4) (tDelimitKeep [(P Comma)])) (P (.delimit Con4 Comma)),  -- 75: DEP_ASSERT_MODIFIER_MODULO_OPERABLE_R(PP{}, delimit_keep(comma),(delimit_parser<PP, Comma>{}), P{}, delimit_keep(comma),(delimit_parser<P, Comma>{}))
    .parsersEq (tDelimitKeep [(P Def1), (P Comma)]) (P (.delimit Def1 Comma)),  -- 75: DEP_ASSERT_MODIFIER_CALLABLE_R(delimit_keep,(PP{}, comma),(delimit_parser<PP, Comma>{}), delimit_keep,(P{}, comma),(delimit_parser<P, Comma>{}))
    .parsersEq (tMod (P Def1) (tDelimitKeep [(P Comma)])) (P (.delimit Def1 Comma)),  -- 75: DEP_ASSERT_MODIFIER_MODULO_OPERABLE_R(PP{}, delimit_keep(comma),(delimit_parser<PP, Comma>{}), P{}, delimit_keep(comma),(delimit_parser<P, Comma>{}))
    .parsersEq (tDelimitKeep [(P Def2), (P Comma)]) (P (.delimit Def2 Comma)),  -- 75: DEP_ASSERT_MODIFIER_CALLABLE_R(delimit_keep,(PP{}, comma),(delimit_parser<PP, Comma>{}), delimit_keep,(P{}, comma),(delimit_parser<P, Comma>{}))
    .parsersEq (tMod (P Def2) (tDelimitKeep [(P Comma)])) (P (.delimit Def2 Comma)),  -- 75: DEP_ASSERT_MODIFIER_MODULO_OPERABLE_R(PP{}, delimit_keep(comma),(delimit_parser<PP, Comma>{}), P{}, delimit_keep(comma),(delimit_parser<P, Comma>{}))
    .parsersEq (tDelimitKeep [(P (.custom 0)), (P Comma)]) (P (.delimit (.custom 0) Comma)),  -- 75: DEP_ASSERT_MODIFIER_CALLABLE_R(delimit_keep,(PP{}, comma),(delimit_parser<PP, Comma>{}), delimit_keep,(P{}, comma),(delimit_parser<P, Comma>{}))
    .parsersEq (tMod (P (.custom 0)) (tDelimitKeep [(P Comma)])) (P (.delimit (.custom 0) Comma)),  -- 75: DEP_ASSERT_MODIFIER_MODULO_OPERABLE_R(PP{}, delimit_keep(comma),(delimit_parser<PP, Comma>{}), P{}, delimit_keep(comma),(delimit_parser<P, Comma>{}))
    .parsersEq (tDelimitKeep [(P (.custom 1)), (P Comma)]) (P (.delimit (.custom 1) Comma)),  -- 75: DEP_ASSERT_MODIFIER_CALLABLE_R(delimit_keep,(PP{}, comma),(delimit_parser<PP, Comma>{}), delimit_keep,(P{}, comma),(delimit_parser<P, Comma>{}))
    .parsersEq (tMod (P (.custom 1)) (tDelimitKeep [(P Comma)])) (P (.delimit (.custom 1) Comma)),  -- 75: DEP_ASSERT_MODIFIER_MODULO_OPERABLE_R(PP{}, delimit_keep(comma),(delimit_parser<PP, Comma>{}), P{}, delimit_keep(comma),(delimit_parser<P, Comma>{}))
    .parsersEq (tDelimitKeep [(P May1), (P Comma)]) (P (.delimit May1 Comma)),  -- 75: DEP_ASSERT_MODIFIER_CALLABLE_R(delimit_keep,(PP{}, comma),(delimit_parser<PP, Comma>{}), delimit_keep,(P{}, comma),(delimit_parser<P, Comma>{}))
    .parsersEq (tMod (P May1) (tDelimitKeep [(P Comma)])) (P (.delimit May1 Comma)),  -- 75: DEP_ASSERT_MODIFIER_MODULO_OPERABLE_R(PP{}, delimit_keep(comma),(delimit_parser<PP, Comma>{}), P{}, delimit_keep(comma),(delimit_parser<P, Comma>{}))
    .parsersEq (tDelimitKeep [(P May2), (P Comma)]) (P (.delimit May2 Comma)),  -- 75: DEP_ASSERT_MODIFIER_CALLABLE_R(delimit_keep,(PP{}, comma),(delimit_parser<PP, Comma>{}), delimit_keep,(P{}, comma),(delimit_parser<P, Comma>{}))
    .parsersEq (tMod (P May2) (tDelimitKeep [(P Comma)])) (P (.delimit May2 Comma)),  -- 75: DEP_ASSERT_MODIFIER_MODULO_OPERABLE_R(PP{}, delimit_keep(comma),(delimit_parser<PP, Comma>{}), P{}, delimit_keep(comma),(delimit_parser<P, Comma>{}))
    .parsersEq (tDelimitKeep [(P May3), (P Comma)]) (P (.delimit May3 Comma)),  -- 75: DEP_ASSERT_MODIFIER_CALLABLE_R(delimit_keep,(PP{}, comma),(delimit_parser<PP, Comma>{}), delimit_keep,(P{}, comma),(delimit_parser<P, Comma>{}))
    .parsersEq (tMod (P May3) (tDelimitKeep [(P Comma)])) (P (.delimit May3 Comma)),  -- 75: DEP_ASSERT_MODIFIER_MODULO_OPERABLE_R(PP{}, delimit_keep(comma),(delimit_parser<PP, Comma>{}), P{}, delimit_keep(comma),(delimit_parser<P, Comma>{}))
    .parsersEq (tDelimitKeep [(P May4), (P Comma)]) (P (.delimit May4 Comma)),  -- 75: DEP_ASSERT_MODIFIER_CALLABLE_R(delimit_keep,(PP{}, comma),(delimit_parser<PP, Comma>{}), delimit_keep,(P{}, comma),(delimit_parser<P, Comma>{}))
    .parsersEq (tMod (P May4) (tDelimitKeep [(P Comma)])) (P (.delimit May4 Comma)),  -- 75: DEP_ASSERT_MODIFIER_MODULO_OPERABLE_R(PP{}, delimit_keep(comma),(delimit_parser<PP, Comma>{}), P{}, delimit_keep(comma),(delimit_parser<P, Comma>{}))
    .parsersEq (tDelimitKeep [(P Exa1), (P Comma)]) (P (.delimit Exa1 Comma)),  -- 75: DEP_ASSERT_MODIFIER_CALLABLE_R(delimit_keep,(PP{}, comma),(delimit_parser<PP, Comma>{}), delimit_keep,(P{}, comma),(delimit_parser<P, Comma>{}))
    .parsersEq (tMod (P Exa1) (tDelimitKeep [(P Comma)])) (P (.delimit Exa1 Comma)),  -- 75: DEP_ASSERT_MODIFIER_MODULO_OPERABLE_R(PP{}, delimit_keep(comma),(delimit_parser<PP, Comma>{}), P{}, delimit_keep(comma),(delimit_parser<P, Comma>{}))
    .parsersEq (tDelimitKeep [(P Exa2), (P Comma)]) (P (.delimit Exa2 Comma)),  -- 75: DEP_ASSERT_MODIFIER_CALLABLE_R(delimit_keep,(PP{}, comma),(delimit_parser<PP, Comma>{}), delimit_keep,(P{}, comma),(delimit_parser<P, Comma>{}))
    .parsersEq (tMod (P Exa2) (tDelimitKeep [(P Comma)])) (P (.delimit Exa2 Comma)),  -- 75: DEP_ASSERT_MODIFIER_MODULO_OPERABLE_R(PP{}, delimit_keep(comma),(delimit_parser<PP, Comma>{}), P{}, delimit_keep(comma),(delimit_parser<P, Comma>{}))
    .parsersEq (tDelimitKeep [(P Exa3), (P Comma)]) (P (.delimit Exa3 Comma)),  -- 75: DEP_ASSERT_MODIFIER_CALLABLE_R(delimit_keep,(PP{}, comma),(delimit_parser<PP, Comma>{}), delimit_keep,(P{}, comma),(delimit_parser<P, Comma>{}))
    .parsersEq (tMod (P Exa3) (tDelimitKeep [(P Comma)])) (P (.delimit Exa3 Comma)),  -- 75: DEP_ASSERT_MODIFIER_MODULO_OPERABLE_R(PP{}, delimit_keep(comma),(delimit_parser<PP, Comma>{}), P{}, delimit_keep(comma),(delimit_parser<P, Comma>{}))
    .parsersEq (tDelimitKeep [(P Exa4), (P Comma)]) (P (.delimit Exa4 Comma)),  -- 75: DEP_ASSERT_MODIFIER_CALLABLE_R(delimit_keep,(PP{}, comma),(delimit_parser<PP, Comma>{}), delimit_keep,(P{}, comma),(delimit_parser<P, Comma>{}))
    .parsersEq (tMod (P Exa4) (tDelimitKeep [(P Comma)])) (P (.delimit Exa4 Comma)),  -- 75: DEP_ASSERT_MODIFIER_MODULO_OPERABLE_R(PP{}, delimit_keep(comma),(delimit_parser<PP, Comma>{}), P{}, delimit_keep(comma),(delimit_parser<P, Comma>{}))
    .parsersEq (tDelimitKeep [(P Oom1), (P Comma)]) (P (.delimit Oom1 Comma)),  -- 75: DEP_ASSERT_MODIFIER_CALLABLE_R(delimit_keep,(PP{}, comma),(delimit_parser<PP, Comma>{}), delimit_keep,(P{}, comma),(delimit_parser<P, Comma>{}))
    .parsersEq (tMod (P Oom1) (tDelimitKeep [(P Comma)])) (P (.delimit Oom1 Comma)),  -- 75: DEP_ASSERT_MODIFIER_MODULO_OPERABLE_R(PP{}, delimit_keep(comma),(delimit_parser<PP, Comma>{}), P{}, delimit_keep(comma),(delimit_parser<P, Comma>{}))
    .parsersEq (tDelimitKeep [(P Oom2), (P Comma)]) (P (.delimit Oom2 Comma)),  -- 75: DEP_ASSERT_MODIFIER_CALLABLE_R(delimit_keep,(PP{}, comma),(delimit_parser<PP, Comma>{}), delimit_keep,(P{}, comma),(delimit_parser<P, Comma>{}))
    .parsersEq (tMod (P Oom2) (tDelimitKeep [(P Comma)])) (P (.delimit Oom2 Comma)),  -- 75: DEP_ASSERT_MODIFIER_MODULO_OPERABLE_R(PP{}, delimit_keep(comma),(delimit_parser<PP, Comma>{}), P{}, delimit_keep(comma),(delimit_parser<P, Comma>{}))
    .parsersEq (tDelimitKeep [(P Oom3), (P Comma)]) (P (.delimit Oom3 Comma)),  -- 75: DEP_ASSERT_MODIFIER_CALLABLE_R(delimit_keep,(PP{}, comma),(delimit_parser<PP, Comma>{}), delimit_keep,(P{}, comma),(delimit_parser<P, Comma>{}))
    .parsersEq (tMod (P Oom3) (tDelimitKeep [(P Comma)])) (P (.delimit Oom3 Comma)),  -- 75: DEP_ASSERT_MODIFIER_MODULO_OPERABLE_R(PP{}, delimit_keep(comma),(delimit_parser<PP, Comma>{}), P{}, delimit_keep(comma),(delimit_parser<P, Comma>{}))
    .parsersEq (tDelimitKeep [(P Oom4), (P Comma)]) (P (.delimit Oom4 Comma)),  -- 75: DEP_ASSERT_MODIFIER_CALLABLE_R(delimit_keep,(PP{}, comma),(delimit_parser<PP, Comma>{}), delimit_keep,(P{}, comma),(delimit_parser<P, Comma>{}))
    .parsersEq (tMod (P Oom4) (tDelimitKeep [(P Comma)])) (P (.delimit Oom4 Comma)),  -- 75: DEP_ASSERT_MODIFIER_MODULO_OPERABLE_R(PP{}, delimit_keep(comma),(delimit_parser<PP, Comma>{}), P{}, delimit_keep(comma),(delimit_parser<P, Comma>{}))
    .parsersEq (tDelimitKeep [(P Zom1), (P Comma)]) (P (.delimit Zom1 Comma)),  -- 75: DEP_ASSERT_MODIFIER_CALLABLE_R(delimit_keep,(PP{}, comma),(delimit_parser<PP, Comma>{}), delimit_keep,(P{}, comma),(delimit_parser<P, Comma>{}))
    .parsersEq (tMod (P Zom1) (tDelimitKeep [(P Comma)])) (P (.delimit Zom1 Comma)),  -- 75: DEP_ASSERT_MODIFIER_MODULO_OPERABLE_R(PP{}, delimit_keep(comma),(delimit_parser<PP, Comma>{}), P{}, delimit_keep(comma),(delimit_parser<P, Comma>{}))
    .parsersEq (tDelimitKeep [(P Zom2), (P Comma)]) (P (.delimit Zom2 Comma)),  -- 75: DEP_ASSERT_MODIFIER_CALLABLE_R(delimit_keep,(PP{}, comma),(delimit_parser<PP, Comma>{}), delimit_keep,(P{}, comma),(delimit_parser<P, Comma>{}))
    .parsersEq (tMod (P Zom2) (tDelimitKeep [(P Comma)])) (P (.delimit Zom2 Comma)),  -- 75: DEP_ASSERT_MODIFIER_MODULO_OPERABLE_R(PP{}, delimit_keep(comma),(delimit_parser<PP, Comma>{}), P{}, delimit_keep(comma),(delimit_parser<P, Comma>{}))
    .parsersEq (tDelimitKeep [(P Zom3), (P Comma)]) (P (.delimit Zom3 Comma)),  -- 75: DEP_ASSERT_MODIFIER_CALLABLE_R(delimit_keep,(PP{}, comma),(delimit_parser<PP, Comma>{}), delimit_keep,(P{}, comma),(delimit_parser<P, Comma>{}))
    .parsersEq (tMod (P Zom3) (tDelimitKeep [(P Comma)])) (P (.delimit Zom3 Comma)),  -- 75: DEP_ASSERT_MODIFIER_MODULO_OPERABLE_R(PP{}, delimit_keep(comma),(delimit_parser<PP, Comma>{}), P{}, delimit_keep(comma),(delimit_parser<P, Comma>{}))
    .parsersEq (tDelimitKeep [(P Zom4), (P Comma)]) (P (.delimit Zom4 Comma)),  -- 75: DEP_ASSERT_MODIFIER_CALLABLE_R(delimit_keep,(PP{}, comma),(delimit_parser<PP, Comma>{}), delimit_keep,(P{}, comma),(delimit_parser<P, Comma>{}))
    .parsersEq (tMod (P Zom4) (tDelimitKeep [(P Comma)])) (P (.delimit Zom4 Comma)),  -- 75: DEP_ASSERT_MODIFIER_MODULO_OPERABLE_R(PP{}, delimit_keep(comma),(delimit_parser<PP, Comma>{}), P{}, delimit_keep(comma),(delimit_parser<P, Comma>{}))
    .parsersEq (tDelimitKeep [(P Del1), (P Comma)]) (P (.delimit Del1 Comma)),  -- 75: DEP_ASSERT_MODIFIER_CALLABLE_R(delimit_keep,(PP{}, comma),(delimit_parser<PP, Comma>{}), delimit_keep,(P{}, comma),(delimit_parser<P, Comma>{}))
    .parsersEq (tMod (P Del1) (tDelimitKeep [(P Comma)])) (P (.delimit Del1 Comma))  -- 75: DEP_ASSERT_MODIFIER_MODULO_OPERABLE_R(PP{}, delimit_keep(comma),(delimit_parser<PP, Comma>{}), P{}, delimit_keep(comma),(delimit_parser<P, Comma>{}))
    ], Assertion.Holds a :=
  Assertion.holds_of_check (by decide +kernel)

/-- delimit_keep modifier / modify anything (tests/char-tests/modifiers/delimit_keep.cpp:75) -/
theorem charModifiersDelimitKeep_3_4 : ∀ a ∈ [
    .parsersEq (tDelimitKeep [(P Del2), (P Comma)]) (P (.delimit Del2 Comma)),  -- 75: DEP_ASSERT_MODIFIER_CALLABLE_R(delimit_keep,(PP{}, comma),(delimit_parser<PP, Comma>{}), delimit_keep,(P{}, comma),(delimit_parser<P, Comma>{}))
    .parsersEq (tMod (P Del2) (tDelimitKeep [(P Comma)])) (P (.delimit Del2 Comma)),  -- 75: DEP_ASSERT_MODIFIER_MODULO_OPERABLE_R(PP{}, delimit_keep(comma),(delimit_parser<PP, Comma>{}), P{}, delimit_keep(comma),(delimit_parser<P, Comma>{}))
    .parsersEq (tDelimitKeep [(P Del3), (P Comma)]) (P (.delimit Del3 Comma)),  -- 75: DEP_ASSERT_MODIFIER_CALLABLE_R(delimit_keep,(PP{}, comma),(delimit_parser<PP, Comma>{}), delimit_keep,(P{}, comma),(delimit_parser<P, Comma>{}))
    .parsersEq (tMod (P Del3) (tDelimitKeep [(P Comma)])) (P (.delimit Del3 Comma)),  -- 75: DEP_ASSERT_MODIFIER_MODULO_OPERABLE_R(PP{}, delimit_keep(comma),(delimit_parser<PP, Comma>{}), P{}, delimit_keep(comma),(delimit_parser<P, Comma>{}))
    .parsersEq (tDelimitKeep [(P Del4), (P Comma)]) (P (.delimit Del4 Comma)),  -- 75: DEP_ASSERT_MODIFIER_CALLABLE_R(delimit_keep,(PP{}, comma),(delimit_parser<PP, Comma>{}), delimit_keep,(P{}, comma),(delimit_parser<P, Comma>{}))
    .parsersEq (tMod (P Del4) (tDelimitKeep [(P Comma)])) (P (.delimit Del4 Comma)),  -- 75: DEP_ASSERT_MODIFIER_MODULO_OPERABLE_R(PP{}, delimit_keep(comma),(delimit_parser<PP, Comma>{}), P{}, delimit_keep(comma),(delimit_parser<P, Comma>{}))
    .parsersEq (tDelimitKeep [(P Del5), (P Comma)]) (P (.delimit Del5 Comma)),  -- 75: DEP_ASSERT_MODIFIER_CALLABLE_R(delimit_keep,(PP{}, comma),(delimit_parser<PP, Comma>{}), delimit_keep,(P{}, comma),(delimit_parser<P, Comma>{}))
    .parsersEq (tMod (P Del5) (tDelimitKeep [(P Comma)])) (P (.delimit Del5 Comma)),  -- 75: DEP_ASSERT_MODIFIER_MODULO_OPERABLE_R(PP{}, delimit_keep(comma),(delimit_parser<PP, Comma>{}), P{}, delimit_keep(comma),(delimit_parser<P, Comma>{}))
    .parsersEq (tDelimitKeep [(P Del6), (P Comma)]) (P (.delimit Del6 Comma)),  -- 75: DEP_ASSERT_MODIFIER_CALLABLE_R(delimit_keep,(PP{}, comma),(delimit_parser<PP, Comma>{}), delimit_keep,(P{}, comma),(delimit_parser<P, Comma>{}))
    .parsersEq (tMod (P Del6) (tDelimitKeep [(P Comma)])) (P (.delimit Del6 Comma)),  -- 75: DEP_ASSERT_MODIFIER_MODULO_OPERABLE_R(PP{}, delimit_keep(comma),(delimit_parser<PP, Comma>{}), P{}, delimit_keep(comma),(delimit_parser<P, Comma>{}))
    .parsersEq (tDelimitKeep [(P Del7), (P Comma)]) (P (.delimit Del7 Comma)),  -- 75: DEP_ASSERT_MODIFIER_CALLABLE_R(delimit_keep,(PP{}, comma),(delimit_parser<PP, Comma>{}), delimit_keep,(P{}, comma),(delimit_parser<P, Comma>{}))
    .parsersEq (tMod (P Del7) (tDelimitKeep [(P Comma)])) (P (.delimit Del7 Comma)),  -- 75: DEP_ASSERT_MODIFIER_MODULO_OPERABLE_R(PP{}, delimit_keep(comma),(delimit_parser<PP, Comma>{}), P{}, delimit_keep(comma),(delimit_parser<P, Comma>{}))
    .parsersEq (tDelimitKeep [(P Del8), (P Comma)]) (P (.delimit Del8 Comma)),  -- 75: DEP_ASSERT_MODIFIER_CALLABLE_R(delimit_keep,(PP{}, comma),(delimit_parser<PP, Comma>{}), delimit_keep,(P{}, comma),(delimit_parser<P, Comma>{}))
    .parsersEq (tMod (P Del8) (tDelimitKeep [(P Comma)])) (P (.delimit Del8 Comma)),  -- 75: DEP_ASSERT_MODIFIER_MODULO_OPERABLE_R(PP{}, delimit_keep(comma),(delimit_parser<PP, Comma>{}), P{}, delimit_keep(comma),(delimit_parser<P, Comma>{}))
    .parsersEq (tDelimitKeep [(P Dek1), (P Comma)]) (P (.delimit Dek1 Comma)),  -- 75: DEP_ASSERT_MODIFIER_CALLABLE_R(delimit_keep,(PP{}, comma),(delimit_parser<PP, Comma>{}), delimit_keep,(P{}, comma),(delimit_parser<P, Comma>{}))
    .parsersEq (tMod (P Dek1) (tDelimitKeep [(P Comma)])) (P (.delimit Dek1 Comma)),  -- 75: DEP_ASSERT_MODIFIER_MODULO_OPERABLE_R(PP{}, delimit_keep(comma),(delimit_parser<PP, Comma>{}), P{}, delimit_keep(comma),(delimit_parser<P, Comma>{}))
    .parsersEq (tDelimitKeep [(P Dek2), (P Comma)]) (P (.delimit Dek2 Comma)),  -- 75: DEP_ASSERT_MODIFIER_CALLABLE_R(delimit_keep,(PP{}, comma),(delimit_parser<PP, Comma>{}), delimit_keep,(P{}, comma),(delimit_parser<P, Comma>{}))
    .parsersEq (tMod (P Dek2) (tDelimitKeep [(P Comma)])) (P (.delimit Dek2 Comma)),  -- 75: DEP_ASSERT_MODIFIER_MODULO_OPERABLE_R(PP{}, delimit_keep(comma),(delimit_parser<PP, Comma>{}), P{}, delimit_keep(comma),(delimit_parser<P, Comma>{}))
    .parsersEq (tDelimitKeep [(P Dek3), (P Comma)]) (P (.delimit Dek3 Comma)),  -- 75: DEP_ASSERT_MODIFIER_CALLABLE_R(delimit_keep,(PP{}, comma),(delimit_parser<PP, Comma>{}), delimit_keep,(P{}, comma),(delimit_parser<P, Comma>{}))
    .parsersEq (tMod (P Dek3) (tDelimitKeep [(P Comma)])) (P (.delimit Dek3 Comma)),  -- 75: DEP_ASSERT_MODIFIER_MODULO_OPERABLE_R(PP{}, delimit_keep(comma),(delimit_parser<PP, Comma>{}), P{}, delimit_keep(comma),(delimit_parser<P, Comma>{}))
    .parsersEq (tDelimitKeep [(P Dek4), (P Comma)]) (P (.delimit Dek4 Comma)),  -- 75: DEP_ASSERT_MODIFIER_CALLABLE_R(delimit_keep,(PP{}, comma),(delimit_parser<PP, Comma>{}), delimit_keep,(P{}, comma),(delimit_parser<P, Comma>{}))
    .parsersEq (tMod (P Dek4) (tDelimitKeep [(P Comma)])) (P (.delimit Dek4 Comma)),  -- 75: DEP_ASSERT_MODIFIER_MODULO_OPERABLE_R(PP{}, delimit_keep(comma),(delimit_parser<PP, Comma>{}), P{}, delimit_keep(comma),(delimit_parser<P, Comma>{}))
    .parsersEq (tDelimitKeep [(P Dek5), (P Comma)]) (P (.delimit Dek5 Comma)),  -- 75: DEP_ASSERT_MODIFIER_CALLABLE_R(delimit_keep,(PP{}, comma),(delimit_parser<PP, Comma>{}), delimit_keep,(P{}, comma),(delimit_parser<P, Comma>{}))
    .parsersEq (tMod (P Dek5) (tDelimitKeep [(P Comma)])) (P (.delimit Dek5 Comma)),  -- 75: DEP_ASSERT_MODIFIER_MODULO_OPERABLE_R(PP{}, delimit_keep(comma),(delimit_parser<PP, Comma>{}), P{}, delimit_keep(comma),(delimit_parser<P, Comma>{}))
    .parsersEq (tDelimitKeep [(P Dek6), (P Comma)]) (P (.delimit Dek6 Comma)),  -- 75: DEP_ASSERT_MODIFIER_CALLABLE_R(delimit_keep,(PP{}, comma),(delimit_parser<PP, Comma>{}), delimit_keep,(P{}, comma),(delimit_parser<P, Comma>{}))
    .parsersEq (tMod (P Dek6) (tDelimitKeep [(P Comma)])) (P (.delimit Dek6 Comma)),  -- 75: DEP_ASSERT_MODIFIER_MODULO_OPERABLE_R(PP{}, delimit_keep(comma),(delimit_parser<PP, Comma>{}), P{}, delimit_keep(comma),(delimit_parser<P, Comma>{}))
    .parsersEq (tDelimitKeep [(P Dek7), (P Comma)]) (P (.delimit Dek7 Comma)),  -- 75: DEP_ASSERT_MODIFIER_CALLABLE_R(delimit_keep,(PP{}, comma),(delimit_parser<PP, Comma>{}), delimit_keep,(P{}, comma),(delimit_parser<P, Comma>{}))
    .parsersEq (tMod (P Dek7) (tDelimitKeep [(P Comma)])) (P (.delimit Dek7 Comma)),  -- 75: DEP_ASSERT_MODIFIER_MODULO_OPERABLE_R(PP{}, delimit_keep(comma),(delimit_parser<PP, Comma>{}), P{}, delimit_keep(comma),(delimit_parser<P, Comma>{}))
    .parsersEq (tDelimitKeep [(P Dek8), (P Comma)]) (P (.delimit Dek8 Comma)),  -- 75: DEP_ASSERT_MODIFIER_CALLABLE_R(delimit_keep,(PP{}, comma),(delimit_parser<PP, Comma>{}), delimit_keep,(P{}, comma),(delimit_parser<P, Comma>{}))
    .parsersEq (tMod (P Dek8) (tDelimitKeep [(P Comma)])) (P (.delimit Dek8 Comma))  -- 75: DEP_ASSERT_MODIFIER_MODULO_OPERABLE_R(PP{}, delimit_keep(comma),(delimit_parser<PP, Comma>{}), P{}, delimit_keep(comma),(delimit_parser<P, Comma>{}))
    ], Assertion.Holds a :=
  Assertion.holds_of_check (by decide +kernel)

end Tok3n.Tests
