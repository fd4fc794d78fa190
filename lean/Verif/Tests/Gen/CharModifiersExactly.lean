import Verif.Tests.Gen.SamplesChar
/- Generated by tools/tests2lean.py from tests/char-tests/modifiers/exactly.cpp. -/

namespace Tok3n.Tests

/-- exactly modifier / prefix (tests/char-tests/modifiers/exactly.cpp:14) -/
theorem charModifiersExactly_1 : ∀ a ∈ [
    .parsersEq (P Exa1) (tCall (M (.exactly 3)) [(P All1)]),  -- 14: ASSERT_PARSER_VALUES_EQ(exa1, exactly<3>(all1))
    .parsersEq (P Exa2) (tCall (M (.exactly 5)) [(P Any1)]),  -- 15: ASSERT_PARSER_VALUES_EQ(exa2, exactly<5>(any1))
    .parsersEq (P Exa3) (tCall (M (.exactly 4)) [(tOr (P All1) (P Any1))]),  -- 16: ASSERT_PARSER_VALUES_EQ(exa3, exactly<4>(all1 | any1))
    .parsersEq (P Exa4) (tCall (M (.exactly 2)) [(tThen (P All1) (P Any1))])  -- 17: ASSERT_PARSER_VALUES_EQ(exa4, exactly<2>(all1>> any1))
    ], Assertion.Holds a :=
  Assertion.holds_of_check (by decide +kernel)

/-- exactly modifier / infix (tests/char-tests/modifiers/exactly.cpp:22) -/
theorem charModifiersExactly_2 : ∀ a ∈ [
    .parsersEq (P Exa1) (tMod (P All1) (M (.exactly 3))),  -- 22: ASSERT_PARSER_VALUES_EQ(exa1, all1 % exactly<3>)
    .parsersEq (P Exa2) (tMod (P Any1) (M (.exactly 5))),  -- 23: ASSERT_PARSER_VALUES_EQ(exa2, any1 % exactly<5>)
    .parsersEq (P Exa3) (tMod (tOr (P All1) (P Any1)) (M (.exactly 4))),  -- 24: ASSERT_PARSER_VALUES_EQ(exa3,(all1 | any1) % exactly<4>)
    .parsersEq (P Exa4) (tMod (tThen (P All1) (P Any1)) (M (.exactly 2)))  -- 25: ASSERT_PARSER_VALUES_EQ(exa4,(all1>> any1) % exactly<2>)
    ], Assertion.Holds a :=
  Assertion.holds_of_check (by decide +kernel)

/-- exactly modifier / modify anything (tests/char-tests/modifiers/exactly.cpp:46) -/
theorem charModifiersExactly_3_1 : ∀ a ∈ [
    .parsersEq (tCall (M (.exactly 2)) [(P Ign1)]) (P (.exactly Ign1 2)),  -- 46: DEP_ASSERT_MODIFIER_CALLABLE_R(exactly<2>,(PP{}),(exactly_parser<PP, index_c<2>>{}), exactly<2>,(P{}),(exactly_parser<P, index_c<2>>{}))
    .parsersEq (tMod (P Ign1) (M (.exactly 2))) (P (.exactly Ign1 2)),  -- 46: DEP_ASSERT_MODIFIER_MODULO_OPERABLE_R(PP{}, exactly<2>,(exactly_parser<PP, index_c<2>>{}), P{}, exactly<2>,(exactly_parser<P, index_c<2>>{}))
    .parsersEq (tCall (M (.exactly 2)) [(P Ign2)]) (P (.exactly Ign2 2)),  -- 46: DEP_ASSERT_MODIFIER_CALLABLE_R(exactly<2>,(PP{}),(exactly_parser<PP, index_c<2>>{}), exactly<2>,(P{}),(exactly_parser<P, index_c<2>>{}))
    .parsersEq (tMod (P Ign2) (M (.exactly 2))) (P (.exactly Ign2 2)),  -- 46: DEP_ASSERT_MODIFIER_MODULO_OPERABLE_R(PP{}, exactly<2>,(exactly_parser<PP, index_c<2>>{}), P{}, exactly<2>,(exactly_parser<P, index_c<2>>{}))
    .parsersEq (tCall (M (.exactly 2)) [(P Ign3)]) (P (.exactly Ign3 2)),  -- 46: DEP_ASSERT_MODIFIER_CALLABLE_R(exactly<2>,(PP{}),(exactly_parser<PP, index_c<2>>{}), exactly<2>,(P{}),(exactly_parser<P, index_c<2>>{}))
    .parsersEq (tMod (P Ign3) (M (.exactly 2))) (P (.exactly Ign3 2)),  -- 46: DEP_ASSERT_MODIFIER_MODULO_OPERABLE_R(PP{}, exactly<2>,(exactly_parser<PP, index_c<2>>{}), P{}, exactly<2>,(exactly_parser<P, index_c<2>>{}))
    .parsersEq (tCall (M (.exactly 2)) [(P Ign4)]) (P (.exactly Ign4 2)),  -- 46: DEP_ASSERT_MODIFIER_CALLABLE_R(exactly<2>,(PP{}),(exactly_parser<PP, index_c<2>>{}), exactly<2>,(P{}),(exactly_parser<P, index_c<2>>{}))
    .parsersEq (tMod (P Ign4) (M (.exactly 2))) (P (.exactly Ign4 2)),  -- 46: DEP_ASSERT_MODIFIER_MODULO_OPERABLE_R(PP{}, exactly<2>,(exactly_parser<PP, index_c<2>>{}), P{}, exactly<2>,(exactly_parser<P, index_c<2>>{}))
    .parsersEq (tCall (M (.exactly 2)) [(P Ign5)]) (P (.exactly Ign5 2)),  -- 46: DEP_ASSERT_MODIFIER_CALLABLE_R(exactly<2>,(PP{}),(exactly_parser<PP, index_c<2>>{}), exactly<2>,(P{}),(exactly_parser<P, index_c<2>>{}))
    .parsersEq (tMod (P Ign5) (M (.exactly 2))) (P (.exactly Ign5 2)),  -- 46: DEP_ASSERT_MODIFIER_MODULO_OPERABLE_R(PP{}, exactly<2>,(exactly_parser<PP, index_c<2>>{}), P{}, exactly<2>,(exactly_parser<P, index_c<2>>{}))
    .parsersEq (tCall (M (.exactly 2)) [(P Com1)]) (P (.exactly Com1 2)),  -- 46: DEP_ASSERT_MODIFIER_CALLABLE_R(exactly<2>,(PP{}),(exactly_parser<PP, index_c<2>>{}), exactly<2>,(P{}),(exactly_parser<P, index_c<2>>{}))
    .parsersEq (tMod (P Com1) (M (.exactly 2))) (P (.exactly Com1 2)),  -- 46: DEP_ASSERT_MODIFIER_MODULO_OPERABLE_R(PP{}, exactly<2>,(exactly_parser<PP, index_c<2>>{}), P{}, exactly<2>,(exactly_parser<P, index_c<2>>{}))
    .parsersEq (tCall (M (.exactly 2)) [(P Com2)]) (P (.exactly Com2 2)),  -- 46: DEP_ASSERT_MODIFIER_CALLABLE_R(exactly<2>,(PP{}),(exactly_parser<PP, index_c<2>>{}), exactly<2>,(P{}),(exactly_parser<P, index_c<2>>{}))
    .parsersEq (tMod (P Com2) (M (.exactly 2))) (P (.exactly Com2 2)),  -- 46: DEP_ASSERT_MODIFIER_MODULO_OPERABLE_R(PP{}, exactly<2>,(exactly_parser<PP, index_c<2>>{}), P{}, exactly<2>,(exactly_parser<P, index_c<2>>{}))
    .parsersEq (tCall (M (.exactly 2)) [(P Com3)]) (P (.exactly Com3 2)),  -- 46: DEP_ASSERT_MODIFIER_CALLABLE_R(exactly<2>,(PP{}),(exactly_parser<PP, index_c<2>>{}), exactly<2>,(P{}),(exactly_parser<P, index_c<2>>{}))
    .parsersEq (tMod (P Com3) (M (.exactly 2))) (P (.exactly Com3 2)),  -- 46: DEP_ASSERT_MODIFIER_MODULO_OPERABLE_R(PP{}, exactly<2>,(exactly_parser<PP, index_c<2>>{}), P{}, exactly<2>,(exactly_parser<P, index_c<2>>{}))
    .parsersEq (tCall (M (.exactly 2)) [(P Com4)]) (P (.exactly Com4 2)),  -- 46: DEP_ASSERT_MODIFIER_CALLABLE_R(exactly<2>,(PP{}),(exactly_parser<PP, index_c<2>>{}), exactly<2>,(P{}),(exactly_parser<P, index_c<2>>{}))
    .parsersEq (tMod (P Com4) (M (.exactly 2))) (P (.exactly Com4 2)),  -- 46: DEP_ASSERT_MODIFIER_MODULO_OPERABLE_R(PP{}, exactly<2>,(exactly_parser<PP, index_c<2>>{}), P{}, exactly<2>,(exactly_parser<P, index_c<2>>{}))
    .parsersEq (tCall (M (.exactly 2)) [(P Com5)]) (P (.exactly Com5 2)),  -- 46: DEP_ASSERT_MODIFIER_CALLABLE_R(exactly<2>,(PP{}),(exactly_parser<PP, index_c<2>>{}), exactly<2>,(P{}),(exactly_parser<P, index_c<2>>{}))
    .parsersEq (tMod (P Com5) (M (.exactly 2))) (P (.exactly Com5 2)),  -- 46: DEP_ASSERT_MODIFIER_MODULO_OPERABLE_R(PP{}, exactly<2>,(exactly_parser<PP, index_c<2>>{}), P{}, exactly<2>,(exactly_parser<P, index_c<2>>{}))
    .parsersEq (tCall (M (.exactly 2)) [(P Com6)]) (P (.exactly Com6 2)),  -- 46: DEP_ASSERT_MODIFIER_CALLABLE_R(exactly<2>,(PP{}),(exactly_parser<PP, index_c<2>>{}), exactly<2>,(P{}),(exactly_parser<P, index_c<2>>{}))
    .parsersEq (tMod (P Com6) (M (.exactly 2))) (P (.exactly Com6 2)),  -- 46: DEP_ASSERT_MODIFIER_MODULO_OPERABLE_R(PP{}, exactly<2>,(exactly_parser<PP, index_c<2>>{}), P{}, exactly<2>,(exactly_parser<P, index_c<2>>{}))
    .parsersEq (tCall (M (.exactly 2)) [(P Com7)]) (P (.exactly Com7 2)),  -- 46: DEP_ASSERT_MODIFIER_CALLABLE_R(exactly<2>,(PP{}),(exactly_parser<PP, index_c<2>>{}), exactly<2>,(P{}),(exactly_parser<P, index_c<2>>{}))
    .parsersEq (tMod (P Com7) (M (.exactly 2))) (P (.exactly Com7 2)),  -- 46: DEP_ASSERT_MODIFIER_MODULO_OPERABLE_R(PP{}, exactly<2>,(exactly_parser<PP, index_c<2>>{}), P{}, exactly<2>,(exactly_parser<P, index_c<2>>{}))
    .parsersEq (tCall (M (.exactly 2)) [(P Nam1)]) (P (.exactly Nam1 2)),  -- 46: DEP_ASSERT_MODIFIER_CALLABLE_R(exactly<2>,(PP{}),(exactly_parser<PP, index_c<2>>{}), exactly<2>,(P{}),(exactly_parser<P, index_c<2>>{}))
    .parsersEq (tMod (P Nam1) (M (.exactly 2))) (P (.exactly Nam1 2)),  -- 46: DEP_ASSERT_MODIFIER_MODULO_OPERABLE_R(PP{}, exactly<2>,(exactly_parser<PP, index_c<2>>{}), P{}, exactly<2>,(exactly_parser<P, index_c<2>>{}))
    .parsersEq (tCall (M (.exactly 2)) [(P Nam2)]) (P (.exactly Nam2 2)),  -- 46: DEP_ASSERT_MODIFIER_CALLABLE_R(exactly<2>,(PP{}),(exactly_parser<PP, index_c<2>>{}), exactly<2>,(P{}),(exactly_parser<P, index_c<2>>{}))
    .parsersEq (tMod (P Nam2) (M (.exactly 2))) (P (.exactly Nam2 2)),  -- 46: DEP_ASSERT_MODIFIER_MODULO_OPERABLE_R(PP{}, exactly<2>,(exactly_parser<PP, index_c<2>>{}), P{}, exactly<2>,(exactly_parser<P, index_c<2>>{}))
    .parsersEq (tCall (M (.exactly 2)) [(P Nam3)]) (P (.exactly Nam3 2)),  -- 46: DEP_ASSERT_MODIFIER_CALLABLE_R(exactly<2>,(PP{}),(exactly_parser<PP, index_c<2>>{}), exactly<2>,(P{}),(exactly_parser<P, index_c<2>>{}))
    .parsersEq (tMod (P Nam3) (M (.exactly 2))) (P (.exactly Nam3 2)),  -- 46: DEP_ASSERT_MODIFIER_MODULO_OPERABLE_R(PP{}, exactly<2>,(exactly_parser<PP, index_c<2>>{}), P{}, exactly<2>,(exactly_parser<P, index_c<2>>{}))
    .parsersEq (tCall (M (.exactly 2)) [(P Nam4)]) (P (.exactly Nam4 2)),  -- 46: DEP_ASSERT_MODIFIER_CALLABLE_R(exactly<2>,(PP{}),(exactly_parser<PP, index_c<2>>{}), exactly<2>,(P{}),(exactly_parser<P, index_c<2>>{}))
    .parsersEq (tMod (P Nam4) (M (.exactly 2))) (P (.exactly Nam4 2)),  -- 46: DEP_ASSERT_MODIFIER_MODULO_OPERABLE_R(PP{}, exactly<2>,(exactly_parser<PP, index_c<2>>{}), P{}, exactly<2>,(exactly_parser<P, index_c<2>>{}))
    .parsersEq (tCall (M (.exactly 2)) [(P Any1)]) (P (.exactly Any1 2)),  -- 46: DEP_ASSERT_MODIFIER_CALLABLE_R(exactly<2>,(PP{}),(exactly_parser<PP, index_c<2>>{}), exactly<2>,(P{}),(exactly_parser<P, index_c<2>>{}))
    .parsersEq (tMod (P Any1) (M (.exactly 2))) (P (.exactly Any1 2)),  -- 46: DEP_ASSERT_MODIFIER_MODULO_OPERABLE_R(PP{}, exactly<2>,(exactly_parser<PP, index_c<2>>{}), P{}, exactly<2>,(exactly_parser<P, index_c<2>>{}))
    .parsersEq (tCall (M (.exactly 2)) [(P Any2)]) (P (.exactly Any2 2)),  -- 46: DEP_ASSERT_MODIFIER_CALLABLE_R(exactly<2>,(PP{}),(exactly_parser<PP, index_c<2>>{}), exactly<2>,(P{}),(exactly_parser<P, index_c<2>>{}))
    .parsersEq (tMod (P Any2) (M (.exactly 2))) (P (.exactly Any2 2)),  -- 46: DEP_ASSERT_MODIFIER_MODULO_OPERABLE_R(PP{}, exactly<2>,(exactly_parser<PP, index_c<2>>{}), P{}, exactly<2>,(exactly_parser<P, index_c<2>>{}))
    .parsersEq (tCall (M (.exactly 2)) [(P Any3)]) (P (.exactly Any3 2)),  -- 46: DEP_ASSERT_MODIFIER_CALLABLE_R(exactly<2>,(PP{}),(exactly_parser<PP, index_c<2>>{}), exactly<2>,(P{}),(exactly_parser<P, index_c<2>>{}))
    .parsersEq (tMod (P Any3) (M (.exactly 2))) (P (.exactly Any3 2)),  -- 46: DEP_ASSERT_MODIFIER_MODULO_OPERABLE_R(PP{}, exactly<2>,(exactly_parser<PP, index_c<2>>{}), P{}, exactly<2>,(exactly_parser<P, index_c<2>>{}))
    .parsersEq (tCall (M (.exactly 2)) [(P Any4)]) (P (.exactly Any4 2)),  -- 46: DEP_ASSERT_MODIFIER_CALLABLE_R(exactly<2>,(PP{}),(exactly_parser<PP, index_c<2>>{}), exactly<2>,(P{}),(exactly_parser<P, index_c<2>>{}))
    .parsersEq (tMod (P Any4) (M (.exactly 2))) (P (.exactly Any4 2)),  -- 46: DEP_ASSERT_MODIFIER_MODULO_OPERABLE_R(PP{}, exactly<2>,(exactly_parser<PP, index_c<2>>{}), P{}, exactly<2>,(exactly_parser<P, index_c<2>>{}))
    .parsersEq (tCall (M (.exactly 2)) [(P Non1)]) (P (.exactly Non1 2)),  -- 46: DEP_ASSERT_MODIFIER_CALLABLE_R(exactly<2>,(PP{}),(exactly_parser<PP, index_c<2>>{}), exactly<2>,(P{}),(exactly_parser<P, index_c<2>>{}))
    .parsersEq (tMod (P Non1) (M (.exactly 2))) (P (.exactly Non1 2)),  -- 46: DEP_ASSERT_MODIFIER_MODULO_OPERABLE_R(PP{}, exactly<2>,(exactly_parser<PP, index_c<2>>{}), P{}, exactly<2>,(exactly_parser<P, index_c<2>>{}))
    .parsersEq (tCall (M (.exactly 2)) [(P Non2)]) (P (.exactly Non2 2)),  -- 46: DEP_ASSERT_MODIFIER_CALLABLE_R(exactly<2>,(PP{}),(exactly_parser<PP, index_c<2>>{}), exactly<2>,(P{}),(exactly_parser<P, index_c<2>>{}))
    .parsersEq (tMod (P Non2) (M (.exactly 2))) (P (.exactly Non2 2)),  -- 46: DEP_ASSERT_MODIFIER_MODULO_OPERABLE_R(PP{}, exactly<2>,(exactly_parser<PP, index_c<2>>{}), P{}, exactly<2>,(exactly_parser<P, index_c<2>>{}))
    .parsersEq (tCall (M (.exactly 2)) [(P Non3)]) (P (.exactly Non3 2)),  -- 46: DEP_ASSERT_MODIFIER_CALLABLE_R(exactly<2>,(PP{}),(exactly_parser<PP, index_c<2>>{}), exactly<2>,(P{}),(exactly_parser<P, index_c<2>>{}))
    .parsersEq (tMod (P Non3) (M (.exactly 2))) (P (.exactly Non3 2)),  -- 46: DEP_ASSERT_MODIFIER_MODULO_OPERABLE_R(PP{}, exactly<2>,(exactly_parser<PP, index_c<2>>{}), P{}, exactly<2>,(exactly_parser<P, index_c<2>>{}))
    .parsersEq (tCall (M (.exactly 2)) [(P Non4)]) (P (.exactly Non4 2)),  -- 46: DEP_ASSERT_MODIFIER_CALLABLE_R(exactly<2>,(PP{}),(exactly_parser<PP, index_c<2>>{}), exactly<2>,(P{}),(exactly_parser<P, index_c<2>>{}))
    .parsersEq (tMod (P Non4) (M (.exactly 2))) (P (.exactly Non4 2)),  -- 46: DEP_ASSERT_MODIFIER_MODULO_OPERABLE_R(PP{}, exactly<2>,(exactly_parser<PP, index_c<2>>{}), P{}, exactly<2>,(exactly_parser<P, index_c<2>>{}))
    .parsersEq (tCall (M (.exactly 2)) [(P Non5)]) (P (.exactly Non5 2)),  -- 46: DEP_ASSERT_MODIFIER_CALLABLE_R(exactly<2>,(PP{}),(exactly_parser<PP, index_c<2>>{}), exactly<2>,(P{}),(exactly_parser<P, index_c<2>>{}))
    .parsersEq (tMod (P Non5) (M (.exactly 2))) (P (.exactly Non5 2)),  -- 46: DEP_ASSERT_MODIFIER_MODULO_OPERABLE_R(PP{}, exactly<2>,(exactly_parser<PP, index_c<2>>{}), P{}, exactly<2>,(exactly_parser<P, index_c<2>>{}))
    .parsersEq (tCall (M (.exactly 2)) [(P All1)]) (P (.exactly All1 2)),  -- 46: DEP_ASSERT_MODIFIER_CALLABLE_R(exactly<2>,(PP{}),(exactly_parser<PP, index_c<2>>{}), exactly<2>,(P{}),(exactly_parser<P, index_c<2>>{}))
    .parsersEq (tMod (P All1) (M (.exactly 2))) (P (.exactly All1 2)),  -- 46: DEP_ASSERT_MODIFIER_MODULO_OPERABLE_R(PP{}, exactly<2>,(exactly_parser<PP, index_c<2>>{}), P{}, exactly<2>,(exactly_parser<P, index_c<2>>{}))
    .parsersEq (tCall (M (.exactly 2)) [(P All2)]) (P (.exactly All2 2)),  -- 46: DEP_ASSERT_MODIFIER_CALLABLE_R(exactly<2>,(PP{}),(exactly_parser<PP, index_c<2>>{}), exactly<2>,(P{}),(exactly_parser<P, index_c<2>>{}))
    .parsersEq (tMod (P All2) (M (.exactly 2))) (P (.exactly All2 2)),  -- 46: DEP_ASSERT_MODIFIER_MODULO_OPERABLE_R(PP{}, exactly<2>,(exactly_parser<PP, index_c<2>>{}), P{}, exactly<2>,(exactly_parser<P, index_c<2>>{}))
    .parsersEq (tCall (M (.exactly 2)) [(P All3)]) (P (.exactly All3 2)),  -- 46: DEP_ASSERT_MODIFIER_CALLABLE_R(exactly<2>,(PP{}),(exactly_parser<PP, index_c<2>>{}), exactly<2>,(P{}),(exactly_parser<P, index_c<2>>{}))
    .parsersEq (tMod (P All3) (M (.exactly 2))) (P (.exactly All3 2)),  -- 46: DEP_ASSERT_MODIFIER_MODULO_OPERABLE_R(PP{}, exactly<2>,(exactly_parser<PP, index_c<2>>{}), P{}, exactly<2>,(exactly_parser<P, index_c<2>>{}))
    .parsersEq (tCall (M (.exactly 2)) [(P All4)]) (P (.exactly All4 2)),  -- 46: DEP_ASSERT_MODIFIER_CALLABLE_R(exactly<2>,(PP{}),(exactly_parser<PP, index_c<2>>{}), exactly<2>,(P{}),(exactly_parser<P, index_c<2>>{}))
    .parsersEq (tMod (P All4) (M (.exactly 2))) (P (.exactly All4 2)),  -- 46: DEP_ASSERT_MODIFIER_MODULO_OPERABLE_R(PP{}, exactly<2>,(exactly_parser<PP, index_c<2>>{}), P{}, exactly<2>,(exactly_parser<P, index_c<2>>{}))
    .parsersEq (tCall (M (.exactly 2)) [(P Eps1)]) (P (.exactly Eps1 2)),  -- 46: DEP_ASSERT_MODIFIER_CALLABLE_R(exactly<2>,(PP{}),(exactly_parser<PP, index_c<2>>{}), exactly<2>,(P{}),(exactly_parser<P, index_c<2>>{}))
    .parsersEq (tMod (P Eps1) (M (.exactly 2))) (P (.exactly Eps1 2))  -- 46: DEP_ASSERT_MODIFIER_MODULO_OPERABLE_R(PP{}, exactly<2>,(exactly_parser<PP, index_c<2>>{}), P{}, exactly<2>,(exactly_parser<P, index_c<2>>{}))
    ], Assertion.Holds a :=
  Assertion.holds_of_check (by decide +kernel)

/-- exactly modifier / modify anything (tests/char-tests/modifiers/exactly.cpp:46) -/
theorem charModifiersExactly_3_2 : ∀ a ∈ [
    .parsersEq (tCall (M (.exactly 2)) [(P Ant1)]) (P (.exactly Ant1 2)),  -- 46: DEP_ASSERT_MODIFIER_CALLABLE_R(exactly<2>,(PP{}),(exactly_parser<PP, index_c<2>>{}), exactly<2>,(P{}),(exactly_parser<P, index_c<2>>{}))
    .parsersEq (tMod (P Ant1) (M (.exactly 2))) (P (.exactly Ant1 2)),  -- 46: DEP_ASSERT_MODIFIER_MODULO_OPERABLE_R(PP{}, exactly<2>,(exactly_parser<PP, index_c<2>>{}), P{}, exactly<2>,(exactly_parser<P, index_c<2>>{}))
    .parsersEq (tCall (M (.exactly 2)) [(P QQ)]) (P (.exactly QQ 2)),  -- 46: DEP_ASSERT_MODIFIER_CALLABLE_R(exactly<2>,(PP{}),(exactly_parser<PP, index_c<2>>{}), exactly<2>,(P{}),(exactly_parser<P, index_c<2>>{}))
    .parsersEq (tMod (P QQ) (M (.exactly 2))) (P (.exactly QQ 2)),  -- 46: DEP_ASSERT_MODIFIER_MODULO_OPERABLE_R(PP{}, exactly<2>,(exactly_parser<PP, index_c<2>>{}), P{}, exactly<2>,(exactly_parser<P, index_c<2>>{}))
    .parsersEq (tCall (M (.exactly 2)) [(P ABC)]) (P (.exactly ABC 2)),  -- 46: DEP_ASSERT_MODIFIER_CALLABLE_R(exactly<2>,(PP{}),(exactly_parser<PP, index_c<2>>{}), exactly<2>,(P{}),(exactly_parser<P, index_c<2>>{}))
    .parsersEq (tMod (P ABC) (M (.exactly 2))) (P (.exactly ABC 2)),  -- 46: DEP_ASSERT_MODIFIER_MODULO_OPERABLE_R(PP{}, exactly<2>,(exactly_parser<PP, index_c<2>>{}), P{}, exactly<2>,(exactly_parser<P, index_c<2>>{}))
    .parsersEq (tCall (M (.exactly 2)) [(P Comma)]) (P (.exactly Comma 2)),  -- 46: DEP_ASSERT_MODIFIER_CALLABLE_R(exactly<2>,(PP{}),(exactly_parser<PP, index_c<2>>{}), exactly<2>,(P{}),(exactly_parser<P, index_c<2>>{}))
    .parsersEq (tMod (P Comma) (M (.exactly 2))) (P (.exactly Comma 2)),  -- 46: DEP_ASSERT_MODIFIER_MODULO_OPERABLE_R(PP{}, exactly<2>,(exactly_parser<PP, index_c<2>>{}), P{}, exactly<2>,(exactly_parser<P, index_c<2>>{}))
    .parsersEq (tCall (M (.exactly 2)) [(P SpaceDot)]) (P (.exactly SpaceDot 2)),  -- 46: DEP_ASSERT_MODIFIER_CALLABLE_R(exactly<2>,(PP{}),(exactly_parser<PP, index_c<2>>{}), exactly<2>,(P{}),(exactly_parser<P, index_c<2>>{}))
    .parsersEq (tMod (P SpaceDot) (M (.exactly 2))) (P (.exactly SpaceDot 2)),  -- 46: DEP_ASSERT_MODIFIER_MODULO_OPERABLE_R(PP{}, exactly<2>,(exactly_parser<PP, index_c<2>>{}), P{}, exactly<2>,(exactly_parser<P, index_c<2>>{}))
    .parsersEq (tCall (M (.exactly 2)) [(P Cho1)]) (P (.exactly Cho1 2)),  -- 46: DEP_ASSERT_MODIFIER_CALLABLE_R(exactly<2>,(PP{}),(exactly_parser<PP, index_c<2>>{}), exactly<2>,(P{}),(exactly_parser<P, index_c<2>>{}))
    .parsersEq (tMod (P Cho1) (M (.exactly 2))) (P (.exactly Cho1 2)),  -- 46: DEP_ASSERT_MODIFIER_MODULO_OPERABLE_R(PP{}, exactly<2>,(exactly_parser<PP, index_c<2>>{}), P{}, exactly<2>,(exactly_parser<P, index_c<2>>{}))
    .parsersEq (tCall (M (.exactly 2)) [(P Cho2)]) (P (.exactly Cho2 2)),  -- 46: DEP_ASSERT_MODIFIER_CALLABLE_R(exactly<2>,(PP{}),(exactly_parser<PP, index_c<2>>{}), exactly<2>,(P{}),(exactly_parser<P, index_c<2>>{}))
    .parsersEq (tMod (P Cho2) (M (.exactly 2))) (P (.exactly Cho2 2)),  -- 46: DEP_ASSERT_MODIFIER_MODULO_OPERABLE_R(PP{}, exactly<2>,(exactly_parser<PP, index_c<2>>{}), P{}, exactly<2>,(exactly_parser<P, index_c<2>>{}))
    .parsersEq (tCall (M (.exactly 2)) [(P Cho3)]) (P (.exactly Cho3 2)),  -- 46: DEP_ASSERT_MODIFIER_CALLABLE_R(exactly<2>,(PP{}),(exactly_parser<PP, index_c<2>>{}), exactly<2>,(P{}),(exactly_parser<P, index_c<2>>{}))
    .parsersEq (tMod (P Cho3) (M (.exactly 2))) (P (.exactly Cho3 2)),  -- 46: DEP_ASSERT_MODIFIER_MODULO_OPERABLE_R(PP{}, exactly<2>,(exactly_parser<PP, index_c<2>>{}), P{}, exactly<2>,(exactly_parser<P, index_c<2>>{}))
    .parsersEq (tCall (M (.exactly 2)) [(P Cho4)]) (P (.exactly Cho4 2)),  -- 46: DEP_ASSERT_MODIFIER_CALLABLE_R(exactly<2>,(PP{}),(exactly_parser<PP, index_c<2>>{}), exactly<2>,(P{}),(exactly_parser<P, index_c<2>>{}))
    .parsersEq (tMod (P Cho4) (M (.exactly 2))) (P (.exactly Cho4 2)),  -- 46: DEP_ASSERT_MODIFIER_MODULO_OPERABLE_R(PP{}, exactly<2>,(exactly_parser<PP, index_c<2>>{}), P{}, exactly<2>,(exactly_parser<P, index_c<2>>{}))
    .parsersEq (tCall (M (.exactly 2)) [(P Cho5)]) (P (.exactly Cho5 2)),  -- 46: DEP_ASSERT_MODIFIER_CALLABLE_R(exactly<2>,(PP{}),(exactly_parser<PP, index_c<2>>{}), exactly<2>,(P{}),(exactly_parser<P, index_c<2>>{}))
    .parsersEq (tMod (P Cho5) (M (.exactly 2))) (P (.exactly Cho5 2)),  -- 46: DEP_ASSERT_MODIFIER_MODULO_OPERABLE_R(PP{}, exactly<2>,(exactly_parser<PP, index_c<2>>{}), P{}, exactly<2>,(exactly_parser<P, index_c<2>>{}))
    .parsersEq (tCall (M (.exactly 2)) [(P Seq1)]) (P (.exactly Seq1 2)),  -- 46: DEP_ASSERT_MODIFIER_CALLABLE_R(exactly<2>,(PP{}),(exactly_parser<PP, index_c<2>>{}), exactly<2>,(P{}),(exactly_parser<P, index_c<2>>{}))
    .parsersEq (tMod (P Seq1) (M (.exactly 2))) (P (.exactly Seq1 2)),  -- 46: DEP_ASSERT_MODIFIER_MODULO_OPERABLE_R(PP{}, exactly<2>,(exactly_parser<PP, index_c<2>>{}), P{}, exactly<2>,(exactly_parser<P, index_c<2>>{}))
    .parsersEq (tCall (M (.exactly 2)) [(P Seq2)]) (P (.exactly Seq2 2)),  -- 46: DEP_ASSERT_MODIFIER_CALLABLE_R(exactly<2>,(PP{}),(exactly_parser<PP, index_c<2>>{}), exactly<2>,(P{}),(exactly_parser<P, index_c<2>>{}))
    .parsersEq (tMod (P Seq2) (M (.exactly 2))) (P (.exactly Seq2 2)),  -- 46: DEP_ASSERT_MODIFIER_MODULO_OPERABLE_R(PP{}, exactly<2>,(exactly_parser<PP, index_c<2>>{}), P{}, exactly<2>,(exactly_parser<P, index_c<2>>{}))
    .parsersEq (tCall (M (.exactly 2)) [(P Seq3)]) (P (.exactly Seq3 2)),  -- 46: DEP_ASSERT_MODIFIER_CALLABLE_R(exactly<2>,(PP{}),(exactly_parser<PP, index_c<2>>{}), exactly<2>,(P{}),(exactly_parser<P, index_c<2>>{}))
    .parsersEq (tMod (P Seq3) (M (.exactly 2))) (P (.exactly Seq3 2)),  -- 46: DEP_ASSERT_MODIFIER_MODULO_OPERABLE_R(PP{}, exactly<2>,(exactly_parser<PP, index_c<2>>{}), P{}, exactly<2>,(exactly_parser<P, index_c<2>>{}))
    .parsersEq (tCall (M (.exactly 2)) [(P Seq4)]) (P (.exactly Seq4 2)),  -- 46: DEP_ASSERT_MODIFIER_CALLABLE_R(exactly<2>,(PP{}),(exactly_parser<PP, index_c<2>>{}), exactly<2>,(P{}),(exactly_parser<P, index_c<2>>{}))
    .parsersEq (tMod (P Seq4) (M (.exactly 2))) (P (.exactly Seq4 2)),  -- 46: DEP_ASSERT_MODIFIER_MODULO_OPERABLE_R(PP{}, exactly<2>,(exactly_parser<PP, index_c<2>>{}), P{}, exactly<2>,(exactly_parser<P, index_c<2>>{}))
    .parsersEq (tCall (M (.exactly 2)) [(P Seq5)]) (P (.exactly Seq5 2)),  -- 46: DEP_ASSERT_MODIFIER_CALLABLE_R(exactly<2>,(PP{}),(exactly_parser<PP, index_c<2>>{}), exactly<2>,(P{}),(exactly_parser<P, index_c<2>>{}))
    .parsersEq (tMod (P Seq5) (M (.exactly 2))) (P (.exactly Seq5 2)),  -- 46: DEP_ASSERT_MODIFIER_MODULO_OPERABLE_R(PP{}, exactly<2>,(exactly_parser<PP, index_c<2>>{}), P{}, exactly<2>,(exactly_parser<P, index_c<2>>{}))
    .parsersEq (tCall (M (.exactly 2)) [(P Joi1)]) (P (.exactly Joi1 2)),  -- 46: DEP_ASSERT_MODIFIER_CALLABLE_R(exactly<2>,(PP{}),(exactly_parser<PP, index_c<2>>{}), exactly<2>,(P{}),(exactly_parser<P, index_c<2>>{}))
    .parsersEq (tMod (P Joi1) (M (.exactly 2))) (P (.exactly Joi1 2)),  -- 46: DEP_ASSERT_MODIFIER_MODULO_OPERABLE_R(PP{}, exactly<2>,(exactly_parser<PP, index_c<2>>{}), P{}, exactly<2>,(exactly_parser<P, index_c<2>>{}))
    .parsersEq (tCall (M (.exactly 2)) [(P Joi2)]) (P (.exactly Joi2 2)),  -- 46: DEP_ASSERT_MODIFIER_CALLABLE_R(exactly<2>,(PP{}),(exactly_parser<PP, index_c<2>>{}), exactly<2>,(P{}),(exactly_parser<P, index_c<2>>{}))
    .parsersEq (tMod (P Joi2) (M (.exactly 2))) (P (.exactly Joi2 2)),  -- 46: DEP_ASSERT_MODIFIER_MODULO_OPERABLE_R(PP{}, exactly<2>,(exactly_parser<PP, index_c<2>>{}), P{}, exactly<2>,(exactly_parser<P, index_c<2>>{}))
    .parsersEq (tCall (M (.exactly 2)) [(P Joi3)]) (P (.exactly Joi3 2)),  -- 46: DEP_ASSERT_MODIFIER_CALLABLE_R(exactly<2>,(PP{}),(exactly_parser<PP, index_c<2>>{}), exactly<2>,(P{}),(exactly_parser<P, index_c<2>>{}))
    .parsersEq (tMod (P Joi3) (M (.exactly 2))) (P (.exactly Joi3 2)),  -- 46: DEP_ASSERT_MODIFIER_MODULO_OPERABLE_R(PP{}, exactly<2>,(exactly_parser<PP, index_c<2>>{}), P{}, exactly<2>,(exactly_parser<P, index_c<2>>{}))
    .parsersEq (tCall (M (.exactly 2)) [(P Joi4)]) (P (.exactly Joi4 2)),  -- 46: DEP_ASSERT_MODIFIER_CALLABLE_R(exactly<2>,(PP{}),(exactly_parser<PP, index_c<2>>{}), exactly<2>,(P{}),(exactly_parser<P, index_c<2>>{}))
    .parsersEq (tMod (P Joi4) (M (.exactly 2))) (P (.exactly Joi4 2)),  -- 46: DEP_ASSERT_MODIFIER_MODULO_OPERABLE_R(PP{}, exactly<2>,(exactly_parser<PP, index_c<2>>{}), P{}, exactly<2>,(exactly_parser<P, index_c<2>>{}))
    .parsersEq (tCall (M (.exactly 2)) [(P Joi5)]) (P (.exactly Joi5 2)),  -- 46: DEP_ASSERT_MODIFIER_CALLABLE_R(exactly<2>,(PP{}),(exactly_parser<PP, index_c<2>>{}), exactly<2>,(P{}),(exactly_parser<P, index_c<2>>{}))
    .parsersEq (tMod (P Joi5) (M (.exactly 2))) (P (.exactly Joi5 2)),  -- 46: DEP_ASSERT_MODIFIER_MODULO_OPERABLE_R(PP{}, exactly<2>,(exactly_parser<PP, index_c<2>>{}), P{}, exactly<2>,(exactly_parser<P, index_c<2>>{}))
    .parsersEq (tCall (M (.exactly 2)) [(P Map1)]) (P (.exactly Map1 2)),  -- 46: DEP_ASSERT_MODIFIER_CALLABLE_R(exactly<2>,(PP{}),(exactly_parser<PP, index_c<2>>{}), exactly<2>,(P{}),(exactly_parser<P, index_c<2>>{}))
    .parsersEq (tMod (P Map1) (M (.exactly 2))) (P (.exactly Map1 2)),  -- 46: DEP_ASSERT_MODIFIER_MODULO_OPERABLE_R(PP{}, exactly<2>,(exactly_parser<PP, index_c<2>>{}), P{}, exactly<2>,(exactly_parser<P, index_c<2>>{}))
    .parsersEq (tCall (M (.exactly 2)) [(P Map2)]) (P (.exactly Map2 2)),  -- 46: DEP_ASSERT_MODIFIER_CALLABLE_R(exactly<2>,(PP{}),(exactly_parser<PP, index_c<2>>{}), exactly<2>,(P{}),(exactly_parser<P, index_c<2>>{}))
    .parsersEq (tMod (P Map2) (M (.exactly 2))) (P (.exactly Map2 2)),  -- 46: DEP_ASSERT_MODIFIER_MODULO_OPERABLE_R(PP{}, exactly<2>,(exactly_parser<PP, index_c<2>>{}), P{}, exactly<2>,(exactly_parser<P, index_c<2>>{}))
    .parsersEq (tCall (M (.exactly 2)) [(P Map3)]) (P (.exactly Map3 2)),  -- 46: DEP_ASSERT_MODIFIER_CALLABLE_R(exactly<2>,(PP{}),(exactly_parser<PP, index_c<2>>{}), exactly<2>,(P{}),(exactly_parser<P, index_c<2>>{}))
    .parsersEq (tMod (P Map3) (M (.exactly 2))) (P (.exactly Map3 2)),  -- 46: DEP_ASSERT_MODIFIER_MODULO_OPERABLE_R(PP{}, exactly<2>,(exactly_parser<PP, index_c<2>>{}), P{}, exactly<2>,(exactly_parser<P, index_c<2>>{}))
    .parsersEq (tCall (M (.exactly 2)) [(P Map4)]) (P (.exactly Map4 2)),  -- 46: DEP_ASSERT_MODIFIER_CALLABLE_R(exactly<2>,(PP{}),(exactly_parser<PP, index_c<2>>{}), exactly<2>,(P{}),(exactly_parser<P, index_c<2>>{}))
    .parsersEq (tMod (P Map4) (M (.exactly 2))) (P (.exactly Map4 2)),  -- 46: DEP_ASSERT_MODIFIER_MODULO_OPERABLE_R(PP{}, exactly<2>,(exactly_parser<PP, index_c<2>>{}), P{}, exactly<2>,(exactly_parser<P, index_c<2>>{}))
    .parsersEq (tCall (M (.exactly 2)) [(P Fil1)]) (P (.exactly Fil1 2)),  -- 46: DEP_ASSERT_MODIFIER_CALLABLE_R(exactly<2>,(PP{}),(exactly_parser<PP, index_c<2>>{}), exactly<2>,(P{}),(exactly_parser<P, index_c<2>>{}))
    .parsersEq (tMod (P Fil1) (M (.exactly 2))) (P (.exactly Fil1 2)),  -- 46: DEP_ASSERT_MODIFIER_MODULO_OPERABLE_R(PP{}, exactly<2>,(exactly_parser<PP, index_c<2>>{}), P{}, exactly<2>,(exactly_parser<P, index_c<2>>{}))
    .parsersEq (tCall (M (.exactly 2)) [(P Fil2)]) (P (.exactly Fil2 2)),  -- 46: DEP_ASSERT_MODIFIER_CALLABLE_R(exactly<2>,(PP{}),(exactly_parser<PP, index_c<2>>{}), exactly<2>,(P{}),(exactly_parser<P, index_c<2>>{}))
    .parsersEq (tMod (P Fil2) (M (.exactly 2))) (P (.exactly Fil2 2)),  -- 46: DEP_ASSERT_MODIFIER_MODULO_OPERABLE_R(PP{}, exactly<2>,(exactly_parser<PP, index_c<2>>{}), P{}, exactly<2>,(exactly_parser<P, index_c<2>>{}))
    .parsersEq (tCall (M (.exactly 2)) [(P Fil3)]) (P (.exactly Fil3 2)),  -- 46: DEP_ASSERT_MODIFIER_CALLABLE_R(exactly<2>,(PP{}),(exactly_parser<PP, index_c<2>>{}), exactly<2>,(P{}),(exactly_parser<P, index_c<2>>{}))
    .parsersEq (tMod (P Fil3) (M (.exactly 2))) (P (.exactly Fil3 2)),  -- 46: DEP_ASSERT_MODIFIER_MODULO_OPERABLE_R(PP{}, exactly<2>,(exactly_parser<PP, index_c<2>>{}), P{}, exactly<2>,(exactly_parser<P, index_c<2>>{}))
    .parsersEq (tCall (M (.exactly 2)) [(P Apm1)]) (P (.exactly Apm1 2)),  -- 46: DEP_ASSERT_MODIFIER_CALLABLE_R(exactly<2>,(PP{}),(exactly_parser<PP, index_c<2>>{}), exactly<2>,(P{}),(exactly_parser<P, index_c<2>>{}))
    .parsersEq (tMod (P Apm1) (M (.exactly 2))) (P (.exactly Apm1 2)),  -- 46: DEP_ASSERT_MODIFIER_MODULO_OPERABLE_R(PP{}, exactly<2>,(exactly_parser<PP, index_c<2>>{}), P{}, exactly<2>,(exactly_parser<P, index_c<2>>{}))
    .parsersEq (tCall (M (.exactly 2)) [(P Apm2)]) (P (.exactly Apm2 2)),  -- 46: DEP_ASSERT_MODIFIER_CALLABLE_R(exactly<2>,(PP{}),(exactly_parser<PP, index_c<2>>{}), exactly<2>,(P{}),(exactly_parser<P, index_c<2>>{}))
    .parsersEq (tMod (P Apm2) (M (.exactly 2))) (P (.exactly Apm2 2)),  -- 46: DEP_ASSERT_MODIFIER_MODULO_OPERABLE_R(PP{}, exactly<2>,(exactly_parser<PP, index_c<2>>{}), P{}, exactly<2>,(exactly_parser<P, index_c<2>>{}))
    .parsersEq (tCall (M (.exactly 2)) [(P Apf1)]) (P (.exactly Apf1 2)),  -- 46: DEP_ASSERT_MODIFIER_CALLABLE_R(exactly<2>,(PP{}),(exactly_parser<PP, index_c<2>>{}), exactly<2>,(P{}),(exactly_parser<P, index_c<2>>{}))
    .parsersEq (tMod (P Apf1) (M (.exactly 2))) (P (.exactly Apf1 2))  -- 46: DEP_ASSERT_MODIFIER_MODULO_OPERABLE_R(PP{}, exactly<2>,(exactly_parser<PP, index_c<2>>{}), P{}, exactly<2>,(exactly_parser<P, index_c<2>>{}))
    ], Assertion.Holds a :=
  Assertion.holds_of_check (by decide +kernel)

/-- exactly modifier / modify anything (tests/char-tests/modifiers/exactly.cpp:46) -/
theorem charModifiersExactly_3_3 : ∀ a ∈ [
    .parsersEq (tCall (M (.exactly 2)) [(P Int1)]) (P (.exactly Int1 2)),  -- 46: DEP_ASSERT_MODIFIER_CALLABLE_R(exactly<2>,(PP{}),(exactly_parser<PP, index_c<2>>{}), exactly<2>,(P{}),(exactly_parser<P, index_c<2>>{}))
    .parsersEq (tMod (P Int1) (M (.exactly 2))) (P (.exactly Int1 2)),  -- 46: DEP_ASSERT_MODIFIER_MODULO_OPERABLE_R(PP{}, exactly<2>,(exactly_parser<PP, index_c<2>>{}), P{}, exactly<2>,(exactly_parser<P, index_c<2>>{}))
    .parsersEq (tCall (M (.exactly 2)) [(P Int2)]) (P (.exactly Int2 2)),  -- 46: DEP_ASSERT_MODIFIER_CALLABLE_R(exactly<2>,(PP{}),(exactly_parser<PP, index_c<2>>{}), exactly<2>,(P{}),(exactly_parser<P, index_c<2>>{}))
    .parsersEq (tMod (P Int2) (M (.exactly 2))) (P (.exactly Int2 2)),  -- 46: DEP_ASSERT_MODIFIER_MODULO_OPERABLE_R(PP{}, exactly<2>,(exactly_parser<PP, index_c<2>>{}), P{}, exactly<2>,(exactly_parser<P, index_c<2>>{}))
    .parsersEq (tCall (M (.exactly 2)) [(P Int3)]) (P (.exactly Int3 2)),  -- 46: DEP_ASSERT_MODIFIER_CALLABLE_R(exactly<2>,(PP{}),(exactly_parser<PP, index_c<2>>{}), exactly<2>,(P{}),(exactly_parser<P, index_c<2>>{}))
    .parsersEq (tMod (P Int3) (M (.exactly 2))) (P (.exactly Int3 2)),  -- 46: DEP_ASSERT_MODIFIER_MODULO_OPERABLE_R(PP{}, exactly<2>,(exactly_parser<PP, index_c<2>>{}), P{}, exactly<2>,(exactly_parser<P, index_c<2>>{}))
    .parsersEq (tCall (M (.exactly 2)) [(P Api1)]) (P (.exactly Api1 2)),  -- 46: DEP_ASSERT_MODIFIER_CALLABLE_R(exactly<2>,(PP{}),(exactly_parser<PP, index_c<2>>{}), exactly<2>,(P{}),(exactly_parser<P, index_c<2>>{}))
    .parsersEq (tMod (P Api1) (M (.exactly 2))) (P (.exactly Api1 2)),  -- 46: DEP_ASSERT_MODIFIER_MODULO_OPERABLE_R(PP{}, exactly<2>,(exactly_parser<PP, index_c<2>>{}), P{}, exactly<2>,(exactly_parser<P, index_c<2>>{}))
    .parsersEq (tCall (M (.exactly 2)) [(P Api2)]) (P (.exactly Api2 2)),  -- 46: DEP_ASSERT_MODIFIER_CALLABLE_R(exactly<2>,(PP{}),(exactly_parser<PP, index_c<2>>{}), exactly<2>,(P{}),(exactly_parser<P, index_c<2>>{}))
    .parsersEq (tMod (P Api2) (M (.exactly 2))) (P (.exactly Api2 2)),  -- 46: DEP_ASSERT_MODIFIER_MODULO_OPERABLE_R(PP{}, exactly<2>,(exactly_parser<PP, index_c<2>>{}), P{}, exactly<2>,(exactly_parser<P, index_c<2>>{}))
    .parsersEq (tCall (M (.exactly 2)) [(P Con1)]) (P (.exactly Con1 2)),  -- 46: DEP_ASSERT_MODIFIER_CALLABLE_R(exactly<2>,(PP{}),(exactly_parser<PP, index_c<2>>{}), exactly<2>,(P{}),(exactly_parser<P, index_c<2>>{}))
    .parsersEq (tMod (P Con1) (M (.exactly 2))) (P (.exactly Con1 2)),  -- 46: DEP_ASSERT_MODIFIER_MODULO_OPERABLE_R(PP{}, exactly<2>,(exactly_parser<PP, index_c<2>>{}), P{}, exactly<2>,(exactly_parser<P, index_c<2>>{}))
    .parsersEq (tCall (M (.exactly 2)) [(P Con2)]) (P (.exactly Con2 2)),  -- 46: DEP_ASSERT_MODIFIER_CALLABLE_R(exactly<2>,(PP{}),(exactly_parser<PP, index_c<2>>{}), exactly<2>,(P{}),(exactly_parser<P, index_c<2>>{}))
    .parsersEq (tMod (P Con2) (M (.exactly 2))) (P (.exactly Con2 2)),  -- 46: DEP_ASSERT_MODIFIER_MODULO_OPERABLE_R(PP{}, exactly<2>,(exactly_parser<PP, index_c<2>>{}), P{}, exactly<2>,(exactly_parser<P, index_c<2>>{}))
    .parsersEq (tCall (M (.exactly 2)) [(P Con3)]) (P (.exactly Con3 2)),  -- 46: DEP_ASSERT_MODIFIER_CALLABLE_R(exactly<2>,(PP{}),(exactly_parser<PP, index_c<2>>{}), exactly<2>,(P{}),(exactly_parser<P, index_c<2>>{}))
    .parsersEq (tMod (P Con3) (M (.exactly 2))) (P (.exactly Con3 2)),  -- 46: DEP_ASSERT_MODIFIER_MODULO_OPERABLE_R(PP{}, exactly<2>,(exactly_parser<PP, index_c<2>>{}), P{}, exactly<2>,(exactly_parser<P, index_c<2>>{}))
    .parsersEq (tCall (M (.exactly 2)) [(P Con4)]) (P (.exactly Con4 2)),  -- 46: DEP_ASSERT_MODIFIER_CALLABLE_R(exactly<2>,(PP{}),(exactly_parser<PP, index_c<2>>{}), exactly<2>,(P{}),(exactly_parser<P, index_c<2>>{}))
    .parsersEq (tMod (P Con4) (M (.exactly 2))) (P (.exactly Con4 2)),  -- 46: DEP_ASSERT_MODIFIER_MODULO_OPERABLE_R(PP{}, exactly<2>,(exactly_parser<PP, index_c<2>>{}), P{}, exactly<2>,(exactly_parser<P, index_c<2>>{}))
    .parsersEq (tCall (M (.exactly 2)) [(P Def1)]) (P (.exactly Def1 2)),  -- 46: DEP_ASSERT_MODIFIER_CALLABLE_R(exactly<2>,(PP{}),(exactly_parser<PP, index_c<2>>{}), exactly<2>,(P{}),(exactly_parser<P, index_c<2>>{}))
    .parsersEq (tMod (P Def1) (M (.exactly 2))) (P (.exactly Def1 2)),  -- 46: DEP_ASSERT_MODIFIER_MODULO_OPERABLE_R(PP{}, exactly<2>,(exactly_parser<PP, index_c<2>>{}), P{}, exactly<2>,(exactly_parser<P, index_c<2>>{}))
    .parsersEq (tCall (M (.exactly 2)) [(P Def2)]) (P (.exactly Def2 2)),  -- 46: DEP_ASSERT_MODIFIER_CALLABLE_R(exactly<2>,(PP{}),(exactly_parser<PP, index_c<2>>{}), exactly<2>,(P{}),(exactly_parser<P, index_c<2>>{}))
    .parsersEq (tMod (P Def2) (M (.exactly 2))) (P (.exactly Def2 2)),  -- 46: DEP_ASSERT_MODIFIER_MODULO_OPERABLE_R(PP{}, exactly<2>,(exactly_parser<PP, index_c<2>>{}), P{}, exactly<2>,(exactly_parser<P, index_c<2>>{}))
    .parsersEq (tCall (M (.exactly 2)) [(P (.custom 0))]) (P (.exactly (.custom 0) 2)),  -- 46: DEP_ASSERT_MODIFIER_CALLABLE_R(exactly<2>,(PP{}),(exactly_parser<PP, index_c<2>>{}), exactly<2>,(P{}),(exactly_parser<P, index_c<2>>{}))
    .parsersEq (tMod (P (.custom 0)) (M (.exactly 2))) (P (.exactly (.custom 0) 2)),  -- 46: DEP_ASSERT_MODIFIER_MODULO_OPERABLE_R(PP{}, exactly<2>,(exactly_parser<PP, index_c<2>>{}), P{}, exactly<2>,(exactly_parser<P, index_c<2>>{}))
    .parsersEq (tCall (M (.exactly 2)) [(P (.custom 1))]) (P (.exactly (.custom 1) 2)),  -- 46: DEP_ASSERT_MODIFIER_CALLABLE_R(exactly<2>,(PP{}),(exactly_parser<PP, index_c<2>>{}), exactly<2>,(P{}),(exactly_parser<P, index_c<2>>{}))
    .parsersEq (tMod (P (.custom 1)) (M (.exactly 2))) (P (.exactly (.custom 1) 2)),  -- 46: DEP_ASSERT_MODIFIER_MODULO_OPERABLE_R(PP{}, exactly<2>,(exactly_parser<PP, index_c<2>>{}), P{}, exactly<2>,(exactly_parser<P, index_c<2>>{}))
    .parsersEq (tCall (M (.exactly 2)) [(P May1)]) (P (.exactly May1 2)),  -- 46: DEP_ASSERT_MODIFIER_CALLABLE_R(exactly<2>,(PP{}),(exactly_parser<PP, index_c<2>>{}), exactly<2>,(P{}),(exactly_parser<P, index_c<2>>{}))
    .parsersEq (tMod (P May1) (M (.exactly 2))) (P (.exactly May1 2)),  -- 46: DEP_ASSERT_MODIFIER_MODULO_OPERABLE_R(PP{}, exactly<2>,(exactly_parser<PP, index_c<2>>{}), P{}, exactly<2>,(exactly_parser<P, index_c<2>>{}))
    .parsersEq (tCall (M (.exactly 2)) [(P May2)]) (P (.exactly May2 2)),  -- 46: DEP_ASSERT_MODIFIER_CALLABLE_R(exactly<2>,(PP{}),(exactly_parser<PP, index_c<2>>{}), exactly<2>,(P{}),(exactly_parser<P, index_c<2>>{}))
    .parsersEq (tMod (P May2) (M (.exactly 2))) (P (.exactly May2 2)),  -- 46: DEP_ASSERT_MODIFIER_MODULO_OPERABLE_R(PP{}, exactly<2>,(exactly_parser<PP, index_c<2>>{}), P{}, exactly<2>,(exactly_parser<P, index_c<2>>{}))
    .parsersEq (tCall (M (.exactly 2)) [(P May3)]) (P (.exactly May3 2)),  -- 46: DEP_ASSERT_MODIFIER_CALLABLE_R(exactly<2>,(PP{}),(exactly_parser<PP, index_c<2>>{}), exactly<2>,(P{}),(exactly_parser<P, index_c<2>>{}))
    .parsersEq (tMod (P May3) (M (.exactly 2))) (P (.exactly May3 2)),  -- 46: DEP_ASSERT_MODIFIER_MODULO_OPERABLE_R(PP{}, exactly<2>,(exactly_parser<PP, index_c<2>>{}), P{}, exactly<2>,(exactly_parser<P, index_c<2>>{}))
    .parsersEq (tCall (M (.exactly 2)) [(P May4)]) (P (.exactly May4 2)),  -- 46: DEP_ASSERT_MODIFIER_CALLABLE_R(exactly<2>,(PP{}),(exactly_parser<PP, index_c<2>>{}), exactly<2>,(P{}),(exactly_parser<P, index_c<2>>{}))
    .parsersEq (tMod (P May4) (M (.exactly 2))) (P (.exactly May4 2)),  -- 46: DEP_ASSERT_MODIFIER_MODULO_OPERABLE_R(PP{}, exactly<2>,(exactly_parser<PP, index_c<2>>{}), P{}, exactly<2>,(exactly_parser<P, index_c<2>>{}))
    .parsersEq (tCall (M (.exactly 2)) [(P Exa1)]) (P (.exactly Exa1 2)),  -- 46: DEP_ASSERT_MODIFIER_CALLABLE_R(exactly<2>,(PP{}),(exactly_parser<PP, index_c<2>>{}), exactly<2>,(P{}),(exactly_parser<P, index_c<2>>{}))
    .parsersEq (tMod (P Exa1) (M (.exactly 2))) (P (.exactly Exa1 2)),  -- 46: DEP_ASSERT_MODIFIER_MODULO_OPERABLE_R(PP{}, exactly<2>,(exactly_parser<PP, index_c<2>>{}), P{}, exactly<2>,(exactly_parser<P, index_c<2>>{}))
    .parsersEq (tCall (M (.exactly 2)) [(P Exa2)]) (P (.exactly Exa2 2)),  -- 46: DEP_ASSERT_MODIFIER_CALLABLE_R(exactly<2>,(PP{}),(exactly_parser<PP, index_c<2>>{}), exactly<2>,(P{}),(exactly_parser<P, index_c<2>>{}))
    .parsersEq (tMod (P Exa2) (M (.exactly 2))) (P (.exactly Exa2 2)),  -- 46: DEP_ASSERT_MODIFIER_MODULO_OPERABLE_R(PP{}, exactly<2>,(exactly_parser<PP, index_c<2>>{}), P{}, exactly<2>,(exactly_parser<P, index_c<2>>{}))
    .parsersEq (tCall (M (.exactly 2)) [(P Exa3)]) (P (.exactly Exa3 2)),  -- 46: DEP_ASSERT_MODIFIER_CALLABLE_R(exactly<2>,(PP{}),(exactly_parser<PP, index_c<2>>{}), exactly<2>,(P{}),(exactly_parser<P, index_c<2>>{}))
    .parsersEq (tMod (P Exa3) (M (.exactly 2))) (P (.exactly Exa3 2)),  -- 46: DEP_ASSERT_MODIFIER_MODULO_OPERABLE_R(PP{}, exactly<2>,(exactly_parser<PP, index_c<2>>{}), P{}, exactly<2>,(exactly_parser<P, index_c<2>>{}))
    .parsersEq (tCall (M (.exactly 2)) [(P Exa4)]) (P (.exactly Exa4 2)),  -- 46: DEP_ASSERT_MODIFIER_CALLABLE_R(exactly<2>,(PP{}),(exactly_parser<PP, index_c<2>>{}), exactly<2>,(P{}),(exactly_parser<P, index_c<2>>{}))
    .parsersEq (tMod (P Exa4) (M (.exactly 2))) (P (.exactly Exa4 2)),  -- 46: DEP_ASSERT_MODIFIER_MODULO_OPERABLE_R(PP{}, exactly<2>,(exactly_parser<PP, index_c<2>>{}), P{}, exactly<2>,(exactly_parser<P, index_c<2>>{}))
    .parsersEq (tCall (M (.exactly 2)) [(P Oom1)]) (P (.exactly Oom1 2)),  -- 46: DEP_ASSERT_MODIFIER_CALLABLE_R(exactly<2>,(PP{}),(exactly_parser<PP, index_c<2>>{}), exactly<2>,(P{}),(exactly_parser<P, index_c<2>>{}))
    .parsersEq (tMod (P Oom1) (M (.exactly 2))) (P (.exactly Oom1 2)),  -- 46: DEP_ASSERT_MODIFIER_MODULO_OPERABLE_R(PP{}, exactly<2>,(exactly_parser<PP, index_c<2>>{}), P{}, exactly<2>,(exactly_parser<P, index_c<2>>{}))
    .parsersEq (tCall (M (.exactly 2)) [(P Oom2)]) (P (.exactly Oom2 2)),  -- 46: DEP_ASSERT_MODIFIER_CALLABLE_R(exactly<2>,(PP{}),(exactly_parser<PP, index_c<2>>{}), exactly<2>,(P{}),(exactly_parser<P, index_c<2>>{}))
    .parsersEq (tMod (P Oom2) (M (.exactly 2))) (P (.exactly Oom2 2)),  -- 46: DEP_ASSERT_MODIFIER_MODULO_OPERABLE_R(PP{}, exactly<2>,(exactly_parser<PP, index_c<2>>{}), P{}, exactly<2>,(exactly_parser<P, index_c<2>>{}))
    .parsersEq (tCall (M (.exactly 2)) [(P Oom3)]) (P (.exactly Oom3 2)),  -- 46: DEP_ASSERT_MODIFIER_CALLABLE_R(exactly<2>,(PP{}),(exactly_parser<PP, index_c<2>>{}), exactly<2>,(P{}),(exactly_parser<P, index_c<2>>{}))
    .parsersEq (tMod (P Oom3) (M (.exactly 2))) (P (.exactly Oom3 2)),  -- 46: DEP_ASSERT_MODIFIER_MODULO_OPERABLE_R(PP{}, exactly<2>,(exactly_parser<PP, index_c<2>>{}), P{}, exactly<2>,(exactly_parser<P, index_c<2>>{}))
    .parsersEq (tCall (M (.exactly 2)) [(P Oom4)]) (P (.exactly Oom4 2)),  -- 46: DEP_ASSERT_MODIFIER_CALLABLE_R(exactly<2>,(PP{}),(exactly_parser<PP, index_c<2>>{}), exactly<2>,(P{}),(exactly_parser<P, index_c<2>>{}))
    .parsersEq (tMod (P Oom4) (M (.exactly 2))) (P (.exactly Oom4 2)),  -- 46: DEP_ASSERT_MODIFIER_MODULO_OPERABLE_R(PP{}, exactly<2>,(exactly_parser<PP, index_c<2>>{}), P{}, exactly<2>,(exactly_parser<P, index_c<2>>{}))
    .parsersEq (tCall (M (.exactly 2)) [(P Zom1)]) (P (.exactly Zom1 2)),  -- 46: DEP_ASSERT_MODIFIER_CALLABLE_R(exactly<2>,(PP{}),(exactly_parser<PP, index_c<2>>{}), exactly<2>,(P{}),(exactly_parser<P, index_c<2>>{}))
    .parsersEq (tMod (P Zom1) (M (.exactly 2))) (P (.exactly Zom1 2)),  -- 46: DEP_ASSERT_MODIFIER_MODULO_OPERABLE_R(PP{}, exactly<2>,(exactly_parser<PP, index_c<2>>{}), P{}, exactly<2>,(exactly_parser<P, index_c<2>>{}))
    .parsersEq (tCall (M (.exactly 2)) [(P Zom2)]) (P (.exactly Zom2 2)),  -- 46: DEP_ASSERT_MODIFIER_CALLABLE_R(exactly<2>,(PP{}),(exactly_parser<PP, index_c<2>>{}), exactly<2>,(P{}),(exactly_parser<P, index_c<2>>{}))
    .parsersEq (tMod (P Zom2) (M (.exactly 2))) (P (.exactly Zom2 2)),  -- 46: DEP_ASSERT_MODIFIER_MODULO_OPERABLE_R(PP{}, exactly<2>,(exactly_parser<PP, index_c<2>>{}), P{}, exactly<2>,(exactly_parser<P, index_c<2>>{}))
    .parsersEq (tCall (M (.exactly 2)) [(P Zom3)]) (P (.exactly Zom3 2)),  -- 46: DEP_ASSERT_MODIFIER_CALLABLE_R(exactly<2>,(PP{}),(exactly_parser<PP, index_c<2>>{}), exactly<2>,(P{}),(exactly_parser<P, index_c<2>>{}))
    .parsersEq (tMod (P Zom3) (M (.exactly 2))) (P (.exactly Zom3 2)),  -- 46: DEP_ASSERT_MODIFIER_MODULO_OPERABLE_R(PP{}, exactly<2>,(exactly_parser<PP, index_c<2>>{}), P{}, exactly<2>,(exactly_parser<P, index_c<2>>{}))
    .parsersEq (tCall (M (.exactly 2)) [(P Zom4)]) (P (.exactly Zom4 2)),  -- 46: DEP_ASSERT_MODIFIER_CALLABLE_R(exactly<2>,(PP{}),(exactly_parser<PP, index_c<2>>{}), exactly<2>,(P{}),(exactly_parser<P, index_c<2>>{}))
    .parsersEq (tMod (P Zom4) (M (.exactly 2))) (P (.exactly Zom4 2)),  -- 46: DEP_ASSERT_MODIFIER_MODULO_OPERABLE_R(PP{}, exactly<2>,(exactly_parser<PP, index_c<2>>{}), P{}, exactly<2>,(exactly_parser<P, index_c<2>>{}))
    .parsersEq (tCall (M (.exactly 2)) [(P Del1)]) (P (.exactly Del1 2)),  -- 46: DEP_ASSERT_MODIFIER_CALLABLE_R(exactly<2>,(PP{}),(exactly_parser<PP, index_c<2>>{}), exactly<2>,(P{}),(exactly_parser<P, index_c<2>>{}))
    .parsersEq (tMod (P Del1) (M (.exactly 2))) (P (.exactly Del1 2))  -- 46: DEP_ASSERT_MODIFIER_MODULO_OPERABLE_R(PP{}, exactly<2>,(exactly_parser<PP, index_c<2>>{}), P{}, exactly<2>,(exactly_parser<P, index_c<2>>{}))
    ], Assertion.Holds a :=
  Assertion.holds_of_check (by decide +kernel)

/-- exactly modifier / modify anything (tests/char-tests/modifiers/exactly.cpp:46) -/
theorem charModifiersExactly_3_4 : ∀ a ∈ [
    .parsersEq (tCall (M (.exactly 2)) [(P Del2)]) (P (.exactly Del2 2)),  -- 46: DEP_ASSERT_MODIFIER_CALLABLE_R(exactly<2>,(PP{}),(exactly_parser<PP, index_c<2>>{}), exactly<2>,(P{}),(exactly_parser<P, index_c<2>>{}))
    .parsersEq (tMod (P Del2) (M (.exactly 2))) (P (.exactly Del2 2)),  -- 46: DEP_ASSERT_MODIFIER_MODULO_OPERABLE_R(PP{}, exactly<2>,(exactly_parser<PP, index_c<2>>{}), P{}, exactly<2>,(exactly_parser<P, index_c<2>>{}))
    .parsersEq (tCall (M (.exactly 2)) [(P Del3)]) (P (.exactly Del3 2)),  -- 46: DEP_ASSERT_MODIFIER_CALLABLE_R(exactly<2>,(PP{}),(exactly_parser<PP, index_c<2>>{}), exactly<2>,(P{}),(exactly_parser<P, index_c<2>>{}))
    .parsersEq (tMod (P Del3) (M (.exactly 2))) (P (.exactly Del3 2)),  -- 46: DEP_ASSERT_MODIFIER_MODULO_OPERABLE_R(PP{}, exactly<2>,(exactly_parser<PP, index_c<2>>{}), P{}, exactly<2>,(exactly_parser<P, index_c<2>>{}))
    .parsersEq (tCall (M (.exactly 2)) [(P Del4)]) (P (.exactly Del4 2)),  -- 46: DEP_ASSERT_MODIFIER_CALLABLE_R(exactly<2>,(PP{}),(exactly_parser<PP, index_c<2>>{}), exactly<2>,(P{}),(exactly_parser<P, index_c<2>>{}))
    .parsersEq (tMod (P Del4) (M (.exactly 2))) (P (.exactly Del4 2)),  -- 46: DEP_ASSERT_MODIFIER_MODULO_OPERABLE_R(PP{}, exactly<2>,(exactly_parser<PP, index_c<2>>{}), P{}, exactly<2>,(exactly_parser<P, index_c<2>>{}))
    .parsersEq (tCall (M (.exactly 2)) [(P Del5)]) (P (.exactly Del5 2)),  -- 46: DEP_ASSERT_MODIFIER_CALLABLE_R(exactly<2>,(PP{}),(exactly_parser<PP, index_c<2>>{}), exactly<2>,(P{}),(exactly_parser<P, index_c<2>>{}))
    .parsersEq (tMod (P Del5) (M (.exactly 2))) (P (.exactly Del5 2)),  -- 46: DEP_ASSERT_MODIFIER_MODULO_OPERABLE_R(PP{}, exactly<2>,(exactly_parser<PP, index_c<2>>{}), P{}, exactly<2>,(exactly_parser<P, index_c<2>>{}))
    .parsersEq (tCall (M (.exactly 2)) [(P Del6)]) (P (.exactly Del6 2)),  -- 46: DEP_ASSERT_MODIFIER_CALLABLE_R(exactly<2>,(PP{}),(exactly_parser<PP, index_c<2>>{}), exactly<2>,(P{}),(exactly_parser<P, index_c<2>>{}))
    .parsersEq (tMod (P Del6) (M (.exactly 2))) (P (.exactly Del6 2)),  -- 46: DEP_ASSERT_MODIFIER_MODULO_OPERABLE_R(PP{}, exactly<2>,(exactly_parser<PP, index_c<2>>{}), P{}, exactly<2>,(exactly_parser<P, index_c<2>>{}))
    .parsersEq (tCall (M (.exactly 2)) [(P Del7)]) (P (.exactly Del7 2)),  -- 46: DEP_ASSERT_MODIFIER_CALLABLE_R(exactly<2>,(PP{}),(exactly_parser<PP, index_c<2>>{}), exactly<2>,(P{}),(exactly_parser<P, index_c<2>>{}))
    .parsersEq (tMod (P Del7) (M (.exactly 2))) (P (.exactly Del7 2)),  -- 46: DEP_ASSERT_MODIFIER_MODULO_OPERABLE_R(PP{}, exactly<2>,(exactly_parser<PP, index_c<2>>{}), P{}, exactly<2>,(exactly_parser<P, index_c<2>>{}))
    .parsersEq (tCall (M (.exactly 2)) [(P Del8)]) (P (.exactly Del8 2)),  -- 46: DEP_ASSERT_MODIFIER_CALLABLE_R(exactly<2>,(PP{}),(exactly_parser<PP, index_c<2>>{}), exactly<2>,(P{}),(exactly_parser<P, index_c<2>>{}))
    .parsersEq (tMod (P Del8) (M (.exactly 2))) (P (.exactly Del8 2)),  -- 46: DEP_ASSERT_MODIFIER_MODULO_OPERABLE_R(PP{}, exactly<2>,(exactly_parser<PP, index_c<2>>{}), P{}, exactly<2>,(exactly_parser<P, index_c<2>>{}))
    .parsersEq (tCall (M (.exactly 2)) [(P Dek1)]) (P (.exactly Dek1 2)),  -- 46: DEP_ASSERT_MODIFIER_CALLABLE_R(exactly<2>,(PP{}),(exactly_parser<PP, index_c<2>>{}), exactly<2>,(P{}),(exactly_parser<P, index_c<2>>{}))
    .parsersEq (tMod (P Dek1) (M (.exactly 2))) (P (.exactly Dek1 2)),  -- 46: DEP_ASSERT_MODIFIER_MODULO_OPERABLE_R(PP{}, exactly<2>,(exactly_parser<PP, index_c<2>>{}), P{}, exactly<2>,(exactly_parser<P, index_c<2>>{}))
    .parsersEq (tCall (M (.exactly 2)) [(P Dek2)]) (P (.exactly Dek2 2)),  -- 46: DEP_ASSERT_MODIFIER_CALLABLE_R(exactly<2>,(PP{}),(exactly_parser<PP, index_c<2>>{}), exactly<2>,(P{}),(exactly_parser<P, index_c<2>>{}))
    .parsersEq (tMod (P Dek2) (M (.exactly 2))) (P (.exactly Dek2 2)),  -- 46: DEP_ASSERT_MODIFIER_MODULO_OPERABLE_R(PP{}, exactly<2>,(exactly_parser<PP, index_c<2>>{}), P{}, exactly<2>,(exactly_parser<P, index_c<2>>{}))
    .parsersEq (tCall (M (.exactly 2)) [(P Dek3)]) (P (.exactly Dek3 2)),  -- 46: DEP_ASSERT_MODIFIER_CALLABLE_R(exactly<2>,(PP{}),(exactly_parser<PP, index_c<2>>{}), exactly<2>,(P{}),(exactly_parser<P, index_c<2>>{}))
    .parsersEq (tMod (P Dek3) (M (.exactly 2))) (P (.exactly Dek3 2)),  -- 46: DEP_ASSERT_MODIFIER_MODULO_OPERABLE_R(PP{}, exactly<2>,(exactly_parser<PP, index_c<2>>{}), P{}, exactly<2>,(exactly_parser<P, index_c<2>>{}))
    .parsersEq (tCall (M (.exactly 2)) [(P Dek4)]) (P (.exactly Dek4 2)),  -- 46: DEP_ASSERT_MODIFIER_CALLABLE_R(exactly<2>,(PP{}),(exactly_parser<PP, index_c<2>>{}), exactly<2>,(P{}),(exactly_parser<P, index_c<2>>{}))
    .parsersEq (tMod (P Dek4) (M (.exactly 2))) (P (.exactly Dek4 2)),  -- 46: DEP_ASSERT_MODIFIER_MODULO_OPERABLE_R(PP{}, exactly<2>,(exactly_parser<PP, index_c<2>>{}), P{}, exactly<2>,(exactly_parser<P, index_c<2>>{}))
    .parsersEq (tCall (M (.exactly 2)) [(P Dek5)]) (P (.exactly Dek5 2)),  -- 46: DEP_ASSERT_MODIFIER_CALLABLE_R(exactly<2>,(PP{}),(exactly_parser<PP, index_c<2>>{}), exactly<2>,(P{}),(exactly_parser<P, index_c<2>>{}))
    .parsersEq (tMod (P Dek5) (M (.exactly 2))) (P (.exactly Dek5 2)),  -- 46: DEP_ASSERT_MODIFIER_MODULO_OPERABLE_R(PP{}, exactly<2>,(exactly_parser<PP, index_c<2>>{}), P{}, exactly<2>,(exactly_parser<P, index_c<2>>{}))
    .parsersEq (tCall (M (.exactly 2)) [(P Dek6)]) (P (.exactly Dek6 2)),  -- 46: DEP_ASSERT_MODIFIER_CALLABLE_R(exactly<2>,(PP{}),(exactly_parser<PP, index_c<2>>{}), exactly<2>,(P{}),(exactly_parser<P, index_c<2>>{}))
    .parsersEq (tMod (P Dek6) (M (.exactly 2))) (P (.exactly Dek6 2)),  -- 46: DEP_ASSERT_MODIFIER_MODULO_OPERABLE_R(PP{}, exactly<2>,(exactly_parser<PP, index_c<2>>{}), P{}, exactly<2>,(exactly_parser<P, index_c<2>>{}))
    .parsersEq (tCall (M (.exactly 2)) [(P Dek7)]) (P (.exactly Dek7 2)),  -- 46: DEP_ASSERT_MODIFIER_CALLABLE_R(exactly<2>,(PP{}),(exactly_parser<PP, index_c<2>>{}), exactly<2>,(P{}),(exactly_parser<P, index_c<2>>{}))
    .parsersEq (tMod (P Dek7) (M (.exactly 2))) (P (.exactly Dek7 2)),  -- 46: DEP_ASSERT_MODIFIER_MODULO_OPERABLE_R(PP{}, exactly<2>,(exactly_parser<PP, index_c<2>>{}), P{}, exactly<2>,(exactly_parser<P, index_c<2>>{}))
    .parsersEq (tCall (M (.exactly 2)) [(P Dek8)]) (P (.exactly Dek8 2)),  -- 46: DEP_ASSERT_MODIFIER_CALLABLE_R(exactly<2>,(PP{}),(exactly_parser<PP, index_c<2>>{}), exactly<2>,(P{}),(exactly_parser<P, index_c<2>>{}))
    .parsersEq (tMod (P Dek8) (M (.exactly 2))) (P (.exactly Dek8 2))  -- 46: DEP_ASSERT_MODIFIER_MODULO_OPERABLE_R(PP{}, exactly<2>,(exactly_parser<PP, index_c<2>>{}), P{}, exactly<2>,(exactly_parser<P, index_c<2>>{}))
    ], Assertion.Holds a :=
  Assertion.holds_of_check (by decide +kernel)

end Tok3n.Tests
