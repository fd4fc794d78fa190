import Verif.Tests.Gen.SamplesChar
/- Generated by tools/tests2lean.py from tests/char-tests/modifiers/complete.cpp. -/

namespace Tok3n.Tests

/-- complete modifier / prefix (tests/char-tests/modifiers/complete.cpp:14) -/
theorem charModifiersComplete_1 : ∀ a ∈ [
    .parsersEq (P Com1) (tCall (M .complete) [(P All1)]),  -- 14: ASSERT_PARSER_VALUES_EQ(com1, complete(all1))
    .parsersEq (P Com2) (tCall (M .complete) [(P Any1)]),  -- 15: ASSERT_PARSER_VALUES_EQ(com2, complete(any1))
    .parsersEq (P Com3) (tCall (M .complete) [(tOr (P All1) (P Any1))]),  -- 16: ASSERT_PARSER_VALUES_EQ(com3, complete(all1 | any1))
    .parsersEq (P Com4) (tCall (M .complete) [(tThen (P All1) (P Any1))]),  -- 17: ASSERT_PARSER_VALUES_EQ(com4, complete(all1>> any1))
    .parsersEq (P Com5) (tCall (M .complete) [(tMaybe (tThen (P All1) (P Any1)))]),  -- 18: ASSERT_PARSER_VALUES_EQ(com5, complete(~(all1>> any1)))
    .parsersEq (P Com6) (tCall (M .complete) [(tPlus (tThen (P All1) (P Any1)))]),  -- 19: ASSERT_PARSER_VALUES_EQ(com6, complete(+(all1>> any1)))
    .parsersEq (P Com7) (tCall (M .complete) [(tStar (tThen (P All1) (P Any1)))])  -- 20: ASSERT_PARSER_VALUES_EQ(com7, complete(*(all1>> any1)))
    ], Assertion.Holds a :=
  Assertion.holds_of_check (by decide +kernel)

/-- complete modifier / infix (tests/char-tests/modifiers/complete.cpp:25) -/
theorem charModifiersComplete_2 : ∀ a ∈ [
    .parsersEq (P Com1) (tMod (P All1) (M .complete)),  -- 25: ASSERT_PARSER_VALUES_EQ(com1, all1 % complete)
    .parsersEq (P Com2) (tMod (P Any1) (M .complete)),  -- 26: ASSERT_PARSER_VALUES_EQ(com2, any1 % complete)
    .parsersEq (P Com3) (tMod (tOr (P All1) (P Any1)) (M .complete)),  -- 27: ASSERT_PARSER_VALUES_EQ(com3,(all1 | any1) % complete)
    .parsersEq (P Com4) (tMod (tThen (P All1) (P Any1)) (M .complete)),  -- 28: ASSERT_PARSER_VALUES_EQ(com4,(all1>> any1) % complete)
    .parsersEq (P Com5) (tMod (tMaybe (tThen (P All1) (P Any1))) (M .complete)),  -- 29: ASSERT_PARSER_VALUES_EQ(com5, ~(all1>> any1) % complete)
    .parsersEq (P Com6) (tMod (tPlus (tThen (P All1) (P Any1))) (M .complete)),  -- 30: ASSERT_PARSER_VALUES_EQ(com6, +(all1>> any1) % complete)
    .parsersEq (P Com7) (tMod (tStar (tThen (P All1) (P Any1))) (M .complete))  -- 31: ASSERT_PARSER_VALUES_EQ(com7, *(all1>> any1) % complete)
    ], Assertion.Holds a :=
  Assertion.holds_of_check (by decide +kernel)

/-- complete modifier / idempotent (tests/char-tests/modifiers/complete.cpp:36) -/
theorem charModifiersComplete_3 : ∀ a ∈ [
    .parsersEq (P Com1) (tCall (M .complete) [(P Com1)]),  -- 36: ASSERT_PARSER_VALUES_EQ(com1, complete(com1))
    .parsersEq (P Com2) (tCall (M .complete) [(P Com2)]),  -- 37: ASSERT_PARSER_VALUES_EQ(com2, complete(com2))
    .parsersEq (P Com3) (tCall (M .complete) [(P Com3)]),  -- 38: ASSERT_PARSER_VALUES_EQ(com3, complete(com3))
    .parsersEq (P Com4) (tCall (M .complete) [(P Com4)]),  -- 39: ASSERT_PARSER_VALUES_EQ(com4, complete(com4))
    .parsersEq (P Com5) (tCall (M .complete) [(P Com5)]),  -- 40: ASSERT_PARSER_VALUES_EQ(com5, complete(com5))
    .parsersEq (P Com6) (tCall (M .complete) [(P Com6)]),  -- 41: ASSERT_PARSER_VALUES_EQ(com6, complete(com6))
    .parsersEq (P Com7) (tCall (M .complete) [(P Com7)]),  -- 42: ASSERT_PARSER_VALUES_EQ(com7, complete(com7))
    .parsersEq (P Com1) (tMod (P Com1) (M .complete)),  -- 43: ASSERT_PARSER_VALUES_EQ(com1, com1 % complete)
    .parsersEq (P Com2) (tMod (P Com2) (M .complete)),  -- 44: ASSERT_PARSER_VALUES_EQ(com2, com2 % complete)
    .parsersEq (P Com3) (tMod (P Com3) (M .complete)),  -- 45: ASSERT_PARSER_VALUES_EQ(com3, com3 % complete)
    .parsersEq (P Com4) (tMod (P Com4) (M .complete)),  -- 46: ASSERT_PARSER_VALUES_EQ(com4, com4 % complete)
    .parsersEq (P Com5) (tMod (P Com5) (M .complete)),  -- 47: ASSERT_PARSER_VALUES_EQ(com5, com5 % complete)
    .parsersEq (P Com6) (tMod (P Com6) (M .complete)),  -- 48: ASSERT_PARSER_VALUES_EQ(com6, com6 % complete)
    .parsersEq (P Com7) (tMod (P Com7) (M .complete))  -- 49: ASSERT_PARSER_VALUES_EQ(com7, com7 % complete)
    ], Assertion.Holds a :=
  Assertion.holds_of_check (by decide +kernel)

/-- complete modifier / modify anything (tests/char-tests/modifiers/complete.cpp:80) -/
theorem charModifiersComplete_4_1 : ∀ a ∈ [
    .parsersEq (tCall (M .complete) [(P Ign1)]) (P (.complete Ign1)),  -- 80: DEP_ASSERT_MODIFIER_CALLABLE_R(complete,(PP{}), complete_parser<PP>{}, complete,(P{}), complete_parser<P>{})
    .parsersEq (tMod (P Ign1) (M .complete)) (P (.complete Ign1)),  -- 80: DEP_ASSERT_MODIFIER_MODULO_OPERABLE_R(PP{}, complete, complete_parser<PP>{}, P{}, complete, complete_parser<P>{})
    .parsersEq (tCall (M .complete) [(P Ign2)]) (P (.complete Ign2)),  -- 80: DEP_ASSERT_MODIFIER_CALLABLE_R(complete,(PP{}), complete_parser<PP>{}, complete,(P{}), complete_parser<P>{})
    .parsersEq (tMod (P Ign2) (M .complete)) (P (.complete Ign2)),  -- 80: DEP_ASSERT_MODIFIER_MODULO_OPERABLE_R(PP{}, complete, complete_parser<PP>{}, P{}, complete, complete_parser<P>{})
    .parsersEq (tCall (M .complete) [(P Ign3)]) (P (.complete Ign3)),  -- 80: DEP_ASSERT_MODIFIER_CALLABLE_R(complete,(PP{}), complete_parser<PP>{}, complete,(P{}), complete_parser<P>{})
    .parsersEq (tMod (P Ign3) (M .complete)) (P (.complete Ign3)),  -- 80: DEP_ASSERT_MODIFIER_MODULO_OPERABLE_R(PP{}, complete, complete_parser<PP>{}, P{}, complete, complete_parser<P>{})
    .parsersEq (tCall (M .complete) [(P Ign4)]) (P (.complete Ign4)),  -- 80: DEP_ASSERT_MODIFIER_CALLABLE_R(complete,(PP{}), complete_parser<PP>{}, complete,(P{}), complete_parser<P>{})
    .parsersEq (tMod (P Ign4) (M .complete)) (P (.complete Ign4)),  -- 80: DEP_ASSERT_MODIFIER_MODULO_OPERABLE_R(PP{}, complete, complete_parser<PP>{}, P{}, complete, complete_parser<P>{})
    .parsersEq (tCall (M .complete) [(P Ign5)]) (P (.complete Ign5)),  -- 80: DEP_ASSERT_MODIFIER_CALLABLE_R(complete,(PP{}), complete_parser<PP>{}, complete,(P{}), complete_parser<P>{})
    .parsersEq (tMod (P Ign5) (M .complete)) (P (.complete Ign5)),  -- 80: DEP_ASSERT_MODIFIER_MODULO_OPERABLE_R(PP{}, complete, complete_parser<PP>{}, P{}, complete, complete_parser<P>{})
    .parsersEq (tCall (M .complete) [(P Com1)]) (P Com1),  -- 80: DEP_ASSERT_MODIFIER_CALLABLE_R(complete,(PP{}), PP{}, complete,(P{}), P{})
    .parsersEq (tMod (P Com1) (M .complete)) (P Com1),  -- 80: DEP_ASSERT_MODIFIER_MODULO_OPERABLE_R(PP{}, complete, PP{}, P{}, complete, P{})
    .parsersEq (tCall (M .complete) [(P Com2)]) (P Com2),  -- 80: DEP_ASSERT_MODIFIER_CALLABLE_R(complete,(PP{}), PP{}, complete,(P{}), P{})
    .parsersEq (tMod (P Com2) (M .complete)) (P Com2),  -- 80: DEP_ASSERT_MODIFIER_MODULO_OPERABLE_R(PP{}, complete, PP{}, P{}, complete, P{})
    .parsersEq (tCall (M .complete) [(P Com3)]) (P Com3),  -- 80: DEP_ASSERT_MODIFIER_CALLABLE_R(complete,(PP{}), PP{}, complete,(P{}), P{})
    .parsersEq (tMod (P Com3) (M .complete)) (P Com3),  -- 80: DEP_ASSERT_MODIFIER_MODULO_OPERABLE_R(PP{}, complete, PP{}, P{}, complete, P{})
    .parsersEq (tCall (M .complete) [(P Com4)]) (P Com4),  -- 80: DEP_ASSERT_MODIFIER_CALLABLE_R(complete,(PP{}), PP{}, complete,(P{}), P{})
    .parsersEq (tMod (P Com4) (M .complete)) (P Com4),  -- 80: DEP_ASSERT_MODIFIER_MODULO_OPERABLE_R(PP{}, complete, PP{}, P{}, complete, P{})
    .parsersEq (tCall (M .complete) [(P Com5)]) (P Com5),  -- 80: DEP_ASSERT_MODIFIER_CALLABLE_R(complete,(PP{}), PP{}, complete,(P{}), P{})
    .parsersEq (tMod (P Com5) (M .complete)) (P Com5),  -- 80: DEP_ASSERT_MODIFIER_MODULO_OPERABLE_R(PP{}, complete, PP{}, P{}, complete, P{})
    .parsersEq (tCall (M .complete) [(P Com6)]) (P Com6),  -- 80: DEP_ASSERT_MODIFIER_CALLABLE_R(complete,(PP{}), PP{}, complete,(P{}), P{})
    .parsersEq (tMod (P Com6) (M .complete)) (P Com6),  -- 80: DEP_ASSERT_MODIFIER_MODULO_OPERABLE_R(PP{}, complete, PP{}, P{}, complete, P{})
    .parsersEq (tCall (M .complete) [(P Com7)]) (P Com7),  -- 80: DEP_ASSERT_MODIFIER_CALLABLE_R(complete,(PP{}), PP{}, complete,(P{}), P{})
    .parsersEq (tMod (P Com7) (M .complete)) (P Com7),  -- 80: DEP_ASSERT_MODIFIER_MODULO_OPERABLE_R(PP{}, complete, PP{}, P{}, complete, P{})
    .parsersEq (tCall (M .complete) [(P Nam1)]) (P (.complete Nam1)),  -- 80: DEP_ASSERT_MODIFIER_CALLABLE_R(complete,(PP{}), complete_parser<PP>{}, complete,(P{}), complete_parser<P>{})
    .parsersEq (tMod (P Nam1) (M .complete)) (P (.complete Nam1)),  -- 80: DEP_ASSERT_MODIFIER_MODULO_OPERABLE_R(PP{}, complete, complete_parser<PP>{}, P{}, complete, complete_parser<P>{})
    .parsersEq (tCall (M .complete) [(P Nam2)]) (P (.complete Nam2)),  -- 80: DEP_ASSERT_MODIFIER_CALLABLE_R(complete,(PP{}), complete_parser<PP>{}, complete,(P{}), complete_parser<P>{})
    .parsersEq (tMod (P Nam2) (M .complete)) (P (.complete Nam2)),  -- 80: DEP_ASSERT_MODIFIER_MODULO_OPERABLE_R(PP{}, complete, complete_parser<PP>{}, P{}, complete, complete_parser<P>{})
    .parsersEq (tCall (M .complete) [(P Nam3)]) (P (.complete Nam3)),  -- 80: DEP_ASSERT_MODIFIER_CALLABLE_R(complete,(PP{}), complete_parser<PP>{}, complete,(P{}), complete_parser<P>{})
    .parsersEq (tMod (P Nam3) (M .complete)) (P (.complete Nam3)),  -- 80: DEP_ASSERT_MODIFIER_MODULO_OPERABLE_R(PP{}, complete, complete_parser<PP>{}, P{}, complete, complete_parser<P>{})
    .parsersEq (tCall (M .complete) [(P Nam4)]) (P (.complete Nam4)),  -- 80: DEP_ASSERT_MODIFIER_CALLABLE_R(complete,(PP{}), complete_parser<PP>{}, complete,(P{}), complete_parser<P>{})
    .parsersEq (tMod (P Nam4) (M .complete)) (P (.complete Nam4)),  -- 80: DEP_ASSERT_MODIFIER_MODULO_OPERABLE_R(PP{}, complete, complete_parser<PP>{}, P{}, complete, complete_parser<P>{})
    .parsersEq (tCall (M .complete) [(P Any1)]) (P (.complete Any1)),  -- 80: DEP_ASSERT_MODIFIER_CALLABLE_R(complete,(PP{}), complete_parser<PP>{}, complete,(P{}), complete_parser<P>{})
    .parsersEq (tMod (P Any1) (M .complete)) (P (.complete Any1)),  -- 80: DEP_ASSERT_MODIFIER_MODULO_OPERABLE_R(PP{}, complete, complete_parser<PP>{}, P{}, complete, complete_parser<P>{})
    .parsersEq (tCall (M .complete) [(P Any2)]) (P (.complete Any2)),  -- 80: DEP_ASSERT_MODIFIER_CALLABLE_R(complete,(PP{}), complete_parser<PP>{}, complete,(P{}), complete_parser<P>{})
    .parsersEq (tMod (P Any2) (M .complete)) (P (.complete Any2)),  -- 80: DEP_ASSERT_MODIFIER_MODULO_OPERABLE_R(PP{}, complete, complete_parser<PP>{}, P{}, complete, complete_parser<P>{})
    .parsersEq (tCall (M .complete) [(P Any3)]) (P (.complete Any3)),  -- 80: DEP_ASSERT_MODIFIER_CALLABLE_R(complete,(PP{}), complete_parser<PP>{}, complete,(P{}), complete_parser<P>{})
    .parsersEq (tMod (P Any3) (M .complete)) (P (.complete Any3)),  -- 80: DEP_ASSERT_MODIFIER_MODULO_OPERABLE_R(PP{}, complete, complete_parser<PP>{}, P{}, complete, complete_parser<P>{})
    .parsersEq (tCall (M .complete) [(P Any4)]) (P (.complete Any4)),  -- 80: DEP_ASSERT_MODIFIER_CALLABLE_R(complete,(PP{}), complete_parser<PP>{}, complete,(P{}), complete_parser<P>{})
    .parsersEq (tMod (P Any4) (M .complete)) (P (.complete Any4)),  -- 80: DEP_ASSERT_MODIFIER_MODULO_OPERABLE_R(PP{}, complete, complete_parser<PP>{}, P{}, complete, complete_parser<P>{})
    .parsersEq (tCall (M .complete) [(P Non1)]) (P (.complete Non1)),  -- 80: DEP_ASSERT_MODIFIER_CALLABLE_R(complete,(PP{}), complete_parser<PP>{}, complete,(P{}), complete_parser<P>{})
    .parsersEq (tMod (P Non1) (M .complete)) (P (.complete Non1)),  -- 80: DEP_ASSERT_MODIFIER_MODULO_OPERABLE_R(PP{}, complete, complete_parser<PP>{}, P{}, complete, complete_parser<P>{})
    .parsersEq (tCall (M .complete) [(P Non2)]) (P (.complete Non2)),  -- 80: DEP_ASSERT_MODIFIER_CALLABLE_R(complete,(PP{}), complete_parser<PP>{}, complete,(P{}), complete_parser<P>{})
    .parsersEq (tMod (P Non2) (M .complete)) (P (.complete Non2)),  -- 80: DEP_ASSERT_MODIFIER_MODULO_OPERABLE_R(PP{}, complete, complete_parser<PP>{}, P{}, complete, complete_parser<P>{})
    .parsersEq (tCall (M .complete) [(P Non3)]) (P (.complete Non3)),  -- 80: DEP_ASSERT_MODIFIER_CALLABLE_R(complete,(PP{}), complete_parser<PP>{}, complete,(P{}), complete_parser<P>{})
    .parsersEq (tMod (P Non3) (M .complete)) (P (.complete Non3)),  -- 80: DEP_ASSERT_MODIFIER_MODULO_OPERABLE_R(PP{}, complete, complete_parser<PP>{}, P{}, complete, complete_parser<P>{})
    .parsersEq (tCall (M .complete) [(P Non4)]) (P (.complete Non4)),  -- 80: DEP_ASSERT_MODIFIER_CALLABLE_R(complete,(PP{}), complete_parser<PP>{}, complete,(P{}), complete_parser<P>{})
    .parsersEq (tMod (P Non4) (M .complete)) (P (.complete Non4)),  -- 80: DEP_ASSERT_MODIFIER_MODULO_OPERABLE_R(PP{}, complete, complete_parser<PP>{}, P{}, complete, complete_parser<P>{})
    .parsersEq (tCall (M .complete) [(P Non5)]) (P (.complete Non5)),  -- 80: DEP_ASSERT_MODIFIER_CALLABLE_R(complete,(PP{}), complete_parser<PP>{}, complete,(P{}), complete_parser<P>{})
    .parsersEq (tMod (P Non5) (M .complete)) (P (.complete Non5)),  -- 80: DEP_ASSERT_MODIFIER_MODULO_OPERABLE_R(PP{}, complete, complete_parser<PP>{}, P{}, complete, complete_parser<P>{})
    .parsersEq (tCall (M .complete) [(P All1)]) (P (.complete All1)),  -- 80: DEP_ASSERT_MODIFIER_CALLABLE_R(complete,(PP{}), complete_parser<PP>{}, complete,(P{}), complete_parser<P>{})
    .parsersEq (tMod (P All1) (M .complete)) (P (.complete All1)),  -- 80: DEP_ASSERT_MODIFIER_MODULO_OPERABLE_R(PP{}, complete, complete_parser<PP>{}, P{}, complete, complete_parser<P>{})
    .parsersEq (tCall (M .complete) [(P All2)]) (P (.complete All2)),  -- 80: DEP_ASSERT_MODIFIER_CALLABLE_R(complete,(PP{}), complete_parser<PP>{}, complete,(P{}), complete_parser<P>{})
    .parsersEq (tMod (P All2) (M .complete)) (P (.complete All2)),  -- 80: DEP_ASSERT_MODIFIER_MODULO_OPERABLE_R(PP{}, complete, complete_parser<PP>{}, P{}, complete, complete_parser<P>{})
    .parsersEq (tCall (M .complete) [(P All3)]) (P (.complete All3)),  -- 80: DEP_ASSERT_MODIFIER_CALLABLE_R(complete,(PP{}), complete_parser<PP>{}, complete,(P{}), complete_parser<P>{})
    .parsersEq (tMod (P All3) (M .complete)) (P (.complete All3)),  -- 80: DEP_ASSERT_MODIFIER_MODULO_OPERABLE_R(PP{}, complete, complete_parser<PP>{}, P{}, complete, complete_parser<P>{})
    .parsersEq (tCall (M .complete) [(P All4)]) (P (.complete All4)),  -- 80: DEP_ASSERT_MODIFIER_CALLABLE_R(complete,(PP{}), complete_parser<PP>{}, complete,(P{}), complete_parser<P>{})
    .parsersEq (tMod (P All4) (M .complete)) (P (.complete All4)),  -- 80: DEP_ASSERT_MODIFIER_MODULO_OPERABLE_R(PP{}, complete, complete_parser<PP>{}, P{}, complete, complete_parser<P>{})
    .parsersEq (tCall (M .complete) [(P Eps1)]) (P (.complete Eps1)),  -- 80: DEP_ASSERT_MODIFIER_CALLABLE_R(complete,(PP{}), complete_parser<PP>{}, complete,(P{}), complete_parser<P>{})
    .parsersEq (tMod (P Eps1) (M .complete)) (P (.complete Eps1))  -- 80: DEP_ASSERT_MODIFIER_MODULO_OPERABLE_R(PP{}, complete, complete_parser<PP>{}, P{}, complete, complete_parser<P>{})
    ], Assertion.Holds a :=
  Assertion.holds_of_check (by decide +kernel)

/-- complete modifier / modify anything (tests/char-tests/modifiers/complete.cpp:80) -/
theorem charModifiersComplete_4_2 : ∀ a ∈ [
    .parsersEq (tCall (M .complete) [(P Ant1)]) (P (.complete Ant1)),  -- 80: DEP_ASSERT_MODIFIER_CALLABLE_R(complete,(PP{}), complete_parser<PP>{}, complete,(P{}), complete_parser<P>{})
    .parsersEq (tMod (P Ant1) (M .complete)) (P (.complete Ant1)),  -- 80: DEP_ASSERT_MODIFIER_MODULO_OPERABLE_R(PP{}, complete, complete_parser<PP>{}, P{}, complete, complete_parser<P>{})
    .parsersEq (tCall (M .complete) [(P QQ)]) (P (.complete QQ)),  -- 80: DEP_ASSERT_MODIFIER_CALLABLE_R(complete,(PP{}), complete_parser<PP>{}, complete,(P{}), complete_parser<P>{})
    .parsersEq (tMod (P QQ) (M .complete)) (P (.complete QQ)),  -- 80: DEP_ASSERT_MODIFIER_MODULO_OPERABLE_R(PP{}, complete, complete_parser<PP>{}, P{}, complete, complete_parser<P>{})
    .parsersEq (tCall (M .complete) [(P ABC)]) (P (.complete ABC)),  -- 80: DEP_ASSERT_MODIFIER_CALLABLE_R(complete,(PP{}), complete_parser<PP>{}, complete,(P{}), complete_parser<P>{})
    .parsersEq (tMod (P ABC) (M .complete)) (P (.complete ABC)),  -- 80: DEP_ASSERT_MODIFIER_MODULO_OPERABLE_R(PP{}, complete, complete_parser<PP>{}, P{}, complete, complete_parser<P>{})
    .parsersEq (tCall (M .complete) [(P Comma)]) (P (.complete Comma)),  -- 80: DEP_ASSERT_MODIFIER_CALLABLE_R(complete,(PP{}), complete_parser<PP>{}, complete,(P{}), complete_parser<P>{})
    .parsersEq (tMod (P Comma) (M .complete)) (P (.complete Comma)),  -- 80: DEP_ASSERT_MODIFIER_MODULO_OPERABLE_R(PP{}, complete, complete_parser<PP>{}, P{}, complete, complete_parser<P>{})
    .parsersEq (tCall (M .complete) [(P SpaceDot)]) (P (.complete SpaceDot)),  -- 80: DEP_ASSERT_MODIFIER_CALLABLE_R(complete,(PP{}), complete_parser<PP>{}, complete,(P{}), complete_parser<P>{})
    .parsersEq (tMod (P SpaceDot) (M .complete)) (P (.complete SpaceDot)),  -- 80: DEP_ASSERT_MODIFIER_MODULO_OPERABLE_R(PP{}, complete, complete_parser<PP>{}, P{}, complete, complete_parser<P>{})
    .parsersEq (tCall (M .complete) [(P Cho1)]) (P (.complete Cho1)),  -- 80: DEP_ASSERT_MODIFIER_CALLABLE_R(complete,(PP{}), complete_parser<PP>{}, complete,(P{}), complete_parser<P>{})
    .parsersEq (tMod (P Cho1) (M .complete)) (P (.complete Cho1)),  -- 80: DEP_ASSERT_MODIFIER_MODULO_OPERABLE_R(PP{}, complete, complete_parser<PP>{}, P{}, complete, complete_parser<P>{})
    .parsersEq (tCall (M .complete) [(P Cho2)]) (P (.complete Cho2)),  -- 80: DEP_ASSERT_MODIFIER_CALLABLE_R(complete,(PP{}), complete_parser<PP>{}, complete,(P{}), complete_parser<P>{})
    .parsersEq (tMod (P Cho2) (M .complete)) (P (.complete Cho2)),  -- 80: DEP_ASSERT_MODIFIER_MODULO_OPERABLE_R(PP{}, complete, complete_parser<PP>{}, P{}, complete, complete_parser<P>{})
    .parsersEq (tCall (M .complete) [(P Cho3)]) (P (.complete Cho3)),  -- 80: DEP_ASSERT_MODIFIER_CALLABLE_R(complete,(PP{}), complete_parser<PP>{}, complete,(P{}), complete_parser<P>{})
    .parsersEq (tMod (P Cho3) (M .complete)) (P (.complete Cho3)),  -- 80: DEP_ASSERT_MODIFIER_MODULO_OPERABLE_R(PP{}, complete, complete_parser<PP>{}, P{}, complete, complete_parser<P>{})
    .parsersEq (tCall (M .complete) [(P Cho4)]) (P (.complete Cho4)),  -- 80: DEP_ASSERT_MODIFIER_CALLABLE_R(complete,(PP{}), complete_parser<PP>{}, complete,(P{}), complete_parser<P>{})
    .parsersEq (tMod (P Cho4) (M .complete)) (P (.complete Cho4)),  -- 80: DEP_ASSERT_MODIFIER_MODULO_OPERABLE_R(PP{}, complete, complete_parser<PP>{}, P{}, complete, complete_parser<P>{})
    .parsersEq (tCall (M .complete) [(P Cho5)]) (P (.complete Cho5)),  -- 80: DEP_ASSERT_MODIFIER_CALLABLE_R(complete,(PP{}), complete_parser<PP>{}, complete,(P{}), complete_parser<P>{})
    .parsersEq (tMod (P Cho5) (M .complete)) (P (.complete Cho5)),  -- 80: DEP_ASSERT_MODIFIER_MODULO_OPERABLE_R(PP{}, complete, complete_parser<PP>{}, P{}, complete, complete_parser<P>{})
    .parsersEq (tCall (M .complete) [(P Seq1)]) (P (.complete Seq1)),  -- 80: DEP_ASSERT_MODIFIER_CALLABLE_R(complete,(PP{}), complete_parser<PP>{}, complete,(P{}), complete_parser<P>{})
    .parsersEq (tMod (P Seq1) (M .complete)) (P (.complete Seq1)),  -- 80: DEP_ASSERT_MODIFIER_MODULO_OPERABLE_R(PP{}, complete, complete_parser<PP>{}, P{}, complete, complete_parser<P>{})
    .parsersEq (tCall (M .complete) [(P Seq2)]) (P (.complete Seq2)),  -- 80: DEP_ASSERT_MODIFIER_CALLABLE_R(complete,(PP{}), complete_parser<PP>{}, complete,(P{}), complete_parser<P>{})
    .parsersEq (tMod (P Seq2) (M .complete)) (P (.complete Seq2)),  -- 80: DEP_ASSERT_MODIFIER_MODULO_OPERABLE_R(PP{}, complete, complete_parser<PP>{}, P{}, complete, complete_parser<P>{})
    .parsersEq (tCall (M .complete) [(P Seq3)]) (P (.complete Seq3)),  -- 80: DEP_ASSERT_MODIFIER_CALLABLE_R(complete,(PP{}), complete_parser<PP>{}, complete,(P{}), complete_parser<P>{})
    .parsersEq (tMod (P Seq3) (M .complete)) (P (.complete Seq3)),  -- 80: DEP_ASSERT_MODIFIER_MODULO_OPERABLE_R(PP{}, complete, complete_parser<PP>{}, P{}, complete, complete_parser<P>{})
    .parsersEq (tCall (M .complete) [(P Seq4)]) (P (.complete Seq4)),  -- 80: DEP_ASSERT_MODIFIER_CALLABLE_R(complete,(PP{}), complete_parser<PP>{}, complete,(P{}), complete_parser<P>{})
    .parsersEq (tMod (P Seq4) (M .complete)) (P (.complete Seq4)),  -- 80: DEP_ASSERT_MODIFIER_MODULO_OPERABLE_R(PP{}, complete, complete_parser<PP>{}, P{}, complete, complete_parser<P>{})
    .parsersEq (tCall (M .complete) [(P Seq5)]) (P (.complete Seq5)),  -- 80: DEP_ASSERT_MODIFIER_CALLABLE_R(complete,(PP{}), complete_parser<PP>{}, complete,(P{}), complete_parser<P>{})
    .parsersEq (tMod (P Seq5) (M .complete)) (P (.complete Seq5)),  -- 80: DEP_ASSERT_MODIFIER_MODULO_OPERABLE_R(PP{}, complete, complete_parser<PP>{}, P{}, complete, complete_parser<P>{})
    .parsersEq (tCall (M .complete) [(P Joi1)]) (P (.complete Joi1)),  -- 80: DEP_ASSERT_MODIFIER_CALLABLE_R(complete,(PP{}), complete_parser<PP>{}, complete,(P{}), complete_parser<P>{})
    .parsersEq (tMod (P Joi1) (M .complete)) (P (.complete Joi1)),  -- 80: DEP_ASSERT_MODIFIER_MODULO_OPERABLE_R(PP{}, complete, complete_parser<PP>{}, P{}, complete, complete_parser<P>{})
    .parsersEq (tCall (M .complete) [(P Joi2)]) (P (.complete Joi2)),  -- 80: DEP_ASSERT_MODIFIER_CALLABLE_R(complete,(PP{}), complete_parser<PP>{}, complete,(P{}), complete_parser<P>{})
    .parsersEq (tMod (P Joi2) (M .complete)) (P (.complete Joi2)),  -- 80: DEP_ASSERT_MODIFIER_MODULO_OPERABLE_R(PP{}, complete, complete_parser<PP>{}, P{}, complete, complete_parser<P>{})
    .parsersEq (tCall (M .complete) [(P Joi3)]) (P (.complete Joi3)),  -- 80: DEP_ASSERT_MODIFIER_CALLABLE_R(complete,(PP{}), complete_parser<PP>{}, complete,(P{}), complete_parser<P>{})
    .parsersEq (tMod (P Joi3) (M .complete)) (P (.complete Joi3)),  -- 80: DEP_ASSERT_MODIFIER_MODULO_OPERABLE_R(PP{}, complete, complete_parser<PP>{}, P{}, complete, complete_parser<P>{})
    .parsersEq (tCall (M .complete) [(P Joi4)]) (P (.complete Joi4)),  -- 80: DEP_ASSERT_MODIFIER_CALLABLE_R(complete,(PP{}), complete_parser<PP>{}, complete,(P{}), complete_parser<P>{})
    .parsersEq (tMod (P Joi4) (M .complete)) (P (.complete Joi4)),  -- 80: DEP_ASSERT_MODIFIER_MODULO_OPERABLE_R(PP{}, complete, complete_parser<PP>{}, P{}, complete, complete_parser<P>{})
    .parsersEq (tCall (M .complete) [(P Joi5)]) (P (.complete Joi5)),  -- 80: DEP_ASSERT_MODIFIER_CALLABLE_R(complete,(PP{}), complete_parser<PP>{}, complete,(P{}), complete_parser<P>{})
    .parsersEq (tMod (P Joi5) (M .complete)) (P (.complete Joi5)),  -- 80: DEP_ASSERT_MODIFIER_MODULO_OPERABLE_R(PP{}, complete, complete_parser<PP>{}, P{}, complete, complete_parser<P>{})
    .parsersEq (tCall (M .complete) [(P Map1)]) (P (.complete Map1)),  -- 80: DEP_ASSERT_MODIFIER_CALLABLE_R(complete,(PP{}), complete_parser<PP>{}, complete,(P{}), complete_parser<P>{})
    .parsersEq (tMod (P Map1) (M .complete)) (P (.complete Map1)),  -- 80: DEP_ASSERT_MODIFIER_MODULO_OPERABLE_R(PP{}, complete, complete_parser<PP>{}, P{}, complete, complete_parser<P>{})
    .parsersEq (tCall (M .complete) [(P Map2)]) (P (.complete Map2)),  -- 80: DEP_ASSERT_MODIFIER_CALLABLE_R(complete,(PP{}), complete_parser<PP>{}, complete,(P{}), complete_parser<P>{})
    .parsersEq (tMod (P Map2) (M .complete)) (P (.complete Map2)),  -- 80: DEP_ASSERT_MODIFIER_MODULO_OPERABLE_R(PP{}, complete, complete_parser<PP>{}, P{}, complete, complete_parser<P>{})
    .parsersEq (tCall (M .complete) [(P Map3)]) (P (.complete Map3)),  -- 80: DEP_ASSERT_MODIFIER_CALLABLE_R(complete,(PP{}), complete_parser<PP>{}, complete,(P{}), complete_parser<P>{})
    .parsersEq (tMod (P Map3) (M .complete)) (P (.complete Map3)),  -- 80: DEP_ASSERT_MODIFIER_MODULO_OPERABLE_R(PP{}, complete, complete_parser<PP>{}, P{}, complete, complete_parser<P>{})
    .parsersEq (tCall (M .complete) [(P Map4)]) (P (.complete Map4)),  -- 80: DEP_ASSERT_MODIFIER_CALLABLE_R(complete,(PP{}), complete_parser<PP>{}, complete,(P{}), complete_parser<P>{})
    .parsersEq (tMod (P Map4) (M .complete)) (P (.complete Map4)),  -- 80: DEP_ASSERT_MODIFIER_MODULO_OPERABLE_R(PP{}, complete, complete_parser<PP>{}, P{}, complete, complete_parser<P>{})
    .parsersEq (tCall (M .complete) [(P Fil1)]) (P (.complete Fil1)),  -- 80: DEP_ASSERT_MODIFIER_CALLABLE_R(complete,(PP{}), complete_parser<PP>{}, complete,(P{}), complete_parser<P>{})
    .parsersEq (tMod (P Fil1) (M .complete)) (P (.complete Fil1)),  -- 80: DEP_ASSERT_MODIFIER_MODULO_OPERABLE_R(PP{}, complete, complete_parser<PP>{}, P{}, complete, complete_parser<P>{})
    .parsersEq (tCall (M .complete) [(P Fil2)]) (P (.complete Fil2)),  -- 80: DEP_ASSERT_MODIFIER_CALLABLE_R(complete,(PP{}), complete_parser<PP>{}, complete,(P{}), complete_parser<P>{})
    .parsersEq (tMod (P Fil2) (M .complete)) (P (.complete Fil2)),  -- 80: DEP_ASSERT_MODIFIER_MODULO_OPERABLE_R(PP{}, complete, complete_parser<PP>{}, P{}, complete, complete_parser<P>{})
    .parsersEq (tCall (M .complete) [(P Fil3)]) (P (.complete Fil3)),  -- 80: DEP_ASSERT_MODIFIER_CALLABLE_R(complete,(PP{}), complete_parser<PP>{}, complete,(P{}), complete_parser<P>{})
    .parsersEq (tMod (P Fil3) (M .complete)) (P (.complete Fil3)),  -- 80: DEP_ASSERT_MODIFIER_MODULO_OPERABLE_R(PP{}, complete, complete_parser<PP>{}, P{}, complete, complete_parser<P>{})
    .parsersEq (tCall (M .complete) [(P Apm1)]) (P (.complete Apm1)),  -- 80: DEP_ASSERT_MODIFIER_CALLABLE_R(complete,(PP{}), complete_parser<PP>{}, complete,(P{}), complete_parser<P>{})
    .parsersEq (tMod (P Apm1) (M .complete)) (P (.complete Apm1)),  -- 80: DEP_ASSERT_MODIFIER_MODULO_OPERABLE_R(PP{}, complete, complete_parser<PP>{}, P{}, complete, complete_parser<P>{})
    .parsersEq (tCall (M .complete) [(P Apm2)]) (P (.complete Apm2)),  -- 80: DEP_ASSERT_MODIFIER_CALLABLE_R(complete,(PP{}), complete_parser<PP>{}, complete,(P{}), complete_parser<P>{})
    .parsersEq (tMod (P Apm2) (M .complete)) (P (.complete Apm2)),  -- 80: DEP_ASSERT_MODIFIER_MODULO_OPERABLE_R(PP{}, complete, complete_parser<PP>{}, P{}, complete, complete_parser<P>{})
    .parsersEq (tCall (M .complete) [(P Apf1)]) (P (.complete Apf1)),  -- 80: DEP_ASSERT_MODIFIER_CALLABLE_R(complete,(PP{}), complete_parser<PP>{}, complete,(P{}), complete_parser<P>{})
    .parsersEq (tMod (P Apf1) (M .complete)) (P (.complete Apf1))  -- 80: DEP_ASSERT_MODIFIER_MODULO_OPERABLE_R(PP{}, complete, complete_parser<PP>{}, P{}, complete, complete_parser<P>{})
    ], Assertion.Holds a :=
  Assertion.holds_of_check (by decide +kernel)

/-- complete modifier / modify anything (tests/char-tests/modifiers/complete.cpp:80) -/
theorem charModifiersComplete_4_3 : ∀ a ∈ [
    .parsersEq (tCall (M .complete) [(P Int1)]) (P (.complete Int1)),  -- 80: DEP_ASSERT_MODIFIER_CALLABLE_R(complete,(PP{}), complete_parser<PP>{}, complete,(P{}), complete_parser<P>{})
    .parsersEq (tMod (P Int1) (M .complete)) (P (.complete Int1)),  -- 80: DEP_ASSERT_MODIFIER_MODULO_OPERABLE_R(PP{}, complete, complete_parser<PP>{}, P{}, complete, complete_parser<P>{})
    .parsersEq (tCall (M .complete) [(P Int2)]) (P (.complete Int2)),  -- 80: DEP_ASSERT_MODIFIER_CALLABLE_R(complete,(PP{}), complete_parser<PP>{}, complete,(P{}), complete_parser<P>{})
    .parsersEq (tMod (P Int2) (M .complete)) (P (.complete Int2)),  -- 80: DEP_ASSERT_MODIFIER_MODULO_OPERABLE_R(PP{}, complete, complete_parser<PP>{}, P{}, complete, complete_parser<P>{})
    .parsersEq (tCall (M .complete) [(P Int3)]) (P (.complete Int3)),  -- 80: DEP_ASSERT_MODIFIER_CALLABLE_R(complete,(PP{}), complete_parser<PP>{}, complete,(P{}), complete_parser<P>{})
    .parsersEq (tMod (P Int3) (M .complete)) (P (.complete Int3)),  -- 80: DEP_ASSERT_MODIFIER_MODULO_OPERABLE_R(PP{}, complete, complete_parser<PP>{}, P{}, complete, complete_parser<P>{})
    .parsersEq (tCall (M .complete) [(P Api1)]) (P (.complete Api1)),  -- 80: DEP_ASSERT_MODIFIER_CALLABLE_R(complete,(PP{}), complete_parser<PP>{}, complete,(P{}), complete_parser<P>{})
    .parsersEq (tMod (P Api1) (M .complete)) (P (.complete Api1)),  -- 80: DEP_ASSERT_MODIFIER_MODULO_OPERABLE_R(PP{}, complete, complete_parser<PP>{}, P{}, complete, complete_parser<P>{})
    .parsersEq (tCall (M .complete) [(P Api2)]) (P (.complete Api2)),  -- 80: DEP_ASSERT_MODIFIER_CALLABLE_R(complete,(PP{}), complete_parser<PP>{}, complete,(P{}), complete_parser<P>{})
    .parsersEq (tMod (P Api2) (M .complete)) (P (.complete Api2)),  -- 80: DEP_ASSERT_MODIFIER_MODULO_OPERABLE_R(PP{}, complete, complete_parser<PP>{}, P{}, complete, complete_parser<P>{})
    .parsersEq (tCall (M .complete) [(P Con1)]) (P (.complete Con1)),  -- 80: DEP_ASSERT_MODIFIER_CALLABLE_R(complete,(PP{}), complete_parser<PP>{}, complete,(P{}), complete_parser<P>{})
    .parsersEq (tMod (P Con1) (M .complete)) (P (.complete Con1)),  -- 80: DEP_ASSERT_MODIFIER_MODULO_OPERABLE_R(PP{}, complete, complete_parser<PP>{}, P{}, complete, complete_parser<P>{})
    .parsersEq (tCall (M .complete) [(P Con2)]) (P (.complete Con2)),  -- 80: DEP_ASSERT_MODIFIER_CALLABLE_R(complete,(PP{}), complete_parser<PP>{}, complete,(P{}), complete_parser<P>{})
    .parsersEq (tMod (P Con2) (M .complete)) (P (.complete Con2)),  -- 80: DEP_ASSERT_MODIFIER_MODULO_OPERABLE_R(PP{}, complete, complete_parser<PP>{}, P{}, complete, complete_parser<P>{})
    .parsersEq (tCall (M .complete) [(P Con3)]) (P (.complete Con3)),  -- 80: DEP_ASSERT_MODIFIER_CALLABLE_R(complete,(PP{}), complete_parser<PP>{}, complete,(P{}), complete_parser<P>{})
    .parsersEq (tMod (P Con3) (M .complete)) (P (.complete Con3)),  -- 80: DEP_ASSERT_MODIFIER_MODULO_OPERABLE_R(PP{}, complete, complete_parser<PP>{}, P{}, complete, complete_parser<P>{})
    .parsersEq (tCall (M .complete) [(P Con4)]) (P (.complete Con4)),  -- 80: DEP_ASSERT_MODIFIER_CALLABLE_R(complete,(PP{}), complete_parser<PP>{}, complete,(P{}), complete_parser<P>{})
    .parsersEq (tMod (P Con4) (M .complete)) (P (.complete Con4)),  -- 80: DEP_ASSERT_MODIFIER_MODULO_OPERABLE_R(PP{}, complete, complete_parser<PP>{}, P{}, complete, complete_parser<P>{})
    .parsersEq (tCall (M .complete) [(P Def1)]) (P (.complete Def1)),  -- 80: DEP_ASSERT_MODIFIER_CALLABLE_R(complete,(PP{}), complete_parser<PP>{}, complete,(P{}), complete_parser<P>{})
    .parsersEq (tMod (P Def1) (M .complete)) (P (.complete Def1)),  -- 80: DEP_ASSERT_MODIFIER_MODULO_OPERABLE_R(PP{}, complete, complete_parser<PP>{}, P{}, complete, complete_parser<P>{})
    .parsersEq (tCall (M .complete) [(P Def2)]) (P (.complete Def2)),  -- 80: DEP_ASSERT_MODIFIER_CALLABLE_R(complete,(PP{}), complete_parser<PP>{}, complete,(P{}), complete_parser<P>{})
    .parsersEq (tMod (P Def2) (M .complete)) (P (.complete Def2)),  -- 80: DEP_ASSERT_MODIFIER_MODULO_OPERABLE_R(PP{}, complete, complete_parser<PP>{}, P{}, complete, complete_parser<P>{})
    .parsersEq (tCall (M .complete) [(P (.custom 0))]) (P (.complete (.custom 0))),  -- 80: DEP_ASSERT_MODIFIER_CALLABLE_R(complete,(PP{}), complete_parser<PP>{}, complete,(P{}), complete_parser<P>{})
    .parsersEq (tMod (P (.custom 0)) (M .complete)) (P (.complete (.custom 0))),  -- 80: DEP_ASSERT_MODIFIER_MODULO_OPERABLE_R(PP{}, complete, complete_parser<PP>{}, P{}, complete, complete_parser<P>{})
    .parsersEq (tCall (M .complete) [(P (.custom 1))]) (P (.complete (.custom 1))),  -- 80: DEP_ASSERT_MODIFIER_CALLABLE_R(complete,(PP{}), complete_parser<PP>{}, complete,(P{}), complete_parser<P>{})
    .parsersEq (tMod (P (.custom 1)) (M .complete)) (P (.complete (.custom 1))),  -- 80: DEP_ASSERT_MODIFIER_MODULO_OPERABLE_R(PP{}, complete, complete_parser<PP>{}, P{}, complete, complete_parser<P>{})
    .parsersEq (tCall (M .complete) [(P May1)]) (P (.complete May1)),  -- 80: DEP_ASSERT_MODIFIER_CALLABLE_R(complete,(PP{}), complete_parser<PP>{}, complete,(P{}), complete_parser<P>{})
    .parsersEq (tMod (P May1) (M .complete)) (P (.complete May1)),  -- 80: DEP_ASSERT_MODIFIER_MODULO_OPERABLE_R(PP{}, complete, complete_parser<PP>{}, P{}, complete, complete_parser<P>{})
    .parsersEq (tCall (M .complete) [(P May2)]) (P (.complete May2)),  -- 80: DEP_ASSERT_MODIFIER_CALLABLE_R(complete,(PP{}), complete_parser<PP>{}, complete,(P{}), complete_parser<P>{})
    .parsersEq (tMod (P May2) (M .complete)) (P (.complete May2)),  -- 80: DEP_ASSERT_MODIFIER_MODULO_OPERABLE_R(PP{}, complete, complete_parser<PP>{}, P{}, complete, complete_parser<P>{})
    .parsersEq (tCall (M .complete) [(P May3)]) (P (.complete May3)),  -- 80: DEP_ASSERT_MODIFIER_CALLABLE_R(complete,(PP{}), complete_parser<PP>{}, complete,(P{}), complete_parser<P>{})
    .parsersEq (tMod (P May3) (M .complete)) (P (.complete May3)),  -- 80: DEP_ASSERT_MODIFIER_MODULO_OPERABLE_R(PP{}, complete, complete_parser<PP>{}, P{}, complete, complete_parser<P>{})
    .parsersEq (tCall (M .complete) [(P May4)]) (P (.complete May4)),  -- 80: DEP_ASSERT_MODIFIER_CALLABLE_R(complete,(PP{}), complete_parser<PP>{}, complete,(P{}), complete_parser<P>{})
    .parsersEq (tMod (P May4) (M .complete)) (P (.complete May4)),  -- 80: DEP_ASSERT_MODIFIER_MODULO_OPERABLE_R(PP{}, complete, complete_parser<PP>{}, P{}, complete, complete_parser<P>{})
    .parsersEq (tCall (M .complete) [(P Exa1)]) (P (.complete Exa1)),  -- 80: DEP_ASSERT_MODIFIER_CALLABLE_R(complete,(PP{}), complete_parser<PP>{}, complete,(P{}), complete_parser<P>{})
    .parsersEq (tMod (P Exa1) (M .complete)) (P (.complete Exa1)),  -- 80: DEP_ASSERT_MODIFIER_MODULO_OPERABLE_R(PP{}, complete, complete_parser<PP>{}, P{}, complete, complete_parser<P>{})
    .parsersEq (tCall (M .complete) [(P Exa2)]) (P (.complete Exa2)),  -- 80: DEP_ASSERT_MODIFIER_CALLABLE_R(complete,(PP{}), complete_parser<PP>{}, complete,(P{}), complete_parser<P>{})
    .parsersEq (tMod (P Exa2) (M .complete)) (P (.complete Exa2)),  -- 80: DEP_ASSERT_MODIFIER_MODULO_OPERABLE_R(PP{}, complete, complete_parser<PP>{}, P{}, complete, complete_parser<P>{})
    .parsersEq (tCall (M .complete) [(P Exa3)]) (P (.complete Exa3)),  -- 80: DEP_ASSERT_MODIFIER_CALLABLE_R(complete,(PP{}), complete_parser<PP>{}, complete,(P{}), complete_parser<P>{})
    .parsersEq (tMod (P Exa3) (M .complete)) (P (.complete Exa3)),  -- 80: DEP_ASSERT_MODIFIER_MODULO_OPERABLE_R(PP{}, complete, complete_parser<PP>{}, P{}, complete, complete_parser<P>{})
    .parsersEq (tCall (M .complete) [(P Exa4)]) (P (.complete Exa4)),  -- 80: DEP_ASSERT_MODIFIER_CALLABLE_R(complete,(PP{}), complete_parser<PP>{}, complete,(P{}), complete_parser<P>{})
    .parsersEq (tMod (P Exa4) (M .complete)) (P (.complete Exa4)),  -- 80: DEP_ASSERT_MODIFIER_MODULO_OPERABLE_R(PP{}, complete, complete_parser<PP>{}, P{}, complete, complete_parser<P>{})
    .parsersEq (tCall (M .complete) [(P Oom1)]) (P (.complete Oom1)),  -- 80: DEP_ASSERT_MODIFIER_CALLABLE_R(complete,(PP{}), complete_parser<PP>{}, complete,(P{}), complete_parser<P>{})
    .parsersEq (tMod (P Oom1) (M .complete)) (P (.complete Oom1)),  -- 80: DEP_ASSERT_MODIFIER_MODULO_OPERABLE_R(PP{}, complete, complete_parser<PP>{}, P{}, complete, complete_parser<P>{})
    .parsersEq (tCall (M .complete) [(P Oom2)]) (P (.complete Oom2)),  -- 80: DEP_ASSERT_MODIFIER_CALLABLE_R(complete,(PP{}), complete_parser<PP>{}, complete,(P{}), complete_parser<P>{})
    .parsersEq (tMod (P Oom2) (M .complete)) (P (.complete Oom2)),  -- 80: DEP_ASSERT_MODIFIER_MODULO_OPERABLE_R(PP{}, complete, complete_parser<PP>{}, P{}, complete, complete_parser<P>{})
    .parsersEq (tCall (M .complete) [(P Oom3)]) (P (.complete Oom3)),  -- 80: DEP_ASSERT_MODIFIER_CALLABLE_R(complete,(PP{}), complete_parser<PP>{}, complete,(P{}), complete_parser<P>{})
    .parsersEq (tMod (P Oom3) (M .complete)) (P (.complete Oom3)),  -- 80: DEP_ASSERT_MODIFIER_MODULO_OPERABLE_R(PP{}, complete, complete_parser<PP>{}, P{}, complete, complete_parser<P>{})
    .parsersEq (tCall (M .complete) [(P Oom4)]) (P (.complete Oom4)),  -- 80: DEP_ASSERT_MODIFIER_CALLABLE_R(complete,(PP{}), complete_parser<PP>{}, complete,(P{}), complete_parser<P>{})
    .parsersEq (tMod (P Oom4) (M .complete)) (P (.complete Oom4)),  -- 80: DEP_ASSERT_MODIFIER_MODULO_OPERABLE_R(PP{}, complete, complete_parser<PP>{}, P{}, complete, complete_parser<P>{})
    .parsersEq (tCall (M .complete) [(P Zom1)]) (P (.complete Zom1)),  -- 80: DEP_ASSERT_MODIFIER_CALLABLE_R(complete,(PP{}), complete_parser<PP>{}, complete,(P{}), complete_parser<P>{})
    .parsersEq (tMod (P Zom1) (M .complete)) (P (.complete Zom1)),  -- 80: DEP_ASSERT_MODIFIER_MODULO_OPERABLE_R(PP{}, complete, complete_parser<PP>{}, P{}, complete, complete_parser<P>{})
    .parsersEq (tCall (M .complete) [(P Zom2)]) (P (.complete Zom2)),  -- 80: DEP_ASSERT_MODIFIER_CALLABLE_R(complete,(PP{}), complete_parser<PP>{}, complete,(P{}), complete_parser<P>{})
    .parsersEq (tMod (P Zom2) (M .complete)) (P (.complete Zom2)),  -- 80: DEP_ASSERT_MODIFIER_MODULO_OPERABLE_R(PP{}, complete, complete_parser<PP>{}, P{}, complete, complete_parser<P>{})
    .parsersEq (tCall (M .complete) [(P Zom3)]) (P (.complete Zom3)),  -- 80: DEP_ASSERT_MODIFIER_CALLABLE_R(complete,(PP{}), complete_parser<PP>{}, complete,(P{}), complete_parser<P>{})
    .parsersEq (tMod (P Zom3) (M .complete)) (P (.complete Zom3)),  -- 80: DEP_ASSERT_MODIFIER_MODULO_OPERABLE_R(PP{}, complete, complete_parser<PP>{}, P{}, complete, complete_parser<P>{})
    .parsersEq (tCall (M .complete) [(P Zom4)]) (P (.complete Zom4)),  -- 80: DEP_ASSERT_MODIFIER_CALLABLE_R(complete,(PP{}), complete_parser<PP>{}, complete,(P{}), complete_parser<P>{})
    .parsersEq (tMod (P Zom4) (M .complete)) (P (.complete Zom4)),  -- 80: DEP_ASSERT_MODIFIER_MODULO_OPERABLE_R(PP{}, complete, complete_parser<PP>{}, P{}, complete, complete_parser<P>{})
    .parsersEq (tCall (M .complete) [(P Del1)]) (P (.complete Del1)),  -- 80: DEP_ASSERT_MODIFIER_CALLABLE_R(complete,(PP{}), complete_parser<PP>{}, complete,(P{}), complete_parser<P>{})
    .parsersEq (tMod (P Del1) (M .complete)) (P (.complete Del1))  -- 80: DEP_ASSERT_MODIFIER_MODULO_OPERABLE_R(PP{}, complete, complete_parser<PP>{}, P{}, complete, complete_parser<P>{})
    ], Assertion.Holds a :=
  Assertion.holds_of_check (by decide +kernel)

/-- complete modifier / modify anything (tests/char-tests/modifiers/complete.cpp:80) -/
theorem charModifiersComplete_4_4 : ∀ a ∈ [
    .parsersEq (tCall (M .complete) [(P Del2)]) (P (.complete Del2)),  -- 80: DEP_ASSERT_MODIFIER_CALLABLE_R(complete,(PP{}), complete_parser<PP>{}, complete,(P{}), complete_parser<P>{})
    .parsersEq (tMod (P Del2) (M .complete)) (P (.complete Del2)),  -- 80: DEP_ASSERT_MODIFIER_MODULO_OPERABLE_R(PP{}, complete, complete_parser<PP>{}, P{}, complete, complete_parser<P>{})
    .parsersEq (tCall (M .complete) [(P Del3)]) (P (.complete Del3)),  -- 80: DEP_ASSERT_MODIFIER_CALLABLE_R(complete,(PP{}), complete_parser<PP>{}, complete,(P{}), complete_parser<P>{})
    .parsersEq (tMod (P Del3) (M .complete)) (P (.complete Del3)),  -- 80: DEP_ASSERT_MODIFIER_MODULO_OPERABLE_R(PP{}, complete, complete_parser<PP>{}, P{}, complete, complete_parser<P>{})
    .parsersEq (tCall (M .complete) [(P Del4)]) (P (.complete Del4)),  -- 80: DEP_ASSERT_MODIFIER_CALLABLE_R(complete,(PP{}), complete_parser<PP>{}, complete,(P{}), complete_parser<P>{})
    .parsersEq (tMod (P Del4) (M .complete)) (P (.complete Del4)),  -- 80: DEP_ASSERT_MODIFIER_MODULO_OPERABLE_R(PP{}, complete, complete_parser<PP>{}, P{}, complete, complete_parser<P>{})
    .parsersEq (tCall (M .complete) [(P Del5)]) (P (.complete Del5)),  -- 80: DEP_ASSERT_MODIFIER_CALLABLE_R(complete,(PP{}), complete_parser<PP>{}, complete,(P{}), complete_parser<P>{})
    .parsersEq (tMod (P Del5) (M .complete)) (P (.complete Del5)),  -- 80: DEP_ASSERT_MODIFIER_MODULO_OPERABLE_R(PP{}, complete, complete_parser<PP>{}, P{}, complete, complete_parser<P>{})
    .parsersEq (tCall (M .complete) [(P Del6)]) (P (.complete Del6)),  -- 80: DEP_ASSERT_MODIFIER_CALLABLE_R(complete,(PP{}), complete_parser<PP>{}, complete,(P{}), complete_parser<P>{})
    .parsersEq (tMod (P Del6) (M .complete)) (P (.complete Del6)),  -- 80: DEP_ASSERT_MODIFIER_MODULO_OPERABLE_R(PP{}, complete, complete_parser<PP>{}, P{}, complete, complete_parser<P>{})
    .parsersEq (tCall (M .complete) [(P Del7)]) (P (.complete Del7)),  -- 80: DEP_ASSERT_MODIFIER_CALLABLE_R(complete,(PP{}), complete_parser<PP>{}, complete,(P{}), complete_parser<P>{})
    .parsersEq (tMod (P Del7) (M .complete)) (P (.complete Del7)),  -- 80: DEP_ASSERT_MODIFIER_MODULO_OPERABLE_R(PP{}, complete, complete_parser<PP>{}, P{}, complete, complete_parser<P>{})
    .parsersEq (tCall (M .complete) [(P Del8)]) (P (.complete Del8)),  -- 80: DEP_ASSERT_MODIFIER_CALLABLE_R(complete,(PP{}), complete_parser<PP>{}, complete,(P{}), complete_parser<P>{})
    .parsersEq (tMod (P Del8) (M .complete)) (P (.complete Del8)),  -- 80: DEP_ASSERT_MODIFIER_MODULO_OPERABLE_R(PP{}, complete, complete_parser<PP>{}, P{}, complete, complete_parser<P>{})
    .parsersEq (tCall (M .complete) [(P Dek1)]) (P (.complete Dek1)),  -- 80: DEP_ASSERT_MODIFIER_CALLABLE_R(complete,(PP{}), complete_parser<PP>{}, complete,(P{}), complete_parser<P>{})
    .parsersEq (tMod (P Dek1) (M .complete)) (P (.complete Dek1)),  -- 80: DEP_ASSERT_MODIFIER_MODULO_OPERABLE_R(PP{}, complete, complete_parser<PP>{}, P{}, complete, complete_parser<P>{})
    .parsersEq (tCall (M .complete) [(P Dek2)]) (P (.complete Dek2)),  -- 80: DEP_ASSERT_MODIFIER_CALLABLE_R(complete,(PP{}), complete_parser<PP>{}, complete,(P{}), complete_parser<P>{})
    .parsersEq (tMod (P Dek2) (M .complete)) (P (.complete Dek2)),  -- 80: DEP_ASSERT_MODIFIER_MODULO_OPERABLE_R(PP{}, complete, complete_parser<PP>{}, P{}, complete, complete_parser<P>{})
    .parsersEq (tCall (M .complete) [(P Dek3)]) (P (.complete Dek3)),  -- 80: DEP_ASSERT_MODIFIER_CALLABLE_R(complete,(PP{}), complete_parser<PP>{}, complete,(P{}), complete_parser<P>{})
    .parsersEq (tMod (P Dek3) (M .complete)) (P (.complete Dek3)),  -- 80: DEP_ASSERT_MODIFIER_MODULO_OPERABLE_R(PP{}, complete, complete_parser<PP>{}, P{}, complete, complete_parser<P>{})
    .parsersEq (tCall (M .complete) [(P Dek4)]) (P (.complete Dek4)),  -- 80: DEP_ASSERT_MODIFIER_CALLABLE_R(complete,(PP{}), complete_parser<PP>{}, complete,(P{}), complete_parser<P>{})
    .parsersEq (tMod (P Dek4) (M .complete)) (P (.complete Dek4)),  -- 80: DEP_ASSERT_MODIFIER_MODULO_OPERABLE_R(PP{}, complete, complete_parser<PP>{}, P{}, complete, complete_parser<P>{})
    .parsersEq (tCall (M .complete) [(P Dek5)]) (P (.complete Dek5)),  -- 80: DEP_ASSERT_MODIFIER_CALLABLE_R(complete,(PP{}), complete_parser<PP>{}, complete,(P{}), complete_parser<P>{})
    .parsersEq (tMod (P Dek5) (M .complete)) (P (.complete Dek5)),  -- 80: DEP_ASSERT_MODIFIER_MODULO_OPERABLE_R(PP{}, complete, complete_parser<PP>{}, P{}, complete, complete_parser<P>{})
    .parsersEq (tCall (M .complete) [(P Dek6)]) (P (.complete Dek6)),  -- 80: DEP_ASSERT_MODIFIER_CALLABLE_R(complete,(PP{}), complete_parser<PP>{}, complete,(P{}), complete_parser<P>{})
    .parsersEq (tMod (P Dek6) (M .complete)) (P (.complete Dek6)),  -- 80: DEP_ASSERT_MODIFIER_MODULO_OPERABLE_R(PP{}, complete, complete_parser<PP>{}, P{}, complete, complete_parser<P>{})
    .parsersEq (tCall (M .complete) [(P Dek7)]) (P (.complete Dek7)),  -- 80: DEP_ASSERT_MODIFIER_CALLABLE_R(complete,(PP{}), complete_parser<PP>{}, complete,(P{}), complete_parser<P>{})
    .parsersEq (tMod (P Dek7) (M .complete)) (P (.complete Dek7)),  -- 80: DEP_ASSERT_MODIFIER_MODULO_OPERABLE_R(PP{}, complete, complete_parser<PP>{}, P{}, complete, complete_parser<P>{})
    .parsersEq (tCall (M .complete) [(P Dek8)]) (P (.complete Dek8)),  -- 80: DEP_ASSERT_MODIFIER_CALLABLE_R(complete,(PP{}), complete_parser<PP>{}, complete,(P{}), complete_parser<P>{})
    .parsersEq (tMod (P Dek8) (M .complete)) (P (.complete Dek8))  -- 80: DEP_ASSERT_MODIFIER_MODULO_OPERABLE_R(PP{}, complete, complete_parser<PP>{}, P{}, complete, complete_parser<P>{})
    ], Assertion.Holds a :=
  Assertion.holds_of_check (by decide +kernel)

end Tok3n.Tests
