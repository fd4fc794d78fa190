import Verif.Tests.Gen.SamplesChar
/- Generated by tools/tests2lean.py from tests/char-tests/modifiers/name.cpp. -/

namespace Tok3n.Tests

/-- name modifier / prefix (tests/char-tests/modifiers/name.cpp:14) -/
theorem charModifiersName_1 : ∀ a ∈ [
    .parsersEq (P Nam1) (tCall (M (.name ⟨0, [110, 97, 109, 49]⟩)) [(P ABC)]),  -- 14: ASSERT_PARSER_VALUES_EQ(nam1, name<"nam1">(abc))
    .parsersEq (P Nam2) (tCall (M (.name ⟨0, [110, 97, 109, 50]⟩)) [(tPlus (P ABC))]),  -- 15: ASSERT_PARSER_VALUES_EQ(nam2, name<"nam2">(+ abc))
    .parsersEq (P Nam3) (tCall (M (.name ⟨0, [110, 97, 109, 51]⟩)) [(tMaybe (tOr (P ABC) (P QQ)))]),  -- 16: ASSERT_PARSER_VALUES_EQ(nam3, name<"nam3">(~(abc | qq)))
    .parsersEq (P Nam4) (tCall (M (.name ⟨0, [110, 97, 109, 52]⟩)) [(tThen (P ABC) (tStar (P QQ)))])  -- 17: ASSERT_PARSER_VALUES_EQ(nam4, name<"nam4">(abc>> * qq))
    ], Assertion.Holds a :=
  Assertion.holds_of_check (by decide +kernel)

/-- name modifier / infix (tests/char-tests/modifiers/name.cpp:22) -/
theorem charModifiersName_2 : ∀ a ∈ [
    .parsersEq (P Nam1) (tMod (P ABC) (M (.name ⟨0, [110, 97, 109, 49]⟩))),  -- 22: ASSERT_PARSER_VALUES_EQ(nam1, abc % name<"nam1">)
    .parsersEq (P Nam2) (tMod (tPlus (P ABC)) (M (.name ⟨0, [110, 97, 109, 50]⟩))),  -- 23: ASSERT_PARSER_VALUES_EQ(nam2, + abc % name<"nam2">)
    .parsersEq (P Nam3) (tMod (tMaybe (tOr (P ABC) (P QQ))) (M (.name ⟨0, [110, 97, 109, 51]⟩))),  -- 24: ASSERT_PARSER_VALUES_EQ(nam3, ~(abc | qq) % name<"nam3">)
    .parsersEq (P Nam4) (tMod (tThen (P ABC) (tStar (P QQ))) (M (.name ⟨0, [110, 97, 109, 52]⟩)))  -- 25: ASSERT_PARSER_VALUES_EQ(nam4,(abc>> * qq) % name<"nam4">)
    ], Assertion.Holds a :=
  Assertion.holds_of_check (by decide +kernel)

/-- name modifier / modify anything (tests/char-tests/modifiers/name.cpp:44) -/
theorem charModifiersName_3_1 : ∀ a ∈ [
    .parsersEq (tCall (M (.name ⟨0, [116, 101, 115, 116, 49]⟩)) [(P Ign1)]) (P (.named Ign1 ⟨0, [116, 101, 115, 116, 49]⟩)),  -- 44: ASSERT_MODIFIER_CALLABLE_R(name<"test1">,(P{}),(named_parser<P, "test1">{}))
    .parsersEq (tCall (M (.name ⟨0, [116, 101, 115, 116, 50]⟩)) [(P Ign1)]) (P (.named Ign1 ⟨0, [116, 101, 115, 116, 50]⟩)),  -- 44: ASSERT_MODIFIER_CALLABLE_R(name<"test2">,(P{}),(named_parser<P, "test2">{}))
    .parsersEq (tMod (P Ign1) (M (.name ⟨0, [116, 101, 115, 116, 49]⟩))) (P (.named Ign1 ⟨0, [116, 101, 115, 116, 49]⟩)),  -- 44: ASSERT_MODIFIER_MODULO_OPERABLE_R(P{}, name<"test1">,(named_parser<P, "test1">{}))
    .parsersEq (tMod (P Ign1) (M (.name ⟨0, [116, 101, 115, 116, 50]⟩))) (P (.named Ign1 ⟨0, [116, 101, 115, 116, 50]⟩)),  -- 44: ASSERT_MODIFIER_MODULO_OPERABLE_R(P{}, name<"test2">,(named_parser<P, "test2">{}))
    .parsersEq (tCall (M (.name ⟨0, [116, 101, 115, 116, 49]⟩)) [(P Ign2)]) (P (.named Ign2 ⟨0, [116, 101, 115, 116, 49]⟩)),  -- 44: ASSERT_MODIFIER_CALLABLE_R(name<"test1">,(P{}),(named_parser<P, "test1">{}))
    .parsersEq (tCall (M (.name ⟨0, [116, 101, 115, 116, 50]⟩)) [(P Ign2)]) (P (.named Ign2 ⟨0, [116, 101, 115, 116, 50]⟩)),  -- 44: ASSERT_MODIFIER_CALLABLE_R(name<"test2">,(P{}),(named_parser<P, "test2">{}))
    .parsersEq (tMod (P Ign2) (M (.name ⟨0, [116, 101, 115, 116, 49]⟩))) (P (.named Ign2 ⟨0, [116, 101, 115, 116, 49]⟩)),  -- 44: ASSERT_MODIFIER_MODULO_OPERABLE_R(P{}, name<"test1">,(named_parser<P, "test1">{}))
    .parsersEq (tMod (P Ign2) (M (.name ⟨0, [116, 101, 115, 116, 50]⟩))) (P (.named Ign2 ⟨0, [116, 101, 115, 116, 50]⟩)),  -- 44: ASSERT_MODIFIER_MODULO_OPERABLE_R(P{}, name<"test2">,(named_parser<P, "test2">{}))
    .parsersEq (tCall (M (.name ⟨0, [116, 101, 115, 116, 49]⟩)) [(P Ign3)]) (P (.named Ign3 ⟨0, [116, 101, 115, 116, 49]⟩)),  -- 44: ASSERT_MODIFIER_CALLABLE_R(name<"test1">,(P{}),(named_parser<P, "test1">{}))
    .parsersEq (tCall (M (.name ⟨0, [116, 101, 115, 116, 50]⟩)) [(P Ign3)]) (P (.named Ign3 ⟨0, [116, 101, 115, 116, 50]⟩)),  -- 44: ASSERT_MODIFIER_CALLABLE_R(name<"test2">,(P{}),(named_parser<P, "test2">{}))
    .parsersEq (tMod (P Ign3) (M (.name ⟨0, [116, 101, 115, 116, 49]⟩))) (P (.named Ign3 ⟨0, [116, 101, 115, 116, 49]⟩)),  -- 44: ASSERT_MODIFIER_MODULO_OPERABLE_R(P{}, name<"test1">,(named_parser<P, "test1">{}))
    .parsersEq (tMod (P Ign3) (M (.name ⟨0, [116, 101, 115, 116, 50]⟩))) (P (.named Ign3 ⟨0, [116, 101, 115, 116, 50]⟩)),  -- 44: ASSERT_MODIFIER_MODULO_OPERABLE_R(P{}, name<"test2">,(named_parser<P, "test2">{}))
    .parsersEq (tCall (M (.name ⟨0, [116, 101, 115, 116, 49]⟩)) [(P Ign4)]) (P (.named Ign4 ⟨0, [116, 101, 115, 116, 49]⟩)),  -- 44: ASSERT_MODIFIER_CALLABLE_R(name<"test1">,(P{}),(named_parser<P, "test1">{}))
    .parsersEq (tCall (M (.name ⟨0, [116, 101, 115, 116, 50]⟩)) [(P Ign4)]) (P (.named Ign4 ⟨0, [116, 101, 115, 116, 50]⟩)),  -- 44: ASSERT_MODIFIER_CALLABLE_R(name<"test2">,(P{}),(named_parser<P, "test2">{}))
    .parsersEq (tMod (P Ign4) (M (.name ⟨0, [116, 101, 115, 116, 49]⟩))) (P (.named Ign4 ⟨0, [116, 101, 115, 116, 49]⟩)),  -- 44: ASSERT_MODIFIER_MODULO_OPERABLE_R(P{}, name<"test1">,(named_parser<P, "test1">{}))
    .parsersEq (tMod (P Ign4) (M (.name ⟨0, [116, 101, 115, 116, 50]⟩))) (P (.named Ign4 ⟨0, [116, 101, 115, 116, 50]⟩)),  -- 44: ASSERT_MODIFIER_MODULO_OPERABLE_R(P{}, name<"test2">,(named_parser<P, "test2">{}))
    .parsersEq (tCall (M (.name ⟨0, [116, 101, 115, 116, 49]⟩)) [(P Ign5)]) (P (.named Ign5 ⟨0, [116, 101, 115, 116, 49]⟩)),  -- 44: ASSERT_MODIFIER_CALLABLE_R(name<"test1">,(P{}),(named_parser<P, "test1">{}))
    .parsersEq (tCall (M (.name ⟨0, [116, 101, 115, 116, 50]⟩)) [(P Ign5)]) (P (.named Ign5 ⟨0, [116, 101, 115, 116, 50]⟩)),  -- 44: ASSERT_MODIFIER_CALLABLE_R(name<"test2">,(P{}),(named_parser<P, "test2">{}))
    .parsersEq (tMod (P Ign5) (M (.name ⟨0, [116, 101, 115, 116, 49]⟩))) (P (.named Ign5 ⟨0, [116, 101, 115, 116, 49]⟩)),  -- 44: ASSERT_MODIFIER_MODULO_OPERABLE_R(P{}, name<"test1">,(named_parser<P, "test1">{}))
    .parsersEq (tMod (P Ign5) (M (.name ⟨0, [116, 101, 115, 116, 50]⟩))) (P (.named Ign5 ⟨0, [116, 101, 115, 116, 50]⟩)),  -- 44: ASSERT_MODIFIER_MODULO_OPERABLE_R(P{}, name<"test2">,(named_parser<P, "test2">{}))
    .parsersEq (tCall (M (.name ⟨0, [116, 101, 115, 116, 49]⟩)) [(P Com1)]) (P (.named Com1 ⟨0, [116, 101, 115, 116, 49]⟩)),  -- 44: ASSERT_MODIFIER_CALLABLE_R(name<"test1">,(P{}),(named_parser<P, "test1">{}))
    .parsersEq (tCall (M (.name ⟨0, [116, 101, 115, 116, 50]⟩)) [(P Com1)]) (P (.named Com1 ⟨0, [116, 101, 115, 116, 50]⟩)),  -- 44: ASSERT_MODIFIER_CALLABLE_R(name<"test2">,(P{}),(named_parser<P, "test2">{}))
    .parsersEq (tMod (P Com1) (M (.name ⟨0, [116, 101, 115, 116, 49]⟩))) (P (.named Com1 ⟨0, [116, 101, 115, 116, 49]⟩)),  -- 44: ASSERT_MODIFIER_MODULO_OPERABLE_R(P{}, name<"test1">,(named_parser<P, "test1">{}))
    .parsersEq (tMod (P Com1) (M (.name ⟨0, [116, 101, 115, 116, 50]⟩))) (P (.named Com1 ⟨0, [116, 101, 115, 116, 50]⟩)),  -- 44: ASSERT_MODIFIER_MODULO_OPERABLE_R(P{}, name<"test2">,(named_parser<P, "test2">{}))
    .parsersEq (tCall (M (.name ⟨0, [116, 101, 115, 116, 49]⟩)) [(P Com2)]) (P (.named Com2 ⟨0, [116, 101, 115, 116, 49]⟩)),  -- 44: ASSERT_MODIFIER_CALLABLE_R(name<"test1">,(P{}),(named_parser<P, "test1">{}))
    .parsersEq (tCall (M (.name ⟨0, [116, 101, 115, 116, 50]⟩)) [(P Com2)]) (P (.named Com2 ⟨0, [116, 101, 115, 116, 50]⟩)),  -- 44: ASSERT_MODIFIER_CALLABLE_R(name<"test2">,(P{}),(named_parser<P, "test2">{}))
    .parsersEq (tMod (P Com2) (M (.name ⟨0, [116, 101, 115, 116, 49]⟩))) (P (.named Com2 ⟨0, [116, 101, 115, 116, 49]⟩)),  -- 44: ASSERT_MODIFIER_MODULO_OPERABLE_R(P{}, name<"test1">,(named_parser<P, "test1">{}))
    .parsersEq (tMod (P Com2) (M (.name ⟨0, [116, 101, 115, 116, 50]⟩))) (P (.named Com2 ⟨0, [116, 101, 115, 116, 50]⟩)),  -- 44: ASSERT_MODIFIER_MODULO_OPERABLE_R(P{}, name<"test2">,(named_parser<P, "test2">{}))
    .parsersEq (tCall (M (.name ⟨0, [116, 101, 115, 116, 49]⟩)) [(P Com3)]) (P (.named Com3 ⟨0, [116, 101, 115, 116, 49]⟩)),  -- 44: ASSERT_MODIFIER_CALLABLE_R(name<"test1">,(P{}),(named_parser<P, "test1">{}))
    .parsersEq (tCall (M (.name ⟨0, [116, 101, 115, 116, 50]⟩)) [(P Com3)]) (P (.named Com3 ⟨0, [116, 101, 115, 116, 50]⟩)),  -- 44: ASSERT_MODIFIER_CALLABLE_R(name<"test2">,(P{}),(named_parser<P, "test2">{}))
    .parsersEq (tMod (P Com3) (M (.name ⟨0, [116, 101, 115, 116, 49]⟩))) (P (.named Com3 ⟨0, [116, 101, 115, 116, 49]⟩)),  -- 44: ASSERT_MODIFIER_MODULO_OPERABLE_R(P{}, name<"test1">,(named_parser<P, "test1">{}))
    .parsersEq (tMod (P Com3) (M (.name ⟨0, [116, 101, 115, 116, 50]⟩))) (P (.named Com3 ⟨0, [116, 101, 115, 116, 50]⟩)),  -- 44: ASSERT_MODIFIER_MODULO_OPERABLE_R(P{}, name<"test2">,(named_parser<P, "test2">{}))
    .parsersEq (tCall (M (.name ⟨0, [116, 101, 115, 116, 49]⟩)) [(P Com4)]) (P (.named Com4 ⟨0, [116, 101, 115, 116, 49]⟩)),  -- 44: ASSERT_MODIFIER_CALLABLE_R(name<"test1">,(P{}),(named_parser<P, "test1">{}))
    .parsersEq (tCall (M (.name ⟨0, [116, 101, 115, 116, 50]⟩)) [(P Com4)]) (P (.named Com4 ⟨0, [116, 101, 115, 116, 50]⟩)),  -- 44: ASSERT_MODIFIER_CALLABLE_R(name<"test2">,(P{}),(named_parser<P, "test2">{}))
    .parsersEq (tMod (P Com4) (M (.name ⟨0, [116, 101, 115, 116, 49]⟩))) (P (.named Com4 ⟨0, [116, 101, 115, 116, 49]⟩)),  -- 44: ASSERT_MODIFIER_MODULO_OPERABLE_R(P{}, name<"test1">,(named_parser<P, "test1">{}))
    .parsersEq (tMod (P Com4) (M (.name ⟨0, [116, 101, 115, 116, 50]⟩))) (P (.named Com4 ⟨0, [116, 101, 115, 116, 50]⟩)),  -- 44: ASSERT_MODIFIER_MODULO_OPERABLE_R(P{}, name<"test2">,(named_parser<P, "test2">{}))
    .parsersEq (tCall (M (.name ⟨0, [116, 101, 115, 116, 49]⟩)) [(P Com5)]) (P (.named Com5 ⟨0, [116, 101, 115, 116, 49]⟩)),  -- 44: ASSERT_MODIFIER_CALLABLE_R(name<"test1">,(P{}),(named_parser<P, "test1">{}))
    .parsersEq (tCall (M (.name ⟨0, [116, 101, 115, 116, 50]⟩)) [(P Com5)]) (P (.named Com5 ⟨0, [116, 101, 115, 116, 50]⟩)),  -- 44: ASSERT_MODIFIER_CALLABLE_R(name<"test2">,(P{}),(named_parser<P, "test2">{}))
    .parsersEq (tMod (P Com5) (M (.name ⟨0, [116, 101, 115, 116, 49]⟩))) (P (.named Com5 ⟨0, [116, 101, 115, 116, 49]⟩)),  -- 44: ASSERT_MODIFIER_MODULO_OPERABLE_R(P{}, name<"test1">,(named_parser<P, "test1">{}))
    .parsersEq (tMod (P Com5) (M (.name ⟨0, [116, 101, 115, 116, 50]⟩))) (P (.named Com5 ⟨0, [116, 101, 115, 116, 50]⟩)),  -- 44: ASSERT_MODIFIER_MODULO_OPERABLE_R(P{}, name<"test2">,(named_parser<P, "test2">{}))
    .parsersEq (tCall (M (.name ⟨0, [116, 101, 115, 116, 49]⟩)) [(P Com6)]) (P (.named Com6 ⟨0, [116, 101, 115, 116, 49]⟩)),  -- 44: ASSERT_MODIFIER_CALLABLE_R(name<"test1">,(P{}),(named_parser<P, "test1">{}))
    .parsersEq (tCall (M (.name ⟨0, [116, 101, 115, 116, 50]⟩)) [(P Com6)]) (P (.named Com6 ⟨0, [116, 101, 115, 116, 50]⟩)),  -- 44: ASSERT_MODIFIER_CALLABLE_R(name<"test2">,(P{}),(named_parser<P, "test2">{}))
    .parsersEq (tMod (P Com6) (M (.name ⟨0, [116, 101, 115, 116, 49]⟩))) (P (.named Com6 ⟨0, [116, 101, 115, 116, 49]⟩)),  -- 44: ASSERT_MODIFIER_MODULO_OPERABLE_R(P{}, name<"test1">,(named_parser<P, "test1">{}))
    .parsersEq (tMod (P Com6) (M (.name ⟨0, [116, 101, 115, 116, 50]⟩))) (P (.named Com6 ⟨0, [116, 101, 115, 116, 50]⟩)),  -- 44: ASSERT_MODIFIER_MODULO_OPERABLE_R(P{}, name<"test2">,(named_parser<P, "test2">{}))
    .parsersEq (tCall (M (.name ⟨0, [116, 101, 115, 116, 49]⟩)) [(P Com7)]) (P (.named Com7 ⟨0, [116, 101, 115, 116, 49]⟩)),  -- 44: ASSERT_MODIFIER_CALLABLE_R(name<"test1">,(P{}),(named_parser<P, "test1">{}))
    .parsersEq (tCall (M (.name ⟨0, [116, 101, 115, 116, 50]⟩)) [(P Com7)]) (P (.named Com7 ⟨0, [116, 101, 115, 116, 50]⟩)),  -- 44: ASSERT_MODIFIER_CALLABLE_R(name<"test2">,(P{}),(named_parser<P, "test2">{}))
    .parsersEq (tMod (P Com7) (M (.name ⟨0, [116, 101, 115, 116, 49]⟩))) (P (.named Com7 ⟨0, [116, 101, 115, 116, 49]⟩)),  -- 44: ASSERT_MODIFIER_MODULO_OPERABLE_R(P{}, name<"test1">,(named_parser<P, "test1">{}))
    .parsersEq (tMod (P Com7) (M (.name ⟨0, [116, 101, 115, 116, 50]⟩))) (P (.named Com7 ⟨0, [116, 101, 115, 116, 50]⟩)),  -- 44: ASSERT_MODIFIER_MODULO_OPERABLE_R(P{}, name<"test2">,(named_parser<P, "test2">{}))
    .parsersEq (tCall (M (.name ⟨0, [116, 101, 115, 116, 49]⟩)) [(P Nam1)]) (P (.named Nam1 ⟨0, [116, 101, 115, 116, 49]⟩)),  -- 44: ASSERT_MODIFIER_CALLABLE_R(name<"test1">,(P{}),(named_parser<P, "test1">{}))
    .parsersEq (tCall (M (.name ⟨0, [116, 101, 115, 116, 50]⟩)) [(P Nam1)]) (P (.named Nam1 ⟨0, [116, 101, 115, 116, 50]⟩)),  -- 44: ASSERT_MODIFIER_CALLABLE_R(name<"test2">,(P{}),(named_parser<P, "test2">{}))
    .parsersEq (tMod (P Nam1) (M (.name ⟨0, [116, 101, 115, 116, 49]⟩))) (P (.named Nam1 ⟨0, [116, 101, 115, 116, 49]⟩)),  -- 44: ASSERT_MODIFIER_MODULO_OPERABLE_R(P{}, name<"test1">,(named_parser<P, "test1">{}))
    .parsersEq (tMod (P Nam1) (M (.name ⟨0, [116, 101, 115, 116, 50]⟩))) (P (.named Nam1 ⟨0, [116, 101, 115, 116, 50]⟩)),  -- 44: ASSERT_MODIFIER_MODULO_OPERABLE_R(P{}, name<"test2">,(named_parser<P, "test2">{}))
    .parsersEq (tCall (M (.name ⟨0, [116, 101, 115, 116, 49]⟩)) [(P Nam2)]) (P (.named Nam2 ⟨0, [116, 101, 115, 116, 49]⟩)),  -- 44: ASSERT_MODIFIER_CALLABLE_R(name<"test1">,(P{}),(named_parser<P, "test1">{}))
    .parsersEq (tCall (M (.name ⟨0, [116, 101, 115, 116, 50]⟩)) [(P Nam2)]) (P (.named Nam2 ⟨0, [116, 101, 115, 116, 50]⟩)),  -- 44: ASSERT_MODIFIER_CALLABLE_R(name<"test2">,(P{}),(named_parser<P, "test2">{}))
    .parsersEq (tMod (P Nam2) (M (.name ⟨0, [116, 101, 115, 116, 49]⟩))) (P (.named Nam2 ⟨0, [116, 101, 115, 116, 49]⟩)),  -- 44: ASSERT_MODIFIER_MODULO_OPERABLE_R(P{}, name<"test1">,(named_parser<P, "test1">{}))
    .parsersEq (tMod (P Nam2) (M (.name ⟨0, [116, 101, 115, 116, 50]⟩))) (P (.named Nam2 ⟨0, [116, 101, 115, 116, 50]⟩)),  -- 44: ASSERT_MODIFIER_MODULO_OPERABLE_R(P{}, name<"test2">,(named_parser<P, "test2">{}))
    .parsersEq (tCall (M (.name ⟨0, [116, 101, 115, 116, 49]⟩)) [(P Nam3)]) (P (.named Nam3 ⟨0, [116, 101, 115, 116, 49]⟩)),  -- 44: ASSERT_MODIFIER_CALLABLE_R(name<"test1">,(P{}),(named_parser<P, "test1">{}))
    .parsersEq (tCall (M (.name ⟨0, [116, 101, 115, 116, 50]⟩)) [(P Nam3)]) (P (.named Nam3 ⟨0, [116, 101, 115, 116, 50]⟩)),  -- 44: ASSERT_MODIFIER_CALLABLE_R(name<"test2">,(P{}),(named_parser<P, "test2">{}))
    .parsersEq (tMod (P Nam3) (M (.name ⟨0, [116, 101, 115, 116, 49]⟩))) (P (.named Nam3 ⟨0, [116, 101, 115, 116, 49]⟩)),  -- 44: ASSERT_MODIFIER_MODULO_OPERABLE_R(P{}, name<"test1">,(named_parser<P, "test1">{}))
    .parsersEq (tMod (P Nam3) (M (.name ⟨0, [116, 101, 115, 116, 50]⟩))) (P (.named Nam3 ⟨0, [116, 101, 115, 116, 50]⟩))  -- 44: ASSERT_MODIFIER_MODULO_OPERABLE_R(P{}, name<"test2">,(named_parser<P, "test2">{}))
    ], Assertion.Holds a :=
  Assertion.holds_of_check (by decide +kernel)

/-- name modifier / modify anything (tests/char-tests/modifiers/name.cpp:44) -/
theorem charModifiersName_3_2 : ∀ a ∈ [
    .parsersEq (tCall (M (.name ⟨0, [116, 101, 115, 116, 49]⟩)) [(P Nam4)]) (P (.named Nam4 ⟨0, [116, 101, 115, 116, 49]⟩)),  -- 44: ASSERT_MODIFIER_CALLABLE_R(name<"test1">,(P{}),(named_parser<P, "test1">{}))
    .parsersEq (tCall (M (.name ⟨0, [116, 101, 115, 116, 50]⟩)) [(P Nam4)]) (P (.named Nam4 ⟨0, [116, 101, 115, 116, 50]⟩)),  -- 44: ASSERT_MODIFIER_CALLABLE_R(name<"test2">,(P{}),(named_parser<P, "test2">{}))
    .parsersEq (tMod (P Nam4) (M (.name ⟨0, [116, 101, 115, 116, 49]⟩))) (P (.named Nam4 ⟨0, [116, 101, 115, 116, 49]⟩)),  -- 44: ASSERT_MODIFIER_MODULO_OPERABLE_R(P{}, name<"test1">,(named_parser<P, "test1">{}))
    .parsersEq (tMod (P Nam4) (M (.name ⟨0, [116, 101, 115, 116, 50]⟩))) (P (.named Nam4 ⟨0, [116, 101, 115, 116, 50]⟩)),  -- 44: ASSERT_MODIFIER_MODULO_OPERABLE_R(P{}, name<"test2">,(named_parser<P, "test2">{}))
    .parsersEq (tCall (M (.name ⟨0, [116, 101, 115, 116, 49]⟩)) [(P Any1)]) (P (.named Any1 ⟨0, [116, 101, 115, 116, 49]⟩)),  -- 44: ASSERT_MODIFIER_CALLABLE_R(name<"test1">,(P{}),(named_parser<P, "test1">{}))
    .parsersEq (tCall (M (.name ⟨0, [116, 101, 115, 116, 50]⟩)) [(P Any1)]) (P (.named Any1 ⟨0, [116, 101, 115, 116, 50]⟩)),  -- 44: ASSERT_MODIFIER_CALLABLE_R(name<"test2">,(P{}),(named_parser<P, "test2">{}))
    .parsersEq (tMod (P Any1) (M (.name ⟨0, [116, 101, 115, 116, 49]⟩))) (P (.named Any1 ⟨0, [116, 101, 115, 116, 49]⟩)),  -- 44: ASSERT_MODIFIER_MODULO_OPERABLE_R(P{}, name<"test1">,(named_parser<P, "test1">{}))
    .parsersEq (tMod (P Any1) (M (.name ⟨0, [116, 101, 115, 116, 50]⟩))) (P (.named Any1 ⟨0, [116, 101, 115, 116, 50]⟩)),  -- 44: ASSERT_MODIFIER_MODULO_OPERABLE_R(P{}, name<"test2">,(named_parser<P, "test2">{}))
    .parsersEq (tCall (M (.name ⟨0, [116, 101, 115, 116, 49]⟩)) [(P Any2)]) (P (.named Any2 ⟨0, [116, 101, 115, 116, 49]⟩)),  -- 44: ASSERT_MODIFIER_CALLABLE_R(name<"test1">,(P{}),(named_parser<P, "test1">{}))
    .parsersEq (tCall (M (.name ⟨0, [116, 101, 115, 116, 50]⟩)) [(P Any2)]) (P (.named Any2 ⟨0, [116, 101, 115, 116, 50]⟩)),  -- 44: ASSERT_MODIFIER_CALLABLE_R(name<"test2">,(P{}),(named_parser<P, "test2">{}))
    .parsersEq (tMod (P Any2) (M (.name ⟨0, [116, 101, 115, 116, 49]⟩))) (P (.named Any2 ⟨0, [116, 101, 115, 116, 49]⟩)),  -- 44: ASSERT_MODIFIER_MODULO_OPERABLE_R(P{}, name<"test1">,(named_parser<P, "test1">{}))
    .parsersEq (tMod (P Any2) (M (.name ⟨0, [116, 101, 115, 116, 50]⟩))) (P (.named Any2 ⟨0, [116, 101, 115, 116, 50]⟩)),  -- 44: ASSERT_MODIFIER_MODULO_OPERABLE_R(P{}, name<"test2">,(named_parser<P, "test2">{}))
    .parsersEq (tCall (M (.name ⟨0, [116, 101, 115, 116, 49]⟩)) [(P Any3)]) (P (.named Any3 ⟨0, [116, 101, 115, 116, 49]⟩)),  -- 44: ASSERT_MODIFIER_CALLABLE_R(name<"test1">,(P{}),(named_parser<P, "test1">{}))
    .parsersEq (tCall (M (.name ⟨0, [116, 101, 115, 116, 50]⟩)) [(P Any3)]) (P (.named Any3 ⟨0, [116, 101, 115, 116, 50]⟩)),  -- 44: ASSERT_MODIFIER_CALLABLE_R(name<"test2">,(P{}),(named_parser<P, "test2">{}))
    .parsersEq (tMod (P Any3) (M (.name ⟨0, [116, 101, 115, 116, 49]⟩))) (P (.named Any3 ⟨0, [116, 101, 115, 116, 49]⟩)),  -- 44: ASSERT_MODIFIER_MODULO_OPERABLE_R(P{}, name<"test1">,(named_parser<P, "test1">{}))
    .parsersEq (tMod (P Any3) (M (.name ⟨0, [116, 101, 115, 116, 50]⟩))) (P (.named Any3 ⟨0, [116, 101, 115, 116, 50]⟩)),  -- 44: ASSERT_MODIFIER_MODULO_OPERABLE_R(P{}, name<"test2">,(named_parser<P, "test2">{}))
    .parsersEq (tCall (M (.name ⟨0, [116, 101, 115, 116, 49]⟩)) [(P Any4)]) (P (.named Any4 ⟨0, [116, 101, 115, 116, 49]⟩)),  -- 44: ASSERT_MODIFIER_CALLABLE_R(name<"test1">,(P{}),(named_parser<P, "test1">{}))
    .parsersEq (tCall (M (.name ⟨0, [116, 101, 115, 116, 50]⟩)) [(P Any4)]) (P (.named Any4 ⟨0, [116, 101, 115, 116, 50]⟩)),  -- 44: ASSERT_MODIFIER_CALLABLE_R(name<"test2">,(P{}),(named_parser<P, "test2">{}))
    .parsersEq (tMod (P Any4) (M (.name ⟨0, [116, 101, 115, 116, 49]⟩))) (P (.named Any4 ⟨0, [116, 101, 115, 116, 49]⟩)),  -- 44: ASSERT_MODIFIER_MODULO_OPERABLE_R(P{}, name<"test1">,(named_parser<P, "test1">{}))
    .parsersEq (tMod (P Any4) (M (.name ⟨0, [116, 101, 115, 116, 50]⟩))) (P (.named Any4 ⟨0, [116, 101, 115, 116, 50]⟩)),  -- 44: ASSERT_MODIFIER_MODULO_OPERABLE_R(P{}, name<"test2">,(named_parser<P, "test2">{}))
    .parsersEq (tCall (M (.name ⟨0, [116, 101, 115, 116, 49]⟩)) [(P Non1)]) (P (.named Non1 ⟨0, [116, 101, 115, 116, 49]⟩)),  -- 44: ASSERT_MODIFIER_CALLABLE_R(name<"test1">,(P{}),(named_parser<P, "test1">{}))
    .parsersEq (tCall (M (.name ⟨0, [116, 101, 115, 116, 50]⟩)) [(P Non1)]) (P (.named Non1 ⟨0, [116, 101, 115, 116, 50]⟩)),  -- 44: ASSERT_MODIFIER_CALLABLE_R(name<"test2">,(P{}),(named_parser<P, "test2">{}))
    .parsersEq (tMod (P Non1) (M (.name ⟨0, [116, 101, 115, 116, 49]⟩))) (P (.named Non1 ⟨0, [116, 101, 115, 116, 49]⟩)),  -- 44: ASSERT_MODIFIER_MODULO_OPERABLE_R(P{}, name<"test1">,(named_parser<P, "test1">{}))
    .parsersEq (tMod (P Non1) (M (.name ⟨0, [116, 101, 115, 116, 50]⟩))) (P (.named Non1 ⟨0, [116, 101, 115, 116, 50]⟩)),  -- 44: ASSERT_MODIFIER_MODULO_OPERABLE_R(P{}, name<"test2">,(named_parser<P, "test2">{}))
    .parsersEq (tCall (M (.name ⟨0, [116, 101, 115, 116, 49]⟩)) [(P Non2)]) (P (.named Non2 ⟨0, [116, 101, 115, 116, 49]⟩)),  -- 44: ASSERT_MODIFIER_CALLABLE_R(name<"test1">,(P{}),(named_parser<P, "test1">{}))
    .parsersEq (tCall (M (.name ⟨0, [116, 101, 115, 116, 50]⟩)) [(P Non2)]) (P (.named Non2 ⟨0, [116, 101, 115, 116, 50]⟩)),  -- 44: ASSERT_MODIFIER_CALLABLE_R(name<"test2">,(P{}),(named_parser<P, "test2">{}))
    .parsersEq (tMod (P Non2) (M (.name ⟨0, [116, 101, 115, 116, 49]⟩))) (P (.named Non2 ⟨0, [116, 101, 115, 116, 49]⟩)),  -- 44: ASSERT_MODIFIER_MODULO_OPERABLE_R(P{}, name<"test1">,(named_parser<P, "test1">{}))
    .parsersEq (tMod (P Non2) (M (.name ⟨0, [116, 101, 115, 116, 50]⟩))) (P (.named Non2 ⟨0, [116, 101, 115, 116, 50]⟩)),  -- 44: ASSERT_MODIFIER_MODULO_OPERABLE_R(P{}, name<"test2">,(named_parser<P, "test2">{}))
    .parsersEq (tCall (M (.name ⟨0, [116, 101, 115, 116, 49]⟩)) [(P Non3)]) (P (.named Non3 ⟨0, [116, 101, 115, 116, 49]⟩)),  -- 44: ASSERT_MODIFIER_CALLABLE_R(name<"test1">,(P{}),(named_parser<P, "test1">{}))
    .parsersEq (tCall (M (.name ⟨0, [116, 101, 115, 116, 50]⟩)) [(P Non3)]) (P (.named Non3 ⟨0, [116, 101, 115, 116, 50]⟩)),  -- 44: ASSERT_MODIFIER_CALLABLE_R(name<"test2">,(P{}),(named_parser<P, "test2">{}))
    .parsersEq (tMod (P Non3) (M (.name ⟨0, [116, 101, 115, 116, 49]⟩))) (P (.named Non3 ⟨0, [116, 101, 115, 116, 49]⟩)),  -- 44: ASSERT_MODIFIER_MODULO_OPERABLE_R(P{}, name<"test1">,(named_parser<P, "test1">{}))
    .parsersEq (tMod (P Non3) (M (.name ⟨0, [116, 101, 115, 116, 50]⟩))) (P (.named Non3 ⟨0, [116, 101, 115, 116, 50]⟩)),  -- 44: ASSERT_MODIFIER_MODULO_OPERABLE_R(P{}, name<"test2">,(named_parser<P, "test2">{}))
    .parsersEq (tCall (M (.name ⟨0, [116, 101, 115, 116, 49]⟩)) [(P Non4)]) (P (.named Non4 ⟨0, [116, 101, 115, 116, 49]⟩)),  -- 44: ASSERT_MODIFIER_CALLABLE_R(name<"test1">,(P{}),(named_parser<P, "test1">{}))
    .parsersEq (tCall (M (.name ⟨0, [116, 101, 115, 116, 50]⟩)) [(P Non4)]) (P (.named Non4 ⟨0, [116, 101, 115, 116, 50]⟩)),  -- 44: ASSERT_MODIFIER_CALLABLE_R(name<"test2">,(P{}),(named_parser<P, "test2">{}))
    .parsersEq (tMod (P Non4) (M (.name ⟨0, [116, 101, 115, 116, 49]⟩))) (P (.named Non4 ⟨0, [116, 101, 115, 116, 49]⟩)),  -- 44: ASSERT_MODIFIER_MODULO_OPERABLE_R(P{}, name<"test1">,(named_parser<P, "test1">{}))
    .parsersEq (tMod (P Non4) (M (.name ⟨0, [116, 101, 115, 116, 50]⟩))) (P (.named Non4 ⟨0, [116, 101, 115, 116, 50]⟩)),  -- 44: ASSERT_MODIFIER_MODULO_OPERABLE_R(P{}, name<"test2">,(named_parser<P, "test2">{}))
    .parsersEq (tCall (M (.name ⟨0, [116, 101, 115, 116, 49]⟩)) [(P Non5)]) (P (.named Non5 ⟨0, [116, 101, 115, 116, 49]⟩)),  -- 44: ASSERT_MODIFIER_CALLABLE_R(name<"test1">,(P{}),(named_parser<P, "test1">{}))
    .parsersEq (tCall (M (.name ⟨0, [116, 101, 115, 116, 50]⟩)) [(P Non5)]) (P (.named Non5 ⟨0, [116, 101, 115, 116, 50]⟩)),  -- 44: ASSERT_MODIFIER_CALLABLE_R(name<"test2">,(P{}),(named_parser<P, "test2">{}))
    .parsersEq (tMod (P Non5) (M (.name ⟨0, [116, 101, 115, 116, 49]⟩))) (P (.named Non5 ⟨0, [116, 101, 115, 116, 49]⟩)),  -- 44: ASSERT_MODIFIER_MODULO_OPERABLE_R(P{}, name<"test1">,(named_parser<P, "test1">{}))
    .parsersEq (tMod (P Non5) (M (.name ⟨0, [116, 101, 115, 116, 50]⟩))) (P (.named Non5 ⟨0, [116, 101, 115, 116, 50]⟩)),  -- 44: ASSERT_MODIFIER_MODULO_OPERABLE_R(P{}, name<"test2">,(named_parser<P, "test2">{}))
    .parsersEq (tCall (M (.name ⟨0, [116, 101, 115, 116, 49]⟩)) [(P All1)]) (P (.named All1 ⟨0, [116, 101, 115, 116, 49]⟩)),  -- 44: ASSERT_MODIFIER_CALLABLE_R(name<"test1">,(P{}),(named_parser<P, "test1">{}))
    .parsersEq (tCall (M (.name ⟨0, [116, 101, 115, 116, 50]⟩)) [(P All1)]) (P (.named All1 ⟨0, [116, 101, 115, 116, 50]⟩)),  -- 44: ASSERT_MODIFIER_CALLABLE_R(name<"test2">,(P{}),(named_parser<P, "test2">{}))
    .parsersEq (tMod (P All1) (M (.name ⟨0, [116, 101, 115, 116, 49]⟩))) (P (.named All1 ⟨0, [116, 101, 115, 116, 49]⟩)),  -- 44: ASSERT_MODIFIER_MODULO_OPERABLE_R(P{}, name<"test1">,(named_parser<P, "test1">{}))
    .parsersEq (tMod (P All1) (M (.name ⟨0, [116, 101, 115, 116, 50]⟩))) (P (.named All1 ⟨0, [116, 101, 115, 116, 50]⟩)),  -- 44: ASSERT_MODIFIER_MODULO_OPERABLE_R(P{}, name<"test2">,(named_parser<P, "test2">{}))
    .parsersEq (tCall (M (.name ⟨0, [116, 101, 115, 116, 49]⟩)) [(P All2)]) (P (.named All2 ⟨0, [116, 101, 115, 116, 49]⟩)),  -- 44: ASSERT_MODIFIER_CALLABLE_R(name<"test1">,(P{}),(named_parser<P, "test1">{}))
    .parsersEq (tCall (M (.name ⟨0, [116, 101, 115, 116, 50]⟩)) [(P All2)]) (P (.named All2 ⟨0, [116, 101, 115, 116, 50]⟩)),  -- 44: ASSERT_MODIFIER_CALLABLE_R(name<"test2">,(P{}),(named_parser<P, "test2">{}))
    .parsersEq (tMod (P All2) (M (.name ⟨0, [116, 101, 115, 116, 49]⟩))) (P (.named All2 ⟨0, [116, 101, 115, 116, 49]⟩)),  -- 44: ASSERT_MODIFIER_MODULO_OPERABLE_R(P{}, name<"test1">,(named_parser<P, "test1">{}))
    .parsersEq (tMod (P All2) (M (.name ⟨0, [116, 101, 115, 116, 50]⟩))) (P (.named All2 ⟨0, [116, 101, 115, 116, 50]⟩)),  -- 44: ASSERT_MODIFIER_MODULO_OPERABLE_R(P{}, name<"test2">,(named_parser<P, "test2">{}))
    .parsersEq (tCall (M (.name ⟨0, [116, 101, 115, 116, 49]⟩)) [(P All3)]) (P (.named All3 ⟨0, [116, 101, 115, 116, 49]⟩)),  -- 44: ASSERT_MODIFIER_CALLABLE_R(name<"test1">,(P{}),(named_parser<P, "test1">{}))
    .parsersEq (tCall (M (.name ⟨0, [116, 101, 115, 116, 50]⟩)) [(P All3)]) (P (.named All3 ⟨0, [116, 101, 115, 116, 50]⟩)),  -- 44: ASSERT_MODIFIER_CALLABLE_R(name<"test2">,(P{}),(named_parser<P, "test2">{}))
    .parsersEq (tMod (P All3) (M (.name ⟨0, [116, 101, 115, 116, 49]⟩))) (P (.named All3 ⟨0, [116, 101, 115, 116, 49]⟩)),  -- 44: ASSERT_MODIFIER_MODULO_OPERABLE_R(P{}, name<"test1">,(named_parser<P, "test1">{}))
    .parsersEq (tMod (P All3) (M (.name ⟨0, [116, 101, 115, 116, 50]⟩))) (P (.named All3 ⟨0, [116, 101, 115, 116, 50]⟩)),  -- 44: ASSERT_MODIFIER_MODULO_OPERABLE_R(P{}, name<"test2">,(named_parser<P, "test2">{}))
    .parsersEq (tCall (M (.name ⟨0, [116, 101, 115, 116, 49]⟩)) [(P All4)]) (P (.named All4 ⟨0, [116, 101, 115, 116, 49]⟩)),  -- 44: ASSERT_MODIFIER_CALLABLE_R(name<"test1">,(P{}),(named_parser<P, "test1">{}))
    .parsersEq (tCall (M (.name ⟨0, [116, 101, 115, 116, 50]⟩)) [(P All4)]) (P (.named All4 ⟨0, [116, 101, 115, 116, 50]⟩)),  -- 44: ASSERT_MODIFIER_CALLABLE_R(name<"test2">,(P{}),(named_parser<P, "test2">{}))
    .parsersEq (tMod (P All4) (M (.name ⟨0, [116, 101, 115, 116, 49]⟩))) (P (.named All4 ⟨0, [116, 101, 115, 116, 49]⟩)),  -- 44: ASSERT_MODIFIER_MODULO_OPERABLE_R(P{}, name<"test1">,(named_parser<P, "test1">{}))
    .parsersEq (tMod (P All4) (M (.name ⟨0, [116, 101, 115, 116, 50]⟩))) (P (.named All4 ⟨0, [116, 101, 115, 116, 50]⟩)),  -- 44: ASSERT_MODIFIER_MODULO_OPERABLE_R(P{}, name<"test2">,(named_parser<P, "test2">{}))
    .parsersEq (tCall (M (.name ⟨0, [116, 101, 115, 116, 49]⟩)) [(P Eps1)]) (P (.named Eps1 ⟨0, [116, 101, 115, 116, 49]⟩)),  -- 44: ASSERT_MODIFIER_CALLABLE_R(name<"test1">,(P{}),(named_parser<P, "test1">{}))
    .parsersEq (tCall (M (.name ⟨0, [116, 101, 115, 116, 50]⟩)) [(P Eps1)]) (P (.named Eps1 ⟨0, [116, 101, 115, 116, 50]⟩)),  -- 44: ASSERT_MODIFIER_CALLABLE_R(name<"test2">,(P{}),(named_parser<P, "test2">{}))
    .parsersEq (tMod (P Eps1) (M (.name ⟨0, [116, 101, 115, 116, 49]⟩))) (P (.named Eps1 ⟨0, [116, 101, 115, 116, 49]⟩)),  -- 44: ASSERT_MODIFIER_MODULO_OPERABLE_R(P{}, name<"test1">,(named_parser<P, "test1">{}))
    .parsersEq (tMod (P Eps1) (M (.name ⟨0, [116, 101, 115, 116, 50]⟩))) (P (.named Eps1 ⟨0, [116, 101, 115, 116, 50]⟩))  -- 44: ASSERT_MODIFIER_MODULO_OPERABLE_R(P{}, name<"test2">,(named_parser<P, "test2">{}))
    ], Assertion.Holds a :=
  Assertion.holds_of_check (by decide +kernel)

/-- name modifier / modify anything (tests/char-tests/modifiers/name.cpp:44) -/
theorem charModifiersName_3_3 : ∀ a ∈ [
    .parsersEq (tCall (M (.name ⟨0, [116, 101, 115, 116, 49]⟩)) [(P Ant1)]) (P (.named Ant1 ⟨0, [116, 101, 115, 116, 49]⟩)),  -- 44: ASSERT_MODIFIER_CALLABLE_R(name<"test1">,(P{}),(named_parser<P, "test1">{}))
    .parsersEq (tCall (M (.name ⟨0, [116, 101, 115, 116, 50]⟩)) [(P Ant1)]) (P (.named Ant1 ⟨0, [116, 101, 115, 116, 50]⟩)),  -- 44: ASSERT_MODIFIER_CALLABLE_R(name<"test2">,(P{}),(named_parser<P, "test2">{}))
    .parsersEq (tMod (P Ant1) (M (.name ⟨0, [116, 101, 115, 116, 49]⟩))) (P (.named Ant1 ⟨0, [116, 101, 115, 116, 49]⟩)),  -- 44: ASSERT_MODIFIER_MODULO_OPERABLE_R(P{}, name<"test1">,(named_parser<P, "test1">{}))
    .parsersEq (tMod (P Ant1) (M (.name ⟨0, [116, 101, 115, 116, 50]⟩))) (P (.named Ant1 ⟨0, [116, 101, 115, 116, 50]⟩)),  -- 44: ASSERT_MODIFIER_MODULO_OPERABLE_R(P{}, name<"test2">,(named_parser<P, "test2">{}))
    .parsersEq (tCall (M (.name ⟨0, [116, 101, 115, 116, 49]⟩)) [(P QQ)]) (P (.named QQ ⟨0, [116, 101, 115, 116, 49]⟩)),  -- 44: ASSERT_MODIFIER_CALLABLE_R(name<"test1">,(P{}),(named_parser<P, "test1">{}))
    .parsersEq (tCall (M (.name ⟨0, [116, 101, 115, 116, 50]⟩)) [(P QQ)]) (P (.named QQ ⟨0, [116, 101, 115, 116, 50]⟩)),  -- 44: ASSERT_MODIFIER_CALLABLE_R(name<"test2">,(P{}),(named_parser<P, "test2">{}))
    .parsersEq (tMod (P QQ) (M (.name ⟨0, [116, 101, 115, 116, 49]⟩))) (P (.named QQ ⟨0, [116, 101, 115, 116, 49]⟩)),  -- 44: ASSERT_MODIFIER_MODULO_OPERABLE_R(P{}, name<"test1">,(named_parser<P, "test1">{}))
    .parsersEq (tMod (P QQ) (M (.name ⟨0, [116, 101, 115, 116, 50]⟩))) (P (.named QQ ⟨0, [116, 101, 115, 116, 50]⟩)),  -- 44: ASSERT_MODIFIER_MODULO_OPERABLE_R(P{}, name<"test2">,(named_parser<P, "test2">{}))
    .parsersEq (tCall (M (.name ⟨0, [116, 101, 115, 116, 49]⟩)) [(P ABC)]) (P (.named ABC ⟨0, [116, 101, 115, 116, 49]⟩)),  -- 44: ASSERT_MODIFIER_CALLABLE_R(name<"test1">,(P{}),(named_parser<P, "test1">{}))
    .parsersEq (tCall (M (.name ⟨0, [116, 101, 115, 116, 50]⟩)) [(P ABC)]) (P (.named ABC ⟨0, [116, 101, 115, 116, 50]⟩)),  -- 44: ASSERT_MODIFIER_CALLABLE_R(name<"test2">,(P{}),(named_parser<P, "test2">{}))
    .parsersEq (tMod (P ABC) (M (.name ⟨0, [116, 101, 115, 116, 49]⟩))) (P (.named ABC ⟨0, [116, 101, 115, 116, 49]⟩)),  -- 44: ASSERT_MODIFIER_MODULO_OPERABLE_R(P{}, name<"test1">,(named_parser<P, "test1">{}))
    .parsersEq (tMod (P ABC) (M (.name ⟨0, [116, 101, 115, 116, 50]⟩))) (P (.named ABC ⟨0, [116, 101, 115, 116, 50]⟩)),  -- 44: ASSERT_MODIFIER_MODULO_OPERABLE_R(P{}, name<"test2">,(named_parser<P, "test2">{}))
    .parsersEq (tCall (M (.name ⟨0, [116, 101, 115, 116, 49]⟩)) [(P Comma)]) (P (.named Comma ⟨0, [116, 101, 115, 116, 49]⟩)),  -- 44: ASSERT_MODIFIER_CALLABLE_R(name<"test1">,(P{}),(named_parser<P, "test1">{}))
    .parsersEq (tCall (M (.name ⟨0, [116, 101, 115, 116, 50]⟩)) [(P Comma)]) (P (.named Comma ⟨0, [116, 101, 115, 116, 50]⟩)),  -- 44: ASSERT_MODIFIER_CALLABLE_R(name<"test2">,(P{}),(named_parser<P, "test2">{}))
    .parsersEq (tMod (P Comma) (M (.name ⟨0, [116, 101, 115, 116, 49]⟩))) (P (.named Comma ⟨0, [116, 101, 115, 116, 49]⟩)),  -- 44: ASSERT_MODIFIER_MODULO_OPERABLE_R(P{}, name<"test1">,(named_parser<P, "test1">{}))
    .parsersEq (tMod (P Comma) (M (.name ⟨0, [116, 101, 115, 116, 50]⟩))) (P (.named Comma ⟨0, [116, 101, 115, 116, 50]⟩)),  -- 44: ASSERT_MODIFIER_MODULO_OPERABLE_R(P{}, name<"test2">,(named_parser<P, "test2">{}))
    .parsersEq (tCall (M (.name ⟨0, [116, 101, 115, 116, 49]⟩)) [(P SpaceDot)]) (P (.named SpaceDot ⟨0, [116, 101, 115, 116, 49]⟩)),  -- 44: ASSERT_MODIFIER_CALLABLE_R(name<"test1">,(P{}),(named_parser<P, "test1">{}))
    .parsersEq (tCall (M (.name ⟨0, [116, 101, 115, 116, 50]⟩)) [(P SpaceDot)]) (P (.named SpaceDot ⟨0, [116, 101, 115, 116, 50]⟩)),  -- 44: ASSERT_MODIFIER_CALLABLE_R(name<"test2">,(P{}),(named_parser<P, "test2">{}))
    .parsersEq (tMod (P SpaceDot) (M (.name ⟨0, [116, 101, 115, 116, 49]⟩))) (P (.named SpaceDot ⟨0, [116, 101, 115, 116, 49]⟩)),  -- 44: ASSERT_MODIFIER_MODULO_OPERABLE_R(P{}, name<"test1">,(named_parser<P, "test1">{}))
    .parsersEq (tMod (P SpaceDot) (M (.name ⟨0, [116, 101, 115, 116, 50]⟩))) (P (.named SpaceDot ⟨0, [116, 101, 115, 116, 50]⟩)),  -- 44: ASSERT_MODIFIER_MODULO_OPERABLE_R(P{}, name<"test2">,(named_parser<P, "test2">{}))
    .parsersEq (tCall (M (.name ⟨0, [116, 101, 115, 116, 49]⟩)) [(P Cho1)]) (P (.named Cho1 ⟨0, [116, 101, 115, 116, 49]⟩)),  -- 44: ASSERT_MODIFIER_CALLABLE_R(name<"test1">,(P{}),(named_parser<P, "test1">{}))
    .parsersEq (tCall (M (.name ⟨0, [116, 101, 115, 116, 50]⟩)) [(P Cho1)]) (P (.named Cho1 ⟨0, [116, 101, 115, 116, 50]⟩)),  -- 44: ASSERT_MODIFIER_CALLABLE_R(name<"test2">,(P{}),(named_parser<P, "test2">{}))
    .parsersEq (tMod (P Cho1) (M (.name ⟨0, [116, 101, 115, 116, 49]⟩))) (P (.named Cho1 ⟨0, [116, 101, 115, 116, 49]⟩)),  -- 44: ASSERT_MODIFIER_MODULO_OPERABLE_R(P{}, name<"test1">,(named_parser<P, "test1">{}))
    .parsersEq (tMod (P Cho1) (M (.name ⟨0, [116, 101, 115, 116, 50]⟩))) (P (.named Cho1 ⟨0, [116, 101, 115, 116, 50]⟩)),  -- 44: ASSERT_MODIFIER_MODULO_OPERABLE_R(P{}, name<"test2">,(named_parser<P, "test2">{}))
    .parsersEq (tCall (M (.name ⟨0, [116, 101, 115, 116, 49]⟩)) [(P Cho2)]) (P (.named Cho2 ⟨0, [116, 101, 115, 116, 49]⟩)),  -- 44: ASSERT_MODIFIER_CALLABLE_R(name<"test1">,(P{}),(named_parser<P, "test1">{}))
    .parsersEq (tCall (M (.name ⟨0, [116, 101, 115, 116, 50]⟩)) [(P Cho2)]) (P (.named Cho2 ⟨0, [116, 101, 115, 116, 50]⟩)),  -- 44: ASSERT_MODIFIER_CALLABLE_R(name<"test2">,(P{}),(named_parser<P, "test2">{}))
    .parsersEq (tMod (P Cho2) (M (.name ⟨0, [116, 101, 115, 116, 49]⟩))) (P (.named Cho2 ⟨0, [116, 101, 115, 116, 49]⟩)),  -- 44: ASSERT_MODIFIER_MODULO_OPERABLE_R(P{}, name<"test1">,(named_parser<P, "test1">{}))
    .parsersEq (tMod (P Cho2) (M (.name ⟨0, [116, 101, 115, 116, 50]⟩))) (P (.named Cho2 ⟨0, [116, 101, 115, 116, 50]⟩)),  -- 44: ASSERT_MODIFIER_MODULO_OPERABLE_R(P{}, name<"test2">,(named_parser<P, "test2">{}))
    .parsersEq (tCall (M (.name ⟨0, [116, 101, 115, 116, 49]⟩)) [(P Cho3)]) (P (.named Cho3 ⟨0, [116, 101, 115, 116, 49]⟩)),  -- 44: ASSERT_MODIFIER_CALLABLE_R(name<"test1">,(P{}),(named_parser<P, "test1">{}))
    .parsersEq (tCall (M (.name ⟨0, [116, 101, 115, 116, 50]⟩)) [(P Cho3)]) (P (.named Cho3 ⟨0, [116, 101, 115, 116, 50]⟩)),  -- 44: ASSERT_MODIFIER_CALLABLE_R(name<"test2">,(P{}),(named_parser<P, "test2">{}))
    .parsersEq (tMod (P Cho3) (M (.name ⟨0, [116, 101, 115, 116, 49]⟩))) (P (.named Cho3 ⟨0, [116, 101, 115, 116, 49]⟩)),  -- 44: ASSERT_MODIFIER_MODULO_OPERABLE_R(P{}, name<"test1">,(named_parser<P, "test1">{}))
    .parsersEq (tMod (P Cho3) (M (.name ⟨0, [116, 101, 115, 116, 50]⟩))) (P (.named Cho3 ⟨0, [116, 101, 115, 116, 50]⟩)),  -- 44: ASSERT_MODIFIER_MODULO_OPERABLE_R(P{}, name<"test2">,(named_parser<P, "test2">{}))
    .parsersEq (tCall (M (.name ⟨0, [116, 101, 115, 116, 49]⟩)) [(P Cho4)]) (P (.named Cho4 ⟨0, [116, 101, 115, 116, 49]⟩)),  -- 44: ASSERT_MODIFIER_CALLABLE_R(name<"test1">,(P{}),(named_parser<P, "test1">{}))
    .parsersEq (tCall (M (.name ⟨0, [116, 101, 115, 116, 50]⟩)) [(P Cho4)]) (P (.named Cho4 ⟨0, [116, 101, 115, 116, 50]⟩)),  -- 44: ASSERT_MODIFIER_CALLABLE_R(name<"test2">,(P{}),(named_parser<P, "test2">{}))
    .parsersEq (tMod (P Cho4) (M (.name ⟨0, [116, 101, 115, 116, 49]⟩))) (P (.named Cho4 ⟨0, [116, 101, 115, 116, 49]⟩)),  -- 44: ASSERT_MODIFIER_MODULO_OPERABLE_R(P{}, name<"test1">,(named_parser<P, "test1">{}))
    .parsersEq (tMod (P Cho4) (M (.name ⟨0, [116, 101, 115, 116, 50]⟩))) (P (.named Cho4 ⟨0, [116, 101, 115, 116, 50]⟩)),  -- 44: ASSERT_MODIFIER_MODULO_OPERABLE_R(P{}, name<"test2">,(named_parser<P, "test2">{}))
    .parsersEq (tCall (M (.name ⟨0, [116, 101, 115, 116, 49]⟩)) [(P Cho5)]) (P (.named Cho5 ⟨0, [116, 101, 115, 116, 49]⟩)),  -- 44: ASSERT_MODIFIER_CALLABLE_R(name<"test1">,(P{}),(named_parser<P, "test1">{}))
    .parsersEq (tCall (M (.name ⟨0, [116, 101, 115, 116, 50]⟩)) [(P Cho5)]) (P (.named Cho5 ⟨0, [116, 101, 115, 116, 50]⟩)),  -- 44: ASSERT_MODIFIER_CALLABLE_R(name<"test2">,(P{}),(named_parser<P, "test2">{}))
    .parsersEq (tMod (P Cho5) (M (.name ⟨0, [116, 101, 115, 116, 49]⟩))) (P (.named Cho5 ⟨0, [116, 101, 115, 116, 49]⟩)),  -- 44: ASSERT_MODIFIER_MODULO_OPERABLE_R(P{}, name<"test1">,(named_parser<P, "test1">{}))
    .parsersEq (tMod (P Cho5) (M (.name ⟨0, [116, 101, 115, 116, 50]⟩))) (P (.named Cho5 ⟨0, [116, 101, 115, 116, 50]⟩)),  -- 44: ASSERT_MODIFIER_MODULO_OPERABLE_R(P{}, name<"test2">,(named_parser<P, "test2">{}))
    .parsersEq (tCall (M (.name ⟨0, [116, 101, 115, 116, 49]⟩)) [(P Seq1)]) (P (.named Seq1 ⟨0, [116, 101, 115, 116, 49]⟩)),  -- 44: ASSERT_MODIFIER_CALLABLE_R(name<"test1">,(P{}),(named_parser<P, "test1">{}))
    .parsersEq (tCall (M (.name ⟨0, [116, 101, 115, 116, 50]⟩)) [(P Seq1)]) (P (.named Seq1 ⟨0, [116, 101, 115, 116, 50]⟩)),  -- 44: ASSERT_MODIFIER_CALLABLE_R(name<"test2">,(P{}),(named_parser<P, "test2">{}))
    .parsersEq (tMod (P Seq1) (M (.name ⟨0, [116, 101, 115, 116, 49]⟩))) (P (.named Seq1 ⟨0, [116, 101, 115, 116, 49]⟩)),  -- 44: ASSERT_MODIFIER_MODULO_OPERABLE_R(P{}, name<"test1">,(named_parser<P, "test1">{}))
    .parsersEq (tMod (P Seq1) (M (.name ⟨0, [116, 101, 115, 116, 50]⟩))) (P (.named Seq1 ⟨0, [116, 101, 115, 116, 50]⟩)),  -- 44: ASSERT_MODIFIER_MODULO_OPERABLE_R(P{}, name<"test2">,(named_parser<P, "test2">{}))
    .parsersEq (tCall (M (.name ⟨0, [116, 101, 115, 116, 49]⟩)) [(P Seq2)]) (P (.named Seq2 ⟨0, [116, 101, 115, 116, 49]⟩)),  -- 44: ASSERT_MODIFIER_CALLABLE_R(name<"test1">,(P{}),(named_parser<P, "test1">{}))
    .parsersEq (tCall (M (.name ⟨0, [116, 101, 115, 116, 50]⟩)) [(P Seq2)]) (P (.named Seq2 ⟨0, [116, 101, 115, 116, 50]⟩)),  -- 44: ASSERT_MODIFIER_CALLABLE_R(name<"test2">,(P{}),(named_parser<P, "test2">{}))
    .parsersEq (tMod (P Seq2) (M (.name ⟨0, [116, 101, 115, 116, 49]⟩))) (P (.named Seq2 ⟨0, [116, 101, 115, 116, 49]⟩)),  -- 44: ASSERT_MODIFIER_MODULO_OPERABLE_R(P{}, name<"test1">,(named_parser<P, "test1">{}))
    .parsersEq (tMod (P Seq2) (M (.name ⟨0, [116, 101, 115, 116, 50]⟩))) (P (.named Seq2 ⟨0, [116, 101, 115, 116, 50]⟩)),  -- 44: ASSERT_MODIFIER_MODULO_OPERABLE_R(P{}, name<"test2">,(named_parser<P, "test2">{}))
    .parsersEq (tCall (M (.name ⟨0, [116, 101, 115, 116, 49]⟩)) [(P Seq3)]) (P (.named Seq3 ⟨0, [116, 101, 115, 116, 49]⟩)),  -- 44: ASSERT_MODIFIER_CALLABLE_R(name<"test1">,(P{}),(named_parser<P, "test1">{}))
    .parsersEq (tCall (M (.name ⟨0, [116, 101, 115, 116, 50]⟩)) [(P Seq3)]) (P (.named Seq3 ⟨0, [116, 101, 115, 116, 50]⟩)),  -- 44: ASSERT_MODIFIER_CALLABLE_R(name<"test2">,(P{}),(named_parser<P, "test2">{}))
    .parsersEq (tMod (P Seq3) (M (.name ⟨0, [116, 101, 115, 116, 49]⟩))) (P (.named Seq3 ⟨0, [116, 101, 115, 116, 49]⟩)),  -- 44: ASSERT_MODIFIER_MODULO_OPERABLE_R(P{}, name<"test1">,(named_parser<P, "test1">{}))
    .parsersEq (tMod (P Seq3) (M (.name ⟨0, [116, 101, 115, 116, 50]⟩))) (P (.named Seq3 ⟨0, [116, 101, 115, 116, 50]⟩)),  -- 44: ASSERT_MODIFIER_MODULO_OPERABLE_R(P{}, name<"test2">,(named_parser<P, "test2">{}))
    .parsersEq (tCall (M (.name ⟨0, [116, 101, 115, 116, 49]⟩)) [(P Seq4)]) (P (.named Seq4 ⟨0, [116, 101, 115, 116, 49]⟩)),  -- 44: ASSERT_MODIFIER_CALLABLE_R(name<"test1">,(P{}),(named_parser<P, "test1">{}))
    .parsersEq (tCall (M (.name ⟨0, [116, 101, 115, 116, 50]⟩)) [(P Seq4)]) (P (.named Seq4 ⟨0, [116, 101, 115, 116, 50]⟩)),  -- 44: ASSERT_MODIFIER_CALLABLE_R(name<"test2">,(P{}),(named_parser<P, "test2">{}))
    .parsersEq (tMod (P Seq4) (M (.name ⟨0, [116, 101, 115, 116, 49]⟩))) (P (.named Seq4 ⟨0, [116, 101, 115, 116, 49]⟩)),  -- 44: ASSERT_MODIFIER_MODULO_OPERABLE_R(P{}, name<"test1">,(named_parser<P, "test1">{}))
    .parsersEq (tMod (P Seq4) (M (.name ⟨0, [116, 101, 115, 116, 50]⟩))) (P (.named Seq4 ⟨0, [116, 101, 115, 116, 50]⟩)),  -- 44: ASSERT_MODIFIER_MODULO_OPERABLE_R(P{}, name<"test2">,(named_parser<P, "test2">{}))
    .parsersEq (tCall (M (.name ⟨0, [116, 101, 115, 116, 49]⟩)) [(P Seq5)]) (P (.named Seq5 ⟨0, [116, 101, 115, 116, 49]⟩)),  -- 44: ASSERT_MODIFIER_CALLABLE_R(name<"test1">,(P{}),(named_parser<P, "test1">{}))
    .parsersEq (tCall (M (.name ⟨0, [116, 101, 115, 116, 50]⟩)) [(P Seq5)]) (P (.named Seq5 ⟨0, [116, 101, 115, 116, 50]⟩)),  -- 44: ASSERT_MODIFIER_CALLABLE_R(name<"test2">,(P{}),(named_parser<P, "test2">{}))
    .parsersEq (tMod (P Seq5) (M (.name ⟨0, [116, 101, 115, 116, 49]⟩))) (P (.named Seq5 ⟨0, [116, 101, 115, 116, 49]⟩)),  -- 44: ASSERT_MODIFIER_MODULO_OPERABLE_R(P{}, name<"test1">,(named_parser<P, "test1">{}))
    .parsersEq (tMod (P Seq5) (M (.name ⟨0, [116, 101, 115, 116, 50]⟩))) (P (.named Seq5 ⟨0, [116, 101, 115, 116, 50]⟩))  -- 44: ASSERT_MODIFIER_MODULO_OPERABLE_R(P{}, name<"test2">,(named_parser<P, "test2">{}))
    ], Assertion.Holds a :=
  Assertion.holds_of_check (by decide +kernel)

/-- name modifier / modify anything (tests/char-tests/modifiers/name.cpp:44) -/
theorem charModifiersName_3_4 : ∀ a ∈ [
    .parsersEq (tCall (M (.name ⟨0, [116, 101, 115, 116, 49]⟩)) [(P Joi1)]) (P (.named Joi1 ⟨0, [116, 101, 115, 116, 49]⟩)),  -- 44: ASSERT_MODIFIER_CALLABLE_R(name<"test1">,(P{}),(named_parser<P, "test1">{}))
    .parsersEq (tCall (M (.name ⟨0, [116, 101, 115, 116, 50]⟩)) [(P Joi1)]) (P (.named Joi1 ⟨0, [116, 101, 115, 116, 50]⟩)),  -- 44: ASSERT_MODIFIER_CALLABLE_R(name<"test2">,(P{}),(named_parser<P, "test2">{}))
    .parsersEq (tMod (P Joi1) (M (.name ⟨0, [116, 101, 115, 116, 49]⟩))) (P (.named Joi1 ⟨0, [116, 101, 115, 116, 49]⟩)),  -- 44: ASSERT_MODIFIER_MODULO_OPERABLE_R(P{}, name<"test1">,(named_parser<P, "test1">{}))
    .parsersEq (tMod (P Joi1) (M (.name ⟨0, [116, 101, 115, 116, 50]⟩))) (P (.named Joi1 ⟨0, [116, 101, 115, 116, 50]⟩)),  -- 44: ASSERT_MODIFIER_MODULO_OPERABLE_R(P{}, name<"test2">,(named_parser<P, "test2">{}))
    .parsersEq (tCall (M (.name ⟨0, [116, 101, 115, 116, 49]⟩)) [(P Joi2)]) (P (.named Joi2 ⟨0, [116, 101, 115, 116, 49]⟩)),  -- 44: ASSERT_MODIFIER_CALLABLE_R(name<"test1">,(P{}),(named_parser<P, "test1">{}))
    .parsersEq (tCall (M (.name ⟨0, [116, 101, 115, 116, 50]⟩)) [(P Joi2)]) (P (.named Joi2 ⟨0, [116, 101, 115, 116, 50]⟩)),  -- 44: ASSERT_MODIFIER_CALLABLE_R(name<"test2">,(P{}),(named_parser<P, "test2">{}))
    .parsersEq (tMod (P Joi2) (M (.name ⟨0, [116, 101, 115, 116, 49]⟩))) (P (.named Joi2 ⟨0, [116, 101, 115, 116, 49]⟩)),  -- 44: ASSERT_MODIFIER_MODULO_OPERABLE_R(P{}, name<"test1">,(named_parser<P, "test1">{}))
    .parsersEq (tMod (P Joi2) (M (.name ⟨0, [116, 101, 115, 116, 50]⟩))) (P (.named Joi2 ⟨0, [116, 101, 115, 116, 50]⟩)),  -- 44: ASSERT_MODIFIER_MODULO_OPERABLE_R(P{}, name<"test2">,(named_parser<P, "test2">{}))
    .parsersEq (tCall (M (.name ⟨0, [116, 101, 115, 116, 49]⟩)) [(P Joi3)]) (P (.named Joi3 ⟨0, [116, 101, 115, 116, 49]⟩)),  -- 44: ASSERT_MODIFIER_CALLABLE_R(name<"test1">,(P{}),(named_parser<P, "test1">{}))
    .parsersEq (tCall (M (.name ⟨0, [116, 101, 115, 116, 50]⟩)) [(P Joi3)]) (P (.named Joi3 ⟨0, [116, 101, 115, 116, 50]⟩)),  -- 44: ASSERT_MODIFIER_CALLABLE_R(name<"test2">,(P{}),(named_parser<P, "test2">{}))
    .parsersEq (tMod (P Joi3) (M (.name ⟨0, [116, 101, 115, 116, 49]⟩))) (P (.named Joi3 ⟨0, [116, 101, 115, 116, 49]⟩)),  -- 44: ASSERT_MODIFIER_MODULO_OPERABLE_R(P{}, name<"test1">,(named_parser<P, "test1">{}))
    .parsersEq (tMod (P Joi3) (M (.name ⟨0, [116, 101, 115, 116, 50]⟩))) (P (.named Joi3 ⟨0, [116, 101, 115, 116, 50]⟩)),  -- 44: ASSERT_MODIFIER_MODULO_OPERABLE_R(P{}, name<"test2">,(named_parser<P, "test2">{}))
    .parsersEq (tCall (M (.name ⟨0, [116, 101, 115, 116, 49]⟩)) [(P Joi4)]) (P (.named Joi4 ⟨0, [116, 101, 115, 116, 49]⟩)),  -- 44: ASSERT_MODIFIER_CALLABLE_R(name<"test1">,(P{}),(named_parser<P, "test1">{}))
    .parsersEq (tCall (M (.name ⟨0, [116, 101, 115, 116, 50]⟩)) [(P Joi4)]) (P (.named Joi4 ⟨0, [116, 101, 115, 116, 50]⟩)),  -- 44: ASSERT_MODIFIER_CALLABLE_R(name<"test2">,(P{}),(named_parser<P, "test2">{}))
    .parsersEq (tMod (P Joi4) (M (.name ⟨0, [116, 101, 115, 116, 49]⟩))) (P (.named Joi4 ⟨0, [116, 101, 115, 116, 49]⟩)),  -- 44: ASSERT_MODIFIER_MODULO_OPERABLE_R(P{}, name<"test1">,(named_parser<P, "test1">{}))
    .parsersEq (tMod (P Joi4) (M (.name ⟨0, [116, 101, 115, 116, 50]⟩))) (P (.named Joi4 ⟨0, [116, 101, 115, 116, 50]⟩)),  -- 44: ASSERT_MODIFIER_MODULO_OPERABLE_R(P{}, name<"test2">,(named_parser<P, "test2">{}))
    .parsersEq (tCall (M (.name ⟨0, [116, 101, 115, 116, 49]⟩)) [(P Joi5)]) (P (.named Joi5 ⟨0, [116, 101, 115, 116, 49]⟩)),  -- 44: ASSERT_MODIFIER_CALLABLE_R(name<"test1">,(P{}),(named_parser<P, "test1">{}))
    .parsersEq (tCall (M (.name ⟨0, [116, 101, 115, 116, 50]⟩)) [(P Joi5)]) (P (.named Joi5 ⟨0, [116, 101, 115, 116, 50]⟩)),  -- 44: ASSERT_MODIFIER_CALLABLE_R(name<"test2">,(P{}),(named_parser<P, "test2">{}))
    .parsersEq (tMod (P Joi5) (M (.name ⟨0, [116, 101, 115, 116, 49]⟩))) (P (.named Joi5 ⟨0, [116, 101, 115, 116, 49]⟩)),  -- 44: ASSERT_MODIFIER_MODULO_OPERABLE_R(P{}, name<"test1">,(named_parser<P, "test1">{}))
    .parsersEq (tMod (P Joi5) (M (.name ⟨0, [116, 101, 115, 116, 50]⟩))) (P (.named Joi5 ⟨0, [116, 101, 115, 116, 50]⟩)),  -- 44: ASSERT_MODIFIER_MODULO_OPERABLE_R(P{}, name<"test2">,(named_parser<P, "test2">{}))
    .parsersEq (tCall (M (.name ⟨0, [116, 101, 115, 116, 49]⟩)) [(P Map1)]) (P (.named Map1 ⟨0, [116, 101, 115, 116, 49]⟩)),  -- 44: ASSERT_MODIFIER_CALLABLE_R(name<"test1">,(P{}),(named_parser<P, "test1">{}))
    .parsersEq (tCall (M (.name ⟨0, [116, 101, 115, 116, 50]⟩)) [(P Map1)]) (P (.named Map1 ⟨0, [116, 101, 115, 116, 50]⟩)),  -- 44: ASSERT_MODIFIER_CALLABLE_R(name<"test2">,(P{}),(named_parser<P, "test2">{}))
    .parsersEq (tMod (P Map1) (M (.name ⟨0, [116, 101, 115, 116, 49]⟩))) (P (.named Map1 ⟨0, [116, 101, 115, 116, 49]⟩)),  -- 44: ASSERT_MODIFIER_MODULO_OPERABLE_R(P{}, name<"test1">,(named_parser<P, "test1">{}))
    .parsersEq (tMod (P Map1) (M (.name ⟨0, [116, 101, 115, 116, 50]⟩))) (P (.named Map1 ⟨0, [116, 101, 115, 116, 50]⟩)),  -- 44: ASSERT_MODIFIER_MODULO_OPERABLE_R(P{}, name<"test2">,(named_parser<P, "test2">{}))
    .parsersEq (tCall (M (.name ⟨0, [116, 101, 115, 116, 49]⟩)) [(P Map2)]) (P (.named Map2 ⟨0, [116, 101, 115, 116, 49]⟩)),  -- 44: ASSERT_MODIFIER_CALLABLE_R(name<"test1">,(P{}),(named_parser<P, "test1">{}))
    .parsersEq (tCall (M (.name ⟨0, [116, 101, 115, 116, 50]⟩)) [(P Map2)]) (P (.named Map2 ⟨0, [116, 101, 115, 116, 50]⟩)),  -- 44: ASSERT_MODIFIER_CALLABLE_R(name<"test2">,(P{}),(named_parser<P, "test2">{}))
    .parsersEq (tMod (P Map2) (M (.name ⟨0, [116, 101, 115, 116, 49]⟩))) (P (.named Map2 ⟨0, [116, 101, 115, 116, 49]⟩)),  -- 44: ASSERT_MODIFIER_MODULO_OPERABLE_R(P{}, name<"test1">,(named_parser<P, "test1">{}))
    .parsersEq (tMod (P Map2) (M (.name ⟨0, [116, 101, 115, 116, 50]⟩))) (P (.named Map2 ⟨0, [116, 101, 115, 116, 50]⟩)),  -- 44: ASSERT_MODIFIER_MODULO_OPERABLE_R(P{}, name<"test2">,(named_parser<P, "test2">{}))
    .parsersEq (tCall (M (.name ⟨0, [116, 101, 115, 116, 49]⟩)) [(P Map3)]) (P (.named Map3 ⟨0, [116, 101, 115, 116, 49]⟩)),  -- 44: ASSERT_MODIFIER_CALLABLE_R(name<"test1">,(P{}),(named_parser<P, "test1">{}))
    .parsersEq (tCall (M (.name ⟨0, [116, 101, 115, 116, 50]⟩)) [(P Map3)]) (P (.named Map3 ⟨0, [116, 101, 115, 116, 50]⟩)),  -- 44: ASSERT_MODIFIER_CALLABLE_R(name<"test2">,(P{}),(named_parser<P, "test2">{}))
    .parsersEq (tMod (P Map3) (M (.name ⟨0, [116, 101, 115, 116, 49]⟩))) (P (.named Map3 ⟨0, [116, 101, 115, 116, 49]⟩)),  -- 44: ASSERT_MODIFIER_MODULO_OPERABLE_R(P{}, name<"test1">,(named_parser<P, "test1">{}))
    .parsersEq (tMod (P Map3) (M (.name ⟨0, [116, 101, 115, 116, 50]⟩))) (P (.named Map3 ⟨0, [116, 101, 115, 116, 50]⟩)),  -- 44: ASSERT_MODIFIER_MODULO_OPERABLE_R(P{}, name<"test2">,(named_parser<P, "test2">{}))
    .parsersEq (tCall (M (.name ⟨0, [116, 101, 115, 116, 49]⟩)) [(P Map4)]) (P (.named Map4 ⟨0, [116, 101, 115, 116, 49]⟩)),  -- 44: ASSERT_MODIFIER_CALLABLE_R(name<"test1">,(P{}),(named_parser<P, "test1">{}))
    .parsersEq (tCall (M (.name ⟨0, [116, 101, 115, 116, 50]⟩)) [(P Map4)]) (P (.named Map4 ⟨0, [116, 101, 115, 116, 50]⟩)),  -- 44: ASSERT_MODIFIER_CALLABLE_R(name<"test2">,(P{}),(named_parser<P, "test2">{}))
    .parsersEq (tMod (P Map4) (M (.name ⟨0, [116, 101, 115, 116, 49]⟩))) (P (.named Map4 ⟨0, [116, 101, 115, 116, 49]⟩)),  -- 44: ASSERT_MODIFIER_MODULO_OPERABLE_R(P{}, name<"test1">,(named_parser<P, "test1">{}))
    .parsersEq (tMod (P Map4) (M (.name ⟨0, [116, 101, 115, 116, 50]⟩))) (P (.named Map4 ⟨0, [116, 101, 115, 116, 50]⟩)),  -- 44: ASSERT_MODIFIER_MODULO_OPERABLE_R(P{}, name<"test2">,(named_parser<P, "test2">{}))
    .parsersEq (tCall (M (.name ⟨0, [116, 101, 115, 116, 49]⟩)) [(P Fil1)]) (P (.named Fil1 ⟨0, [116, 101, 115, 116, 49]⟩)),  -- 44: ASSERT_MODIFIER_CALLABLE_R(name<"test1">,(P{}),(named_parser<P, "test1">{}))
    .parsersEq (tCall (M (.name ⟨0, [116, 101, 115, 116, 50]⟩)) [(P Fil1)]) (P (.named Fil1 ⟨0, [116, 101, 115, 116, 50]⟩)),  -- 44: ASSERT_MODIFIER_CALLABLE_R(name<"test2">,(P{}),(named_parser<P, "test2">{}))
    .parsersEq (tMod (P Fil1) (M (.name ⟨0, [116, 101, 115, 116, 49]⟩))) (P (.named Fil1 ⟨0, [116, 101, 115, 116, 49]⟩)),  -- 44: ASSERT_MODIFIER_MODULO_OPERABLE_R(P{}, name<"test1">,(named_parser<P, "test1">{}))
    .parsersEq (tMod (P Fil1) (M (.name ⟨0, [116, 101, 115, 116, 50]⟩))) (P (.named Fil1 ⟨0, [116, 101, 115, 116, 50]⟩)),  -- 44: ASSERT_MODIFIER_MODULO_OPERABLE_R(P{}, name<"test2">,(named_parser<P, "test2">{}))
    .parsersEq (tCall (M (.name ⟨0, [116, 101, 115, 116, 49]⟩)) [(P Fil2)]) (P (.named Fil2 ⟨0, [116, 101, 115, 116, 49]⟩)),  -- 44: ASSERT_MODIFIER_CALLABLE_R(name<"test1">,(P{}),(named_parser<P, "test1">{}))
    .parsersEq (tCall (M (.name ⟨0, [116, 101, 115, 116, 50]⟩)) [(P Fil2)]) (P (.named Fil2 ⟨0, [116, 101, 115, 116, 50]⟩)),  -- 44: ASSERT_MODIFIER_CALLABLE_R(name<"test2">,(P{}),(named_parser<P, "test2">{}))
    .parsersEq (tMod (P Fil2) (M (.name ⟨0, [116, 101, 115, 116, 49]⟩))) (P (.named Fil2 ⟨0, [116, 101, 115, 116, 49]⟩)),  -- 44: ASSERT_MODIFIER_MODULO_OPERABLE_R(P{}, name<"test1">,(named_parser<P, "test1">{}))
    .parsersEq (tMod (P Fil2) (M (.name ⟨0, [116, 101, 115, 116, 50]⟩))) (P (.named Fil2 ⟨0, [116, 101, 115, 116, 50]⟩)),  -- 44: ASSERT_MODIFIER_MODULO_OPERABLE_R(P{}, name<"test2">,(named_parser<P, "test2">{}))
    .parsersEq (tCall (M (.name ⟨0, [116, 101, 115, 116, 49]⟩)) [(P Fil3)]) (P (.named Fil3 ⟨0, [116, 101, 115, 116, 49]⟩)),  -- 44: ASSERT_MODIFIER_CALLABLE_R(name<"test1">,(P{}),(named_parser<P, "test1">{}))
    .parsersEq (tCall (M (.name ⟨0, [116, 101, 115, 116, 50]⟩)) [(P Fil3)]) (P (.named Fil3 ⟨0, [116, 101, 115, 116, 50]⟩)),  -- 44: ASSERT_MODIFIER_CALLABLE_R(name<"test2">,(P{}),(named_parser<P, "test2">{}))
    .parsersEq (tMod (P Fil3) (M (.name ⟨0, [116, 101, 115, 116, 49]⟩))) (P (.named Fil3 ⟨0, [116, 101, 115, 116, 49]⟩)),  -- 44: ASSERT_MODIFIER_MODULO_OPERABLE_R(P{}, name<"test1">,(named_parser<P, "test1">{}))
    .parsersEq (tMod (P Fil3) (M (.name ⟨0, [116, 101, 115, 116, 50]⟩))) (P (.named Fil3 ⟨0, [116, 101, 115, 116, 50]⟩)),  -- 44: ASSERT_MODIFIER_MODULO_OPERABLE_R(P{}, name<"test2">,(named_parser<P, "test2">{}))
    .parsersEq (tCall (M (.name ⟨0, [116, 101, 115, 116, 49]⟩)) [(P Apm1)]) (P (.named Apm1 ⟨0, [116, 101, 115, 116, 49]⟩)),  -- 44: ASSERT_MODIFIER_CALLABLE_R(name<"test1">,(P{}),(named_parser<P, "test1">{}))
    .parsersEq (tCall (M (.name ⟨0, [116, 101, 115, 116, 50]⟩)) [(P Apm1)]) (P (.named Apm1 ⟨0, [116, 101, 115, 116, 50]⟩)),  -- 44: ASSERT_MODIFIER_CALLABLE_R(name<"test2">,(P{}),(named_parser<P, "test2">{}))
    .parsersEq (tMod (P Apm1) (M (.name ⟨0, [116, 101, 115, 116, 49]⟩))) (P (.named Apm1 ⟨0, [116, 101, 115, 116, 49]⟩)),  -- 44: ASSERT_MODIFIER_MODULO_OPERABLE_R(P{}, name<"test1">,(named_parser<P, "test1">{}))
    .parsersEq (tMod (P Apm1) (M (.name ⟨0, [116, 101, 115, 116, 50]⟩))) (P (.named Apm1 ⟨0, [116, 101, 115, 116, 50]⟩)),  -- 44: ASSERT_MODIFIER_MODULO_OPERABLE_R(P{}, name<"test2">,(named_parser<P, "test2">{}))
    .parsersEq (tCall (M (.name ⟨0, [116, 101, 115, 116, 49]⟩)) [(P Apm2)]) (P (.named Apm2 ⟨0, [116, 101, 115, 116, 49]⟩)),  -- 44: ASSERT_MODIFIER_CALLABLE_R(name<"test1">,(P{}),(named_parser<P, "test1">{}))
    .parsersEq (tCall (M (.name ⟨0, [116, 101, 115, 116, 50]⟩)) [(P Apm2)]) (P (.named Apm2 ⟨0, [116, 101, 115, 116, 50]⟩)),  -- 44: ASSERT_MODIFIER_CALLABLE_R(name<"test2">,(P{}),(named_parser<P, "test2">{}))
    .parsersEq (tMod (P Apm2) (M (.name ⟨0, [116, 101, 115, 116, 49]⟩))) (P (.named Apm2 ⟨0, [116, 101, 115, 116, 49]⟩)),  -- 44: ASSERT_MODIFIER_MODULO_OPERABLE_R(P{}, name<"test1">,(named_parser<P, "test1">{}))
    .parsersEq (tMod (P Apm2) (M (.name ⟨0, [116, 101, 115, 116, 50]⟩))) (P (.named Apm2 ⟨0, [116, 101, 115, 116, 50]⟩)),  -- 44: ASSERT_MODIFIER_MODULO_OPERABLE_R(P{}, name<"test2">,(named_parser<P, "test2">{}))
    .parsersEq (tCall (M (.name ⟨0, [116, 101, 115, 116, 49]⟩)) [(P Apf1)]) (P (.named Apf1 ⟨0, [116, 101, 115, 116, 49]⟩)),  -- 44: ASSERT_MODIFIER_CALLABLE_R(name<"test1">,(P{}),(named_parser<P, "test1">{}))
    .parsersEq (tCall (M (.name ⟨0, [116, 101, 115, 116, 50]⟩)) [(P Apf1)]) (P (.named Apf1 ⟨0, [116, 101, 115, 116, 50]⟩)),  -- 44: ASSERT_MODIFIER_CALLABLE_R(name<"test2">,(P{}),(named_parser<P, "test2">{}))
    .parsersEq (tMod (P Apf1) (M (.name ⟨0, [116, 101, 115, 116, 49]⟩))) (P (.named Apf1 ⟨0, [116, 101, 115, 116, 49]⟩)),  -- 44: ASSERT_MODIFIER_MODULO_OPERABLE_R(P{}, name<"test1">,(named_parser<P, "test1">{}))
    .parsersEq (tMod (P Apf1) (M (.name ⟨0, [116, 101, 115, 116, 50]⟩))) (P (.named Apf1 ⟨0, [116, 101, 115, 116, 50]⟩))  -- 44: ASSERT_MODIFIER_MODULO_OPERABLE_R(P{}, name<"test2">,(named_parser<P, "test2">{}))
    ], Assertion.Holds a :=
  Assertion.holds_of_check (by decide +kernel)

/-- name modifier / modify anything (tests/char-tests/modifiers/name.cpp:44) -/
theorem charModifiersName_3_5 : ∀ a ∈ [
    .parsersEq (tCall (M (.name ⟨0, [116, 101, 115, 116, 49]⟩)) [(P Int1)]) (P (.named Int1 ⟨0, [116, 101, 115, 116, 49]⟩)),  -- 44: ASSERT_MODIFIER_CALLABLE_R(name<"test1">,(P{}),(named_parser<P, "test1">{}))
    .parsersEq (tCall (M (.name ⟨0, [116, 101, 115, 116, 50]⟩)) [(P Int1)]) (P (.named Int1 ⟨0, [116, 101, 115, 116, 50]⟩)),  -- 44: ASSERT_MODIFIER_CALLABLE_R(name<"test2">,(P{}),(named_parser<P, "test2">{}))
    .parsersEq (tMod (P Int1) (M (.name ⟨0, [116, 101, 115, 116, 49]⟩))) (P (.named Int1 ⟨0, [116, 101, 115, 116, 49]⟩)),  -- 44: ASSERT_MODIFIER_MODULO_OPERABLE_R(P{}, name<"test1">,(named_parser<P, "test1">{}))
    .parsersEq (tMod (P Int1) (M (.name ⟨0, [116, 101, 115, 116, 50]⟩))) (P (.named Int1 ⟨0, [116, 101, 115, 116, 50]⟩)),  -- 44: ASSERT_MODIFIER_MODULO_OPERABLE_R(P{}, name<"test2">,(named_parser<P, "test2">{}))
    .parsersEq (tCall (M (.name ⟨0, [116, 101, 115, 116, 49]⟩)) [(P Int2)]) (P (.named Int2 ⟨0, [116, 101, 115, 116, 49]⟩)),  -- 44: ASSERT_MODIFIER_CALLABLE_R(name<"test1">,(P{}),(named_parser<P, "test1">{}))
    .parsersEq (tCall (M (.name ⟨0, [116, 101, 115, 116, 50]⟩)) [(P Int2)]) (P (.named Int2 ⟨0, [116, 101, 115, 116, 50]⟩)),  -- 44: ASSERT_MODIFIER_CALLABLE_R(name<"test2">,(P{}),(named_parser<P, "test2">{}))
    .parsersEq (tMod (P Int2) (M (.name ⟨0, [116, 101, 115, 116, 49]⟩))) (P (.named Int2 ⟨0, [116, 101, 115, 116, 49]⟩)),  -- 44: ASSERT_MODIFIER_MODULO_OPERABLE_R(P{}, name<"test1">,(named_parser<P, "test1">{}))
    .parsersEq (tMod (P Int2) (M (.name ⟨0, [116, 101, 115, 116, 50]⟩))) (P (.named Int2 ⟨0, [116, 101, 115, 116, 50]⟩)),  -- 44: ASSERT_MODIFIER_MODULO_OPERABLE_R(P{}, name<"test2">,(named_parser<P, "test2">{}))
    .parsersEq (tCall (M (.name ⟨0, [116, 101, 115, 116, 49]⟩)) [(P Int3)]) (P (.named Int3 ⟨0, [116, 101, 115, 116, 49]⟩)),  -- 44: ASSERT_MODIFIER_CALLABLE_R(name<"test1">,(P{}),(named_parser<P, "test1">{}))
    .parsersEq (tCall (M (.name ⟨0, [116, 101, 115, 116, 50]⟩)) [(P Int3)]) (P (.named Int3 ⟨0, [116, 101, 115, 116, 50]⟩)),  -- 44: ASSERT_MODIFIER_CALLABLE_R(name<"test2">,(P{}),(named_parser<P, "test2">{}))
    .parsersEq (tMod (P Int3) (M (.name ⟨0, [116, 101, 115, 116, 49]⟩))) (P (.named Int3 ⟨0, [116, 101, 115, 116, 49]⟩)),  -- 44: ASSERT_MODIFIER_MODULO_OPERABLE_R(P{}, name<"test1">,(named_parser<P, "test1">{}))
    .parsersEq (tMod (P Int3) (M (.name ⟨0, [116, 101, 115, 116, 50]⟩))) (P (.named Int3 ⟨0, [116, 101, 115, 116, 50]⟩)),  -- 44: ASSERT_MODIFIER_MODULO_OPERABLE_R(P{}, name<"test2">,(named_parser<P, "test2">{}))
    .parsersEq (tCall (M (.name ⟨0, [116, 101, 115, 116, 49]⟩)) [(P Api1)]) (P (.named Api1 ⟨0, [116, 101, 115, 116, 49]⟩)),  -- 44: ASSERT_MODIFIER_CALLABLE_R(name<"test1">,(P{}),(named_parser<P, "test1">{}))
    .parsersEq (tCall (M (.name ⟨0, [116, 101, 115, 116, 50]⟩)) [(P Api1)]) (P (.named Api1 ⟨0, [116, 101, 115, 116, 50]⟩)),  -- 44: ASSERT_MODIFIER_CALLABLE_R(name<"test2">,(P{}),(named_parser<P, "test2">{}))
    .parsersEq (tMod (P Api1) (M (.name ⟨0, [116, 101, 115, 116, 49]⟩))) (P (.named Api1 ⟨0, [116, 101, 115, 116, 49]⟩)),  -- 44: ASSERT_MODIFIER_MODULO_OPERABLE_R(P{}, name<"test1">,(named_parser<P, "test1">{}))
    .parsersEq (tMod (P Api1) (M (.name ⟨0, [116, 101, 115, 116, 50]⟩))) (P (.named Api1 ⟨0, [116, 101, 115, 116, 50]⟩)),  -- 44: ASSERT_MODIFIER_MODULO_OPERABLE_R(P{}, name<"test2">,(named_parser<P, "test2">{}))
    .parsersEq (tCall (M (.name ⟨0, [116, 101, 115, 116, 49]⟩)) [(P Api2)]) (P (.named Api2 ⟨0, [116, 101, 115, 116, 49]⟩)),  -- 44: ASSERT_MODIFIER_CALLABLE_R(name<"test1">,(P{}),(named_parser<P, "test1">{}))
    .parsersEq (tCall (M (.name ⟨0, [116, 101, 115, 116, 50]⟩)) [(P Api2)]) (P (.named Api2 ⟨0, [116, 101, 115, 116, 50]⟩)),  -- 44: ASSERT_MODIFIER_CALLABLE_R(name<"test2">,(P{}),(named_parser<P, "test2">{}))
    .parsersEq (tMod (P Api2) (M (.name ⟨0, [116, 101, 115, 116, 49]⟩))) (P (.named Api2 ⟨0, [116, 101, 115, 116, 49]⟩)),  -- 44: ASSERT_MODIFIER_MODULO_OPERABLE_R(P{}, name<"test1">,(named_parser<P, "test1">{}))
    .parsersEq (tMod (P Api2) (M (.name ⟨0, [116, 101, 115, 116, 50]⟩))) (P (.named Api2 ⟨0, [116, 101, 115, 116, 50]⟩)),  -- 44: ASSERT_MODIFIER_MODULO_OPERABLE_R(P{}, name<"test2">,(named_parser<P, "test2">{}))
    .parsersEq (tCall (M (.name ⟨0, [116, 101, 115, 116, 49]⟩)) [(P Con1)]) (P (.named Con1 ⟨0, [116, 101, 115, 116, 49]⟩)),  -- 44: ASSERT_MODIFIER_CALLABLE_R(name<"test1">,(P{}),(named_parser<P, "test1">{}))
    .parsersEq (tCall (M (.name ⟨0, [116, 101, 115, 116, 50]⟩)) [(P Con1)]) (P (.named Con1 ⟨0, [116, 101, 115, 116, 50]⟩)),  -- 44: ASSERT_MODIFIER_CALLABLE_R(name<"test2">,(P{}),(named_parser<P, "test2">{}))
    .parsersEq (tMod (P Con1) (M (.name ⟨0, [116, 101, 115, 116, 49]⟩))) (P (.named Con1 ⟨0, [116, 101, 115, 116, 49]⟩)),  -- 44: ASSERT_MODIFIER_MODULO_OPERABLE_R(P{}, name<"test1">,(named_parser<P, "test1">{}))
    .parsersEq (tMod (P Con1) (M (.name ⟨0, [116, 101, 115, 116, 50]⟩))) (P (.named Con1 ⟨0, [116, 101, 115, 116, 50]⟩)),  -- 44: ASSERT_MODIFIER_MODULO_OPERABLE_R(P{}, name<"test2">,(named_parser<P, "test2">{}))
    .parsersEq (tCall (M (.name ⟨0, [116, 101, 115, 116, 49]⟩)) [(P Con2)]) (P (.named Con2 ⟨0, [116, 101, 115, 116, 49]⟩)),  -- 44: ASSERT_MODIFIER_CALLABLE_R(name<"test1">,(P{}),(named_parser<P, "test1">{}))
    .parsersEq (tCall (M (.name ⟨0, [116, 101, 115, 116, 50]⟩)) [(P Con2)]) (P (.named Con2 ⟨0, [116, 101, 115, 116, 50]⟩)),  -- 44: ASSERT_MODIFIER_CALLABLE_R(name<"test2">,(P{}),(named_parser<P, "test2">{}))
    .parsersEq (tMod (P Con2) (M (.name ⟨0, [116, 101, 115, 116, 49]⟩))) (P (.named Con2 ⟨0, [116, 101, 115, 116, 49]⟩)),  -- 44: ASSERT_MODIFIER_MODULO_OPERABLE_R(P{}, name<"test1">,(named_parser<P, "test1">{}))
    .parsersEq (tMod (P Con2) (M (.name ⟨0, [116, 101, 115, 116, 50]⟩))) (P (.named Con2 ⟨0, [116, 101, 115, 116, 50]⟩)),  -- 44: ASSERT_MODIFIER_MODULO_OPERABLE_R(P{}, name<"test2">,(named_parser<P, "test2">{}))
    .parsersEq (tCall (M (.name ⟨0, [116, 101, 115, 116, 49]⟩)) [(P Con3)]) (P (.named Con3 ⟨0, [116, 101, 115, 116, 49]⟩)),  -- 44: ASSERT_MODIFIER_CALLABLE_R(name<"test1">,(P{}),(named_parser<P, "test1">{}))
    .parsersEq (tCall (M (.name ⟨0, [116, 101, 115, 116, 50]⟩)) [(P Con3)]) (P (.named Con3 ⟨0, [116, 101, 115, 116, 50]⟩)),  -- 44: ASSERT_MODIFIER_CALLABLE_R(name<"test2">,(P{}),(named_parser<P, "test2">{}))
    .parsersEq (tMod (P Con3) (M (.name ⟨0, [116, 101, 115, 116, 49]⟩))) (P (.named Con3 ⟨0, [116, 101, 115, 116, 49]⟩)),  -- 44: ASSERT_MODIFIER_MODULO_OPERABLE_R(P{}, name<"test1">,(named_parser<P, "test1">{}))
    .parsersEq (tMod (P Con3) (M (.name ⟨0, [116, 101, 115, 116, 50]⟩))) (P (.named Con3 ⟨0, [116, 101, 115, 116, 50]⟩)),  -- 44: ASSERT_MODIFIER_MODULO_OPERABLE_R(P{}, name<"test2">,(named_parser<P, "test2">{}))
    .parsersEq (tCall (M (.name ⟨0, [116, 101, 115, 116, 49]⟩)) [(P Con4)]) (P (.named Con4 ⟨0, [116, 101, 115, 116, 49]⟩)),  -- 44: ASSERT_MODIFIER_CALLABLE_R(name<"test1">,(P{}),(named_parser<P, "test1">{}))
    .parsersEq (tCall (M (.name ⟨0, [116, 101, 115, 116, 50]⟩)) [(P Con4)]) (P (.named Con4 ⟨0, [116, 101, 115, 116, 50]⟩)),  -- 44: ASSERT_MODIFIER_CALLABLE_R(name<"test2">,(P{}),(named_parser<P, "test2">{}))
    .parsersEq (tMod (P Con4) (M (.name ⟨0, [116, 101, 115, 116, 49]⟩))) (P (.named Con4 ⟨0, [116, 101, 115, 116, 49]⟩)),  -- 44: ASSERT_MODIFIER_MODULO_OPERABLE_R(P{}, name<"test1">,(named_parser<P, "test1">{}))
    .parsersEq (tMod (P Con4) (M (.name ⟨0, [116, 101, 115, 116, 50]⟩))) (P (.named Con4 ⟨0, [116, 101, 115, 116, 50]⟩)),  -- 44: ASSERT_MODIFIER_MODULO_OPERABLE_R(P{}, name<"test2">,(named_parser<P, "test2">{}))
    .parsersEq (tCall (M (.name ⟨0, [116, 101, 115, 116, 49]⟩)) [(P Def1)]) (P (.named Def1 ⟨0, [116, 101, 115, 116, 49]⟩)),  -- 44: ASSERT_MODIFIER_CALLABLE_R(name<"test1">,(P{}),(named_parser<P, "test1">{}))
    .parsersEq (tCall (M (.name ⟨0, [116, 101, 115, 116, 50]⟩)) [(P Def1)]) (P (.named Def1 ⟨0, [116, 101, 115, 116, 50]⟩)),  -- 44: ASSERT_MODIFIER_CALLABLE_R(name<"test2">,(P{}),(named_parser<P, "test2">{}))
    .parsersEq (tMod (P Def1) (M (.name ⟨0, [116, 101, 115, 116, 49]⟩))) (P (.named Def1 ⟨0, [116, 101, 115, 116, 49]⟩)),  -- 44: ASSERT_MODIFIER_MODULO_OPERABLE_R(P{}, name<"test1">,(named_parser<P, "test1">{}))
    .parsersEq (tMod (P Def1) (M (.name ⟨0, [116, 101, 115, 116, 50]⟩))) (P (.named Def1 ⟨0, [116, 101, 115, 116, 50]⟩)),  -- 44: ASSERT_MODIFIER_MODULO_OPERABLE_R(P{}, name<"test2">,(named_parser<P, "test2">{}))
    .parsersEq (tCall (M (.name ⟨0, [116, 101, 115, 116, 49]⟩)) [(P Def2)]) (P (.named Def2 ⟨0, [116, 101, 115, 116, 49]⟩)),  -- 44: ASSERT_MODIFIER_CALLABLE_R(name<"test1">,(P{}),(named_parser<P, "test1">{}))
    .parsersEq (tCall (M (.name ⟨0, [116, 101, 115, 116, 50]⟩)) [(P Def2)]) (P (.named Def2 ⟨0, [116, 101, 115, 116, 50]⟩)),  -- 44: ASSERT_MODIFIER_CALLABLE_R(name<"test2">,(P{}),(named_parser<P, "test2">{}))
    .parsersEq (tMod (P Def2) (M (.name ⟨0, [116, 101, 115, 116, 49]⟩))) (P (.named Def2 ⟨0, [116, 101, 115, 116, 49]⟩)),  -- 44: ASSERT_MODIFIER_MODULO_OPERABLE_R(P{}, name<"test1">,(named_parser<P, "test1">{}))
    .parsersEq (tMod (P Def2) (M (.name ⟨0, [116, 101, 115, 116, 50]⟩))) (P (.named Def2 ⟨0, [116, 101, 115, 116, 50]⟩)),  -- 44: ASSERT_MODIFIER_MODULO_OPERABLE_R(P{}, name<"test2">,(named_parser<P, "test2">{}))
    .parsersEq (tCall (M (.name ⟨0, [116, 101, 115, 116, 49]⟩)) [(P (.custom 0))]) (P (.named (.custom 0) ⟨0, [116, 101, 115, 116, 49]⟩)),  -- 44: ASSERT_MODIFIER_CALLABLE_R(name<"test1">,(P{}),(named_parser<P, "test1">{}))
    .parsersEq (tCall (M (.name ⟨0, [116, 101, 115, 116, 50]⟩)) [(P (.custom 0))]) (P (.named (.custom 0) ⟨0, [116, 101, 115, 116, 50]⟩)),  -- 44: ASSERT_MODIFIER_CALLABLE_R(name<"test2">,(P{}),(named_parser<P, "test2">{}))
    .parsersEq (tMod (P (.custom 0)) (M (.name ⟨0, [116, 101, 115, 116, 49]⟩))) (P (.named (.custom 0) ⟨0, [116, 101, 115, 116, 49]⟩)),  -- 44: ASSERT_MODIFIER_MODULO_OPERABLE_R(P{}, name<"test1">,(named_parser<P, "test1">{}))
    .parsersEq (tMod (P (.custom 0)) (M (.name ⟨0, [116, 101, 115, 116, 50]⟩))) (P (.named (.custom 0) ⟨0, [116, 101, 115, 116, 50]⟩)),  -- 44: ASSERT_MODIFIER_MODULO_OPERABLE_R(P{}, name<"test2">,(named_parser<P, "test2">{}))
    .parsersEq (tCall (M (.name ⟨0, [116, 101, 115, 116, 49]⟩)) [(P (.custom 1))]) (P (.named (.custom 1) ⟨0, [116, 101, 115, 116, 49]⟩)),  -- 44: ASSERT_MODIFIER_CALLABLE_R(name<"test1">,(P{}),(named_parser<P, "test1">{}))
    .parsersEq (tCall (M (.name ⟨0, [116, 101, 115, 116, 50]⟩)) [(P (.custom 1))]) (P (.named (.custom 1) ⟨0, [116, 101, 115, 116, 50]⟩)),  -- 44: ASSERT_MODIFIER_CALLABLE_R(name<"test2">,(P{}),(named_parser<P, "test2">{}))
    .parsersEq (tMod (P (.custom 1)) (M (.name ⟨0, [116, 101, 115, 116, 49]⟩))) (P (.named (.custom 1) ⟨0, [116, 101, 115, 116, 49]⟩)),  -- 44: ASSERT_MODIFIER_MODULO_OPERABLE_R(P{}, name<"test1">,(named_parser<P, "test1">{}))
    .parsersEq (tMod (P (.custom 1)) (M (.name ⟨0, [116, 101, 115, 116, 50]⟩))) (P (.named (.custom 1) ⟨0, [116, 101, 115, 116, 50]⟩)),  -- 44: ASSERT_MODIFIER_MODULO_OPERABLE_R(P{}, name<"test2">,(named_parser<P, "test2">{}))
    .parsersEq (tCall (M (.name ⟨0, [116, 101, 115, 116, 49]⟩)) [(P May1)]) (P (.named May1 ⟨0, [116, 101, 115, 116, 49]⟩)),  -- 44: ASSERT_MODIFIER_CALLABLE_R(name<"test1">,(P{}),(named_parser<P, "test1">{}))
    .parsersEq (tCall (M (.name ⟨0, [116, 101, 115, 116, 50]⟩)) [(P May1)]) (P (.named May1 ⟨0, [116, 101, 115, 116, 50]⟩)),  -- 44: ASSERT_MODIFIER_CALLABLE_R(name<"test2">,(P{}),(named_parser<P, "test2">{}))
    .parsersEq (tMod (P May1) (M (.name ⟨0, [116, 101, 115, 116, 49]⟩))) (P (.named May1 ⟨0, [116, 101, 115, 116, 49]⟩)),  -- 44: ASSERT_MODIFIER_MODULO_OPERABLE_R(P{}, name<"test1">,(named_parser<P, "test1">{}))
    .parsersEq (tMod (P May1) (M (.name ⟨0, [116, 101, 115, 116, 50]⟩))) (P (.named May1 ⟨0, [116, 101, 115, 116, 50]⟩)),  -- 44: ASSERT_MODIFIER_MODULO_OPERABLE_R(P{}, name<"test2">,(named_parser<P, "test2">{}))
    .parsersEq (tCall (M (.name ⟨0, [116, 101, 115, 116, 49]⟩)) [(P May2)]) (P (.named May2 ⟨0, [116, 101, 115, 116, 49]⟩)),  -- 44: ASSERT_MODIFIER_CALLABLE_R(name<"test1">,(P{}),(named_parser<P, "test1">{}))
    .parsersEq (tCall (M (.name ⟨0, [116, 101, 115, 116, 50]⟩)) [(P May2)]) (P (.named May2 ⟨0, [116, 101, 115, 116, 50]⟩)),  -- 44: ASSERT_MODIFIER_CALLABLE_R(name<"test2">,(P{}),(named_parser<P, "test2">{}))
    .parsersEq (tMod (P May2) (M (.name ⟨0, [116, 101, 115, 116, 49]⟩))) (P (.named May2 ⟨0, [116, 101, 115, 116, 49]⟩)),  -- 44: ASSERT_MODIFIER_MODULO_OPERABLE_R(P{}, name<"test1">,(named_parser<P, "test1">{}))
    .parsersEq (tMod (P May2) (M (.name ⟨0, [116, 101, 115, 116, 50]⟩))) (P (.named May2 ⟨0, [116, 101, 115, 116, 50]⟩))  -- 44: ASSERT_MODIFIER_MODULO_OPERABLE_R(P{}, name<"test2">,(named_parser<P, "test2">{}))
    ], Assertion.Holds a :=
  Assertion.holds_of_check (by decide +kernel)

/-- name modifier / modify anything (tests/char-tests/modifiers/name.cpp:44) -/
theorem charModifiersName_3_6 : ∀ a ∈ [
    .parsersEq (tCall (M (.name ⟨0, [116, 101, 115, 116, 49]⟩)) [(P May3)]) (P (.named May3 ⟨0, [116, 101, 115, 116, 49]⟩)),  -- 44: ASSERT_MODIFIER_CALLABLE_R(name<"test1">,(P{}),(named_parser<P, "test1">{}))
    .parsersEq (tCall (M (.name ⟨0, [116, 101, 115, 116, 50]⟩)) [(P May3)]) (P (.named May3 ⟨0, [116, 101, 115, 116, 50]⟩)),  -- 44: ASSERT_MODIFIER_CALLABLE_R(name<"test2">,(P{}),(named_parser<P, "test2">{}))
    .parsersEq (tMod (P May3) (M (.name ⟨0, [116, 101, 115, 116, 49]⟩))) (P (.named May3 ⟨0, [116, 101, 115, 116, 49]⟩)),  -- 44: ASSERT_MODIFIER_MODULO_OPERABLE_R(P{}, name<"test1">,(named_parser<P, "test1">{}))
    .parsersEq (tMod (P May3) (M (.name ⟨0, [116, 101, 115, 116, 50]⟩))) (P (.named May3 ⟨0, [116, 101, 115, 116, 50]⟩)),  -- 44: ASSERT_MODIFIER_MODULO_OPERABLE_R(P{}, name<"test2">,(named_parser<P, "test2">{}))
    .parsersEq (tCall (M (.name ⟨0, [116, 101, 115, 116, 49]⟩)) [(P May4)]) (P (.named May4 ⟨0, [116, 101, 115, 116, 49]⟩)),  -- 44: ASSERT_MODIFIER_CALLABLE_R(name<"test1">,(P{}),(named_parser<P, "test1">{}))
    .parsersEq (tCall (M (.name ⟨0, [116, 101, 115, 116, 50]⟩)) [(P May4)]) (P (.named May4 ⟨0, [116, 101, 115, 116, 50]⟩)),  -- 44: ASSERT_MODIFIER_CALLABLE_R(name<"test2">,(P{}),(named_parser<P, "test2">{}))
    .parsersEq (tMod (P May4) (M (.name ⟨0, [116, 101, 115, 116, 49]⟩))) (P (.named May4 ⟨0, [116, 101, 115, 116, 49]⟩)),  -- 44: ASSERT_MODIFIER_MODULO_OPERABLE_R(P{}, name<"test1">,(named_parser<P, "test1">{}))
    .parsersEq (tMod (P May4) (M (.name ⟨0, [116, 101, 115, 116, 50]⟩))) (P (.named May4 ⟨0, [116, 101, 115, 116, 50]⟩)),  -- 44: ASSERT_MODIFIER_MODULO_OPERABLE_R(P{}, name<"test2">,(named_parser<P, "test2">{}))
    .parsersEq (tCall (M (.name ⟨0, [116, 101, 115, 116, 49]⟩)) [(P Exa1)]) (P (.named Exa1 ⟨0, [116, 101, 115, 116, 49]⟩)),  -- 44: ASSERT_MODIFIER_CALLABLE_R(name<"test1">,(P{}),(named_parser<P, "test1">{}))
    .parsersEq (tCall (M (.name ⟨0, [116, 101, 115, 116, 50]⟩)) [(P Exa1)]) (P (.named Exa1 ⟨0, [116, 101, 115, 116, 50]⟩)),  -- 44: ASSERT_MODIFIER_CALLABLE_R(name<"test2">,(P{}),(named_parser<P, "test2">{}))
    .parsersEq (tMod (P Exa1) (M (.name ⟨0, [116, 101, 115, 116, 49]⟩))) (P (.named Exa1 ⟨0, [116, 101, 115, 116, 49]⟩)),  -- 44: ASSERT_MODIFIER_MODULO_OPERABLE_R(P{}, name<"test1">,(named_parser<P, "test1">{}))
    .parsersEq (tMod (P Exa1) (M (.name ⟨0, [116, 101, 115, 116, 50]⟩))) (P (.named Exa1 ⟨0, [116, 101, 115, 116, 50]⟩)),  -- 44: ASSERT_MODIFIER_MODULO_OPERABLE_R(P{}, name<"test2">,(named_parser<P, "test2">{}))
    .parsersEq (tCall (M (.name ⟨0, [116, 101, 115, 116, 49]⟩)) [(P Exa2)]) (P (.named Exa2 ⟨0, [116, 101, 115, 116, 49]⟩)),  -- 44: ASSERT_MODIFIER_CALLABLE_R(name<"test1">,(P{}),(named_parser<P, "test1">{}))
    .parsersEq (tCall (M (.name ⟨0, [116, 101, 115, 116, 50]⟩)) [(P Exa2)]) (P (.named Exa2 ⟨0, [116, 101, 115, 116, 50]⟩)),  -- 44: ASSERT_MODIFIER_CALLABLE_R(name<"test2">,(P{}),(named_parser<P, "test2">{}))
    .parsersEq (tMod (P Exa2) (M (.name ⟨0, [116, 101, 115, 116, 49]⟩))) (P (.named Exa2 ⟨0, [116, 101, 115, 116, 49]⟩)),  -- 44: ASSERT_MODIFIER_MODULO_OPERABLE_R(P{}, name<"test1">,(named_parser<P, "test1">{}))
    .parsersEq (tMod (P Exa2) (M (.name ⟨0, [116, 101, 115, 116, 50]⟩))) (P (.named Exa2 ⟨0, [116, 101, 115, 116, 50]⟩)),  -- 44: ASSERT_MODIFIER_MODULO_OPERABLE_R(P{}, name<"test2">,(named_parser<P, "test2">{}))
    .parsersEq (tCall (M (.name ⟨0, [116, 101, 115, 116, 49]⟩)) [(P Exa3)]) (P (.named Exa3 ⟨0, [116, 101, 115, 116, 49]⟩)),  -- 44: ASSERT_MODIFIER_CALLABLE_R(name<"test1">,(P{}),(named_parser<P, "test1">{}))
    .parsersEq (tCall (M (.name ⟨0, [116, 101, 115, 116, 50]⟩)) [(P Exa3)]) (P (.named Exa3 ⟨0, [116, 101, 115, 116, 50]⟩)),  -- 44: ASSERT_MODIFIER_CALLABLE_R(name<"test2">,(P{}),(named_parser<P, "test2">{}))
    .parsersEq (tMod (P Exa3) (M (.name ⟨0, [116, 101, 115, 116, 49]⟩))) (P (.named Exa3 ⟨0, [116, 101, 115, 116, 49]⟩)),  -- 44: ASSERT_MODIFIER_MODULO_OPERABLE_R(P{}, name<"test1">,(named_parser<P, "test1">{}))
    .parsersEq (tMod (P Exa3) (M (.name ⟨0, [116, 101, 115, 116, 50]⟩))) (P (.named Exa3 ⟨0, [116, 101, 115, 116, 50]⟩)),  -- 44: ASSERT_MODIFIER_MODULO_OPERABLE_R(P{}, name<"test2">,(named_parser<P, "test2">{}))
    .parsersEq (tCall (M (.name ⟨0, [116, 101, 115, 116, 49]⟩)) [(P Exa4)]) (P (.named Exa4 ⟨0, [116, 101, 115, 116, 49]⟩)),  -- 44: ASSERT_MODIFIER_CALLABLE_R(name<"test1">,(P{}),(named_parser<P, "test1">{}))
    .parsersEq (tCall (M (.name ⟨0, [116, 101, 115, 116, 50]⟩)) [(P Exa4)]) (P (.named Exa4 ⟨0, [116, 101, 115, 116, 50]⟩)),  -- 44: ASSERT_MODIFIER_CALLABLE_R(name<"test2">,(P{}),(named_parser<P, "test2">{}))
    .parsersEq (tMod (P Exa4) (M (.name ⟨0, [116, 101, 115, 116, 49]⟩))) (P (.named Exa4 ⟨0, [116, 101, 115, 116, 49]⟩)),  -- 44: ASSERT_MODIFIER_MODULO_OPERABLE_R(P{}, name<"test1">,(named_parser<P, "test1">{}))
    .parsersEq (tMod (P Exa4) (M (.name ⟨0, [116, 101, 115, 116, 50]⟩))) (P (.named Exa4 ⟨0, [116, 101, 115, 116, 50]⟩)),  -- 44: ASSERT_MODIFIER_MODULO_OPERABLE_R(P{}, name<"test2">,(named_parser<P, "test2">{}))
    .parsersEq (tCall (M (.name ⟨0, [116, 101, 115, 116, 49]⟩)) [(P Oom1)]) (P (.named Oom1 ⟨0, [116, 101, 115, 116, 49]⟩)),  -- 44: ASSERT_MODIFIER_CALLABLE_R(name<"test1">,(P{}),(named_parser<P, "test1">{}))
    .parsersEq (tCall (M (.name ⟨0, [116, 101, 115, 116, 50]⟩)) [(P Oom1)]) (P (.named Oom1 ⟨0, [116, 101, 115, 116, 50]⟩)),  -- 44: ASSERT_MODIFIER_CALLABLE_R(name<"test2">,(P{}),(named_parser<P, "test2">{}))
    .parsersEq (tMod (P Oom1) (M (.name ⟨0, [116, 101, 115, 116, 49]⟩))) (P (.named Oom1 ⟨0, [116, 101, 115, 116, 49]⟩)),  -- 44: ASSERT_MODIFIER_MODULO_OPERABLE_R(P{}, name<"test1">,(named_parser<P, "test1">{}))
    .parsersEq (tMod (P Oom1) (M (.name ⟨0, [116, 101, 115, 116, 50]⟩))) (P (.named Oom1 ⟨0, [116, 101, 115, 116, 50]⟩)),  -- 44: ASSERT_MODIFIER_MODULO_OPERABLE_R(P{}, name<"test2">,(named_parser<P, "test2">{}))
    .parsersEq (tCall (M (.name ⟨0, [116, 101, 115, 116, 49]⟩)) [(P Oom2)]) (P (.named Oom2 ⟨0, [116, 101, 115, 116, 49]⟩)),  -- 44: ASSERT_MODIFIER_CALLABLE_R(name<"test1">,(P{}),(named_parser<P, "test1">{}))
    .parsersEq (tCall (M (.name ⟨0, [116, 101, 115, 116, 50]⟩)) [(P Oom2)]) (P (.named Oom2 ⟨0, [116, 101, 115, 116, 50]⟩)),  -- 44: ASSERT_MODIFIER_CALLABLE_R(name<"test2">,(P{}),(named_parser<P, "test2">{}))
    .parsersEq (tMod (P Oom2) (M (.name ⟨0, [116, 101, 115, 116, 49]⟩))) (P (.named Oom2 ⟨0, [116, 101, 115, 116, 49]⟩)),  -- 44: ASSERT_MODIFIER_MODULO_OPERABLE_R(P{}, name<"test1">,(named_parser<P, "test1">{}))
    .parsersEq (tMod (P Oom2) (M (.name ⟨0, [116, 101, 115, 116, 50]⟩))) (P (.named Oom2 ⟨0, [116, 101, 115, 116, 50]⟩)),  -- 44: ASSERT_MODIFIER_MODULO_OPERABLE_R(P{}, name<"test2">,(named_parser<P, "test2">{}))
    .parsersEq (tCall (M (.name ⟨0, [116, 101, 115, 116, 49]⟩)) [(P Oom3)]) (P (.named Oom3 ⟨0, [116, 101, 115, 116, 49]⟩)),  -- 44: ASSERT_MODIFIER_CALLABLE_R(name<"test1">,(P{}),(named_parser<P, "test1">{}))
    .parsersEq (tCall (M (.name ⟨0, [116, 101, 115, 116, 50]⟩)) [(P Oom3)]) (P (.named Oom3 ⟨0, [116, 101, 115, 116, 50]⟩)),  -- 44: ASSERT_MODIFIER_CALLABLE_R(name<"test2">,(P{}),(named_parser<P, "test2">{}))
    .parsersEq (tMod (P Oom3) (M (.name ⟨0, [116, 101, 115, 116, 49]⟩))) (P (.named Oom3 ⟨0, [116, 101, 115, 116, 49]⟩)),  -- 44: ASSERT_MODIFIER_MODULO_OPERABLE_R(P{}, name<"test1">,(named_parser<P, "test1">{}))
    .parsersEq (tMod (P Oom3) (M (.name ⟨0, [116, 101, 115, 116, 50]⟩))) (P (.named Oom3 ⟨0, [116, 101, 115, 116, 50]⟩)),  -- 44: ASSERT_MODIFIER_MODULO_OPERABLE_R(P{}, name<"test2">,(named_parser<P, "test2">{}))
    .parsersEq (tCall (M (.name ⟨0, [116, 101, 115, 116, 49]⟩)) [(P Oom4)]) (P (.named Oom4 ⟨0, [116, 101, 115, 116, 49]⟩)),  -- 44: ASSERT_MODIFIER_CALLABLE_R(name<"test1">,(P{}),(named_parser<P, "test1">{}))
    .parsersEq (tCall (M (.name ⟨0, [116, 101, 115, 116, 50]⟩)) [(P Oom4)]) (P (.named Oom4 ⟨0, [116, 101, 115, 116, 50]⟩)),  -- 44: ASSERT_MODIFIER_CALLABLE_R(name<"test2">,(P{}),(named_parser<P, "test2">{}))
    .parsersEq (tMod (P Oom4) (M (.name ⟨0, [116, 101, 115, 116, 49]⟩))) (P (.named Oom4 ⟨0, [116, 101, 115, 116, 49]⟩)),  -- 44: ASSERT_MODIFIER_MODULO_OPERABLE_R(P{}, name<"test1">,(named_parser<P, "test1">{}))
    .parsersEq (tMod (P Oom4) (M (.name ⟨0, [116, 101, 115, 116, 50]⟩))) (P (.named Oom4 ⟨0, [116, 101, 115, 116, 50]⟩)),  -- 44: ASSERT_MODIFIER_MODULO_OPERABLE_R(P{}, name<"test2">,(named_parser<P, "test2">{}))
    .parsersEq (tCall (M (.name ⟨0, [116, 101, 115, 116, 49]⟩)) [(P Zom1)]) (P (.named Zom1 ⟨0, [116, 101, 115, 116, 49]⟩)),  -- 44: ASSERT_MODIFIER_CALLABLE_R(name<"test1">,(P{}),(named_parser<P, "test1">{}))
    .parsersEq (tCall (M (.name ⟨0, [116, 101, 115, 116, 50]⟩)) [(P Zom1)]) (P (.named Zom1 ⟨0, [116, 101, 115, 116, 50]⟩)),  -- 44: ASSERT_MODIFIER_CALLABLE_R(name<"test2">,(P{}),(named_parser<P, "test2">{}))
    .parsersEq (tMod (P Zom1) (M (.name ⟨0, [116, 101, 115, 116, 49]⟩))) (P (.named Zom1 ⟨0, [116, 101, 115, 116, 49]⟩)),  -- 44: ASSERT_MODIFIER_MODULO_OPERABLE_R(P{}, name<"test1">,(named_parser<P, "test1">{}))
    .parsersEq (tMod (P Zom1) (M (.name ⟨0, [116, 101, 115, 116, 50]⟩))) (P (.named Zom1 ⟨0, [116, 101, 115, 116, 50]⟩)),  -- 44: ASSERT_MODIFIER_MODULO_OPERABLE_R(P{}, name<"test2">,(named_parser<P, "test2">{}))
    .parsersEq (tCall (M (.name ⟨0, [116, 101, 115, 116, 49]⟩)) [(P Zom2)]) (P (.named Zom2 ⟨0, [116, 101, 115, 116, 49]⟩)),  -- 44: ASSERT_MODIFIER_CALLABLE_R(name<"test1">,(P{}),(named_parser<P, "test1">{}))
    .parsersEq (tCall (M (.name ⟨0, [116, 101, 115, 116, 50]⟩)) [(P Zom2)]) (P (.named Zom2 ⟨0, [116, 101, 115, 116, 50]⟩)),  -- 44: ASSERT_MODIFIER_CALLABLE_R(name<"test2">,(P{}),(named_parser<P, "test2">{}))
    .parsersEq (tMod (P Zom2) (M (.name ⟨0, [116, 101, 115, 116, 49]⟩))) (P (.named Zom2 ⟨0, [116, 101, 115, 116, 49]⟩)),  -- 44: ASSERT_MODIFIER_MODULO_OPERABLE_R(P{}, name<"test1">,(named_parser<P, "test1">{}))
    .parsersEq (tMod (P Zom2) (M (.name ⟨0, [116, 101, 115, 116, 50]⟩))) (P (.named Zom2 ⟨0, [116, 101, 115, 116, 50]⟩)),  -- 44: ASSERT_MODIFIER_MODULO_OPERABLE_R(P{}, name<"test2">,(named_parser<P, "test2">{}))
    .parsersEq (tCall (M (.name ⟨0, [116, 101, 115, 116, 49]⟩)) [(P Zom3)]) (P (.named Zom3 ⟨0, [116, 101, 115, 116, 49]⟩)),  -- 44: ASSERT_MODIFIER_CALLABLE_R(name<"test1">,(P{}),(named_parser<P, "test1">{}))
    .parsersEq (tCall (M (.name ⟨0, [116, 101, 115, 116, 50]⟩)) [(P Zom3)]) (P (.named Zom3 ⟨0, [116, 101, 115, 116, 50]⟩)),  -- 44: ASSERT_MODIFIER_CALLABLE_R(name<"test2">,(P{}),(named_parser<P, "test2">{}))
    .parsersEq (tMod (P Zom3) (M (.name ⟨0, [116, 101, 115, 116, 49]⟩))) (P (.named Zom3 ⟨0, [116, 101, 115, 116, 49]⟩)),  -- 44: ASSERT_MODIFIER_MODULO_OPERABLE_R(P{}, name<"test1">,(named_parser<P, "test1">{}))
    .parsersEq (tMod (P Zom3) (M (.name ⟨0, [116, 101, 115, 116, 50]⟩))) (P (.named Zom3 ⟨0, [116, 101, 115, 116, 50]⟩)),  -- 44: ASSERT_MODIFIER_MODULO_OPERABLE_R(P{}, name<"test2">,(named_parser<P, "test2">{}))
    .parsersEq (tCall (M (.name ⟨0, [116, 101, 115, 116, 49]⟩)) [(P Zom4)]) (P (.named Zom4 ⟨0, [116, 101, 115, 116, 49]⟩)),  -- 44: ASSERT_MODIFIER_CALLABLE_R(name<"test1">,(P{}),(named_parser<P, "test1">{}))
    .parsersEq (tCall (M (.name ⟨0, [116, 101, 115, 116, 50]⟩)) [(P Zom4)]) (P (.named Zom4 ⟨0, [116, 101, 115, 116, 50]⟩)),  -- 44: ASSERT_MODIFIER_CALLABLE_R(name<"test2">,(P{}),(named_parser<P, "test2">{}))
    .parsersEq (tMod (P Zom4) (M (.name ⟨0, [116, 101, 115, 116, 49]⟩))) (P (.named Zom4 ⟨0, [116, 101, 115, 116, 49]⟩)),  -- 44: ASSERT_MODIFIER_MODULO_OPERABLE_R(P{}, name<"test1">,(named_parser<P, "test1">{}))
    .parsersEq (tMod (P Zom4) (M (.name ⟨0, [116, 101, 115, 116, 50]⟩))) (P (.named Zom4 ⟨0, [116, 101, 115, 116, 50]⟩)),  -- 44: ASSERT_MODIFIER_MODULO_OPERABLE_R(P{}, name<"test2">,(named_parser<P, "test2">{}))
    .parsersEq (tCall (M (.name ⟨0, [116, 101, 115, 116, 49]⟩)) [(P Del1)]) (P (.named Del1 ⟨0, [116, 101, 115, 116, 49]⟩)),  -- 44: ASSERT_MODIFIER_CALLABLE_R(name<"test1">,(P{}),(named_parser<P, "test1">{}))
    .parsersEq (tCall (M (.name ⟨0, [116, 101, 115, 116, 50]⟩)) [(P Del1)]) (P (.named Del1 ⟨0, [116, 101, 115, 116, 50]⟩)),  -- 44: ASSERT_MODIFIER_CALLABLE_R(name<"test2">,(P{}),(named_parser<P, "test2">{}))
    .parsersEq (tMod (P Del1) (M (.name ⟨0, [116, 101, 115, 116, 49]⟩))) (P (.named Del1 ⟨0, [116, 101, 115, 116, 49]⟩)),  -- 44: ASSERT_MODIFIER_MODULO_OPERABLE_R(P{}, name<"test1">,(named_parser<P, "test1">{}))
    .parsersEq (tMod (P Del1) (M (.name ⟨0, [116, 101, 115, 116, 50]⟩))) (P (.named Del1 ⟨0, [116, 101, 115, 116, 50]⟩))  -- 44: ASSERT_MODIFIER_MODULO_OPERABLE_R(P{}, name<"test2">,(named_parser<P, "test2">{}))
    ], Assertion.Holds a :=
  Assertion.holds_of_check (by decide +kernel)

/-- name modifier / modify anything (tests/char-tests/modifiers/name.cpp:44) -/
theorem charModifiersName_3_7 : ∀ a ∈ [
    .parsersEq (tCall (M (.name ⟨0, [116, 101, 115, 116, 49]⟩)) [(P Del2)]) (P (.named Del2 ⟨0, [116, 101, 115, 116, 49]⟩)),  -- 44: ASSERT_MODIFIER_CALLABLE_R(name<"test1">,(P{}),(named_parser<P, "test1">{}))
    .parsersEq (tCall (M (.name ⟨0, [116, 101, 115, 116, 50]⟩)) [(P Del2)]) (P (.named Del2 ⟨0, [116, 101, 115, 116, 50]⟩)),  -- 44: ASSERT_MODIFIER_CALLABLE_R(name<"test2">,(P{}),(named_parser<P, "test2">{}))
    .parsersEq (tMod (P Del2) (M (.name ⟨0, [116, 101, 115, 116, 49]⟩))) (P (.named Del2 ⟨0, [116, 101, 115, 116, 49]⟩)),  -- 44: ASSERT_MODIFIER_MODULO_OPERABLE_R(P{}, name<"test1">,(named_parser<P, "test1">{}))
    .parsersEq (tMod (P Del2) (M (.name ⟨0, [116, 101, 115, 116, 50]⟩))) (P (.named Del2 ⟨0, [116, 101, 115, 116, 50]⟩)),  -- 44: ASSERT_MODIFIER_MODULO_OPERABLE_R(P{}, name<"test2">,(named_parser<P, "test2">{}))
    .parsersEq (tCall (M (.name ⟨0, [116, 101, 115, 116, 49]⟩)) [(P Del3)]) (P (.named Del3 ⟨0, [116, 101, 115, 116, 49]⟩)),  -- 44: ASSERT_MODIFIER_CALLABLE_R(name<"test1">,(P{}),(named_parser<P, "test1">{}))
    .parsersEq (tCall (M (.name ⟨0, [116, 101, 115, 116, 50]⟩)) [(P Del3)]) (P (.named Del3 ⟨0, [116, 101, 115, 116, 50]⟩)),  -- 44: ASSERT_MODIFIER_CALLABLE_R(name<"test2">,(P{}),(named_parser<P, "test2">{}))
    .parsersEq (tMod (P Del3) (M (.name ⟨0, [116, 101, 115, 116, 49]⟩))) (P (.named Del3 ⟨0, [116, 101, 115, 116, 49]⟩)),  -- 44: ASSERT_MODIFIER_MODULO_OPERABLE_R(P{}, name<"test1">,(named_parser<P, "test1">{}))
    .parsersEq (tMod (P Del3) (M (.name ⟨0, [116, 101, 115, 116, 50]⟩))) (P (.named Del3 ⟨0, [116, 101, 115, 116, 50]⟩)),  -- 44: ASSERT_MODIFIER_MODULO_OPERABLE_R(P{}, name<"test2">,(named_parser<P, "test2">{}))
    .parsersEq (tCall (M (.name ⟨0, [116, 101, 115, 116, 49]⟩)) [(P Del4)]) (P (.named Del4 ⟨0, [116, 101, 115, 116, 49]⟩)),  -- 44: ASSERT_MODIFIER_CALLABLE_R(name<"test1">,(P{}),(named_parser<P, "test1">{}))
    .parsersEq (tCall (M (.name ⟨0, [116, 101, 115, 116, 50]⟩)) [(P Del4)]) (P (.named Del4 ⟨0, [116, 101, 115, 116, 50]⟩)),  -- 44: ASSERT_MODIFIER_CALLABLE_R(name<"test2">,(P{}),(named_parser<P, "test2">{}))
    .parsersEq (tMod (P Del4) (M (.name ⟨0, [116, 101, 115, 116, 49]⟩))) (P (.named Del4 ⟨0, [116, 101, 115, 116, 49]⟩)),  -- 44: ASSERT_MODIFIER_MODULO_OPERABLE_R(P{}, name<"test1">,(named_parser<P, "test1">{}))
    .parsersEq (tMod (P Del4) (M (.name ⟨0, [116, 101, 115, 116, 50]⟩))) (P (.named Del4 ⟨0, [116, 101, 115, 116, 50]⟩)),  -- 44: ASSERT_MODIFIER_MODULO_OPERABLE_R(P{}, name<"test2">,(named_parser<P, "test2">{}))
    .parsersEq (tCall (M (.name ⟨0, [116, 101, 115, 116, 49]⟩)) [(P Del5)]) (P (.named Del5 ⟨0, [116, 101, 115, 116, 49]⟩)),  -- 44: ASSERT_MODIFIER_CALLABLE_R(name<"test1">,(P{}),(named_parser<P, "test1">{}))
    .parsersEq (tCall (M (.name ⟨0, [116, 101, 115, 116, 50]⟩)) [(P Del5)]) (P (.named Del5 ⟨0, [116, 101, 115, 116, 50]⟩)),  -- 44: ASSERT_MODIFIER_CALLABLE_R(name<"test2">,(P{}),(named_parser<P, "test2">{}))
    .parsersEq (tMod (P Del5) (M (.name ⟨0, [116, 101, 115, 116, 49]⟩))) (P (.named Del5 ⟨0, [116, 101, 115, 116, 49]⟩)),  -- 44: ASSERT_MODIFIER_MODULO_OPERABLE_R(P{}, name<"test1">,(named_parser<P, "test1">{}))
    .parsersEq (tMod (P Del5) (M (.name ⟨0, [116, 101, 115, 116, 50]⟩))) (P (.named Del5 ⟨0, [116, 101, 115, 116, 50]⟩)),  -- 44: ASSERT_MODIFIER_MODULO_OPERABLE_R(P{}, name<"test2">,(named_parser<P, "test2">{}))
    .parsersEq (tCall (M (.name ⟨0, [116, 101, 115, 116, 49]⟩)) [(P Del6)]) (P (.named Del6 ⟨0, [116, 101, 115, 116, 49]⟩)),  -- 44: ASSERT_MODIFIER_CALLABLE_R(name<"test1">,(P{}),(named_parser<P, "test1">{}))
    .parsersEq (tCall (M (.name ⟨0, [116, 101, 115, 116, 50]⟩)) [(P Del6)]) (P (.named Del6 ⟨0, [116, 101, 115, 116, 50]⟩)),  -- 44: ASSERT_MODIFIER_CALLABLE_R(name<"test2">,(P{}),(named_parser<P, "test2">{}))
    .parsersEq (tMod (P Del6) (M (.name ⟨0, [116, 101, 115, 116, 49]⟩))) (P (.named Del6 ⟨0, [116, 101, 115, 116, 49]⟩)),  -- 44: ASSERT_MODIFIER_MODULO_OPERABLE_R(P{}, name<"test1">,(named_parser<P, "test1">{}))
    .parsersEq (tMod (P Del6) (M (.name ⟨0, [116, 101, 115, 116, 50]⟩))) (P (.named Del6 ⟨0, [116, 101, 115, 116, 50]⟩)),  -- 44: ASSERT_MODIFIER_MODULO_OPERABLE_R(P{}, name<"test2">,(named_parser<P, "test2">{}))
    .parsersEq (tCall (M (.name ⟨0, [116, 101, 115, 116, 49]⟩)) [(P Del7)]) (P (.named Del7 ⟨0, [116, 101, 115, 116, 49]⟩)),  -- 44: ASSERT_MODIFIER_CALLABLE_R(name<"test1">,(P{}),(named_parser<P, "test1">{}))
    .parsersEq (tCall (M (.name ⟨0, [116, 101, 115, 116, 50]⟩)) [(P Del7)]) (P (.named Del7 ⟨0, [116, 101, 115, 116, 50]⟩)),  -- 44: ASSERT_MODIFIER_CALLABLE_R(name<"test2">,(P{}),(named_parser<P, "test2">{}))
    .parsersEq (tMod (P Del7) (M (.name ⟨0, [116, 101, 115, 116, 49]⟩))) (P (.named Del7 ⟨0, [116, 101, 115, 116, 49]⟩)),  -- 44: ASSERT_MODIFIER_MODULO_OPERABLE_R(P{}, name<"test1">,(named_parser<P, "test1">{}))
    .parsersEq (tMod (P Del7) (M (.name ⟨0, [116, 101, 115, 116, 50]⟩))) (P (.named Del7 ⟨0, [116, 101, 115, 116, 50]⟩)),  -- 44: ASSERT_MODIFIER_MODULO_OPERABLE_R(P{}, name<"test2">,(named_parser<P, "test2">{}))
    .parsersEq (tCall (M (.name ⟨0, [116, 101, 115, 116, 49]⟩)) [(P Del8)]) (P (.named Del8 ⟨0, [116, 101, 115, 116, 49]⟩)),  -- 44: ASSERT_MODIFIER_CALLABLE_R(name<"test1">,(P{}),(named_parser<P, "test1">{}))
    .parsersEq (tCall (M (.name ⟨0, [116, 101, 115, 116, 50]⟩)) [(P Del8)]) (P (.named Del8 ⟨0, [116, 101, 115, 116, 50]⟩)),  -- 44: ASSERT_MODIFIER_CALLABLE_R(name<"test2">,(P{}),(named_parser<P, "test2">{}))
    .parsersEq (tMod (P Del8) (M (.name ⟨0, [116, 101, 115, 116, 49]⟩))) (P (.named Del8 ⟨0, [116, 101, 115, 116, 49]⟩)),  -- 44: ASSERT_MODIFIER_MODULO_OPERABLE_R(P{}, name<"test1">,(named_parser<P, "test1">{}))
    .parsersEq (tMod (P Del8) (M (.name ⟨0, [116, 101, 115, 116, 50]⟩))) (P (.named Del8 ⟨0, [116, 101, 115, 116, 50]⟩)),  -- 44: ASSERT_MODIFIER_MODULO_OPERABLE_R(P{}, name<"test2">,(named_parser<P, "test2">{}))
    .parsersEq (tCall (M (.name ⟨0, [116, 101, 115, 116, 49]⟩)) [(P Dek1)]) (P (.named Dek1 ⟨0, [116, 101, 115, 116, 49]⟩)),  -- 44: ASSERT_MODIFIER_CALLABLE_R(name<"test1">,(P{}),(named_parser<P, "test1">{}))
    .parsersEq (tCall (M (.name ⟨0, [116, 101, 115, 116, 50]⟩)) [(P Dek1)]) (P (.named Dek1 ⟨0, [116, 101, 115, 116, 50]⟩)),  -- 44: ASSERT_MODIFIER_CALLABLE_R(name<"test2">,(P{}),(named_parser<P, "test2">{}))
    .parsersEq (tMod (P Dek1) (M (.name ⟨0, [116, 101, 115, 116, 49]⟩))) (P (.named Dek1 ⟨0, [116, 101, 115, 116, 49]⟩)),  -- 44: ASSERT_MODIFIER_MODULO_OPERABLE_R(P{}, name<"test1">,(named_parser<P, "test1">{}))
    .parsersEq (tMod (P Dek1) (M (.name ⟨0, [116, 101, 115, 116, 50]⟩))) (P (.named Dek1 ⟨0, [116, 101, 115, 116, 50]⟩)),  -- 44: ASSERT_MODIFIER_MODULO_OPERABLE_R(P{}, name<"test2">,(named_parser<P, "test2">{}))
    .parsersEq (tCall (M (.name ⟨0, [116, 101, 115, 116, 49]⟩)) [(P Dek2)]) (P (.named Dek2 ⟨0, [116, 101, 115, 116, 49]⟩)),  -- 44: ASSERT_MODIFIER_CALLABLE_R(name<"test1">,(P{}),(named_parser<P, "test1">{}))
    .parsersEq (tCall (M (.name ⟨0, [116, 101, 115, 116, 50]⟩)) [(P Dek2)]) (P (.named Dek2 ⟨0, [116, 101, 115, 116, 50]⟩)),  -- 44: ASSERT_MODIFIER_CALLABLE_R(name<"test2">,(P{}),(named_parser<P, "test2">{}))
    .parsersEq (tMod (P Dek2) (M (.name ⟨0, [116, 101, 115, 116, 49]⟩))) (P (.named Dek2 ⟨0, [116, 101, 115, 116, 49]⟩)),  -- 44: ASSERT_MODIFIER_MODULO_OPERABLE_R(P{}, name<"test1">,(named_parser<P, "test1">{}))
    .parsersEq (tMod (P Dek2) (M (.name ⟨0, [116, 101, 115, 116, 50]⟩))) (P (.named Dek2 ⟨0, [116, 101, 115, 116, 50]⟩)),  -- 44: ASSERT_MODIFIER_MODULO_OPERABLE_R(P{}, name<"test2">,(named_parser<P, "test2">{}))
    .parsersEq (tCall (M (.name ⟨0, [116, 101, 115, 116, 49]⟩)) [(P Dek3)]) (P (.named Dek3 ⟨0, [116, 101, 115, 116, 49]⟩)),  -- 44: ASSERT_MODIFIER_CALLABLE_R(name<"test1">,(P{}),(named_parser<P, "test1">{}))
    .parsersEq (tCall (M (.name ⟨0, [116, 101, 115, 116, 50]⟩)) [(P Dek3)]) (P (.named Dek3 ⟨0, [116, 101, 115, 116, 50]⟩)),  -- 44: ASSERT_MODIFIER_CALLABLE_R(name<"test2">,(P{}),(named_parser<P, "test2">{}))
    .parsersEq (tMod (P Dek3) (M (.name ⟨0, [116, 101, 115, 116, 49]⟩))) (P (.named Dek3 ⟨0, [116, 101, 115, 116, 49]⟩)),  -- 44: ASSERT_MODIFIER_MODULO_OPERABLE_R(P{}, name<"test1">,(named_parser<P, "test1">{}))
    .parsersEq (tMod (P Dek3) (M (.name ⟨0, [116, 101, 115, 116, 50]⟩))) (P (.named Dek3 ⟨0, [116, 101, 115, 116, 50]⟩)),  -- 44: ASSERT_MODIFIER_MODULO_OPERABLE_R(P{}, name<"test2">,(named_parser<P, "test2">{}))
    .parsersEq (tCall (M (.name ⟨0, [116, 101, 115, 116, 49]⟩)) [(P Dek4)]) (P (.named Dek4 ⟨0, [116, 101, 115, 116, 49]⟩)),  -- 44: ASSERT_MODIFIER_CALLABLE_R(name<"test1">,(P{}),(named_parser<P, "test1">{}))
    .parsersEq (tCall (M (.name ⟨0, [116, 101, 115, 116, 50]⟩)) [(P Dek4)]) (P (.named Dek4 ⟨0, [116, 101, 115, 116, 50]⟩)),  -- 44: ASSERT_MODIFIER_CALLABLE_R(name<"test2">,(P{}),(named_parser<P, "test2">{}))
    .parsersEq (tMod (P Dek4) (M (.name ⟨0, [116, 101, 115, 116, 49]⟩))) (P (.named Dek4 ⟨0, [116, 101, 115, 116, 49]⟩)),  -- 44: ASSERT_MODIFIER_MODULO_OPERABLE_R(P{}, name<"test1">,(named_parser<P, "test1">{}))
    .parsersEq (tMod (P Dek4) (M (.name ⟨0, [116, 101, 115, 116, 50]⟩))) (P (.named Dek4 ⟨0, [116, 101, 115, 116, 50]⟩)),  -- 44: ASSERT_MODIFIER_MODULO_OPERABLE_R(P{}, name<"test2">,(named_parser<P, "test2">{}))
    .parsersEq (tCall (M (.name ⟨0, [116, 101, 115, 116, 49]⟩)) [(P Dek5)]) (P (.named Dek5 ⟨0, [116, 101, 115, 116, 49]⟩)),  -- 44: ASSERT_MODIFIER_CALLABLE_R(name<"test1">,(P{}),(named_parser<P, "test1">{}))
    .parsersEq (tCall (M (.name ⟨0, [116, 101, 115, 116, 50]⟩)) [(P Dek5)]) (P (.named Dek5 ⟨0, [116, 101, 115, 116, 50]⟩)),  -- 44: ASSERT_MODIFIER_CALLABLE_R(name<"test2">,(P{}),(named_parser<P, "test2">{}))
    .parsersEq (tMod (P Dek5) (M (.name ⟨0, [116, 101, 115, 116, 49]⟩))) (P (.named Dek5 ⟨0, [116, 101, 115, 116, 49]⟩)),  -- 44: ASSERT_MODIFIER_MODULO_OPERABLE_R(P{}, name<"test1">,(named_parser<P, "test1">{}))
    .parsersEq (tMod (P Dek5) (M (.name ⟨0, [116, 101, 115, 116, 50]⟩))) (P (.named Dek5 ⟨0, [116, 101, 115, 116, 50]⟩)),  -- 44: ASSERT_MODIFIER_MODULO_OPERABLE_R(P{}, name<"test2">,(named_parser<P, "test2">{}))
    .parsersEq (tCall (M (.name ⟨0, [116, 101, 115, 116, 49]⟩)) [(P Dek6)]) (P (.named Dek6 ⟨0, [116, 101, 115, 116, 49]⟩)),  -- 44: ASSERT_MODIFIER_CALLABLE_R(name<"test1">,(P{}),(named_parser<P, "test1">{}))
    .parsersEq (tCall (M (.name ⟨0, [116, 101, 115, 116, 50]⟩)) [(P Dek6)]) (P (.named Dek6 ⟨0, [116, 101, 115, 116, 50]⟩)),  -- 44: ASSERT_MODIFIER_CALLABLE_R(name<"test2">,(P{}),(named_parser<P, "test2">{}))
    .parsersEq (tMod (P Dek6) (M (.name ⟨0, [116, 101, 115, 116, 49]⟩))) (P (.named Dek6 ⟨0, [116, 101, 115, 116, 49]⟩)),  -- 44: ASSERT_MODIFIER_MODULO_OPERABLE_R(P{}, name<"test1">,(named_parser<P, "test1">{}))
    .parsersEq (tMod (P Dek6) (M (.name ⟨0, [116, 101, 115, 116, 50]⟩))) (P (.named Dek6 ⟨0, [116, 101, 115, 116, 50]⟩)),  -- 44: ASSERT_MODIFIER_MODULO_OPERABLE_R(P{}, name<"test2">,(named_parser<P, "test2">{}))
    .parsersEq (tCall (M (.name ⟨0, [116, 101, 115, 116, 49]⟩)) [(P Dek7)]) (P (.named Dek7 ⟨0, [116, 101, 115, 116, 49]⟩)),  -- 44: ASSERT_MODIFIER_CALLABLE_R(name<"test1">,(P{}),(named_parser<P, "test1">{}))
    .parsersEq (tCall (M (.name ⟨0, [116, 101, 115, 116, 50]⟩)) [(P Dek7)]) (P (.named Dek7 ⟨0, [116, 101, 115, 116, 50]⟩)),  -- 44: ASSERT_MODIFIER_CALLABLE_R(name<"test2">,(P{}),(named_parser<P, "test2">{}))
    .parsersEq (tMod (P Dek7) (M (.name ⟨0, [116, 101, 115, 116, 49]⟩))) (P (.named Dek7 ⟨0, [116, 101, 115, 116, 49]⟩)),  -- 44: ASSERT_MODIFIER_MODULO_OPERABLE_R(P{}, name<"test1">,(named_parser<P, "test1">{}))
    .parsersEq (tMod (P Dek7) (M (.name ⟨0, [116, 101, 115, 116, 50]⟩))) (P (.named Dek7 ⟨0, [116, 101, 115, 116, 50]⟩)),  -- 44: ASSERT_MODIFIER_MODULO_OPERABLE_R(P{}, name<"test2">,(named_parser<P, "test2">{}))
    .parsersEq (tCall (M (.name ⟨0, [116, 101, 115, 116, 49]⟩)) [(P Dek8)]) (P (.named Dek8 ⟨0, [116, 101, 115, 116, 49]⟩)),  -- 44: ASSERT_MODIFIER_CALLABLE_R(name<"test1">,(P{}),(named_parser<P, "test1">{}))
    .parsersEq (tCall (M (.name ⟨0, [116, 101, 115, 116, 50]⟩)) [(P Dek8)]) (P (.named Dek8 ⟨0, [116, 101, 115, 116, 50]⟩)),  -- 44: ASSERT_MODIFIER_CALLABLE_R(name<"test2">,(P{}),(named_parser<P, "test2">{}))
    .parsersEq (tMod (P Dek8) (M (.name ⟨0, [116, 101, 115, 116, 49]⟩))) (P (.named Dek8 ⟨0, [116, 101, 115, 116, 49]⟩)),  -- 44: ASSERT_MODIFIER_MODULO_OPERABLE_R(P{}, name<"test1">,(named_parser<P, "test1">{}))
    .parsersEq (tMod (P Dek8) (M (.name ⟨0, [116, 101, 115, 116, 50]⟩))) (P (.named Dek8 ⟨0, [116, 101, 115, 116, 50]⟩))  -- 44: ASSERT_MODIFIER_MODULO_OPERABLE_R(P{}, name<"test2">,(named_parser<P, "test2">{}))
    ], Assertion.Holds a :=
  Assertion.holds_of_check (by decide +kernel)

end Tok3n.Tests
