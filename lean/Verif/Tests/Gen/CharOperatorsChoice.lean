import Verif.Tests.Gen.SamplesChar
/- Generated by tools/tests2lean.py from tests/char-tests/operators/choice.cpp. -/

namespace Tok3n.Tests

/-- choice operator / any_of_parser | any_of_parser (tests/char-tests/operators/choice.cpp:14) -/
theorem charOperatorsChoice_1 : ∀ a ∈ [
    .parsersEq (tOr (P Any1) (P Any2)) (tOr (P Any2) (P Any1)),  -- 14: ASSERT_PARSER_VALUES_EQ(any1 | any2, any2 | any1)
    .parsersEq (tOr (P Any1) (P Any3)) (tOr (P Any3) (P Any1)),  -- 15: ASSERT_PARSER_VALUES_EQ(any1 | any3, any3 | any1)
    .parsersEq (tOr (P Any2) (P Any3)) (tOr (P Any3) (P Any2)),  -- 16: ASSERT_PARSER_VALUES_EQ(any2 | any3, any3 | any2)
    .parsersEq (tOr (P Any1) (P Any2)) (P (.anyOf [97, 98, 99, 100])),  -- 17: ASSERT_PARSER_VALUES_EQ(any1 | any2, any_of_parser<TT("abcd")>{})
    .parsersEq (tOr (P Any1) (P Any3)) (P (.anyOf [97, 98, 99, 120, 121, 122])),  -- 18: ASSERT_PARSER_VALUES_EQ(any1 | any3, any_of_parser<TT("abcxyz")>{})
    .parsersEq (tOr (P Any2) (P Any3)) (P (.anyOf [98, 99, 100, 120, 121, 122])),  -- 19: ASSERT_PARSER_VALUES_EQ(any2 | any3, any_of_parser<TT("bcdxyz")>{})
    .parsersEq (tOr (P Any1) (P Any1)) (P Any1),  -- 20: ASSERT_PARSER_VALUES_EQ(any1 | any1, any1)
    .parsersEq (tOr (P Any2) (P Any2)) (P Any2),  -- 21: ASSERT_PARSER_VALUES_EQ(any2 | any2, any2)
    .parsersEq (tOr (P Any3) (P Any3)) (P Any3)  -- 22: ASSERT_PARSER_VALUES_EQ(any3 | any3, any3)
    ], Assertion.Holds a :=
  Assertion.holds_of_check (by decide +kernel)

/-- choice operator / none_of_parser | none_of_parser (tests/char-tests/operators/choice.cpp:27) -/
theorem charOperatorsChoice_2 : ∀ a ∈ [
    .parsersEq (tOr (P Non1) (P Non2)) (tOr (P Non2) (P Non1)),  -- 27: ASSERT_PARSER_VALUES_EQ(none1 | none2, none2 | none1)
    .parsersEq (tOr (P Non1) (P Non3)) (tOr (P Non3) (P Non1)),  -- 28: ASSERT_PARSER_VALUES_EQ(none1 | none3, none3 | none1)
    .parsersEq (tOr (P Non2) (P Non3)) (tOr (P Non3) (P Non2)),  -- 29: ASSERT_PARSER_VALUES_EQ(none2 | none3, none3 | none2)
    .parsersEq (tOr (P Non1) (P Non2)) (P (.noneOf [98, 99])),  -- 30: ASSERT_PARSER_VALUES_EQ(none1 | none2, none_of_parser<TT("bc")>{})
    .parsersEq (tOr (P Non1) (P Non3)) (P (.noneOf [])),  -- 31: ASSERT_PARSER_VALUES_EQ(none1 | none3, none_of_parser<TT("")>{})
    .parsersEq (tOr (P Non2) (P Non3)) (P (.noneOf [])),  -- 32: ASSERT_PARSER_VALUES_EQ(none2 | none3, none_of_parser<TT("")>{})
    .parsersEq (tOr (P Non1) (P Non1)) (P Non1),  -- 33: ASSERT_PARSER_VALUES_EQ(none1 | none1, none1)
    .parsersEq (tOr (P Non2) (P Non2)) (P Non2),  -- 34: ASSERT_PARSER_VALUES_EQ(none2 | none2, none2)
    .parsersEq (tOr (P Non3) (P Non3)) (P Non3)  -- 35: ASSERT_PARSER_VALUES_EQ(none3 | none3, none3)
    ], Assertion.Holds a :=
  Assertion.holds_of_check (by decide +kernel)

/-- choice operator / any_of_parser | none_of_parser, and none_of_parser | any_of_parser (tests/char-tests/operators/choice.cpp:40) -/
theorem charOperatorsChoice_3 : ∀ a ∈ [
    .parsersEq (tOr (P Any1) (P Non1)) (tOr (P Non1) (P Any1)),  -- 40: ASSERT_PARSER_VALUES_EQ(any1 | none1, none1 | any1)
    .parsersEq (tOr (P Any1) (P Non2)) (tOr (P Non2) (P Any1)),  -- 41: ASSERT_PARSER_VALUES_EQ(any1 | none2, none2 | any1)
    .parsersEq (tOr (P Any1) (P Non3)) (tOr (P Non3) (P Any1)),  -- 42: ASSERT_PARSER_VALUES_EQ(any1 | none3, none3 | any1)
    .parsersEq (tOr (P Any2) (P Non1)) (tOr (P Non1) (P Any2)),  -- 43: ASSERT_PARSER_VALUES_EQ(any2 | none1, none1 | any2)
    .parsersEq (tOr (P Any2) (P Non2)) (tOr (P Non2) (P Any2)),  -- 44: ASSERT_PARSER_VALUES_EQ(any2 | none2, none2 | any2)
    .parsersEq (tOr (P Any2) (P Non3)) (tOr (P Non3) (P Any2)),  -- 45: ASSERT_PARSER_VALUES_EQ(any2 | none3, none3 | any2)
    .parsersEq (tOr (P Any3) (P Non1)) (tOr (P Non1) (P Any3)),  -- 46: ASSERT_PARSER_VALUES_EQ(any3 | none1, none1 | any3)
    .parsersEq (tOr (P Any3) (P Non2)) (tOr (P Non2) (P Any3)),  -- 47: ASSERT_PARSER_VALUES_EQ(any3 | none2, none2 | any3)
    .parsersEq (tOr (P Any3) (P Non3)) (tOr (P Non3) (P Any3)),  -- 48: ASSERT_PARSER_VALUES_EQ(any3 | none3, none3 | any3)
    .parsersEq (tOr (P Any1) (P Non1)) (P (.noneOf [])),  -- 49: ASSERT_PARSER_VALUES_EQ(any1 | none1, none_of_parser<TT("")>{})
    .parsersEq (tOr (P Any1) (P Non2)) (P (.noneOf [100])),  -- 50: ASSERT_PARSER_VALUES_EQ(any1 | none2, none_of_parser<TT("d")>{})
    .parsersEq (tOr (P Any1) (P Non3)) (P (.noneOf [120, 121, 122])),  -- 51: ASSERT_PARSER_VALUES_EQ(any1 | none3, none_of_parser<TT("xyz")>{})
    .parsersEq (tOr (P Any2) (P Non1)) (P (.noneOf [97])),  -- 52: ASSERT_PARSER_VALUES_EQ(any2 | none1, none_of_parser<TT("a")>{})
    .parsersEq (tOr (P Any2) (P Non2)) (P (.noneOf [])),  -- 53: ASSERT_PARSER_VALUES_EQ(any2 | none2, none_of_parser<TT("")>{})
    .parsersEq (tOr (P Any2) (P Non3)) (P (.noneOf [120, 121, 122])),  -- 54: ASSERT_PARSER_VALUES_EQ(any2 | none3, none_of_parser<TT("xyz")>{})
    .parsersEq (tOr (P Any3) (P Non1)) (P (.noneOf [97, 98, 99])),  -- 55: ASSERT_PARSER_VALUES_EQ(any3 | none1, none_of_parser<TT("abc")>{})
    .parsersEq (tOr (P Any3) (P Non2)) (P (.noneOf [98, 99, 100])),  -- 56: ASSERT_PARSER_VALUES_EQ(any3 | none2, none_of_parser<TT("bcd")>{})
    .parsersEq (tOr (P Any3) (P Non3)) (P (.noneOf []))  -- 57: ASSERT_PARSER_VALUES_EQ(any3 | none3, none_of_parser<TT("")>{})
    ], Assertion.Holds a :=
  Assertion.holds_of_check (by decide +kernel)

/-- choice operator / choice_parser | choice_parser (tests/char-tests/operators/choice.cpp:64) -/
theorem charOperatorsChoice_4 : ∀ a ∈ [
    .parsersEq (tOr (P Cho1) (P Cho1)) (P Cho1),  -- 64: ASSERT_PARSER_VALUES_EQ(cho1 | cho1, cho1)
    .parsersEq (tOr (P Cho2) (P Cho2)) (P Cho2),  -- 65: ASSERT_PARSER_VALUES_EQ(cho2 | cho2, cho2)
    .parsersEq (tOr (P Cho3) (P Cho3)) (P Cho3),  -- 66: ASSERT_PARSER_VALUES_EQ(cho3 | cho3, cho3)
    .parsersEq (tOr (P Cho4) (P Cho4)) (P Cho4),  -- 67: ASSERT_PARSER_VALUES_EQ(cho4 | cho4, cho4)
    .parsersEq (tOr (P Cho1) (P Cho2)) (P (.choice [All4, Non4, Non4, All4])),  -- 68: ASSERT_PARSER_VALUES_EQ(cho1 | cho2,(choice_parser<All4, Non4, Non4, All4>{}))
    .parsersEq (tOr (P Cho2) (P Cho1)) (P (.choice [Non4, All4, All4, Non4])),  -- 69: ASSERT_PARSER_VALUES_EQ(cho2 | cho1,(choice_parser<Non4, All4, All4, Non4>{}))
    .parsersEq (tOr (P Cho1) (P Cho3)) (P (.choice [All4, Non4, All4, Any4, Non5])),  -- 70: ASSERT_PARSER_VALUES_EQ(cho1 | cho3,(choice_parser<All4, Non4, All4, Any4, Non5>{}))
    .parsersEq (tOr (P Cho3) (P Cho1)) (P (.choice [All4, Any4, Non5, All4, Non4])),  -- 71: ASSERT_PARSER_VALUES_EQ(cho3 | cho1,(choice_parser<All4, Any4, Non5, All4, Non4>{}))
    .parsersEq (tOr (P Cho1) (P Cho4)) (P (.choice [All4, Non4, Non5, All4, Any4])),  -- 72: ASSERT_PARSER_VALUES_EQ(cho1 | cho4,(choice_parser<All4, Non4, Non5, All4, Any4>{}))
    .parsersEq (tOr (P Cho4) (P Cho1)) (P (.choice [Non5, All4, Any4, All4, Non4])),  -- 73: ASSERT_PARSER_VALUES_EQ(cho4 | cho1,(choice_parser<Non5, All4, Any4, All4, Non4>{}))
    .parsersEq (tOr (P Cho2) (P Cho3)) (P (.choice [Non4, All4, All4, Any4, Non5])),  -- 74: ASSERT_PARSER_VALUES_EQ(cho2 | cho3,(choice_parser<Non4, All4, All4, Any4, Non5>{}))
    .parsersEq (tOr (P Cho3) (P Cho2)) (P (.choice [All4, Any4, Non5, Non4, All4])),  -- 75: ASSERT_PARSER_VALUES_EQ(cho3 | cho2,(choice_parser<All4, Any4, Non5, Non4, All4>{}))
    .parsersEq (tOr (P Cho2) (P Cho4)) (P (.choice [Non4, All4, Non5, All4, Any4])),  -- 76: ASSERT_PARSER_VALUES_EQ(cho2 | cho4,(choice_parser<Non4, All4, Non5, All4, Any4>{}))
    .parsersEq (tOr (P Cho4) (P Cho2)) (P (.choice [Non5, All4, Any4, Non4, All4])),  -- 77: ASSERT_PARSER_VALUES_EQ(cho4 | cho2,(choice_parser<Non5, All4, Any4, Non4, All4>{}))
    .parsersEq (tOr (P Cho3) (P Cho4)) (P (.choice [All4, Any4, Non5, Non5, All4, Any4])),  -- 78: ASSERT_PARSER_VALUES_EQ(cho3 | cho4,(choice_parser<All4, Any4, Non5, Non5, All4, Any4>{}))
    .parsersEq (tOr (P Cho4) (P Cho3)) (P (.choice [Non5, All4, Any4, All4, Any4, Non5])),  -- 79: ASSERT_PARSER_VALUES_EQ(cho4 | cho3,(choice_parser<Non5, All4, Any4, All4, Any4, Non5>{}))
    .parsersEq (tOr (P Cho5) (P Cho5)) (P Cho5)  -- 80: ASSERT_PARSER_VALUES_EQ(cho5 | cho5, cho5)
    ], Assertion.Holds a :=
  Assertion.holds_of_check (by decide +kernel)

/-- choice operator / choice_parser | {anything}, and {anything} | choice_parser (tests/char-tests/operators/choice.cpp:85) -/
theorem charOperatorsChoice_5 : ∀ a ∈ [
    .parsersEq (tOr (P Cho1) (P Any1)) (P (.choice [All4, Non4, Any1])),  -- 85: ASSERT_PARSER_VALUES_EQ(cho1 | any1,(choice_parser<All4, Non4, Any1>{}))
    .parsersEq (tOr (P Any1) (P Cho1)) (P (.choice [Any1, All4, Non4])),  -- 86: ASSERT_PARSER_VALUES_EQ(any1 | cho1,(choice_parser<Any1, All4, Non4>{}))
    .parsersEq (tOr (P Cho2) (P Any4)) (P (.choice [Non4, All4, Any4])),  -- 87: ASSERT_PARSER_VALUES_EQ(cho2 | any4,(choice_parser<Non4, All4, Any4>{}))
    .parsersEq (tOr (P Any4) (P Cho2)) (P (.choice [Any4, Non4, All4])),  -- 88: ASSERT_PARSER_VALUES_EQ(any4 | cho2,(choice_parser<Any4, Non4, All4>{}))
    .parsersEq (tOr (P Cho3) (P Any3)) (P (.choice [All4, Any4, Non5, Any3])),  -- 89: ASSERT_PARSER_VALUES_EQ(cho3 | any3,(choice_parser<All4, Any4, Non5, Any3>{}))
    .parsersEq (tOr (P Any3) (P Cho3)) (P (.choice [Any3, All4, Any4, Non5])),  -- 90: ASSERT_PARSER_VALUES_EQ(any3 | cho3,(choice_parser<Any3, All4, Any4, Non5>{}))
    .parsersEq (tOr (P Cho4) (P Any2)) (P (.choice [Non5, All4, Any4, Any2])),  -- 91: ASSERT_PARSER_VALUES_EQ(cho4 | any2,(choice_parser<Non5, All4, Any4, Any2>{}))
    .parsersEq (tOr (P Any2) (P Cho4)) (P (.choice [Any2, Non5, All4, Any4]))  -- 92: ASSERT_PARSER_VALUES_EQ(any2 | cho4,(choice_parser<Any2, Non5, All4, Any4>{}))
    ], Assertion.Holds a :=
  Assertion.holds_of_check (by decide +kernel)

/-- choice operator / void result_type (tests/char-tests/operators/choice.cpp:97) -/
theorem charOperatorsChoice_6 : ∀ a ∈ [
    .parsersEq (tOr (P Ign1) (P Ign2)) (P Cho5),  -- 97: ASSERT_PARSER_VALUES_EQ(ign1 | ign2, cho5)
    .parsersNe (tOr (P Ign2) (P Ign1)) (P Cho5)  -- 98: ASSERT_PARSER_VALUES_NE(ign2 | ign1, cho5)
    ], Assertion.Holds a :=
  Assertion.holds_of_check (by decide +kernel)

/-- choice operator / {anything} | {anything} (tests/char-tests/operators/choice.cpp:182) -/
theorem charOperatorsChoice_7_1 : ∀ a ∈ [
    .isTerm (tOr (P Any1) (P Any1)),  -- 182: DEP_ASSERT_BINARY_OPERABLE(|, LLHS{}, RRHS{}, LHS{}, RHS{})
    .parsersEq (tOr (P Any1) (P Any1)) (P Any1),  -- 182: DEP_ASSERT_PARSER_VALUES_EQ(LLHS{} | RRHS{}, LLHS{}, LHS{} | RHS{}, LHS{})
    .isTerm (tOr (P Any1) (P Any2)),  -- 182: DEP_ASSERT_BINARY_OPERABLE(|, LLHS{}, RRHS{}, LHS{}, RHS{})
    .parsersEq (tOr (P Any1) (P Any2)) (P (.anyOf [97, 98, 99, 100])),  -- 182: DEP_ASSERT_PARSER_VALUES_EQ(LLHS{} | RRHS{}, any_of_parser<str>{}, LHS{} | RHS{}, any_of_parser<str>{})
    .isTerm (tOr (P Any1) (P Any3)),  -- 182: DEP_ASSERT_BINARY_OPERABLE(|, LLHS{}, RRHS{}, LHS{}, RHS{})
    .parsersEq (tOr (P Any1) (P Any3)) (P (.anyOf [97, 98, 99, 120, 121, 122])),  -- 182: DEP_ASSERT_PARSER_VALUES_EQ(LLHS{} | RRHS{}, any_of_parser<str>{}, LHS{} | RHS{}, any_of_parser<str>{})
    .isTerm (tOr (P Any1) (P Any4)),  -- 182: DEP_ASSERT_BINARY_OPERABLE(|, LLHS{}, RRHS{}, LHS{}, RHS{})
    .parsersEq (tOr (P Any1) (P Any4)) (P (.anyOf [97, 98, 99, 100])),  -- 182: DEP_ASSERT_PARSER_VALUES_EQ(LLHS{} | RRHS{}, any_of_parser<str>{}, LHS{} | RHS{}, any_of_parser<str>{})
    .isTerm (tOr (P Any1) (P Non1)),  -- 182: DEP_ASSERT_BINARY_OPERABLE(|, LLHS{}, RRHS{}, LHS{}, RHS{})
    .parsersEq (tOr (P Any1) (P Non1)) (P (.noneOf [])),  -- 182: DEP_ASSERT_PARSER_VALUES_EQ(LLHS{} | RRHS{}, none_of_parser<str>{}, LHS{} | RHS{}, none_of_parser<str>{})
    .isTerm (tOr (P Any1) (P Non2)),  -- 182: DEP_ASSERT_BINARY_OPERABLE(|, LLHS{}, RRHS{}, LHS{}, RHS{})
    .parsersEq (tOr (P Any1) (P Non2)) (P (.noneOf [100])),  -- 182: DEP_ASSERT_PARSER_VALUES_EQ(LLHS{} | RRHS{}, none_of_parser<str>{}, LHS{} | RHS{}, none_of_parser<str>{})
    .isTerm (tOr (P Any1) (P Non3)),  -- 182: DEP_ASSERT_BINARY_OPERABLE(|, LLHS{}, RRHS{}, LHS{}, RHS{})
    .parsersEq (tOr (P Any1) (P Non3)) (P (.noneOf [120, 121, 122])),  -- 182: DEP_ASSERT_PARSER_VALUES_EQ(LLHS{} | RRHS{}, none_of_parser<str>{}, LHS{} | RHS{}, none_of_parser<str>{})
    .isTerm (tOr (P Any1) (P Non4)),  -- 182: DEP_ASSERT_BINARY_OPERABLE(|, LLHS{}, RRHS{}, LHS{}, RHS{})
    .parsersEq (tOr (P Any1) (P Non4)) (P (.noneOf [100])),  -- 182: DEP_ASSERT_PARSER_VALUES_EQ(LLHS{} | RRHS{}, none_of_parser<str>{}, LHS{} | RHS{}, none_of_parser<str>{})
    .isTerm (tOr (P Any1) (P Non5)),  -- 182: DEP_ASSERT_BINARY_OPERABLE(|, LLHS{}, RRHS{}, LHS{}, RHS{})
    .parsersEq (tOr (P Any1) (P Non5)) (P (.noneOf [122])),  -- 182: DEP_ASSERT_PARSER_VALUES_EQ(LLHS{} | RRHS{}, none_of_parser<str>{}, LHS{} | RHS{}, none_of_parser<str>{})
    .isTerm (tOr (P Any1) (P All1)),  -- 182: DEP_ASSERT_BINARY_OPERABLE(|, LLHS{}, RRHS{}, LHS{}, RHS{})
    .parsersEq (tOr (P Any1) (P All1)) (P (.choice [Any1, All1])),  -- 182: DEP_ASSERT_PARSER_VALUES_EQ(LLHS{} | RRHS{},(choice_parser<LLHS, RRHS>{}), LHS{} | RHS{},(choice_parser<LHS, RHS>{}))
    .isTerm (tOr (P Any1) (P All2)),  -- 182: DEP_ASSERT_BINARY_OPERABLE(|, LLHS{}, RRHS{}, LHS{}, RHS{})
    .parsersEq (tOr (P Any1) (P All2)) (P (.choice [Any1, All2])),  -- 182: DEP_ASSERT_PARSER_VALUES_EQ(LLHS{} | RRHS{},(choice_parser<LLHS, RRHS>{}), LHS{} | RHS{},(choice_parser<LHS, RHS>{}))
    .isTerm (tOr (P Any1) (P All3)),  -- 182: DEP_ASSERT_BINARY_OPERABLE(|, LLHS{}, RRHS{}, LHS{}, RHS{})
    .parsersEq (tOr (P Any1) (P All3)) (P (.choice [Any1, All3])),  -- 182: DEP_ASSERT_PARSER_VALUES_EQ(LLHS{} | RRHS{},(choice_parser<LLHS, RRHS>{}), LHS{} | RHS{},(choice_parser<LHS, RHS>{}))
    .isTerm (tOr (P Any1) (P All4)),  -- 182: DEP_ASSERT_BINARY_OPERABLE(|, LLHS{}, RRHS{}, LHS{}, RHS{})
    .parsersEq (tOr (P Any1) (P All4)) (P (.choice [Any1, All4])),  -- 182: DEP_ASSERT_PARSER_VALUES_EQ(LLHS{} | RRHS{},(choice_parser<LLHS, RRHS>{}), LHS{} | RHS{},(choice_parser<LHS, RHS>{}))
    .isTerm (tOr (P Any1) (P Eps1)),  -- 182: DEP_ASSERT_BINARY_OPERABLE(|, LLHS{}, RRHS{}, LHS{}, RHS{})
    .parsersEq (tOr (P Any1) (P Eps1)) (P (.choice [Any1, Eps1])),  -- 182: DEP_ASSERT_PARSER_VALUES_EQ(LLHS{} | RRHS{},(choice_parser<LLHS, RRHS>{}), LHS{} | RHS{},(choice_parser<LHS, RHS>{}))
    .isTerm (tOr (P Any1) (P Ant1)),  -- 182: DEP_ASSERT_BINARY_OPERABLE(|, LLHS{}, RRHS{}, LHS{}, RHS{})
    .parsersEq (tOr (P Any1) (P Ant1)) (P (.choice [Any1, Ant1])),  -- 182: DEP_ASSERT_PARSER_VALUES_EQ(LLHS{} | RRHS{},(choice_parser<LLHS, RRHS>{}), LHS{} | RHS{},(choice_parser<LHS, RHS>{}))
    .isTerm (tOr (P Any1) (P QQ)),  -- 182: DEP_ASSERT_BINARY_OPERABLE(|, LLHS{}, RRHS{}, LHS{}, RHS{})
    .parsersEq (tOr (P Any1) (P QQ)) (P (.choice [Any1, QQ])),  -- 182: DEP_ASSERT_PARSER_VALUES_EQ(LLHS{} | RRHS{},(choice_parser<LLHS, RRHS>{}), LHS{} | RHS{},(choice_parser<LHS, RHS>{}))
    .isTerm (tOr (P Any1) (P ABC)),  -- 182: DEP_ASSERT_BINARY_OPERABLE(|, LLHS{}, RRHS{}, LHS{}, RHS{})
    .parsersEq (tOr (P Any1) (P ABC)) (P (.choice [Any1, ABC])),  -- 182: DEP_ASSERT_PARSER_VALUES_EQ(LLHS{} | RRHS{},(choice_parser<LLHS, RRHS>{}), LHS{} | RHS{},(choice_parser<LHS, RHS>{}))
    .isTerm (tOr (P Any1) (P Comma)),  -- 182: DEP_ASSERT_BINARY_OPERABLE(|, LLHS{}, RRHS{}, LHS{}, RHS{})
    .parsersEq (tOr (P Any1) (P Comma)) (P (.anyOf [44, 97, 98, 99])),  -- 182: DEP_ASSERT_PARSER_VALUES_EQ(LLHS{} | RRHS{}, any_of_parser<str>{}, LHS{} | RHS{}, any_of_parser<str>{})
    .isTerm (tOr (P Any1) (P SpaceDot)),  -- 182: DEP_ASSERT_BINARY_OPERABLE(|, LLHS{}, RRHS{}, LHS{}, RHS{})
    .parsersEq (tOr (P Any1) (P SpaceDot)) (P (.anyOf [32, 46, 97, 98, 99])),  -- 182: DEP_ASSERT_PARSER_VALUES_EQ(LLHS{} | RRHS{}, any_of_parser<str>{}, LHS{} | RHS{}, any_of_parser<str>{})
    .isTerm (tOr (P Any2) (P Any1)),  -- 182: DEP_ASSERT_BINARY_OPERABLE(|, LLHS{}, RRHS{}, LHS{}, RHS{})
    .parsersEq (tOr (P Any2) (P Any1)) (P (.anyOf [97, 98, 99, 100])),  -- 182: DEP_ASSERT_PARSER_VALUES_EQ(LLHS{} | RRHS{}, any_of_parser<str>{}, LHS{} | RHS{}, any_of_parser<str>{})
    .isTerm (tOr (P Any2) (P Any2)),  -- 182: DEP_ASSERT_BINARY_OPERABLE(|, LLHS{}, RRHS{}, LHS{}, RHS{})
    .parsersEq (tOr (P Any2) (P Any2)) (P Any2),  -- 182: DEP_ASSERT_PARSER_VALUES_EQ(LLHS{} | RRHS{}, LLHS{}, LHS{} | RHS{}, LHS{})
    .isTerm (tOr (P Any2) (P Any3)),  -- 182: DEP_ASSERT_BINARY_OPERABLE(|, LLHS{}, RRHS{}, LHS{}, RHS{})
    .parsersEq (tOr (P Any2) (P Any3)) (P (.anyOf [98, 99, 100, 120, 121, 122])),  -- 182: DEP_ASSERT_PARSER_VALUES_EQ(LLHS{} | RRHS{}, any_of_parser<str>{}, LHS{} | RHS{}, any_of_parser<str>{})
    .isTerm (tOr (P Any2) (P Any4)),  -- 182: DEP_ASSERT_BINARY_OPERABLE(|, LLHS{}, RRHS{}, LHS{}, RHS{})
    .parsersEq (tOr (P Any2) (P Any4)) (P (.anyOf [98, 99, 100])),  -- 182: DEP_ASSERT_PARSER_VALUES_EQ(LLHS{} | RRHS{}, any_of_parser<str>{}, LHS{} | RHS{}, any_of_parser<str>{})
    .isTerm (tOr (P Any2) (P Non1)),  -- 182: DEP_ASSERT_BINARY_OPERABLE(|, LLHS{}, RRHS{}, LHS{}, RHS{})
    .parsersEq (tOr (P Any2) (P Non1)) (P (.noneOf [97])),  -- 182: DEP_ASSERT_PARSER_VALUES_EQ(LLHS{} | RRHS{}, none_of_parser<str>{}, LHS{} | RHS{}, none_of_parser<str>{})
    .isTerm (tOr (P Any2) (P Non2)),  -- 182: DEP_ASSERT_BINARY_OPERABLE(|, LLHS{}, RRHS{}, LHS{}, RHS{})
    .parsersEq (tOr (P Any2) (P Non2)) (P (.noneOf [])),  -- 182: DEP_ASSERT_PARSER_VALUES_EQ(LLHS{} | RRHS{}, none_of_parser<str>{}, LHS{} | RHS{}, none_of_parser<str>{})
    .isTerm (tOr (P Any2) (P Non3)),  -- 182: DEP_ASSERT_BINARY_OPERABLE(|, LLHS{}, RRHS{}, LHS{}, RHS{})
    .parsersEq (tOr (P Any2) (P Non3)) (P (.noneOf [120, 121, 122])),  -- 182: DEP_ASSERT_PARSER_VALUES_EQ(LLHS{} | RRHS{}, none_of_parser<str>{}, LHS{} | RHS{}, none_of_parser<str>{})
    .isTerm (tOr (P Any2) (P Non4)),  -- 182: DEP_ASSERT_BINARY_OPERABLE(|, LLHS{}, RRHS{}, LHS{}, RHS{})
    .parsersEq (tOr (P Any2) (P Non4)) (P (.noneOf [])),  -- 182: DEP_ASSERT_PARSER_VALUES_EQ(LLHS{} | RRHS{}, none_of_parser<str>{}, LHS{} | RHS{}, none_of_parser<str>{})
    .isTerm (tOr (P Any2) (P Non5)),  -- 182: DEP_ASSERT_BINARY_OPERABLE(|, LLHS{}, RRHS{}, LHS{}, RHS{})
    .parsersEq (tOr (P Any2) (P Non5)) (P (.noneOf [122])),  -- 182: DEP_ASSERT_PARSER_VALUES_EQ(LLHS{} | RRHS{}, none_of_parser<str>{}, LHS{} | RHS{}, none_of_parser<str>{})
    .isTerm (tOr (P Any2) (P All1)),  -- 182: DEP_ASSERT_BINARY_OPERABLE(|, LLHS{}, RRHS{}, LHS{}, RHS{})
    .parsersEq (tOr (P Any2) (P All1)) (P (.choice [Any2, All1])),  -- 182: DEP_ASSERT_PARSER_VALUES_EQ(LLHS{} | RRHS{},(choice_parser<LLHS, RRHS>{}), LHS{} | RHS{},(choice_parser<LHS, RHS>{}))
    .isTerm (tOr (P Any2) (P All2)),  -- 182: DEP_ASSERT_BINARY_OPERABLE(|, LLHS{}, RRHS{}, LHS{}, RHS{})
    .parsersEq (tOr (P Any2) (P All2)) (P (.choice [Any2, All2]))  -- 182: DEP_ASSERT_PARSER_VALUES_EQ(LLHS{} | RRHS{},(choice_parser<LLHS, RRHS>{}), LHS{} | RHS{},(choice_parser<LHS, RHS>{}))
    ], Assertion.Holds a :=
  Assertion.holds_of_check (by decide +kernel)

/-- choice operator / {anything} | {anything} (tests/char-tests/operators/choice.cpp:182) -/
theorem charOperatorsChoice_7_2 : ∀ a ∈ [
    .isTerm (tOr (P Any2) (P All3)),  -- 182: DEP_ASSERT_BINARY_OPERABLE(|, LLHS{}, RRHS{}, LHS{}, RHS{})
    .parsersEq (tOr (P Any2) (P All3)) (P (.choice [Any2, All3])),  -- 182: DEP_ASSERT_PARSER_VALUES_EQ(LLHS{} | RRHS{},(choice_parser<LLHS, RRHS>{}), LHS{} | RHS{},(choice_parser<LHS, RHS>{}))
    .isTerm (tOr (P Any2) (P All4)),  -- 182: DEP_ASSERT_BINARY_OPERABLE(|, LLHS{}, RRHS{}, LHS{}, RHS{})
    .parsersEq (tOr (P Any2) (P All4)) (P (.choice [Any2, All4])),  -- 182: DEP_ASSERT_PARSER_VALUES_EQ(LLHS{} | RRHS{},(choice_parser<LLHS, RRHS>{}), LHS{} | RHS{},(choice_parser<LHS, RHS>{}))
    .isTerm (tOr (P Any2) (P Eps1)),  -- 182: DEP_ASSERT_BINARY_OPERABLE(|, LLHS{}, RRHS{}, LHS{}, RHS{})
    .parsersEq (tOr (P Any2) (P Eps1)) (P (.choice [Any2, Eps1])),  -- 182: DEP_ASSERT_PARSER_VALUES_EQ(LLHS{} | RRHS{},(choice_parser<LLHS, RRHS>{}), LHS{} | RHS{},(choice_parser<LHS, RHS>{}))
    .isTerm (tOr (P Any2) (P Ant1)),  -- 182: DEP_ASSERT_BINARY_OPERABLE(|, LLHS{}, RRHS{}, LHS{}, RHS{})
    .parsersEq (tOr (P Any2) (P Ant1)) (P (.choice [Any2, Ant1])),  -- 182: DEP_ASSERT_PARSER_VALUES_EQ(LLHS{} | RRHS{},(choice_parser<LLHS, RRHS>{}), LHS{} | RHS{},(choice_parser<LHS, RHS>{}))
    .isTerm (tOr (P Any2) (P QQ)),  -- 182: DEP_ASSERT_BINARY_OPERABLE(|, LLHS{}, RRHS{}, LHS{}, RHS{})
    .parsersEq (tOr (P Any2) (P QQ)) (P (.choice [Any2, QQ])),  -- 182: DEP_ASSERT_PARSER_VALUES_EQ(LLHS{} | RRHS{},(choice_parser<LLHS, RRHS>{}), LHS{} | RHS{},(choice_parser<LHS, RHS>{}))
    .isTerm (tOr (P Any2) (P ABC)),  -- 182: DEP_ASSERT_BINARY_OPERABLE(|, LLHS{}, RRHS{}, LHS{}, RHS{})
    .parsersEq (tOr (P Any2) (P ABC)) (P (.choice [Any2, ABC])),  -- 182: DEP_ASSERT_PARSER_VALUES_EQ(LLHS{} | RRHS{},(choice_parser<LLHS, RRHS>{}), LHS{} | RHS{},(choice_parser<LHS, RHS>{}))
    .isTerm (tOr (P Any2) (P Comma)),  -- 182: DEP_ASSERT_BINARY_OPERABLE(|, LLHS{}, RRHS{}, LHS{}, RHS{})
    .parsersEq (tOr (P Any2) (P Comma)) (P (.anyOf [44, 98, 99, 100])),  -- 182: DEP_ASSERT_PARSER_VALUES_EQ(LLHS{} | RRHS{}, any_of_parser<str>{}, LHS{} | RHS{}, any_of_parser<str>{})
    .isTerm (tOr (P Any2) (P SpaceDot)),  -- 182: DEP_ASSERT_BINARY_OPERABLE(|, LLHS{}, RRHS{}, LHS{}, RHS{})
    .parsersEq (tOr (P Any2) (P SpaceDot)) (P (.anyOf [32, 46, 98, 99, 100])),  -- 182: DEP_ASSERT_PARSER_VALUES_EQ(LLHS{} | RRHS{}, any_of_parser<str>{}, LHS{} | RHS{}, any_of_parser<str>{})
    .isTerm (tOr (P Any3) (P Any1)),  -- 182: DEP_ASSERT_BINARY_OPERABLE(|, LLHS{}, RRHS{}, LHS{}, RHS{})
    .parsersEq (tOr (P Any3) (P Any1)) (P (.anyOf [97, 98, 99, 120, 121, 122])),  -- 182: DEP_ASSERT_PARSER_VALUES_EQ(LLHS{} | RRHS{}, any_of_parser<str>{}, LHS{} | RHS{}, any_of_parser<str>{})
    .isTerm (tOr (P Any3) (P Any2)),  -- 182: DEP_ASSERT_BINARY_OPERABLE(|, LLHS{}, RRHS{}, LHS{}, RHS{})
    .parsersEq (tOr (P Any3) (P Any2)) (P (.anyOf [98, 99, 100, 120, 121, 122])),  -- 182: DEP_ASSERT_PARSER_VALUES_EQ(LLHS{} | RRHS{}, any_of_parser<str>{}, LHS{} | RHS{}, any_of_parser<str>{})
    .isTerm (tOr (P Any3) (P Any3)),  -- 182: DEP_ASSERT_BINARY_OPERABLE(|, LLHS{}, RRHS{}, LHS{}, RHS{})
    .parsersEq (tOr (P Any3) (P Any3)) (P Any3),  -- 182: DEP_ASSERT_PARSER_VALUES_EQ(LLHS{} | RRHS{}, LLHS{}, LHS{} | RHS{}, LHS{})
    .isTerm (tOr (P Any3) (P Any4)),  -- 182: DEP_ASSERT_BINARY_OPERABLE(|, LLHS{}, RRHS{}, LHS{}, RHS{})
    .parsersEq (tOr (P Any3) (P Any4)) (P (.anyOf [99, 100, 120, 121, 122])),  -- 182: DEP_ASSERT_PARSER_VALUES_EQ(LLHS{} | RRHS{}, any_of_parser<str>{}, LHS{} | RHS{}, any_of_parser<str>{})
    .isTerm (tOr (P Any3) (P Non1)),  -- 182: DEP_ASSERT_BINARY_OPERABLE(|, LLHS{}, RRHS{}, LHS{}, RHS{})
    .parsersEq (tOr (P Any3) (P Non1)) (P (.noneOf [97, 98, 99])),  -- 182: DEP_ASSERT_PARSER_VALUES_EQ(LLHS{} | RRHS{}, none_of_parser<str>{}, LHS{} | RHS{}, none_of_parser<str>{})
    .isTerm (tOr (P Any3) (P Non2)),  -- 182: DEP_ASSERT_BINARY_OPERABLE(|, LLHS{}, RRHS{}, LHS{}, RHS{})
    .parsersEq (tOr (P Any3) (P Non2)) (P (.noneOf [98, 99, 100])),  -- 182: DEP_ASSERT_PARSER_VALUES_EQ(LLHS{} | RRHS{}, none_of_parser<str>{}, LHS{} | RHS{}, none_of_parser<str>{})
    .isTerm (tOr (P Any3) (P Non3)),  -- 182: DEP_ASSERT_BINARY_OPERABLE(|, LLHS{}, RRHS{}, LHS{}, RHS{})
    .parsersEq (tOr (P Any3) (P Non3)) (P (.noneOf [])),  -- 182: DEP_ASSERT_PARSER_VALUES_EQ(LLHS{} | RRHS{}, none_of_parser<str>{}, LHS{} | RHS{}, none_of_parser<str>{})
    .isTerm (tOr (P Any3) (P Non4)),  -- 182: DEP_ASSERT_BINARY_OPERABLE(|, LLHS{}, RRHS{}, LHS{}, RHS{})
    .parsersEq (tOr (P Any3) (P Non4)) (P (.noneOf [99, 100])),  -- 182: DEP_ASSERT_PARSER_VALUES_EQ(LLHS{} | RRHS{}, none_of_parser<str>{}, LHS{} | RHS{}, none_of_parser<str>{})
    .isTerm (tOr (P Any3) (P Non5)),  -- 182: DEP_ASSERT_BINARY_OPERABLE(|, LLHS{}, RRHS{}, LHS{}, RHS{})
    .parsersEq (tOr (P Any3) (P Non5)) (P (.noneOf [])),  -- 182: DEP_ASSERT_PARSER_VALUES_EQ(LLHS{} | RRHS{}, none_of_parser<str>{}, LHS{} | RHS{}, none_of_parser<str>{})
    .isTerm (tOr (P Any3) (P All1)),  -- 182: DEP_ASSERT_BINARY_OPERABLE(|, LLHS{}, RRHS{}, LHS{}, RHS{})
    .parsersEq (tOr (P Any3) (P All1)) (P (.choice [Any3, All1])),  -- 182: DEP_ASSERT_PARSER_VALUES_EQ(LLHS{} | RRHS{},(choice_parser<LLHS, RRHS>{}), LHS{} | RHS{},(choice_parser<LHS, RHS>{}))
    .isTerm (tOr (P Any3) (P All2)),  -- 182: DEP_ASSERT_BINARY_OPERABLE(|, LLHS{}, RRHS{}, LHS{}, RHS{})
    .parsersEq (tOr (P Any3) (P All2)) (P (.choice [Any3, All2])),  -- 182: DEP_ASSERT_PARSER_VALUES_EQ(LLHS{} | RRHS{},(choice_parser<LLHS, RRHS>{}), LHS{} | RHS{},(choice_parser<LHS, RHS>{}))
    .isTerm (tOr (P Any3) (P All3)),  -- 182: DEP_ASSERT_BINARY_OPERABLE(|, LLHS{}, RRHS{}, LHS{}, RHS{})
    .parsersEq (tOr (P Any3) (P All3)) (P (.choice [Any3, All3])),  -- 182: DEP_ASSERT_PARSER_VALUES_EQ(LLHS{} | RRHS{},(choice_parser<LLHS, RRHS>{}), LHS{} | RHS{},(choice_parser<LHS, RHS>{}))
    .isTerm (tOr (P Any3) (P All4)),  -- 182: DEP_ASSERT_BINARY_OPERABLE(|, LLHS{}, RRHS{}, LHS{}, RHS{})
    .parsersEq (tOr (P Any3) (P All4)) (P (.choice [Any3, All4])),  -- 182: DEP_ASSERT_PARSER_VALUES_EQ(LLHS{} | RRHS{},(choice_parser<LLHS, RRHS>{}), LHS{} | RHS{},(choice_parser<LHS, RHS>{}))
    .isTerm (tOr (P Any3) (P Eps1)),  -- 182: DEP_ASSERT_BINARY_OPERABLE(|, LLHS{}, RRHS{}, LHS{}, RHS{})
    .parsersEq (tOr (P Any3) (P Eps1)) (P (.choice [Any3, Eps1])),  -- 182: DEP_ASSERT_PARSER_VALUES_EQ(LLHS{} | RRHS{},(choice_parser<LLHS, RRHS>{}), LHS{} | RHS{},(choice_parser<LHS, RHS>{}))
    .isTerm (tOr (P Any3) (P Ant1)),  -- 182: DEP_ASSERT_BINARY_OPERABLE(|, LLHS{}, RRHS{}, LHS{}, RHS{})
    .parsersEq (tOr (P Any3) (P Ant1)) (P (.choice [Any3, Ant1])),  -- 182: DEP_ASSERT_PARSER_VALUES_EQ(LLHS{} | RRHS{},(choice_parser<LLHS, RRHS>{}), LHS{} | RHS{},(choice_parser<LHS, RHS>{}))
    .isTerm (tOr (P Any3) (P QQ)),  -- 182: DEP_ASSERT_BINARY_OPERABLE(|, LLHS{}, RRHS{}, LHS{}, RHS{})
    .parsersEq (tOr (P Any3) (P QQ)) (P (.choice [Any3, QQ])),  -- 182: DEP_ASSERT_PARSER_VALUES_EQ(LLHS{} | RRHS{},(choice_parser<LLHS, RRHS>{}), LHS{} | RHS{},(choice_parser<LHS, RHS>{}))
    .isTerm (tOr (P Any3) (P ABC)),  -- 182: DEP_ASSERT_BINARY_OPERABLE(|, LLHS{}, RRHS{}, LHS{}, RHS{})
    .parsersEq (tOr (P Any3) (P ABC)) (P (.choice [Any3, ABC])),  -- 182: DEP_ASSERT_PARSER_VALUES_EQ(LLHS{} | RRHS{},(choice_parser<LLHS, RRHS>{}), LHS{} | RHS{},(choice_parser<LHS, RHS>{}))
    .isTerm (tOr (P Any3) (P Comma)),  -- 182: DEP_ASSERT_BINARY_OPERABLE(|, LLHS{}, RRHS{}, LHS{}, RHS{})
    .parsersEq (tOr (P Any3) (P Comma)) (P (.anyOf [44, 120, 121, 122])),  -- 182: DEP_ASSERT_PARSER_VALUES_EQ(LLHS{} | RRHS{}, any_of_parser<str>{}, LHS{} | RHS{}, any_of_parser<str>{})
    .isTerm (tOr (P Any3) (P SpaceDot)),  -- 182: DEP_ASSERT_BINARY_OPERABLE(|, LLHS{}, RRHS{}, LHS{}, RHS{})
    .parsersEq (tOr (P Any3) (P SpaceDot)) (P (.anyOf [32, 46, 120, 121, 122])),  -- 182: DEP_ASSERT_PARSER_VALUES_EQ(LLHS{} | RRHS{}, any_of_parser<str>{}, LHS{} | RHS{}, any_of_parser<str>{})
    .isTerm (tOr (P Any4) (P Any1)),  -- 182: DEP_ASSERT_BINARY_OPERABLE(|, LLHS{}, RRHS{}, LHS{}, RHS{})
    .parsersEq (tOr (P Any4) (P Any1)) (P (.anyOf [97, 98, 99, 100])),  -- 182: DEP_ASSERT_PARSER_VALUES_EQ(LLHS{} | RRHS{}, any_of_parser<str>{}, LHS{} | RHS{}, any_of_parser<str>{})
    .isTerm (tOr (P Any4) (P Any2)),  -- 182: DEP_ASSERT_BINARY_OPERABLE(|, LLHS{}, RRHS{}, LHS{}, RHS{})
    .parsersEq (tOr (P Any4) (P Any2)) (P (.anyOf [98, 99, 100])),  -- 182: DEP_ASSERT_PARSER_VALUES_EQ(LLHS{} | RRHS{}, any_of_parser<str>{}, LHS{} | RHS{}, any_of_parser<str>{})
    .isTerm (tOr (P Any4) (P Any3)),  -- 182: DEP_ASSERT_BINARY_OPERABLE(|, LLHS{}, RRHS{}, LHS{}, RHS{})
    .parsersEq (tOr (P Any4) (P Any3)) (P (.anyOf [99, 100, 120, 121, 122]))  -- 182: DEP_ASSERT_PARSER_VALUES_EQ(LLHS{} | RRHS{}, any_of_parser<str>{}, LHS{} | RHS{}, any_of_parser<str>{})
    ], Assertion.Holds a :=
  Assertion.holds_of_check (by decide +kernel)

/-- choice operator / {anything} | {anything} (tests/char-tests/operators/choice.cpp:182) -/
theorem charOperatorsChoice_7_3 : ∀ a ∈ [
    .isTerm (tOr (P Any4) (P Any4)),  -- 182: DEP_ASSERT_BINARY_OPERABLE(|, LLHS{}, RRHS{}, LHS{}, RHS{})
    .parsersEq (tOr (P Any4) (P Any4)) (P Any4),  -- 182: DEP_ASSERT_PARSER_VALUES_EQ(LLHS{} | RRHS{}, LLHS{}, LHS{} | RHS{}, LHS{})
    .isTerm (tOr (P Any4) (P Non1)),  -- 182: DEP_ASSERT_BINARY_OPERABLE(|, LLHS{}, RRHS{}, LHS{}, RHS{})
    .parsersEq (tOr (P Any4) (P Non1)) (P (.noneOf [97, 98])),  -- 182: DEP_ASSERT_PARSER_VALUES_EQ(LLHS{} | RRHS{}, none_of_parser<str>{}, LHS{} | RHS{}, none_of_parser<str>{})
    .isTerm (tOr (P Any4) (P Non2)),  -- 182: DEP_ASSERT_BINARY_OPERABLE(|, LLHS{}, RRHS{}, LHS{}, RHS{})
    .parsersEq (tOr (P Any4) (P Non2)) (P (.noneOf [98])),  -- 182: DEP_ASSERT_PARSER_VALUES_EQ(LLHS{} | RRHS{}, none_of_parser<str>{}, LHS{} | RHS{}, none_of_parser<str>{})
    .isTerm (tOr (P Any4) (P Non3)),  -- 182: DEP_ASSERT_BINARY_OPERABLE(|, LLHS{}, RRHS{}, LHS{}, RHS{})
    .parsersEq (tOr (P Any4) (P Non3)) (P (.noneOf [120, 121, 122])),  -- 182: DEP_ASSERT_PARSER_VALUES_EQ(LLHS{} | RRHS{}, none_of_parser<str>{}, LHS{} | RHS{}, none_of_parser<str>{})
    .isTerm (tOr (P Any4) (P Non4)),  -- 182: DEP_ASSERT_BINARY_OPERABLE(|, LLHS{}, RRHS{}, LHS{}, RHS{})
    .parsersEq (tOr (P Any4) (P Non4)) (P (.noneOf [])),  -- 182: DEP_ASSERT_PARSER_VALUES_EQ(LLHS{} | RRHS{}, none_of_parser<str>{}, LHS{} | RHS{}, none_of_parser<str>{})
    .isTerm (tOr (P Any4) (P Non5)),  -- 182: DEP_ASSERT_BINARY_OPERABLE(|, LLHS{}, RRHS{}, LHS{}, RHS{})
    .parsersEq (tOr (P Any4) (P Non5)) (P (.noneOf [122])),  -- 182: DEP_ASSERT_PARSER_VALUES_EQ(LLHS{} | RRHS{}, none_of_parser<str>{}, LHS{} | RHS{}, none_of_parser<str>{})
    .isTerm (tOr (P Any4) (P All1)),  -- 182: DEP_ASSERT_BINARY_OPERABLE(|, LLHS{}, RRHS{}, LHS{}, RHS{})
    .parsersEq (tOr (P Any4) (P All1)) (P (.choice [Any4, All1])),  -- 182: DEP_ASSERT_PARSER_VALUES_EQ(LLHS{} | RRHS{},(choice_parser<LLHS, RRHS>{}), LHS{} | RHS{},(choice_parser<LHS, RHS>{}))
    .isTerm (tOr (P Any4) (P All2)),  -- 182: DEP_ASSERT_BINARY_OPERABLE(|, LLHS{}, RRHS{}, LHS{}, RHS{})
    .parsersEq (tOr (P Any4) (P All2)) (P (.choice [Any4, All2])),  -- 182: DEP_ASSERT_PARSER_VALUES_EQ(LLHS{} | RRHS{},(choice_parser<LLHS, RRHS>{}), LHS{} | RHS{},(choice_parser<LHS, RHS>{}))
    .isTerm (tOr (P Any4) (P All3)),  -- 182: DEP_ASSERT_BINARY_OPERABLE(|, LLHS{}, RRHS{}, LHS{}, RHS{})
    .parsersEq (tOr (P Any4) (P All3)) (P (.choice [Any4, All3])),  -- 182: DEP_ASSERT_PARSER_VALUES_EQ(LLHS{} | RRHS{},(choice_parser<LLHS, RRHS>{}), LHS{} | RHS{},(choice_parser<LHS, RHS>{}))
    .isTerm (tOr (P Any4) (P All4)),  -- 182: DEP_ASSERT_BINARY_OPERABLE(|, LLHS{}, RRHS{}, LHS{}, RHS{})
    .parsersEq (tOr (P Any4) (P All4)) (P (.choice [Any4, All4])),  -- 182: DEP_ASSERT_PARSER_VALUES_EQ(LLHS{} | RRHS{},(choice_parser<LLHS, RRHS>{}), LHS{} | RHS{},(choice_parser<LHS, RHS>{}))
    .isTerm (tOr (P Any4) (P Eps1)),  -- 182: DEP_ASSERT_BINARY_OPERABLE(|, LLHS{}, RRHS{}, LHS{}, RHS{})
    .parsersEq (tOr (P Any4) (P Eps1)) (P (.choice [Any4, Eps1])),  -- 182: DEP_ASSERT_PARSER_VALUES_EQ(LLHS{} | RRHS{},(choice_parser<LLHS, RRHS>{}), LHS{} | RHS{},(choice_parser<LHS, RHS>{}))
    .isTerm (tOr (P Any4) (P Ant1)),  -- 182: DEP_ASSERT_BINARY_OPERABLE(|, LLHS{}, RRHS{}, LHS{}, RHS{})
    .parsersEq (tOr (P Any4) (P Ant1)) (P (.choice [Any4, Ant1])),  -- 182: DEP_ASSERT_PARSER_VALUES_EQ(LLHS{} | RRHS{},(choice_parser<LLHS, RRHS>{}), LHS{} | RHS{},(choice_parser<LHS, RHS>{}))
    .isTerm (tOr (P Any4) (P QQ)),  -- 182: DEP_ASSERT_BINARY_OPERABLE(|, LLHS{}, RRHS{}, LHS{}, RHS{})
    .parsersEq (tOr (P Any4) (P QQ)) (P (.choice [Any4, QQ])),  -- 182: DEP_ASSERT_PARSER_VALUES_EQ(LLHS{} | RRHS{},(choice_parser<LLHS, RRHS>{}), LHS{} | RHS{},(choice_parser<LHS, RHS>{}))
    .isTerm (tOr (P Any4) (P ABC)),  -- 182: DEP_ASSERT_BINARY_OPERABLE(|, LLHS{}, RRHS{}, LHS{}, RHS{})
    .parsersEq (tOr (P Any4) (P ABC)) (P (.choice [Any4, ABC])),  -- 182: DEP_ASSERT_PARSER_VALUES_EQ(LLHS{} | RRHS{},(choice_parser<LLHS, RRHS>{}), LHS{} | RHS{},(choice_parser<LHS, RHS>{}))
    .isTerm (tOr (P Any4) (P Comma)),  -- 182: DEP_ASSERT_BINARY_OPERABLE(|, LLHS{}, RRHS{}, LHS{}, RHS{})
    .parsersEq (tOr (P Any4) (P Comma)) (P (.anyOf [44, 99, 100])),  -- 182: DEP_ASSERT_PARSER_VALUES_EQ(LLHS{} | RRHS{}, any_of_parser<str>{}, LHS{} | RHS{}, any_of_parser<str>{})
    .isTerm (tOr (P Any4) (P SpaceDot)),  -- 182: DEP_ASSERT_BINARY_OPERABLE(|, LLHS{}, RRHS{}, LHS{}, RHS{})
    .parsersEq (tOr (P Any4) (P SpaceDot)) (P (.anyOf [32, 46, 99, 100])),  -- 182: DEP_ASSERT_PARSER_VALUES_EQ(LLHS{} | RRHS{}, any_of_parser<str>{}, LHS{} | RHS{}, any_of_parser<str>{})
    .isTerm (tOr (P Non1) (P Any1)),  -- 182: DEP_ASSERT_BINARY_OPERABLE(|, LLHS{}, RRHS{}, LHS{}, RHS{})
    .parsersEq (tOr (P Non1) (P Any1)) (P (.noneOf [])),  -- 182: DEP_ASSERT_PARSER_VALUES_EQ(LLHS{} | RRHS{}, none_of_parser<str>{}, LHS{} | RHS{}, none_of_parser<str>{})
    .isTerm (tOr (P Non1) (P Any2)),  -- 182: DEP_ASSERT_BINARY_OPERABLE(|, LLHS{}, RRHS{}, LHS{}, RHS{})
    .parsersEq (tOr (P Non1) (P Any2)) (P (.noneOf [97])),  -- 182: DEP_ASSERT_PARSER_VALUES_EQ(LLHS{} | RRHS{}, none_of_parser<str>{}, LHS{} | RHS{}, none_of_parser<str>{})
    .isTerm (tOr (P Non1) (P Any3)),  -- 182: DEP_ASSERT_BINARY_OPERABLE(|, LLHS{}, RRHS{}, LHS{}, RHS{})
    .parsersEq (tOr (P Non1) (P Any3)) (P (.noneOf [97, 98, 99])),  -- 182: DEP_ASSERT_PARSER_VALUES_EQ(LLHS{} | RRHS{}, none_of_parser<str>{}, LHS{} | RHS{}, none_of_parser<str>{})
    .isTerm (tOr (P Non1) (P Any4)),  -- 182: DEP_ASSERT_BINARY_OPERABLE(|, LLHS{}, RRHS{}, LHS{}, RHS{})
    .parsersEq (tOr (P Non1) (P Any4)) (P (.noneOf [97, 98])),  -- 182: DEP_ASSERT_PARSER_VALUES_EQ(LLHS{} | RRHS{}, none_of_parser<str>{}, LHS{} | RHS{}, none_of_parser<str>{})
    .isTerm (tOr (P Non1) (P Non1)),  -- 182: DEP_ASSERT_BINARY_OPERABLE(|, LLHS{}, RRHS{}, LHS{}, RHS{})
    .parsersEq (tOr (P Non1) (P Non1)) (P Non1),  -- 182: DEP_ASSERT_PARSER_VALUES_EQ(LLHS{} | RRHS{}, LLHS{}, LHS{} | RHS{}, LHS{})
    .isTerm (tOr (P Non1) (P Non2)),  -- 182: DEP_ASSERT_BINARY_OPERABLE(|, LLHS{}, RRHS{}, LHS{}, RHS{})
    .parsersEq (tOr (P Non1) (P Non2)) (P (.noneOf [98, 99])),  -- 182: DEP_ASSERT_PARSER_VALUES_EQ(LLHS{} | RRHS{}, none_of_parser<str>{}, LHS{} | RHS{}, none_of_parser<str>{})
    .isTerm (tOr (P Non1) (P Non3)),  -- 182: DEP_ASSERT_BINARY_OPERABLE(|, LLHS{}, RRHS{}, LHS{}, RHS{})
    .parsersEq (tOr (P Non1) (P Non3)) (P (.noneOf [])),  -- 182: DEP_ASSERT_PARSER_VALUES_EQ(LLHS{} | RRHS{}, none_of_parser<str>{}, LHS{} | RHS{}, none_of_parser<str>{})
    .isTerm (tOr (P Non1) (P Non4)),  -- 182: DEP_ASSERT_BINARY_OPERABLE(|, LLHS{}, RRHS{}, LHS{}, RHS{})
    .parsersEq (tOr (P Non1) (P Non4)) (P (.noneOf [99])),  -- 182: DEP_ASSERT_PARSER_VALUES_EQ(LLHS{} | RRHS{}, none_of_parser<str>{}, LHS{} | RHS{}, none_of_parser<str>{})
    .isTerm (tOr (P Non1) (P Non5)),  -- 182: DEP_ASSERT_BINARY_OPERABLE(|, LLHS{}, RRHS{}, LHS{}, RHS{})
    .parsersEq (tOr (P Non1) (P Non5)) (P (.noneOf [])),  -- 182: DEP_ASSERT_PARSER_VALUES_EQ(LLHS{} | RRHS{}, none_of_parser<str>{}, LHS{} | RHS{}, none_of_parser<str>{})
    .isTerm (tOr (P Non1) (P All1)),  -- 182: DEP_ASSERT_BINARY_OPERABLE(|, LLHS{}, RRHS{}, LHS{}, RHS{})
    .parsersEq (tOr (P Non1) (P All1)) (P (.choice [Non1, All1])),  -- 182: DEP_ASSERT_PARSER_VALUES_EQ(LLHS{} | RRHS{},(choice_parser<LLHS, RRHS>{}), LHS{} | RHS{},(choice_parser<LHS, RHS>{}))
    .isTerm (tOr (P Non1) (P All2)),  -- 182: DEP_ASSERT_BINARY_OPERABLE(|, LLHS{}, RRHS{}, LHS{}, RHS{})
    .parsersEq (tOr (P Non1) (P All2)) (P (.choice [Non1, All2])),  -- 182: DEP_ASSERT_PARSER_VALUES_EQ(LLHS{} | RRHS{},(choice_parser<LLHS, RRHS>{}), LHS{} | RHS{},(choice_parser<LHS, RHS>{}))
    .isTerm (tOr (P Non1) (P All3)),  -- 182: DEP_ASSERT_BINARY_OPERABLE(|, LLHS{}, RRHS{}, LHS{}, RHS{})
    .parsersEq (tOr (P Non1) (P All3)) (P (.choice [Non1, All3])),  -- 182: DEP_ASSERT_PARSER_VALUES_EQ(LLHS{} | RRHS{},(choice_parser<LLHS, RRHS>{}), LHS{} | RHS{},(choice_parser<LHS, RHS>{}))
    .isTerm (tOr (P Non1) (P All4)),  -- 182: DEP_ASSERT_BINARY_OPERABLE(|, LLHS{}, RRHS{}, LHS{}, RHS{})
    .parsersEq (tOr (P Non1) (P All4)) (P (.choice [Non1, All4])),  -- 182: DEP_ASSERT_PARSER_VALUES_EQ(LLHS{} | RRHS{},(choice_parser<LLHS, RRHS>{}), LHS{} | RHS{},(choice_parser<LHS, RHS>{}))
    .isTerm (tOr (P Non1) (P Eps1)),  -- 182: DEP_ASSERT_BINARY_OPERABLE(|, LLHS{}, RRHS{}, LHS{}, RHS{})
    .parsersEq (tOr (P Non1) (P Eps1)) (P (.choice [Non1, Eps1]))  -- 182: DEP_ASSERT_PARSER_VALUES_EQ(LLHS{} | RRHS{},(choice_parser<LLHS, RRHS>{}), LHS{} | RHS{},(choice_parser<LHS, RHS>{}))
    ], Assertion.Holds a :=
  Assertion.holds_of_check (by decide +kernel)

/-- choice operator / {anything} | {anything} (tests/char-tests/operators/choice.cpp:182) -/
theorem charOperatorsChoice_7_4 : ∀ a ∈ [
    .isTerm (tOr (P Non1) (P Ant1)),  -- 182: DEP_ASSERT_BINARY_OPERABLE(|, LLHS{}, RRHS{}, LHS{}, RHS{})
    .parsersEq (tOr (P Non1) (P Ant1)) (P (.choice [Non1, Ant1])),  -- 182: DEP_ASSERT_PARSER_VALUES_EQ(LLHS{} | RRHS{},(choice_parser<LLHS, RRHS>{}), LHS{} | RHS{},(choice_parser<LHS, RHS>{}))
    .isTerm (tOr (P Non1) (P QQ)),  -- 182: DEP_ASSERT_BINARY_OPERABLE(|, LLHS{}, RRHS{}, LHS{}, RHS{})
    .parsersEq (tOr (P Non1) (P QQ)) (P (.choice [Non1, QQ])),  -- 182: DEP_ASSERT_PARSER_VALUES_EQ(LLHS{} | RRHS{},(choice_parser<LLHS, RRHS>{}), LHS{} | RHS{},(choice_parser<LHS, RHS>{}))
    .isTerm (tOr (P Non1) (P ABC)),  -- 182: DEP_ASSERT_BINARY_OPERABLE(|, LLHS{}, RRHS{}, LHS{}, RHS{})
    .parsersEq (tOr (P Non1) (P ABC)) (P (.choice [Non1, ABC])),  -- 182: DEP_ASSERT_PARSER_VALUES_EQ(LLHS{} | RRHS{},(choice_parser<LLHS, RRHS>{}), LHS{} | RHS{},(choice_parser<LHS, RHS>{}))
    .isTerm (tOr (P Non1) (P Comma)),  -- 182: DEP_ASSERT_BINARY_OPERABLE(|, LLHS{}, RRHS{}, LHS{}, RHS{})
    .parsersEq (tOr (P Non1) (P Comma)) (P (.noneOf [97, 98, 99])),  -- 182: DEP_ASSERT_PARSER_VALUES_EQ(LLHS{} | RRHS{}, none_of_parser<str>{}, LHS{} | RHS{}, none_of_parser<str>{})
    .isTerm (tOr (P Non1) (P SpaceDot)),  -- 182: DEP_ASSERT_BINARY_OPERABLE(|, LLHS{}, RRHS{}, LHS{}, RHS{})
    .parsersEq (tOr (P Non1) (P SpaceDot)) (P (.noneOf [97, 98, 99])),  -- 182: DEP_ASSERT_PARSER_VALUES_EQ(LLHS{} | RRHS{}, none_of_parser<str>{}, LHS{} | RHS{}, none_of_parser<str>{})
    .isTerm (tOr (P Non2) (P Any1)),  -- 182: DEP_ASSERT_BINARY_OPERABLE(|, LLHS{}, RRHS{}, LHS{}, RHS{})
    .parsersEq (tOr (P Non2) (P Any1)) (P (.noneOf [100])),  -- 182: DEP_ASSERT_PARSER_VALUES_EQ(LLHS{} | RRHS{}, none_of_parser<str>{}, LHS{} | RHS{}, none_of_parser<str>{})
    .isTerm (tOr (P Non2) (P Any2)),  -- 182: DEP_ASSERT_BINARY_OPERABLE(|, LLHS{}, RRHS{}, LHS{}, RHS{})
    .parsersEq (tOr (P Non2) (P Any2)) (P (.noneOf [])),  -- 182: DEP_ASSERT_PARSER_VALUES_EQ(LLHS{} | RRHS{}, none_of_parser<str>{}, LHS{} | RHS{}, none_of_parser<str>{})
    .isTerm (tOr (P Non2) (P Any3)),  -- 182: DEP_ASSERT_BINARY_OPERABLE(|, LLHS{}, RRHS{}, LHS{}, RHS{})
    .parsersEq (tOr (P Non2) (P Any3)) (P (.noneOf [98, 99, 100])),  -- 182: DEP_ASSERT_PARSER_VALUES_EQ(LLHS{} | RRHS{}, none_of_parser<str>{}, LHS{} | RHS{}, none_of_parser<str>{})
    .isTerm (tOr (P Non2) (P Any4)),  -- 182: DEP_ASSERT_BINARY_OPERABLE(|, LLHS{}, RRHS{}, LHS{}, RHS{})
    .parsersEq (tOr (P Non2) (P Any4)) (P (.noneOf [98])),  -- 182: DEP_ASSERT_PARSER_VALUES_EQ(LLHS{} | RRHS{}, none_of_parser<str>{}, LHS{} | RHS{}, none_of_parser<str>{})
    .isTerm (tOr (P Non2) (P Non1)),  -- 182: DEP_ASSERT_BINARY_OPERABLE(|, LLHS{}, RRHS{}, LHS{}, RHS{})
    .parsersEq (tOr (P Non2) (P Non1)) (P (.noneOf [98, 99])),  -- 182: DEP_ASSERT_PARSER_VALUES_EQ(LLHS{} | RRHS{}, none_of_parser<str>{}, LHS{} | RHS{}, none_of_parser<str>{})
    .isTerm (tOr (P Non2) (P Non2)),  -- 182: DEP_ASSERT_BINARY_OPERABLE(|, LLHS{}, RRHS{}, LHS{}, RHS{})
    .parsersEq (tOr (P Non2) (P Non2)) (P Non2),  -- 182: DEP_ASSERT_PARSER_VALUES_EQ(LLHS{} | RRHS{}, LLHS{}, LHS{} | RHS{}, LHS{})
    .isTerm (tOr (P Non2) (P Non3)),  -- 182: DEP_ASSERT_BINARY_OPERABLE(|, LLHS{}, RRHS{}, LHS{}, RHS{})
    .parsersEq (tOr (P Non2) (P Non3)) (P (.noneOf [])),  -- 182: DEP_ASSERT_PARSER_VALUES_EQ(LLHS{} | RRHS{}, none_of_parser<str>{}, LHS{} | RHS{}, none_of_parser<str>{})
    .isTerm (tOr (P Non2) (P Non4)),  -- 182: DEP_ASSERT_BINARY_OPERABLE(|, LLHS{}, RRHS{}, LHS{}, RHS{})
    .parsersEq (tOr (P Non2) (P Non4)) (P (.noneOf [99, 100])),  -- 182: DEP_ASSERT_PARSER_VALUES_EQ(LLHS{} | RRHS{}, none_of_parser<str>{}, LHS{} | RHS{}, none_of_parser<str>{})
    .isTerm (tOr (P Non2) (P Non5)),  -- 182: DEP_ASSERT_BINARY_OPERABLE(|, LLHS{}, RRHS{}, LHS{}, RHS{})
    .parsersEq (tOr (P Non2) (P Non5)) (P (.noneOf [])),  -- 182: DEP_ASSERT_PARSER_VALUES_EQ(LLHS{} | RRHS{}, none_of_parser<str>{}, LHS{} | RHS{}, none_of_parser<str>{})
    .isTerm (tOr (P Non2) (P All1)),  -- 182: DEP_ASSERT_BINARY_OPERABLE(|, LLHS{}, RRHS{}, LHS{}, RHS{})
    .parsersEq (tOr (P Non2) (P All1)) (P (.choice [Non2, All1])),  -- 182: DEP_ASSERT_PARSER_VALUES_EQ(LLHS{} | RRHS{},(choice_parser<LLHS, RRHS>{}), LHS{} | RHS{},(choice_parser<LHS, RHS>{}))
    .isTerm (tOr (P Non2) (P All2)),  -- 182: DEP_ASSERT_BINARY_OPERABLE(|, LLHS{}, RRHS{}, LHS{}, RHS{})
    .parsersEq (tOr (P Non2) (P All2)) (P (.choice [Non2, All2])),  -- 182: DEP_ASSERT_PARSER_VALUES_EQ(LLHS{} | RRHS{},(choice_parser<LLHS, RRHS>{}), LHS{} | RHS{},(choice_parser<LHS, RHS>{}))
    .isTerm (tOr (P Non2) (P All3)),  -- 182: DEP_ASSERT_BINARY_OPERABLE(|, LLHS{}, RRHS{}, LHS{}, RHS{})
    .parsersEq (tOr (P Non2) (P All3)) (P (.choice [Non2, All3])),  -- 182: DEP_ASSERT_PARSER_VALUES_EQ(LLHS{} | RRHS{},(choice_parser<LLHS, RRHS>{}), LHS{} | RHS{},(choice_parser<LHS, RHS>{}))
    .isTerm (tOr (P Non2) (P All4)),  -- 182: DEP_ASSERT_BINARY_OPERABLE(|, LLHS{}, RRHS{}, LHS{}, RHS{})
    .parsersEq (tOr (P Non2) (P All4)) (P (.choice [Non2, All4])),  -- 182: DEP_ASSERT_PARSER_VALUES_EQ(LLHS{} | RRHS{},(choice_parser<LLHS, RRHS>{}), LHS{} | RHS{},(choice_parser<LHS, RHS>{}))
    .isTerm (tOr (P Non2) (P Eps1)),  -- 182: DEP_ASSERT_BINARY_OPERABLE(|, LLHS{}, RRHS{}, LHS{}, RHS{})
    .parsersEq (tOr (P Non2) (P Eps1)) (P (.choice [Non2, Eps1])),  -- 182: DEP_ASSERT_PARSER_VALUES_EQ(LLHS{} | RRHS{},(choice_parser<LLHS, RRHS>{}), LHS{} | RHS{},(choice_parser<LHS, RHS>{}))
    .isTerm (tOr (P Non2) (P Ant1)),  -- 182: DEP_ASSERT_BINARY_OPERABLE(|, LLHS{}, RRHS{}, LHS{}, RHS{})
    .parsersEq (tOr (P Non2) (P Ant1)) (P (.choice [Non2, Ant1])),  -- 182: DEP_ASSERT_PARSER_VALUES_EQ(LLHS{} | RRHS{},(choice_parser<LLHS, RRHS>{}), LHS{} | RHS{},(choice_parser<LHS, RHS>{}))
    .isTerm (tOr (P Non2) (P QQ)),  -- 182: DEP_ASSERT_BINARY_OPERABLE(|, LLHS{}, RRHS{}, LHS{}, RHS{})
    .parsersEq (tOr (P Non2) (P QQ)) (P (.choice [Non2, QQ])),  -- 182: DEP_ASSERT_PARSER_VALUES_EQ(LLHS{} | RRHS{},(choice_parser<LLHS, RRHS>{}), LHS{} | RHS{},(choice_parser<LHS, RHS>{}))
    .isTerm (tOr (P Non2) (P ABC)),  -- 182: DEP_ASSERT_BINARY_OPERABLE(|, LLHS{}, RRHS{}, LHS{}, RHS{})
    .parsersEq (tOr (P Non2) (P ABC)) (P (.choice [Non2, ABC])),  -- 182: DEP_ASSERT_PARSER_VALUES_EQ(LLHS{} | RRHS{},(choice_parser<LLHS, RRHS>{}), LHS{} | RHS{},(choice_parser<LHS, RHS>{}))
    .isTerm (tOr (P Non2) (P Comma)),  -- 182: DEP_ASSERT_BINARY_OPERABLE(|, LLHS{}, RRHS{}, LHS{}, RHS{})
    .parsersEq (tOr (P Non2) (P Comma)) (P (.noneOf [98, 99, 100])),  -- 182: DEP_ASSERT_PARSER_VALUES_EQ(LLHS{} | RRHS{}, none_of_parser<str>{}, LHS{} | RHS{}, none_of_parser<str>{})
    .isTerm (tOr (P Non2) (P SpaceDot)),  -- 182: DEP_ASSERT_BINARY_OPERABLE(|, LLHS{}, RRHS{}, LHS{}, RHS{})
    .parsersEq (tOr (P Non2) (P SpaceDot)) (P (.noneOf [98, 99, 100])),  -- 182: DEP_ASSERT_PARSER_VALUES_EQ(LLHS{} | RRHS{}, none_of_parser<str>{}, LHS{} | RHS{}, none_of_parser<str>{})
    .isTerm (tOr (P Non3) (P Any1)),  -- 182: DEP_ASSERT_BINARY_OPERABLE(|, LLHS{}, RRHS{}, LHS{}, RHS{})
    .parsersEq (tOr (P Non3) (P Any1)) (P (.noneOf [120, 121, 122])),  -- 182: DEP_ASSERT_PARSER_VALUES_EQ(LLHS{} | RRHS{}, none_of_parser<str>{}, LHS{} | RHS{}, none_of_parser<str>{})
    .isTerm (tOr (P Non3) (P Any2)),  -- 182: DEP_ASSERT_BINARY_OPERABLE(|, LLHS{}, RRHS{}, LHS{}, RHS{})
    .parsersEq (tOr (P Non3) (P Any2)) (P (.noneOf [120, 121, 122])),  -- 182: DEP_ASSERT_PARSER_VALUES_EQ(LLHS{} | RRHS{}, none_of_parser<str>{}, LHS{} | RHS{}, none_of_parser<str>{})
    .isTerm (tOr (P Non3) (P Any3)),  -- 182: DEP_ASSERT_BINARY_OPERABLE(|, LLHS{}, RRHS{}, LHS{}, RHS{})
    .parsersEq (tOr (P Non3) (P Any3)) (P (.noneOf [])),  -- 182: DEP_ASSERT_PARSER_VALUES_EQ(LLHS{} | RRHS{}, none_of_parser<str>{}, LHS{} | RHS{}, none_of_parser<str>{})
    .isTerm (tOr (P Non3) (P Any4)),  -- 182: DEP_ASSERT_BINARY_OPERABLE(|, LLHS{}, RRHS{}, LHS{}, RHS{})
    .parsersEq (tOr (P Non3) (P Any4)) (P (.noneOf [120, 121, 122])),  -- 182: DEP_ASSERT_PARSER_VALUES_EQ(LLHS{} | RRHS{}, none_of_parser<str>{}, LHS{} | RHS{}, none_of_parser<str>{})
    .isTerm (tOr (P Non3) (P Non1)),  -- 182: DEP_ASSERT_BINARY_OPERABLE(|, LLHS{}, RRHS{}, LHS{}, RHS{})
    .parsersEq (tOr (P Non3) (P Non1)) (P (.noneOf [])),  -- 182: DEP_ASSERT_PARSER_VALUES_EQ(LLHS{} | RRHS{}, none_of_parser<str>{}, LHS{} | RHS{}, none_of_parser<str>{})
    .isTerm (tOr (P Non3) (P Non2)),  -- 182: DEP_ASSERT_BINARY_OPERABLE(|, LLHS{}, RRHS{}, LHS{}, RHS{})
    .parsersEq (tOr (P Non3) (P Non2)) (P (.noneOf []))  -- 182: DEP_ASSERT_PARSER_VALUES_EQ(LLHS{} | RRHS{}, none_of_parser<str>{}, LHS{} | RHS{}, none_of_parser<str>{})
    ], Assertion.Holds a :=
  Assertion.holds_of_check (by decide +kernel)

/-- choice operator / {anything} | {anything} (tests/char-tests/operators/choice.cpp:182) -/
theorem charOperatorsChoice_7_5 : ∀ a ∈ [
    .isTerm (tOr (P Non3) (P Non3)),  -- 182: DEP_ASSERT_BINARY_OPERABLE(|, LLHS{}, RRHS{}, LHS{}, RHS{})
    .parsersEq (tOr (P Non3) (P Non3)) (P Non3),  -- 182: DEP_ASSERT_PARSER_VALUES_EQ(LLHS{} | RRHS{}, LLHS{}, LHS{} | RHS{}, LHS{})
    .isTerm (tOr (P Non3) (P Non4)),  -- 182: DEP_ASSERT_BINARY_OPERABLE(|, LLHS{}, RRHS{}, LHS{}, RHS{})
    .parsersEq (tOr (P Non3) (P Non4)) (P (.noneOf [])),  -- 182: DEP_ASSERT_PARSER_VALUES_EQ(LLHS{} | RRHS{}, none_of_parser<str>{}, LHS{} | RHS{}, none_of_parser<str>{})
    .isTerm (tOr (P Non3) (P Non5)),  -- 182: DEP_ASSERT_BINARY_OPERABLE(|, LLHS{}, RRHS{}, LHS{}, RHS{})
    .parsersEq (tOr (P Non3) (P Non5)) (P (.noneOf [122])),  -- 182: DEP_ASSERT_PARSER_VALUES_EQ(LLHS{} | RRHS{}, none_of_parser<str>{}, LHS{} | RHS{}, none_of_parser<str>{})
    .isTerm (tOr (P Non3) (P All1)),  -- 182: DEP_ASSERT_BINARY_OPERABLE(|, LLHS{}, RRHS{}, LHS{}, RHS{})
    .parsersEq (tOr (P Non3) (P All1)) (P (.choice [Non3, All1])),  -- 182: DEP_ASSERT_PARSER_VALUES_EQ(LLHS{} | RRHS{},(choice_parser<LLHS, RRHS>{}), LHS{} | RHS{},(choice_parser<LHS, RHS>{}))
    .isTerm (tOr (P Non3) (P All2)),  -- 182: DEP_ASSERT_BINARY_OPERABLE(|, LLHS{}, RRHS{}, LHS{}, RHS{})
    .parsersEq (tOr (P Non3) (P All2)) (P (.choice [Non3, All2])),  -- 182: DEP_ASSERT_PARSER_VALUES_EQ(LLHS{} | RRHS{},(choice_parser<LLHS, RRHS>{}), LHS{} | RHS{},(choice_parser<LHS, RHS>{}))
    .isTerm (tOr (P Non3) (P All3)),  -- 182: DEP_ASSERT_BINARY_OPERABLE(|, LLHS{}, RRHS{}, LHS{}, RHS{})
    .parsersEq (tOr (P Non3) (P All3)) (P (.choice [Non3, All3])),  -- 182: DEP_ASSERT_PARSER_VALUES_EQ(LLHS{} | RRHS{},(choice_parser<LLHS, RRHS>{}), LHS{} | RHS{},(choice_parser<LHS, RHS>{}))
    .isTerm (tOr (P Non3) (P All4)),  -- 182: DEP_ASSERT_BINARY_OPERABLE(|, LLHS{}, RRHS{}, LHS{}, RHS{})
    .parsersEq (tOr (P Non3) (P All4)) (P (.choice [Non3, All4])),  -- 182: DEP_ASSERT_PARSER_VALUES_EQ(LLHS{} | RRHS{},(choice_parser<LLHS, RRHS>{}), LHS{} | RHS{},(choice_parser<LHS, RHS>{}))
    .isTerm (tOr (P Non3) (P Eps1)),  -- 182: DEP_ASSERT_BINARY_OPERABLE(|, LLHS{}, RRHS{}, LHS{}, RHS{})
    .parsersEq (tOr (P Non3) (P Eps1)) (P (.choice [Non3, Eps1])),  -- 182: DEP_ASSERT_PARSER_VALUES_EQ(LLHS{} | RRHS{},(choice_parser<LLHS, RRHS>{}), LHS{} | RHS{},(choice_parser<LHS, RHS>{}))
    .isTerm (tOr (P Non3) (P Ant1)),  -- 182: DEP_ASSERT_BINARY_OPERABLE(|, LLHS{}, RRHS{}, LHS{}, RHS{})
    .parsersEq (tOr (P Non3) (P Ant1)) (P (.choice [Non3, Ant1])),  -- 182: DEP_ASSERT_PARSER_VALUES_EQ(LLHS{} | RRHS{},(choice_parser<LLHS, RRHS>{}), LHS{} | RHS{},(choice_parser<LHS, RHS>{}))
    .isTerm (tOr (P Non3) (P QQ)),  -- 182: DEP_ASSERT_BINARY_OPERABLE(|, LLHS{}, RRHS{}, LHS{}, RHS{})
    .parsersEq (tOr (P Non3) (P QQ)) (P (.choice [Non3, QQ])),  -- 182: DEP_ASSERT_PARSER_VALUES_EQ(LLHS{} | RRHS{},(choice_parser<LLHS, RRHS>{}), LHS{} | RHS{},(choice_parser<LHS, RHS>{}))
    .isTerm (tOr (P Non3) (P ABC)),  -- 182: DEP_ASSERT_BINARY_OPERABLE(|, LLHS{}, RRHS{}, LHS{}, RHS{})
    .parsersEq (tOr (P Non3) (P ABC)) (P (.choice [Non3, ABC])),  -- 182: DEP_ASSERT_PARSER_VALUES_EQ(LLHS{} | RRHS{},(choice_parser<LLHS, RRHS>{}), LHS{} | RHS{},(choice_parser<LHS, RHS>{}))
    .isTerm (tOr (P Non3) (P Comma)),  -- 182: DEP_ASSERT_BINARY_OPERABLE(|, LLHS{}, RRHS{}, LHS{}, RHS{})
    .parsersEq (tOr (P Non3) (P Comma)) (P (.noneOf [120, 121, 122])),  -- 182: DEP_ASSERT_PARSER_VALUES_EQ(LLHS{} | RRHS{}, none_of_parser<str>{}, LHS{} | RHS{}, none_of_parser<str>{})
    .isTerm (tOr (P Non3) (P SpaceDot)),  -- 182: DEP_ASSERT_BINARY_OPERABLE(|, LLHS{}, RRHS{}, LHS{}, RHS{})
    .parsersEq (tOr (P Non3) (P SpaceDot)) (P (.noneOf [120, 121, 122])),  -- 182: DEP_ASSERT_PARSER_VALUES_EQ(LLHS{} | RRHS{}, none_of_parser<str>{}, LHS{} | RHS{}, none_of_parser<str>{})
    .isTerm (tOr (P Non4) (P Any1)),  -- 182: DEP_ASSERT_BINARY_OPERABLE(|, LLHS{}, RRHS{}, LHS{}, RHS{})
    .parsersEq (tOr (P Non4) (P Any1)) (P (.noneOf [100])),  -- 182: DEP_ASSERT_PARSER_VALUES_EQ(LLHS{} | RRHS{}, none_of_parser<str>{}, LHS{} | RHS{}, none_of_parser<str>{})
    .isTerm (tOr (P Non4) (P Any2)),  -- 182: DEP_ASSERT_BINARY_OPERABLE(|, LLHS{}, RRHS{}, LHS{}, RHS{})
    .parsersEq (tOr (P Non4) (P Any2)) (P (.noneOf [])),  -- 182: DEP_ASSERT_PARSER_VALUES_EQ(LLHS{} | RRHS{}, none_of_parser<str>{}, LHS{} | RHS{}, none_of_parser<str>{})
    .isTerm (tOr (P Non4) (P Any3)),  -- 182: DEP_ASSERT_BINARY_OPERABLE(|, LLHS{}, RRHS{}, LHS{}, RHS{})
    .parsersEq (tOr (P Non4) (P Any3)) (P (.noneOf [99, 100])),  -- 182: DEP_ASSERT_PARSER_VALUES_EQ(LLHS{} | RRHS{}, none_of_parser<str>{}, LHS{} | RHS{}, none_of_parser<str>{})
    .isTerm (tOr (P Non4) (P Any4)),  -- 182: DEP_ASSERT_BINARY_OPERABLE(|, LLHS{}, RRHS{}, LHS{}, RHS{})
    .parsersEq (tOr (P Non4) (P Any4)) (P (.noneOf [])),  -- 182: DEP_ASSERT_PARSER_VALUES_EQ(LLHS{} | RRHS{}, none_of_parser<str>{}, LHS{} | RHS{}, none_of_parser<str>{})
    .isTerm (tOr (P Non4) (P Non1)),  -- 182: DEP_ASSERT_BINARY_OPERABLE(|, LLHS{}, RRHS{}, LHS{}, RHS{})
    .parsersEq (tOr (P Non4) (P Non1)) (P (.noneOf [99])),  -- 182: DEP_ASSERT_PARSER_VALUES_EQ(LLHS{} | RRHS{}, none_of_parser<str>{}, LHS{} | RHS{}, none_of_parser<str>{})
    .isTerm (tOr (P Non4) (P Non2)),  -- 182: DEP_ASSERT_BINARY_OPERABLE(|, LLHS{}, RRHS{}, LHS{}, RHS{})
    .parsersEq (tOr (P Non4) (P Non2)) (P (.noneOf [99, 100])),  -- 182: DEP_ASSERT_PARSER_VALUES_EQ(LLHS{} | RRHS{}, none_of_parser<str>{}, LHS{} | RHS{}, none_of_parser<str>{})
    .isTerm (tOr (P Non4) (P Non3)),  -- 182: DEP_ASSERT_BINARY_OPERABLE(|, LLHS{}, RRHS{}, LHS{}, RHS{})
    .parsersEq (tOr (P Non4) (P Non3)) (P (.noneOf [])),  -- 182: DEP_ASSERT_PARSER_VALUES_EQ(LLHS{} | RRHS{}, none_of_parser<str>{}, LHS{} | RHS{}, none_of_parser<str>{})
    .isTerm (tOr (P Non4) (P Non4)),  -- 182: DEP_ASSERT_BINARY_OPERABLE(|, LLHS{}, RRHS{}, LHS{}, RHS{})
    .parsersEq (tOr (P Non4) (P Non4)) (P Non4),  -- 182: DEP_ASSERT_PARSER_VALUES_EQ(LLHS{} | RRHS{}, LLHS{}, LHS{} | RHS{}, LHS{})
    .isTerm (tOr (P Non4) (P Non5)),  -- 182: DEP_ASSERT_BINARY_OPERABLE(|, LLHS{}, RRHS{}, LHS{}, RHS{})
    .parsersEq (tOr (P Non4) (P Non5)) (P (.noneOf [])),  -- 182: DEP_ASSERT_PARSER_VALUES_EQ(LLHS{} | RRHS{}, none_of_parser<str>{}, LHS{} | RHS{}, none_of_parser<str>{})
    .isTerm (tOr (P Non4) (P All1)),  -- 182: DEP_ASSERT_BINARY_OPERABLE(|, LLHS{}, RRHS{}, LHS{}, RHS{})
    .parsersEq (tOr (P Non4) (P All1)) (P (.choice [Non4, All1])),  -- 182: DEP_ASSERT_PARSER_VALUES_EQ(LLHS{} | RRHS{},(choice_parser<LLHS, RRHS>{}), LHS{} | RHS{},(choice_parser<LHS, RHS>{}))
    .isTerm (tOr (P Non4) (P All2)),  -- 182: DEP_ASSERT_BINARY_OPERABLE(|, LLHS{}, RRHS{}, LHS{}, RHS{})
    .parsersEq (tOr (P Non4) (P All2)) (P (.choice [Non4, All2])),  -- 182: DEP_ASSERT_PARSER_VALUES_EQ(LLHS{} | RRHS{},(choice_parser<LLHS, RRHS>{}), LHS{} | RHS{},(choice_parser<LHS, RHS>{}))
    .isTerm (tOr (P Non4) (P All3)),  -- 182: DEP_ASSERT_BINARY_OPERABLE(|, LLHS{}, RRHS{}, LHS{}, RHS{})
    .parsersEq (tOr (P Non4) (P All3)) (P (.choice [Non4, All3])),  -- 182: DEP_ASSERT_PARSER_VALUES_EQ(LLHS{} | RRHS{},(choice_parser<LLHS, RRHS>{}), LHS{} | RHS{},(choice_parser<LHS, RHS>{}))
    .isTerm (tOr (P Non4) (P All4)),  -- 182: DEP_ASSERT_BINARY_OPERABLE(|, LLHS{}, RRHS{}, LHS{}, RHS{})
    .parsersEq (tOr (P Non4) (P All4)) (P (.choice [Non4, All4])),  -- 182: DEP_ASSERT_PARSER_VALUES_EQ(LLHS{} | RRHS{},(choice_parser<LLHS, RRHS>{}), LHS{} | RHS{},(choice_parser<LHS, RHS>{}))
    .isTerm (tOr (P Non4) (P Eps1)),  -- 182: DEP_ASSERT_BINARY_OPERABLE(|, LLHS{}, RRHS{}, LHS{}, RHS{})
    .parsersEq (tOr (P Non4) (P Eps1)) (P (.choice [Non4, Eps1])),  -- 182: DEP_ASSERT_PARSER_VALUES_EQ(LLHS{} | RRHS{},(choice_parser<LLHS, RRHS>{}), LHS{} | RHS{},(choice_parser<LHS, RHS>{}))
    .isTerm (tOr (P Non4) (P Ant1)),  -- 182: DEP_ASSERT_BINARY_OPERABLE(|, LLHS{}, RRHS{}, LHS{}, RHS{})
    .parsersEq (tOr (P Non4) (P Ant1)) (P (.choice [Non4, Ant1])),  -- 182: DEP_ASSERT_PARSER_VALUES_EQ(LLHS{} | RRHS{},(choice_parser<LLHS, RRHS>{}), LHS{} | RHS{},(choice_parser<LHS, RHS>{}))
    .isTerm (tOr (P Non4) (P QQ)),  -- 182: DEP_ASSERT_BINARY_OPERABLE(|, LLHS{}, RRHS{}, LHS{}, RHS{})
    .parsersEq (tOr (P Non4) (P QQ)) (P (.choice [Non4, QQ])),  -- 182: DEP_ASSERT_PARSER_VALUES_EQ(LLHS{} | RRHS{},(choice_parser<LLHS, RRHS>{}), LHS{} | RHS{},(choice_parser<LHS, RHS>{}))
    .isTerm (tOr (P Non4) (P ABC)),  -- 182: DEP_ASSERT_BINARY_OPERABLE(|, LLHS{}, RRHS{}, LHS{}, RHS{})
    .parsersEq (tOr (P Non4) (P ABC)) (P (.choice [Non4, ABC]))  -- 182: DEP_ASSERT_PARSER_VALUES_EQ(LLHS{} | RRHS{},(choice_parser<LLHS, RRHS>{}), LHS{} | RHS{},(choice_parser<LHS, RHS>{}))
    ], Assertion.Holds a :=
  Assertion.holds_of_check (by decide +kernel)

/-- choice operator / {anything} | {anything} (tests/char-tests/operators/choice.cpp:182) -/
theorem charOperatorsChoice_7_6 : ∀ a ∈ [
    .isTerm (tOr (P Non4) (P Comma)),  -- 182: DEP_ASSERT_BINARY_OPERABLE(|, LLHS{}, RRHS{}, LHS{}, RHS{})
    .parsersEq (tOr (P Non4) (P Comma)) (P (.noneOf [99, 100])),  -- 182: DEP_ASSERT_PARSER_VALUES_EQ(LLHS{} | RRHS{}, none_of_parser<str>{}, LHS{} | RHS{}, none_of_parser<str>{})
    .isTerm (tOr (P Non4) (P SpaceDot)),  -- 182: DEP_ASSERT_BINARY_OPERABLE(|, LLHS{}, RRHS{}, LHS{}, RHS{})
    .parsersEq (tOr (P Non4) (P SpaceDot)) (P (.noneOf [99, 100])),  -- 182: DEP_ASSERT_PARSER_VALUES_EQ(LLHS{} | RRHS{}, none_of_parser<str>{}, LHS{} | RHS{}, none_of_parser<str>{})
    .isTerm (tOr (P Non5) (P Any1)),  -- 182: DEP_ASSERT_BINARY_OPERABLE(|, LLHS{}, RRHS{}, LHS{}, RHS{})
    .parsersEq (tOr (P Non5) (P Any1)) (P (.noneOf [122])),  -- 182: DEP_ASSERT_PARSER_VALUES_EQ(LLHS{} | RRHS{}, none_of_parser<str>{}, LHS{} | RHS{}, none_of_parser<str>{})
    .isTerm (tOr (P Non5) (P Any2)),  -- 182: DEP_ASSERT_BINARY_OPERABLE(|, LLHS{}, RRHS{}, LHS{}, RHS{})
    .parsersEq (tOr (P Non5) (P Any2)) (P (.noneOf [122])),  -- 182: DEP_ASSERT_PARSER_VALUES_EQ(LLHS{} | RRHS{}, none_of_parser<str>{}, LHS{} | RHS{}, none_of_parser<str>{})
    .isTerm (tOr (P Non5) (P Any3)),  -- 182: DEP_ASSERT_BINARY_OPERABLE(|, LLHS{}, RRHS{}, LHS{}, RHS{})
    .parsersEq (tOr (P Non5) (P Any3)) (P (.noneOf [])),  -- 182: DEP_ASSERT_PARSER_VALUES_EQ(LLHS{} | RRHS{}, none_of_parser<str>{}, LHS{} | RHS{}, none_of_parser<str>{})
    .isTerm (tOr (P Non5) (P Any4)),  -- 182: DEP_ASSERT_BINARY_OPERABLE(|, LLHS{}, RRHS{}, LHS{}, RHS{})
    .parsersEq (tOr (P Non5) (P Any4)) (P (.noneOf [122])),  -- 182: DEP_ASSERT_PARSER_VALUES_EQ(LLHS{} | RRHS{}, none_of_parser<str>{}, LHS{} | RHS{}, none_of_parser<str>{})
    .isTerm (tOr (P Non5) (P Non1)),  -- 182: DEP_ASSERT_BINARY_OPERABLE(|, LLHS{}, RRHS{}, LHS{}, RHS{})
    .parsersEq (tOr (P Non5) (P Non1)) (P (.noneOf [])),  -- 182: DEP_ASSERT_PARSER_VALUES_EQ(LLHS{} | RRHS{}, none_of_parser<str>{}, LHS{} | RHS{}, none_of_parser<str>{})
    .isTerm (tOr (P Non5) (P Non2)),  -- 182: DEP_ASSERT_BINARY_OPERABLE(|, LLHS{}, RRHS{}, LHS{}, RHS{})
    .parsersEq (tOr (P Non5) (P Non2)) (P (.noneOf [])),  -- 182: DEP_ASSERT_PARSER_VALUES_EQ(LLHS{} | RRHS{}, none_of_parser<str>{}, LHS{} | RHS{}, none_of_parser<str>{})
    .isTerm (tOr (P Non5) (P Non3)),  -- 182: DEP_ASSERT_BINARY_OPERABLE(|, LLHS{}, RRHS{}, LHS{}, RHS{})
    .parsersEq (tOr (P Non5) (P Non3)) (P (.noneOf [122])),  -- 182: DEP_ASSERT_PARSER_VALUES_EQ(LLHS{} | RRHS{}, none_of_parser<str>{}, LHS{} | RHS{}, none_of_parser<str>{})
    .isTerm (tOr (P Non5) (P Non4)),  -- 182: DEP_ASSERT_BINARY_OPERABLE(|, LLHS{}, RRHS{}, LHS{}, RHS{})
    .parsersEq (tOr (P Non5) (P Non4)) (P (.noneOf [])),  -- 182: DEP_ASSERT_PARSER_VALUES_EQ(LLHS{} | RRHS{}, none_of_parser<str>{}, LHS{} | RHS{}, none_of_parser<str>{})
    .isTerm (tOr (P Non5) (P Non5)),  -- 182: DEP_ASSERT_BINARY_OPERABLE(|, LLHS{}, RRHS{}, LHS{}, RHS{})
    .parsersEq (tOr (P Non5) (P Non5)) (P Non5),  -- 182: DEP_ASSERT_PARSER_VALUES_EQ(LLHS{} | RRHS{}, LLHS{}, LHS{} | RHS{}, LHS{})
    .isTerm (tOr (P Non5) (P All1)),  -- 182: DEP_ASSERT_BINARY_OPERABLE(|, LLHS{}, RRHS{}, LHS{}, RHS{})
    .parsersEq (tOr (P Non5) (P All1)) (P (.choice [Non5, All1])),  -- 182: DEP_ASSERT_PARSER_VALUES_EQ(LLHS{} | RRHS{},(choice_parser<LLHS, RRHS>{}), LHS{} | RHS{},(choice_parser<LHS, RHS>{}))
    .isTerm (tOr (P Non5) (P All2)),  -- 182: DEP_ASSERT_BINARY_OPERABLE(|, LLHS{}, RRHS{}, LHS{}, RHS{})
    .parsersEq (tOr (P Non5) (P All2)) (P (.choice [Non5, All2])),  -- 182: DEP_ASSERT_PARSER_VALUES_EQ(LLHS{} | RRHS{},(choice_parser<LLHS, RRHS>{}), LHS{} | RHS{},(choice_parser<LHS, RHS>{}))
    .isTerm (tOr (P Non5) (P All3)),  -- 182: DEP_ASSERT_BINARY_OPERABLE(|, LLHS{}, RRHS{}, LHS{}, RHS{})
    .parsersEq (tOr (P Non5) (P All3)) (P (.choice [Non5, All3])),  -- 182: DEP_ASSERT_PARSER_VALUES_EQ(LLHS{} | RRHS{},(choice_parser<LLHS, RRHS>{}), LHS{} | RHS{},(choice_parser<LHS, RHS>{}))
    .isTerm (tOr (P Non5) (P All4)),  -- 182: DEP_ASSERT_BINARY_OPERABLE(|, LLHS{}, RRHS{}, LHS{}, RHS{})
    .parsersEq (tOr (P Non5) (P All4)) (P (.choice [Non5, All4])),  -- 182: DEP_ASSERT_PARSER_VALUES_EQ(LLHS{} | RRHS{},(choice_parser<LLHS, RRHS>{}), LHS{} | RHS{},(choice_parser<LHS, RHS>{}))
    .isTerm (tOr (P Non5) (P Eps1)),  -- 182: DEP_ASSERT_BINARY_OPERABLE(|, LLHS{}, RRHS{}, LHS{}, RHS{})
    .parsersEq (tOr (P Non5) (P Eps1)) (P (.choice [Non5, Eps1])),  -- 182: DEP_ASSERT_PARSER_VALUES_EQ(LLHS{} | RRHS{},(choice_parser<LLHS, RRHS>{}), LHS{} | RHS{},(choice_parser<LHS, RHS>{}))
    .isTerm (tOr (P Non5) (P Ant1)),  -- 182: DEP_ASSERT_BINARY_OPERABLE(|, LLHS{}, RRHS{}, LHS{}, RHS{})
    .parsersEq (tOr (P Non5) (P Ant1)) (P (.choice [Non5, Ant1])),  -- 182: DEP_ASSERT_PARSER_VALUES_EQ(LLHS{} | RRHS{},(choice_parser<LLHS, RRHS>{}), LHS{} | RHS{},(choice_parser<LHS, RHS>{}))
    .isTerm (tOr (P Non5) (P QQ)),  -- 182: DEP_ASSERT_BINARY_OPERABLE(|, LLHS{}, RRHS{}, LHS{}, RHS{})
    .parsersEq (tOr (P Non5) (P QQ)) (P (.choice [Non5, QQ])),  -- 182: DEP_ASSERT_PARSER_VALUES_EQ(LLHS{} | RRHS{},(choice_parser<LLHS, RRHS>{}), LHS{} | RHS{},(choice_parser<LHS, RHS>{}))
    .isTerm (tOr (P Non5) (P ABC)),  -- 182: DEP_ASSERT_BINARY_OPERABLE(|, LLHS{}, RRHS{}, LHS{}, RHS{})
    .parsersEq (tOr (P Non5) (P ABC)) (P (.choice [Non5, ABC])),  -- 182: DEP_ASSERT_PARSER_VALUES_EQ(LLHS{} | RRHS{},(choice_parser<LLHS, RRHS>{}), LHS{} | RHS{},(choice_parser<LHS, RHS>{}))
    .isTerm (tOr (P Non5) (P Comma)),  -- 182: DEP_ASSERT_BINARY_OPERABLE(|, LLHS{}, RRHS{}, LHS{}, RHS{})
    .parsersEq (tOr (P Non5) (P Comma)) (P (.noneOf [122])),  -- 182: DEP_ASSERT_PARSER_VALUES_EQ(LLHS{} | RRHS{}, none_of_parser<str>{}, LHS{} | RHS{}, none_of_parser<str>{})
    .isTerm (tOr (P Non5) (P SpaceDot)),  -- 182: DEP_ASSERT_BINARY_OPERABLE(|, LLHS{}, RRHS{}, LHS{}, RHS{})
    .parsersEq (tOr (P Non5) (P SpaceDot)) (P (.noneOf [122])),  -- 182: DEP_ASSERT_PARSER_VALUES_EQ(LLHS{} | RRHS{}, none_of_parser<str>{}, LHS{} | RHS{}, none_of_parser<str>{})
    .isTerm (tOr (P All1) (P Any1)),  -- 182: DEP_ASSERT_BINARY_OPERABLE(|, LLHS{}, RRHS{}, LHS{}, RHS{})
    .parsersEq (tOr (P All1) (P Any1)) (P (.choice [All1, Any1])),  -- 182: DEP_ASSERT_PARSER_VALUES_EQ(LLHS{} | RRHS{},(choice_parser<LLHS, RRHS>{}), LHS{} | RHS{},(choice_parser<LHS, RHS>{}))
    .isTerm (tOr (P All1) (P Any2)),  -- 182: DEP_ASSERT_BINARY_OPERABLE(|, LLHS{}, RRHS{}, LHS{}, RHS{})
    .parsersEq (tOr (P All1) (P Any2)) (P (.choice [All1, Any2])),  -- 182: DEP_ASSERT_PARSER_VALUES_EQ(LLHS{} | RRHS{},(choice_parser<LLHS, RRHS>{}), LHS{} | RHS{},(choice_parser<LHS, RHS>{}))
    .isTerm (tOr (P All1) (P Any3)),  -- 182: DEP_ASSERT_BINARY_OPERABLE(|, LLHS{}, RRHS{}, LHS{}, RHS{})
    .parsersEq (tOr (P All1) (P Any3)) (P (.choice [All1, Any3])),  -- 182: DEP_ASSERT_PARSER_VALUES_EQ(LLHS{} | RRHS{},(choice_parser<LLHS, RRHS>{}), LHS{} | RHS{},(choice_parser<LHS, RHS>{}))
    .isTerm (tOr (P All1) (P Any4)),  -- 182: DEP_ASSERT_BINARY_OPERABLE(|, LLHS{}, RRHS{}, LHS{}, RHS{})
    .parsersEq (tOr (P All1) (P Any4)) (P (.choice [All1, Any4])),  -- 182: DEP_ASSERT_PARSER_VALUES_EQ(LLHS{} | RRHS{},(choice_parser<LLHS, RRHS>{}), LHS{} | RHS{},(choice_parser<LHS, RHS>{}))
    .isTerm (tOr (P All1) (P Non1)),  -- 182: DEP_ASSERT_BINARY_OPERABLE(|, LLHS{}, RRHS{}, LHS{}, RHS{})
    .parsersEq (tOr (P All1) (P Non1)) (P (.choice [All1, Non1])),  -- 182: DEP_ASSERT_PARSER_VALUES_EQ(LLHS{} | RRHS{},(choice_parser<LLHS, RRHS>{}), LHS{} | RHS{},(choice_parser<LHS, RHS>{}))
    .isTerm (tOr (P All1) (P Non2)),  -- 182: DEP_ASSERT_BINARY_OPERABLE(|, LLHS{}, RRHS{}, LHS{}, RHS{})
    .parsersEq (tOr (P All1) (P Non2)) (P (.choice [All1, Non2])),  -- 182: DEP_ASSERT_PARSER_VALUES_EQ(LLHS{} | RRHS{},(choice_parser<LLHS, RRHS>{}), LHS{} | RHS{},(choice_parser<LHS, RHS>{}))
    .isTerm (tOr (P All1) (P Non3)),  -- 182: DEP_ASSERT_BINARY_OPERABLE(|, LLHS{}, RRHS{}, LHS{}, RHS{})
    .parsersEq (tOr (P All1) (P Non3)) (P (.choice [All1, Non3])),  -- 182: DEP_ASSERT_PARSER_VALUES_EQ(LLHS{} | RRHS{},(choice_parser<LLHS, RRHS>{}), LHS{} | RHS{},(choice_parser<LHS, RHS>{}))
    .isTerm (tOr (P All1) (P Non4)),  -- 182: DEP_ASSERT_BINARY_OPERABLE(|, LLHS{}, RRHS{}, LHS{}, RHS{})
    .parsersEq (tOr (P All1) (P Non4)) (P (.choice [All1, Non4])),  -- 182: DEP_ASSERT_PARSER_VALUES_EQ(LLHS{} | RRHS{},(choice_parser<LLHS, RRHS>{}), LHS{} | RHS{},(choice_parser<LHS, RHS>{}))
    .isTerm (tOr (P All1) (P Non5)),  -- 182: DEP_ASSERT_BINARY_OPERABLE(|, LLHS{}, RRHS{}, LHS{}, RHS{})
    .parsersEq (tOr (P All1) (P Non5)) (P (.choice [All1, Non5]))  -- 182: DEP_ASSERT_PARSER_VALUES_EQ(LLHS{} | RRHS{},(choice_parser<LLHS, RRHS>{}), LHS{} | RHS{},(choice_parser<LHS, RHS>{}))
    ], Assertion.Holds a :=
  Assertion.holds_of_check (by decide +kernel)

/-- choice operator / {anything} | {anything} (tests/char-tests/operators/choice.cpp:182) -/
theorem charOperatorsChoice_7_7 : ∀ a ∈ [
    .isTerm (tOr (P All1) (P All1)),  -- 182: DEP_ASSERT_BINARY_OPERABLE(|, LLHS{}, RRHS{}, LHS{}, RHS{})
    .parsersEq (tOr (P All1) (P All1)) (P All1),  -- 182: DEP_ASSERT_PARSER_VALUES_EQ(LLHS{} | RRHS{}, LLHS{}, LHS{} | RHS{}, LHS{})
    .isTerm (tOr (P All1) (P All2)),  -- 182: DEP_ASSERT_BINARY_OPERABLE(|, LLHS{}, RRHS{}, LHS{}, RHS{})
    .parsersEq (tOr (P All1) (P All2)) (P (.choice [All1, All2])),  -- 182: DEP_ASSERT_PARSER_VALUES_EQ(LLHS{} | RRHS{},(choice_parser<LLHS, RRHS>{}), LHS{} | RHS{},(choice_parser<LHS, RHS>{}))
    .isTerm (tOr (P All1) (P All3)),  -- 182: DEP_ASSERT_BINARY_OPERABLE(|, LLHS{}, RRHS{}, LHS{}, RHS{})
    .parsersEq (tOr (P All1) (P All3)) (P (.choice [All1, All3])),  -- 182: DEP_ASSERT_PARSER_VALUES_EQ(LLHS{} | RRHS{},(choice_parser<LLHS, RRHS>{}), LHS{} | RHS{},(choice_parser<LHS, RHS>{}))
    .isTerm (tOr (P All1) (P All4)),  -- 182: DEP_ASSERT_BINARY_OPERABLE(|, LLHS{}, RRHS{}, LHS{}, RHS{})
    .parsersEq (tOr (P All1) (P All4)) (P (.choice [All1, All4])),  -- 182: DEP_ASSERT_PARSER_VALUES_EQ(LLHS{} | RRHS{},(choice_parser<LLHS, RRHS>{}), LHS{} | RHS{},(choice_parser<LHS, RHS>{}))
    .isTerm (tOr (P All1) (P Eps1)),  -- 182: DEP_ASSERT_BINARY_OPERABLE(|, LLHS{}, RRHS{}, LHS{}, RHS{})
    .parsersEq (tOr (P All1) (P Eps1)) (P (.choice [All1, Eps1])),  -- 182: DEP_ASSERT_PARSER_VALUES_EQ(LLHS{} | RRHS{},(choice_parser<LLHS, RRHS>{}), LHS{} | RHS{},(choice_parser<LHS, RHS>{}))
    .isTerm (tOr (P All1) (P Ant1)),  -- 182: DEP_ASSERT_BINARY_OPERABLE(|, LLHS{}, RRHS{}, LHS{}, RHS{})
    .parsersEq (tOr (P All1) (P Ant1)) (P (.choice [All1, Ant1])),  -- 182: DEP_ASSERT_PARSER_VALUES_EQ(LLHS{} | RRHS{},(choice_parser<LLHS, RRHS>{}), LHS{} | RHS{},(choice_parser<LHS, RHS>{}))
    .isTerm (tOr (P All1) (P QQ)),  -- 182: DEP_ASSERT_BINARY_OPERABLE(|, LLHS{}, RRHS{}, LHS{}, RHS{})
    .parsersEq (tOr (P All1) (P QQ)) (P (.choice [All1, QQ])),  -- 182: DEP_ASSERT_PARSER_VALUES_EQ(LLHS{} | RRHS{},(choice_parser<LLHS, RRHS>{}), LHS{} | RHS{},(choice_parser<LHS, RHS>{}))
    .isTerm (tOr (P All1) (P ABC)),  -- 182: DEP_ASSERT_BINARY_OPERABLE(|, LLHS{}, RRHS{}, LHS{}, RHS{})
    .parsersEq (tOr (P All1) (P ABC)) (P (.choice [All1, ABC])),  -- 182: DEP_ASSERT_PARSER_VALUES_EQ(LLHS{} | RRHS{},(choice_parser<LLHS, RRHS>{}), LHS{} | RHS{},(choice_parser<LHS, RHS>{}))
    .isTerm (tOr (P All1) (P Comma)),  -- 182: DEP_ASSERT_BINARY_OPERABLE(|, LLHS{}, RRHS{}, LHS{}, RHS{})
    .parsersEq (tOr (P All1) (P Comma)) (P (.choice [All1, Comma])),  -- 182: DEP_ASSERT_PARSER_VALUES_EQ(LLHS{} | RRHS{},(choice_parser<LLHS, RRHS>{}), LHS{} | RHS{},(choice_parser<LHS, RHS>{}))
    .isTerm (tOr (P All1) (P SpaceDot)),  -- 182: DEP_ASSERT_BINARY_OPERABLE(|, LLHS{}, RRHS{}, LHS{}, RHS{})
    .parsersEq (tOr (P All1) (P SpaceDot)) (P (.choice [All1, SpaceDot])),  -- 182: DEP_ASSERT_PARSER_VALUES_EQ(LLHS{} | RRHS{},(choice_parser<LLHS, RRHS>{}), LHS{} | RHS{},(choice_parser<LHS, RHS>{}))
    .isTerm (tOr (P All2) (P Any1)),  -- 182: DEP_ASSERT_BINARY_OPERABLE(|, LLHS{}, RRHS{}, LHS{}, RHS{})
    .parsersEq (tOr (P All2) (P Any1)) (P (.choice [All2, Any1])),  -- 182: DEP_ASSERT_PARSER_VALUES_EQ(LLHS{} | RRHS{},(choice_parser<LLHS, RRHS>{}), LHS{} | RHS{},(choice_parser<LHS, RHS>{}))
    .isTerm (tOr (P All2) (P Any2)),  -- 182: DEP_ASSERT_BINARY_OPERABLE(|, LLHS{}, RRHS{}, LHS{}, RHS{})
    .parsersEq (tOr (P All2) (P Any2)) (P (.choice [All2, Any2])),  -- 182: DEP_ASSERT_PARSER_VALUES_EQ(LLHS{} | RRHS{},(choice_parser<LLHS, RRHS>{}), LHS{} | RHS{},(choice_parser<LHS, RHS>{}))
    .isTerm (tOr (P All2) (P Any3)),  -- 182: DEP_ASSERT_BINARY_OPERABLE(|, LLHS{}, RRHS{}, LHS{}, RHS{})
    .parsersEq (tOr (P All2) (P Any3)) (P (.choice [All2, Any3])),  -- 182: DEP_ASSERT_PARSER_VALUES_EQ(LLHS{} | RRHS{},(choice_parser<LLHS, RRHS>{}), LHS{} | RHS{},(choice_parser<LHS, RHS>{}))
    .isTerm (tOr (P All2) (P Any4)),  -- 182: DEP_ASSERT_BINARY_OPERABLE(|, LLHS{}, RRHS{}, LHS{}, RHS{})
    .parsersEq (tOr (P All2) (P Any4)) (P (.choice [All2, Any4])),  -- 182: DEP_ASSERT_PARSER_VALUES_EQ(LLHS{} | RRHS{},(choice_parser<LLHS, RRHS>{}), LHS{} | RHS{},(choice_parser<LHS, RHS>{}))
    .isTerm (tOr (P All2) (P Non1)),  -- 182: DEP_ASSERT_BINARY_OPERABLE(|, LLHS{}, RRHS{}, LHS{}, RHS{})
    .parsersEq (tOr (P All2) (P Non1)) (P (.choice [All2, Non1])),  -- 182: DEP_ASSERT_PARSER_VALUES_EQ(LLHS{} | RRHS{},(choice_parser<LLHS, RRHS>{}), LHS{} | RHS{},(choice_parser<LHS, RHS>{}))
    .isTerm (tOr (P All2) (P Non2)),  -- 182: DEP_ASSERT_BINARY_OPERABLE(|, LLHS{}, RRHS{}, LHS{}, RHS{})
    .parsersEq (tOr (P All2) (P Non2)) (P (.choice [All2, Non2])),  -- 182: DEP_ASSERT_PARSER_VALUES_EQ(LLHS{} | RRHS{},(choice_parser<LLHS, RRHS>{}), LHS{} | RHS{},(choice_parser<LHS, RHS>{}))
    .isTerm (tOr (P All2) (P Non3)),  -- 182: DEP_ASSERT_BINARY_OPERABLE(|, LLHS{}, RRHS{}, LHS{}, RHS{})
    .parsersEq (tOr (P All2) (P Non3)) (P (.choice [All2, Non3])),  -- 182: DEP_ASSERT_PARSER_VALUES_EQ(LLHS{} | RRHS{},(choice_parser<LLHS, RRHS>{}), LHS{} | RHS{},(choice_parser<LHS, RHS>{}))
    .isTerm (tOr (P All2) (P Non4)),  -- 182: DEP_ASSERT_BINARY_OPERABLE(|, LLHS{}, RRHS{}, LHS{}, RHS{})
    .parsersEq (tOr (P All2) (P Non4)) (P (.choice [All2, Non4])),  -- 182: DEP_ASSERT_PARSER_VALUES_EQ(LLHS{} | RRHS{},(choice_parser<LLHS, RRHS>{}), LHS{} | RHS{},(choice_parser<LHS, RHS>{}))
    .isTerm (tOr (P All2) (P Non5)),  -- 182: DEP_ASSERT_BINARY_OPERABLE(|, LLHS{}, RRHS{}, LHS{}, RHS{})
    .parsersEq (tOr (P All2) (P Non5)) (P (.choice [All2, Non5])),  -- 182: DEP_ASSERT_PARSER_VALUES_EQ(LLHS{} | RRHS{},(choice_parser<LLHS, RRHS>{}), LHS{} | RHS{},(choice_parser<LHS, RHS>{}))
    .isTerm (tOr (P All2) (P All1)),  -- 182: DEP_ASSERT_BINARY_OPERABLE(|, LLHS{}, RRHS{}, LHS{}, RHS{})
    .parsersEq (tOr (P All2) (P All1)) (P (.choice [All2, All1])),  -- 182: DEP_ASSERT_PARSER_VALUES_EQ(LLHS{} | RRHS{},(choice_parser<LLHS, RRHS>{}), LHS{} | RHS{},(choice_parser<LHS, RHS>{}))
    .isTerm (tOr (P All2) (P All2)),  -- 182: DEP_ASSERT_BINARY_OPERABLE(|, LLHS{}, RRHS{}, LHS{}, RHS{})
    .parsersEq (tOr (P All2) (P All2)) (P All2),  -- 182: DEP_ASSERT_PARSER_VALUES_EQ(LLHS{} | RRHS{}, LLHS{}, LHS{} | RHS{}, LHS{})
    .isTerm (tOr (P All2) (P All3)),  -- 182: DEP_ASSERT_BINARY_OPERABLE(|, LLHS{}, RRHS{}, LHS{}, RHS{})
    .parsersEq (tOr (P All2) (P All3)) (P (.choice [All2, All3])),  -- 182: DEP_ASSERT_PARSER_VALUES_EQ(LLHS{} | RRHS{},(choice_parser<LLHS, RRHS>{}), LHS{} | RHS{},(choice_parser<LHS, RHS>{}))
    .isTerm (tOr (P All2) (P All4)),  -- 182: DEP_ASSERT_BINARY_OPERABLE(|, LLHS{}, RRHS{}, LHS{}, RHS{})
    .parsersEq (tOr (P All2) (P All4)) (P (.choice [All2, All4])),  -- 182: DEP_ASSERT_PARSER_VALUES_EQ(LLHS{} | RRHS{},(choice_parser<LLHS, RRHS>{}), LHS{} | RHS{},(choice_parser<LHS, RHS>{}))
    .isTerm (tOr (P All2) (P Eps1)),  -- 182: DEP_ASSERT_BINARY_OPERABLE(|, LLHS{}, RRHS{}, LHS{}, RHS{})
    .parsersEq (tOr (P All2) (P Eps1)) (P (.choice [All2, Eps1])),  -- 182: DEP_ASSERT_PARSER_VALUES_EQ(LLHS{} | RRHS{},(choice_parser<LLHS, RRHS>{}), LHS{} | RHS{},(choice_parser<LHS, RHS>{}))
    .isTerm (tOr (P All2) (P Ant1)),  -- 182: DEP_ASSERT_BINARY_OPERABLE(|, LLHS{}, RRHS{}, LHS{}, RHS{})
    .parsersEq (tOr (P All2) (P Ant1)) (P (.choice [All2, Ant1])),  -- 182: DEP_ASSERT_PARSER_VALUES_EQ(LLHS{} | RRHS{},(choice_parser<LLHS, RRHS>{}), LHS{} | RHS{},(choice_parser<LHS, RHS>{}))
    .isTerm (tOr (P All2) (P QQ)),  -- 182: DEP_ASSERT_BINARY_OPERABLE(|, LLHS{}, RRHS{}, LHS{}, RHS{})
    .parsersEq (tOr (P All2) (P QQ)) (P (.choice [All2, QQ])),  -- 182: DEP_ASSERT_PARSER_VALUES_EQ(LLHS{} | RRHS{},(choice_parser<LLHS, RRHS>{}), LHS{} | RHS{},(choice_parser<LHS, RHS>{}))
    .isTerm (tOr (P All2) (P ABC)),  -- 182: DEP_ASSERT_BINARY_OPERABLE(|, LLHS{}, RRHS{}, LHS{}, RHS{})
    .parsersEq (tOr (P All2) (P ABC)) (P (.choice [All2, ABC])),  -- 182: DEP_ASSERT_PARSER_VALUES_EQ(LLHS{} | RRHS{},(choice_parser<LLHS, RRHS>{}), LHS{} | RHS{},(choice_parser<LHS, RHS>{}))
    .isTerm (tOr (P All2) (P Comma)),  -- 182: DEP_ASSERT_BINARY_OPERABLE(|, LLHS{}, RRHS{}, LHS{}, RHS{})
    .parsersEq (tOr (P All2) (P Comma)) (P (.choice [All2, Comma])),  -- 182: DEP_ASSERT_PARSER_VALUES_EQ(LLHS{} | RRHS{},(choice_parser<LLHS, RRHS>{}), LHS{} | RHS{},(choice_parser<LHS, RHS>{}))
    .isTerm (tOr (P All2) (P SpaceDot)),  -- 182: DEP_ASSERT_BINARY_OPERABLE(|, LLHS{}, RRHS{}, LHS{}, RHS{})
    .parsersEq (tOr (P All2) (P SpaceDot)) (P (.choice [All2, SpaceDot])),  -- 182: DEP_ASSERT_PARSER_VALUES_EQ(LLHS{} | RRHS{},(choice_parser<LLHS, RRHS>{}), LHS{} | RHS{},(choice_parser<LHS, RHS>{}))
    .isTerm (tOr (P All3) (P Any1)),  -- 182: DEP_ASSERT_BINARY_OPERABLE(|, LLHS{}, RRHS{}, LHS{}, RHS{})
    .parsersEq (tOr (P All3) (P Any1)) (P (.choice [All3, Any1]))  -- 182: DEP_ASSERT_PARSER_VALUES_EQ(LLHS{} | RRHS{},(choice_parser<LLHS, RRHS>{}), LHS{} | RHS{},(choice_parser<LHS, RHS>{}))
    ], Assertion.Holds a :=
  Assertion.holds_of_check (by decide +kernel)

/-- choice operator / {anything} | {anything} (tests/char-tests/operators/choice.cpp:182) -/
theorem charOperatorsChoice_7_8 : ∀ a ∈ [
    .isTerm (tOr (P All3) (P Any2)),  -- 182: DEP_ASSERT_BINARY_OPERABLE(|, LLHS{}, RRHS{}, LHS{}, RHS{})
    .parsersEq (tOr (P All3) (P Any2)) (P (.choice [All3, Any2])),  -- 182: DEP_ASSERT_PARSER_VALUES_EQ(LLHS{} | RRHS{},(choice_parser<LLHS, RRHS>{}), LHS{} | RHS{},(choice_parser<LHS, RHS>{}))
    .isTerm (tOr (P All3) (P Any3)),  -- 182: DEP_ASSERT_BINARY_OPERABLE(|, LLHS{}, RRHS{}, LHS{}, RHS{})
    .parsersEq (tOr (P All3) (P Any3)) (P (.choice [All3, Any3])),  -- 182: DEP_ASSERT_PARSER_VALUES_EQ(LLHS{} | RRHS{},(choice_parser<LLHS, RRHS>{}), LHS{} | RHS{},(choice_parser<LHS, RHS>{}))
    .isTerm (tOr (P All3) (P Any4)),  -- 182: DEP_ASSERT_BINARY_OPERABLE(|, LLHS{}, RRHS{}, LHS{}, RHS{})
    .parsersEq (tOr (P All3) (P Any4)) (P (.choice [All3, Any4])),  -- 182: DEP_ASSERT_PARSER_VALUES_EQ(LLHS{} | RRHS{},(choice_parser<LLHS, RRHS>{}), LHS{} | RHS{},(choice_parser<LHS, RHS>{}))
    .isTerm (tOr (P All3) (P Non1)),  -- 182: DEP_ASSERT_BINARY_OPERABLE(|, LLHS{}, RRHS{}, LHS{}, RHS{})
    .parsersEq (tOr (P All3) (P Non1)) (P (.choice [All3, Non1])),  -- 182: DEP_ASSERT_PARSER_VALUES_EQ(LLHS{} | RRHS{},(choice_parser<LLHS, RRHS>{}), LHS{} | RHS{},(choice_parser<LHS, RHS>{}))
    .isTerm (tOr (P All3) (P Non2)),  -- 182: DEP_ASSERT_BINARY_OPERABLE(|, LLHS{}, RRHS{}, LHS{}, RHS{})
    .parsersEq (tOr (P All3) (P Non2)) (P (.choice [All3, Non2])),  -- 182: DEP_ASSERT_PARSER_VALUES_EQ(LLHS{} | RRHS{},(choice_parser<LLHS, RRHS>{}), LHS{} | RHS{},(choice_parser<LHS, RHS>{}))
    .isTerm (tOr (P All3) (P Non3)),  -- 182: DEP_ASSERT_BINARY_OPERABLE(|, LLHS{}, RRHS{}, LHS{}, RHS{})
    .parsersEq (tOr (P All3) (P Non3)) (P (.choice [All3, Non3])),  -- 182: DEP_ASSERT_PARSER_VALUES_EQ(LLHS{} | RRHS{},(choice_parser<LLHS, RRHS>{}), LHS{} | RHS{},(choice_parser<LHS, RHS>{}))
    .isTerm (tOr (P All3) (P Non4)),  -- 182: DEP_ASSERT_BINARY_OPERABLE(|, LLHS{}, RRHS{}, LHS{}, RHS{})
    .parsersEq (tOr (P All3) (P Non4)) (P (.choice [All3, Non4])),  -- 182: DEP_ASSERT_PARSER_VALUES_EQ(LLHS{} | RRHS{},(choice_parser<LLHS, RRHS>{}), LHS{} | RHS{},(choice_parser<LHS, RHS>{}))
    .isTerm (tOr (P All3) (P Non5)),  -- 182: DEP_ASSERT_BINARY_OPERABLE(|, LLHS{}, RRHS{}, LHS{}, RHS{})
    .parsersEq (tOr (P All3) (P Non5)) (P (.choice [All3, Non5])),  -- 182: DEP_ASSERT_PARSER_VALUES_EQ(LLHS{} | RRHS{},(choice_parser<LLHS, RRHS>{}), LHS{} | RHS{},(choice_parser<LHS, RHS>{}))
    .isTerm (tOr (P All3) (P All1)),  -- 182: DEP_ASSERT_BINARY_OPERABLE(|, LLHS{}, RRHS{}, LHS{}, RHS{})
    .parsersEq (tOr (P All3) (P All1)) (P (.choice [All3, All1])),  -- 182: DEP_ASSERT_PARSER_VALUES_EQ(LLHS{} | RRHS{},(choice_parser<LLHS, RRHS>{}), LHS{} | RHS{},(choice_parser<LHS, RHS>{}))
    .isTerm (tOr (P All3) (P All2)),  -- 182: DEP_ASSERT_BINARY_OPERABLE(|, LLHS{}, RRHS{}, LHS{}, RHS{})
    .parsersEq (tOr (P All3) (P All2)) (P (.choice [All3, All2])),  -- 182: DEP_ASSERT_PARSER_VALUES_EQ(LLHS{} | RRHS{},(choice_parser<LLHS, RRHS>{}), LHS{} | RHS{},(choice_parser<LHS, RHS>{}))
    .isTerm (tOr (P All3) (P All3)),  -- 182: DEP_ASSERT_BINARY_OPERABLE(|, LLHS{}, RRHS{}, LHS{}, RHS{})
    .parsersEq (tOr (P All3) (P All3)) (P All3),  -- 182: DEP_ASSERT_PARSER_VALUES_EQ(LLHS{} | RRHS{}, LLHS{}, LHS{} | RHS{}, LHS{})
    .isTerm (tOr (P All3) (P All4)),  -- 182: DEP_ASSERT_BINARY_OPERABLE(|, LLHS{}, RRHS{}, LHS{}, RHS{})
    .parsersEq (tOr (P All3) (P All4)) (P (.choice [All3, All4])),  -- 182: DEP_ASSERT_PARSER_VALUES_EQ(LLHS{} | RRHS{},(choice_parser<LLHS, RRHS>{}), LHS{} | RHS{},(choice_parser<LHS, RHS>{}))
    .isTerm (tOr (P All3) (P Eps1)),  -- 182: DEP_ASSERT_BINARY_OPERABLE(|, LLHS{}, RRHS{}, LHS{}, RHS{})
    .parsersEq (tOr (P All3) (P Eps1)) (P (.choice [All3, Eps1])),  -- 182: DEP_ASSERT_PARSER_VALUES_EQ(LLHS{} | RRHS{},(choice_parser<LLHS, RRHS>{}), LHS{} | RHS{},(choice_parser<LHS, RHS>{}))
    .isTerm (tOr (P All3) (P Ant1)),  -- 182: DEP_ASSERT_BINARY_OPERABLE(|, LLHS{}, RRHS{}, LHS{}, RHS{})
    .parsersEq (tOr (P All3) (P Ant1)) (P (.choice [All3, Ant1])),  -- 182: DEP_ASSERT_PARSER_VALUES_EQ(LLHS{} | RRHS{},(choice_parser<LLHS, RRHS>{}), LHS{} | RHS{},(choice_parser<LHS, RHS>{}))
    .isTerm (tOr (P All3) (P QQ)),  -- 182: DEP_ASSERT_BINARY_OPERABLE(|, LLHS{}, RRHS{}, LHS{}, RHS{})
    .parsersEq (tOr (P All3) (P QQ)) (P (.choice [All3, QQ])),  -- 182: DEP_ASSERT_PARSER_VALUES_EQ(LLHS{} | RRHS{},(choice_parser<LLHS, RRHS>{}), LHS{} | RHS{},(choice_parser<LHS, RHS>{}))
    .isTerm (tOr (P All3) (P ABC)),  -- 182: DEP_ASSERT_BINARY_OPERABLE(|, LLHS{}, RRHS{}, LHS{}, RHS{})
    .parsersEq (tOr (P All3) (P ABC)) (P (.choice [All3, ABC])),  -- 182: DEP_ASSERT_PARSER_VALUES_EQ(LLHS{} | RRHS{},(choice_parser<LLHS, RRHS>{}), LHS{} | RHS{},(choice_parser<LHS, RHS>{}))
    .isTerm (tOr (P All3) (P Comma)),  -- 182: DEP_ASSERT_BINARY_OPERABLE(|, LLHS{}, RRHS{}, LHS{}, RHS{})
    .parsersEq (tOr (P All3) (P Comma)) (P (.choice [All3, Comma])),  -- 182: DEP_ASSERT_PARSER_VALUES_EQ(LLHS{} | RRHS{},(choice_parser<LLHS, RRHS>{}), LHS{} | RHS{},(choice_parser<LHS, RHS>{}))
    .isTerm (tOr (P All3) (P SpaceDot)),  -- 182: DEP_ASSERT_BINARY_OPERABLE(|, LLHS{}, RRHS{}, LHS{}, RHS{})
    .parsersEq (tOr (P All3) (P SpaceDot)) (P (.choice [All3, SpaceDot])),  -- 182: DEP_ASSERT_PARSER_VALUES_EQ(LLHS{} | RRHS{},(choice_parser<LLHS, RRHS>{}), LHS{} | RHS{},(choice_parser<LHS, RHS>{}))
    .isTerm (tOr (P All4) (P Any1)),  -- 182: DEP_ASSERT_BINARY_OPERABLE(|, LLHS{}, RRHS{}, LHS{}, RHS{})
    .parsersEq (tOr (P All4) (P Any1)) (P (.choice [All4, Any1])),  -- 182: DEP_ASSERT_PARSER_VALUES_EQ(LLHS{} | RRHS{},(choice_parser<LLHS, RRHS>{}), LHS{} | RHS{},(choice_parser<LHS, RHS>{}))
    .isTerm (tOr (P All4) (P Any2)),  -- 182: DEP_ASSERT_BINARY_OPERABLE(|, LLHS{}, RRHS{}, LHS{}, RHS{})
    .parsersEq (tOr (P All4) (P Any2)) (P (.choice [All4, Any2])),  -- 182: DEP_ASSERT_PARSER_VALUES_EQ(LLHS{} | RRHS{},(choice_parser<LLHS, RRHS>{}), LHS{} | RHS{},(choice_parser<LHS, RHS>{}))
    .isTerm (tOr (P All4) (P Any3)),  -- 182: DEP_ASSERT_BINARY_OPERABLE(|, LLHS{}, RRHS{}, LHS{}, RHS{})
    .parsersEq (tOr (P All4) (P Any3)) (P (.choice [All4, Any3])),  -- 182: DEP_ASSERT_PARSER_VALUES_EQ(LLHS{} | RRHS{},(choice_parser<LLHS, RRHS>{}), LHS{} | RHS{},(choice_parser<LHS, RHS>{}))
    .isTerm (tOr (P All4) (P Any4)),  -- 182: DEP_ASSERT_BINARY_OPERABLE(|, LLHS{}, RRHS{}, LHS{}, RHS{})
    .parsersEq (tOr (P All4) (P Any4)) (P (.choice [All4, Any4])),  -- 182: DEP_ASSERT_PARSER_VALUES_EQ(LLHS{} | RRHS{},(choice_parser<LLHS, RRHS>{}), LHS{} | RHS{},(choice_parser<LHS, RHS>{}))
    .isTerm (tOr (P All4) (P Non1)),  -- 182: DEP_ASSERT_BINARY_OPERABLE(|, LLHS{}, RRHS{}, LHS{}, RHS{})
    .parsersEq (tOr (P All4) (P Non1)) (P (.choice [All4, Non1])),  -- 182: DEP_ASSERT_PARSER_VALUES_EQ(LLHS{} | RRHS{},(choice_parser<LLHS, RRHS>{}), LHS{} | RHS{},(choice_parser<LHS, RHS>{}))
    .isTerm (tOr (P All4) (P Non2)),  -- 182: DEP_ASSERT_BINARY_OPERABLE(|, LLHS{}, RRHS{}, LHS{}, RHS{})
    .parsersEq (tOr (P All4) (P Non2)) (P (.choice [All4, Non2])),  -- 182: DEP_ASSERT_PARSER_VALUES_EQ(LLHS{} | RRHS{},(choice_parser<LLHS, RRHS>{}), LHS{} | RHS{},(choice_parser<LHS, RHS>{}))
    .isTerm (tOr (P All4) (P Non3)),  -- 182: DEP_ASSERT_BINARY_OPERABLE(|, LLHS{}, RRHS{}, LHS{}, RHS{})
    .parsersEq (tOr (P All4) (P Non3)) (P (.choice [All4, Non3])),  -- 182: DEP_ASSERT_PARSER_VALUES_EQ(LLHS{} | RRHS{},(choice_parser<LLHS, RRHS>{}), LHS{} | RHS{},(choice_parser<LHS, RHS>{}))
    .isTerm (tOr (P All4) (P Non4)),  -- 182: DEP_ASSERT_BINARY_OPERABLE(|, LLHS{}, RRHS{}, LHS{}, RHS{})
    .parsersEq (tOr (P All4) (P Non4)) (P (.choice [All4, Non4])),  -- 182: DEP_ASSERT_PARSER_VALUES_EQ(LLHS{} | RRHS{},(choice_parser<LLHS, RRHS>{}), LHS{} | RHS{},(choice_parser<LHS, RHS>{}))
    .isTerm (tOr (P All4) (P Non5)),  -- 182: DEP_ASSERT_BINARY_OPERABLE(|, LLHS{}, RRHS{}, LHS{}, RHS{})
    .parsersEq (tOr (P All4) (P Non5)) (P (.choice [All4, Non5])),  -- 182: DEP_ASSERT_PARSER_VALUES_EQ(LLHS{} | RRHS{},(choice_parser<LLHS, RRHS>{}), LHS{} | RHS{},(choice_parser<LHS, RHS>{}))
    .isTerm (tOr (P All4) (P All1)),  -- 182: DEP_ASSERT_BINARY_OPERABLE(|, LLHS{}, RRHS{}, LHS{}, RHS{})
    .parsersEq (tOr (P All4) (P All1)) (P (.choice [All4, All1])),  -- 182: DEP_ASSERT_PARSER_VALUES_EQ(LLHS{} | RRHS{},(choice_parser<LLHS, RRHS>{}), LHS{} | RHS{},(choice_parser<LHS, RHS>{}))
    .isTerm (tOr (P All4) (P All2)),  -- 182: DEP_ASSERT_BINARY_OPERABLE(|, LLHS{}, RRHS{}, LHS{}, RHS{})
    .parsersEq (tOr (P All4) (P All2)) (P (.choice [All4, All2])),  -- 182: DEP_ASSERT_PARSER_VALUES_EQ(LLHS{} | RRHS{},(choice_parser<LLHS, RRHS>{}), LHS{} | RHS{},(choice_parser<LHS, RHS>{}))
    .isTerm (tOr (P All4) (P All3)),  -- 182: DEP_ASSERT_BINARY_OPERABLE(|, LLHS{}, RRHS{}, LHS{}, RHS{})
    .parsersEq (tOr (P All4) (P All3)) (P (.choice [All4, All3]))  -- 182: DEP_ASSERT_PARSER_VALUES_EQ(LLHS{} | RRHS{},(choice_parser<LLHS, RRHS>{}), LHS{} | RHS{},(choice_parser<LHS, RHS>{}))
    ], Assertion.Holds a :=
  Assertion.holds_of_check (by decide +kernel)

/-- choice operator / {anything} | {anything} (tests/char-tests/operators/choice.cpp:182) -/
theorem charOperatorsChoice_7_9 : ∀ a ∈ [
    .isTerm (tOr (P All4) (P All4)),  -- 182: DEP_ASSERT_BINARY_OPERABLE(|, LLHS{}, RRHS{}, LHS{}, RHS{})
    .parsersEq (tOr (P All4) (P All4)) (P All4),  -- 182: DEP_ASSERT_PARSER_VALUES_EQ(LLHS{} | RRHS{}, LLHS{}, LHS{} | RHS{}, LHS{})
    .isTerm (tOr (P All4) (P Eps1)),  -- 182: DEP_ASSERT_BINARY_OPERABLE(|, LLHS{}, RRHS{}, LHS{}, RHS{})
    .parsersEq (tOr (P All4) (P Eps1)) (P (.choice [All4, Eps1])),  -- 182: DEP_ASSERT_PARSER_VALUES_EQ(LLHS{} | RRHS{},(choice_parser<LLHS, RRHS>{}), LHS{} | RHS{},(choice_parser<LHS, RHS>{}))
    .isTerm (tOr (P All4) (P Ant1)),  -- 182: DEP_ASSERT_BINARY_OPERABLE(|, LLHS{}, RRHS{}, LHS{}, RHS{})
    .parsersEq (tOr (P All4) (P Ant1)) (P (.choice [All4, Ant1])),  -- 182: DEP_ASSERT_PARSER_VALUES_EQ(LLHS{} | RRHS{},(choice_parser<LLHS, RRHS>{}), LHS{} | RHS{},(choice_parser<LHS, RHS>{}))
    .isTerm (tOr (P All4) (P QQ)),  -- 182: DEP_ASSERT_BINARY_OPERABLE(|, LLHS{}, RRHS{}, LHS{}, RHS{})
    .parsersEq (tOr (P All4) (P QQ)) (P (.choice [All4, QQ])),  -- 182: DEP_ASSERT_PARSER_VALUES_EQ(LLHS{} | RRHS{},(choice_parser<LLHS, RRHS>{}), LHS{} | RHS{},(choice_parser<LHS, RHS>{}))
    .isTerm (tOr (P All4) (P ABC)),  -- 182: DEP_ASSERT_BINARY_OPERABLE(|, LLHS{}, RRHS{}, LHS{}, RHS{})
    .parsersEq (tOr (P All4) (P ABC)) (P (.choice [All4, ABC])),  -- 182: DEP_ASSERT_PARSER_VALUES_EQ(LLHS{} | RRHS{},(choice_parser<LLHS, RRHS>{}), LHS{} | RHS{},(choice_parser<LHS, RHS>{}))
    .isTerm (tOr (P All4) (P Comma)),  -- 182: DEP_ASSERT_BINARY_OPERABLE(|, LLHS{}, RRHS{}, LHS{}, RHS{})
    .parsersEq (tOr (P All4) (P Comma)) (P (.choice [All4, Comma])),  -- 182: DEP_ASSERT_PARSER_VALUES_EQ(LLHS{} | RRHS{},(choice_parser<LLHS, RRHS>{}), LHS{} | RHS{},(choice_parser<LHS, RHS>{}))
    .isTerm (tOr (P All4) (P SpaceDot)),  -- 182: DEP_ASSERT_BINARY_OPERABLE(|, LLHS{}, RRHS{}, LHS{}, RHS{})
    .parsersEq (tOr (P All4) (P SpaceDot)) (P (.choice [All4, SpaceDot])),  -- 182: DEP_ASSERT_PARSER_VALUES_EQ(LLHS{} | RRHS{},(choice_parser<LLHS, RRHS>{}), LHS{} | RHS{},(choice_parser<LHS, RHS>{}))
    .isTerm (tOr (P Eps1) (P Any1)),  -- 182: DEP_ASSERT_BINARY_OPERABLE(|, LLHS{}, RRHS{}, LHS{}, RHS{})
    .parsersEq (tOr (P Eps1) (P Any1)) (P (.choice [Eps1, Any1])),  -- 182: DEP_ASSERT_PARSER_VALUES_EQ(LLHS{} | RRHS{},(choice_parser<LLHS, RRHS>{}), LHS{} | RHS{},(choice_parser<LHS, RHS>{}))
    .isTerm (tOr (P Eps1) (P Any2)),  -- 182: DEP_ASSERT_BINARY_OPERABLE(|, LLHS{}, RRHS{}, LHS{}, RHS{})
    .parsersEq (tOr (P Eps1) (P Any2)) (P (.choice [Eps1, Any2])),  -- 182: DEP_ASSERT_PARSER_VALUES_EQ(LLHS{} | RRHS{},(choice_parser<LLHS, RRHS>{}), LHS{} | RHS{},(choice_parser<LHS, RHS>{}))
    .isTerm (tOr (P Eps1) (P Any3)),  -- 182: DEP_ASSERT_BINARY_OPERABLE(|, LLHS{}, RRHS{}, LHS{}, RHS{})
    .parsersEq (tOr (P Eps1) (P Any3)) (P (.choice [Eps1, Any3])),  -- 182: DEP_ASSERT_PARSER_VALUES_EQ(LLHS{} | RRHS{},(choice_parser<LLHS, RRHS>{}), LHS{} | RHS{},(choice_parser<LHS, RHS>{}))
    .isTerm (tOr (P Eps1) (P Any4)),  -- 182: DEP_ASSERT_BINARY_OPERABLE(|, LLHS{}, RRHS{}, LHS{}, RHS{})
    .parsersEq (tOr (P Eps1) (P Any4)) (P (.choice [Eps1, Any4])),  -- 182: DEP_ASSERT_PARSER_VALUES_EQ(LLHS{} | RRHS{},(choice_parser<LLHS, RRHS>{}), LHS{} | RHS{},(choice_parser<LHS, RHS>{}))
    .isTerm (tOr (P Eps1) (P Non1)),  -- 182: DEP_ASSERT_BINARY_OPERABLE(|, LLHS{}, RRHS{}, LHS{}, RHS{})
    .parsersEq (tOr (P Eps1) (P Non1)) (P (.choice [Eps1, Non1])),  -- 182: DEP_ASSERT_PARSER_VALUES_EQ(LLHS{} | RRHS{},(choice_parser<LLHS, RRHS>{}), LHS{} | RHS{},(choice_parser<LHS, RHS>{}))
    .isTerm (tOr (P Eps1) (P Non2)),  -- 182: DEP_ASSERT_BINARY_OPERABLE(|, LLHS{}, RRHS{}, LHS{}, RHS{})
    .parsersEq (tOr (P Eps1) (P Non2)) (P (.choice [Eps1, Non2])),  -- 182: DEP_ASSERT_PARSER_VALUES_EQ(LLHS{} | RRHS{},(choice_parser<LLHS, RRHS>{}), LHS{} | RHS{},(choice_parser<LHS, RHS>{}))
    .isTerm (tOr (P Eps1) (P Non3)),  -- 182: DEP_ASSERT_BINARY_OPERABLE(|, LLHS{}, RRHS{}, LHS{}, RHS{})
    .parsersEq (tOr (P Eps1) (P Non3)) (P (.choice [Eps1, Non3])),  -- 182: DEP_ASSERT_PARSER_VALUES_EQ(LLHS{} | RRHS{},(choice_parser<LLHS, RRHS>{}), LHS{} | RHS{},(choice_parser<LHS, RHS>{}))
    .isTerm (tOr (P Eps1) (P Non4)),  -- 182: DEP_ASSERT_BINARY_OPERABLE(|, LLHS{}, RRHS{}, LHS{}, RHS{})
    .parsersEq (tOr (P Eps1) (P Non4)) (P (.choice [Eps1, Non4])),  -- 182: DEP_ASSERT_PARSER_VALUES_EQ(LLHS{} | RRHS{},(choice_parser<LLHS, RRHS>{}), LHS{} | RHS{},(choice_parser<LHS, RHS>{}))
    .isTerm (tOr (P Eps1) (P Non5)),  -- 182: DEP_ASSERT_BINARY_OPERABLE(|, LLHS{}, RRHS{}, LHS{}, RHS{})
    .parsersEq (tOr (P Eps1) (P Non5)) (P (.choice [Eps1, Non5])),  -- 182: DEP_ASSERT_PARSER_VALUES_EQ(LLHS{} | RRHS{},(choice_parser<LLHS, RRHS>{}), LHS{} | RHS{},(choice_parser<LHS, RHS>{}))
    .isTerm (tOr (P Eps1) (P All1)),  -- 182: DEP_ASSERT_BINARY_OPERABLE(|, LLHS{}, RRHS{}, LHS{}, RHS{})
    .parsersEq (tOr (P Eps1) (P All1)) (P (.choice [Eps1, All1])),  -- 182: DEP_ASSERT_PARSER_VALUES_EQ(LLHS{} | RRHS{},(choice_parser<LLHS, RRHS>{}), LHS{} | RHS{},(choice_parser<LHS, RHS>{}))
    .isTerm (tOr (P Eps1) (P All2)),  -- 182: DEP_ASSERT_BINARY_OPERABLE(|, LLHS{}, RRHS{}, LHS{}, RHS{})
    .parsersEq (tOr (P Eps1) (P All2)) (P (.choice [Eps1, All2])),  -- 182: DEP_ASSERT_PARSER_VALUES_EQ(LLHS{} | RRHS{},(choice_parser<LLHS, RRHS>{}), LHS{} | RHS{},(choice_parser<LHS, RHS>{}))
    .isTerm (tOr (P Eps1) (P All3)),  -- 182: DEP_ASSERT_BINARY_OPERABLE(|, LLHS{}, RRHS{}, LHS{}, RHS{})
    .parsersEq (tOr (P Eps1) (P All3)) (P (.choice [Eps1, All3])),  -- 182: DEP_ASSERT_PARSER_VALUES_EQ(LLHS{} | RRHS{},(choice_parser<LLHS, RRHS>{}), LHS{} | RHS{},(choice_parser<LHS, RHS>{}))
    .isTerm (tOr (P Eps1) (P All4)),  -- 182: DEP_ASSERT_BINARY_OPERABLE(|, LLHS{}, RRHS{}, LHS{}, RHS{})
    .parsersEq (tOr (P Eps1) (P All4)) (P (.choice [Eps1, All4])),  -- 182: DEP_ASSERT_PARSER_VALUES_EQ(LLHS{} | RRHS{},(choice_parser<LLHS, RRHS>{}), LHS{} | RHS{},(choice_parser<LHS, RHS>{}))
    .isTerm (tOr (P Eps1) (P Eps1)),  -- 182: DEP_ASSERT_BINARY_OPERABLE(|, LLHS{}, RRHS{}, LHS{}, RHS{})
    .parsersEq (tOr (P Eps1) (P Eps1)) (P Eps1),  -- 182: DEP_ASSERT_PARSER_VALUES_EQ(LLHS{} | RRHS{}, LLHS{}, LHS{} | RHS{}, LHS{})
    .isTerm (tOr (P Eps1) (P Ant1)),  -- 182: DEP_ASSERT_BINARY_OPERABLE(|, LLHS{}, RRHS{}, LHS{}, RHS{})
    .parsersEq (tOr (P Eps1) (P Ant1)) (P (.choice [Eps1, Ant1])),  -- 182: DEP_ASSERT_PARSER_VALUES_EQ(LLHS{} | RRHS{},(choice_parser<LLHS, RRHS>{}), LHS{} | RHS{},(choice_parser<LHS, RHS>{}))
    .isTerm (tOr (P Eps1) (P QQ)),  -- 182: DEP_ASSERT_BINARY_OPERABLE(|, LLHS{}, RRHS{}, LHS{}, RHS{})
    .parsersEq (tOr (P Eps1) (P QQ)) (P (.choice [Eps1, QQ])),  -- 182: DEP_ASSERT_PARSER_VALUES_EQ(LLHS{} | RRHS{},(choice_parser<LLHS, RRHS>{}), LHS{} | RHS{},(choice_parser<LHS, RHS>{}))
    .isTerm (tOr (P Eps1) (P ABC)),  -- 182: DEP_ASSERT_BINARY_OPERABLE(|, LLHS{}, RRHS{}, LHS{}, RHS{})
    .parsersEq (tOr (P Eps1) (P ABC)) (P (.choice [Eps1, ABC])),  -- 182: DEP_ASSERT_PARSER_VALUES_EQ(LLHS{} | RRHS{},(choice_parser<LLHS, RRHS>{}), LHS{} | RHS{},(choice_parser<LHS, RHS>{}))
    .isTerm (tOr (P Eps1) (P Comma)),  -- 182: DEP_ASSERT_BINARY_OPERABLE(|, LLHS{}, RRHS{}, LHS{}, RHS{})
    .parsersEq (tOr (P Eps1) (P Comma)) (P (.choice [Eps1, Comma])),  -- 182: DEP_ASSERT_PARSER_VALUES_EQ(LLHS{} | RRHS{},(choice_parser<LLHS, RRHS>{}), LHS{} | RHS{},(choice_parser<LHS, RHS>{}))
    .isTerm (tOr (P Eps1) (P SpaceDot)),  -- 182: DEP_ASSERT_BINARY_OPERABLE(|, LLHS{}, RRHS{}, LHS{}, RHS{})
    .parsersEq (tOr (P Eps1) (P SpaceDot)) (P (.choice [Eps1, SpaceDot])),  -- 182: DEP_ASSERT_PARSER_VALUES_EQ(LLHS{} | RRHS{},(choice_parser<LLHS, RRHS>{}), LHS{} | RHS{},(choice_parser<LHS, RHS>{}))
    .isTerm (tOr (P Ant1) (P Any1)),  -- 182: DEP_ASSERT_BINARY_OPERABLE(|, LLHS{}, RRHS{}, LHS{}, RHS{})
    .parsersEq (tOr (P Ant1) (P Any1)) (P (.choice [Ant1, Any1])),  -- 182: DEP_ASSERT_PARSER_VALUES_EQ(LLHS{} | RRHS{},(choice_parser<LLHS, RRHS>{}), LHS{} | RHS{},(choice_parser<LHS, RHS>{}))
    .isTerm (tOr (P Ant1) (P Any2)),  -- 182: DEP_ASSERT_BINARY_OPERABLE(|, LLHS{}, RRHS{}, LHS{}, RHS{})
    .parsersEq (tOr (P Ant1) (P Any2)) (P (.choice [Ant1, Any2])),  -- 182: DEP_ASSERT_PARSER_VALUES_EQ(LLHS{} | RRHS{},(choice_parser<LLHS, RRHS>{}), LHS{} | RHS{},(choice_parser<LHS, RHS>{}))
    .isTerm (tOr (P Ant1) (P Any3)),  -- 182: DEP_ASSERT_BINARY_OPERABLE(|, LLHS{}, RRHS{}, LHS{}, RHS{})
    .parsersEq (tOr (P Ant1) (P Any3)) (P (.choice [Ant1, Any3])),  -- 182: DEP_ASSERT_PARSER_VALUES_EQ(LLHS{} | RRHS{},(choice_parser<LLHS, RRHS>{}), LHS{} | RHS{},(choice_parser<LHS, RHS>{}))
    .isTerm (tOr (P Ant1) (P Any4)),  -- 182: DEP_ASSERT_BINARY_OPERABLE(|, LLHS{}, RRHS{}, LHS{}, RHS{})
    .parsersEq (tOr (P Ant1) (P Any4)) (P (.choice [Ant1, Any4]))  -- 182: DEP_ASSERT_PARSER_VALUES_EQ(LLHS{} | RRHS{},(choice_parser<LLHS, RRHS>{}), LHS{} | RHS{},(choice_parser<LHS, RHS>{}))
    ], Assertion.Holds a :=
  Assertion.holds_of_check (by decide +kernel)

/-- choice operator / {anything} | {anything} (tests/char-tests/operators/choice.cpp:182) -/
theorem charOperatorsChoice_7_10 : ∀ a ∈ [
    .isTerm (tOr (P Ant1) (P Non1)),  -- 182: DEP_ASSERT_BINARY_OPERABLE(|, LLHS{}, RRHS{}, LHS{}, RHS{})
    .parsersEq (tOr (P Ant1) (P Non1)) (P (.choice [Ant1, Non1])),  -- 182: DEP_ASSERT_PARSER_VALUES_EQ(LLHS{} | RRHS{},(choice_parser<LLHS, RRHS>{}), LHS{} | RHS{},(choice_parser<LHS, RHS>{}))
    .isTerm (tOr (P Ant1) (P Non2)),  -- 182: DEP_ASSERT_BINARY_OPERABLE(|, LLHS{}, RRHS{}, LHS{}, RHS{})
    .parsersEq (tOr (P Ant1) (P Non2)) (P (.choice [Ant1, Non2])),  -- 182: DEP_ASSERT_PARSER_VALUES_EQ(LLHS{} | RRHS{},(choice_parser<LLHS, RRHS>{}), LHS{} | RHS{},(choice_parser<LHS, RHS>{}))
    .isTerm (tOr (P Ant1) (P Non3)),  -- 182: DEP_ASSERT_BINARY_OPERABLE(|, LLHS{}, RRHS{}, LHS{}, RHS{})
    .parsersEq (tOr (P Ant1) (P Non3)) (P (.choice [Ant1, Non3])),  -- 182: DEP_ASSERT_PARSER_VALUES_EQ(LLHS{} | RRHS{},(choice_parser<LLHS, RRHS>{}), LHS{} | RHS{},(choice_parser<LHS, RHS>{}))
    .isTerm (tOr (P Ant1) (P Non4)),  -- 182: DEP_ASSERT_BINARY_OPERABLE(|, LLHS{}, RRHS{}, LHS{}, RHS{})
    .parsersEq (tOr (P Ant1) (P Non4)) (P (.choice [Ant1, Non4])),  -- 182: DEP_ASSERT_PARSER_VALUES_EQ(LLHS{} | RRHS{},(choice_parser<LLHS, RRHS>{}), LHS{} | RHS{},(choice_parser<LHS, RHS>{}))
    .isTerm (tOr (P Ant1) (P Non5)),  -- 182: DEP_ASSERT_BINARY_OPERABLE(|, LLHS{}, RRHS{}, LHS{}, RHS{})
    .parsersEq (tOr (P Ant1) (P Non5)) (P (.choice [Ant1, Non5])),  -- 182: DEP_ASSERT_PARSER_VALUES_EQ(LLHS{} | RRHS{},(choice_parser<LLHS, RRHS>{}), LHS{} | RHS{},(choice_parser<LHS, RHS>{}))
    .isTerm (tOr (P Ant1) (P All1)),  -- 182: DEP_ASSERT_BINARY_OPERABLE(|, LLHS{}, RRHS{}, LHS{}, RHS{})
    .parsersEq (tOr (P Ant1) (P All1)) (P (.choice [Ant1, All1])),  -- 182: DEP_ASSERT_PARSER_VALUES_EQ(LLHS{} | RRHS{},(choice_parser<LLHS, RRHS>{}), LHS{} | RHS{},(choice_parser<LHS, RHS>{}))
    .isTerm (tOr (P Ant1) (P All2)),  -- 182: DEP_ASSERT_BINARY_OPERABLE(|, LLHS{}, RRHS{}, LHS{}, RHS{})
    .parsersEq (tOr (P Ant1) (P All2)) (P (.choice [Ant1, All2])),  -- 182: DEP_ASSERT_PARSER_VALUES_EQ(LLHS{} | RRHS{},(choice_parser<LLHS, RRHS>{}), LHS{} | RHS{},(choice_parser<LHS, RHS>{}))
    .isTerm (tOr (P Ant1) (P All3)),  -- 182: DEP_ASSERT_BINARY_OPERABLE(|, LLHS{}, RRHS{}, LHS{}, RHS{})
    .parsersEq (tOr (P Ant1) (P All3)) (P (.choice [Ant1, All3])),  -- 182: DEP_ASSERT_PARSER_VALUES_EQ(LLHS{} | RRHS{},(choice_parser<LLHS, RRHS>{}), LHS{} | RHS{},(choice_parser<LHS, RHS>{}))
    .isTerm (tOr (P Ant1) (P All4)),  -- 182: DEP_ASSERT_BINARY_OPERABLE(|, LLHS{}, RRHS{}, LHS{}, RHS{})
    .parsersEq (tOr (P Ant1) (P All4)) (P (.choice [Ant1, All4])),  -- 182: DEP_ASSERT_PARSER_VALUES_EQ(LLHS{} | RRHS{},(choice_parser<LLHS, RRHS>{}), LHS{} | RHS{},(choice_parser<LHS, RHS>{}))
    .isTerm (tOr (P Ant1) (P Eps1)),  -- 182: DEP_ASSERT_BINARY_OPERABLE(|, LLHS{}, RRHS{}, LHS{}, RHS{})
    .parsersEq (tOr (P Ant1) (P Eps1)) (P (.choice [Ant1, Eps1])),  -- 182: DEP_ASSERT_PARSER_VALUES_EQ(LLHS{} | RRHS{},(choice_parser<LLHS, RRHS>{}), LHS{} | RHS{},(choice_parser<LHS, RHS>{}))
    .isTerm (tOr (P Ant1) (P Ant1)),  -- 182: DEP_ASSERT_BINARY_OPERABLE(|, LLHS{}, RRHS{}, LHS{}, RHS{})
    .parsersEq (tOr (P Ant1) (P Ant1)) (P Ant1),  -- 182: DEP_ASSERT_PARSER_VALUES_EQ(LLHS{} | RRHS{}, LLHS{}, LHS{} | RHS{}, LHS{})
    .isTerm (tOr (P Ant1) (P QQ)),  -- 182: DEP_ASSERT_BINARY_OPERABLE(|, LLHS{}, RRHS{}, LHS{}, RHS{})
    .parsersEq (tOr (P Ant1) (P QQ)) (P (.choice [Ant1, QQ])),  -- 182: DEP_ASSERT_PARSER_VALUES_EQ(LLHS{} | RRHS{},(choice_parser<LLHS, RRHS>{}), LHS{} | RHS{},(choice_parser<LHS, RHS>{}))
    .isTerm (tOr (P Ant1) (P ABC)),  -- 182: DEP_ASSERT_BINARY_OPERABLE(|, LLHS{}, RRHS{}, LHS{}, RHS{})
    .parsersEq (tOr (P Ant1) (P ABC)) (P (.choice [Ant1, ABC])),  -- 182: DEP_ASSERT_PARSER_VALUES_EQ(LLHS{} | RRHS{},(choice_parser<LLHS, RRHS>{}), LHS{} | RHS{},(choice_parser<LHS, RHS>{}))
    .isTerm (tOr (P Ant1) (P Comma)),  -- 182: DEP_ASSERT_BINARY_OPERABLE(|, LLHS{}, RRHS{}, LHS{}, RHS{})
    .parsersEq (tOr (P Ant1) (P Comma)) (P (.choice [Ant1, Comma])),  -- 182: DEP_ASSERT_PARSER_VALUES_EQ(LLHS{} | RRHS{},(choice_parser<LLHS, RRHS>{}), LHS{} | RHS{},(choice_parser<LHS, RHS>{}))
    .isTerm (tOr (P Ant1) (P SpaceDot)),  -- 182: DEP_ASSERT_BINARY_OPERABLE(|, LLHS{}, RRHS{}, LHS{}, RHS{})
    .parsersEq (tOr (P Ant1) (P SpaceDot)) (P (.choice [Ant1, SpaceDot])),  -- 182: DEP_ASSERT_PARSER_VALUES_EQ(LLHS{} | RRHS{},(choice_parser<LLHS, RRHS>{}), LHS{} | RHS{},(choice_parser<LHS, RHS>{}))
    .isTerm (tOr (P QQ) (P Any1)),  -- 182: DEP_ASSERT_BINARY_OPERABLE(|, LLHS{}, RRHS{}, LHS{}, RHS{})
    .parsersEq (tOr (P QQ) (P Any1)) (P (.choice [QQ, Any1])),  -- 182: DEP_ASSERT_PARSER_VALUES_EQ(LLHS{} | RRHS{},(choice_parser<LLHS, RRHS>{}), LHS{} | RHS{},(choice_parser<LHS, RHS>{}))
    .isTerm (tOr (P QQ) (P Any2)),  -- 182: DEP_ASSERT_BINARY_OPERABLE(|, LLHS{}, RRHS{}, LHS{}, RHS{})
    .parsersEq (tOr (P QQ) (P Any2)) (P (.choice [QQ, Any2])),  -- 182: DEP_ASSERT_PARSER_VALUES_EQ(LLHS{} | RRHS{},(choice_parser<LLHS, RRHS>{}), LHS{} | RHS{},(choice_parser<LHS, RHS>{}))
    .isTerm (tOr (P QQ) (P Any3)),  -- 182: DEP_ASSERT_BINARY_OPERABLE(|, LLHS{}, RRHS{}, LHS{}, RHS{})
    .parsersEq (tOr (P QQ) (P Any3)) (P (.choice [QQ, Any3])),  -- 182: DEP_ASSERT_PARSER_VALUES_EQ(LLHS{} | RRHS{},(choice_parser<LLHS, RRHS>{}), LHS{} | RHS{},(choice_parser<LHS, RHS>{}))
    .isTerm (tOr (P QQ) (P Any4)),  -- 182: DEP_ASSERT_BINARY_OPERABLE(|, LLHS{}, RRHS{}, LHS{}, RHS{})
    .parsersEq (tOr (P QQ) (P Any4)) (P (.choice [QQ, Any4])),  -- 182: DEP_ASSERT_PARSER_VALUES_EQ(LLHS{} | RRHS{},(choice_parser<LLHS, RRHS>{}), LHS{} | RHS{},(choice_parser<LHS, RHS>{}))
    .isTerm (tOr (P QQ) (P Non1)),  -- 182: DEP_ASSERT_BINARY_OPERABLE(|, LLHS{}, RRHS{}, LHS{}, RHS{})
    .parsersEq (tOr (P QQ) (P Non1)) (P (.choice [QQ, Non1])),  -- 182: DEP_ASSERT_PARSER_VALUES_EQ(LLHS{} | RRHS{},(choice_parser<LLHS, RRHS>{}), LHS{} | RHS{},(choice_parser<LHS, RHS>{}))
    .isTerm (tOr (P QQ) (P Non2)),  -- 182: DEP_ASSERT_BINARY_OPERABLE(|, LLHS{}, RRHS{}, LHS{}, RHS{})
    .parsersEq (tOr (P QQ) (P Non2)) (P (.choice [QQ, Non2])),  -- 182: DEP_ASSERT_PARSER_VALUES_EQ(LLHS{} | RRHS{},(choice_parser<LLHS, RRHS>{}), LHS{} | RHS{},(choice_parser<LHS, RHS>{}))
    .isTerm (tOr (P QQ) (P Non3)),  -- 182: DEP_ASSERT_BINARY_OPERABLE(|, LLHS{}, RRHS{}, LHS{}, RHS{})
    .parsersEq (tOr (P QQ) (P Non3)) (P (.choice [QQ, Non3])),  -- 182: DEP_ASSERT_PARSER_VALUES_EQ(LLHS{} | RRHS{},(choice_parser<LLHS, RRHS>{}), LHS{} | RHS{},(choice_parser<LHS, RHS>{}))
    .isTerm (tOr (P QQ) (P Non4)),  -- 182: DEP_ASSERT_BINARY_OPERABLE(|, LLHS{}, RRHS{}, LHS{}, RHS{})
    .parsersEq (tOr (P QQ) (P Non4)) (P (.choice [QQ, Non4])),  -- 182: DEP_ASSERT_PARSER_VALUES_EQ(LLHS{} | RRHS{},(choice_parser<LLHS, RRHS>{}), LHS{} | RHS{},(choice_parser<LHS, RHS>{}))
    .isTerm (tOr (P QQ) (P Non5)),  -- 182: DEP_ASSERT_BINARY_OPERABLE(|, LLHS{}, RRHS{}, LHS{}, RHS{})
    .parsersEq (tOr (P QQ) (P Non5)) (P (.choice [QQ, Non5])),  -- 182: DEP_ASSERT_PARSER_VALUES_EQ(LLHS{} | RRHS{},(choice_parser<LLHS, RRHS>{}), LHS{} | RHS{},(choice_parser<LHS, RHS>{}))
    .isTerm (tOr (P QQ) (P All1)),  -- 182: DEP_ASSERT_BINARY_OPERABLE(|, LLHS{}, RRHS{}, LHS{}, RHS{})
    .parsersEq (tOr (P QQ) (P All1)) (P (.choice [QQ, All1])),  -- 182: DEP_ASSERT_PARSER_VALUES_EQ(LLHS{} | RRHS{},(choice_parser<LLHS, RRHS>{}), LHS{} | RHS{},(choice_parser<LHS, RHS>{}))
    .isTerm (tOr (P QQ) (P All2)),  -- 182: DEP_ASSERT_BINARY_OPERABLE(|, LLHS{}, RRHS{}, LHS{}, RHS{})
    .parsersEq (tOr (P QQ) (P All2)) (P (.choice [QQ, All2])),  -- 182: DEP_ASSERT_PARSER_VALUES_EQ(LLHS{} | RRHS{},(choice_parser<LLHS, RRHS>{}), LHS{} | RHS{},(choice_parser<LHS, RHS>{}))
    .isTerm (tOr (P QQ) (P All3)),  -- 182: DEP_ASSERT_BINARY_OPERABLE(|, LLHS{}, RRHS{}, LHS{}, RHS{})
    .parsersEq (tOr (P QQ) (P All3)) (P (.choice [QQ, All3])),  -- 182: DEP_ASSERT_PARSER_VALUES_EQ(LLHS{} | RRHS{},(choice_parser<LLHS, RRHS>{}), LHS{} | RHS{},(choice_parser<LHS, RHS>{}))
    .isTerm (tOr (P QQ) (P All4)),  -- 182: DEP_ASSERT_BINARY_OPERABLE(|, LLHS{}, RRHS{}, LHS{}, RHS{})
    .parsersEq (tOr (P QQ) (P All4)) (P (.choice [QQ, All4])),  -- 182: DEP_ASSERT_PARSER_VALUES_EQ(LLHS{} | RRHS{},(choice_parser<LLHS, RRHS>{}), LHS{} | RHS{},(choice_parser<LHS, RHS>{}))
    .isTerm (tOr (P QQ) (P Eps1)),  -- 182: DEP_ASSERT_BINARY_OPERABLE(|, LLHS{}, RRHS{}, LHS{}, RHS{})
    .parsersEq (tOr (P QQ) (P Eps1)) (P (.choice [QQ, Eps1])),  -- 182: DEP_ASSERT_PARSER_VALUES_EQ(LLHS{} | RRHS{},(choice_parser<LLHS, RRHS>{}), LHS{} | RHS{},(choice_parser<LHS, RHS>{}))
    .isTerm (tOr (P QQ) (P Ant1)),  -- 182: DEP_ASSERT_BINARY_OPERABLE(|, LLHS{}, RRHS{}, LHS{}, RHS{})
    .parsersEq (tOr (P QQ) (P Ant1)) (P (.choice [QQ, Ant1]))  -- 182: DEP_ASSERT_PARSER_VALUES_EQ(LLHS{} | RRHS{},(choice_parser<LLHS, RRHS>{}), LHS{} | RHS{},(choice_parser<LHS, RHS>{}))
    ], Assertion.Holds a :=
  Assertion.holds_of_check (by decide +kernel)

/-- choice operator / {anything} | {anything} (tests/char-tests/operators/choice.cpp:182) -/
theorem charOperatorsChoice_7_11 : ∀ a ∈ [
    .isTerm (tOr (P QQ) (P QQ)),  -- 182: DEP_ASSERT_BINARY_OPERABLE(|, LLHS{}, RRHS{}, LHS{}, RHS{})
    .parsersEq (tOr (P QQ) (P QQ)) (P QQ),  -- 182: DEP_ASSERT_PARSER_VALUES_EQ(LLHS{} | RRHS{}, LLHS{}, LHS{} | RHS{}, LHS{})
    .isTerm (tOr (P QQ) (P ABC)),  -- 182: DEP_ASSERT_BINARY_OPERABLE(|, LLHS{}, RRHS{}, LHS{}, RHS{})
    .parsersEq (tOr (P QQ) (P ABC)) (P (.choice [QQ, ABC])),  -- 182: DEP_ASSERT_PARSER_VALUES_EQ(LLHS{} | RRHS{},(choice_parser<LLHS, RRHS>{}), LHS{} | RHS{},(choice_parser<LHS, RHS>{}))
    .isTerm (tOr (P QQ) (P Comma)),  -- 182: DEP_ASSERT_BINARY_OPERABLE(|, LLHS{}, RRHS{}, LHS{}, RHS{})
    .parsersEq (tOr (P QQ) (P Comma)) (P (.choice [QQ, Comma])),  -- 182: DEP_ASSERT_PARSER_VALUES_EQ(LLHS{} | RRHS{},(choice_parser<LLHS, RRHS>{}), LHS{} | RHS{},(choice_parser<LHS, RHS>{}))
    .isTerm (tOr (P QQ) (P SpaceDot)),  -- 182: DEP_ASSERT_BINARY_OPERABLE(|, LLHS{}, RRHS{}, LHS{}, RHS{})
    .parsersEq (tOr (P QQ) (P SpaceDot)) (P (.choice [QQ, SpaceDot])),  -- 182: DEP_ASSERT_PARSER_VALUES_EQ(LLHS{} | RRHS{},(choice_parser<LLHS, RRHS>{}), LHS{} | RHS{},(choice_parser<LHS, RHS>{}))
    .isTerm (tOr (P ABC) (P Any1)),  -- 182: DEP_ASSERT_BINARY_OPERABLE(|, LLHS{}, RRHS{}, LHS{}, RHS{})
    .parsersEq (tOr (P ABC) (P Any1)) (P (.choice [ABC, Any1])),  -- 182: DEP_ASSERT_PARSER_VALUES_EQ(LLHS{} | RRHS{},(choice_parser<LLHS, RRHS>{}), LHS{} | RHS{},(choice_parser<LHS, RHS>{}))
    .isTerm (tOr (P ABC) (P Any2)),  -- 182: DEP_ASSERT_BINARY_OPERABLE(|, LLHS{}, RRHS{}, LHS{}, RHS{})
    .parsersEq (tOr (P ABC) (P Any2)) (P (.choice [ABC, Any2])),  -- 182: DEP_ASSERT_PARSER_VALUES_EQ(LLHS{} | RRHS{},(choice_parser<LLHS, RRHS>{}), LHS{} | RHS{},(choice_parser<LHS, RHS>{}))
    .isTerm (tOr (P ABC) (P Any3)),  -- 182: DEP_ASSERT_BINARY_OPERABLE(|, LLHS{}, RRHS{}, LHS{}, RHS{})
    .parsersEq (tOr (P ABC) (P Any3)) (P (.choice [ABC, Any3])),  -- 182: DEP_ASSERT_PARSER_VALUES_EQ(LLHS{} | RRHS{},(choice_parser<LLHS, RRHS>{}), LHS{} | RHS{},(choice_parser<LHS, RHS>{}))
    .isTerm (tOr (P ABC) (P Any4)),  -- 182: DEP_ASSERT_BINARY_OPERABLE(|, LLHS{}, RRHS{}, LHS{}, RHS{})
    .parsersEq (tOr (P ABC) (P Any4)) (P (.choice [ABC, Any4])),  -- 182: DEP_ASSERT_PARSER_VALUES_EQ(LLHS{} | RRHS{},(choice_parser<LLHS, RRHS>{}), LHS{} | RHS{},(choice_parser<LHS, RHS>{}))
    .isTerm (tOr (P ABC) (P Non1)),  -- 182: DEP_ASSERT_BINARY_OPERABLE(|, LLHS{}, RRHS{}, LHS{}, RHS{})
    .parsersEq (tOr (P ABC) (P Non1)) (P (.choice [ABC, Non1])),  -- 182: DEP_ASSERT_PARSER_VALUES_EQ(LLHS{} | RRHS{},(choice_parser<LLHS, RRHS>{}), LHS{} | RHS{},(choice_parser<LHS, RHS>{}))
    .isTerm (tOr (P ABC) (P Non2)),  -- 182: DEP_ASSERT_BINARY_OPERABLE(|, LLHS{}, RRHS{}, LHS{}, RHS{})
    .parsersEq (tOr (P ABC) (P Non2)) (P (.choice [ABC, Non2])),  -- 182: DEP_ASSERT_PARSER_VALUES_EQ(LLHS{} | RRHS{},(choice_parser<LLHS, RRHS>{}), LHS{} | RHS{},(choice_parser<LHS, RHS>{}))
    .isTerm (tOr (P ABC) (P Non3)),  -- 182: DEP_ASSERT_BINARY_OPERABLE(|, LLHS{}, RRHS{}, LHS{}, RHS{})
    .parsersEq (tOr (P ABC) (P Non3)) (P (.choice [ABC, Non3])),  -- 182: DEP_ASSERT_PARSER_VALUES_EQ(LLHS{} | RRHS{},(choice_parser<LLHS, RRHS>{}), LHS{} | RHS{},(choice_parser<LHS, RHS>{}))
    .isTerm (tOr (P ABC) (P Non4)),  -- 182: DEP_ASSERT_BINARY_OPERABLE(|, LLHS{}, RRHS{}, LHS{}, RHS{})
    .parsersEq (tOr (P ABC) (P Non4)) (P (.choice [ABC, Non4])),  -- 182: DEP_ASSERT_PARSER_VALUES_EQ(LLHS{} | RRHS{},(choice_parser<LLHS, RRHS>{}), LHS{} | RHS{},(choice_parser<LHS, RHS>{}))
    .isTerm (tOr (P ABC) (P Non5)),  -- 182: DEP_ASSERT_BINARY_OPERABLE(|, LLHS{}, RRHS{}, LHS{}, RHS{})
    .parsersEq (tOr (P ABC) (P Non5)) (P (.choice [ABC, Non5])),  -- 182: DEP_ASSERT_PARSER_VALUES_EQ(LLHS{} | RRHS{},(choice_parser<LLHS, RRHS>{}), LHS{} | RHS{},(choice_parser<LHS, RHS>{}))
    .isTerm (tOr (P ABC) (P All1)),  -- 182: DEP_ASSERT_BINARY_OPERABLE(|, LLHS{}, RRHS{}, LHS{}, RHS{})
    .parsersEq (tOr (P ABC) (P All1)) (P (.choice [ABC, All1])),  -- 182: DEP_ASSERT_PARSER_VALUES_EQ(LLHS{} | RRHS{},(choice_parser<LLHS, RRHS>{}), LHS{} | RHS{},(choice_parser<LHS, RHS>{}))
    .isTerm (tOr (P ABC) (P All2)),  -- 182: DEP_ASSERT_BINARY_OPERABLE(|, LLHS{}, RRHS{}, LHS{}, RHS{})
    .parsersEq (tOr (P ABC) (P All2)) (P (.choice [ABC, All2])),  -- 182: DEP_ASSERT_PARSER_VALUES_EQ(LLHS{} | RRHS{},(choice_parser<LLHS, RRHS>{}), LHS{} | RHS{},(choice_parser<LHS, RHS>{}))
    .isTerm (tOr (P ABC) (P All3)),  -- 182: DEP_ASSERT_BINARY_OPERABLE(|, LLHS{}, RRHS{}, LHS{}, RHS{})
    .parsersEq (tOr (P ABC) (P All3)) (P (.choice [ABC, All3])),  -- 182: DEP_ASSERT_PARSER_VALUES_EQ(LLHS{} | RRHS{},(choice_parser<LLHS, RRHS>{}), LHS{} | RHS{},(choice_parser<LHS, RHS>{}))
    .isTerm (tOr (P ABC) (P All4)),  -- 182: DEP_ASSERT_BINARY_OPERABLE(|, LLHS{}, RRHS{}, LHS{}, RHS{})
    .parsersEq (tOr (P ABC) (P All4)) (P (.choice [ABC, All4])),  -- 182: DEP_ASSERT_PARSER_VALUES_EQ(LLHS{} | RRHS{},(choice_parser<LLHS, RRHS>{}), LHS{} | RHS{},(choice_parser<LHS, RHS>{}))
    .isTerm (tOr (P ABC) (P Eps1)),  -- 182: DEP_ASSERT_BINARY_OPERABLE(|, LLHS{}, RRHS{}, LHS{}, RHS{})
    .parsersEq (tOr (P ABC) (P Eps1)) (P (.choice [ABC, Eps1])),  -- 182: DEP_ASSERT_PARSER_VALUES_EQ(LLHS{} | RRHS{},(choice_parser<LLHS, RRHS>{}), LHS{} | RHS{},(choice_parser<LHS, RHS>{}))
    .isTerm (tOr (P ABC) (P Ant1)),  -- 182: DEP_ASSERT_BINARY_OPERABLE(|, LLHS{}, RRHS{}, LHS{}, RHS{})
    .parsersEq (tOr (P ABC) (P Ant1)) (P (.choice [ABC, Ant1])),  -- 182: DEP_ASSERT_PARSER_VALUES_EQ(LLHS{} | RRHS{},(choice_parser<LLHS, RRHS>{}), LHS{} | RHS{},(choice_parser<LHS, RHS>{}))
    .isTerm (tOr (P ABC) (P QQ)),  -- 182: DEP_ASSERT_BINARY_OPERABLE(|, LLHS{}, RRHS{}, LHS{}, RHS{})
    .parsersEq (tOr (P ABC) (P QQ)) (P (.choice [ABC, QQ])),  -- 182: DEP_ASSERT_PARSER_VALUES_EQ(LLHS{} | RRHS{},(choice_parser<LLHS, RRHS>{}), LHS{} | RHS{},(choice_parser<LHS, RHS>{}))
    .isTerm (tOr (P ABC) (P ABC)),  -- 182: DEP_ASSERT_BINARY_OPERABLE(|, LLHS{}, RRHS{}, LHS{}, RHS{})
    .parsersEq (tOr (P ABC) (P ABC)) (P ABC),  -- 182: DEP_ASSERT_PARSER_VALUES_EQ(LLHS{} | RRHS{}, LLHS{}, LHS{} | RHS{}, LHS{})
    .isTerm (tOr (P ABC) (P Comma)),  -- 182: DEP_ASSERT_BINARY_OPERABLE(|, LLHS{}, RRHS{}, LHS{}, RHS{})
    .parsersEq (tOr (P ABC) (P Comma)) (P (.choice [ABC, Comma])),  -- 182: DEP_ASSERT_PARSER_VALUES_EQ(LLHS{} | RRHS{},(choice_parser<LLHS, RRHS>{}), LHS{} | RHS{},(choice_parser<LHS, RHS>{}))
    .isTerm (tOr (P ABC) (P SpaceDot)),  -- 182: DEP_ASSERT_BINARY_OPERABLE(|, LLHS{}, RRHS{}, LHS{}, RHS{})
    .parsersEq (tOr (P ABC) (P SpaceDot)) (P (.choice [ABC, SpaceDot])),  -- 182: DEP_ASSERT_PARSER_VALUES_EQ(LLHS{} | RRHS{},(choice_parser<LLHS, RRHS>{}), LHS{} | RHS{},(choice_parser<LHS, RHS>{}))
    .isTerm (tOr (P Comma) (P Any1)),  -- 182: DEP_ASSERT_BINARY_OPERABLE(|, LLHS{}, RRHS{}, LHS{}, RHS{})
    .parsersEq (tOr (P Comma) (P Any1)) (P (.anyOf [44, 97, 98, 99])),  -- 182: DEP_ASSERT_PARSER_VALUES_EQ(LLHS{} | RRHS{}, any_of_parser<str>{}, LHS{} | RHS{}, any_of_parser<str>{})
    .isTerm (tOr (P Comma) (P Any2)),  -- 182: DEP_ASSERT_BINARY_OPERABLE(|, LLHS{}, RRHS{}, LHS{}, RHS{})
    .parsersEq (tOr (P Comma) (P Any2)) (P (.anyOf [44, 98, 99, 100])),  -- 182: DEP_ASSERT_PARSER_VALUES_EQ(LLHS{} | RRHS{}, any_of_parser<str>{}, LHS{} | RHS{}, any_of_parser<str>{})
    .isTerm (tOr (P Comma) (P Any3)),  -- 182: DEP_ASSERT_BINARY_OPERABLE(|, LLHS{}, RRHS{}, LHS{}, RHS{})
    .parsersEq (tOr (P Comma) (P Any3)) (P (.anyOf [44, 120, 121, 122])),  -- 182: DEP_ASSERT_PARSER_VALUES_EQ(LLHS{} | RRHS{}, any_of_parser<str>{}, LHS{} | RHS{}, any_of_parser<str>{})
    .isTerm (tOr (P Comma) (P Any4)),  -- 182: DEP_ASSERT_BINARY_OPERABLE(|, LLHS{}, RRHS{}, LHS{}, RHS{})
    .parsersEq (tOr (P Comma) (P Any4)) (P (.anyOf [44, 99, 100])),  -- 182: DEP_ASSERT_PARSER_VALUES_EQ(LLHS{} | RRHS{}, any_of_parser<str>{}, LHS{} | RHS{}, any_of_parser<str>{})
    .isTerm (tOr (P Comma) (P Non1)),  -- 182: DEP_ASSERT_BINARY_OPERABLE(|, LLHS{}, RRHS{}, LHS{}, RHS{})
    .parsersEq (tOr (P Comma) (P Non1)) (P (.noneOf [97, 98, 99])),  -- 182: DEP_ASSERT_PARSER_VALUES_EQ(LLHS{} | RRHS{}, none_of_parser<str>{}, LHS{} | RHS{}, none_of_parser<str>{})
    .isTerm (tOr (P Comma) (P Non2)),  -- 182: DEP_ASSERT_BINARY_OPERABLE(|, LLHS{}, RRHS{}, LHS{}, RHS{})
    .parsersEq (tOr (P Comma) (P Non2)) (P (.noneOf [98, 99, 100])),  -- 182: DEP_ASSERT_PARSER_VALUES_EQ(LLHS{} | RRHS{}, none_of_parser<str>{}, LHS{} | RHS{}, none_of_parser<str>{})
    .isTerm (tOr (P Comma) (P Non3)),  -- 182: DEP_ASSERT_BINARY_OPERABLE(|, LLHS{}, RRHS{}, LHS{}, RHS{})
    .parsersEq (tOr (P Comma) (P Non3)) (P (.noneOf [120, 121, 122]))  -- 182: DEP_ASSERT_PARSER_VALUES_EQ(LLHS{} | RRHS{}, none_of_parser<str>{}, LHS{} | RHS{}, none_of_parser<str>{})
    ], Assertion.Holds a :=
  Assertion.holds_of_check (by decide +kernel)

/-- choice operator / {anything} | {anything} (tests/char-tests/operators/choice.cpp:182) -/
theorem charOperatorsChoice_7_12 : ∀ a ∈ [
    .isTerm (tOr (P Comma) (P Non4)),  -- 182: DEP_ASSERT_BINARY_OPERABLE(|, LLHS{}, RRHS{}, LHS{}, RHS{})
    .parsersEq (tOr (P Comma) (P Non4)) (P (.noneOf [99, 100])),  -- 182: DEP_ASSERT_PARSER_VALUES_EQ(LLHS{} | RRHS{}, none_of_parser<str>{}, LHS{} | RHS{}, none_of_parser<str>{})
    .isTerm (tOr (P Comma) (P Non5)),  -- 182: DEP_ASSERT_BINARY_OPERABLE(|, LLHS{}, RRHS{}, LHS{}, RHS{})
    .parsersEq (tOr (P Comma) (P Non5)) (P (.noneOf [122])),  -- 182: DEP_ASSERT_PARSER_VALUES_EQ(LLHS{} | RRHS{}, none_of_parser<str>{}, LHS{} | RHS{}, none_of_parser<str>{})
    .isTerm (tOr (P Comma) (P All1)),  -- 182: DEP_ASSERT_BINARY_OPERABLE(|, LLHS{}, RRHS{}, LHS{}, RHS{})
    .parsersEq (tOr (P Comma) (P All1)) (P (.choice [Comma, All1])),  -- 182: DEP_ASSERT_PARSER_VALUES_EQ(LLHS{} | RRHS{},(choice_parser<LLHS, RRHS>{}), LHS{} | RHS{},(choice_parser<LHS, RHS>{}))
    .isTerm (tOr (P Comma) (P All2)),  -- 182: DEP_ASSERT_BINARY_OPERABLE(|, LLHS{}, RRHS{}, LHS{}, RHS{})
    .parsersEq (tOr (P Comma) (P All2)) (P (.choice [Comma, All2])),  -- 182: DEP_ASSERT_PARSER_VALUES_EQ(LLHS{} | RRHS{},(choice_parser<LLHS, RRHS>{}), LHS{} | RHS{},(choice_parser<LHS, RHS>{}))
    .isTerm (tOr (P Comma) (P All3)),  -- 182: DEP_ASSERT_BINARY_OPERABLE(|, LLHS{}, RRHS{}, LHS{}, RHS{})
    .parsersEq (tOr (P Comma) (P All3)) (P (.choice [Comma, All3])),  -- 182: DEP_ASSERT_PARSER_VALUES_EQ(LLHS{} | RRHS{},(choice_parser<LLHS, RRHS>{}), LHS{} | RHS{},(choice_parser<LHS, RHS>{}))
    .isTerm (tOr (P Comma) (P All4)),  -- 182: DEP_ASSERT_BINARY_OPERABLE(|, LLHS{}, RRHS{}, LHS{}, RHS{})
    .parsersEq (tOr (P Comma) (P All4)) (P (.choice [Comma, All4])),  -- 182: DEP_ASSERT_PARSER_VALUES_EQ(LLHS{} | RRHS{},(choice_parser<LLHS, RRHS>{}), LHS{} | RHS{},(choice_parser<LHS, RHS>{}))
    .isTerm (tOr (P Comma) (P Eps1)),  -- 182: DEP_ASSERT_BINARY_OPERABLE(|, LLHS{}, RRHS{}, LHS{}, RHS{})
    .parsersEq (tOr (P Comma) (P Eps1)) (P (.choice [Comma, Eps1])),  -- 182: DEP_ASSERT_PARSER_VALUES_EQ(LLHS{} | RRHS{},(choice_parser<LLHS, RRHS>{}), LHS{} | RHS{},(choice_parser<LHS, RHS>{}))
    .isTerm (tOr (P Comma) (P Ant1)),  -- 182: DEP_ASSERT_BINARY_OPERABLE(|, LLHS{}, RRHS{}, LHS{}, RHS{})
    .parsersEq (tOr (P Comma) (P Ant1)) (P (.choice [Comma, Ant1])),  -- 182: DEP_ASSERT_PARSER_VALUES_EQ(LLHS{} | RRHS{},(choice_parser<LLHS, RRHS>{}), LHS{} | RHS{},(choice_parser<LHS, RHS>{}))
    .isTerm (tOr (P Comma) (P QQ)),  -- 182: DEP_ASSERT_BINARY_OPERABLE(|, LLHS{}, RRHS{}, LHS{}, RHS{})
    .parsersEq (tOr (P Comma) (P QQ)) (P (.choice [Comma, QQ])),  -- 182: DEP_ASSERT_PARSER_VALUES_EQ(LLHS{} | RRHS{},(choice_parser<LLHS, RRHS>{}), LHS{} | RHS{},(choice_parser<LHS, RHS>{}))
    .isTerm (tOr (P Comma) (P ABC)),  -- 182: DEP_ASSERT_BINARY_OPERABLE(|, LLHS{}, RRHS{}, LHS{}, RHS{})
    .parsersEq (tOr (P Comma) (P ABC)) (P (.choice [Comma, ABC])),  -- 182: DEP_ASSERT_PARSER_VALUES_EQ(LLHS{} | RRHS{},(choice_parser<LLHS, RRHS>{}), LHS{} | RHS{},(choice_parser<LHS, RHS>{}))
    .isTerm (tOr (P Comma) (P Comma)),  -- 182: DEP_ASSERT_BINARY_OPERABLE(|, LLHS{}, RRHS{}, LHS{}, RHS{})
    .parsersEq (tOr (P Comma) (P Comma)) (P Comma),  -- 182: DEP_ASSERT_PARSER_VALUES_EQ(LLHS{} | RRHS{}, LLHS{}, LHS{} | RHS{}, LHS{})
    .isTerm (tOr (P Comma) (P SpaceDot)),  -- 182: DEP_ASSERT_BINARY_OPERABLE(|, LLHS{}, RRHS{}, LHS{}, RHS{})
    .parsersEq (tOr (P Comma) (P SpaceDot)) (P (.anyOf [32, 44, 46])),  -- 182: DEP_ASSERT_PARSER_VALUES_EQ(LLHS{} | RRHS{}, any_of_parser<str>{}, LHS{} | RHS{}, any_of_parser<str>{})
    .isTerm (tOr (P SpaceDot) (P Any1)),  -- 182: DEP_ASSERT_BINARY_OPERABLE(|, LLHS{}, RRHS{}, LHS{}, RHS{})
    .parsersEq (tOr (P SpaceDot) (P Any1)) (P (.anyOf [32, 46, 97, 98, 99])),  -- 182: DEP_ASSERT_PARSER_VALUES_EQ(LLHS{} | RRHS{}, any_of_parser<str>{}, LHS{} | RHS{}, any_of_parser<str>{})
    .isTerm (tOr (P SpaceDot) (P Any2)),  -- 182: DEP_ASSERT_BINARY_OPERABLE(|, LLHS{}, RRHS{}, LHS{}, RHS{})
    .parsersEq (tOr (P SpaceDot) (P Any2)) (P (.anyOf [32, 46, 98, 99, 100])),  -- 182: DEP_ASSERT_PARSER_VALUES_EQ(LLHS{} | RRHS{}, any_of_parser<str>{}, LHS{} | RHS{}, any_of_parser<str>{})
    .isTerm (tOr (P SpaceDot) (P Any3)),  -- 182: DEP_ASSERT_BINARY_OPERABLE(|, LLHS{}, RRHS{}, LHS{}, RHS{})
    .parsersEq (tOr (P SpaceDot) (P Any3)) (P (.anyOf [32, 46, 120, 121, 122])),  -- 182: DEP_ASSERT_PARSER_VALUES_EQ(LLHS{} | RRHS{}, any_of_parser<str>{}, LHS{} | RHS{}, any_of_parser<str>{})
    .isTerm (tOr (P SpaceDot) (P Any4)),  -- 182: DEP_ASSERT_BINARY_OPERABLE(|, LLHS{}, RRHS{}, LHS{}, RHS{})
    .parsersEq (tOr (P SpaceDot) (P Any4)) (P (.anyOf [32, 46, 99, 100])),  -- 182: DEP_ASSERT_PARSER_VALUES_EQ(LLHS{} | RRHS{}, any_of_parser<str>{}, LHS{} | RHS{}, any_of_parser<str>{})
    .isTerm (tOr (P SpaceDot) (P Non1)),  -- 182: DEP_ASSERT_BINARY_OPERABLE(|, LLHS{}, RRHS{}, LHS{}, RHS{})
    .parsersEq (tOr (P SpaceDot) (P Non1)) (P (.noneOf [97, 98, 99])),  -- 182: DEP_ASSERT_PARSER_VALUES_EQ(LLHS{} | RRHS{}, none_of_parser<str>{}, LHS{} | RHS{}, none_of_parser<str>{})
    .isTerm (tOr (P SpaceDot) (P Non2)),  -- 182: DEP_ASSERT_BINARY_OPERABLE(|, LLHS{}, RRHS{}, LHS{}, RHS{})
    .parsersEq (tOr (P SpaceDot) (P Non2)) (P (.noneOf [98, 99, 100])),  -- 182: DEP_ASSERT_PARSER_VALUES_EQ(LLHS{} | RRHS{}, none_of_parser<str>{}, LHS{} | RHS{}, none_of_parser<str>{})
    .isTerm (tOr (P SpaceDot) (P Non3)),  -- 182: DEP_ASSERT_BINARY_OPERABLE(|, LLHS{}, RRHS{}, LHS{}, RHS{})
    .parsersEq (tOr (P SpaceDot) (P Non3)) (P (.noneOf [120, 121, 122])),  -- 182: DEP_ASSERT_PARSER_VALUES_EQ(LLHS{} | RRHS{}, none_of_parser<str>{}, LHS{} | RHS{}, none_of_parser<str>{})
    .isTerm (tOr (P SpaceDot) (P Non4)),  -- 182: DEP_ASSERT_BINARY_OPERABLE(|, LLHS{}, RRHS{}, LHS{}, RHS{})
    .parsersEq (tOr (P SpaceDot) (P Non4)) (P (.noneOf [99, 100])),  -- 182: DEP_ASSERT_PARSER_VALUES_EQ(LLHS{} | RRHS{}, none_of_parser<str>{}, LHS{} | RHS{}, none_of_parser<str>{})
    .isTerm (tOr (P SpaceDot) (P Non5)),  -- 182: DEP_ASSERT_BINARY_OPERABLE(|, LLHS{}, RRHS{}, LHS{}, RHS{})
    .parsersEq (tOr (P SpaceDot) (P Non5)) (P (.noneOf [122])),  -- 182: DEP_ASSERT_PARSER_VALUES_EQ(LLHS{} | RRHS{}, none_of_parser<str>{}, LHS{} | RHS{}, none_of_parser<str>{})
    .isTerm (tOr (P SpaceDot) (P All1)),  -- 182: DEP_ASSERT_BINARY_OPERABLE(|, LLHS{}, RRHS{}, LHS{}, RHS{})
    .parsersEq (tOr (P SpaceDot) (P All1)) (P (.choice [SpaceDot, All1])),  -- 182: DEP_ASSERT_PARSER_VALUES_EQ(LLHS{} | RRHS{},(choice_parser<LLHS, RRHS>{}), LHS{} | RHS{},(choice_parser<LHS, RHS>{}))
    .isTerm (tOr (P SpaceDot) (P All2)),  -- 182: DEP_ASSERT_BINARY_OPERABLE(|, LLHS{}, RRHS{}, LHS{}, RHS{})
    .parsersEq (tOr (P SpaceDot) (P All2)) (P (.choice [SpaceDot, All2])),  -- 182: DEP_ASSERT_PARSER_VALUES_EQ(LLHS{} | RRHS{},(choice_parser<LLHS, RRHS>{}), LHS{} | RHS{},(choice_parser<LHS, RHS>{}))
    .isTerm (tOr (P SpaceDot) (P All3)),  -- 182: DEP_ASSERT_BINARY_OPERABLE(|, LLHS{}, RRHS{}, LHS{}, RHS{})
    .parsersEq (tOr (P SpaceDot) (P All3)) (P (.choice [SpaceDot, All3])),  -- 182: DEP_ASSERT_PARSER_VALUES_EQ(LLHS{} | RRHS{},(choice_parser<LLHS, RRHS>{}), LHS{} | RHS{},(choice_parser<LHS, RHS>{}))
    .isTerm (tOr (P SpaceDot) (P All4)),  -- 182: DEP_ASSERT_BINARY_OPERABLE(|, LLHS{}, RRHS{}, LHS{}, RHS{})
    .parsersEq (tOr (P SpaceDot) (P All4)) (P (.choice [SpaceDot, All4])),  -- 182: DEP_ASSERT_PARSER_VALUES_EQ(LLHS{} | RRHS{},(choice_parser<LLHS, RRHS>{}), LHS{} | RHS{},(choice_parser<LHS, RHS>{}))
    .isTerm (tOr (P SpaceDot) (P Eps1)),  -- 182: DEP_ASSERT_BINARY_OPERABLE(|, LLHS{}, RRHS{}, LHS{}, RHS{})
    .parsersEq (tOr (P SpaceDot) (P Eps1)) (P (.choice [SpaceDot, Eps1])),  -- 182: DEP_ASSERT_PARSER_VALUES_EQ(LLHS{} | RRHS{},(choice_parser<LLHS, RRHS>{}), LHS{} | RHS{},(choice_parser<LHS, RHS>{}))
    .isTerm (tOr (P SpaceDot) (P Ant1)),  -- 182: DEP_ASSERT_BINARY_OPERABLE(|, LLHS{}, RRHS{}, LHS{}, RHS{})
    .parsersEq (tOr (P SpaceDot) (P Ant1)) (P (.choice [SpaceDot, Ant1])),  -- 182: DEP_ASSERT_PARSER_VALUES_EQ(LLHS{} | RRHS{},(choice_parser<LLHS, RRHS>{}), LHS{} | RHS{},(choice_parser<LHS, RHS>{}))
    .isTerm (tOr (P SpaceDot) (P QQ)),  -- 182: DEP_ASSERT_BINARY_OPERABLE(|, LLHS{}, RRHS{}, LHS{}, RHS{})
    .parsersEq (tOr (P SpaceDot) (P QQ)) (P (.choice [SpaceDot, QQ])),  -- 182: DEP_ASSERT_PARSER_VALUES_EQ(LLHS{} | RRHS{},(choice_parser<LLHS, RRHS>{}), LHS{} | RHS{},(choice_parser<LHS, RHS>{}))
    .isTerm (tOr (P SpaceDot) (P ABC)),  -- 182: DEP_ASSERT_BINARY_OPERABLE(|, LLHS{}, RRHS{}, LHS{}, RHS{})
    .parsersEq (tOr (P SpaceDot) (P ABC)) (P (.choice [SpaceDot, ABC])),  -- 182: DEP_ASSERT_PARSER_VALUES_EQ(LLHS{} | RRHS{},(choice_parser<LLHS, RRHS>{}), LHS{} | RHS{},(choice_parser<LHS, RHS>{}))
    .isTerm (tOr (P SpaceDot) (P Comma)),  -- 182: DEP_ASSERT_BINARY_OPERABLE(|, LLHS{}, RRHS{}, LHS{}, RHS{})
    .parsersEq (tOr (P SpaceDot) (P Comma)) (P (.anyOf [32, 44, 46]))  -- 182: DEP_ASSERT_PARSER_VALUES_EQ(LLHS{} | RRHS{}, any_of_parser<str>{}, LHS{} | RHS{}, any_of_parser<str>{})
    ], Assertion.Holds a :=
  Assertion.holds_of_check (by decide +kernel)

/-- choice operator / {anything} | {anything} (tests/char-tests/operators/choice.cpp:182) -/
theorem charOperatorsChoice_7_13 : ∀ a ∈ [
    .isTerm (tOr (P SpaceDot) (P SpaceDot)),  -- 182: DEP_ASSERT_BINARY_OPERABLE(|, LLHS{}, RRHS{}, LHS{}, RHS{})
    .parsersEq (tOr (P SpaceDot) (P SpaceDot)) (P SpaceDot)  -- 182: DEP_ASSERT_PARSER_VALUES_EQ(LLHS{} | RRHS{}, LLHS{}, LHS{} | RHS{}, LHS{})
    ], Assertion.Holds a :=
  Assertion.holds_of_check (by decide +kernel)

end Tok3n.Tests
