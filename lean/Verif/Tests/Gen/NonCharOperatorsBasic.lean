import Verif.Tests.Gen.SamplesNonChar
/- Generated by tools/tests2lean.py from tests/non-char-tests/operators/basic.cpp. -/

namespace Tok3n.Tests.NonChar

/-- basic operators / any<> (tests/non-char-tests/operators/basic.cpp:18) -/
theorem nonCharOperatorsBasic_1 : ∀ a ∈ [
    .parsersEq (lAny [1, 2, 3]) (P Any1),  -- 18: ASSERT_PARSER_VALUES_EQ(any<static_array(A, B, C)>, any1)
    .parsersEq (lAny [2, 3, 4]) (P Any2),  -- 19: ASSERT_PARSER_VALUES_EQ(any<static_array(B, C, D)>, any2)
    .parsersEq (lAny [5, 6, 7]) (P Any3),  -- 21: ASSERT_PARSER_VALUES_EQ(any<static_array(X, Y, Z)>, any3)
    .parsersEq (lAny [2, 3]) (P Any4),  -- 22: ASSERT_PARSER_VALUES_EQ(any<static_array(B, C)>, any4)
    .parsersEq (lAny [9]) (P Comma),  -- 23: ASSERT_PARSER_VALUES_EQ(any<static_array(Com)>, comma)
    .parsersEq (lAny [10, 11]) (P SpaceDot),  -- 24: ASSERT_PARSER_VALUES_EQ(any<static_array(Space, Dot)>, spacedot)
    .parsersEq (lAny []) (P (.anyOf []))  -- 25: ASSERT_PARSER_VALUES_EQ(any <(static_array<value_type, 0>{})>, any_of_parser <(static_array<value_type, 0>{})>{})
    ], Assertion.Holds a :=
  Assertion.holds_of_check (by decide +kernel)

/-- basic operators / any_of<> (tests/non-char-tests/operators/basic.cpp:34) -/
theorem nonCharOperatorsBasic_2 : ∀ a ∈ [
    .parsersEq (lAny [1, 2, 3]) (P Any1),  -- 34: ASSERT_PARSER_VALUES_EQ((any_of<A, B, C>), any1)
    .parsersEq (lAny [2, 3, 4]) (P Any2),  -- 35: ASSERT_PARSER_VALUES_EQ((any_of<B, C, D>), any2)
    .parsersEq (lAny [5, 6, 7]) (P Any3),  -- 37: ASSERT_PARSER_VALUES_EQ((any_of<X, Y, Z>), any3)
    .parsersEq (lAny [2, 3]) (P Any4),  -- 38: ASSERT_PARSER_VALUES_EQ((any_of<B, C>), any4)
    .parsersEq (lAny [9]) (P Comma),  -- 39: ASSERT_PARSER_VALUES_EQ((any_of<Com>), comma)
    .parsersEq (lAny [10, 11]) (P SpaceDot)  -- 40: ASSERT_PARSER_VALUES_EQ((any_of<Space, Dot>), spacedot)
    ], Assertion.Holds a :=
  Assertion.holds_of_check (by decide +kernel)

/-- basic operators / none<> (tests/non-char-tests/operators/basic.cpp:49) -/
theorem nonCharOperatorsBasic_3 : ∀ a ∈ [
    .parsersEq (lNone [1, 2, 3]) (P Non1),  -- 49: ASSERT_PARSER_VALUES_EQ(none<static_array(A, B, C)>, none1)
    .parsersEq (lNone [2, 3, 4]) (P Non2),  -- 50: ASSERT_PARSER_VALUES_EQ(none<static_array(B, C, D)>, none2)
    .parsersEq (lNone [5, 6, 7]) (P Non3),  -- 52: ASSERT_PARSER_VALUES_EQ(none<static_array(X, Y, Z)>, none3)
    .parsersEq (lNone [2, 3]) (P Non4),  -- 53: ASSERT_PARSER_VALUES_EQ(none<static_array(B, C)>, none4)
    .parsersEq (lNone [7]) (P Non5),  -- 54: ASSERT_PARSER_VALUES_EQ(none<static_array(Z)>, none5)
    .parsersEq (lNone []) (P (.noneOf []))  -- 55: ASSERT_PARSER_VALUES_EQ(none <(static_array<value_type, 0>{})>, none_of_parser <(static_array<value_type, 0>{})>{})
    ], Assertion.Holds a :=
  Assertion.holds_of_check (by decide +kernel)

/-- basic operators / none_of<> (tests/non-char-tests/operators/basic.cpp:64) -/
theorem nonCharOperatorsBasic_4 : ∀ a ∈ [
    .parsersEq (lNone [1, 2, 3]) (P Non1),  -- 64: ASSERT_PARSER_VALUES_EQ((none_of<A, B, C>), none1)
    .parsersEq (lNone [2, 3, 4]) (P Non2),  -- 65: ASSERT_PARSER_VALUES_EQ((none_of<B, C, D>), none2)
    .parsersEq (lNone [5, 6, 7]) (P Non3),  -- 67: ASSERT_PARSER_VALUES_EQ((none_of<X, Y, Z>), none3)
    .parsersEq (lNone [2, 3]) (P Non4),  -- 68: ASSERT_PARSER_VALUES_EQ((none_of<B, C>), none4)
    .parsersEq (lNone [7]) (P Non5)  -- 69: ASSERT_PARSER_VALUES_EQ((none_of<Z>), none5)
    ], Assertion.Holds a :=
  Assertion.holds_of_check (by decide +kernel)

/-- basic operators / all<> (tests/non-char-tests/operators/basic.cpp:74) -/
theorem nonCharOperatorsBasic_5 : ∀ a ∈ [
    .parsersEq (lAll [5, 6, 7]) (P All1),  -- 74: ASSERT_PARSER_VALUES_EQ(all<static_array(X, Y, Z)>, all1)
    .parsersEq (lAll [6, 7]) (P All2),  -- 75: ASSERT_PARSER_VALUES_EQ(all<static_array(Y, Z)>, all2)
    .parsersEq (lAll [1, 2]) (P All3),  -- 76: ASSERT_PARSER_VALUES_EQ(all<static_array(A, B)>, all3)
    .parsersEq (lAll [8, 8]) (P QQ),  -- 77: ASSERT_PARSER_VALUES_EQ(all<static_array(Question, Question)>, qq)
    .parsersEq (lAll [1, 2, 3]) (P ABC),  -- 78: ASSERT_PARSER_VALUES_EQ(all<static_array(A, B, C)>, abc)
    .parsersEq (lAll []) (P (.allOf []))  -- 79: ASSERT_PARSER_VALUES_EQ(all <(static_array<value_type, 0>{})>, all_of_parser <(static_array<value_type, 0>{})>{})
    ], Assertion.Holds a :=
  Assertion.holds_of_check (by decide +kernel)

/-- basic operators / all_of<> (tests/non-char-tests/operators/basic.cpp:84) -/
theorem nonCharOperatorsBasic_6 : ∀ a ∈ [
    .parsersEq (lAll [5, 6, 7]) (P All1),  -- 84: ASSERT_PARSER_VALUES_EQ((all_of<X, Y, Z>), all1)
    .parsersEq (lAll [6, 7]) (P All2),  -- 85: ASSERT_PARSER_VALUES_EQ((all_of<Y, Z>), all2)
    .parsersEq (lAll [1, 2]) (P All3),  -- 86: ASSERT_PARSER_VALUES_EQ((all_of<A, B>), all3)
    .parsersEq (lAll [8, 8]) (P QQ),  -- 87: ASSERT_PARSER_VALUES_EQ((all_of<Question, Question>), qq)
    .parsersEq (lAll [1, 2, 3]) (P ABC)  -- 88: ASSERT_PARSER_VALUES_EQ((all_of<A, B, C>), abc)
    ], Assertion.Holds a :=
  Assertion.holds_of_check (by decide +kernel)

/-- basic operators / ign<> (tests/non-char-tests/operators/basic.cpp:93) -/
theorem nonCharOperatorsBasic_7 : ∀ a ∈ [
    .parsersEq (lIgn [5, 6, 7]) (P (.ignore All1)),  -- 93: ASSERT_PARSER_VALUES_EQ(ign<static_array(X, Y, Z)>, ignore_parser<All1>{})
    .parsersEq (lIgn [6, 7]) (P (.ignore All2)),  -- 94: ASSERT_PARSER_VALUES_EQ(ign<static_array(Y, Z)>, ignore_parser<All2>{})
    .parsersEq (lIgn [1, 2]) (P (.ignore All3)),  -- 95: ASSERT_PARSER_VALUES_EQ(ign<static_array(A, B)>, ignore_parser<All3>{})
    .parsersEq (lIgn [8, 8]) (P (.ignore QQ)),  -- 96: ASSERT_PARSER_VALUES_EQ(ign<static_array(Question, Question)>, ignore_parser<QQ>{})
    .parsersEq (lIgn [1, 2, 3]) (P (.ignore ABC)),  -- 97: ASSERT_PARSER_VALUES_EQ(ign<static_array(A, B, C)>, ignore_parser<ABC>{})
    .parsersEq (lIgn []) (P (.ignore (.allOf [])))  -- 98: ASSERT_PARSER_VALUES_EQ(ign <(static_array<value_type, 0>{})>, ignore_parser<all_of_parser <(static_array<value_type, 0>{})>>{})
    ], Assertion.Holds a :=
  Assertion.holds_of_check (by decide +kernel)

/-- basic operators / Non sorted_and_uniqued (tests/non-char-tests/operators/basic.cpp:130) -/
theorem nonCharOperatorsBasic_8 : ∀ a ∈ [
    .parsersEq (lAny [2, 1, 3, 1, 3, 2, 1, 1, 2, 3, 3, 1]) (P (.anyOf [1, 2, 3])),  -- 130: ASSERT_PARSER_VALUES_EQ(any<static_array(B, A, C, A, C, B, A, A, B, C, C, A)>, any_of_parser<static_array(A, B, C)>{})
    .parsersEq (lNone [2, 1, 3, 1, 3, 2, 1, 1, 2, 3, 3, 1]) (P (.noneOf [1, 2, 3])),  -- 131: ASSERT_PARSER_VALUES_EQ(none<static_array(B, A, C, A, C, B, A, A, B, C, C, A)>, none_of_parser<static_array(A, B, C)>{})
    .parsersEq (lAny [5, 6, 7, 1, 2, 3]) (P (.anyOf [1, 2, 3, 5, 6, 7])),  -- 132: ASSERT_PARSER_VALUES_EQ(any<static_array(X, Y, Z, A, B, C)>, any_of_parser<static_array(A, B, C, X, Y, Z)>{})
    .parsersEq (lNone [5, 6, 7, 1, 2, 3]) (P (.noneOf [1, 2, 3, 5, 6, 7])),  -- 133: ASSERT_PARSER_VALUES_EQ(none<static_array(X, Y, Z, A, B, C)>, none_of_parser<static_array(A, B, C, X, Y, Z)>{})
    .parsersEq (lAny [1, 2, 3, 5, 6, 7]) (P (.anyOf [1, 2, 3, 5, 6, 7])),  -- 134: ASSERT_PARSER_VALUES_EQ(any<static_array(A, B, C, X, Y, Z)>, any_of_parser<static_array(A, B, C, X, Y, Z)>{})
    .parsersEq (lNone [1, 2, 3, 5, 6, 7]) (P (.noneOf [1, 2, 3, 5, 6, 7])),  -- 135: ASSERT_PARSER_VALUES_EQ(none<static_array(A, B, C, X, Y, Z)>, none_of_parser<static_array(A, B, C, X, Y, Z)>{})
    .parsersEq (lAny [1, 5, 2, 6, 3, 7]) (P (.anyOf [1, 2, 3, 5, 6, 7])),  -- 136: ASSERT_PARSER_VALUES_EQ(any<static_array(A, X, B, Y, C, Z)>, any_of_parser<static_array(A, B, C, X, Y, Z)>{})
    .parsersEq (lNone [1, 5, 2, 6, 3, 7]) (P (.noneOf [1, 2, 3, 5, 6, 7]))  -- 137: ASSERT_PARSER_VALUES_EQ(none<static_array(A, X, B, Y, C, Z)>, none_of_parser<static_array(A, B, C, X, Y, Z)>{})
    ], Assertion.Holds a :=
  Assertion.holds_of_check (by decide +kernel)

end Tok3n.Tests.NonChar
