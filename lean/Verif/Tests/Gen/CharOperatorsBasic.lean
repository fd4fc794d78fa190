import Verif.Tests.Gen.SamplesChar
/- Generated by tools/tests2lean.py from tests/char-tests/operators/basic.cpp. -/

namespace Tok3n.Tests

/-- basic operators / UDL _any (tests/char-tests/operators/basic.cpp:14) -/
theorem charOperatorsBasic_1 : ∀ a ∈ [
    .parsersEq (lAny [97, 98, 99]) (P Any1),  -- 14: ASSERT_PARSER_VALUES_EQ(TT("abc"_any), any1)
    .parsersEq (lAny [98, 99, 100]) (P Any2),  -- 15: ASSERT_PARSER_VALUES_EQ(TT("bcd"_any), any2)
    .parsersEq (lAny [120, 121, 122]) (P Any3),  -- 16: ASSERT_PARSER_VALUES_EQ(TT("xyz"_any), any3)
    .parsersEq (lAny [99, 100]) (P Any4),  -- 17: ASSERT_PARSER_VALUES_EQ(TT("cd"_any), any4)
    .parsersEq (lAny [44]) (P Comma),  -- 18: ASSERT_PARSER_VALUES_EQ(TT(","_any), comma)
    .parsersEq (lAny [32, 46]) (P SpaceDot),  -- 19: ASSERT_PARSER_VALUES_EQ(TT(" ."_any), spacedot)
    .parsersEq (lAny []) (P (.anyOf []))  -- 20: ASSERT_PARSER_VALUES_EQ(TT(""_any), any_of_parser<TT("")>{})
    ], Assertion.Holds a :=
  Assertion.holds_of_check (by decide +kernel)

/-- basic operators / UDL _any_of (tests/char-tests/operators/basic.cpp:25) -/
theorem charOperatorsBasic_2 : ∀ a ∈ [
    .parsersEq (lAny [97, 98, 99]) (P Any1),  -- 25: ASSERT_PARSER_VALUES_EQ(TT("abc"_any_of), any1)
    .parsersEq (lAny [98, 99, 100]) (P Any2),  -- 26: ASSERT_PARSER_VALUES_EQ(TT("bcd"_any_of), any2)
    .parsersEq (lAny [120, 121, 122]) (P Any3),  -- 27: ASSERT_PARSER_VALUES_EQ(TT("xyz"_any_of), any3)
    .parsersEq (lAny [99, 100]) (P Any4),  -- 28: ASSERT_PARSER_VALUES_EQ(TT("cd"_any_of), any4)
    .parsersEq (lAny [44]) (P Comma),  -- 29: ASSERT_PARSER_VALUES_EQ(TT(","_any_of), comma)
    .parsersEq (lAny [32, 46]) (P SpaceDot),  -- 30: ASSERT_PARSER_VALUES_EQ(TT(" ."_any_of), spacedot)
    .parsersEq (lAny []) (P (.anyOf []))  -- 31: ASSERT_PARSER_VALUES_EQ(TT(""_any_of), any_of_parser<TT("")>{})
    ], Assertion.Holds a :=
  Assertion.holds_of_check (by decide +kernel)

/-- basic operators / any<> (tests/char-tests/operators/basic.cpp:36) -/
theorem charOperatorsBasic_3 : ∀ a ∈ [
    .parsersEq (lAny [97, 98, 99]) (P Any1),  -- 36: ASSERT_PARSER_VALUES_EQ(any<TT("abc")>, any1)
    .parsersEq (lAny [98, 99, 100]) (P Any2),  -- 37: ASSERT_PARSER_VALUES_EQ(any<TT("bcd")>, any2)
    .parsersEq (lAny [120, 121, 122]) (P Any3),  -- 38: ASSERT_PARSER_VALUES_EQ(any<TT("xyz")>, any3)
    .parsersEq (lAny [99, 100]) (P Any4),  -- 39: ASSERT_PARSER_VALUES_EQ(any<TT("cd")>, any4)
    .parsersEq (lAny [44]) (P Comma),  -- 40: ASSERT_PARSER_VALUES_EQ(any<TT(",")>, comma)
    .parsersEq (lAny [32, 46]) (P SpaceDot),  -- 41: ASSERT_PARSER_VALUES_EQ(any<TT(" .")>, spacedot)
    .parsersEq (lAny []) (P (.anyOf []))  -- 42: ASSERT_PARSER_VALUES_EQ(any<TT("")>, any_of_parser<TT("")>{})
    ], Assertion.Holds a :=
  Assertion.holds_of_check (by decide +kernel)

/-- basic operators / any_of<> (tests/char-tests/operators/basic.cpp:47) -/
theorem charOperatorsBasic_4 : ∀ a ∈ [
    .parsersEq (lAny [97, 98, 99]) (P Any1),  -- 47: ASSERT_PARSER_VALUES_EQ((any_of<TT('a'), TT('b'), TT('c')>), any1)
    .parsersEq (lAny [98, 99, 100]) (P Any2),  -- 48: ASSERT_PARSER_VALUES_EQ((any_of<TT('b'), TT('c'), TT('d')>), any2)
    .parsersEq (lAny [120, 121, 122]) (P Any3),  -- 49: ASSERT_PARSER_VALUES_EQ((any_of<TT('x'), TT('y'), TT('z')>), any3)
    .parsersEq (lAny [99, 100]) (P Any4),  -- 50: ASSERT_PARSER_VALUES_EQ((any_of<TT('c'), TT('d')>), any4)
    .parsersEq (lAny [44]) (P Comma),  -- 51: ASSERT_PARSER_VALUES_EQ((any_of<TT(',')>), comma)
    .parsersEq (lAny [32, 46]) (P SpaceDot)  -- 52: ASSERT_PARSER_VALUES_EQ((any_of<TT(' '), TT('.')>), spacedot)
    ], Assertion.Holds a :=
  Assertion.holds_of_check (by decide +kernel)

/-- basic operators / UDL _none (tests/char-tests/operators/basic.cpp:57) -/
theorem charOperatorsBasic_5 : ∀ a ∈ [
    .parsersEq (lNone [97, 98, 99]) (P Non1),  -- 57: ASSERT_PARSER_VALUES_EQ(TT("abc"_none), none1)
    .parsersEq (lNone [98, 99, 100]) (P Non2),  -- 58: ASSERT_PARSER_VALUES_EQ(TT("bcd"_none), none2)
    .parsersEq (lNone [120, 121, 122]) (P Non3),  -- 59: ASSERT_PARSER_VALUES_EQ(TT("xyz"_none), none3)
    .parsersEq (lNone [99, 100]) (P Non4),  -- 60: ASSERT_PARSER_VALUES_EQ(TT("cd"_none), none4)
    .parsersEq (lNone [122]) (P Non5),  -- 61: ASSERT_PARSER_VALUES_EQ(TT("z"_none), none5)
    .parsersEq (lNone []) (P (.noneOf []))  -- 62: ASSERT_PARSER_VALUES_EQ(TT(""_none), none_of_parser<TT("")>{})
    ], Assertion.Holds a :=
  Assertion.holds_of_check (by decide +kernel)

/-- basic operators / UDL _none_of (tests/char-tests/operators/basic.cpp:67) -/
theorem charOperatorsBasic_6 : ∀ a ∈ [
    .parsersEq (lNone [97, 98, 99]) (P Non1),  -- 67: ASSERT_PARSER_VALUES_EQ(TT("abc"_none_of), none1)
    .parsersEq (lNone [98, 99, 100]) (P Non2),  -- 68: ASSERT_PARSER_VALUES_EQ(TT("bcd"_none_of), none2)
    .parsersEq (lNone [120, 121, 122]) (P Non3),  -- 69: ASSERT_PARSER_VALUES_EQ(TT("xyz"_none_of), none3)
    .parsersEq (lNone [99, 100]) (P Non4),  -- 70: ASSERT_PARSER_VALUES_EQ(TT("cd"_none_of), none4)
    .parsersEq (lNone [122]) (P Non5),  -- 71: ASSERT_PARSER_VALUES_EQ(TT("z"_none_of), none5)
    .parsersEq (lNone []) (P (.noneOf []))  -- 72: ASSERT_PARSER_VALUES_EQ(TT(""_none_of), none_of_parser<TT("")>{})
    ], Assertion.Holds a :=
  Assertion.holds_of_check (by decide +kernel)

/-- basic operators / none<> (tests/char-tests/operators/basic.cpp:77) -/
theorem charOperatorsBasic_7 : ∀ a ∈ [
    .parsersEq (lNone [97, 98, 99]) (P Non1),  -- 77: ASSERT_PARSER_VALUES_EQ(none<TT("abc")>, none1)
    .parsersEq (lNone [98, 99, 100]) (P Non2),  -- 78: ASSERT_PARSER_VALUES_EQ(none<TT("bcd")>, none2)
    .parsersEq (lNone [120, 121, 122]) (P Non3),  -- 79: ASSERT_PARSER_VALUES_EQ(none<TT("xyz")>, none3)
    .parsersEq (lNone [99, 100]) (P Non4),  -- 80: ASSERT_PARSER_VALUES_EQ(none<TT("cd")>, none4)
    .parsersEq (lNone [122]) (P Non5),  -- 81: ASSERT_PARSER_VALUES_EQ(none<TT("z")>, none5)
    .parsersEq (lNone []) (P (.noneOf []))  -- 82: ASSERT_PARSER_VALUES_EQ(none<TT("")>, none_of_parser<TT("")>{})
    ], Assertion.Holds a :=
  Assertion.holds_of_check (by decide +kernel)

/-- basic operators / none_of<> (tests/char-tests/operators/basic.cpp:87) -/
theorem charOperatorsBasic_8 : ∀ a ∈ [
    .parsersEq (lNone [97, 98, 99]) (P Non1),  -- 87: ASSERT_PARSER_VALUES_EQ((none_of<TT('a'), TT('b'), TT('c')>), none1)
    .parsersEq (lNone [98, 99, 100]) (P Non2),  -- 88: ASSERT_PARSER_VALUES_EQ((none_of<TT('b'), TT('c'), TT('d')>), none2)
    .parsersEq (lNone [120, 121, 122]) (P Non3),  -- 89: ASSERT_PARSER_VALUES_EQ((none_of<TT('x'), TT('y'), TT('z')>), none3)
    .parsersEq (lNone [99, 100]) (P Non4),  -- 90: ASSERT_PARSER_VALUES_EQ((none_of<TT('c'), TT('d')>), none4)
    .parsersEq (lNone [122]) (P Non5)  -- 91: ASSERT_PARSER_VALUES_EQ((none_of<TT('z')>), none5)
    ], Assertion.Holds a :=
  Assertion.holds_of_check (by decide +kernel)

/-- basic operators / UDL _all (tests/char-tests/operators/basic.cpp:96) -/
theorem charOperatorsBasic_9 : ∀ a ∈ [
    .parsersEq (lAll [108, 105, 116, 101, 114, 97, 108]) (P All1),  -- 96: ASSERT_PARSER_VALUES_EQ(TT("literal"_all), all1)
    .parsersEq (lAll [108, 121]) (P All2),  -- 97: ASSERT_PARSER_VALUES_EQ(TT("ly"_all), all2)
    .parsersEq (lAll [116, 101, 115, 116]) (P All3),  -- 98: ASSERT_PARSER_VALUES_EQ(TT("test"_all), all3)
    .parsersEq (lAll [97, 98]) (P All4),  -- 99: ASSERT_PARSER_VALUES_EQ(TT("ab"_all), all4)
    .parsersEq (lAll [63, 63]) (P QQ),  -- 100: ASSERT_PARSER_VALUES_EQ(TT("??"_all), qq)
    .parsersEq (lAll [97, 98, 99]) (P ABC),  -- 101: ASSERT_PARSER_VALUES_EQ(TT("abc"_all), abc)
    .parsersEq (lAll []) (P (.allOf []))  -- 102: ASSERT_PARSER_VALUES_EQ(TT(""_all), all_of_parser<TT("")>{})
    ], Assertion.Holds a :=
  Assertion.holds_of_check (by decide +kernel)

/-- basic operators / UDL _all_of (tests/char-tests/operators/basic.cpp:107) -/
theorem charOperatorsBasic_10 : ∀ a ∈ [
    .parsersEq (lAll [108, 105, 116, 101, 114, 97, 108]) (P All1),  -- 107: ASSERT_PARSER_VALUES_EQ(TT("literal"_all_of), all1)
    .parsersEq (lAll [108, 121]) (P All2),  -- 108: ASSERT_PARSER_VALUES_EQ(TT("ly"_all_of), all2)
    .parsersEq (lAll [116, 101, 115, 116]) (P All3),  -- 109: ASSERT_PARSER_VALUES_EQ(TT("test"_all_of), all3)
    .parsersEq (lAll [97, 98]) (P All4),  -- 110: ASSERT_PARSER_VALUES_EQ(TT("ab"_all_of), all4)
    .parsersEq (lAll [63, 63]) (P QQ),  -- 111: ASSERT_PARSER_VALUES_EQ(TT("??"_all_of), qq)
    .parsersEq (lAll [97, 98, 99]) (P ABC),  -- 112: ASSERT_PARSER_VALUES_EQ(TT("abc"_all_of), abc)
    .parsersEq (lAll []) (P (.allOf []))  -- 113: ASSERT_PARSER_VALUES_EQ(TT(""_all_of), all_of_parser<TT("")>{})
    ], Assertion.Holds a :=
  Assertion.holds_of_check (by decide +kernel)

/-- basic operators / all<> (tests/char-tests/operators/basic.cpp:118) -/
theorem charOperatorsBasic_11 : ∀ a ∈ [
    .parsersEq (lAll [108, 105, 116, 101, 114, 97, 108]) (P All1),  -- 118: ASSERT_PARSER_VALUES_EQ(all<TT("literal")>, all1)
    .parsersEq (lAll [108, 121]) (P All2),  -- 119: ASSERT_PARSER_VALUES_EQ(all<TT("ly")>, all2)
    .parsersEq (lAll [116, 101, 115, 116]) (P All3),  -- 120: ASSERT_PARSER_VALUES_EQ(all<TT("test")>, all3)
    .parsersEq (lAll [97, 98]) (P All4),  -- 121: ASSERT_PARSER_VALUES_EQ(all<TT("ab")>, all4)
    .parsersEq (lAll [63, 63]) (P QQ),  -- 122: ASSERT_PARSER_VALUES_EQ(all<TT("??")>, qq)
    .parsersEq (lAll [97, 98, 99]) (P ABC),  -- 123: ASSERT_PARSER_VALUES_EQ(all<TT("abc")>, abc)
    .parsersEq (lAll []) (P (.allOf []))  -- 124: ASSERT_PARSER_VALUES_EQ(all<TT("")>, all_of_parser<TT("")>{})
    ], Assertion.Holds a :=
  Assertion.holds_of_check (by decide +kernel)

/-- basic operators / all_of<> (tests/char-tests/operators/basic.cpp:129) -/
theorem charOperatorsBasic_12 : ∀ a ∈ [
    .parsersEq (lAll [108, 105, 116, 101, 114, 97, 108]) (P All1),  -- 129: ASSERT_PARSER_VALUES_EQ((all_of<TT('l'), TT('i'), TT('t'), TT('e'), TT('r'), TT('a'), TT('l')>), all1)
    .parsersEq (lAll [108, 121]) (P All2),  -- 130: ASSERT_PARSER_VALUES_EQ((all_of<TT('l'), TT('y')>), all2)
    .parsersEq (lAll [116, 101, 115, 116]) (P All3),  -- 131: ASSERT_PARSER_VALUES_EQ((all_of<TT('t'), TT('e'), TT('s'), TT('t')>), all3)
    .parsersEq (lAll [97, 98]) (P All4),  -- 132: ASSERT_PARSER_VALUES_EQ((all_of<TT('a'), TT('b')>), all4)
    .parsersEq (lAll [63, 63]) (P QQ),  -- 133: ASSERT_PARSER_VALUES_EQ((all_of<TT('?'), TT('?')>), qq)
    .parsersEq (lAll [97, 98, 99]) (P ABC)  -- 134: ASSERT_PARSER_VALUES_EQ((all_of<TT('a'), TT('b'), TT('c')>), abc)
    ], Assertion.Holds a :=
  Assertion.holds_of_check (by decide +kernel)

/-- basic operators / UDL _ign (tests/char-tests/operators/basic.cpp:139) -/
theorem charOperatorsBasic_13 : ∀ a ∈ [
    .parsersEq (lIgn [108, 105, 116, 101, 114, 97, 108]) (P (.ignore All1)),  -- 139: ASSERT_PARSER_VALUES_EQ(TT("literal"_ign), ignore_parser<All1>{})
    .parsersEq (lIgn [108, 121]) (P (.ignore All2)),  -- 140: ASSERT_PARSER_VALUES_EQ(TT("ly"_ign), ignore_parser<All2>{})
    .parsersEq (lIgn [116, 101, 115, 116]) (P (.ignore All3)),  -- 141: ASSERT_PARSER_VALUES_EQ(TT("test"_ign), ignore_parser<All3>{})
    .parsersEq (lIgn [97, 98]) (P (.ignore All4)),  -- 142: ASSERT_PARSER_VALUES_EQ(TT("ab"_ign), ignore_parser<All4>{})
    .parsersEq (lIgn [63, 63]) (P (.ignore QQ)),  -- 143: ASSERT_PARSER_VALUES_EQ(TT("??"_ign), ignore_parser<QQ>{})
    .parsersEq (lIgn [97, 98, 99]) (P (.ignore ABC)),  -- 144: ASSERT_PARSER_VALUES_EQ(TT("abc"_ign), ignore_parser<ABC>{})
    .parsersEq (lIgn []) (P (.ignore (.allOf [])))  -- 145: ASSERT_PARSER_VALUES_EQ(TT(""_ign), ignore_parser<all_of_parser<TT("")>>{})
    ], Assertion.Holds a :=
  Assertion.holds_of_check (by decide +kernel)

/-- basic operators / ign<> (tests/char-tests/operators/basic.cpp:150) -/
theorem charOperatorsBasic_14 : ∀ a ∈ [
    .parsersEq (lIgn [108, 105, 116, 101, 114, 97, 108]) (P (.ignore All1)),  -- 150: ASSERT_PARSER_VALUES_EQ(ign<TT("literal")>, ignore_parser<All1>{})
    .parsersEq (lIgn [108, 121]) (P (.ignore All2)),  -- 151: ASSERT_PARSER_VALUES_EQ(ign<TT("ly")>, ignore_parser<All2>{})
    .parsersEq (lIgn [116, 101, 115, 116]) (P (.ignore All3)),  -- 152: ASSERT_PARSER_VALUES_EQ(ign<TT("test")>, ignore_parser<All3>{})
    .parsersEq (lIgn [97, 98]) (P (.ignore All4)),  -- 153: ASSERT_PARSER_VALUES_EQ(ign<TT("ab")>, ignore_parser<All4>{})
    .parsersEq (lIgn [63, 63]) (P (.ignore QQ)),  -- 154: ASSERT_PARSER_VALUES_EQ(ign<TT("??")>, ignore_parser<QQ>{})
    .parsersEq (lIgn [97, 98, 99]) (P (.ignore ABC)),  -- 155: ASSERT_PARSER_VALUES_EQ(ign<TT("abc")>, ignore_parser<ABC>{})
    .parsersEq (lIgn []) (P (.ignore (.allOf [])))  -- 156: ASSERT_PARSER_VALUES_EQ(ign<TT("")>, ignore_parser<all_of_parser<TT("")>>{})
    ], Assertion.Holds a :=
  Assertion.holds_of_check (by decide +kernel)

/-- basic operators / Non sorted_and_uniqued (tests/char-tests/operators/basic.cpp:161) -/
theorem charOperatorsBasic_15 : ∀ a ∈ [
    .parsersEq (lAny [50, 49, 50, 51, 49, 50, 51, 50, 51, 51, 50, 49, 50, 49, 50, 51, 49, 49]) (P (.anyOf [49, 50, 51])),  -- 161: ASSERT_PARSER_VALUES_EQ(TT("212312323321212311"_any), any_of_parser<TT("123")>{})
    .parsersEq (lNone [50, 49, 50, 51, 49, 50, 51, 50, 51, 51, 50, 49, 50, 49, 50, 51, 49, 49]) (P (.noneOf [49, 50, 51])),  -- 162: ASSERT_PARSER_VALUES_EQ(TT("212312323321212311"_none), none_of_parser<TT("123")>{})
    .parsersEq (lAny [49, 50, 51, 97, 98, 99]) (P (.anyOf [49, 50, 51, 97, 98, 99])),  -- 163: ASSERT_PARSER_VALUES_EQ(TT("123abc"_any), any_of_parser<TT("123abc")>{})
    .parsersEq (lNone [49, 50, 51, 97, 98, 99]) (P (.noneOf [49, 50, 51, 97, 98, 99])),  -- 164: ASSERT_PARSER_VALUES_EQ(TT("123abc"_none), none_of_parser<TT("123abc")>{})
    .parsersEq (lAny [97, 98, 99, 49, 50, 51]) (P (.anyOf [49, 50, 51, 97, 98, 99])),  -- 165: ASSERT_PARSER_VALUES_EQ(TT("abc123"_any), any_of_parser<TT("123abc")>{})
    .parsersEq (lNone [97, 98, 99, 49, 50, 51]) (P (.noneOf [49, 50, 51, 97, 98, 99])),  -- 166: ASSERT_PARSER_VALUES_EQ(TT("abc123"_none), none_of_parser<TT("123abc")>{})
    .parsersEq (lAny [97, 49, 98, 50, 99, 51]) (P (.anyOf [49, 50, 51, 97, 98, 99])),  -- 167: ASSERT_PARSER_VALUES_EQ(TT("a1b2c3"_any), any_of_parser<TT("123abc")>{})
    .parsersEq (lNone [97, 49, 98, 50, 99, 51]) (P (.noneOf [49, 50, 51, 97, 98, 99])),  -- 168: ASSERT_PARSER_VALUES_EQ(TT("a1b2c3"_none), none_of_parser<TT("123abc")>{})
    .parsersEq (lAny [65, 97]) (P (.anyOf [65, 97])),  -- 169: ASSERT_PARSER_VALUES_EQ(TT("Aa"_any), any_of_parser<TT("Aa")>{})
    .parsersEq (lNone [65, 97]) (P (.noneOf [65, 97])),  -- 170: ASSERT_PARSER_VALUES_EQ(TT("Aa"_none), none_of_parser<TT("Aa")>{})
    .parsersEq (lAny [97, 65]) (P (.anyOf [65, 97])),  -- 171: ASSERT_PARSER_VALUES_EQ(TT("aA"_any), any_of_parser<TT("Aa")>{})
    .parsersEq (lNone [97, 65]) (P (.noneOf [65, 97])),  -- 172: ASSERT_PARSER_VALUES_EQ(TT("aA"_none), none_of_parser<TT("Aa")>{})
    .parsersEq (lAny [65]) (P (.anyOf [65])),  -- 173: ASSERT_PARSER_VALUES_EQ(TT("A"_any), any_of_parser<TT("A")>{})
    .parsersEq (lNone [65]) (P (.noneOf [65])),  -- 174: ASSERT_PARSER_VALUES_EQ(TT("A"_none), none_of_parser<TT("A")>{})
    .parsersEq (lAny []) (P (.anyOf [])),  -- 175: ASSERT_PARSER_VALUES_EQ(TT(""_any), any_of_parser<TT("")>{})
    .parsersEq (lNone []) (P (.noneOf []))  -- 176: ASSERT_PARSER_VALUES_EQ(TT(""_none), none_of_parser<TT("")>{})
    ], Assertion.Holds a :=
  Assertion.holds_of_check (by decide +kernel)

end Tok3n.Tests
