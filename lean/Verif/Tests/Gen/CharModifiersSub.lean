import Verif.Tests.Gen.SamplesChar
/- Generated by tools/tests2lean.py from tests/char-tests/modifiers/sub.cpp. -/

namespace Tok3n.Tests

/-- sub modifier / prefix (tests/char-tests/modifiers/sub.cpp:57) -/
theorem charModifiersSub_1 : ∀ a ∈ [
    .parsersEq (tSubOn (P Nam1) [(⟨0, [110, 97, 109, 49]⟩, (M .ignore))]) (P (.ignore ABC)),  -- 57: ASSERT_PARSER_VALUES_EQ(sub(nam1, sub11), ignore_parser<_21>{})
    .parsersEq (tSubOn (P Nam1) [(⟨0, [110, 97, 109, 50]⟩, (M .join))]) (P Nam1),  -- 58: ASSERT_PARSER_VALUES_EQ(sub(nam1, sub21), nam1)
    .parsersEq (tSubOn (P Nam1) [(⟨0, [110, 97, 109, 51]⟩, (M (.name ⟨0, [110, 97, 109, 50]⟩)))]) (P Nam1),  -- 59: ASSERT_PARSER_VALUES_EQ(sub(nam1, sub31), nam1)
    .parsersEq (tSubOn (P Nam1) [(⟨0, [110, 97, 109, 52]⟩, (M (.exactly 2)))]) (P Nam1),  -- 60: ASSERT_PARSER_VALUES_EQ(sub(nam1, sub41), nam1)
    .parsersEq (tSubOn (P Nam1) [(⟨0, [110, 97, 109, 49]⟩, (M .join))]) (P (.join ABC)),  -- 61: ASSERT_PARSER_VALUES_EQ(sub(nam1, sub12), join_parser<_21>{})
    .parsersEq (tSubOn (P Nam1) [(⟨0, [110, 97, 109, 50]⟩, (M .ignore))]) (P Nam1),  -- 62: ASSERT_PARSER_VALUES_EQ(sub(nam1, sub22), nam1)
    .parsersEq (tSubOn (P Nam1) [(⟨0, [110, 97, 109, 51]⟩, (M (.exactly 2)))]) (P Nam1),  -- 63: ASSERT_PARSER_VALUES_EQ(sub(nam1, sub32), nam1)
    .parsersEq (tSubOn (P Nam1) [(⟨0, [110, 97, 109, 52]⟩, (M (.name ⟨0, [110, 97, 109, 50]⟩)))]) (P Nam1),  -- 64: ASSERT_PARSER_VALUES_EQ(sub(nam1, sub42), nam1)
    .parsersEq (tSubOn (P Nam2) [(⟨0, [110, 97, 109, 49]⟩, (M .ignore))]) (P Nam2),  -- 66: ASSERT_PARSER_VALUES_EQ(sub(nam2, sub11), nam2)
    .parsersEq (tSubOn (P Nam2) [(⟨0, [110, 97, 109, 50]⟩, (M .join))]) (P (.join s_22)),  -- 67: ASSERT_PARSER_VALUES_EQ(sub(nam2, sub21), join_parser<_22>{})
    .parsersEq (tSubOn (P Nam2) [(⟨0, [110, 97, 109, 51]⟩, (M (.name ⟨0, [110, 97, 109, 50]⟩)))]) (P Nam2),  -- 68: ASSERT_PARSER_VALUES_EQ(sub(nam2, sub31), nam2)
    .parsersEq (tSubOn (P Nam2) [(⟨0, [110, 97, 109, 52]⟩, (M (.exactly 2)))]) (P Nam2),  -- 69: ASSERT_PARSER_VALUES_EQ(sub(nam2, sub41), nam2)
    .parsersEq (tSubOn (P Nam2) [(⟨0, [110, 97, 109, 49]⟩, (M .join))]) (P Nam2),  -- 70: ASSERT_PARSER_VALUES_EQ(sub(nam2, sub12), nam2)
    .parsersEq (tSubOn (P Nam2) [(⟨0, [110, 97, 109, 50]⟩, (M .ignore))]) (P (.ignore s_22)),  -- 71: ASSERT_PARSER_VALUES_EQ(sub(nam2, sub22), ignore_parser<_22>{})
    .parsersEq (tSubOn (P Nam2) [(⟨0, [110, 97, 109, 51]⟩, (M (.exactly 2)))]) (P Nam2),  -- 72: ASSERT_PARSER_VALUES_EQ(sub(nam2, sub32), nam2)
    .parsersEq (tSubOn (P Nam2) [(⟨0, [110, 97, 109, 52]⟩, (M (.name ⟨0, [110, 97, 109, 50]⟩)))]) (P Nam2),  -- 73: ASSERT_PARSER_VALUES_EQ(sub(nam2, sub42), nam2)
    .parsersEq (tSubOn (P Nam3) [(⟨0, [110, 97, 109, 49]⟩, (M .ignore))]) (P Nam3),  -- 75: ASSERT_PARSER_VALUES_EQ(sub(nam3, sub11), nam3)
    .parsersEq (tSubOn (P Nam3) [(⟨0, [110, 97, 109, 50]⟩, (M .join))]) (P Nam3),  -- 76: ASSERT_PARSER_VALUES_EQ(sub(nam3, sub21), nam3)
    .parsersEq (tSubOn (P Nam3) [(⟨0, [110, 97, 109, 51]⟩, (M (.name ⟨0, [110, 97, 109, 50]⟩)))]) (P (.named s_23 ⟨0, [110, 97, 109, 50]⟩)),  -- 77: ASSERT_PARSER_VALUES_EQ(sub(nam3, sub31),(named_parser<_23, "nam2">{}))
    .parsersEq (tSubOn (P Nam3) [(⟨0, [110, 97, 109, 52]⟩, (M (.exactly 2)))]) (P Nam3),  -- 78: ASSERT_PARSER_VALUES_EQ(sub(nam3, sub41), nam3)
    .parsersEq (tSubOn (P Nam3) [(⟨0, [110, 97, 109, 49]⟩, (M .join))]) (P Nam3),  -- 79: ASSERT_PARSER_VALUES_EQ(sub(nam3, sub12), nam3)
    .parsersEq (tSubOn (P Nam3) [(⟨0, [110, 97, 109, 50]⟩, (M .ignore))]) (P Nam3),  -- 80: ASSERT_PARSER_VALUES_EQ(sub(nam3, sub22), nam3)
    .parsersEq (tSubOn (P Nam3) [(⟨0, [110, 97, 109, 51]⟩, (M (.exactly 2)))]) (P (.exactly s_23 2)),  -- 81: ASSERT_PARSER_VALUES_EQ(sub(nam3, sub32),(exactly_parser<_23, index_c<2>>{}))
    .parsersEq (tSubOn (P Nam3) [(⟨0, [110, 97, 109, 52]⟩, (M (.name ⟨0, [110, 97, 109, 50]⟩)))]) (P Nam3),  -- 82: ASSERT_PARSER_VALUES_EQ(sub(nam3, sub42), nam3)
    .parsersEq (tSubOn (P Nam4) [(⟨0, [110, 97, 109, 49]⟩, (M .ignore))]) (P Nam4),  -- 84: ASSERT_PARSER_VALUES_EQ(sub(nam4, sub11), nam4)
    .parsersEq (tSubOn (P Nam4) [(⟨0, [110, 97, 109, 50]⟩, (M .join))]) (P Nam4),  -- 85: ASSERT_PARSER_VALUES_EQ(sub(nam4, sub21), nam4)
    .parsersEq (tSubOn (P Nam4) [(⟨0, [110, 97, 109, 51]⟩, (M (.name ⟨0, [110, 97, 109, 50]⟩)))]) (P Nam4),  -- 86: ASSERT_PARSER_VALUES_EQ(sub(nam4, sub31), nam4)
    .parsersEq (tSubOn (P Nam4) [(⟨0, [110, 97, 109, 52]⟩, (M (.exactly 2)))]) (P (.exactly s_24 2)),  -- 87: ASSERT_PARSER_VALUES_EQ(sub(nam4, sub41),(exactly_parser<_24, index_c<2>>{}))
    .parsersEq (tSubOn (P Nam4) [(⟨0, [110, 97, 109, 49]⟩, (M .join))]) (P Nam4),  -- 88: ASSERT_PARSER_VALUES_EQ(sub(nam4, sub12), nam4)
    .parsersEq (tSubOn (P Nam4) [(⟨0, [110, 97, 109, 50]⟩, (M .ignore))]) (P Nam4),  -- 89: ASSERT_PARSER_VALUES_EQ(sub(nam4, sub22), nam4)
    .parsersEq (tSubOn (P Nam4) [(⟨0, [110, 97, 109, 51]⟩, (M (.exactly 2)))]) (P Nam4),  -- 90: ASSERT_PARSER_VALUES_EQ(sub(nam4, sub32), nam4)
    .parsersEq (tSubOn (P Nam4) [(⟨0, [110, 97, 109, 52]⟩, (M (.name ⟨0, [110, 97, 109, 50]⟩)))]) (P (.named s_24 ⟨0, [110, 97, 109, 50]⟩))  -- 91: ASSERT_PARSER_VALUES_EQ(sub(nam4, sub42),(named_parser<_24, "nam2">{}))
    ], Assertion.Holds a :=
  Assertion.holds_of_check (by decide +kernel)

/-- sub modifier / infix (tests/char-tests/modifiers/sub.cpp:96) -/
theorem charModifiersSub_2 : ∀ a ∈ [
    .parsersEq (tMod (P Nam1) (tSub [(⟨0, [110, 97, 109, 49]⟩, (M .ignore))])) (P (.ignore ABC)),  -- 96: ASSERT_PARSER_VALUES_EQ(nam1 % sub(sub11), ignore_parser<_21>{})
    .parsersEq (tMod (P Nam1) (tSub [(⟨0, [110, 97, 109, 50]⟩, (M .join))])) (P Nam1),  -- 97: ASSERT_PARSER_VALUES_EQ(nam1 % sub(sub21), nam1)
    .parsersEq (tMod (P Nam1) (tSub [(⟨0, [110, 97, 109, 51]⟩, (M (.name ⟨0, [110, 97, 109, 50]⟩)))])) (P Nam1),  -- 98: ASSERT_PARSER_VALUES_EQ(nam1 % sub(sub31), nam1)
    .parsersEq (tMod (P Nam1) (tSub [(⟨0, [110, 97, 109, 52]⟩, (M (.exactly 2)))])) (P Nam1),  -- 99: ASSERT_PARSER_VALUES_EQ(nam1 % sub(sub41), nam1)
    .parsersEq (tMod (P Nam1) (tSub [(⟨0, [110, 97, 109, 49]⟩, (M .join))])) (P (.join ABC)),  -- 100: ASSERT_PARSER_VALUES_EQ(nam1 % sub(sub12), join_parser<_21>{})
    .parsersEq (tMod (P Nam1) (tSub [(⟨0, [110, 97, 109, 50]⟩, (M .ignore))])) (P Nam1),  -- 101: ASSERT_PARSER_VALUES_EQ(nam1 % sub(sub22), nam1)
    .parsersEq (tMod (P Nam1) (tSub [(⟨0, [110, 97, 109, 51]⟩, (M (.exactly 2)))])) (P Nam1),  -- 102: ASSERT_PARSER_VALUES_EQ(nam1 % sub(sub32), nam1)
    .parsersEq (tMod (P Nam1) (tSub [(⟨0, [110, 97, 109, 52]⟩, (M (.name ⟨0, [110, 97, 109, 50]⟩)))])) (P Nam1),  -- 103: ASSERT_PARSER_VALUES_EQ(nam1 % sub(sub42), nam1)
    .parsersEq (tMod (P Nam2) (tSub [(⟨0, [110, 97, 109, 49]⟩, (M .ignore))])) (P Nam2),  -- 105: ASSERT_PARSER_VALUES_EQ(nam2 % sub(sub11), nam2)
    .parsersEq (tMod (P Nam2) (tSub [(⟨0, [110, 97, 109, 50]⟩, (M .join))])) (P (.join s_22)),  -- 106: ASSERT_PARSER_VALUES_EQ(nam2 % sub(sub21), join_parser<_22>{})
    .parsersEq (tMod (P Nam2) (tSub [(⟨0, [110, 97, 109, 51]⟩, (M (.name ⟨0, [110, 97, 109, 50]⟩)))])) (P Nam2),  -- 107: ASSERT_PARSER_VALUES_EQ(nam2 % sub(sub31), nam2)
    .parsersEq (tMod (P Nam2) (tSub [(⟨0, [110, 97, 109, 52]⟩, (M (.exactly 2)))])) (P Nam2),  -- 108: ASSERT_PARSER_VALUES_EQ(nam2 % sub(sub41), nam2)
    .parsersEq (tMod (P Nam2) (tSub [(⟨0, [110, 97, 109, 49]⟩, (M .join))])) (P Nam2),  -- 109: ASSERT_PARSER_VALUES_EQ(nam2 % sub(sub12), nam2)
    .parsersEq (tMod (P Nam2) (tSub [(⟨0, [110, 97, 109, 50]⟩, (M .ignore))])) (P (.ignore s_22)),  -- 110: ASSERT_PARSER_VALUES_EQ(nam2 % sub(sub22), ignore_parser<_22>{})
    .parsersEq (tMod (P Nam2) (tSub [(⟨0, [110, 97, 109, 51]⟩, (M (.exactly 2)))])) (P Nam2),  -- 111: ASSERT_PARSER_VALUES_EQ(nam2 % sub(sub32), nam2)
    .parsersEq (tMod (P Nam2) (tSub [(⟨0, [110, 97, 109, 52]⟩, (M (.name ⟨0, [110, 97, 109, 50]⟩)))])) (P Nam2),  -- 112: ASSERT_PARSER_VALUES_EQ(nam2 % sub(sub42), nam2)
    .parsersEq (tMod (P Nam3) (tSub [(⟨0, [110, 97, 109, 49]⟩, (M .ignore))])) (P Nam3),  -- 114: ASSERT_PARSER_VALUES_EQ(nam3 % sub(sub11), nam3)
    .parsersEq (tMod (P Nam3) (tSub [(⟨0, [110, 97, 109, 50]⟩, (M .join))])) (P Nam3),  -- 115: ASSERT_PARSER_VALUES_EQ(nam3 % sub(sub21), nam3)
    .parsersEq (tMod (P Nam3) (tSub [(⟨0, [110, 97, 109, 51]⟩, (M (.name ⟨0, [110, 97, 109, 50]⟩)))])) (P (.named s_23 ⟨0, [110, 97, 109, 50]⟩)),  -- 116: ASSERT_PARSER_VALUES_EQ(nam3 % sub(sub31),(named_parser<_23, "nam2">{}))
    .parsersEq (tMod (P Nam3) (tSub [(⟨0, [110, 97, 109, 52]⟩, (M (.exactly 2)))])) (P Nam3),  -- 117: ASSERT_PARSER_VALUES_EQ(nam3 % sub(sub41), nam3)
    .parsersEq (tMod (P Nam3) (tSub [(⟨0, [110, 97, 109, 49]⟩, (M .join))])) (P Nam3),  -- 118: ASSERT_PARSER_VALUES_EQ(nam3 % sub(sub12), nam3)
    .parsersEq (tMod (P Nam3) (tSub [(⟨0, [110, 97, 109, 50]⟩, (M .ignore))])) (P Nam3),  -- 119: ASSERT_PARSER_VALUES_EQ(nam3 % sub(sub22), nam3)
    .parsersEq (tMod (P Nam3) (tSub [(⟨0, [110, 97, 109, 51]⟩, (M (.exactly 2)))])) (P (.exactly s_23 2)),  -- 120: ASSERT_PARSER_VALUES_EQ(nam3 % sub(sub32),(exactly_parser<_23, index_c<2>>{}))
    .parsersEq (tMod (P Nam3) (tSub [(⟨0, [110, 97, 109, 52]⟩, (M (.name ⟨0, [110, 97, 109, 50]⟩)))])) (P Nam3),  -- 121: ASSERT_PARSER_VALUES_EQ(nam3 % sub(sub42), nam3)
    .parsersEq (tMod (P Nam4) (tSub [(⟨0, [110, 97, 109, 49]⟩, (M .ignore))])) (P Nam4),  -- 123: ASSERT_PARSER_VALUES_EQ(nam4 % sub(sub11), nam4)
    .parsersEq (tMod (P Nam4) (tSub [(⟨0, [110, 97, 109, 50]⟩, (M .join))])) (P Nam4),  -- 124: ASSERT_PARSER_VALUES_EQ(nam4 % sub(sub21), nam4)
    .parsersEq (tMod (P Nam4) (tSub [(⟨0, [110, 97, 109, 51]⟩, (M (.name ⟨0, [110, 97, 109, 50]⟩)))])) (P Nam4),  -- 125: ASSERT_PARSER_VALUES_EQ(nam4 % sub(sub31), nam4)
    .parsersEq (tMod (P Nam4) (tSub [(⟨0, [110, 97, 109, 52]⟩, (M (.exactly 2)))])) (P (.exactly s_24 2)),  -- 126: ASSERT_PARSER_VALUES_EQ(nam4 % sub(sub41),(exactly_parser<_24, index_c<2>>{}))
    .parsersEq (tMod (P Nam4) (tSub [(⟨0, [110, 97, 109, 49]⟩, (M .join))])) (P Nam4),  -- 127: ASSERT_PARSER_VALUES_EQ(nam4 % sub(sub12), nam4)
    .parsersEq (tMod (P Nam4) (tSub [(⟨0, [110, 97, 109, 50]⟩, (M .ignore))])) (P Nam4),  -- 128: ASSERT_PARSER_VALUES_EQ(nam4 % sub(sub22), nam4)
    .parsersEq (tMod (P Nam4) (tSub [(⟨0, [110, 97, 109, 51]⟩, (M (.exactly 2)))])) (P Nam4),  -- 129: ASSERT_PARSER_VALUES_EQ(nam4 % sub(sub32), nam4)
    .parsersEq (tMod (P Nam4) (tSub [(⟨0, [110, 97, 109, 52]⟩, (M (.name ⟨0, [110, 97, 109, 50]⟩)))])) (P (.named s_24 ⟨0, [110, 97, 109, 50]⟩))  -- 130: ASSERT_PARSER_VALUES_EQ(nam4 % sub(sub42),(named_parser<_24, "nam2">{}))
    ], Assertion.Holds a :=
  Assertion.holds_of_check (by decide +kernel)

/-- sub modifier / order-dependent (tests/char-tests/modifiers/sub.cpp:135) -/
theorem charModifiersSub_3 : ∀ a ∈ [
    .parsersEq (tMod (P Nam3) (tSub [(⟨0, [110, 97, 109, 50]⟩, (M .join)), (⟨0, [110, 97, 109, 51]⟩, (M (.name ⟨0, [110, 97, 109, 50]⟩)))])) (P (.named s_23 ⟨0, [110, 97, 109, 50]⟩)),  -- 135: ASSERT_PARSER_VALUES_EQ(nam3 % sub(sub21, sub31),(named_parser<_23, "nam2">{}))
    .parsersEq (tMod (P Nam3) (tSub [(⟨0, [110, 97, 109, 51]⟩, (M (.name ⟨0, [110, 97, 109, 50]⟩))), (⟨0, [110, 97, 109, 50]⟩, (M .join))])) (P (.join s_23))  -- 136: ASSERT_PARSER_VALUES_EQ(nam3 % sub(sub31, sub21), join_parser<_23>{})
    ], Assertion.Holds a :=
  Assertion.holds_of_check (by decide +kernel)

/-- sub modifier / chainable (tests/char-tests/modifiers/sub.cpp:141) -/
theorem charModifiersSub_4 : ∀ a ∈ [
    .parsersEq (tMod (P Nam3) (tSub [(⟨0, [110, 97, 109, 50]⟩, (M .join)), (⟨0, [110, 97, 109, 51]⟩, (M (.name ⟨0, [110, 97, 109, 50]⟩)))])) (tMod (tMod (P Nam3) (tSub [(⟨0, [110, 97, 109, 50]⟩, (M .join))])) (tSub [(⟨0, [110, 97, 109, 51]⟩, (M (.name ⟨0, [110, 97, 109, 50]⟩)))])),  -- 141: ASSERT_PARSER_VALUES_EQ(nam3 % sub(sub21, sub31), nam3 % sub(sub21) % sub(sub31))
    .parsersEq (tMod (P Nam3) (tSub [(⟨0, [110, 97, 109, 51]⟩, (M (.name ⟨0, [110, 97, 109, 50]⟩))), (⟨0, [110, 97, 109, 50]⟩, (M .join))])) (tMod (tMod (P Nam3) (tSub [(⟨0, [110, 97, 109, 51]⟩, (M (.name ⟨0, [110, 97, 109, 50]⟩)))])) (tSub [(⟨0, [110, 97, 109, 50]⟩, (M .join))]))  -- 142: ASSERT_PARSER_VALUES_EQ(nam3 % sub(sub31, sub21), nam3 % sub(sub31) % sub(sub21))
    ], Assertion.Holds a :=
  Assertion.holds_of_check (by decide +kernel)

end Tok3n.Tests
