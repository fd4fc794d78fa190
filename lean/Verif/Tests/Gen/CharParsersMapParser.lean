import Verif.Tests.Gen.SamplesChar
/- Generated by tools/tests2lean.py from tests/char-tests/parsers/map_parser.cpp. -/

namespace Tok3n.Tests

/-- map_parser / Requirements (tests/char-tests/parsers/map_parser.cpp:20) -/
theorem charParsersMapParser_1 : ∀ a ∈ [
    .isParser Map1 map_family tSize,  -- 20: ASSERT_IS_PARSER(Map1, char, map_family, std::size_t)
    .isParser Map2 map_family (.vec tChar),  -- 26: ASSERT_IS_PARSER(Map2, char, map_family, std::vector<char>)
    .isParser Map3 map_family tBool,  -- 27: ASSERT_IS_PARSER(Map3, char, map_family, bool)
    .isParser Map4 map_family tSize  -- 28: ASSERT_IS_PARSER(Map4, char, map_family, std::size_t)
    ], Assertion.Holds a :=
  Assertion.holds_of_check (by decide +kernel)

/-- map_parser / Parse all (tests/char-tests/parsers/map_parser.cpp:49) -/
theorem charParsersMapParser_2 : ∀ a ∈ [
    .success Map1 [97, 98, 99, 97, 98, 99, 97, 98, 99, 97, 98] (.num 3) [97, 98],  -- 49: ASSERT_PARSE_SUCCESS(Map1, TT("abcabcabcab"), 3, TT("ab"))
    .failure Map1 [],  -- 50: ASSERT_PARSE_FAILURE(Map1, TT(""))
    .failure Map1 [97, 98],  -- 51: ASSERT_PARSE_FAILURE(Map1, TT("ab"))
    .success Map1 [97, 98, 99] (.num 1) [],  -- 52: ASSERT_PARSE_SUCCESS(Map1, TT("abc"), 1, TT(""))
    .success Map2 [97, 98, 99, 97, 98, 99] (.node [(.num 97), (.num 98), (.num 99)]) [97, 98, 99],  -- 54: ASSERT_PARSE_SUCCESS(Map2, "abcabc", std::vector<char>({'a', 'b', 'c'}), "abc")
    .success Map2 [97, 63, 63, 98, 99, 97, 98, 99] (.node []) [97, 63, 63, 98, 99, 97, 98, 99],  -- 55: ASSERT_PARSE_SUCCESS(Map2, "a??bcabc", std::vector<char>{}, "a??bcabc")
    .success Map2 [] (.node []) [],  -- 56: ASSERT_PARSE_SUCCESS(Map2, "", std::vector<char>{}, "")
    .success Map2 [63, 63, 97, 98, 99, 97, 98, 99] (.node [(.num 63), (.num 63)]) [97, 98, 99, 97, 98, 99],  -- 57: ASSERT_PARSE_SUCCESS(Map2, "??abcabc", std::vector<char>({'?', '?'}), "abcabc")
    .success Map2 [32, 63, 63, 97, 98, 99, 97, 98, 99] (.node []) [32, 63, 63, 97, 98, 99, 97, 98, 99],  -- 58: ASSERT_PARSE_SUCCESS(Map2, " ??abcabc", std::vector<char>{}, " ??abcabc")
    .success Map3 [97, 98, 99, 63, 63, 63, 63, 63, 63, 63] (.num 0) [63],  -- 60: ASSERT_PARSE_SUCCESS(Map3, "abc???????", false, "?")
    .failure Map3 [63, 63, 97, 98, 99, 63, 63, 63, 63, 63, 63, 63],  -- 61: ASSERT_PARSE_FAILURE(Map3, "??abc???????")
    .success Map3 [97, 98, 99, 63, 63, 97, 98, 99, 63, 63, 63, 63, 63, 63, 63] (.num 0) [97, 98, 99, 63, 63, 63, 63, 63, 63, 63],  -- 62: ASSERT_PARSE_SUCCESS(Map3, "abc??abc???????", false, "abc???????")
    .success Map3 [97, 98, 99, 32, 63, 63, 97, 98, 99, 63, 63, 63, 63, 63, 63, 63] (.num 1) [32, 63, 63, 97, 98, 99, 63, 63, 63, 63, 63, 63, 63],  -- 63: ASSERT_PARSE_SUCCESS(Map3, "abc ??abc???????", true, " ??abc???????")
    .failure Map3 [],  -- 64: ASSERT_PARSE_FAILURE(Map3, "")
    .success Map4 [97, 98, 99, 97, 98, 99, 97, 98, 99, 97, 98, 99, 63, 63] (.num 36) [],  -- 66: ASSERT_PARSE_SUCCESS(Map4, "abcabcabcabc??", 36, "")
    .success Map4 [97, 98, 99, 97, 98, 99, 97, 98, 99, 97, 98, 99] (.num 12) [],  -- 67: ASSERT_PARSE_SUCCESS(Map4, "abcabcabcabc", 12, "")
    .success Map4 [97, 98, 99, 97, 98, 99, 97, 98, 99, 97, 98, 99, 32, 63, 63] (.num 12) [32, 63, 63],  -- 68: ASSERT_PARSE_SUCCESS(Map4, "abcabcabcabc ??", 12, " ??")
    .success Map4 [97, 98, 99] (.num 3) [],  -- 69: ASSERT_PARSE_SUCCESS(Map4, "abc", 3, "")
    .failure Map4 [32, 97, 98, 99],  -- 70: ASSERT_PARSE_FAILURE(Map4, " abc")
    .failure Map4 []  -- 71: ASSERT_PARSE_FAILURE(Map4, "")
    ], Assertion.Holds a :=
  Assertion.holds_of_check (by decide +kernel)

/-- map_parser / Move only (tests/char-tests/parsers/map_parser.cpp:117) -/
theorem charParsersMapParser_3 : ∀ a ∈ [
    .success (.map ABC (.user (fMake (tMove .span)))) [97, 98, 99, 100] (.node [(.text [97, 98, 99])]) [100],  -- 117: ASSERT_PARSE_SUCCESS(P, "abcd", T("abc"), "d")
    .failure (.map ABC (.user (fMake (tMove .span)))) [100, 99, 98, 97],  -- 118: ASSERT_PARSE_FAILURE(P, "dcba")
    .success (.map ABC (.user (fMake (tMove .span)))) [97, 98, 99, 97, 98, 99, 100] (.node [(.text [97, 98, 99])]) [97, 98, 99, 100]  -- 119: ASSERT_PARSE_SUCCESS(P, "abcabcd", T("abc"), "abcd")
    ], Assertion.Holds a :=
  Assertion.holds_of_check (by decide +kernel)

/-- map_parser / Copy only (tests/char-tests/parsers/map_parser.cpp:144) -/
theorem charParsersMapParser_4 : ∀ a ∈ [
    .success (.map ABC (.user (fMake (tCopy .span)))) [97, 98, 99, 100] (.node [(.text [97, 98, 99])]) [100],  -- 144: ASSERT_PARSE_SUCCESS(P, "abcd", T("abc"), "d")
    .failure (.map ABC (.user (fMake (tCopy .span)))) [100, 99, 98, 97],  -- 145: ASSERT_PARSE_FAILURE(P, "dcba")
    .success (.map ABC (.user (fMake (tCopy .span)))) [97, 98, 99, 97, 98, 99, 100] (.node [(.text [97, 98, 99])]) [97, 98, 99, 100]  -- 146: ASSERT_PARSE_SUCCESS(P, "abcabcd", T("abc"), "abcd")
    ], Assertion.Holds a :=
  Assertion.holds_of_check (by decide +kernel)

/-- map_parser / void input (tests/char-tests/parsers/map_parser.cpp:172) -/
theorem charParsersMapParser_5 : ∀ a ∈ [
    .isParser (.map (.ignore ABC) (.user f_zero)) map_family tInt,  -- 172: ASSERT_IS_PARSER(MapGood, value_type, map_family, int)
    .success (.map (.ignore ABC) (.user f_zero)) [97, 98, 99, 100] (.num 0) [100],  -- 173: ASSERT_PARSE_SUCCESS(MapGood, "abcd", 0, "d")
    .failure (.map (.ignore ABC) (.user f_zero)) [32, 97, 98, 99, 100],  -- 174: ASSERT_PARSE_FAILURE(MapGood, " abcd")
    .isNotParser (.map (.ignore ABC) (.user f_zero1)) map_family  -- 178: ASSERT_IS_NOT_PARSER(MapBad, value_type, map_family)
    ], Assertion.Holds a :=
  Assertion.holds_of_check (by decide +kernel)

/-- map_parser / void output (tests/char-tests/parsers/map_parser.cpp:187) -/
theorem charParsersMapParser_6 : ∀ a ∈ [
    .isParser (.map ABC (.user f_unit1)) map_family .void,  -- 187: ASSERT_IS_PARSER(MapGood, value_type, map_family, void)
    .successVoid (.map ABC (.user f_unit1)) [97, 98, 99, 100] [100],  -- 188: ASSERT_PARSE_SUCCESS_VOID(MapGood, "abcd", "d")
    .failure (.map ABC (.user f_unit1)) [32, 97, 98, 99, 100],  -- 189: ASSERT_PARSE_FAILURE(MapGood, " abcd")
    .isNotParser (.map ABC (.user f_unit)) map_family  -- 193: ASSERT_IS_NOT_PARSER(MapBad, value_type, map_family)
    ], Assertion.Holds a :=
  Assertion.holds_of_check (by decide +kernel)

/-- map_parser / void input and void output (tests/char-tests/parsers/map_parser.cpp:202) -/
theorem charParsersMapParser_7 : ∀ a ∈ [
    .isParser (.map (.ignore ABC) (.user f_unit)) map_family .void,  -- 202: ASSERT_IS_PARSER(MapGood, value_type, map_family, void)
    .successVoid (.map (.ignore ABC) (.user f_unit)) [97, 98, 99, 100] [100],  -- 203: ASSERT_PARSE_SUCCESS_VOID(MapGood, "abcd", "d")
    .failure (.map (.ignore ABC) (.user f_unit)) [32, 97, 98, 99, 100],  -- 204: ASSERT_PARSE_FAILURE(MapGood, " abcd")
    .isNotParser (.map (.ignore ABC) (.user f_unit1)) map_family  -- 208: ASSERT_IS_NOT_PARSER(MapBad, value_type, map_family)
    ], Assertion.Holds a :=
  Assertion.holds_of_check (by decide +kernel)

end Tok3n.Tests
