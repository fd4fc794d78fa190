import Verif.Tests.Gen.SamplesChar
/- Generated by tools/tests2lean.py from tests/char-tests/parsers/none_of_parser.cpp. -/

namespace Tok3n.Tests

/-- none_of_parser / Requirements (tests/char-tests/parsers/none_of_parser.cpp:20) -/
theorem charParsersNoneOfParser_1 : ∀ a ∈ [
    .isParser (.noneOf [97]) none_of_family .span,  -- 20: ASSERT_IS_PARSER(Single, char, none_of_family, output_span<char>)
    .isParser (.noneOf [97, 98, 99]) none_of_family .span  -- 21: ASSERT_IS_PARSER(Multi, char, none_of_family, output_span<char>)
    ], Assertion.Holds a :=
  Assertion.holds_of_check (by decide +kernel)

/-- none_of_parser / Parse single (tests/char-tests/parsers/none_of_parser.cpp:32) -/
theorem charParsersNoneOfParser_2 : ∀ a ∈ [
    .failure (.noneOf [97]) [97, 98],  -- 32: ASSERT_PARSE_FAILURE(Single, "ab")
    .success (.noneOf [97]) [98, 97] (.text [98]) [97],  -- 33: ASSERT_PARSE_SUCCESS(Single, "ba", "b", "a")
    .failure (.noneOf [97]) [97, 98, 99],  -- 34: ASSERT_PARSE_FAILURE(Single, "abc")
    .success (.noneOf [97]) [65, 98] (.text [65]) [98],  -- 35: ASSERT_PARSE_SUCCESS(Single, "Ab", "A", "b")
    .success (.noneOf [97]) [65, 98, 99] (.text [65]) [98, 99],  -- 36: ASSERT_PARSE_SUCCESS(Single, "Abc", "A", "bc")
    .success (.noneOf [97]) [32, 97, 98, 99] (.text [32]) [97, 98, 99]  -- 37: ASSERT_PARSE_SUCCESS(Single, " abc", " ", "abc")
    ], Assertion.Holds a :=
  Assertion.holds_of_check (by decide +kernel)

/-- none_of_parser / Parse multi (tests/char-tests/parsers/none_of_parser.cpp:56) -/
theorem charParsersNoneOfParser_3 : ∀ a ∈ [
    .failure (.noneOf [97, 98, 99]) [97, 98, 99],  -- 56: ASSERT_PARSE_FAILURE(Multi, "abc")
    .failure (.noneOf [97, 98, 99]) [97, 99, 98],  -- 57: ASSERT_PARSE_FAILURE(Multi, "acb")
    .failure (.noneOf [97, 98, 99]) [98, 97, 99],  -- 58: ASSERT_PARSE_FAILURE(Multi, "bac")
    .failure (.noneOf [97, 98, 99]) [98, 99, 97],  -- 59: ASSERT_PARSE_FAILURE(Multi, "bca")
    .failure (.noneOf [97, 98, 99]) [99, 97, 98],  -- 60: ASSERT_PARSE_FAILURE(Multi, "cab")
    .failure (.noneOf [97, 98, 99]) [99, 98, 97],  -- 61: ASSERT_PARSE_FAILURE(Multi, "cba")
    .success (.noneOf [97, 98, 99]) [65, 66, 67] (.text [65]) [66, 67],  -- 62: ASSERT_PARSE_SUCCESS(Multi, "ABC", "A", "BC")
    .success (.noneOf [97, 98, 99]) [65, 67, 66] (.text [65]) [67, 66],  -- 63: ASSERT_PARSE_SUCCESS(Multi, "ACB", "A", "CB")
    .success (.noneOf [97, 98, 99]) [66, 65, 67] (.text [66]) [65, 67],  -- 64: ASSERT_PARSE_SUCCESS(Multi, "BAC", "B", "AC")
    .success (.noneOf [97, 98, 99]) [66, 67, 65] (.text [66]) [67, 65],  -- 65: ASSERT_PARSE_SUCCESS(Multi, "BCA", "B", "CA")
    .success (.noneOf [97, 98, 99]) [67, 65, 66] (.text [67]) [65, 66],  -- 66: ASSERT_PARSE_SUCCESS(Multi, "CAB", "C", "AB")
    .success (.noneOf [97, 98, 99]) [67, 66, 65] (.text [67]) [66, 65],  -- 67: ASSERT_PARSE_SUCCESS(Multi, "CBA", "C", "BA")
    .success (.noneOf [97, 98, 99]) [100, 99, 98, 97] (.text [100]) [99, 98, 97],  -- 68: ASSERT_PARSE_SUCCESS(Multi, "dcba", "d", "cba")
    .success (.noneOf [97, 98, 99]) [101, 100, 99, 98, 97] (.text [101]) [100, 99, 98, 97],  -- 69: ASSERT_PARSE_SUCCESS(Multi, "edcba", "e", "dcba")
    .success (.noneOf [97, 98, 99]) [32, 99, 98, 97] (.text [32]) [99, 98, 97]  -- 70: ASSERT_PARSE_SUCCESS(Multi, " cba", " ", "cba")
    ], Assertion.Holds a :=
  Assertion.holds_of_check (by decide +kernel)

/-- none_of_parser / Constructible from lexicographically sorted only (tests/char-tests/parsers/none_of_parser.cpp:109) -/
theorem charParsersNoneOfParser_4 : ∀ a ∈ [
    .isWf (.noneOf [97, 98, 99]),  -- 109: ASSERT_BASIC_PARSER_CONSTRUCTIBLE(none_of_parser, TT("abc"))
    .notWf (.noneOf [97, 99, 98]),  -- 110: ASSERT_BASIC_PARSER_NOT_CONSTRUCTIBLE(none_of_parser, TT("acb"))
    .notWf (.noneOf [98, 97, 99]),  -- 111: ASSERT_BASIC_PARSER_NOT_CONSTRUCTIBLE(none_of_parser, TT("bac"))
    .notWf (.noneOf [98, 99, 97]),  -- 112: ASSERT_BASIC_PARSER_NOT_CONSTRUCTIBLE(none_of_parser, TT("bca"))
    .notWf (.noneOf [99, 97, 98]),  -- 113: ASSERT_BASIC_PARSER_NOT_CONSTRUCTIBLE(none_of_parser, TT("cab"))
    .notWf (.noneOf [99, 98, 97])  -- 114: ASSERT_BASIC_PARSER_NOT_CONSTRUCTIBLE(none_of_parser, TT("cba"))
    ], Assertion.Holds a :=
  Assertion.holds_of_check (by decide +kernel)

/-- none_of_parser / Parse empty (tests/char-tests/parsers/none_of_parser.cpp:119) -/
theorem charParsersNoneOfParser_5 : ∀ a ∈ [
    .isWf (.noneOf []),  -- 119: ASSERT_BASIC_PARSER_CONSTRUCTIBLE(none_of_parser, TT(""))
    .success (.noneOf []) [97, 110, 121, 116, 104, 105, 110, 103] (.text [97]) [110, 121, 116, 104, 105, 110, 103],  -- 121: ASSERT_PARSE_SUCCESS(none_of_parser<"">, "anything", "a", "nything")
    .failure (.noneOf []) []  -- 122: ASSERT_PARSE_FAILURE(none_of_parser<"">, "")
    ], Assertion.Holds a :=
  Assertion.holds_of_check (by decide +kernel)

end Tok3n.Tests
