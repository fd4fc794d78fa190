import Verif.Tests.Gen.SamplesChar
/- Generated by tools/tests2lean.py from tests/char-tests/parsers/any_of_parser.cpp. -/

namespace Tok3n.Tests

/-- any_of_parser / Requirements (tests/char-tests/parsers/any_of_parser.cpp:20) -/
theorem charParsersAnyOfParser_1 : ∀ a ∈ [
    .isParser (.anyOf [97]) any_of_family .span,  -- 20: ASSERT_IS_PARSER(Single, char, any_of_family, output_span<char>)
    .isParser (.anyOf [97, 98, 99]) any_of_family .span  -- 21: ASSERT_IS_PARSER(Multi, char, any_of_family, output_span<char>)
    ], Assertion.Holds a :=
  Assertion.holds_of_check (by decide +kernel)

/-- any_of_parser / Parse single (tests/char-tests/parsers/any_of_parser.cpp:32) -/
theorem charParsersAnyOfParser_2 : ∀ a ∈ [
    .success (.anyOf [97]) [97, 98] (.text [97]) [98],  -- 32: ASSERT_PARSE_SUCCESS(Single, "ab", "a", "b")
    .failure (.anyOf [97]) [98, 97],  -- 33: ASSERT_PARSE_FAILURE(Single, "ba")
    .success (.anyOf [97]) [97, 98, 99] (.text [97]) [98, 99],  -- 34: ASSERT_PARSE_SUCCESS(Single, "abc", "a", "bc")
    .failure (.anyOf [97]) [65, 98],  -- 35: ASSERT_PARSE_FAILURE(Single, "Ab")
    .failure (.anyOf [97]) [65, 98, 99],  -- 36: ASSERT_PARSE_FAILURE(Single, "Abc")
    .failure (.anyOf [97]) [32, 97, 98, 99]  -- 37: ASSERT_PARSE_FAILURE(Single, " abc")
    ], Assertion.Holds a :=
  Assertion.holds_of_check (by decide +kernel)

/-- any_of_parser / Parse multi (tests/char-tests/parsers/any_of_parser.cpp:56) -/
theorem charParsersAnyOfParser_3 : ∀ a ∈ [
    .success (.anyOf [97, 98, 99]) [97, 98, 99] (.text [97]) [98, 99],  -- 56: ASSERT_PARSE_SUCCESS(Multi, "abc", "a", "bc")
    .success (.anyOf [97, 98, 99]) [97, 99, 98] (.text [97]) [99, 98],  -- 57: ASSERT_PARSE_SUCCESS(Multi, "acb", "a", "cb")
    .success (.anyOf [97, 98, 99]) [98, 97, 99] (.text [98]) [97, 99],  -- 58: ASSERT_PARSE_SUCCESS(Multi, "bac", "b", "ac")
    .success (.anyOf [97, 98, 99]) [98, 99, 97] (.text [98]) [99, 97],  -- 59: ASSERT_PARSE_SUCCESS(Multi, "bca", "b", "ca")
    .success (.anyOf [97, 98, 99]) [99, 97, 98] (.text [99]) [97, 98],  -- 60: ASSERT_PARSE_SUCCESS(Multi, "cab", "c", "ab")
    .success (.anyOf [97, 98, 99]) [99, 98, 97] (.text [99]) [98, 97],  -- 61: ASSERT_PARSE_SUCCESS(Multi, "cba", "c", "ba")
    .failure (.anyOf [97, 98, 99]) [65, 66, 67],  -- 62: ASSERT_PARSE_FAILURE(Multi, "ABC")
    .failure (.anyOf [97, 98, 99]) [65, 67, 66],  -- 63: ASSERT_PARSE_FAILURE(Multi, "ACB")
    .failure (.anyOf [97, 98, 99]) [66, 65, 67],  -- 64: ASSERT_PARSE_FAILURE(Multi, "BAC")
    .failure (.anyOf [97, 98, 99]) [66, 67, 65],  -- 65: ASSERT_PARSE_FAILURE(Multi, "BCA")
    .failure (.anyOf [97, 98, 99]) [67, 65, 66],  -- 66: ASSERT_PARSE_FAILURE(Multi, "CAB")
    .failure (.anyOf [97, 98, 99]) [67, 66, 65],  -- 67: ASSERT_PARSE_FAILURE(Multi, "CBA")
    .failure (.anyOf [97, 98, 99]) [100, 99, 98, 97],  -- 68: ASSERT_PARSE_FAILURE(Multi, "dcba")
    .failure (.anyOf [97, 98, 99]) [32, 99, 98, 97]  -- 69: ASSERT_PARSE_FAILURE(Multi, " cba")
    ], Assertion.Holds a :=
  Assertion.holds_of_check (by decide +kernel)

/-- any_of_parser / Constructible from lexicographically sorted only (tests/char-tests/parsers/any_of_parser.cpp:106) -/
theorem charParsersAnyOfParser_4 : ∀ a ∈ [
    .isWf (.anyOf [97, 98, 99]),  -- 106: ASSERT_BASIC_PARSER_CONSTRUCTIBLE(any_of_parser, TT("abc"))
    .notWf (.anyOf [97, 99, 98]),  -- 107: ASSERT_BASIC_PARSER_NOT_CONSTRUCTIBLE(any_of_parser, TT("acb"))
    .notWf (.anyOf [98, 97, 99]),  -- 108: ASSERT_BASIC_PARSER_NOT_CONSTRUCTIBLE(any_of_parser, TT("bac"))
    .notWf (.anyOf [98, 99, 97]),  -- 109: ASSERT_BASIC_PARSER_NOT_CONSTRUCTIBLE(any_of_parser, TT("bca"))
    .notWf (.anyOf [99, 97, 98]),  -- 110: ASSERT_BASIC_PARSER_NOT_CONSTRUCTIBLE(any_of_parser, TT("cab"))
    .notWf (.anyOf [99, 98, 97])  -- 111: ASSERT_BASIC_PARSER_NOT_CONSTRUCTIBLE(any_of_parser, TT("cba"))
    ], Assertion.Holds a :=
  Assertion.holds_of_check (by decide +kernel)

/-- any_of_parser / Parse empty (tests/char-tests/parsers/any_of_parser.cpp:116) -/
theorem charParsersAnyOfParser_5 : ∀ a ∈ [
    .isWf (.anyOf []),  -- 116: ASSERT_BASIC_PARSER_CONSTRUCTIBLE(any_of_parser, TT(""))
    .failure (.anyOf []) [97, 110, 121, 116, 104, 105, 110, 103],  -- 118: ASSERT_PARSE_FAILURE(any_of_parser<"">, "anything")
    .failure (.anyOf []) []  -- 119: ASSERT_PARSE_FAILURE(any_of_parser<"">, "")
    ], Assertion.Holds a :=
  Assertion.holds_of_check (by decide +kernel)

end Tok3n.Tests
