import Verif.Tests.Gen.SamplesChar
/- Generated by tools/tests2lean.py from tests/char-tests/parsers/named_parser.cpp. -/

namespace Tok3n.Tests

/-- named_parser / Requirements (tests/char-tests/parsers/named_parser.cpp:19) -/
theorem charParsersNamedParser_1 : ∀ a ∈ [
    .isParser Nam1 named_family .span,  -- 19: ASSERT_IS_PARSER(Nam1, char, named_family, output_span<char>)
    .isParser Nam2 named_family (.vec .span),  -- 20: ASSERT_IS_PARSER(Nam2, char, named_family, std::vector<output_span<char>>)
    .isParser Nam3 named_family (.opt .span),  -- 21: ASSERT_IS_PARSER(Nam3, char, named_family, std::optional<output_span<char>>)
    .isParser Nam4 named_family (.tup [.span, (.vec .span)])  -- 22: ASSERT_IS_PARSER(Nam4, char, named_family, std::tuple<output_span<char>, std::vector<output_span<char>>>)
    ], Assertion.Holds a :=
  Assertion.holds_of_check (by decide +kernel)

/-- named_parser / named_parser<all_of_parser> (tests/char-tests/parsers/named_parser.cpp:37) -/
theorem charParsersNamedParser_2 : ∀ a ∈ [
    .success Nam1 [97, 98, 99] (.text [97, 98, 99]) [],  -- 37: ASSERT_PARSE_SUCCESS(Nam1, "abc", "abc", "")
    .success Nam1 [97, 98, 99, 100] (.text [97, 98, 99]) [100],  -- 38: ASSERT_PARSE_SUCCESS(Nam1, "abcd", "abc", "d")
    .failure Nam1 [32, 97, 98, 99]  -- 39: ASSERT_PARSE_FAILURE(Nam1, " abc")
    ], Assertion.Holds a :=
  Assertion.holds_of_check (by decide +kernel)

/-- named_parser / named_parser<one_or_more_parser> (tests/char-tests/parsers/named_parser.cpp:54) -/
theorem charParsersNamedParser_3 : ∀ a ∈ [
    .success Nam2 [97, 98, 99, 97, 98, 99, 97, 98] (.node [(.text [97, 98, 99]), (.text [97, 98, 99])]) [97, 98],  -- 54: ASSERT_PARSE_SUCCESS(Nam2, "abcabcab",(type{"abc", "abc"}), "ab")
    .success Nam2 [97, 98, 99, 100] (.node [(.text [97, 98, 99])]) [100],  -- 55: ASSERT_PARSE_SUCCESS(Nam2, "abcd",(type{"abc"}), "d")
    .success Nam2 [97, 98, 99, 32, 97, 98, 99] (.node [(.text [97, 98, 99])]) [32, 97, 98, 99],  -- 56: ASSERT_PARSE_SUCCESS(Nam2, "abc abc",(type{"abc"}), " abc")
    .failure Nam2 [97, 98, 32, 97, 98, 99],  -- 57: ASSERT_PARSE_FAILURE(Nam2, "ab abc")
    .failure Nam2 [32, 97, 98, 32, 97, 98, 99]  -- 58: ASSERT_PARSE_FAILURE(Nam2, " ab abc")
    ], Assertion.Holds a :=
  Assertion.holds_of_check (by decide +kernel)

/-- named_parser / named_parser<maybe_parser> (tests/char-tests/parsers/named_parser.cpp:82) -/
theorem charParsersNamedParser_4 : ∀ a ∈ [
    .success Nam3 [97, 98, 99, 97, 98, 99, 97, 98] (.text [97, 98, 99]) [97, 98, 99, 97, 98],  -- 82: ASSERT_PARSE_SUCCESS(Nam3, "abcabcab", "abc", "abcab")
    .success Nam3 [97, 98, 99, 100] (.text [97, 98, 99]) [100],  -- 83: ASSERT_PARSE_SUCCESS(Nam3, "abcd", "abc", "d")
    .success Nam3 [97, 98, 99, 32, 97, 98, 99] (.text [97, 98, 99]) [32, 97, 98, 99],  -- 84: ASSERT_PARSE_SUCCESS(Nam3, "abc abc", "abc", " abc")
    .success Nam3 [97, 98, 32, 97, 98, 99] .null [97, 98, 32, 97, 98, 99],  -- 85: ASSERT_PARSE_SUCCESS(Nam3, "ab abc", std::nullopt, "ab abc")
    .success Nam3 [32, 97, 98, 32, 97, 98, 99] .null [32, 97, 98, 32, 97, 98, 99],  -- 86: ASSERT_PARSE_SUCCESS(Nam3, " ab abc", std::nullopt, " ab abc")
    .success Nam3 [63, 63, 32, 97, 98, 32, 97, 98, 99] (.text [63, 63]) [32, 97, 98, 32, 97, 98, 99],  -- 87: ASSERT_PARSE_SUCCESS(Nam3, "?? ab abc", "??", " ab abc")
    .success Nam3 [63, 63, 63, 32, 97, 98, 32, 97, 98, 99] (.text [63, 63]) [63, 32, 97, 98, 32, 97, 98, 99]  -- 88: ASSERT_PARSE_SUCCESS(Nam3, "??? ab abc", "??", "? ab abc")
    ], Assertion.Holds a :=
  Assertion.holds_of_check (by decide +kernel)

/-- named_parser / named_parser<sequence_parser> (tests/char-tests/parsers/named_parser.cpp:111) -/
theorem charParsersNamedParser_5 : ∀ a ∈ [
    .success Nam4 [97, 98, 99, 97, 98, 99, 97, 98] (.node [(.text [97, 98, 99]), (.node [])]) [97, 98, 99, 97, 98],  -- 111: ASSERT_PARSE_SUCCESS(Nam4, "abcabcab",(type{"abc",{}}), "abcab")
    .success Nam4 [97, 98, 99, 63, 100] (.node [(.text [97, 98, 99]), (.node [])]) [63, 100],  -- 112: ASSERT_PARSE_SUCCESS(Nam4, "abc?d",(type{"abc",{}}), "?d")
    .success Nam4 [97, 98, 99, 63, 63, 63, 63, 32, 97, 98, 99] (.node [(.text [97, 98, 99]), (.node [(.text [63, 63]), (.text [63, 63])])]) [32, 97, 98, 99],  -- 113: ASSERT_PARSE_SUCCESS(Nam4, "abc???? abc",(type{"abc",{"??", "??"}}), " abc")
    .failure Nam4 [97, 98, 63, 63, 63, 63, 32, 97, 98, 99],  -- 114: ASSERT_PARSE_FAILURE(Nam4, "ab???? abc")
    .success Nam4 [97, 98, 99, 63, 63, 32, 63, 63, 32, 97, 98, 99] (.node [(.text [97, 98, 99]), (.node [(.text [63, 63])])]) [32, 63, 63, 32, 97, 98, 99]  -- 115: ASSERT_PARSE_SUCCESS(Nam4, "abc?? ?? abc",(type{"abc",{"??"}}), " ?? abc")
    ], Assertion.Holds a :=
  Assertion.holds_of_check (by decide +kernel)

end Tok3n.Tests
