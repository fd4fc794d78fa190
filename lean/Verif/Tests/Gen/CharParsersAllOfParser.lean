import Verif.Tests.Gen.SamplesChar
/- Generated by tools/tests2lean.py from tests/char-tests/parsers/all_of_parser.cpp. -/

namespace Tok3n.Tests

/-- all_of_parser / Requirements (tests/char-tests/parsers/all_of_parser.cpp:17) -/
theorem charParsersAllOfParser_1 : ∀ a ∈ [
    .isParser (.allOf [108, 105, 116, 101, 114, 97, 108]) all_of_family .span  -- 17: ASSERT_IS_PARSER(L, char, all_of_family, output_span<char>)
    ], Assertion.Holds a :=
  Assertion.holds_of_check (by decide +kernel)

/-- all_of_parser / Parse 'literal' (tests/char-tests/parsers/all_of_parser.cpp:24) -/
theorem charParsersAllOfParser_2 : ∀ a ∈ [
    .success (.allOf [108, 105, 116, 101, 114, 97, 108]) [108, 105, 116, 101, 114, 97, 108] (.text [108, 105, 116, 101, 114, 97, 108]) [],  -- 24: ASSERT_PARSE_SUCCESS(L, "literal", "literal", "")
    .success (.allOf [108, 105, 116, 101, 114, 97, 108]) [108, 105, 116, 101, 114, 97, 108, 108, 121] (.text [108, 105, 116, 101, 114, 97, 108]) [108, 121],  -- 25: ASSERT_PARSE_SUCCESS(L, "literally", "literal", "ly")
    .failure (.allOf [108, 105, 116, 101, 114, 97, 108]) [108, 105, 116, 101, 114, 97],  -- 26: ASSERT_PARSE_FAILURE(L, "litera")
    .failure (.allOf [108, 105, 116, 101, 114, 97, 108]) [32, 108, 105, 116, 101, 114, 97, 108],  -- 27: ASSERT_PARSE_FAILURE(L, " literal")
    .failure (.allOf [108, 105, 116, 101, 114, 97, 108]) [76, 73, 84, 69, 82, 65, 76],  -- 28: ASSERT_PARSE_FAILURE(L, "LITERAL")
    .failure (.allOf [108, 105, 116, 101, 114, 97, 108]) [76, 73, 84, 69, 82, 65, 76, 76, 89]  -- 29: ASSERT_PARSE_FAILURE(L, "LITERALLY")
    ], Assertion.Holds a :=
  Assertion.holds_of_check (by decide +kernel)

/-- all_of_parser / Parse empty (tests/char-tests/parsers/all_of_parser.cpp:50) -/
theorem charParsersAllOfParser_3 : ∀ a ∈ [
    .isWf (.allOf []),  -- 50: ASSERT_BASIC_PARSER_CONSTRUCTIBLE(all_of_parser, TT(""))
    .success (.allOf []) [97, 110, 121, 116, 104, 105, 110, 103] (.text []) [97, 110, 121, 116, 104, 105, 110, 103],  -- 52: ASSERT_PARSE_SUCCESS(all_of_parser<"">, "anything", "", "anything")
    .success (.allOf []) [] (.text []) []  -- 53: ASSERT_PARSE_SUCCESS(all_of_parser<"">, "", "", "")
    ], Assertion.Holds a :=
  Assertion.holds_of_check (by decide +kernel)

end Tok3n.Tests
