import Verif.Tests.Gen.SamplesChar
/- Generated by tools/tests2lean.py from tests/char-tests/parsers/complete_parser.cpp. -/

namespace Tok3n.Tests

/-- complete_parser / Requirements (tests/char-tests/parsers/complete_parser.cpp:22) -/
theorem charParsersCompleteParser_1 : ∀ a ∈ [
    .isParser Com1 complete_family .span,  -- 22: ASSERT_IS_PARSER(Com1, char, complete_family, output_span<char>)
    .isParser Com2 complete_family .span,  -- 23: ASSERT_IS_PARSER(Com2, char, complete_family, output_span<char>)
    .isParser Com3 complete_family .span,  -- 24: ASSERT_IS_PARSER(Com3, char, complete_family, output_span<char>)
    .isParser Com4 complete_family (.tup [.span, .span]),  -- 25: ASSERT_IS_PARSER(Com4, char, complete_family, std::tuple<output_span<char>, output_span<char>>)
    .isParser Com5 complete_family (.opt (.tup [.span, .span])),  -- 26: ASSERT_IS_PARSER(Com5, char, complete_family, std::optional<std::tuple<output_span<char>, output_span<char>>>)
    .isParser Com6 complete_family (.vec (.tup [.span, .span])),  -- 27: ASSERT_IS_PARSER(Com6, char, complete_family, std::vector<std::tuple<output_span<char>, output_span<char>>>)
    .isParser Com7 complete_family (.vec (.tup [.span, .span]))  -- 28: ASSERT_IS_PARSER(Com7, char, complete_family, std::vector<std::tuple<output_span<char>, output_span<char>>>)
    ], Assertion.Holds a :=
  Assertion.holds_of_check (by decide +kernel)

/-- complete_parser / complete_parser<all_of_parser> (tests/char-tests/parsers/complete_parser.cpp:49) -/
theorem charParsersCompleteParser_2 : ∀ a ∈ [
    .failure Com1 [108, 105, 116, 101, 114, 97],  -- 49: ASSERT_PARSE_FAILURE(Com1, "litera")
    .success Com1 [108, 105, 116, 101, 114, 97, 108] (.text [108, 105, 116, 101, 114, 97, 108]) [],  -- 50: ASSERT_PARSE_SUCCESS(Com1, "literal", "literal", "")
    .failure Com1 [108, 105, 116, 101, 114, 97, 108, 108, 121],  -- 51: ASSERT_PARSE_FAILURE(Com1, "literally")
    .failure Com1 [108, 105, 116, 101, 114, 97, 108, 108, 105, 116, 101, 114, 97],  -- 52: ASSERT_PARSE_FAILURE(Com1, "literallitera")
    .failure Com1 [108, 105, 116, 101, 114, 97, 108, 108, 105, 116, 101, 114, 97, 108, 108, 105, 116, 101, 114, 97],  -- 53: ASSERT_PARSE_FAILURE(Com1, "literalliterallitera")
    .failure Com1 [32, 108, 105, 116, 101, 114, 97, 108, 108, 105, 116, 101, 114, 97, 108, 108, 105, 116, 101, 114, 97],  -- 54: ASSERT_PARSE_FAILURE(Com1, " literalliterallitera")
    .failure Com1 []  -- 55: ASSERT_PARSE_FAILURE(Com1, "")
    ], Assertion.Holds a :=
  Assertion.holds_of_check (by decide +kernel)

/-- complete_parser / complete_parser<any_of_parser> (tests/char-tests/parsers/complete_parser.cpp:75) -/
theorem charParsersCompleteParser_3 : ∀ a ∈ [
    .success Com2 [97] (.text [97]) [],  -- 75: ASSERT_PARSE_SUCCESS(Com2, "a", "a", "")
    .success Com2 [98] (.text [98]) [],  -- 76: ASSERT_PARSE_SUCCESS(Com2, "b", "b", "")
    .failure Com2 [97, 98, 99, 100, 101, 102],  -- 77: ASSERT_PARSE_FAILURE(Com2, "abcdef")
    .failure Com2 [102, 101, 100, 99, 98, 97],  -- 78: ASSERT_PARSE_FAILURE(Com2, "fedcba")
    .failure Com2 [99, 98, 97, 98, 99, 99, 99, 98, 106, 107, 108, 109, 110, 111, 112],  -- 79: ASSERT_PARSE_FAILURE(Com2, "cbabcccbjklmnop")
    .failure Com2 []  -- 80: ASSERT_PARSE_FAILURE(Com2, "")
    ], Assertion.Holds a :=
  Assertion.holds_of_check (by decide +kernel)

/-- complete_parser / complete_parser<choice_parser> (tests/char-tests/parsers/complete_parser.cpp:98) -/
theorem charParsersCompleteParser_4 : ∀ a ∈ [
    .failure Com3 [97, 98, 108, 105, 116, 101, 114, 97, 108, 99, 98, 108, 105, 116, 101, 114, 97, 108, 99, 102],  -- 98: ASSERT_PARSE_FAILURE(Com3, "abliteralcbliteralcf")
    .failure Com3 [97, 98, 108, 105, 116, 101, 114, 97, 108, 99, 98, 108, 105, 116, 114, 97, 108, 99, 102],  -- 99: ASSERT_PARSE_FAILURE(Com3, "abliteralcblitralcf")
    .failure Com3 [108, 105, 116, 101, 114, 97, 108, 97, 98, 97, 99, 108, 105, 116, 101, 114, 97, 108],  -- 100: ASSERT_PARSE_FAILURE(Com3, "literalabacliteral")
    .success Com3 [108, 105, 116, 101, 114, 97, 108] (.text [108, 105, 116, 101, 114, 97, 108]) [],  -- 101: ASSERT_PARSE_SUCCESS(Com3, "literal", "literal", "")
    .success Com3 [97] (.text [97]) [],  -- 102: ASSERT_PARSE_SUCCESS(Com3, "a", "a", "")
    .success Com3 [98] (.text [98]) [],  -- 103: ASSERT_PARSE_SUCCESS(Com3, "b", "b", "")
    .failure Com3 []  -- 104: ASSERT_PARSE_FAILURE(Com3, "")
    ], Assertion.Holds a :=
  Assertion.holds_of_check (by decide +kernel)

/-- complete_parser / complete_parser<sequence_parser> (tests/char-tests/parsers/complete_parser.cpp:124) -/
theorem charParsersCompleteParser_5 : ∀ a ∈ [
    .failure Com4 [108, 105, 116, 101, 114, 97, 108, 97, 108, 105, 116, 101, 114, 97, 108, 99, 108, 105, 116, 101, 114, 97, 108, 99, 108, 105, 116, 101, 114, 97, 108, 98],  -- 124: ASSERT_PARSE_FAILURE(Com4, "literalaliteralcliteralcliteralb")
    .failure Com4 [108, 105, 116, 101, 114, 97, 108, 97, 108, 105, 116, 101, 114, 97, 108, 99, 108, 105, 116, 101, 114, 97, 108, 99, 108, 105, 116, 101, 114, 97, 108, 98, 108, 105, 116, 101, 114, 97, 108],  -- 125: ASSERT_PARSE_FAILURE(Com4, "literalaliteralcliteralcliteralbliteral")
    .success Com4 [108, 105, 116, 101, 114, 97, 108, 97] (.node [(.text [108, 105, 116, 101, 114, 97, 108]), (.text [97])]) [],  -- 126: ASSERT_PARSE_SUCCESS(Com4, "literala", std::tuple("literal", "a"), "")
    .success Com4 [108, 105, 116, 101, 114, 97, 108, 98] (.node [(.text [108, 105, 116, 101, 114, 97, 108]), (.text [98])]) [],  -- 127: ASSERT_PARSE_SUCCESS(Com4, "literalb", std::tuple("literal", "b"), "")
    .failure Com4 [108, 105, 116, 101, 114, 97, 108, 100],  -- 128: ASSERT_PARSE_FAILURE(Com4, "literald")
    .failure Com4 [97, 108, 105, 116, 101, 114, 97, 108, 97, 108, 105, 116, 101, 114, 97, 108, 99, 108, 105, 116, 101, 114, 97, 108, 98, 108, 105, 116, 101, 114, 97, 108],  -- 129: ASSERT_PARSE_FAILURE(Com4, "aliteralaliteralcliteralbliteral")
    .failure Com4 []  -- 130: ASSERT_PARSE_FAILURE(Com4, "")
    ], Assertion.Holds a :=
  Assertion.holds_of_check (by decide +kernel)

/-- complete_parser / complete_parser<maybe_parser> (tests/char-tests/parsers/complete_parser.cpp:150) -/
theorem charParsersCompleteParser_6 : ∀ a ∈ [
    .failure Com5 [108, 105, 116, 101, 114, 97, 108, 97, 108, 105, 116, 101, 114, 97, 108, 99, 108, 105, 116, 101, 114, 97, 108, 99, 108, 105, 116, 101, 114, 97, 108, 98],  -- 150: ASSERT_PARSE_FAILURE(Com5, "literalaliteralcliteralcliteralb")
    .failure Com5 [108, 105, 116, 101, 114, 97, 108, 97, 108, 105, 116, 101, 114, 97, 108, 99, 108, 105, 116, 101, 114, 97, 108, 99, 108, 105, 116, 101, 114, 97, 108, 98, 108, 105, 116, 101, 114, 97, 108],  -- 151: ASSERT_PARSE_FAILURE(Com5, "literalaliteralcliteralcliteralbliteral")
    .success Com5 [108, 105, 116, 101, 114, 97, 108, 97] (.node [(.text [108, 105, 116, 101, 114, 97, 108]), (.text [97])]) [],  -- 152: ASSERT_PARSE_SUCCESS(Com5, "literala", std::optional(std::tuple("literal", "a")), "")
    .success Com5 [108, 105, 116, 101, 114, 97, 108, 98] (.node [(.text [108, 105, 116, 101, 114, 97, 108]), (.text [98])]) [],  -- 153: ASSERT_PARSE_SUCCESS(Com5, "literalb", std::optional(std::tuple("literal", "b")), "")
    .failure Com5 [108, 105, 116, 101, 114, 97, 108, 100],  -- 154: ASSERT_PARSE_FAILURE(Com5, "literald")
    .failure Com5 [97, 108, 105, 116, 101, 114, 97, 108, 97, 108, 105, 116, 101, 114, 97, 108, 99, 108, 105, 116, 101, 114, 97, 108, 98, 108, 105, 116, 101, 114, 97, 108],  -- 155: ASSERT_PARSE_FAILURE(Com5, "aliteralaliteralcliteralbliteral")
    .success Com5 [] .null []  -- 156: ASSERT_PARSE_SUCCESS(Com5, "", std::nullopt, "")
    ], Assertion.Holds a :=
  Assertion.holds_of_check (by decide +kernel)

/-- complete_parser / complete_parser<one_or_more_parser> (tests/char-tests/parsers/complete_parser.cpp:176) -/
theorem charParsersCompleteParser_7 : ∀ a ∈ [
    .success Com6 [108, 105, 116, 101, 114, 97, 108, 97, 108, 105, 116, 101, 114, 97, 108, 99, 108, 105, 116, 101, 114, 97, 108, 99, 108, 105, 116, 101, 114, 97, 108, 98] (.node [(.node [(.text [108, 105, 116, 101, 114, 97, 108]), (.text [97])]), (.node [(.text [108, 105, 116, 101, 114, 97, 108]), (.text [99])]), (.node [(.text [108, 105, 116, 101, 114, 97, 108]), (.text [99])]), (.node [(.text [108, 105, 116, 101, 114, 97, 108]), (.text [98])])]) [],  -- 176: ASSERT_PARSE_SUCCESS(Com6, "literalaliteralcliteralcliteralb", Com6::result_for<char>({{"literal", "a"},{"literal", "c"},{"literal", "c"},{"literal", 
    .failure Com6 [108, 105, 116, 101, 114, 97, 108, 97, 108, 105, 116, 101, 114, 97, 108, 99, 108, 105, 116, 101, 114, 97, 108, 99, 108, 105, 116, 101, 114, 97, 108, 98, 108, 105, 116, 101, 114, 97, 108],  -- 177: ASSERT_PARSE_FAILURE(Com6, "literalaliteralcliteralcliteralbliteral")
    .success Com6 [108, 105, 116, 101, 114, 97, 108, 97] (.node [(.node [(.text [108, 105, 116, 101, 114, 97, 108]), (.text [97])])]) [],  -- 178: ASSERT_PARSE_SUCCESS(Com6, "literala", Com6::result_for<char>({{"literal", "a"}}), "")
    .success Com6 [108, 105, 116, 101, 114, 97, 108, 98] (.node [(.node [(.text [108, 105, 116, 101, 114, 97, 108]), (.text [98])])]) [],  -- 179: ASSERT_PARSE_SUCCESS(Com6, "literalb", Com6::result_for<char>({{"literal", "b"}}), "")
    .failure Com6 [108, 105, 116, 101, 114, 97, 108, 100],  -- 180: ASSERT_PARSE_FAILURE(Com6, "literald")
    .failure Com6 [97, 108, 105, 116, 101, 114, 97, 108, 97, 108, 105, 116, 101, 114, 97, 108, 99, 108, 105, 116, 101, 114, 97, 108, 98, 108, 105, 116, 101, 114, 97, 108],  -- 181: ASSERT_PARSE_FAILURE(Com6, "aliteralaliteralcliteralbliteral")
    .failure Com6 []  -- 182: ASSERT_PARSE_FAILURE(Com6, "")
    ], Assertion.Holds a :=
  Assertion.holds_of_check (by decide +kernel)

/-- complete_parser / complete_parser<zero_or_more_parser> (tests/char-tests/parsers/complete_parser.cpp:202) -/
theorem charParsersCompleteParser_8 : ∀ a ∈ [
    .success Com7 [108, 105, 116, 101, 114, 97, 108, 97, 108, 105, 116, 101, 114, 97, 108, 99, 108, 105, 116, 101, 114, 97, 108, 99, 108, 105, 116, 101, 114, 97, 108, 98] (.node [(.node [(.text [108, 105, 116, 101, 114, 97, 108]), (.text [97])]), (.node [(.text [108, 105, 116, 101, 114, 97, 108]), (.text [99])]), (.node [(.text [108, 105, 116, 101, 114, 97, 108]), (.text [99])]), (.node [(.text [108, 105, 116, 101, 114, 97, 108]), (.text [98])])]) [],  -- 202: ASSERT_PARSE_SUCCESS(Com7, "literalaliteralcliteralcliteralb", Com7::result_for<char>({{"literal", "a"},{"literal", "c"},{"literal", "c"},{"literal", 
    .failure Com7 [108, 105, 116, 101, 114, 97, 108, 97, 108, 105, 116, 101, 114, 97, 108, 99, 108, 105, 116, 101, 114, 97, 108, 99, 108, 105, 116, 101, 114, 97, 108, 98, 108, 105, 116, 101, 114, 97, 108],  -- 203: ASSERT_PARSE_FAILURE(Com7, "literalaliteralcliteralcliteralbliteral")
    .success Com7 [108, 105, 116, 101, 114, 97, 108, 97] (.node [(.node [(.text [108, 105, 116, 101, 114, 97, 108]), (.text [97])])]) [],  -- 204: ASSERT_PARSE_SUCCESS(Com7, "literala", Com7::result_for<char>({{"literal", "a"}}), "")
    .success Com7 [108, 105, 116, 101, 114, 97, 108, 98] (.node [(.node [(.text [108, 105, 116, 101, 114, 97, 108]), (.text [98])])]) [],  -- 205: ASSERT_PARSE_SUCCESS(Com7, "literalb", Com7::result_for<char>({{"literal", "b"}}), "")
    .failure Com7 [108, 105, 116, 101, 114, 97, 108, 100],  -- 206: ASSERT_PARSE_FAILURE(Com7, "literald")
    .failure Com7 [97, 108, 105, 116, 101, 114, 97, 108, 97, 108, 105, 116, 101, 114, 97, 108, 99, 108, 105, 116, 101, 114, 97, 108, 98, 108, 105, 116, 101, 114, 97, 108],  -- 207: ASSERT_PARSE_FAILURE(Com7, "aliteralaliteralcliteralbliteral")
    .success Com7 [] (.node []) []  -- 208: ASSERT_PARSE_SUCCESS(Com7, "", Com7::result_for<char>{}, "")
    ], Assertion.Holds a :=
  Assertion.holds_of_check (by decide +kernel)

end Tok3n.Tests
