import Verif.Tests.Gen.SamplesChar
/- Generated by tools/tests2lean.py from tests/char-tests/parsers/choice_parser.cpp. -/

namespace Tok3n.Tests

/-- choice_parser / Requirements (tests/char-tests/parsers/choice_parser.cpp:26) -/
theorem charParsersChoiceParser_1 : ∀ a ∈ [
    .isParser Cho1 choice_family .span,  -- 26: ASSERT_IS_PARSER(TwoWay1, char, choice_family, output_span<char>)
    .isParser Cho2 choice_family .span,  -- 27: ASSERT_IS_PARSER(TwoWay2, char, choice_family, output_span<char>)
    .isParser Cho3 choice_family .span,  -- 28: ASSERT_IS_PARSER(ThreeWay1, char, choice_family, output_span<char>)
    .isParser Cho4 choice_family .span,  -- 29: ASSERT_IS_PARSER(ThreeWay2, char, choice_family, output_span<char>)
    .isParser Cho5 choice_family .void  -- 30: ASSERT_IS_PARSER(Cho5, char, choice_family, void)
    ], Assertion.Holds a :=
  Assertion.holds_of_check (by decide +kernel)

/-- choice_parser / Parse two-way choice_parser (tests/char-tests/parsers/choice_parser.cpp:47) -/
theorem charParsersChoiceParser_2 : ∀ a ∈ [
    .success Cho1 [97, 98, 99] (.text [97, 98]) [99],  -- 47: ASSERT_PARSE_SUCCESS(TwoWay1, "abc", "ab", "c")
    .success Cho1 [98, 97] (.text [98]) [97],  -- 48: ASSERT_PARSE_SUCCESS(TwoWay1, "ba", "b", "a")
    .failure Cho1 [99, 98, 97],  -- 49: ASSERT_PARSE_FAILURE(TwoWay1, "cba")
    .failure Cho1 [100, 99, 98, 97],  -- 50: ASSERT_PARSE_FAILURE(TwoWay1, "dcba")
    .success Cho1 [101, 100, 99, 98, 97] (.text [101]) [100, 99, 98, 97],  -- 51: ASSERT_PARSE_SUCCESS(TwoWay1, "edcba", "e", "dcba")
    .success Cho2 [97, 98, 99] (.text [97]) [98, 99],  -- 53: ASSERT_PARSE_SUCCESS(TwoWay2, "abc", "a", "bc")
    .success Cho2 [98, 97] (.text [98]) [97],  -- 54: ASSERT_PARSE_SUCCESS(TwoWay2, "ba", "b", "a")
    .failure Cho2 [99, 98, 97],  -- 55: ASSERT_PARSE_FAILURE(TwoWay2, "cba")
    .failure Cho2 [100, 99, 98, 97],  -- 56: ASSERT_PARSE_FAILURE(TwoWay2, "dcba")
    .success Cho2 [101, 100, 99, 98, 97] (.text [101]) [100, 99, 98, 97]  -- 57: ASSERT_PARSE_SUCCESS(TwoWay2, "edcba", "e", "dcba")
    ], Assertion.Holds a :=
  Assertion.holds_of_check (by decide +kernel)

/-- choice_parser / Parse three-way choice_parser (tests/char-tests/parsers/choice_parser.cpp:86) -/
theorem charParsersChoiceParser_3 : ∀ a ∈ [
    .success Cho3 [97, 98, 99] (.text [97, 98]) [99],  -- 86: ASSERT_PARSE_SUCCESS(ThreeWay1, "abc", "ab", "c")
    .success Cho3 [98, 97] (.text [98]) [97],  -- 87: ASSERT_PARSE_SUCCESS(ThreeWay1, "ba", "b", "a")
    .success Cho3 [99, 98, 97] (.text [99]) [98, 97],  -- 88: ASSERT_PARSE_SUCCESS(ThreeWay1, "cba", "c", "ba")
    .success Cho3 [100, 99, 98, 97] (.text [100]) [99, 98, 97],  -- 89: ASSERT_PARSE_SUCCESS(ThreeWay1, "dcba", "d", "cba")
    .success Cho3 [101, 100, 99, 98, 97] (.text [101]) [100, 99, 98, 97],  -- 90: ASSERT_PARSE_SUCCESS(ThreeWay1, "edcba", "e", "dcba")
    .success Cho4 [97, 98, 99] (.text [97]) [98, 99],  -- 92: ASSERT_PARSE_SUCCESS(ThreeWay2, "abc", "a", "bc")
    .success Cho4 [98, 97] (.text [98]) [97],  -- 93: ASSERT_PARSE_SUCCESS(ThreeWay2, "ba", "b", "a")
    .success Cho4 [99, 98, 97] (.text [99]) [98, 97],  -- 94: ASSERT_PARSE_SUCCESS(ThreeWay2, "cba", "c", "ba")
    .success Cho4 [100, 99, 98, 97] (.text [100]) [99, 98, 97],  -- 95: ASSERT_PARSE_SUCCESS(ThreeWay2, "dcba", "d", "cba")
    .success Cho4 [101, 100, 99, 98, 97] (.text [101]) [100, 99, 98, 97],  -- 96: ASSERT_PARSE_SUCCESS(ThreeWay2, "edcba", "e", "dcba")
    .failure Cho3 [122, 121, 120],  -- 98: ASSERT_PARSE_FAILURE(ThreeWay1, "zyx")
    .success Cho3 [120, 121, 122] (.text [120]) [121, 122],  -- 99: ASSERT_PARSE_SUCCESS(ThreeWay1, "xyz", "x", "yz")
    .failure Cho4 [122, 121, 120],  -- 100: ASSERT_PARSE_FAILURE(ThreeWay2, "zyx")
    .success Cho4 [120, 121, 122] (.text [120]) [121, 122]  -- 101: ASSERT_PARSE_SUCCESS(ThreeWay2, "xyz", "x", "yz")
    ], Assertion.Holds a :=
  Assertion.holds_of_check (by decide +kernel)

/-- choice_parser / Parse void result_type (tests/char-tests/parsers/choice_parser.cpp:140) -/
theorem charParsersChoiceParser_4 : ∀ a ∈ [
    .failure Cho5 [97, 98],  -- 140: ASSERT_PARSE_FAILURE(Cho5, "ab")
    .successVoid Cho5 [97, 98, 99, 97] [97],  -- 141: ASSERT_PARSE_SUCCESS_VOID(Cho5, "abca", "a")
    .successVoid Cho5 [97, 98, 99, 97, 98, 99, 97, 98, 99] [97, 98, 99, 97, 98, 99]  -- 142: ASSERT_PARSE_SUCCESS_VOID(Cho5, "abcabcabc", "abcabc")
    ], Assertion.Holds a :=
  Assertion.holds_of_check (by decide +kernel)

/-- choice_parser / Constructible not only from parsers with the same result_type (tests/char-tests/parsers/choice_parser.cpp:157) -/
theorem charParsersChoiceParser_5 : ∀ a ∈ [
    .isWf (.choice [Any1, Any3, Non2, Non1, All2]),  -- 157: ASSERT_PARSER_CONSTRUCTIBLE(choice_parser, Any1, Any3, Non2, Non1, All2)
    .isWf (.choice [Any1, (.sequence [Any2, Any3])])  -- 158: ASSERT_PARSER_CONSTRUCTIBLE(choice_parser, Any1, sequence_parser<Any2, Any3>)
    ], Assertion.Holds a :=
  Assertion.holds_of_check (by decide +kernel)

/-- choice_parser / Not constructible empty (tests/char-tests/parsers/choice_parser.cpp:163) -/
theorem charParsersChoiceParser_6 : ∀ a ∈ [
    .notWf (.choice [])  -- 163: ASSERT_PARSER_NOT_CONSTRUCTIBLE(choice_parser)
    ], Assertion.Holds a :=
  Assertion.holds_of_check (by decide +kernel)

/-- choice_parser / Move only (tests/char-tests/parsers/choice_parser.cpp:173) -/
theorem charParsersChoiceParser_7 : ∀ a ∈ [
    .success (.choice [(.map Any3 (.construct (tMove .span))), (.map ABC (.construct (tMove .span)))]) [120, 121, 122] (.node [(.text [120])]) [121, 122],  -- 173: ASSERT_PARSE_SUCCESS(P, "xyz", T("x"), "yz")
    .failure (.choice [(.map Any3 (.construct (tMove .span))), (.map ABC (.construct (tMove .span)))]) [97, 98, 120, 121, 122],  -- 174: ASSERT_PARSE_FAILURE(P, "abxyz")
    .success (.choice [(.map Any3 (.construct (tMove .span))), (.map ABC (.construct (tMove .span)))]) [97, 98, 99, 120, 121, 122] (.node [(.text [97, 98, 99])]) [120, 121, 122],  -- 175: ASSERT_PARSE_SUCCESS(P, "abcxyz", T("abc"), "xyz")
    .success (.choice [(.map Any3 (.construct (tMove .span))), (.map ABC (.construct (tMove .span)))]) [122, 97, 98, 99, 120, 121, 122] (.node [(.text [122])]) [97, 98, 99, 120, 121, 122]  -- 176: ASSERT_PARSE_SUCCESS(P, "zabcxyz", T("z"), "abcxyz")
    ], Assertion.Holds a :=
  Assertion.holds_of_check (by decide +kernel)

/-- choice_parser / Copy only (tests/char-tests/parsers/choice_parser.cpp:203) -/
theorem charParsersChoiceParser_8 : ∀ a ∈ [
    .success (.choice [(.map Any3 (.construct (tCopy .span))), (.map ABC (.construct (tCopy .span)))]) [120, 121, 122] (.node [(.text [120])]) [121, 122],  -- 203: ASSERT_PARSE_SUCCESS(P, "xyz", T("x"), "yz")
    .failure (.choice [(.map Any3 (.construct (tCopy .span))), (.map ABC (.construct (tCopy .span)))]) [97, 98, 120, 121, 122],  -- 204: ASSERT_PARSE_FAILURE(P, "abxyz")
    .success (.choice [(.map Any3 (.construct (tCopy .span))), (.map ABC (.construct (tCopy .span)))]) [97, 98, 99, 120, 121, 122] (.node [(.text [97, 98, 99])]) [120, 121, 122],  -- 205: ASSERT_PARSE_SUCCESS(P, "abcxyz", T("abc"), "xyz")
    .success (.choice [(.map Any3 (.construct (tCopy .span))), (.map ABC (.construct (tCopy .span)))]) [122, 97, 98, 99, 120, 121, 122] (.node [(.text [122])]) [97, 98, 99, 120, 121, 122]  -- 206: ASSERT_PARSE_SUCCESS(P, "zabcxyz", T("z"), "abcxyz")
    ], Assertion.Holds a :=
  Assertion.holds_of_check (by decide +kernel)

/-- choice_parser / Result type (tests/char-tests/parsers/choice_parser.cpp:234) -/
theorem charParsersChoiceParser_9 : ∀ a ∈ [
    .isParser (.choice [ABC, QQ, SpaceDot]) choice_family .span,  -- 234: ASSERT_IS_PARSER(P1, char, choice_family, output_span<char>)
    .isParser (.choice [ABC, (.map SpaceDot (.const (cInt 0))), QQ]) choice_family (.var [.span, tInt]),  -- 239: ASSERT_IS_PARSER(P2, char, choice_family, std::variant<output_span<char>, int>)
    .isParser (.choice [ABC, QQ, (.map SpaceDot (.const (cInt 0)))]) choice_family (.var [.span, tInt]),  -- 244: ASSERT_IS_PARSER(P3, char, choice_family, std::variant<output_span<char>, int>)
    .isParser (.choice [(.map SpaceDot (.const (cInt 0))), ABC, QQ]) choice_family (.var [tInt, .span]),  -- 249: ASSERT_IS_PARSER(P4, char, choice_family, std::variant<int, output_span<char>>)
    .isParser (.choice [(.map SpaceDot (.const (cInt 0))), ABC, QQ, (.map SpaceDot (.const (cInt 1)))]) choice_family (.var [tInt, .span]),  -- 254: ASSERT_IS_PARSER(P5, char, choice_family, std::variant<int, output_span<char>>)
    .isParser (.choice [(.map SpaceDot (.const (cInt 0))), ABC, (.map SpaceDot (.const (cInt 1))), QQ]) choice_family (.var [tInt, .span])  -- 259: ASSERT_IS_PARSER(P6, char, choice_family, std::variant<int, output_span<char>>)
    ], Assertion.Holds a :=
  Assertion.holds_of_check (by decide +kernel)

end Tok3n.Tests
