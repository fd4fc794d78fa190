import Verif.Tests.Gen.SamplesChar
/- Generated by tools/tests2lean.py from tests/char-tests/parsers/anything_parser.cpp. -/

namespace Tok3n.Tests

/-- anything_parser / Requirements (tests/char-tests/parsers/anything_parser.cpp:16) -/
theorem charParsersAnythingParser_1 : ∀ a ∈ [
    .isParser Ant1 anything_family .span  -- 16: ASSERT_IS_PARSER(Ant1, char, anything_family, output_span<char>)
    ], Assertion.Holds a :=
  Assertion.holds_of_check (by decide +kernel)

/-- anything_parser / Parse (tests/char-tests/parsers/anything_parser.cpp:23) -/
theorem charParsersAnythingParser_2 : ∀ a ∈ [
    .success Ant1 [97, 98] (.text [97]) [98],  -- 23: ASSERT_PARSE_SUCCESS(Ant1, "ab", "a", "b")
    .success Ant1 [98, 97] (.text [98]) [97],  -- 24: ASSERT_PARSE_SUCCESS(Ant1, "ba", "b", "a")
    .success Ant1 [97, 98, 99] (.text [97]) [98, 99],  -- 25: ASSERT_PARSE_SUCCESS(Ant1, "abc", "a", "bc")
    .success Ant1 [65, 98] (.text [65]) [98],  -- 26: ASSERT_PARSE_SUCCESS(Ant1, "Ab", "A", "b")
    .success Ant1 [65, 98, 99] (.text [65]) [98, 99],  -- 27: ASSERT_PARSE_SUCCESS(Ant1, "Abc", "A", "bc")
    .success Ant1 [32, 97, 98, 99] (.text [32]) [97, 98, 99],  -- 28: ASSERT_PARSE_SUCCESS(Ant1, " abc", " ", "abc")
    .failure Ant1 []  -- 29: ASSERT_PARSE_FAILURE(Ant1, "")
    ], Assertion.Holds a :=
  Assertion.holds_of_check (by decide +kernel)

end Tok3n.Tests
