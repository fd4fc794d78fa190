import Verif.Tests.Gen.SamplesChar
/- Generated by tools/tests2lean.py from tests/char-tests/parsers/delimit_parser.cpp. -/

namespace Tok3n.Tests

/-- delimit_parser regular / Requirements (tests/char-tests/parsers/delimit_parser.cpp:30) -/
theorem charParsersDelimitParser_1 : ∀ a ∈ [
    .isParser Del1 delimit_family (.vec .span),  -- 30: ASSERT_IS_PARSER(Del1, char, delimit_family, std::vector<output_span<char>>)
    .isParser Del2 delimit_family (.vec .span),  -- 31: ASSERT_IS_PARSER(Del2, char, delimit_family, std::vector<output_span<char>>)
    .isParser Del3 delimit_family (.vec .span),  -- 32: ASSERT_IS_PARSER(Del3, char, delimit_family, std::vector<output_span<char>>)
    .isParser Del4 delimit_family (.vec .span),  -- 33: ASSERT_IS_PARSER(Del4, char, delimit_family, std::vector<output_span<char>>)
    .isParser Del5 delimit_family (.vec .span),  -- 34: ASSERT_IS_PARSER(Del5, char, delimit_family, std::vector<output_span<char>>)
    .isParser Del6 delimit_family (.vec .span),  -- 35: ASSERT_IS_PARSER(Del6, char, delimit_family, std::vector<output_span<char>>)
    .isParser Del7 delimit_family (.vec .span),  -- 36: ASSERT_IS_PARSER(Del7, char, delimit_family, std::vector<output_span<char>>)
    .isParser Del8 delimit_family (.vec .span)  -- 37: ASSERT_IS_PARSER(Del8, char, delimit_family, std::vector<output_span<char>>)
    ], Assertion.Holds a :=
  Assertion.holds_of_check (by decide +kernel)

/-- delimit_parser keep / Requirements (tests/char-tests/parsers/delimit_parser.cpp:69) -/
theorem charParsersDelimitParser_2 : ∀ a ∈ [
    .isParser Dek1 delimit_family (.pair (.vec .span) (.vec .span)),  -- 69: ASSERT_IS_PARSER(Dek1, char, delimit_family, std::pair<std::vector<output_span<char>>, std::vector<output_span<char>>>)
    .isParser Dek2 delimit_family (.pair (.vec .span) (.vec .span)),  -- 70: ASSERT_IS_PARSER(Dek2, char, delimit_family, std::pair<std::vector<output_span<char>>, std::vector<output_span<char>>>)
    .isParser Dek3 delimit_family (.pair (.vec .span) (.vec .span)),  -- 71: ASSERT_IS_PARSER(Dek3, char, delimit_family, std::pair<std::vector<output_span<char>>, std::vector<output_span<char>>>)
    .isParser Dek4 delimit_family (.pair (.vec .span) (.vec .span)),  -- 72: ASSERT_IS_PARSER(Dek4, char, delimit_family, std::pair<std::vector<output_span<char>>, std::vector<output_span<char>>>)
    .isParser Dek5 delimit_family (.pair (.vec .span) (.vec .span)),  -- 73: ASSERT_IS_PARSER(Dek5, char, delimit_family, std::pair<std::vector<output_span<char>>, std::vector<output_span<char>>>)
    .isParser Dek6 delimit_family (.pair (.vec .span) (.vec .span)),  -- 74: ASSERT_IS_PARSER(Dek6, char, delimit_family, std::pair<std::vector<output_span<char>>, std::vector<output_span<char>>>)
    .isParser Dek7 delimit_family (.pair (.vec .span) (.vec .span)),  -- 75: ASSERT_IS_PARSER(Dek7, char, delimit_family, std::pair<std::vector<output_span<char>>, std::vector<output_span<char>>>)
    .isParser Dek8 delimit_family (.pair (.vec .span) (.vec .span))  -- 76: ASSERT_IS_PARSER(Dek8, char, delimit_family, std::pair<std::vector<output_span<char>>, std::vector<output_span<char>>>)
    ], Assertion.Holds a :=
  Assertion.holds_of_check (by decide +kernel)

/-- delimit_parser regular / Parse all (tests/char-tests/parsers/delimit_parser.cpp:99) -/
theorem charParsersDelimitParser_3 : ∀ a ∈ [
    .success Del1 [97, 98, 99, 44, 97, 98, 99, 44, 97, 98, 99, 44, 44, 97, 98, 99, 44, 97, 98, 99, 44, 97, 98, 99] (.node [(.text [97, 98, 99]), (.text [97, 98, 99]), (.text [97, 98, 99])]) [44, 44, 97, 98, 99, 44, 97, 98, 99, 44, 97, 98, 99],  -- 99: ASSERT_PARSE_SUCCESS(Del1, "abc,abc,abc,,abc,abc,abc", vec_type<char>({"abc", "abc", "abc"}), ",,abc,abc,abc")
    .failure Del1 [44, 97, 98, 99, 44, 97, 98, 99, 44, 97, 98, 99, 44, 44, 97, 98, 99, 44, 97, 98, 99, 44, 97, 98, 99],  -- 100: ASSERT_PARSE_FAILURE(Del1, ",abc,abc,abc,,abc,abc,abc")
    .success Del1 [97, 98, 99, 32, 44, 97, 98, 99, 44, 97, 98, 99, 44, 97, 98, 99, 44, 44, 97, 98, 99, 44, 97, 98, 99, 44, 97, 98, 99] (.node [(.text [97, 98, 99])]) [32, 44, 97, 98, 99, 44, 97, 98, 99, 44, 97, 98, 99, 44, 44, 97, 98, 99, 44, 97, 98, 99, 44, 97, 98, 99],  -- 101: ASSERT_PARSE_SUCCESS(Del1, "abc,abc,abc,abc,,abc,abc,abc", vec_type<char>({"abc"}), ",abc,abc,abc,,abc,abc,abc")
    .failure Del1 [],  -- 102: ASSERT_PARSE_FAILURE(Del1, "")
    .success Del2 [97, 98, 99, 46, 97, 98, 99, 32, 97, 98, 99, 32, 46, 97, 98, 99, 46, 97, 98, 99, 32, 97, 98, 99] (.node [(.text [97, 98, 99]), (.text [97, 98, 99]), (.text [97, 98, 99])]) [32, 46, 97, 98, 99, 46, 97, 98, 99, 32, 97, 98, 99],  -- 103: ASSERT_PARSE_SUCCESS(Del2, "abc.abc abc .abc.abc abc", vec_type<char>({"abc", "abc", "abc"}), " .abc.abc abc")
    .success Del2 [97, 98, 99, 32, 97, 98, 99, 46, 97, 98, 99, 32, 46, 97, 98, 99, 46, 97, 98, 99, 32, 97, 98, 99] (.node [(.text [97, 98, 99]), (.text [97, 98, 99]), (.text [97, 98, 99])]) [32, 46, 97, 98, 99, 46, 97, 98, 99, 32, 97, 98, 99],  -- 104: ASSERT_PARSE_SUCCESS(Del2, "abc abc.abc .abc.abc abc", vec_type<char>({"abc", "abc", "abc"}), " .abc.abc abc")
    .failure Del2 [46, 97, 98, 99, 32, 97, 98, 99, 46, 97, 98, 99, 32, 46, 97, 98, 99, 46, 97, 98, 99, 32, 97, 98, 99],  -- 105: ASSERT_PARSE_FAILURE(Del2, ".abc abc.abc .abc.abc abc")
    .failure Del2 [32, 97, 98, 99, 32, 97, 98, 99, 46, 97, 98, 99, 32, 46, 97, 98, 99, 46, 97, 98, 99, 32, 97, 98, 99],  -- 106: ASSERT_PARSE_FAILURE(Del2, " abc abc.abc .abc.abc abc")
    .failure Del2 [],  -- 107: ASSERT_PARSE_FAILURE(Del2, "")
    .success Del3 [63, 63, 44, 63, 63, 44, 63, 63, 44, 44, 63, 63, 44, 63, 63, 44, 63, 63] (.node [(.text [63, 63]), (.text [63, 63]), (.text [63, 63])]) [44, 44, 63, 63, 44, 63, 63, 44, 63, 63],  -- 108: ASSERT_PARSE_SUCCESS(Del3, "??,??,??,,??,??,??", vec_type<char>({"??", "??", "??"}), ",,??,??,??")
    .failure Del3 [44, 63, 63, 44, 63, 63, 44, 63, 63, 44, 44, 63, 63, 44, 63, 63, 44, 63, 63],  -- 109: ASSERT_PARSE_FAILURE(Del3, ",??,??,??,,??,??,??")
    .success Del3 [63, 63, 32, 44, 63, 63, 44, 63, 63, 44, 63, 63, 44, 44, 63, 63, 44, 63, 63, 44, 63, 63] (.node [(.text [63, 63])]) [32, 44, 63, 63, 44, 63, 63, 44, 63, 63, 44, 44, 63, 63, 44, 63, 63, 44, 63, 63],  -- 110: ASSERT_PARSE_SUCCESS(Del3, "??,??,??,??,,??,??,??", vec_type<char>({"??"}), ",??,??,??,,??,??,??")
    .failure Del3 [],  -- 111: ASSERT_PARSE_FAILURE(Del3, "")
    .success Del4 [63, 63, 46, 63, 63, 32, 63, 63, 32, 46, 63, 63, 46, 63, 63, 32, 63, 63] (.node [(.text [63, 63]), (.text [63, 63]), (.text [63, 63])]) [32, 46, 63, 63, 46, 63, 63, 32, 63, 63],  -- 112: ASSERT_PARSE_SUCCESS(Del4, "??.?? ?? .??.?? ??", vec_type<char>({"??", "??", "??"}), " .??.?? ??")
    .success Del4 [63, 63, 32, 63, 63, 46, 63, 63, 32, 46, 63, 63, 46, 63, 63, 32, 63, 63] (.node [(.text [63, 63]), (.text [63, 63]), (.text [63, 63])]) [32, 46, 63, 63, 46, 63, 63, 32, 63, 63],  -- 113: ASSERT_PARSE_SUCCESS(Del4, "?? ??.?? .??.?? ??", vec_type<char>({"??", "??", "??"}), " .??.?? ??")
    .failure Del4 [46, 63, 63, 32, 63, 63, 46, 63, 63, 32, 46, 63, 63, 46, 63, 63, 32, 63, 63],  -- 114: ASSERT_PARSE_FAILURE(Del4, ".?? ??.?? .??.?? ??")
    .failure Del4 [32, 63, 63, 32, 63, 63, 46, 63, 63, 32, 46, 63, 63, 46, 63, 63, 32, 63, 63],  -- 115: ASSERT_PARSE_FAILURE(Del4, " ?? ??.?? .??.?? ??")
    .failure Del4 []  -- 116: ASSERT_PARSE_FAILURE(Del4, "")
    ], Assertion.Holds a :=
  Assertion.holds_of_check (by decide +kernel)

/-- delimit_parser regular / Parse all inverted (tests/char-tests/parsers/delimit_parser.cpp:159) -/
theorem charParsersDelimitParser_4 : ∀ a ∈ [
    .failure Del5 [97, 98, 99, 44, 97, 98, 99, 44, 97, 98, 99, 44, 44, 97, 98, 99, 44, 97, 98, 99, 44, 97, 98, 99],  -- 159: ASSERT_PARSE_FAILURE(Del5, "abc,abc,abc,,abc,abc,abc")
    .success Del5 [44, 97, 98, 99, 44, 97, 98, 99, 44, 97, 98, 99, 44, 44, 97, 98, 99, 44, 97, 98, 99, 44, 97, 98, 99] (.node [(.text [44]), (.text [44]), (.text [44]), (.text [44])]) [44, 97, 98, 99, 44, 97, 98, 99, 44, 97, 98, 99],  -- 160: ASSERT_PARSE_SUCCESS(Del5, ",abc,abc,abc,,abc,abc,abc", vec_type<char>({",", ",", ",", ","}), ",abc,abc,abc")
    .failure Del5 [97, 98, 99, 32, 44, 97, 98, 99, 44, 97, 98, 99, 44, 97, 98, 99, 44, 44, 97, 98, 99, 44, 97, 98, 99, 44, 97, 98, 99],  -- 161: ASSERT_PARSE_FAILURE(Del5, "abc,abc,abc,abc,,abc,abc,abc")
    .failure Del5 [],  -- 162: ASSERT_PARSE_FAILURE(Del5, "")
    .failure Del6 [97, 98, 99, 46, 97, 98, 99, 32, 97, 98, 99, 32, 46, 97, 98, 99, 46, 97, 98, 99, 32, 97, 98, 99],  -- 163: ASSERT_PARSE_FAILURE(Del6, "abc.abc abc .abc.abc abc")
    .failure Del6 [97, 98, 99, 32, 97, 98, 99, 46, 97, 98, 99, 32, 46, 97, 98, 99, 46, 97, 98, 99, 32, 97, 98, 99],  -- 164: ASSERT_PARSE_FAILURE(Del6, "abc abc.abc .abc.abc abc")
    .success Del6 [46, 97, 98, 99, 32, 97, 98, 99, 46, 97, 98, 99, 32, 46, 97, 98, 99, 46, 97, 98, 99, 32, 97, 98, 99] (.node [(.text [46]), (.text [32]), (.text [46]), (.text [32])]) [46, 97, 98, 99, 46, 97, 98, 99, 32, 97, 98, 99],  -- 165: ASSERT_PARSE_SUCCESS(Del6, ".abc abc.abc .abc.abc abc", vec_type<char>({".", " ", ".", " "}), ".abc.abc abc")
    .success Del6 [32, 97, 98, 99, 32, 97, 98, 99, 46, 97, 98, 99, 32, 46, 97, 98, 99, 46, 97, 98, 99, 32, 97, 98, 99] (.node [(.text [32]), (.text [32]), (.text [46]), (.text [32])]) [46, 97, 98, 99, 46, 97, 98, 99, 32, 97, 98, 99],  -- 166: ASSERT_PARSE_SUCCESS(Del6, " abc abc.abc .abc.abc abc", vec_type<char>({" ", " ", ".", " "}), ".abc.abc abc")
    .failure Del6 [],  -- 167: ASSERT_PARSE_FAILURE(Del6, "")
    .failure Del7 [63, 63, 44, 63, 63, 44, 63, 63, 44, 44, 63, 63, 44, 63, 63, 44, 63, 63],  -- 168: ASSERT_PARSE_FAILURE(Del7, "??,??,??,,??,??,??")
    .success Del7 [44, 63, 63, 44, 63, 63, 44, 63, 63, 44, 44, 63, 63, 44, 63, 63, 44, 63, 63] (.node [(.text [44]), (.text [44]), (.text [44]), (.text [44])]) [44, 63, 63, 44, 63, 63, 44, 63, 63],  -- 169: ASSERT_PARSE_SUCCESS(Del7, ",??,??,??,,??,??,??", vec_type<char>({",", ",", ",", ","}), ",??,??,??")
    .failure Del7 [63, 63, 32, 44, 63, 63, 44, 63, 63, 44, 63, 63, 44, 44, 63, 63, 44, 63, 63, 44, 63, 63],  -- 170: ASSERT_PARSE_FAILURE(Del7, "??,??,??,??,,??,??,??")
    .failure Del7 [],  -- 171: ASSERT_PARSE_FAILURE(Del7, "")
    .failure Del8 [63, 63, 46, 63, 63, 32, 63, 63, 32, 46, 63, 63, 46, 63, 63, 32, 63, 63],  -- 172: ASSERT_PARSE_FAILURE(Del8, "??.?? ?? .??.?? ??")
    .failure Del8 [63, 63, 32, 63, 63, 46, 63, 63, 32, 46, 63, 63, 46, 63, 63, 32, 63, 63],  -- 173: ASSERT_PARSE_FAILURE(Del8, "?? ??.?? .??.?? ??")
    .success Del8 [46, 63, 63, 32, 63, 63, 46, 63, 63, 32, 46, 63, 63, 46, 63, 63, 32, 63, 63] (.node [(.text [46]), (.text [32]), (.text [46]), (.text [32])]) [46, 63, 63, 46, 63, 63, 32, 63, 63],  -- 174: ASSERT_PARSE_SUCCESS(Del8, ".?? ??.?? .??.?? ??", vec_type<char>({".", " ", ".", " "}), ".??.?? ??")
    .success Del8 [32, 63, 63, 32, 63, 63, 46, 63, 63, 32, 46, 63, 63, 46, 63, 63, 32, 63, 63] (.node [(.text [32]), (.text [32]), (.text [46]), (.text [32])]) [46, 63, 63, 46, 63, 63, 32, 63, 63],  -- 175: ASSERT_PARSE_SUCCESS(Del8, " ?? ??.?? .??.?? ??", vec_type<char>({" ", " ", ".", " "}), ".??.?? ??")
    .failure Del8 []  -- 176: ASSERT_PARSE_FAILURE(Del8, "")
    ], Assertion.Holds a :=
  Assertion.holds_of_check (by decide +kernel)

/-- delimit_parser keep / Parse all (tests/char-tests/parsers/delimit_parser.cpp:219) -/
theorem charParsersDelimitParser_5 : ∀ a ∈ [
    .success Dek1 [97, 98, 99, 44, 97, 98, 99, 44, 97, 98, 99, 44, 44, 97, 98, 99, 44, 97, 98, 99, 44, 97, 98, 99] (.node [(.node [(.text [97, 98, 99]), (.text [97, 98, 99]), (.text [97, 98, 99])]), (.node [(.text [44]), (.text [44])])]) [44, 44, 97, 98, 99, 44, 97, 98, 99, 44, 97, 98, 99],  -- 219: ASSERT_PARSE_SUCCESS(Dek1, "abc,abc,abc,,abc,abc,abc", std::pair(vec_type<char>({"abc", "abc", "abc"}), vec_type<char>({",", ","})), ",,abc,abc,abc")
    .failure Dek1 [44, 97, 98, 99, 44, 97, 98, 99, 44, 97, 98, 99, 44, 44, 97, 98, 99, 44, 97, 98, 99, 44, 97, 98, 99],  -- 220: ASSERT_PARSE_FAILURE(Dek1, ",abc,abc,abc,,abc,abc,abc")
    .success Dek1 [97, 98, 99, 32, 44, 97, 98, 99, 44, 97, 98, 99, 44, 97, 98, 99, 44, 44, 97, 98, 99, 44, 97, 98, 99, 44, 97, 98, 99] (.node [(.node [(.text [97, 98, 99])]), (.node [])]) [32, 44, 97, 98, 99, 44, 97, 98, 99, 44, 97, 98, 99, 44, 44, 97, 98, 99, 44, 97, 98, 99, 44, 97, 98, 99],  -- 221: ASSERT_PARSE_SUCCESS(Dek1, "abc,abc,abc,abc,,abc,abc,abc", std::pair(vec_type<char>({"abc"}), vec_type<char>{}), ",abc,abc,abc,,abc,abc,abc")
    .failure Dek1 [],  -- 222: ASSERT_PARSE_FAILURE(Dek1, "")
    .success Dek2 [97, 98, 99, 46, 97, 98, 99, 32, 97, 98, 99, 32, 46, 97, 98, 99, 46, 97, 98, 99, 32, 97, 98, 99] (.node [(.node [(.text [97, 98, 99]), (.text [97, 98, 99]), (.text [97, 98, 99])]), (.node [(.text [46]), (.text [32])])]) [32, 46, 97, 98, 99, 46, 97, 98, 99, 32, 97, 98, 99],  -- 223: ASSERT_PARSE_SUCCESS(Dek2, "abc.abc abc .abc.abc abc", std::pair(vec_type<char>({"abc", "abc", "abc"}), vec_type<char>({".", " "})), " .abc.abc abc")
    .success Dek2 [97, 98, 99, 32, 97, 98, 99, 46, 97, 98, 99, 32, 46, 97, 98, 99, 46, 97, 98, 99, 32, 97, 98, 99] (.node [(.node [(.text [97, 98, 99]), (.text [97, 98, 99]), (.text [97, 98, 99])]), (.node [(.text [32]), (.text [46])])]) [32, 46, 97, 98, 99, 46, 97, 98, 99, 32, 97, 98, 99],  -- 224: ASSERT_PARSE_SUCCESS(Dek2, "abc abc.abc .abc.abc abc", std::pair(vec_type<char>({"abc", "abc", "abc"}), vec_type<char>({" ", "."})), " .abc.abc abc")
    .failure Dek2 [46, 97, 98, 99, 32, 97, 98, 99, 46, 97, 98, 99, 32, 46, 97, 98, 99, 46, 97, 98, 99, 32, 97, 98, 99],  -- 225: ASSERT_PARSE_FAILURE(Dek2, ".abc abc.abc .abc.abc abc")
    .failure Dek2 [32, 97, 98, 99, 32, 97, 98, 99, 46, 97, 98, 99, 32, 46, 97, 98, 99, 46, 97, 98, 99, 32, 97, 98, 99],  -- 226: ASSERT_PARSE_FAILURE(Dek2, " abc abc.abc .abc.abc abc")
    .failure Dek2 [],  -- 227: ASSERT_PARSE_FAILURE(Dek2, "")
    .success Dek3 [63, 63, 44, 63, 63, 44, 63, 63, 44, 44, 63, 63, 44, 63, 63, 44, 63, 63] (.node [(.node [(.text [63, 63]), (.text [63, 63]), (.text [63, 63])]), (.node [(.text [44]), (.text [44])])]) [44, 44, 63, 63, 44, 63, 63, 44, 63, 63],  -- 228: ASSERT_PARSE_SUCCESS(Dek3, "??,??,??,,??,??,??", std::pair(vec_type<char>({"??", "??", "??"}), vec_type<char>({",", ","})), ",,??,??,??")
    .failure Dek3 [44, 63, 63, 44, 63, 63, 44, 63, 63, 44, 44, 63, 63, 44, 63, 63, 44, 63, 63],  -- 229: ASSERT_PARSE_FAILURE(Dek3, ",??,??,??,,??,??,??")
    .success Dek3 [63, 63, 32, 44, 63, 63, 44, 63, 63, 44, 63, 63, 44, 44, 63, 63, 44, 63, 63, 44, 63, 63] (.node [(.node [(.text [63, 63])]), (.node [])]) [32, 44, 63, 63, 44, 63, 63, 44, 63, 63, 44, 44, 63, 63, 44, 63, 63, 44, 63, 63],  -- 230: ASSERT_PARSE_SUCCESS(Dek3, "??,??,??,??,,??,??,??", std::pair(vec_type<char>({"??"}), vec_type<char>{}), ",??,??,??,,??,??,??")
    .failure Dek3 [],  -- 231: ASSERT_PARSE_FAILURE(Dek3, "")
    .success Dek4 [63, 63, 46, 63, 63, 32, 63, 63, 32, 46, 63, 63, 46, 63, 63, 32, 63, 63] (.node [(.node [(.text [63, 63]), (.text [63, 63]), (.text [63, 63])]), (.node [(.text [46]), (.text [32])])]) [32, 46, 63, 63, 46, 63, 63, 32, 63, 63],  -- 232: ASSERT_PARSE_SUCCESS(Dek4, "??.?? ?? .??.?? ??", std::pair(vec_type<char>({"??", "??", "??"}), vec_type<char>({".", " "})), " .??.?? ??")
    .success Dek4 [63, 63, 32, 63, 63, 46, 63, 63, 32, 46, 63, 63, 46, 63, 63, 32, 63, 63] (.node [(.node [(.text [63, 63]), (.text [63, 63]), (.text [63, 63])]), (.node [(.text [32]), (.text [46])])]) [32, 46, 63, 63, 46, 63, 63, 32, 63, 63],  -- 233: ASSERT_PARSE_SUCCESS(Dek4, "?? ??.?? .??.?? ??", std::pair(vec_type<char>({"??", "??", "??"}), vec_type<char>({" ", "."})), " .??.?? ??")
    .failure Dek4 [46, 63, 63, 32, 63, 63, 46, 63, 63, 32, 46, 63, 63, 46, 63, 63, 32, 63, 63],  -- 234: ASSERT_PARSE_FAILURE(Dek4, ".?? ??.?? .??.?? ??")
    .failure Dek4 [32, 63, 63, 32, 63, 63, 46, 63, 63, 32, 46, 63, 63, 46, 63, 63, 32, 63, 63],  -- 235: ASSERT_PARSE_FAILURE(Dek4, " ?? ??.?? .??.?? ??")
    .failure Dek4 []  -- 236: ASSERT_PARSE_FAILURE(Dek4, "")
    ], Assertion.Holds a :=
  Assertion.holds_of_check (by decide +kernel)

/-- delimit_parser keep / Parse all inverted (tests/char-tests/parsers/delimit_parser.cpp:279) -/
theorem charParsersDelimitParser_6 : ∀ a ∈ [
    .failure Dek5 [97, 98, 99, 44, 97, 98, 99, 44, 97, 98, 99, 44, 44, 97, 98, 99, 44, 97, 98, 99, 44, 97, 98, 99],  -- 279: ASSERT_PARSE_FAILURE(Dek5, "abc,abc,abc,,abc,abc,abc")
    .success Dek5 [44, 97, 98, 99, 44, 97, 98, 99, 44, 97, 98, 99, 44, 44, 97, 98, 99, 44, 97, 98, 99, 44, 97, 98, 99] (.node [(.node [(.text [44]), (.text [44]), (.text [44]), (.text [44])]), (.node [(.text [97, 98, 99]), (.text [97, 98, 99]), (.text [97, 98, 99])])]) [44, 97, 98, 99, 44, 97, 98, 99, 44, 97, 98, 99],  -- 280: ASSERT_PARSE_SUCCESS(Dek5, ",abc,abc,abc,,abc,abc,abc", std::pair(vec_type<char>({",", ",", ",", ","}), vec_type<char>({"abc", "abc", "abc"})), ",abc,
    .failure Dek5 [97, 98, 99, 32, 44, 97, 98, 99, 44, 97, 98, 99, 44, 97, 98, 99, 44, 44, 97, 98, 99, 44, 97, 98, 99, 44, 97, 98, 99],  -- 281: ASSERT_PARSE_FAILURE(Dek5, "abc,abc,abc,abc,,abc,abc,abc")
    .failure Dek5 [],  -- 282: ASSERT_PARSE_FAILURE(Dek5, "")
    .failure Dek6 [97, 98, 99, 46, 97, 98, 99, 32, 97, 98, 99, 32, 46, 97, 98, 99, 46, 97, 98, 99, 32, 97, 98, 99],  -- 283: ASSERT_PARSE_FAILURE(Dek6, "abc.abc abc .abc.abc abc")
    .failure Dek6 [97, 98, 99, 32, 97, 98, 99, 46, 97, 98, 99, 32, 46, 97, 98, 99, 46, 97, 98, 99, 32, 97, 98, 99],  -- 284: ASSERT_PARSE_FAILURE(Dek6, "abc abc.abc .abc.abc abc")
    .success Dek6 [46, 97, 98, 99, 32, 97, 98, 99, 46, 97, 98, 99, 32, 46, 97, 98, 99, 46, 97, 98, 99, 32, 97, 98, 99] (.node [(.node [(.text [46]), (.text [32]), (.text [46]), (.text [32])]), (.node [(.text [97, 98, 99]), (.text [97, 98, 99]), (.text [97, 98, 99])])]) [46, 97, 98, 99, 46, 97, 98, 99, 32, 97, 98, 99],  -- 285: ASSERT_PARSE_SUCCESS(Dek6, ".abc abc.abc .abc.abc abc", std::pair(vec_type<char>({".", " ", ".", " "}), vec_type<char>({"abc", "abc", "abc"})), ".abc.
    .success Dek6 [32, 97, 98, 99, 32, 97, 98, 99, 46, 97, 98, 99, 32, 46, 97, 98, 99, 46, 97, 98, 99, 32, 97, 98, 99] (.node [(.node [(.text [32]), (.text [32]), (.text [46]), (.text [32])]), (.node [(.text [97, 98, 99]), (.text [97, 98, 99]), (.text [97, 98, 99])])]) [46, 97, 98, 99, 46, 97, 98, 99, 32, 97, 98, 99],  -- 286: ASSERT_PARSE_SUCCESS(Dek6, " abc abc.abc .abc.abc abc", std::pair(vec_type<char>({" ", " ", ".", " "}), vec_type<char>({"abc", "abc", "abc"})), ".abc.
    .failure Dek6 [],  -- 287: ASSERT_PARSE_FAILURE(Dek6, "")
    .failure Dek7 [63, 63, 44, 63, 63, 44, 63, 63, 44, 44, 63, 63, 44, 63, 63, 44, 63, 63],  -- 288: ASSERT_PARSE_FAILURE(Dek7, "??,??,??,,??,??,??")
    .success Dek7 [44, 63, 63, 44, 63, 63, 44, 63, 63, 44, 44, 63, 63, 44, 63, 63, 44, 63, 63] (.node [(.node [(.text [44]), (.text [44]), (.text [44]), (.text [44])]), (.node [(.text [63, 63]), (.text [63, 63]), (.text [63, 63])])]) [44, 63, 63, 44, 63, 63, 44, 63, 63],  -- 289: ASSERT_PARSE_SUCCESS(Dek7, ",??,??,??,,??,??,??", std::pair(vec_type<char>({",", ",", ",", ","}), vec_type<char>({"??", "??", "??"})), ",??,??,??")
    .failure Dek7 [63, 63, 32, 44, 63, 63, 44, 63, 63, 44, 63, 63, 44, 44, 63, 63, 44, 63, 63, 44, 63, 63],  -- 290: ASSERT_PARSE_FAILURE(Dek7, "??,??,??,??,,??,??,??")
    .failure Dek7 [],  -- 291: ASSERT_PARSE_FAILURE(Dek7, "")
    .failure Dek8 [63, 63, 46, 63, 63, 32, 63, 63, 32, 46, 63, 63, 46, 63, 63, 32, 63, 63],  -- 292: ASSERT_PARSE_FAILURE(Dek8, "??.?? ?? .??.?? ??")
    .failure Dek8 [63, 63, 32, 63, 63, 46, 63, 63, 32, 46, 63, 63, 46, 63, 63, 32, 63, 63],  -- 293: ASSERT_PARSE_FAILURE(Dek8, "?? ??.?? .??.?? ??")
    .success Dek8 [46, 63, 63, 32, 63, 63, 46, 63, 63, 32, 46, 63, 63, 46, 63, 63, 32, 63, 63] (.node [(.node [(.text [46]), (.text [32]), (.text [46]), (.text [32])]), (.node [(.text [63, 63]), (.text [63, 63]), (.text [63, 63])])]) [46, 63, 63, 46, 63, 63, 32, 63, 63],  -- 294: ASSERT_PARSE_SUCCESS(Dek8, ".?? ??.?? .??.?? ??", std::pair(vec_type<char>({".", " ", ".", " "}), vec_type<char>({"??", "??", "??"})), ".??.?? ??")
    .success Dek8 [32, 63, 63, 32, 63, 63, 46, 63, 63, 32, 46, 63, 63, 46, 63, 63, 32, 63, 63] (.node [(.node [(.text [32]), (.text [32]), (.text [46]), (.text [32])]), (.node [(.text [63, 63]), (.text [63, 63]), (.text [63, 63])])]) [46, 63, 63, 46, 63, 63, 32, 63, 63],  -- 295: ASSERT_PARSE_SUCCESS(Dek8, " ?? ??.?? .??.?? ??", std::pair(vec_type<char>({" ", " ", ".", " "}), vec_type<char>({"??", "??", "??"})), ".??.?? ??")
    .failure Dek8 []  -- 296: ASSERT_PARSE_FAILURE(Dek8, "")
    ], Assertion.Holds a :=
  Assertion.holds_of_check (by decide +kernel)

/-- delimit_parser regular / Parse delimit_parser<void-parser> (tests/char-tests/parsers/delimit_parser.cpp:341) -/
theorem charParsersDelimitParser_7 : ∀ a ∈ [
    .successVoid (.delimit (.ignore ABC) (.ignore Comma)) [97, 98, 99, 97, 98, 99, 97, 98, 99, 97] [97, 98, 99, 97, 98, 99, 97],  -- 341: ASSERT_PARSE_SUCCESS_VOID(P, "abcabcabca", "abcabca")
    .successVoid (.delimit (.ignore ABC) (.ignore Comma)) [97, 98, 99, 44, 97, 98, 99, 97, 98, 99, 97] [97, 98, 99, 97],  -- 342: ASSERT_PARSE_SUCCESS_VOID(P, "abc,abcabca", "abca")
    .successVoid (.delimit (.ignore ABC) (.ignore Comma)) [97, 98, 99, 44, 97, 98, 99, 44, 97, 98, 99, 97] [97],  -- 343: ASSERT_PARSE_SUCCESS_VOID(P, "abc,abc,abca", "a")
    .failure (.delimit (.ignore ABC) (.ignore Comma)) [44, 97, 98, 99, 44, 97, 98, 99, 44, 97, 98, 99, 97],  -- 344: ASSERT_PARSE_FAILURE(P, ",abc,abc,abca")
    .failure (.delimit (.ignore ABC) (.ignore Comma)) [32, 97, 98, 99, 97, 98, 99],  -- 345: ASSERT_PARSE_FAILURE(P, " abcabc")
    .successVoid (.delimit (.ignore ABC) (.ignore Comma)) [97, 98, 99, 97, 98] [97, 98],  -- 346: ASSERT_PARSE_SUCCESS_VOID(P, "abcab", "ab")
    .successVoid (.delimit (.ignore ABC) (.ignore Comma)) [97, 98, 99] [],  -- 347: ASSERT_PARSE_SUCCESS_VOID(P, "abc", "")
    .failure (.delimit (.ignore ABC) (.ignore Comma)) []  -- 348: ASSERT_PARSE_FAILURE(P, "")
    ], Assertion.Holds a :=
  Assertion.holds_of_check (by decide +kernel)

/-- delimit_parser keep / Parse delimit_parser<void-parser> (tests/char-tests/parsers/delimit_parser.cpp:373) -/
theorem charParsersDelimitParser_8 : ∀ a ∈ [
    .success (.delimit (.ignore ABC) Comma) [97, 98, 99, 97, 98, 99, 97, 98, 99, 97] (.node []) [97, 98, 99, 97, 98, 99, 97],  -- 373: ASSERT_PARSE_SUCCESS(P, "abcabcabca", vec_type<char>({}), "abcabca")
    .success (.delimit (.ignore ABC) Comma) [97, 98, 99, 44, 97, 98, 99, 97, 98, 99, 97] (.node [(.text [44])]) [97, 98, 99, 97],  -- 374: ASSERT_PARSE_SUCCESS(P, "abc,abcabca", vec_type<char>({","}), "abca")
    .success (.delimit (.ignore ABC) Comma) [97, 98, 99, 44, 97, 98, 99, 44, 97, 98, 99, 97] (.node [(.text [44]), (.text [44])]) [97],  -- 375: ASSERT_PARSE_SUCCESS(P, "abc,abc,abca", vec_type<char>({",", ","}), "a")
    .failure (.delimit (.ignore ABC) Comma) [44, 97, 98, 99, 44, 97, 98, 99, 44, 97, 98, 99, 97],  -- 376: ASSERT_PARSE_FAILURE(P, ",abc,abc,abca")
    .failure (.delimit (.ignore ABC) Comma) [32, 97, 98, 99, 97, 98, 99],  -- 377: ASSERT_PARSE_FAILURE(P, " abcabc")
    .success (.delimit (.ignore ABC) Comma) [97, 98, 99, 97, 98] (.node []) [97, 98],  -- 378: ASSERT_PARSE_SUCCESS(P, "abcab", vec_type<char>({}), "ab")
    .success (.delimit (.ignore ABC) Comma) [97, 98, 99] (.node []) [],  -- 379: ASSERT_PARSE_SUCCESS(P, "abc", vec_type<char>({}), "")
    .failure (.delimit (.ignore ABC) Comma) []  -- 380: ASSERT_PARSE_FAILURE(P, "")
    ], Assertion.Holds a :=
  Assertion.holds_of_check (by decide +kernel)

end Tok3n.Tests
