import Verif.Tests.Gen.SamplesChar
/- Generated by tools/tests2lean.py from tests/char-tests/parsers/join_parser.cpp. -/

namespace Tok3n.Tests

/-- join_parser / Requirements (tests/char-tests/parsers/join_parser.cpp:20) -/
theorem charParsersJoinParser_1 : ∀ a ∈ [
    .isParser Joi1 join_family .span,  -- 20: ASSERT_IS_PARSER(Joi1, char, join_family, output_span<char>)
    .isParser Joi2 join_family .span,  -- 21: ASSERT_IS_PARSER(Joi2, char, join_family, output_span<char>)
    .isParser Joi3 join_family .span,  -- 22: ASSERT_IS_PARSER(Joi3, char, join_family, output_span<char>)
    .isParser Joi4 join_family .span,  -- 23: ASSERT_IS_PARSER(Joi4, char, join_family, output_span<char>)
    .isParser Joi5 join_family .span  -- 24: ASSERT_IS_PARSER(Joi5, char, join_family, output_span<char>)
    ], Assertion.Holds a :=
  Assertion.holds_of_check (by decide +kernel)

/-- join_parser / Parse all (tests/char-tests/parsers/join_parser.cpp:41) -/
theorem charParsersJoinParser_2 : ∀ a ∈ [
    .success Joi1 [97, 98, 99, 97, 98, 99] (.text [97, 98, 99]) [97, 98, 99],  -- 41: ASSERT_PARSE_SUCCESS(Joi1, "abcabc", "abc", "abc")
    .failure Joi1 [65, 98, 99, 97, 98, 99],  -- 42: ASSERT_PARSE_FAILURE(Joi1, "Abcabc")
    .failure Joi1 [32, 97, 98, 99, 97, 98, 99],  -- 43: ASSERT_PARSE_FAILURE(Joi1, " abcabc")
    .success Joi2 [97, 98, 99, 97, 98, 99, 97, 98, 99, 97, 98] (.text [97, 98, 99, 97, 98, 99, 97, 98, 99]) [97, 98],  -- 45: ASSERT_PARSE_SUCCESS(Joi2, "abcabcabcab", "abcabcabc", "ab")
    .failure Joi2 [],  -- 46: ASSERT_PARSE_FAILURE(Joi2, "")
    .failure Joi2 [97, 98],  -- 47: ASSERT_PARSE_FAILURE(Joi2, "ab")
    .success Joi2 [97, 98, 99] (.text [97, 98, 99]) [],  -- 48: ASSERT_PARSE_SUCCESS(Joi2, "abc", "abc", "")
    .success Joi3 [97, 98, 99, 97, 98, 99] (.text [97, 98, 99]) [97, 98, 99],  -- 50: ASSERT_PARSE_SUCCESS(Joi3, "abcabc", "abc", "abc")
    .success Joi3 [97, 63, 63, 98, 99, 97, 98, 99] (.text []) [97, 63, 63, 98, 99, 97, 98, 99],  -- 51: ASSERT_PARSE_SUCCESS(Joi3, "a??bcabc", "", "a??bcabc")
    .success Joi3 [] (.text []) [],  -- 52: ASSERT_PARSE_SUCCESS(Joi3, "", "", "")
    .success Joi3 [63, 63, 97, 98, 99, 97, 98, 99] (.text [63, 63]) [97, 98, 99, 97, 98, 99],  -- 53: ASSERT_PARSE_SUCCESS(Joi3, "??abcabc", "??", "abcabc")
    .success Joi3 [32, 63, 63, 97, 98, 99, 97, 98, 99] (.text []) [32, 63, 63, 97, 98, 99, 97, 98, 99],  -- 54: ASSERT_PARSE_SUCCESS(Joi3, " ??abcabc", "", " ??abcabc")
    .success Joi4 [97, 98, 99, 63, 63, 63, 63, 63, 63, 63] (.text [97, 98, 99, 63, 63, 63, 63, 63, 63]) [63],  -- 56: ASSERT_PARSE_SUCCESS(Joi4, "abc???????", "abc??????", "?")
    .failure Joi4 [63, 63, 97, 98, 99, 63, 63, 63, 63, 63, 63, 63],  -- 57: ASSERT_PARSE_FAILURE(Joi4, "??abc???????")
    .success Joi4 [97, 98, 99, 63, 63, 97, 98, 99, 63, 63, 63, 63, 63, 63, 63] (.text [97, 98, 99, 63, 63]) [97, 98, 99, 63, 63, 63, 63, 63, 63, 63],  -- 58: ASSERT_PARSE_SUCCESS(Joi4, "abc??abc???????", "abc??", "abc???????")
    .success Joi4 [97, 98, 99, 32, 63, 63, 97, 98, 99, 63, 63, 63, 63, 63, 63, 63] (.text [97, 98, 99]) [32, 63, 63, 97, 98, 99, 63, 63, 63, 63, 63, 63, 63],  -- 59: ASSERT_PARSE_SUCCESS(Joi4, "abc ??abc???????", "abc", " ??abc???????")
    .failure Joi4 [],  -- 60: ASSERT_PARSE_FAILURE(Joi4, "")
    .success Joi5 [97, 98, 99, 97, 98, 99, 97, 98, 99, 97, 98, 99, 63, 63] (.text [97, 98, 99, 97, 98, 99, 97, 98, 99, 97, 98, 99, 63, 63]) [],  -- 62: ASSERT_PARSE_SUCCESS(Joi5, "abcabcabcabc??", "abcabcabcabc??", "")
    .success Joi5 [97, 98, 99, 97, 98, 99, 97, 98, 99, 97, 98, 99] (.text [97, 98, 99, 97, 98, 99, 97, 98, 99, 97, 98, 99]) [],  -- 63: ASSERT_PARSE_SUCCESS(Joi5, "abcabcabcabc", "abcabcabcabc", "")
    .success Joi5 [97, 98, 99, 97, 98, 99, 97, 98, 99, 97, 98, 99, 32, 63, 63] (.text [97, 98, 99, 97, 98, 99, 97, 98, 99, 97, 98, 99]) [32, 63, 63],  -- 64: ASSERT_PARSE_SUCCESS(Joi5, "abcabcabcabc ??", "abcabcabcabc", " ??")
    .success Joi5 [97, 98, 99] (.text [97, 98, 99]) [],  -- 65: ASSERT_PARSE_SUCCESS(Joi5, "abc", "abc", "")
    .failure Joi5 [32, 97, 98, 99],  -- 66: ASSERT_PARSE_FAILURE(Joi5, " abc")
    .failure Joi5 []  -- 67: ASSERT_PARSE_FAILURE(Joi5, "")
    ], Assertion.Holds a :=
  Assertion.holds_of_check (by decide +kernel)

/-- join_parser / Contiguous empty strings (tests/char-tests/parsers/join_parser.cpp:133) -/
theorem charParsersJoinParser_3 : ∀ a ∈ [
    .success (.join (.sequence [(.allOf [42, 42, 115, 116, 97, 114, 116, 42, 42]), (.join (.maybe (.choice [ABC, QQ]))), (.join (.zeroOrMore (.sequence [All1, Any2]))), (.allOf [95, 95, 101, 110, 100, 95, 95])])) [42, 42, 115, 116, 97, 114, 116, 42, 42, 95, 95, 101, 110, 100, 95, 95] (.text [42, 42, 115, 116, 97, 114, 116, 42, 42, 95, 95, 101, 110, 100, 95, 95]) []  -- 133: ASSERT_PARSE_SUCCESS(P, "**start**__end__", "**start**__end__", "")
    ], Assertion.Holds a :=
  Assertion.holds_of_check (by decide +kernel)

/-- join_parser / join_parser<delimit_parser> (tests/char-tests/parsers/join_parser.cpp:149) -/
theorem charParsersJoinParser_4 : ∀ a ∈ [
    .success (.delimit ABC (.ignore QQ)) [97, 98, 99] (.node [(.text [97, 98, 99])]) [],  -- 149: ASSERT_PARSE_SUCCESS(D, "abc", vec_type({"abc"}), "")
    .success (.delimit ABC (.ignore QQ)) [97, 98, 99, 63, 63, 97, 98, 99, 63, 63, 97] (.node [(.text [97, 98, 99]), (.text [97, 98, 99])]) [63, 63, 97],  -- 150: ASSERT_PARSE_SUCCESS(D, "abc??abc??a", vec_type({"abc", "abc"}), "??a")
    .success (.delimit ABC (.ignore QQ)) [97, 98, 99, 63, 63, 97, 98, 99, 63, 63, 97, 98, 99] (.node [(.text [97, 98, 99]), (.text [97, 98, 99]), (.text [97, 98, 99])]) [],  -- 151: ASSERT_PARSE_SUCCESS(D, "abc??abc??abc", vec_type({"abc", "abc", "abc"}), "")
    .success (.join (.delimit ABC (.ignore QQ))) [97, 98, 99] (.text [97, 98, 99]) [],  -- 152: ASSERT_PARSE_SUCCESS(J, "abc", "abc", "")
    .lookOnly (.join (.delimit ABC (.ignore QQ))) [97, 98, 99, 63, 63, 97, 98, 99, 63, 63, 97] [63, 63, 97],  -- 153: ASSERT_PARSE_LOOKAHEAD_ONLY(J, "abc??abc??a", "??a")
    .lookOnly (.join (.delimit ABC (.ignore QQ))) [97, 98, 99, 63, 63, 97, 98, 99, 63, 63, 97, 98, 99] []  -- 154: ASSERT_PARSE_LOOKAHEAD_ONLY(J, "abc??abc??abc", "")
    ], Assertion.Holds a :=
  Assertion.holds_of_check (by decide +kernel)

/-- join_parser / join_parser<ignore_parser> (tests/char-tests/parsers/join_parser.cpp:191) -/
theorem charParsersJoinParser_5 : ∀ a ∈ [
    .success (.sequence [ABC, (.ignore QQ)]) [97, 98, 99, 63, 63, 97, 98, 99] (.text [97, 98, 99]) [97, 98, 99],  -- 191: ASSERT_PARSE_SUCCESS(S1, "abc??abc", "abc", "abc")
    .success (.sequence [ABC, (.ignore QQ)]) [97, 98, 99, 63, 63, 97, 98, 99, 63, 63, 97] (.text [97, 98, 99]) [97, 98, 99, 63, 63, 97],  -- 192: ASSERT_PARSE_SUCCESS(S1, "abc??abc??a", "abc", "abc??a")
    .success (.join (.sequence [ABC, (.ignore QQ)])) [97, 98, 99, 63, 63, 97, 98, 99] (.text [97, 98, 99]) [97, 98, 99],  -- 193: ASSERT_PARSE_SUCCESS(J1, "abc??abc", "abc", "abc")
    .success (.join (.sequence [ABC, (.ignore QQ)])) [97, 98, 99, 63, 63, 97, 98, 99, 63, 63, 97] (.text [97, 98, 99]) [97, 98, 99, 63, 63, 97],  -- 194: ASSERT_PARSE_SUCCESS(J1, "abc??abc??a", "abc", "abc??a")
    .success (.sequence [ABC, (.ignore QQ), ABC]) [97, 98, 99, 63, 63, 97, 98, 99] (.node [(.text [97, 98, 99]), (.text [97, 98, 99])]) [],  -- 196: ASSERT_PARSE_SUCCESS(S2, "abc??abc", std::tuple("abc", "abc"), "")
    .success (.sequence [ABC, (.ignore QQ), ABC]) [97, 98, 99, 63, 63, 97, 98, 99, 63, 63, 97] (.node [(.text [97, 98, 99]), (.text [97, 98, 99])]) [63, 63, 97],  -- 197: ASSERT_PARSE_SUCCESS(S2, "abc??abc??a", std::tuple("abc", "abc"), "??a")
    .lookOnly (.join (.sequence [ABC, (.ignore QQ), ABC])) [97, 98, 99, 63, 63, 97, 98, 99] [],  -- 198: ASSERT_PARSE_LOOKAHEAD_ONLY(J2, "abc??abc", "")
    .lookOnly (.join (.sequence [ABC, (.ignore QQ), ABC])) [97, 98, 99, 63, 63, 97, 98, 99, 63, 63, 97] [63, 63, 97],  -- 199: ASSERT_PARSE_LOOKAHEAD_ONLY(J2, "abc??abc??a", "??a")
    .success (.sequence [ABC, QQ, ABC]) [97, 98, 99, 63, 63, 97, 98, 99] (.node [(.text [97, 98, 99]), (.text [63, 63]), (.text [97, 98, 99])]) [],  -- 201: ASSERT_PARSE_SUCCESS(S3, "abc??abc", std::tuple("abc", "??", "abc"), "")
    .success (.sequence [ABC, QQ, ABC]) [97, 98, 99, 63, 63, 97, 98, 99, 63, 63, 97] (.node [(.text [97, 98, 99]), (.text [63, 63]), (.text [97, 98, 99])]) [63, 63, 97],  -- 202: ASSERT_PARSE_SUCCESS(S3, "abc??abc??a", std::tuple("abc", "??", "abc"), "??a")
    .success (.join (.sequence [ABC, QQ, ABC])) [97, 98, 99, 63, 63, 97, 98, 99] (.text [97, 98, 99, 63, 63, 97, 98, 99]) [],  -- 203: ASSERT_PARSE_SUCCESS(J3, "abc??abc", "abc??abc", "")
    .success (.join (.sequence [ABC, QQ, ABC])) [97, 98, 99, 63, 63, 97, 98, 99, 63, 63, 97] (.text [97, 98, 99, 63, 63, 97, 98, 99]) [63, 63, 97],  -- 204: ASSERT_PARSE_SUCCESS(J3, "abc??abc??a", "abc??abc", "??a")
    .success (.sequence [ABC, (.anyOf [63]), (.anyOf [63]), ABC]) [97, 98, 99, 63, 63, 97, 98, 99] (.node [(.text [97, 98, 99]), (.text [63]), (.text [63]), (.text [97, 98, 99])]) [],  -- 206: ASSERT_PARSE_SUCCESS(S4, "abc??abc", std::tuple("abc", "?", "?", "abc"), "")
    .success (.sequence [ABC, (.anyOf [63]), (.anyOf [63]), ABC]) [97, 98, 99, 63, 63, 97, 98, 99, 63, 63, 97] (.node [(.text [97, 98, 99]), (.text [63]), (.text [63]), (.text [97, 98, 99])]) [63, 63, 97],  -- 207: ASSERT_PARSE_SUCCESS(S4, "abc??abc??a", std::tuple("abc", "?", "?", "abc"), "??a")
    .success (.join (.sequence [ABC, (.anyOf [63]), (.anyOf [63]), ABC])) [97, 98, 99, 63, 63, 97, 98, 99] (.text [97, 98, 99, 63, 63, 97, 98, 99]) [],  -- 208: ASSERT_PARSE_SUCCESS(J4, "abc??abc", "abc??abc", "")
    .success (.join (.sequence [ABC, (.anyOf [63]), (.anyOf [63]), ABC])) [97, 98, 99, 63, 63, 97, 98, 99, 63, 63, 97] (.text [97, 98, 99, 63, 63, 97, 98, 99]) [63, 63, 97]  -- 209: ASSERT_PARSE_SUCCESS(J4, "abc??abc??a", "abc??abc", "??a")
    ], Assertion.Holds a :=
  Assertion.holds_of_check (by decide +kernel)

/-- join_parser / join_parser<map_parser> (tests/char-tests/parsers/join_parser.cpp:279) -/
theorem charParsersJoinParser_6 : ∀ a ∈ [
    .success (.map ABC (.user f_parity)) [97, 98, 99, 97, 98, 99] (.text [98]) [97, 98, 99],  -- 279: ASSERT_PARSE_SUCCESS(T1, "abcabc", "b", "abc")
    .success (.map ABC (.user f_parity)) [97, 98, 99] (.text [98]) [],  -- 280: ASSERT_PARSE_SUCCESS(T1, "abc", "b", "")
    .failure (.map ABC (.user f_parity)) [],  -- 281: ASSERT_PARSE_FAILURE(T1, "")
    .success (.join (.map ABC (.user f_parity))) [97, 98, 99, 97, 98, 99] (.text [98]) [97, 98, 99],  -- 282: ASSERT_PARSE_SUCCESS(J1, "abcabc", "b", "abc")
    .success (.join (.map ABC (.user f_parity))) [97, 98, 99] (.text [98]) [],  -- 283: ASSERT_PARSE_SUCCESS(J1, "abc", "b", "")
    .failure (.join (.map ABC (.user f_parity))) [],  -- 284: ASSERT_PARSE_FAILURE(J1, "")
    .success (.sequence [(.map ABC (.user f_parity)), QQ]) [97, 98, 99, 63, 63, 97, 98, 99] (.node [(.text [98]), (.text [63, 63])]) [97, 98, 99],  -- 286: ASSERT_PARSE_SUCCESS(T2, "abc??abc", std::tuple("b", "??"), "abc")
    .success (.sequence [(.map ABC (.user f_parity)), QQ]) [97, 98, 99, 63, 63] (.node [(.text [98]), (.text [63, 63])]) [],  -- 287: ASSERT_PARSE_SUCCESS(T2, "abc??", std::tuple("b", "??"), "")
    .lookOnly (.join (.sequence [(.map ABC (.user f_parity)), QQ])) [97, 98, 99, 63, 63, 97, 98, 99] [97, 98, 99],  -- 288: ASSERT_PARSE_LOOKAHEAD_ONLY(J2, "abc??abc", "abc")
    .lookOnly (.join (.sequence [(.map ABC (.user f_parity)), QQ])) [97, 98, 99, 63, 63] [],  -- 289: ASSERT_PARSE_LOOKAHEAD_ONLY(J2, "abc??", "")
    .success (.zeroOrMore (.sequence [(.map (.oneOrMore ABC) (.user f_parity)), QQ])) [97, 98, 99, 97, 98, 99, 63, 63, 97, 98, 99, 63, 63, 97, 98] (.node [(.node [(.text [97]), (.text [63, 63])]), (.node [(.text [98]), (.text [63, 63])])]) [97, 98],  -- 292: ASSERT_PARSE_SUCCESS(T3, "abcabc??abc??ab", vec_type({{"a", "??"},{"b", "??"}}), "ab")
    .success (.zeroOrMore (.sequence [(.map (.oneOrMore ABC) (.user f_parity)), QQ])) [97, 98, 99, 63, 63, 97, 98, 99, 97, 98, 99, 97, 98, 99, 97, 98, 99, 63, 63] (.node [(.node [(.text [98]), (.text [63, 63])]), (.node [(.text [97]), (.text [63, 63])])]) [],  -- 293: ASSERT_PARSE_SUCCESS(T3, "abc??abcabcabcabc??", vec_type({{"b", "??"},{"a", "??"}}), "")
    .lookOnly (.join (.zeroOrMore (.sequence [(.map (.oneOrMore ABC) (.user f_parity)), QQ]))) [97, 98, 99, 97, 98, 99, 63, 63, 97, 98, 99, 63, 63, 97, 98] [97, 98],  -- 294: ASSERT_PARSE_LOOKAHEAD_ONLY(J3, "abcabc??abc??ab", "ab")
    .lookOnly (.join (.zeroOrMore (.sequence [(.map (.oneOrMore ABC) (.user f_parity)), QQ]))) [97, 98, 99, 63, 63, 97, 98, 99, 97, 98, 99, 97, 98, 99, 97, 98, 99, 63, 63] []  -- 295: ASSERT_PARSE_LOOKAHEAD_ONLY(J3, "abc??abcabcabcabc??", "")
    ], Assertion.Holds a :=
  Assertion.holds_of_check (by decide +kernel)

/-- join_parser / join_parser<sequence_parser<choice_parser<non-eps,eps>, anything>> (tests/char-tests/parsers/join_parser.cpp:344) -/
theorem charParsersJoinParser_7 : ∀ a ∈ [
    .isParser (get (tThen (tOrEps (lAny [43, 45])) (lAll [97, 98, 99]))) sequence_family (.tup [.span, .span]),  -- 344: ASSERT_IS_PARSER(Seq, char, sequence_family, std::tuple<output_span<char>, output_span<char>>)
    .success (.join (get (tThen (tOrEps (lAny [43, 45])) (lAll [97, 98, 99])))) [43, 97, 98, 99, 100] (.text [43, 97, 98, 99]) [100],  -- 350: ASSERT_PARSE_SUCCESS(P, "+abcd", "+abc", "d")
    .success (.join (get (tThen (tOrEps (lAny [43, 45])) (lAll [97, 98, 99])))) [45, 97, 98, 99, 100] (.text [45, 97, 98, 99]) [100],  -- 351: ASSERT_PARSE_SUCCESS(P, "-abcd", "-abc", "d")
    .success (.join (get (tThen (tOrEps (lAny [43, 45])) (lAll [97, 98, 99])))) [97, 98, 99, 100] (.text [97, 98, 99]) [100],  -- 352: ASSERT_PARSE_SUCCESS(P, "abcd", "abc", "d")
    .failure (.join (get (tThen (tOrEps (lAny [43, 45])) (lAll [97, 98, 99])))) [32, 97, 98, 99, 100]  -- 353: ASSERT_PARSE_FAILURE(P, " abcd")
    ], Assertion.Holds a :=
  Assertion.holds_of_check (by decide +kernel)

end Tok3n.Tests
