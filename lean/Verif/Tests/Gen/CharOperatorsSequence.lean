import Verif.Tests.Gen.SamplesChar
/- Generated by tools/tests2lean.py from tests/char-tests/operators/sequence.cpp. -/

namespace Tok3n.Tests

/-- sequence operator / all_of_parser >> all_of_parser (tests/char-tests/operators/sequence.cpp:14) -/
theorem charOperatorsSequence_1 : ∀ a ∈ [
    .parsersEq (tThen (P All1) (P All1)) (P (.allOf [108, 105, 116, 101, 114, 97, 108, 108, 105, 116, 101, 114, 97, 108])),  -- 14: ASSERT_PARSER_VALUES_EQ(all1>> all1, all_of_parser<TT("literalliteral")>{})
    .parsersEq (tThen (P All1) (P All2)) (P (.allOf [108, 105, 116, 101, 114, 97, 108, 108, 121])),  -- 15: ASSERT_PARSER_VALUES_EQ(all1>> all2, all_of_parser<TT("literally")>{})
    .parsersEq (tThen (P All1) (P All3)) (P (.allOf [108, 105, 116, 101, 114, 97, 108, 116, 101, 115, 116])),  -- 16: ASSERT_PARSER_VALUES_EQ(all1>> all3, all_of_parser<TT("literaltest")>{})
    .parsersEq (tThen (P All2) (P All1)) (P (.allOf [108, 121, 108, 105, 116, 101, 114, 97, 108])),  -- 17: ASSERT_PARSER_VALUES_EQ(all2>> all1, all_of_parser<TT("lyliteral")>{})
    .parsersEq (tThen (P All2) (P All2)) (P (.allOf [108, 121, 108, 121])),  -- 18: ASSERT_PARSER_VALUES_EQ(all2>> all2, all_of_parser<TT("lyly")>{})
    .parsersEq (tThen (P All2) (P All3)) (P (.allOf [108, 121, 116, 101, 115, 116])),  -- 19: ASSERT_PARSER_VALUES_EQ(all2>> all3, all_of_parser<TT("lytest")>{})
    .parsersEq (tThen (P All3) (P All1)) (P (.allOf [116, 101, 115, 116, 108, 105, 116, 101, 114, 97, 108])),  -- 20: ASSERT_PARSER_VALUES_EQ(all3>> all1, all_of_parser<TT("testliteral")>{})
    .parsersEq (tThen (P All3) (P All2)) (P (.allOf [116, 101, 115, 116, 108, 121])),  -- 21: ASSERT_PARSER_VALUES_EQ(all3>> all2, all_of_parser<TT("testly")>{})
    .parsersEq (tThen (P All3) (P All3)) (P (.allOf [116, 101, 115, 116, 116, 101, 115, 116]))  -- 22: ASSERT_PARSER_VALUES_EQ(all3>> all3, all_of_parser<TT("testtest")>{})
    ], Assertion.Holds a :=
  Assertion.holds_of_check (by decide +kernel)

/-- sequence operator / sequence_parser >> sequence_parser (tests/char-tests/operators/sequence.cpp:29) -/
theorem charOperatorsSequence_2 : ∀ a ∈ [
    .parsersEq (tThen (P Seq1) (P Seq1)) (P (.sequence [All4, Non4, All4, Non4])),  -- 29: ASSERT_PARSER_VALUES_EQ(seq1>> seq1,(sequence_parser<All4, Non4, All4, Non4>{}))
    .parsersEq (tThen (P Seq2) (P Seq2)) (P (.sequence [Non4, All4, Non4, All4])),  -- 30: ASSERT_PARSER_VALUES_EQ(seq2>> seq2,(sequence_parser<Non4, All4, Non4, All4>{}))
    .parsersEq (tThen (P Seq3) (P Seq3)) (P (.sequence [All4, Any4, Non5, All4, Any4, Non5])),  -- 31: ASSERT_PARSER_VALUES_EQ(seq3>> seq3,(sequence_parser<All4, Any4, Non5, All4, Any4, Non5>{}))
    .parsersEq (tThen (P Seq4) (P Seq4)) (P (.sequence [Non5, All4, Any4, Non5, All4, Any4])),  -- 32: ASSERT_PARSER_VALUES_EQ(seq4>> seq4,(sequence_parser<Non5, All4, Any4, Non5, All4, Any4>{}))
    .parsersEq (tThen (P Seq5) (P Seq5)) (P (.sequence [Ign1, Ign2, Ign1, Ign2])),  -- 33: ASSERT_PARSER_VALUES_EQ(seq5>> seq5,(sequence_parser<Ign1, Ign2, Ign1, Ign2>{}))
    .parsersEq (tThen (P Seq1) (P Seq2)) (P (.sequence [All4, Non4, Non4, All4])),  -- 34: ASSERT_PARSER_VALUES_EQ(seq1>> seq2,(sequence_parser<All4, Non4, Non4, All4>{}))
    .parsersEq (tThen (P Seq2) (P Seq1)) (P (.sequence [Non4, All4, All4, Non4])),  -- 35: ASSERT_PARSER_VALUES_EQ(seq2>> seq1,(sequence_parser<Non4, All4, All4, Non4>{}))
    .parsersEq (tThen (P Seq1) (P Seq3)) (P (.sequence [All4, Non4, All4, Any4, Non5])),  -- 36: ASSERT_PARSER_VALUES_EQ(seq1>> seq3,(sequence_parser<All4, Non4, All4, Any4, Non5>{}))
    .parsersEq (tThen (P Seq3) (P Seq1)) (P (.sequence [All4, Any4, Non5, All4, Non4])),  -- 37: ASSERT_PARSER_VALUES_EQ(seq3>> seq1,(sequence_parser<All4, Any4, Non5, All4, Non4>{}))
    .parsersEq (tThen (P Seq1) (P Seq4)) (P (.sequence [All4, Non4, Non5, All4, Any4])),  -- 38: ASSERT_PARSER_VALUES_EQ(seq1>> seq4,(sequence_parser<All4, Non4, Non5, All4, Any4>{}))
    .parsersEq (tThen (P Seq4) (P Seq1)) (P (.sequence [Non5, All4, Any4, All4, Non4])),  -- 39: ASSERT_PARSER_VALUES_EQ(seq4>> seq1,(sequence_parser<Non5, All4, Any4, All4, Non4>{}))
    .parsersEq (tThen (P Seq1) (P Seq5)) (P (.sequence [All4, Non4, Ign1, Ign2])),  -- 40: ASSERT_PARSER_VALUES_EQ(seq1>> seq5,(sequence_parser<All4, Non4, Ign1, Ign2>{}))
    .parsersEq (tThen (P Seq5) (P Seq1)) (P (.sequence [Ign1, Ign2, All4, Non4])),  -- 41: ASSERT_PARSER_VALUES_EQ(seq5>> seq1,(sequence_parser<Ign1, Ign2, All4, Non4>{}))
    .parsersEq (tThen (P Seq2) (P Seq3)) (P (.sequence [Non4, All4, All4, Any4, Non5])),  -- 42: ASSERT_PARSER_VALUES_EQ(seq2>> seq3,(sequence_parser<Non4, All4, All4, Any4, Non5>{}))
    .parsersEq (tThen (P Seq3) (P Seq2)) (P (.sequence [All4, Any4, Non5, Non4, All4])),  -- 43: ASSERT_PARSER_VALUES_EQ(seq3>> seq2,(sequence_parser<All4, Any4, Non5, Non4, All4>{}))
    .parsersEq (tThen (P Seq2) (P Seq4)) (P (.sequence [Non4, All4, Non5, All4, Any4])),  -- 44: ASSERT_PARSER_VALUES_EQ(seq2>> seq4,(sequence_parser<Non4, All4, Non5, All4, Any4>{}))
    .parsersEq (tThen (P Seq4) (P Seq2)) (P (.sequence [Non5, All4, Any4, Non4, All4])),  -- 45: ASSERT_PARSER_VALUES_EQ(seq4>> seq2,(sequence_parser<Non5, All4, Any4, Non4, All4>{}))
    .parsersEq (tThen (P Seq2) (P Seq5)) (P (.sequence [Non4, All4, Ign1, Ign2])),  -- 46: ASSERT_PARSER_VALUES_EQ(seq2>> seq5,(sequence_parser<Non4, All4, Ign1, Ign2>{}))
    .parsersEq (tThen (P Seq5) (P Seq2)) (P (.sequence [Ign1, Ign2, Non4, All4])),  -- 47: ASSERT_PARSER_VALUES_EQ(seq5>> seq2,(sequence_parser<Ign1, Ign2, Non4, All4>{}))
    .parsersEq (tThen (P Seq3) (P Seq4)) (P (.sequence [All4, Any4, Non5, Non5, All4, Any4])),  -- 48: ASSERT_PARSER_VALUES_EQ(seq3>> seq4,(sequence_parser<All4, Any4, Non5, Non5, All4, Any4>{}))
    .parsersEq (tThen (P Seq4) (P Seq3)) (P (.sequence [Non5, All4, Any4, All4, Any4, Non5])),  -- 49: ASSERT_PARSER_VALUES_EQ(seq4>> seq3,(sequence_parser<Non5, All4, Any4, All4, Any4, Non5>{}))
    .parsersEq (tThen (P Seq3) (P Seq5)) (P (.sequence [All4, Any4, Non5, Ign1, Ign2])),  -- 50: ASSERT_PARSER_VALUES_EQ(seq3>> seq5,(sequence_parser<All4, Any4, Non5, Ign1, Ign2>{}))
    .parsersEq (tThen (P Seq5) (P Seq3)) (P (.sequence [Ign1, Ign2, All4, Any4, Non5])),  -- 51: ASSERT_PARSER_VALUES_EQ(seq5>> seq3,(sequence_parser<Ign1, Ign2, All4, Any4, Non5>{}))
    .parsersEq (tThen (P Seq4) (P Seq5)) (P (.sequence [Non5, All4, Any4, Ign1, Ign2])),  -- 52: ASSERT_PARSER_VALUES_EQ(seq4>> seq5,(sequence_parser<Non5, All4, Any4, Ign1, Ign2>{}))
    .parsersEq (tThen (P Seq5) (P Seq4)) (P (.sequence [Ign1, Ign2, Non5, All4, Any4]))  -- 53: ASSERT_PARSER_VALUES_EQ(seq5>> seq4,(sequence_parser<Ign1, Ign2, Non5, All4, Any4>{}))
    ], Assertion.Holds a :=
  Assertion.holds_of_check (by decide +kernel)

/-- sequence operator / sequence_parser >> {anything} (tests/char-tests/operators/sequence.cpp:58) -/
theorem charOperatorsSequence_3 : ∀ a ∈ [
    .parsersEq (tThen (P Seq1) (P Any1)) (P (.sequence [All4, Non4, Any1])),  -- 58: ASSERT_PARSER_VALUES_EQ(seq1>> any1,(sequence_parser<All4, Non4, Any1>{}))
    .parsersEq (tThen (P Any1) (P Seq1)) (P (.sequence [Any1, All4, Non4])),  -- 59: ASSERT_PARSER_VALUES_EQ(any1>> seq1,(sequence_parser<Any1, All4, Non4>{}))
    .parsersEq (tThen (P Seq2) (P Any4)) (P (.sequence [Non4, All4, Any4])),  -- 60: ASSERT_PARSER_VALUES_EQ(seq2>> any4,(sequence_parser<Non4, All4, Any4>{}))
    .parsersEq (tThen (P Any4) (P Seq2)) (P (.sequence [Any4, Non4, All4])),  -- 61: ASSERT_PARSER_VALUES_EQ(any4>> seq2,(sequence_parser<Any4, Non4, All4>{}))
    .parsersEq (tThen (P Seq3) (P Any3)) (P (.sequence [All4, Any4, Non5, Any3])),  -- 62: ASSERT_PARSER_VALUES_EQ(seq3>> any3,(sequence_parser<All4, Any4, Non5, Any3>{}))
    .parsersEq (tThen (P Any3) (P Seq3)) (P (.sequence [Any3, All4, Any4, Non5])),  -- 63: ASSERT_PARSER_VALUES_EQ(any3>> seq3,(sequence_parser<Any3, All4, Any4, Non5>{}))
    .parsersEq (tThen (P Seq4) (P Any2)) (P (.sequence [Non5, All4, Any4, Any2])),  -- 64: ASSERT_PARSER_VALUES_EQ(seq4>> any2,(sequence_parser<Non5, All4, Any4, Any2>{}))
    .parsersEq (tThen (P Any2) (P Seq4)) (P (.sequence [Any2, Non5, All4, Any4]))  -- 65: ASSERT_PARSER_VALUES_EQ(any2>> seq4,(sequence_parser<Any2, Non5, All4, Any4>{}))
    ], Assertion.Holds a :=
  Assertion.holds_of_check (by decide +kernel)

/-- sequence operator / void result_type (tests/char-tests/operators/sequence.cpp:70) -/
theorem charOperatorsSequence_4 : ∀ a ∈ [
    .parsersEq (tThen (P Ign1) (P Ign2)) (P Seq5),  -- 70: ASSERT_PARSER_VALUES_EQ(ign1>> ign2, seq5)
    .parsersNe (tThen (P Ign2) (P Ign1)) (P Seq5)  -- 71: ASSERT_PARSER_VALUES_NE(ign2>> ign1, seq5)
    ], Assertion.Holds a :=
  Assertion.holds_of_check (by decide +kernel)

/-- sequence operator / {anything} >> {anything} (tests/char-tests/operators/sequence.cpp:172) -/
theorem charOperatorsSequence_5_1 : ∀ a ∈ [
    .isTerm (tThen (P Any1) (P Any1)),  -- 172: DEP_ASSERT_BINARY_OPERABLE(>>, LLHS{}, RRHS{}, LHS{}, RHS{})
    .parsersEq (tThen (P Any1) (P Any1)) (P (.sequence [Any1, Any1])),  -- 172: DEP_ASSERT_PARSER_VALUES_EQ(LLHS{}>> RRHS{},(sequence_parser<LLHS, RRHS>{}), LHS{}>> RHS{},(sequence_parser<LHS, RHS>{}))
    .isTerm (tThen (P Any1) (P Any2)),  -- 172: DEP_ASSERT_BINARY_OPERABLE(>>, LLHS{}, RRHS{}, LHS{}, RHS{})
    .parsersEq (tThen (P Any1) (P Any2)) (P (.sequence [Any1, Any2])),  -- 172: DEP_ASSERT_PARSER_VALUES_EQ(LLHS{}>> RRHS{},(sequence_parser<LLHS, RRHS>{}), LHS{}>> RHS{},(sequence_parser<LHS, RHS>{}))
    .isTerm (tThen (P Any1) (P Any3)),  -- 172: DEP_ASSERT_BINARY_OPERABLE(>>, LLHS{}, RRHS{}, LHS{}, RHS{})
    .parsersEq (tThen (P Any1) (P Any3)) (P (.sequence [Any1, Any3])),  -- 172: DEP_ASSERT_PARSER_VALUES_EQ(LLHS{}>> RRHS{},(sequence_parser<LLHS, RRHS>{}), LHS{}>> RHS{},(sequence_parser<LHS, RHS>{}))
    .isTerm (tThen (P Any1) (P Any4)),  -- 172: DEP_ASSERT_BINARY_OPERABLE(>>, LLHS{}, RRHS{}, LHS{}, RHS{})
    .parsersEq (tThen (P Any1) (P Any4)) (P (.sequence [Any1, Any4])),  -- 172: DEP_ASSERT_PARSER_VALUES_EQ(LLHS{}>> RRHS{},(sequence_parser<LLHS, RRHS>{}), LHS{}>> RHS{},(sequence_parser<LHS, RHS>{}))
    .isTerm (tThen (P Any1) (P Non1)),  -- 172: DEP_ASSERT_BINARY_OPERABLE(>>, LLHS{}, RRHS{}, LHS{}, RHS{})
    .parsersEq (tThen (P Any1) (P Non1)) (P (.sequence [Any1, Non1])),  -- 172: DEP_ASSERT_PARSER_VALUES_EQ(LLHS{}>> RRHS{},(sequence_parser<LLHS, RRHS>{}), LHS{}>> RHS{},(sequence_parser<LHS, RHS>{}))
    .isTerm (tThen (P Any1) (P Non2)),  -- 172: DEP_ASSERT_BINARY_OPERABLE(>>, LLHS{}, RRHS{}, LHS{}, RHS{})
    .parsersEq (tThen (P Any1) (P Non2)) (P (.sequence [Any1, Non2])),  -- 172: DEP_ASSERT_PARSER_VALUES_EQ(LLHS{}>> RRHS{},(sequence_parser<LLHS, RRHS>{}), LHS{}>> RHS{},(sequence_parser<LHS, RHS>{}))
    .isTerm (tThen (P Any1) (P Non3)),  -- 172: DEP_ASSERT_BINARY_OPERABLE(>>, LLHS{}, RRHS{}, LHS{}, RHS{})
    .parsersEq (tThen (P Any1) (P Non3)) (P (.sequence [Any1, Non3])),  -- 172: DEP_ASSERT_PARSER_VALUES_EQ(LLHS{}>> RRHS{},(sequence_parser<LLHS, RRHS>{}), LHS{}>> RHS{},(sequence_parser<LHS, RHS>{}))
    .isTerm (tThen (P Any1) (P Non4)),  -- 172: DEP_ASSERT_BINARY_OPERABLE(>>, LLHS{}, RRHS{}, LHS{}, RHS{})
    .parsersEq (tThen (P Any1) (P Non4)) (P (.sequence [Any1, Non4])),  -- 172: DEP_ASSERT_PARSER_VALUES_EQ(LLHS{}>> RRHS{},(sequence_parser<LLHS, RRHS>{}), LHS{}>> RHS{},(sequence_parser<LHS, RHS>{}))
    .isTerm (tThen (P Any1) (P Non5)),  -- 172: DEP_ASSERT_BINARY_OPERABLE(>>, LLHS{}, RRHS{}, LHS{}, RHS{})
    .parsersEq (tThen (P Any1) (P Non5)) (P (.sequence [Any1, Non5])),  -- 172: DEP_ASSERT_PARSER_VALUES_EQ(LLHS{}>> RRHS{},(sequence_parser<LLHS, RRHS>{}), LHS{}>> RHS{},(sequence_parser<LHS, RHS>{}))
    .isTerm (tThen (P Any1) (P All1)),  -- 172: DEP_ASSERT_BINARY_OPERABLE(>>, LLHS{}, RRHS{}, LHS{}, RHS{})
    .parsersEq (tThen (P Any1) (P All1)) (P (.sequence [Any1, All1])),  -- 172: DEP_ASSERT_PARSER_VALUES_EQ(LLHS{}>> RRHS{},(sequence_parser<LLHS, RRHS>{}), LHS{}>> RHS{},(sequence_parser<LHS, RHS>{}))
    .isTerm (tThen (P Any1) (P All2)),  -- 172: DEP_ASSERT_BINARY_OPERABLE(>>, LLHS{}, RRHS{}, LHS{}, RHS{})
    .parsersEq (tThen (P Any1) (P All2)) (P (.sequence [Any1, All2])),  -- 172: DEP_ASSERT_PARSER_VALUES_EQ(LLHS{}>> RRHS{},(sequence_parser<LLHS, RRHS>{}), LHS{}>> RHS{},(sequence_parser<LHS, RHS>{}))
    .isTerm (tThen (P Any1) (P All3)),  -- 172: DEP_ASSERT_BINARY_OPERABLE(>>, LLHS{}, RRHS{}, LHS{}, RHS{})
    .parsersEq (tThen (P Any1) (P All3)) (P (.sequence [Any1, All3])),  -- 172: DEP_ASSERT_PARSER_VALUES_EQ(LLHS{}>> RRHS{},(sequence_parser<LLHS, RRHS>{}), LHS{}>> RHS{},(sequence_parser<LHS, RHS>{}))
    .isTerm (tThen (P Any1) (P All4)),  -- 172: DEP_ASSERT_BINARY_OPERABLE(>>, LLHS{}, RRHS{}, LHS{}, RHS{})
    .parsersEq (tThen (P Any1) (P All4)) (P (.sequence [Any1, All4])),  -- 172: DEP_ASSERT_PARSER_VALUES_EQ(LLHS{}>> RRHS{},(sequence_parser<LLHS, RRHS>{}), LHS{}>> RHS{},(sequence_parser<LHS, RHS>{}))
    .isTerm (tThen (P Any1) (P Eps1)),  -- 172: DEP_ASSERT_BINARY_OPERABLE(>>, LLHS{}, RRHS{}, LHS{}, RHS{})
    .parsersEq (tThen (P Any1) (P Eps1)) (P (.sequence [Any1, Eps1])),  -- 172: DEP_ASSERT_PARSER_VALUES_EQ(LLHS{}>> RRHS{},(sequence_parser<LLHS, RRHS>{}), LHS{}>> RHS{},(sequence_parser<LHS, RHS>{}))
    .isTerm (tThen (P Any1) (P Ant1)),  -- 172: DEP_ASSERT_BINARY_OPERABLE(>>, LLHS{}, RRHS{}, LHS{}, RHS{})
    .parsersEq (tThen (P Any1) (P Ant1)) (P (.sequence [Any1, Ant1])),  -- 172: DEP_ASSERT_PARSER_VALUES_EQ(LLHS{}>> RRHS{},(sequence_parser<LLHS, RRHS>{}), LHS{}>> RHS{},(sequence_parser<LHS, RHS>{}))
    .isTerm (tThen (P Any1) (P QQ)),  -- 172: DEP_ASSERT_BINARY_OPERABLE(>>, LLHS{}, RRHS{}, LHS{}, RHS{})
    .parsersEq (tThen (P Any1) (P QQ)) (P (.sequence [Any1, QQ])),  -- 172: DEP_ASSERT_PARSER_VALUES_EQ(LLHS{}>> RRHS{},(sequence_parser<LLHS, RRHS>{}), LHS{}>> RHS{},(sequence_parser<LHS, RHS>{}))
    .isTerm (tThen (P Any1) (P ABC)),  -- 172: DEP_ASSERT_BINARY_OPERABLE(>>, LLHS{}, RRHS{}, LHS{}, RHS{})
    .parsersEq (tThen (P Any1) (P ABC)) (P (.sequence [Any1, ABC])),  -- 172: DEP_ASSERT_PARSER_VALUES_EQ(LLHS{}>> RRHS{},(sequence_parser<LLHS, RRHS>{}), LHS{}>> RHS{},(sequence_parser<LHS, RHS>{}))
    .isTerm (tThen (P Any1) (P Comma)),  -- 172: DEP_ASSERT_BINARY_OPERABLE(>>, LLHS{}, RRHS{}, LHS{}, RHS{})
    .parsersEq (tThen (P Any1) (P Comma)) (P (.sequence [Any1, Comma])),  -- 172: DEP_ASSERT_PARSER_VALUES_EQ(LLHS{}>> RRHS{},(sequence_parser<LLHS, RRHS>{}), LHS{}>> RHS{},(sequence_parser<LHS, RHS>{}))
    .isTerm (tThen (P Any1) (P SpaceDot)),  -- 172: DEP_ASSERT_BINARY_OPERABLE(>>, LLHS{}, RRHS{}, LHS{}, RHS{})
    .parsersEq (tThen (P Any1) (P SpaceDot)) (P (.sequence [Any1, SpaceDot])),  -- 172: DEP_ASSERT_PARSER_VALUES_EQ(LLHS{}>> RRHS{},(sequence_parser<LLHS, RRHS>{}), LHS{}>> RHS{},(sequence_parser<LHS, RHS>{}))
    .isTerm (tThen (P Any2) (P Any1)),  -- 172: DEP_ASSERT_BINARY_OPERABLE(>>, LLHS{}, RRHS{}, LHS{}, RHS{})
    .parsersEq (tThen (P Any2) (P Any1)) (P (.sequence [Any2, Any1])),  -- 172: DEP_ASSERT_PARSER_VALUES_EQ(LLHS{}>> RRHS{},(sequence_parser<LLHS, RRHS>{}), LHS{}>> RHS{},(sequence_parser<LHS, RHS>{}))
    .isTerm (tThen (P Any2) (P Any2)),  -- 172: DEP_ASSERT_BINARY_OPERABLE(>>, LLHS{}, RRHS{}, LHS{}, RHS{})
    .parsersEq (tThen (P Any2) (P Any2)) (P (.sequence [Any2, Any2])),  -- 172: DEP_ASSERT_PARSER_VALUES_EQ(LLHS{}>> RRHS{},(sequence_parser<LLHS, RRHS>{}), LHS{}>> RHS{},(sequence_parser<LHS, RHS>{}))
    .isTerm (tThen (P Any2) (P Any3)),  -- 172: DEP_ASSERT_BINARY_OPERABLE(>>, LLHS{}, RRHS{}, LHS{}, RHS{})
    .parsersEq (tThen (P Any2) (P Any3)) (P (.sequence [Any2, Any3])),  -- 172: DEP_ASSERT_PARSER_VALUES_EQ(LLHS{}>> RRHS{},(sequence_parser<LLHS, RRHS>{}), LHS{}>> RHS{},(sequence_parser<LHS, RHS>{}))
    .isTerm (tThen (P Any2) (P Any4)),  -- 172: DEP_ASSERT_BINARY_OPERABLE(>>, LLHS{}, RRHS{}, LHS{}, RHS{})
    .parsersEq (tThen (P Any2) (P Any4)) (P (.sequence [Any2, Any4])),  -- 172: DEP_ASSERT_PARSER_VALUES_EQ(LLHS{}>> RRHS{},(sequence_parser<LLHS, RRHS>{}), LHS{}>> RHS{},(sequence_parser<LHS, RHS>{}))
    .isTerm (tThen (P Any2) (P Non1)),  -- 172: DEP_ASSERT_BINARY_OPERABLE(>>, LLHS{}, RRHS{}, LHS{}, RHS{})
    .parsersEq (tThen (P Any2) (P Non1)) (P (.sequence [Any2, Non1])),  -- 172: DEP_ASSERT_PARSER_VALUES_EQ(LLHS{}>> RRHS{},(sequence_parser<LLHS, RRHS>{}), LHS{}>> RHS{},(sequence_parser<LHS, RHS>{}))
    .isTerm (tThen (P Any2) (P Non2)),  -- 172: DEP_ASSERT_BINARY_OPERABLE(>>, LLHS{}, RRHS{}, LHS{}, RHS{})
    .parsersEq (tThen (P Any2) (P Non2)) (P (.sequence [Any2, Non2])),  -- 172: DEP_ASSERT_PARSER_VALUES_EQ(LLHS{}>> RRHS{},(sequence_parser<LLHS, RRHS>{}), LHS{}>> RHS{},(sequence_parser<LHS, RHS>{}))
    .isTerm (tThen (P Any2) (P Non3)),  -- 172: DEP_ASSERT_BINARY_OPERABLE(>>, LLHS{}, RRHS{}, LHS{}, RHS{})
    .parsersEq (tThen (P Any2) (P Non3)) (P (.sequence [Any2, Non3])),  -- 172: DEP_ASSERT_PARSER_VALUES_EQ(LLHS{}>> RRHS{},(sequence_parser<LLHS, RRHS>{}), LHS{}>> RHS{},(sequence_parser<LHS, RHS>{}))
    .isTerm (tThen (P Any2) (P Non4)),  -- 172: DEP_ASSERT_BINARY_OPERABLE(>>, LLHS{}, RRHS{}, LHS{}, RHS{})
    .parsersEq (tThen (P Any2) (P Non4)) (P (.sequence [Any2, Non4])),  -- 172: DEP_ASSERT_PARSER_VALUES_EQ(LLHS{}>> RRHS{},(sequence_parser<LLHS, RRHS>{}), LHS{}>> RHS{},(sequence_parser<LHS, RHS>{}))
    .isTerm (tThen (P Any2) (P Non5)),  -- 172: DEP_ASSERT_BINARY_OPERABLE(>>, LLHS{}, RRHS{}, LHS{}, RHS{})
    .parsersEq (tThen (P Any2) (P Non5)) (P (.sequence [Any2, Non5])),  -- 172: DEP_ASSERT_PARSER_VALUES_EQ(LLHS{}>> RRHS{},(sequence_parser<LLHS, RRHS>{}), LHS{}>> RHS{},(sequence_parser<LHS, RHS>{}))
    .isTerm (tThen (P Any2) (P All1)),  -- 172: DEP_ASSERT_BINARY_OPERABLE(>>, LLHS{}, RRHS{}, LHS{}, RHS{})
    .parsersEq (tThen (P Any2) (P All1)) (P (.sequence [Any2, All1])),  -- 172: DEP_ASSERT_PARSER_VALUES_EQ(LLHS{}>> RRHS{},(sequence_parser<LLHS, RRHS>{}), LHS{}>> RHS{},(sequence_parser<LHS, RHS>{}))
    .isTerm (tThen (P Any2) (P All2)),  -- 172: DEP_ASSERT_BINARY_OPERABLE(>>, LLHS{}, RRHS{}, LHS{}, RHS{})
    .parsersEq (tThen (P Any2) (P All2)) (P (.sequence [Any2, All2]))  -- 172: DEP_ASSERT_PARSER_VALUES_EQ(LLHS{}>> RRHS{},(sequence_parser<LLHS, RRHS>{}), LHS{}>> RHS{},(sequence_parser<LHS, RHS>{}))
    ], Assertion.Holds a :=
  Assertion.holds_of_check (by decide +kernel)

/-- sequence operator / {anything} >> {anything} (tests/char-tests/operators/sequence.cpp:172) -/
theorem charOperatorsSequence_5_2 : ∀ a ∈ [
    .isTerm (tThen (P Any2) (P All3)),  -- 172: DEP_ASSERT_BINARY_OPERABLE(>>, LLHS{}, RRHS{}, LHS{}, RHS{})
    .parsersEq (tThen (P Any2) (P All3)) (P (.sequence [Any2, All3])),  -- 172: DEP_ASSERT_PARSER_VALUES_EQ(LLHS{}>> RRHS{},(sequence_parser<LLHS, RRHS>{}), LHS{}>> RHS{},(sequence_parser<LHS, RHS>{}))
    .isTerm (tThen (P Any2) (P All4)),  -- 172: DEP_ASSERT_BINARY_OPERABLE(>>, LLHS{}, RRHS{}, LHS{}, RHS{})
    .parsersEq (tThen (P Any2) (P All4)) (P (.sequence [Any2, All4])),  -- 172: DEP_ASSERT_PARSER_VALUES_EQ(LLHS{}>> RRHS{},(sequence_parser<LLHS, RRHS>{}), LHS{}>> RHS{},(sequence_parser<LHS, RHS>{}))
    .isTerm (tThen (P Any2) (P Eps1)),  -- 172: DEP_ASSERT_BINARY_OPERABLE(>>, LLHS{}, RRHS{}, LHS{}, RHS{})
    .parsersEq (tThen (P Any2) (P Eps1)) (P (.sequence [Any2, Eps1])),  -- 172: DEP_ASSERT_PARSER_VALUES_EQ(LLHS{}>> RRHS{},(sequence_parser<LLHS, RRHS>{}), LHS{}>> RHS{},(sequence_parser<LHS, RHS>{}))
    .isTerm (tThen (P Any2) (P Ant1)),  -- 172: DEP_ASSERT_BINARY_OPERABLE(>>, LLHS{}, RRHS{}, LHS{}, RHS{})
    .parsersEq (tThen (P Any2) (P Ant1)) (P (.sequence [Any2, Ant1])),  -- 172: DEP_ASSERT_PARSER_VALUES_EQ(LLHS{}>> RRHS{},(sequence_parser<LLHS, RRHS>{}), LHS{}>> RHS{},(sequence_parser<LHS, RHS>{}))
    .isTerm (tThen (P Any2) (P QQ)),  -- 172: DEP_ASSERT_BINARY_OPERABLE(>>, LLHS{}, RRHS{}, LHS{}, RHS{})
    .parsersEq (tThen (P Any2) (P QQ)) (P (.sequence [Any2, QQ])),  -- 172: DEP_ASSERT_PARSER_VALUES_EQ(LLHS{}>> RRHS{},(sequence_parser<LLHS, RRHS>{}), LHS{}>> RHS{},(sequence_parser<LHS, RHS>{}))
    .isTerm (tThen (P Any2) (P ABC)),  -- 172: DEP_ASSERT_BINARY_OPERABLE(>>, LLHS{}, RRHS{}, LHS{}, RHS{})
    .parsersEq (tThen (P Any2) (P ABC)) (P (.sequence [Any2, ABC])),  -- 172: DEP_ASSERT_PARSER_VALUES_EQ(LLHS{}>> RRHS{},(sequence_parser<LLHS, RRHS>{}), LHS{}>> RHS{},(sequence_parser<LHS, RHS>{}))
    .isTerm (tThen (P Any2) (P Comma)),  -- 172: DEP_ASSERT_BINARY_OPERABLE(>>, LLHS{}, RRHS{}, LHS{}, RHS{})
    .parsersEq (tThen (P Any2) (P Comma)) (P (.sequence [Any2, Comma])),  -- 172: DEP_ASSERT_PARSER_VALUES_EQ(LLHS{}>> RRHS{},(sequence_parser<LLHS, RRHS>{}), LHS{}>> RHS{},(sequence_parser<LHS, RHS>{}))
    .isTerm (tThen (P Any2) (P SpaceDot)),  -- 172: DEP_ASSERT_BINARY_OPERABLE(>>, LLHS{}, RRHS{}, LHS{}, RHS{})
    .parsersEq (tThen (P Any2) (P SpaceDot)) (P (.sequence [Any2, SpaceDot])),  -- 172: DEP_ASSERT_PARSER_VALUES_EQ(LLHS{}>> RRHS{},(sequence_parser<LLHS, RRHS>{}), LHS{}>> RHS{},(sequence_parser<LHS, RHS>{}))
    .isTerm (tThen (P Any3) (P Any1)),  -- 172: DEP_ASSERT_BINARY_OPERABLE(>>, LLHS{}, RRHS{}, LHS{}, RHS{})
    .parsersEq (tThen (P Any3) (P Any1)) (P (.sequence [Any3, Any1])),  -- 172: DEP_ASSERT_PARSER_VALUES_EQ(LLHS{}>> RRHS{},(sequence_parser<LLHS, RRHS>{}), LHS{}>> RHS{},(sequence_parser<LHS, RHS>{}))
    .isTerm (tThen (P Any3) (P Any2)),  -- 172: DEP_ASSERT_BINARY_OPERABLE(>>, LLHS{}, RRHS{}, LHS{}, RHS{})
    .parsersEq (tThen (P Any3) (P Any2)) (P (.sequence [Any3, Any2])),  -- 172: DEP_ASSERT_PARSER_VALUES_EQ(LLHS{}>> RRHS{},(sequence_parser<LLHS, RRHS>{}), LHS{}>> RHS{},(sequence_parser<LHS, RHS>{}))
    .isTerm (tThen (P Any3) (P Any3)),  -- 172: DEP_ASSERT_BINARY_OPERABLE(>>, LLHS{}, RRHS{}, LHS{}, RHS{})
    .parsersEq (tThen (P Any3) (P Any3)) (P (.sequence [Any3, Any3])),  -- 172: DEP_ASSERT_PARSER_VALUES_EQ(LLHS{}>> RRHS{},(sequence_parser<LLHS, RRHS>{}), LHS{}>> RHS{},(sequence_parser<LHS, RHS>{}))
    .isTerm (tThen (P Any3) (P Any4)),  -- 172: DEP_ASSERT_BINARY_OPERABLE(>>, LLHS{}, RRHS{}, LHS{}, RHS{})
    .parsersEq (tThen (P Any3) (P Any4)) (P (.sequence [Any3, Any4])),  -- 172: DEP_ASSERT_PARSER_VALUES_EQ(LLHS{}>> RRHS{},(sequence_parser<LLHS, RRHS>{}), LHS{}>> RHS{},(sequence_parser<LHS, RHS>{}))
    .isTerm (tThen (P Any3) (P Non1)),  -- 172: DEP_ASSERT_BINARY_OPERABLE(>>, LLHS{}, RRHS{}, LHS{}, RHS{})
    .parsersEq (tThen (P Any3) (P Non1)) (P (.sequence [Any3, Non1])),  -- 172: DEP_ASSERT_PARSER_VALUES_EQ(LLHS{}>> RRHS{},(sequence_parser<LLHS, RRHS>{}), LHS{}>> RHS{},(sequence_parser<LHS, RHS>{}))
    .isTerm (tThen (P Any3) (P Non2)),  -- 172: DEP_ASSERT_BINARY_OPERABLE(>>, LLHS{}, RRHS{}, LHS{}, RHS{})
    .parsersEq (tThen (P Any3) (P Non2)) (P (.sequence [Any3, Non2])),  -- 172: DEP_ASSERT_PARSER_VALUES_EQ(LLHS{}>> RRHS{},(sequence_parser<LLHS, RRHS>{}), LHS{}>> RHS{},(sequence_parser<LHS, RHS>{}))
    .isTerm (tThen (P Any3) (P Non3)),  -- 172: DEP_ASSERT_BINARY_OPERABLE(>>, LLHS{}, RRHS{}, LHS{}, RHS{})
    .parsersEq (tThen (P Any3) (P Non3)) (P (.sequence [Any3, Non3])),  -- 172: DEP_ASSERT_PARSER_VALUES_EQ(LLHS{}>> RRHS{},(sequence_parser<LLHS, RRHS>{}), LHS{}>> RHS{},(sequence_parser<LHS, RHS>{}))
    .isTerm (tThen (P Any3) (P Non4)),  -- 172: DEP_ASSERT_BINARY_OPERABLE(>>, LLHS{}, RRHS{}, LHS{}, RHS{})
    .parsersEq (tThen (P Any3) (P Non4)) (P (.sequence [Any3, Non4])),  -- 172: DEP_ASSERT_PARSER_VALUES_EQ(LLHS{}>> RRHS{},(sequence_parser<LLHS, RRHS>{}), LHS{}>> RHS{},(sequence_parser<LHS, RHS>{}))
    .isTerm (tThen (P Any3) (P Non5)),  -- 172: DEP_ASSERT_BINARY_OPERABLE(>>, LLHS{}, RRHS{}, LHS{}, RHS{})
    .parsersEq (tThen (P Any3) (P Non5)) (P (.sequence [Any3, Non5])),  -- 172: DEP_ASSERT_PARSER_VALUES_EQ(LLHS{}>> RRHS{},(sequence_parser<LLHS, RRHS>{}), LHS{}>> RHS{},(sequence_parser<LHS, RHS>{}))
    .isTerm (tThen (P Any3) (P All1)),  -- 172: DEP_ASSERT_BINARY_OPERABLE(>>, LLHS{}, RRHS{}, LHS{}, RHS{})
    .parsersEq (tThen (P Any3) (P All1)) (P (.sequence [Any3, All1])),  -- 172: DEP_ASSERT_PARSER_VALUES_EQ(LLHS{}>> RRHS{},(sequence_parser<LLHS, RRHS>{}), LHS{}>> RHS{},(sequence_parser<LHS, RHS>{}))
    .isTerm (tThen (P Any3) (P All2)),  -- 172: DEP_ASSERT_BINARY_OPERABLE(>>, LLHS{}, RRHS{}, LHS{}, RHS{})
    .parsersEq (tThen (P Any3) (P All2)) (P (.sequence [Any3, All2])),  -- 172: DEP_ASSERT_PARSER_VALUES_EQ(LLHS{}>> RRHS{},(sequence_parser<LLHS, RRHS>{}), LHS{}>> RHS{},(sequence_parser<LHS, RHS>{}))
    .isTerm (tThen (P Any3) (P All3)),  -- 172: DEP_ASSERT_BINARY_OPERABLE(>>, LLHS{}, RRHS{}, LHS{}, RHS{})
    .parsersEq (tThen (P Any3) (P All3)) (P (.sequence [Any3, All3])),  -- 172: DEP_ASSERT_PARSER_VALUES_EQ(LLHS{}>> RRHS{},(sequence_parser<LLHS, RRHS>{}), LHS{}>> RHS{},(sequence_parser<LHS, RHS>{}))
    .isTerm (tThen (P Any3) (P All4)),  -- 172: DEP_ASSERT_BINARY_OPERABLE(>>, LLHS{}, RRHS{}, LHS{}, RHS{})
    .parsersEq (tThen (P Any3) (P All4)) (P (.sequence [Any3, All4])),  -- 172: DEP_ASSERT_PARSER_VALUES_EQ(LLHS{}>> RRHS{},(sequence_parser<LLHS, RRHS>{}), LHS{}>> RHS{},(sequence_parser<LHS, RHS>{}))
    .isTerm (tThen (P Any3) (P Eps1)),  -- 172: DEP_ASSERT_BINARY_OPERABLE(>>, LLHS{}, RRHS{}, LHS{}, RHS{})
    .parsersEq (tThen (P Any3) (P Eps1)) (P (.sequence [Any3, Eps1])),  -- 172: DEP_ASSERT_PARSER_VALUES_EQ(LLHS{}>> RRHS{},(sequence_parser<LLHS, RRHS>{}), LHS{}>> RHS{},(sequence_parser<LHS, RHS>{}))
    .isTerm (tThen (P Any3) (P Ant1)),  -- 172: DEP_ASSERT_BINARY_OPERABLE(>>, LLHS{}, RRHS{}, LHS{}, RHS{})
    .parsersEq (tThen (P Any3) (P Ant1)) (P (.sequence [Any3, Ant1])),  -- 172: DEP_ASSERT_PARSER_VALUES_EQ(LLHS{}>> RRHS{},(sequence_parser<LLHS, RRHS>{}), LHS{}>> RHS{},(sequence_parser<LHS, RHS>{}))
    .isTerm (tThen (P Any3) (P QQ)),  -- 172: DEP_ASSERT_BINARY_OPERABLE(>>, LLHS{}, RRHS{}, LHS{}, RHS{})
    .parsersEq (tThen (P Any3) (P QQ)) (P (.sequence [Any3, QQ])),  -- 172: DEP_ASSERT_PARSER_VALUES_EQ(LLHS{}>> RRHS{},(sequence_parser<LLHS, RRHS>{}), LHS{}>> RHS{},(sequence_parser<LHS, RHS>{}))
    .isTerm (tThen (P Any3) (P ABC)),  -- 172: DEP_ASSERT_BINARY_OPERABLE(>>, LLHS{}, RRHS{}, LHS{}, RHS{})
    .parsersEq (tThen (P Any3) (P ABC)) (P (.sequence [Any3, ABC])),  -- 172: DEP_ASSERT_PARSER_VALUES_EQ(LLHS{}>> RRHS{},(sequence_parser<LLHS, RRHS>{}), LHS{}>> RHS{},(sequence_parser<LHS, RHS>{}))
    .isTerm (tThen (P Any3) (P Comma)),  -- 172: DEP_ASSERT_BINARY_OPERABLE(>>, LLHS{}, RRHS{}, LHS{}, RHS{})
    .parsersEq (tThen (P Any3) (P Comma)) (P (.sequence [Any3, Comma])),  -- 172: DEP_ASSERT_PARSER_VALUES_EQ(LLHS{}>> RRHS{},(sequence_parser<LLHS, RRHS>{}), LHS{}>> RHS{},(sequence_parser<LHS, RHS>{}))
    .isTerm (tThen (P Any3) (P SpaceDot)),  -- 172: DEP_ASSERT_BINARY_OPERABLE(>>, LLHS{}, RRHS{}, LHS{}, RHS{})
    .parsersEq (tThen (P Any3) (P SpaceDot)) (P (.sequence [Any3, SpaceDot])),  -- 172: DEP_ASSERT_PARSER_VALUES_EQ(LLHS{}>> RRHS{},(sequence_parser<LLHS, RRHS>{}), LHS{}>> RHS{},(sequence_parser<LHS, RHS>{}))
    .isTerm (tThen (P Any4) (P Any1)),  -- 172: DEP_ASSERT_BINARY_OPERABLE(>>, LLHS{}, RRHS{}, LHS{}, RHS{})
    .parsersEq (tThen (P Any4) (P Any1)) (P (.sequence [Any4, Any1])),  -- 172: DEP_ASSERT_PARSER_VALUES_EQ(LLHS{}>> RRHS{},(sequence_parser<LLHS, RRHS>{}), LHS{}>> RHS{},(sequence_parser<LHS, RHS>{}))
    .isTerm (tThen (P Any4) (P Any2)),  -- 172: DEP_ASSERT_BINARY_OPERABLE(>>, LLHS{}, RRHS{}, LHS{}, RHS{})
    .parsersEq (tThen (P Any4) (P Any2)) (P (.sequence [Any4, Any2])),  -- 172: DEP_ASSERT_PARSER_VALUES_EQ(LLHS{}>> RRHS{},(sequence_parser<LLHS, RRHS>{}), LHS{}>> RHS{},(sequence_parser<LHS, RHS>{}))
    .isTerm (tThen (P Any4) (P Any3)),  -- 172: DEP_ASSERT_BINARY_OPERABLE(>>, LLHS{}, RRHS{}, LHS{}, RHS{})
    .parsersEq (tThen (P Any4) (P Any3)) (P (.sequence [Any4, Any3]))  -- 172: DEP_ASSERT_PARSER_VALUES_EQ(LLHS{}>> RRHS{},(sequence_parser<LLHS, RRHS>{}), LHS{}>> RHS{},(sequence_parser<LHS, RHS>{}))
    ], Assertion.Holds a :=
  Assertion.holds_of_check (by decide +kernel)

/-- sequence operator / {anything} >> {anything} (tests/char-tests/operators/sequence.cpp:172) -/
theorem charOperatorsSequence_5_3 : ∀ a ∈ [
    .isTerm (tThen (P Any4) (P Any4)),  -- 172: DEP_ASSERT_BINARY_OPERABLE(>>, LLHS{}, RRHS{}, LHS{}, RHS{})
    .parsersEq (tThen (P Any4) (P Any4)) (P (.sequence [Any4, Any4])),  -- 172: DEP_ASSERT_PARSER_VALUES_EQ(LLHS{}>> RRHS{},(sequence_parser<LLHS, RRHS>{}), LHS{}>> RHS{},(sequence_parser<LHS, RHS>{}))
    .isTerm (tThen (P Any4) (P Non1)),  -- 172: DEP_ASSERT_BINARY_OPERABLE(>>, LLHS{}, RRHS{}, LHS{}, RHS{})
    .parsersEq (tThen (P Any4) (P Non1)) (P (.sequence [Any4, Non1])),  -- 172: DEP_ASSERT_PARSER_VALUES_EQ(LLHS{}>> RRHS{},(sequence_parser<LLHS, RRHS>{}), LHS{}>> RHS{},(sequence_parser<LHS, RHS>{}))
    .isTerm (tThen (P Any4) (P Non2)),  -- 172: DEP_ASSERT_BINARY_OPERABLE(>>, LLHS{}, RRHS{}, LHS{}, RHS{})
    .parsersEq (tThen (P Any4) (P Non2)) (P (.sequence [Any4, Non2])),  -- 172: DEP_ASSERT_PARSER_VALUES_EQ(LLHS{}>> RRHS{},(sequence_parser<LLHS, RRHS>{}), LHS{}>> RHS{},(sequence_parser<LHS, RHS>{}))
    .isTerm (tThen (P Any4) (P Non3)),  -- 172: DEP_ASSERT_BINARY_OPERABLE(>>, LLHS{}, RRHS{}, LHS{}, RHS{})
    .parsersEq (tThen (P Any4) (P Non3)) (P (.sequence [Any4, Non3])),  -- 172: DEP_ASSERT_PARSER_VALUES_EQ(LLHS{}>> RRHS{},(sequence_parser<LLHS, RRHS>{}), LHS{}>> RHS{},(sequence_parser<LHS, RHS>{}))
    .isTerm (tThen (P Any4) (P Non4)),  -- 172: DEP_ASSERT_BINARY_OPERABLE(>>, LLHS{}, RRHS{}, LHS{}, RHS{})
    .parsersEq (tThen (P Any4) (P Non4)) (P (.sequence [Any4, Non4])),  -- 172: DEP_ASSERT_PARSER_VALUES_EQ(LLHS{}>> RRHS{},(sequence_parser<LLHS, RRHS>{}), LHS{}>> RHS{},(sequence_parser<LHS, RHS>{}))
    .isTerm (tThen (P Any4) (P Non5)),  -- 172: DEP_ASSERT_BINARY_OPERABLE(>>, LLHS{}, RRHS{}, LHS{}, RHS{})
    .parsersEq (tThen (P Any4) (P Non5)) (P (.sequence [Any4, Non5])),  -- 172: DEP_ASSERT_PARSER_VALUES_EQ(LLHS{}>> RRHS{},(sequence_parser<LLHS, RRHS>{}), LHS{}>> RHS{},(sequence_parser<LHS, RHS>{}))
    .isTerm (tThen (P Any4) (P All1)),  -- 172: DEP_ASSERT_BINARY_OPERABLE(>>, LLHS{}, RRHS{}, LHS{}, RHS{})
    .parsersEq (tThen (P Any4) (P All1)) (P (.sequence [Any4, All1])),  -- 172: DEP_ASSERT_PARSER_VALUES_EQ(LLHS{}>> RRHS{},(sequence_parser<LLHS, RRHS>{}), LHS{}>> RHS{},(sequence_parser<LHS, RHS>{}))
    .isTerm (tThen (P Any4) (P All2)),  -- 172: DEP_ASSERT_BINARY_OPERABLE(>>, LLHS{}, RRHS{}, LHS{}, RHS{})
    .parsersEq (tThen (P Any4) (P All2)) (P (.sequence [Any4, All2])),  -- 172: DEP_ASSERT_PARSER_VALUES_EQ(LLHS{}>> RRHS{},(sequence_parser<LLHS, RRHS>{}), LHS{}>> RHS{},(sequence_parser<LHS, RHS>{}))
    .isTerm (tThen (P Any4) (P All3)),  -- 172: DEP_ASSERT_BINARY_OPERABLE(>>, LLHS{}, RRHS{}, LHS{}, RHS{})
    .parsersEq (tThen (P Any4) (P All3)) (P (.sequence [Any4, All3])),  -- 172: DEP_ASSERT_PARSER_VALUES_EQ(LLHS{}>> RRHS{},(sequence_parser<LLHS, RRHS>{}), LHS{}>> RHS{},(sequence_parser<LHS, RHS>{}))
    .isTerm (tThen (P Any4) (P All4)),  -- 172: DEP_ASSERT_BINARY_OPERABLE(>>, LLHS{}, RRHS{}, LHS{}, RHS{})
    .parsersEq (tThen (P Any4) (P All4)) (P (.sequence [Any4, All4])),  -- 172: DEP_ASSERT_PARSER_VALUES_EQ(LLHS{}>> RRHS{},(sequence_parser<LLHS, RRHS>{}), LHS{}>> RHS{},(sequence_parser<LHS, RHS>{}))
    .isTerm (tThen (P Any4) (P Eps1)),  -- 172: DEP_ASSERT_BINARY_OPERABLE(>>, LLHS{}, RRHS{}, LHS{}, RHS{})
    .parsersEq (tThen (P Any4) (P Eps1)) (P (.sequence [Any4, Eps1])),  -- 172: DEP_ASSERT_PARSER_VALUES_EQ(LLHS{}>> RRHS{},(sequence_parser<LLHS, RRHS>{}), LHS{}>> RHS{},(sequence_parser<LHS, RHS>{}))
    .isTerm (tThen (P Any4) (P Ant1)),  -- 172: DEP_ASSERT_BINARY_OPERABLE(>>, LLHS{}, RRHS{}, LHS{}, RHS{})
    .parsersEq (tThen (P Any4) (P Ant1)) (P (.sequence [Any4, Ant1])),  -- 172: DEP_ASSERT_PARSER_VALUES_EQ(LLHS{}>> RRHS{},(sequence_parser<LLHS, RRHS>{}), LHS{}>> RHS{},(sequence_parser<LHS, RHS>{}))
    .isTerm (tThen (P Any4) (P QQ)),  -- 172: DEP_ASSERT_BINARY_OPERABLE(>>, LLHS{}, RRHS{}, LHS{}, RHS{})
    .parsersEq (tThen (P Any4) (P QQ)) (P (.sequence [Any4, QQ])),  -- 172: DEP_ASSERT_PARSER_VALUES_EQ(LLHS{}>> RRHS{},(sequence_parser<LLHS, RRHS>{}), LHS{}>> RHS{},(sequence_parser<LHS, RHS>{}))
    .isTerm (tThen (P Any4) (P ABC)),  -- 172: DEP_ASSERT_BINARY_OPERABLE(>>, LLHS{}, RRHS{}, LHS{}, RHS{})
    .parsersEq (tThen (P Any4) (P ABC)) (P (.sequence [Any4, ABC])),  -- 172: DEP_ASSERT_PARSER_VALUES_EQ(LLHS{}>> RRHS{},(sequence_parser<LLHS, RRHS>{}), LHS{}>> RHS{},(sequence_parser<LHS, RHS>{}))
    .isTerm (tThen (P Any4) (P Comma)),  -- 172: DEP_ASSERT_BINARY_OPERABLE(>>, LLHS{}, RRHS{}, LHS{}, RHS{})
    .parsersEq (tThen (P Any4) (P Comma)) (P (.sequence [Any4, Comma])),  -- 172: DEP_ASSERT_PARSER_VALUES_EQ(LLHS{}>> RRHS{},(sequence_parser<LLHS, RRHS>{}), LHS{}>> RHS{},(sequence_parser<LHS, RHS>{}))
    .isTerm (tThen (P Any4) (P SpaceDot)),  -- 172: DEP_ASSERT_BINARY_OPERABLE(>>, LLHS{}, RRHS{}, LHS{}, RHS{})
    .parsersEq (tThen (P Any4) (P SpaceDot)) (P (.sequence [Any4, SpaceDot])),  -- 172: DEP_ASSERT_PARSER_VALUES_EQ(LLHS{}>> RRHS{},(sequence_parser<LLHS, RRHS>{}), LHS{}>> RHS{},(sequence_parser<LHS, RHS>{}))
    .isTerm (tThen (P Non1) (P Any1)),  -- 172: DEP_ASSERT_BINARY_OPERABLE(>>, LLHS{}, RRHS{}, LHS{}, RHS{})
    .parsersEq (tThen (P Non1) (P Any1)) (P (.sequence [Non1, Any1])),  -- 172: DEP_ASSERT_PARSER_VALUES_EQ(LLHS{}>> RRHS{},(sequence_parser<LLHS, RRHS>{}), LHS{}>> RHS{},(sequence_parser<LHS, RHS>{}))
    .isTerm (tThen (P Non1) (P Any2)),  -- 172: DEP_ASSERT_BINARY_OPERABLE(>>, LLHS{}, RRHS{}, LHS{}, RHS{})
    .parsersEq (tThen (P Non1) (P Any2)) (P (.sequence [Non1, Any2])),  -- 172: DEP_ASSERT_PARSER_VALUES_EQ(LLHS{}>> RRHS{},(sequence_parser<LLHS, RRHS>{}), LHS{}>> RHS{},(sequence_parser<LHS, RHS>{}))
    .isTerm (tThen (P Non1) (P Any3)),  -- 172: DEP_ASSERT_BINARY_OPERABLE(>>, LLHS{}, RRHS{}, LHS{}, RHS{})
    .parsersEq (tThen (P Non1) (P Any3)) (P (.sequence [Non1, Any3])),  -- 172: DEP_ASSERT_PARSER_VALUES_EQ(LLHS{}>> RRHS{},(sequence_parser<LLHS, RRHS>{}), LHS{}>> RHS{},(sequence_parser<LHS, RHS>{}))
    .isTerm (tThen (P Non1) (P Any4)),  -- 172: DEP_ASSERT_BINARY_OPERABLE(>>, LLHS{}, RRHS{}, LHS{}, RHS{})
    .parsersEq (tThen (P Non1) (P Any4)) (P (.sequence [Non1, Any4])),  -- 172: DEP_ASSERT_PARSER_VALUES_EQ(LLHS{}>> RRHS{},(sequence_parser<LLHS, RRHS>{}), LHS{}>> RHS{},(sequence_parser<LHS, RHS>{}))
    .isTerm (tThen (P Non1) (P Non1)),  -- 172: DEP_ASSERT_BINARY_OPERABLE(>>, LLHS{}, RRHS{}, LHS{}, RHS{})
    .parsersEq (tThen (P Non1) (P Non1)) (P (.sequence [Non1, Non1])),  -- 172: DEP_ASSERT_PARSER_VALUES_EQ(LLHS{}>> RRHS{},(sequence_parser<LLHS, RRHS>{}), LHS{}>> RHS{},(sequence_parser<LHS, RHS>{}))
    .isTerm (tThen (P Non1) (P Non2)),  -- 172: DEP_ASSERT_BINARY_OPERABLE(>>, LLHS{}, RRHS{}, LHS{}, RHS{})
    .parsersEq (tThen (P Non1) (P Non2)) (P (.sequence [Non1, Non2])),  -- 172: DEP_ASSERT_PARSER_VALUES_EQ(LLHS{}>> RRHS{},(sequence_parser<LLHS, RRHS>{}), LHS{}>> RHS{},(sequence_parser<LHS, RHS>{}))
    .isTerm (tThen (P Non1) (P Non3)),  -- 172: DEP_ASSERT_BINARY_OPERABLE(>>, LLHS{}, RRHS{}, LHS{}, RHS{})
    .parsersEq (tThen (P Non1) (P Non3)) (P (.sequence [Non1, Non3])),  -- 172: DEP_ASSERT_PARSER_VALUES_EQ(LLHS{}>> RRHS{},(sequence_parser<LLHS, RRHS>{}), LHS{}>> RHS{},(sequence_parser<LHS, RHS>{}))
    .isTerm (tThen (P Non1) (P Non4)),  -- 172: DEP_ASSERT_BINARY_OPERABLE(>>, LLHS{}, RRHS{}, LHS{}, RHS{})
    .parsersEq (tThen (P Non1) (P Non4)) (P (.sequence [Non1, Non4])),  -- 172: DEP_ASSERT_PARSER_VALUES_EQ(LLHS{}>> RRHS{},(sequence_parser<LLHS, RRHS>{}), LHS{}>> RHS{},(sequence_parser<LHS, RHS>{}))
    .isTerm (tThen (P Non1) (P Non5)),  -- 172: DEP_ASSERT_BINARY_OPERABLE(>>, LLHS{}, RRHS{}, LHS{}, RHS{})
    .parsersEq (tThen (P Non1) (P Non5)) (P (.sequence [Non1, Non5])),  -- 172: DEP_ASSERT_PARSER_VALUES_EQ(LLHS{}>> RRHS{},(sequence_parser<LLHS, RRHS>{}), LHS{}>> RHS{},(sequence_parser<LHS, RHS>{}))
    .isTerm (tThen (P Non1) (P All1)),  -- 172: DEP_ASSERT_BINARY_OPERABLE(>>, LLHS{}, RRHS{}, LHS{}, RHS{})
    .parsersEq (tThen (P Non1) (P All1)) (P (.sequence [Non1, All1])),  -- 172: DEP_ASSERT_PARSER_VALUES_EQ(LLHS{}>> RRHS{},(sequence_parser<LLHS, RRHS>{}), LHS{}>> RHS{},(sequence_parser<LHS, RHS>{}))
    .isTerm (tThen (P Non1) (P All2)),  -- 172: DEP_ASSERT_BINARY_OPERABLE(>>, LLHS{}, RRHS{}, LHS{}, RHS{})
    .parsersEq (tThen (P Non1) (P All2)) (P (.sequence [Non1, All2])),  -- 172: DEP_ASSERT_PARSER_VALUES_EQ(LLHS{}>> RRHS{},(sequence_parser<LLHS, RRHS>{}), LHS{}>> RHS{},(sequence_parser<LHS, RHS>{}))
    .isTerm (tThen (P Non1) (P All3)),  -- 172: DEP_ASSERT_BINARY_OPERABLE(>>, LLHS{}, RRHS{}, LHS{}, RHS{})
    .parsersEq (tThen (P Non1) (P All3)) (P (.sequence [Non1, All3])),  -- 172: DEP_ASSERT_PARSER_VALUES_EQ(LLHS{}>> RRHS{},(sequence_parser<LLHS, RRHS>{}), LHS{}>> RHS{},(sequence_parser<LHS, RHS>{}))
    .isTerm (tThen (P Non1) (P All4)),  -- 172: DEP_ASSERT_BINARY_OPERABLE(>>, LLHS{}, RRHS{}, LHS{}, RHS{})
    .parsersEq (tThen (P Non1) (P All4)) (P (.sequence [Non1, All4])),  -- 172: DEP_ASSERT_PARSER_VALUES_EQ(LLHS{}>> RRHS{},(sequence_parser<LLHS, RRHS>{}), LHS{}>> RHS{},(sequence_parser<LHS, RHS>{}))
    .isTerm (tThen (P Non1) (P Eps1)),  -- 172: DEP_ASSERT_BINARY_OPERABLE(>>, LLHS{}, RRHS{}, LHS{}, RHS{})
    .parsersEq (tThen (P Non1) (P Eps1)) (P (.sequence [Non1, Eps1]))  -- 172: DEP_ASSERT_PARSER_VALUES_EQ(LLHS{}>> RRHS{},(sequence_parser<LLHS, RRHS>{}), LHS{}>> RHS{},(sequence_parser<LHS, RHS>{}))
    ], Assertion.Holds a :=
  Assertion.holds_of_check (by decide +kernel)

/-- sequence operator / {anything} >> {anything} (tests/char-tests/operators/sequence.cpp:172) -/
theorem charOperatorsSequence_5_4 : ∀ a ∈ [
    .isTerm (tThen (P Non1) (P Ant1)),  -- 172: DEP_ASSERT_BINARY_OPERABLE(>>, LLHS{}, RRHS{}, LHS{}, RHS{})
    .parsersEq (tThen (P Non1) (P Ant1)) (P (.sequence [Non1, Ant1])),  -- 172: DEP_ASSERT_PARSER_VALUES_EQ(LLHS{}>> RRHS{},(sequence_parser<LLHS, RRHS>{}), LHS{}>> RHS{},(sequence_parser<LHS, RHS>{}))
    .isTerm (tThen (P Non1) (P QQ)),  -- 172: DEP_ASSERT_BINARY_OPERABLE(>>, LLHS{}, RRHS{}, LHS{}, RHS{})
    .parsersEq (tThen (P Non1) (P QQ)) (P (.sequence [Non1, QQ])),  -- 172: DEP_ASSERT_PARSER_VALUES_EQ(LLHS{}>> RRHS{},(sequence_parser<LLHS, RRHS>{}), LHS{}>> RHS{},(sequence_parser<LHS, RHS>{}))
    .isTerm (tThen (P Non1) (P ABC)),  -- 172: DEP_ASSERT_BINARY_OPERABLE(>>, LLHS{}, RRHS{}, LHS{}, RHS{})
    .parsersEq (tThen (P Non1) (P ABC)) (P (.sequence [Non1, ABC])),  -- 172: DEP_ASSERT_PARSER_VALUES_EQ(LLHS{}>> RRHS{},(sequence_parser<LLHS, RRHS>{}), LHS{}>> RHS{},(sequence_parser<LHS, RHS>{}))
    .isTerm (tThen (P Non1) (P Comma)),  -- 172: DEP_ASSERT_BINARY_OPERABLE(>>, LLHS{}, RRHS{}, LHS{}, RHS{})
    .parsersEq (tThen (P Non1) (P Comma)) (P (.sequence [Non1, Comma])),  -- 172: DEP_ASSERT_PARSER_VALUES_EQ(LLHS{}>> RRHS{},(sequence_parser<LLHS, RRHS>{}), LHS{}>> RHS{},(sequence_parser<LHS, RHS>{}))
    .isTerm (tThen (P Non1) (P SpaceDot)),  -- 172: DEP_ASSERT_BINARY_OPERABLE(>>, LLHS{}, RRHS{}, LHS{}, RHS{})
    .parsersEq (tThen (P Non1) (P SpaceDot)) (P (.sequence [Non1, SpaceDot])),  -- 172: DEP_ASSERT_PARSER_VALUES_EQ(LLHS{}>> RRHS{},(sequence_parser<LLHS, RRHS>{}), LHS{}>> RHS{},(sequence_parser<LHS, RHS>{}))
    .isTerm (tThen (P Non2) (P Any1)),  -- 172: DEP_ASSERT_BINARY_OPERABLE(>>, LLHS{}, RRHS{}, LHS{}, RHS{})
    .parsersEq (tThen (P Non2) (P Any1)) (P (.sequence [Non2, Any1])),  -- 172: DEP_ASSERT_PARSER_VALUES_EQ(LLHS{}>> RRHS{},(sequence_parser<LLHS, RRHS>{}), LHS{}>> RHS{},(sequence_parser<LHS, RHS>{}))
    .isTerm (tThen (P Non2) (P Any2)),  -- 172: DEP_ASSERT_BINARY_OPERABLE(>>, LLHS{}, RRHS{}, LHS{}, RHS{})
    .parsersEq (tThen (P Non2) (P Any2)) (P (.sequence [Non2, Any2])),  -- 172: DEP_ASSERT_PARSER_VALUES_EQ(LLHS{}>> RRHS{},(sequence_parser<LLHS, RRHS>{}), LHS{}>> RHS{},(sequence_parser<LHS, RHS>{}))
    .isTerm (tThen (P Non2) (P Any3)),  -- 172: DEP_ASSERT_BINARY_OPERABLE(>>, LLHS{}, RRHS{}, LHS{}, RHS{})
    .parsersEq (tThen (P Non2) (P Any3)) (P (.sequence [Non2, Any3])),  -- 172: DEP_ASSERT_PARSER_VALUES_EQ(LLHS{}>> RRHS{},(sequence_parser<LLHS, RRHS>{}), LHS{}>> RHS{},(sequence_parser<LHS, RHS>{}))
    .isTerm (tThen (P Non2) (P Any4)),  -- 172: DEP_ASSERT_BINARY_OPERABLE(>>, LLHS{}, RRHS{}, LHS{}, RHS{})
    .parsersEq (tThen (P Non2) (P Any4)) (P (.sequence [Non2, Any4])),  -- 172: DEP_ASSERT_PARSER_VALUES_EQ(LLHS{}>> RRHS{},(sequence_parser<LLHS, RRHS>{}), LHS{}>> RHS{},(sequence_parser<LHS, RHS>{}))
    .isTerm (tThen (P Non2) (P Non1)),  -- 172: DEP_ASSERT_BINARY_OPERABLE(>>, LLHS{}, RRHS{}, LHS{}, RHS{})
    .parsersEq (tThen (P Non2) (P Non1)) (P (.sequence [Non2, Non1])),  -- 172: DEP_ASSERT_PARSER_VALUES_EQ(LLHS{}>> RRHS{},(sequence_parser<LLHS, RRHS>{}), LHS{}>> RHS{},(sequence_parser<LHS, RHS>{}))
    .isTerm (tThen (P Non2) (P Non2)),  -- 172: DEP_ASSERT_BINARY_OPERABLE(>>, LLHS{}, RRHS{}, LHS{}, RHS{})
    .parsersEq (tThen (P Non2) (P Non2)) (P (.sequence [Non2, Non2])),  -- 172: DEP_ASSERT_PARSER_VALUES_EQ(LLHS{}>> RRHS{},(sequence_parser<LLHS, RRHS>{}), LHS{}>> RHS{},(sequence_parser<LHS, RHS>{}))
    .isTerm (tThen (P Non2) (P Non3)),  -- 172: DEP_ASSERT_BINARY_OPERABLE(>>, LLHS{}, RRHS{}, LHS{}, RHS{})
    .parsersEq (tThen (P Non2) (P Non3)) (P (.sequence [Non2, Non3])),  -- 172: DEP_ASSERT_PARSER_VALUES_EQ(LLHS{}>> RRHS{},(sequence_parser<LLHS, RRHS>{}), LHS{}>> RHS{},(sequence_parser<LHS, RHS>{}))
    .isTerm (tThen (P Non2) (P Non4)),  -- 172: DEP_ASSERT_BINARY_OPERABLE(>>, LLHS{}, RRHS{}, LHS{}, RHS{})
    .parsersEq (tThen (P Non2) (P Non4)) (P (.sequence [Non2, Non4])),  -- 172: DEP_ASSERT_PARSER_VALUES_EQ(LLHS{}>> RRHS{},(sequence_parser<LLHS, RRHS>{}), LHS{}>> RHS{},(sequence_parser<LHS, RHS>{}))
    .isTerm (tThen (P Non2) (P Non5)),  -- 172: DEP_ASSERT_BINARY_OPERABLE(>>, LLHS{}, RRHS{}, LHS{}, RHS{})
    .parsersEq (tThen (P Non2) (P Non5)) (P (.sequence [Non2, Non5])),  -- 172: DEP_ASSERT_PARSER_VALUES_EQ(LLHS{}>> RRHS{},(sequence_parser<LLHS, RRHS>{}), LHS{}>> RHS{},(sequence_parser<LHS, RHS>{}))
    .isTerm (tThen (P Non2) (P All1)),  -- 172: DEP_ASSERT_BINARY_OPERABLE(>>, LLHS{}, RRHS{}, LHS{}, RHS{})
    .parsersEq (tThen (P Non2) (P All1)) (P (.sequence [Non2, All1])),  -- 172: DEP_ASSERT_PARSER_VALUES_EQ(LLHS{}>> RRHS{},(sequence_parser<LLHS, RRHS>{}), LHS{}>> RHS{},(sequence_parser<LHS, RHS>{}))
    .isTerm (tThen (P Non2) (P All2)),  -- 172: DEP_ASSERT_BINARY_OPERABLE(>>, LLHS{}, RRHS{}, LHS{}, RHS{})
    .parsersEq (tThen (P Non2) (P All2)) (P (.sequence [Non2, All2])),  -- 172: DEP_ASSERT_PARSER_VALUES_EQ(LLHS{}>> RRHS{},(sequence_parser<LLHS, RRHS>{}), LHS{}>> RHS{},(sequence_parser<LHS, RHS>{}))
    .isTerm (tThen (P Non2) (P All3)),  -- 172: DEP_ASSERT_BINARY_OPERABLE(>>, LLHS{}, RRHS{}, LHS{}, RHS{})
    .parsersEq (tThen (P Non2) (P All3)) (P (.sequence [Non2, All3])),  -- 172: DEP_ASSERT_PARSER_VALUES_EQ(LLHS{}>> RRHS{},(sequence_parser<LLHS, RRHS>{}), LHS{}>> RHS{},(sequence_parser<LHS, RHS>{}))
    .isTerm (tThen (P Non2) (P All4)),  -- 172: DEP_ASSERT_BINARY_OPERABLE(>>, LLHS{}, RRHS{}, LHS{}, RHS{})
    .parsersEq (tThen (P Non2) (P All4)) (P (.sequence [Non2, All4])),  -- 172: DEP_ASSERT_PARSER_VALUES_EQ(LLHS{}>> RRHS{},(sequence_parser<LLHS, RRHS>{}), LHS{}>> RHS{},(sequence_parser<LHS, RHS>{}))
    .isTerm (tThen (P Non2) (P Eps1)),  -- 172: DEP_ASSERT_BINARY_OPERABLE(>>, LLHS{}, RRHS{}, LHS{}, RHS{})
    .parsersEq (tThen (P Non2) (P Eps1)) (P (.sequence [Non2, Eps1])),  -- 172: DEP_ASSERT_PARSER_VALUES_EQ(LLHS{}>> RRHS{},(sequence_parser<LLHS, RRHS>{}), LHS{}>> RHS{},(sequence_parser<LHS, RHS>{}))
    .isTerm (tThen (P Non2) (P Ant1)),  -- 172: DEP_ASSERT_BINARY_OPERABLE(>>, LLHS{}, RRHS{}, LHS{}, RHS{})
    .parsersEq (tThen (P Non2) (P Ant1)) (P (.sequence [Non2, Ant1])),  -- 172: DEP_ASSERT_PARSER_VALUES_EQ(LLHS{}>> RRHS{},(sequence_parser<LLHS, RRHS>{}), LHS{}>> RHS{},(sequence_parser<LHS, RHS>{}))
    .isTerm (tThen (P Non2) (P QQ)),  -- 172: DEP_ASSERT_BINARY_OPERABLE(>>, LLHS{}, RRHS{}, LHS{}, RHS{})
    .parsersEq (tThen (P Non2) (P QQ)) (P (.sequence [Non2, QQ])),  -- 172: DEP_ASSERT_PARSER_VALUES_EQ(LLHS{}>> RRHS{},(sequence_parser<LLHS, RRHS>{}), LHS{}>> RHS{},(sequence_parser<LHS, RHS>{}))
    .isTerm (tThen (P Non2) (P ABC)),  -- 172: DEP_ASSERT_BINARY_OPERABLE(>>, LLHS{}, RRHS{}, LHS{}, RHS{})
    .parsersEq (tThen (P Non2) (P ABC)) (P (.sequence [Non2, ABC])),  -- 172: DEP_ASSERT_PARSER_VALUES_EQ(LLHS{}>> RRHS{},(sequence_parser<LLHS, RRHS>{}), LHS{}>> RHS{},(sequence_parser<LHS, RHS>{}))
    .isTerm (tThen (P Non2) (P Comma)),  -- 172: DEP_ASSERT_BINARY_OPERABLE(>>, LLHS{}, RRHS{}, LHS{}, RHS{})
    .parsersEq (tThen (P Non2) (P Comma)) (P (.sequence [Non2, Comma])),  -- 172: DEP_ASSERT_PARSER_VALUES_EQ(LLHS{}>> RRHS{},(sequence_parser<LLHS, RRHS>{}), LHS{}>> RHS{},(sequence_parser<LHS, RHS>{}))
    .isTerm (tThen (P Non2) (P SpaceDot)),  -- 172: DEP_ASSERT_BINARY_OPERABLE(>>, LLHS{}, RRHS{}, LHS{}, RHS{})
    .parsersEq (tThen (P Non2) (P SpaceDot)) (P (.sequence [Non2, SpaceDot])),  -- 172: DEP_ASSERT_PARSER_VALUES_EQ(LLHS{}>> RRHS{},(sequence_parser<LLHS, RRHS>{}), LHS{}>> RHS{},(sequence_parser<LHS, RHS>{}))
    .isTerm (tThen (P Non3) (P Any1)),  -- 172: DEP_ASSERT_BINARY_OPERABLE(>>, LLHS{}, RRHS{}, LHS{}, RHS{})
    .parsersEq (tThen (P Non3) (P Any1)) (P (.sequence [Non3, Any1])),  -- 172: DEP_ASSERT_PARSER_VALUES_EQ(LLHS{}>> RRHS{},(sequence_parser<LLHS, RRHS>{}), LHS{}>> RHS{},(sequence_parser<LHS, RHS>{}))
    .isTerm (tThen (P Non3) (P Any2)),  -- 172: DEP_ASSERT_BINARY_OPERABLE(>>, LLHS{}, RRHS{}, LHS{}, RHS{})
    .parsersEq (tThen (P Non3) (P Any2)) (P (.sequence [Non3, Any2])),  -- 172: DEP_ASSERT_PARSER_VALUES_EQ(LLHS{}>> RRHS{},(sequence_parser<LLHS, RRHS>{}), LHS{}>> RHS{},(sequence_parser<LHS, RHS>{}))
    .isTerm (tThen (P Non3) (P Any3)),  -- 172: DEP_ASSERT_BINARY_OPERABLE(>>, LLHS{}, RRHS{}, LHS{}, RHS{})
    .parsersEq (tThen (P Non3) (P Any3)) (P (.sequence [Non3, Any3])),  -- 172: DEP_ASSERT_PARSER_VALUES_EQ(LLHS{}>> RRHS{},(sequence_parser<LLHS, RRHS>{}), LHS{}>> RHS{},(sequence_parser<LHS, RHS>{}))
    .isTerm (tThen (P Non3) (P Any4)),  -- 172: DEP_ASSERT_BINARY_OPERABLE(>>, LLHS{}, RRHS{}, LHS{}, RHS{})
    .parsersEq (tThen (P Non3) (P Any4)) (P (.sequence [Non3, Any4])),  -- 172: DEP_ASSERT_PARSER_VALUES_EQ(LLHS{}>> RRHS{},(sequence_parser<LLHS, RRHS>{}), LHS{}>> RHS{},(sequence_parser<LHS, RHS>{}))
    .isTerm (tThen (P Non3) (P Non1)),  -- 172: DEP_ASSERT_BINARY_OPERABLE(>>, LLHS{}, RRHS{}, LHS{}, RHS{})
    .parsersEq (tThen (P Non3) (P Non1)) (P (.sequence [Non3, Non1])),  -- 172: DEP_ASSERT_PARSER_VALUES_EQ(LLHS{}>> RRHS{},(sequence_parser<LLHS, RRHS>{}), LHS{}>> RHS{},(sequence_parser<LHS, RHS>{}))
    .isTerm (tThen (P Non3) (P Non2)),  -- 172: DEP_ASSERT_BINARY_OPERABLE(>>, LLHS{}, RRHS{}, LHS{}, RHS{})
    .parsersEq (tThen (P Non3) (P Non2)) (P (.sequence [Non3, Non2]))  -- 172: DEP_ASSERT_PARSER_VALUES_EQ(LLHS{}>> RRHS{},(sequence_parser<LLHS, RRHS>{}), LHS{}>> RHS{},(sequence_parser<LHS, RHS>{}))
    ], Assertion.Holds a :=
  Assertion.holds_of_check (by decide +kernel)

/-- sequence operator / {anything} >> {anything} (tests/char-tests/operators/sequence.cpp:172) -/
theorem charOperatorsSequence_5_5 : ∀ a ∈ [
    .isTerm (tThen (P Non3) (P Non3)),  -- 172: DEP_ASSERT_BINARY_OPERABLE(>>, LLHS{}, RRHS{}, LHS{}, RHS{})
    .parsersEq (tThen (P Non3) (P Non3)) (P (.sequence [Non3, Non3])),  -- 172: DEP_ASSERT_PARSER_VALUES_EQ(LLHS{}>> RRHS{},(sequence_parser<LLHS, RRHS>{}), LHS{}>> RHS{},(sequence_parser<LHS, RHS>{}))
    .isTerm (tThen (P Non3) (P Non4)),  -- 172: DEP_ASSERT_BINARY_OPERABLE(>>, LLHS{}, RRHS{}, LHS{}, RHS{})
    .parsersEq (tThen (P Non3) (P Non4)) (P (.sequence [Non3, Non4])),  -- 172: DEP_ASSERT_PARSER_VALUES_EQ(LLHS{}>> RRHS{},(sequence_parser<LLHS, RRHS>{}), LHS{}>> RHS{},(sequence_parser<LHS, RHS>{}))
    .isTerm (tThen (P Non3) (P Non5)),  -- 172: DEP_ASSERT_BINARY_OPERABLE(>>, LLHS{}, RRHS{}, LHS{}, RHS{})
    .parsersEq (tThen (P Non3) (P Non5)) (P (.sequence [Non3, Non5])),  -- 172: DEP_ASSERT_PARSER_VALUES_EQ(LLHS{}>> RRHS{},(sequence_parser<LLHS, RRHS>{}), LHS{}>> RHS{},(sequence_parser<LHS, RHS>{}))
    .isTerm (tThen (P Non3) (P All1)),  -- 172: DEP_ASSERT_BINARY_OPERABLE(>>, LLHS{}, RRHS{}, LHS{}, RHS{})
    .parsersEq (tThen (P Non3) (P All1)) (P (.sequence [Non3, All1])),  -- 172: DEP_ASSERT_PARSER_VALUES_EQ(LLHS{}>> RRHS{},(sequence_parser<LLHS, RRHS>{}), LHS{}>> RHS{},(sequence_parser<LHS, RHS>{}))
    .isTerm (tThen (P Non3) (P All2)),  -- 172: DEP_ASSERT_BINARY_OPERABLE(>>, LLHS{}, RRHS{}, LHS{}, RHS{})
    .parsersEq (tThen (P Non3) (P All2)) (P (.sequence [Non3, All2])),  -- 172: DEP_ASSERT_PARSER_VALUES_EQ(LLHS{}>> RRHS{},(sequence_parser<LLHS, RRHS>{}), LHS{}>> RHS{},(sequence_parser<LHS, RHS>{}))
    .isTerm (tThen (P Non3) (P All3)),  -- 172: DEP_ASSERT_BINARY_OPERABLE(>>, LLHS{}, RRHS{}, LHS{}, RHS{})
    .parsersEq (tThen (P Non3) (P All3)) (P (.sequence [Non3, All3])),  -- 172: DEP_ASSERT_PARSER_VALUES_EQ(LLHS{}>> RRHS{},(sequence_parser<LLHS, RRHS>{}), LHS{}>> RHS{},(sequence_parser<LHS, RHS>{}))
    .isTerm (tThen (P Non3) (P All4)),  -- 172: DEP_ASSERT_BINARY_OPERABLE(>>, LLHS{}, RRHS{}, LHS{}, RHS{})
    .parsersEq (tThen (P Non3) (P All4)) (P (.sequence [Non3, All4])),  -- 172: DEP_ASSERT_PARSER_VALUES_EQ(LLHS{}>> RRHS{},(sequence_parser<LLHS, RRHS>{}), LHS{}>> RHS{},(sequence_parser<LHS, RHS>{}))
    .isTerm (tThen (P Non3) (P Eps1)),  -- 172: DEP_ASSERT_BINARY_OPERABLE(>>, LLHS{}, RRHS{}, LHS{}, RHS{})
    .parsersEq (tThen (P Non3) (P Eps1)) (P (.sequence [Non3, Eps1])),  -- 172: DEP_ASSERT_PARSER_VALUES_EQ(LLHS{}>> RRHS{},(sequence_parser<LLHS, RRHS>{}), LHS{}>> RHS{},(sequence_parser<LHS, RHS>{}))
    .isTerm (tThen (P Non3) (P Ant1)),  -- 172: DEP_ASSERT_BINARY_OPERABLE(>>, LLHS{}, RRHS{}, LHS{}, RHS{})
    .parsersEq (tThen (P Non3) (P Ant1)) (P (.sequence [Non3, Ant1])),  -- 172: DEP_ASSERT_PARSER_VALUES_EQ(LLHS{}>> RRHS{},(sequence_parser<LLHS, RRHS>{}), LHS{}>> RHS{},(sequence_parser<LHS, RHS>{}))
    .isTerm (tThen (P Non3) (P QQ)),  -- 172: DEP_ASSERT_BINARY_OPERABLE(>>, LLHS{}, RRHS{}, LHS{}, RHS{})
    .parsersEq (tThen (P Non3) (P QQ)) (P (.sequence [Non3, QQ])),  -- 172: DEP_ASSERT_PARSER_VALUES_EQ(LLHS{}>> RRHS{},(sequence_parser<LLHS, RRHS>{}), LHS{}>> RHS{},(sequence_parser<LHS, RHS>{}))
    .isTerm (tThen (P Non3) (P ABC)),  -- 172: DEP_ASSERT_BINARY_OPERABLE(>>, LLHS{}, RRHS{}, LHS{}, RHS{})
    .parsersEq (tThen (P Non3) (P ABC)) (P (.sequence [Non3, ABC])),  -- 172: DEP_ASSERT_PARSER_VALUES_EQ(LLHS{}>> RRHS{},(sequence_parser<LLHS, RRHS>{}), LHS{}>> RHS{},(sequence_parser<LHS, RHS>{}))
    .isTerm (tThen (P Non3) (P Comma)),  -- 172: DEP_ASSERT_BINARY_OPERABLE(>>, LLHS{}, RRHS{}, LHS{}, RHS{})
    .parsersEq (tThen (P Non3) (P Comma)) (P (.sequence [Non3, Comma])),  -- 172: DEP_ASSERT_PARSER_VALUES_EQ(LLHS{}>> RRHS{},(sequence_parser<LLHS, RRHS>{}), LHS{}>> RHS{},(sequence_parser<LHS, RHS>{}))
    .isTerm (tThen (P Non3) (P SpaceDot)),  -- 172: DEP_ASSERT_BINARY_OPERABLE(>>, LLHS{}, RRHS{}, LHS{}, RHS{})
    .parsersEq (tThen (P Non3) (P SpaceDot)) (P (.sequence [Non3, SpaceDot])),  -- 172: DEP_ASSERT_PARSER_VALUES_EQ(LLHS{}>> RRHS{},(sequence_parser<LLHS, RRHS>{}), LHS{}>> RHS{},(sequence_parser<LHS, RHS>{}))
    .isTerm (tThen (P Non4) (P Any1)),  -- 172: DEP_ASSERT_BINARY_OPERABLE(>>, LLHS{}, RRHS{}, LHS{}, RHS{})
    .parsersEq (tThen (P Non4) (P Any1)) (P (.sequence [Non4, Any1])),  -- 172: DEP_ASSERT_PARSER_VALUES_EQ(LLHS{}>> RRHS{},(sequence_parser<LLHS, RRHS>{}), LHS{}>> RHS{},(sequence_parser<LHS, RHS>{}))
    .isTerm (tThen (P Non4) (P Any2)),  -- 172: DEP_ASSERT_BINARY_OPERABLE(>>, LLHS{}, RRHS{}, LHS{}, RHS{})
    .parsersEq (tThen (P Non4) (P Any2)) (P (.sequence [Non4, Any2])),  -- 172: DEP_ASSERT_PARSER_VALUES_EQ(LLHS{}>> RRHS{},(sequence_parser<LLHS, RRHS>{}), LHS{}>> RHS{},(sequence_parser<LHS, RHS>{}))
    .isTerm (tThen (P Non4) (P Any3)),  -- 172: DEP_ASSERT_BINARY_OPERABLE(>>, LLHS{}, RRHS{}, LHS{}, RHS{})
    .parsersEq (tThen (P Non4) (P Any3)) (P (.sequence [Non4, Any3])),  -- 172: DEP_ASSERT_PARSER_VALUES_EQ(LLHS{}>> RRHS{},(sequence_parser<LLHS, RRHS>{}), LHS{}>> RHS{},(sequence_parser<LHS, RHS>{}))
    .isTerm (tThen (P Non4) (P Any4)),  -- 172: DEP_ASSERT_BINARY_OPERABLE(>>, LLHS{}, RRHS{}, LHS{}, RHS{})
    .parsersEq (tThen (P Non4) (P Any4)) (P (.sequence [Non4, Any4])),  -- 172: DEP_ASSERT_PARSER_VALUES_EQ(LLHS{}>> RRHS{},(sequence_parser<LLHS, RRHS>{}), LHS{}>> RHS{},(sequence_parser<LHS, RHS>{}))
    .isTerm (tThen (P Non4) (P Non1)),  -- 172: DEP_ASSERT_BINARY_OPERABLE(>>, LLHS{}, RRHS{}, LHS{}, RHS{})
    .parsersEq (tThen (P Non4) (P Non1)) (P (.sequence [Non4, Non1])),  -- 172: DEP_ASSERT_PARSER_VALUES_EQ(LLHS{}>> RRHS{},(sequence_parser<LLHS, RRHS>{}), LHS{}>> RHS{},(sequence_parser<LHS, RHS>{}))
    .isTerm (tThen (P Non4) (P Non2)),  -- 172: DEP_ASSERT_BINARY_OPERABLE(>>, LLHS{}, RRHS{}, LHS{}, RHS{})
    .parsersEq (tThen (P Non4) (P Non2)) (P (.sequence [Non4, Non2])),  -- 172: DEP_ASSERT_PARSER_VALUES_EQ(LLHS{}>> RRHS{},(sequence_parser<LLHS, RRHS>{}), LHS{}>> RHS{},(sequence_parser<LHS, RHS>{}))
    .isTerm (tThen (P Non4) (P Non3)),  -- 172: DEP_ASSERT_BINARY_OPERABLE(>>, LLHS{}, RRHS{}, LHS{}, RHS{})
    .parsersEq (tThen (P Non4) (P Non3)) (P (.sequence [Non4, Non3])),  -- 172: DEP_ASSERT_PARSER_VALUES_EQ(LLHS{}>> RRHS{},(sequence_parser<LLHS, RRHS>{}), LHS{}>> RHS{},(sequence_parser<LHS, RHS>{}))
    .isTerm (tThen (P Non4) (P Non4)),  -- 172: DEP_ASSERT_BINARY_OPERABLE(>>, LLHS{}, RRHS{}, LHS{}, RHS{})
    .parsersEq (tThen (P Non4) (P Non4)) (P (.sequence [Non4, Non4])),  -- 172: DEP_ASSERT_PARSER_VALUES_EQ(LLHS{}>> RRHS{},(sequence_parser<LLHS, RRHS>{}), LHS{}>> RHS{},(sequence_parser<LHS, RHS>{}))
    .isTerm (tThen (P Non4) (P Non5)),  -- 172: DEP_ASSERT_BINARY_OPERABLE(>>, LLHS{}, RRHS{}, LHS{}, RHS{})
    .parsersEq (tThen (P Non4) (P Non5)) (P (.sequence [Non4, Non5])),  -- 172: DEP_ASSERT_PARSER_VALUES_EQ(LLHS{}>> RRHS{},(sequence_parser<LLHS, RRHS>{}), LHS{}>> RHS{},(sequence_parser<LHS, RHS>{}))
    .isTerm (tThen (P Non4) (P All1)),  -- 172: DEP_ASSERT_BINARY_OPERABLE(>>, LLHS{}, RRHS{}, LHS{}, RHS{})
    .parsersEq (tThen (P Non4) (P All1)) (P (.sequence [Non4, All1])),  -- 172: DEP_ASSERT_PARSER_VALUES_EQ(LLHS{}>> RRHS{},(sequence_parser<LLHS, RRHS>{}), LHS{}>> RHS{},(sequence_parser<LHS, RHS>{}))
    .isTerm (tThen (P Non4) (P All2)),  -- 172: DEP_ASSERT_BINARY_OPERABLE(>>, LLHS{}, RRHS{}, LHS{}, RHS{})
    .parsersEq (tThen (P Non4) (P All2)) (P (.sequence [Non4, All2])),  -- 172: DEP_ASSERT_PARSER_VALUES_EQ(LLHS{}>> RRHS{},(sequence_parser<LLHS, RRHS>{}), LHS{}>> RHS{},(sequence_parser<LHS, RHS>{}))
    .isTerm (tThen (P Non4) (P All3)),  -- 172: DEP_ASSERT_BINARY_OPERABLE(>>, LLHS{}, RRHS{}, LHS{}, RHS{})
    .parsersEq (tThen (P Non4) (P All3)) (P (.sequence [Non4, All3])),  -- 172: DEP_ASSERT_PARSER_VALUES_EQ(LLHS{}>> RRHS{},(sequence_parser<LLHS, RRHS>{}), LHS{}>> RHS{},(sequence_parser<LHS, RHS>{}))
    .isTerm (tThen (P Non4) (P All4)),  -- 172: DEP_ASSERT_BINARY_OPERABLE(>>, LLHS{}, RRHS{}, LHS{}, RHS{})
    .parsersEq (tThen (P Non4) (P All4)) (P (.sequence [Non4, All4])),  -- 172: DEP_ASSERT_PARSER_VALUES_EQ(LLHS{}>> RRHS{},(sequence_parser<LLHS, RRHS>{}), LHS{}>> RHS{},(sequence_parser<LHS, RHS>{}))
    .isTerm (tThen (P Non4) (P Eps1)),  -- 172: DEP_ASSERT_BINARY_OPERABLE(>>, LLHS{}, RRHS{}, LHS{}, RHS{})
    .parsersEq (tThen (P Non4) (P Eps1)) (P (.sequence [Non4, Eps1])),  -- 172: DEP_ASSERT_PARSER_VALUES_EQ(LLHS{}>> RRHS{},(sequence_parser<LLHS, RRHS>{}), LHS{}>> RHS{},(sequence_parser<LHS, RHS>{}))
    .isTerm (tThen (P Non4) (P Ant1)),  -- 172: DEP_ASSERT_BINARY_OPERABLE(>>, LLHS{}, RRHS{}, LHS{}, RHS{})
    .parsersEq (tThen (P Non4) (P Ant1)) (P (.sequence [Non4, Ant1])),  -- 172: DEP_ASSERT_PARSER_VALUES_EQ(LLHS{}>> RRHS{},(sequence_parser<LLHS, RRHS>{}), LHS{}>> RHS{},(sequence_parser<LHS, RHS>{}))
    .isTerm (tThen (P Non4) (P QQ)),  -- 172: DEP_ASSERT_BINARY_OPERABLE(>>, LLHS{}, RRHS{}, LHS{}, RHS{})
    .parsersEq (tThen (P Non4) (P QQ)) (P (.sequence [Non4, QQ])),  -- 172: DEP_ASSERT_PARSER_VALUES_EQ(LLHS{}>> RRHS{},(sequence_parser<LLHS, RRHS>{}), LHS{}>> RHS{},(sequence_parser<LHS, RHS>{}))
    .isTerm (tThen (P Non4) (P ABC)),  -- 172: DEP_ASSERT_BINARY_OPERABLE(>>, LLHS{}, RRHS{}, LHS{}, RHS{})
    .parsersEq (tThen (P Non4) (P ABC)) (P (.sequence [Non4, ABC]))  -- 172: DEP_ASSERT_PARSER_VALUES_EQ(LLHS{}>> RRHS{},(sequence_parser<LLHS, RRHS>{}), LHS{}>> RHS{},(sequence_parser<LHS, RHS>{}))
    ], Assertion.Holds a :=
  Assertion.holds_of_check (by decide +kernel)

/-- sequence operator / {anything} >> {anything} (tests/char-tests/operators/sequence.cpp:172) -/
theorem charOperatorsSequence_5_6 : ∀ a ∈ [
    .isTerm (tThen (P Non4) (P Comma)),  -- 172: DEP_ASSERT_BINARY_OPERABLE(>>, LLHS{}, RRHS{}, LHS{}, RHS{})
    .parsersEq (tThen (P Non4) (P Comma)) (P (.sequence [Non4, Comma])),  -- 172: DEP_ASSERT_PARSER_VALUES_EQ(LLHS{}>> RRHS{},(sequence_parser<LLHS, RRHS>{}), LHS{}>> RHS{},(sequence_parser<LHS, RHS>{}))
    .isTerm (tThen (P Non4) (P SpaceDot)),  -- 172: DEP_ASSERT_BINARY_OPERABLE(>>, LLHS{}, RRHS{}, LHS{}, RHS{})
    .parsersEq (tThen (P Non4) (P SpaceDot)) (P (.sequence [Non4, SpaceDot])),  -- 172: DEP_ASSERT_PARSER_VALUES_EQ(LLHS{}>> RRHS{},(sequence_parser<LLHS, RRHS>{}), LHS{}>> RHS{},(sequence_parser<LHS, RHS>{}))
    .isTerm (tThen (P Non5) (P Any1)),  -- 172: DEP_ASSERT_BINARY_OPERABLE(>>, LLHS{}, RRHS{}, LHS{}, RHS{})
    .parsersEq (tThen (P Non5) (P Any1)) (P (.sequence [Non5, Any1])),  -- 172: DEP_ASSERT_PARSER_VALUES_EQ(LLHS{}>> RRHS{},(sequence_parser<LLHS, RRHS>{}), LHS{}>> RHS{},(sequence_parser<LHS, RHS>{}))
    .isTerm (tThen (P Non5) (P Any2)),  -- 172: DEP_ASSERT_BINARY_OPERABLE(>>, LLHS{}, RRHS{}, LHS{}, RHS{})
    .parsersEq (tThen (P Non5) (P Any2)) (P (.sequence [Non5, Any2])),  -- 172: DEP_ASSERT_PARSER_VALUES_EQ(LLHS{}>> RRHS{},(sequence_parser<LLHS, RRHS>{}), LHS{}>> RHS{},(sequence_parser<LHS, RHS>{}))
    .isTerm (tThen (P Non5) (P Any3)),  -- 172: DEP_ASSERT_BINARY_OPERABLE(>>, LLHS{}, RRHS{}, LHS{}, RHS{})
    .parsersEq (tThen (P Non5) (P Any3)) (P (.sequence [Non5, Any3])),  -- 172: DEP_ASSERT_PARSER_VALUES_EQ(LLHS{}>> RRHS{},(sequence_parser<LLHS, RRHS>{}), LHS{}>> RHS{},(sequence_parser<LHS, RHS>{}))
    .isTerm (tThen (P Non5) (P Any4)),  -- 172: DEP_ASSERT_BINARY_OPERABLE(>>, LLHS{}, RRHS{}, LHS{}, RHS{})
    .parsersEq (tThen (P Non5) (P Any4)) (P (.sequence [Non5, Any4])),  -- 172: DEP_ASSERT_PARSER_VALUES_EQ(LLHS{}>> RRHS{},(sequence_parser<LLHS, RRHS>{}), LHS{}>> RHS{},(sequence_parser<LHS, RHS>{}))
    .isTerm (tThen (P Non5) (P Non1)),  -- 172: DEP_ASSERT_BINARY_OPERABLE(>>, LLHS{}, RRHS{}, LHS{}, RHS{})
    .parsersEq (tThen (P Non5) (P Non1)) (P (.sequence [Non5, Non1])),  -- 172: DEP_ASSERT_PARSER_VALUES_EQ(LLHS{}>> RRHS{},(sequence_parser<LLHS, RRHS>{}), LHS{}>> RHS{},(sequence_parser<LHS, RHS>{}))
    .isTerm (tThen (P Non5) (P Non2)),  -- 172: DEP_ASSERT_BINARY_OPERABLE(>>, LLHS{}, RRHS{}, LHS{}, RHS{})
    .parsersEq (tThen (P Non5) (P Non2)) (P (.sequence [Non5, Non2])),  -- 172: DEP_ASSERT_PARSER_VALUES_EQ(LLHS{}>> RRHS{},(sequence_parser<LLHS, RRHS>{}), LHS{}>> RHS{},(sequence_parser<LHS, RHS>{}))
    .isTerm (tThen (P Non5) (P Non3)),  -- 172: DEP_ASSERT_BINARY_OPERABLE(>>, LLHS{}, RRHS{}, LHS{}, RHS{})
    .parsersEq (tThen (P Non5) (P Non3)) (P (.sequence [Non5, Non3])),  -- 172: DEP_ASSERT_PARSER_VALUES_EQ(LLHS{}>> RRHS{},(sequence_parser<LLHS, RRHS>{}), LHS{}>> RHS{},(sequence_parser<LHS, RHS>{}))
    .isTerm (tThen (P Non5) (P Non4)),  -- 172: DEP_ASSERT_BINARY_OPERABLE(>>, LLHS{}, RRHS{}, LHS{}, RHS{})
    .parsersEq (tThen (P Non5) (P Non4)) (P (.sequence [Non5, Non4])),  -- 172: DEP_ASSERT_PARSER_VALUES_EQ(LLHS{}>> RRHS{},(sequence_parser<LLHS, RRHS>{}), LHS{}>> RHS{},(sequence_parser<LHS, RHS>{}))
    .isTerm (tThen (P Non5) (P Non5)),  -- 172: DEP_ASSERT_BINARY_OPERABLE(>>, LLHS{}, RRHS{}, LHS{}, RHS{})
    .parsersEq (tThen (P Non5) (P Non5)) (P (.sequence [Non5, Non5])),  -- 172: DEP_ASSERT_PARSER_VALUES_EQ(LLHS{}>> RRHS{},(sequence_parser<LLHS, RRHS>{}), LHS{}>> RHS{},(sequence_parser<LHS, RHS>{}))
    .isTerm (tThen (P Non5) (P All1)),  -- 172: DEP_ASSERT_BINARY_OPERABLE(>>, LLHS{}, RRHS{}, LHS{}, RHS{})
    .parsersEq (tThen (P Non5) (P All1)) (P (.sequence [Non5, All1])),  -- 172: DEP_ASSERT_PARSER_VALUES_EQ(LLHS{}>> RRHS{},(sequence_parser<LLHS, RRHS>{}), LHS{}>> RHS{},(sequence_parser<LHS, RHS>{}))
    .isTerm (tThen (P Non5) (P All2)),  -- 172: DEP_ASSERT_BINARY_OPERABLE(>>, LLHS{}, RRHS{}, LHS{}, RHS{})
    .parsersEq (tThen (P Non5) (P All2)) (P (.sequence [Non5, All2])),  -- 172: DEP_ASSERT_PARSER_VALUES_EQ(LLHS{}>> RRHS{},(sequence_parser<LLHS, RRHS>{}), LHS{}>> RHS{},(sequence_parser<LHS, RHS>{}))
    .isTerm (tThen (P Non5) (P All3)),  -- 172: DEP_ASSERT_BINARY_OPERABLE(>>, LLHS{}, RRHS{}, LHS{}, RHS{})
    .parsersEq (tThen (P Non5) (P All3)) (P (.sequence [Non5, All3])),  -- 172: DEP_ASSERT_PARSER_VALUES_EQ(LLHS{}>> RRHS{},(sequence_parser<LLHS, RRHS>{}), LHS{}>> RHS{},(sequence_parser<LHS, RHS>{}))
    .isTerm (tThen (P Non5) (P All4)),  -- 172: DEP_ASSERT_BINARY_OPERABLE(>>, LLHS{}, RRHS{}, LHS{}, RHS{})
    .parsersEq (tThen (P Non5) (P All4)) (P (.sequence [Non5, All4])),  -- 172: DEP_ASSERT_PARSER_VALUES_EQ(LLHS{}>> RRHS{},(sequence_parser<LLHS, RRHS>{}), LHS{}>> RHS{},(sequence_parser<LHS, RHS>{}))
    .isTerm (tThen (P Non5) (P Eps1)),  -- 172: DEP_ASSERT_BINARY_OPERABLE(>>, LLHS{}, RRHS{}, LHS{}, RHS{})
    .parsersEq (tThen (P Non5) (P Eps1)) (P (.sequence [Non5, Eps1])),  -- 172: DEP_ASSERT_PARSER_VALUES_EQ(LLHS{}>> RRHS{},(sequence_parser<LLHS, RRHS>{}), LHS{}>> RHS{},(sequence_parser<LHS, RHS>{}))
    .isTerm (tThen (P Non5) (P Ant1)),  -- 172: DEP_ASSERT_BINARY_OPERABLE(>>, LLHS{}, RRHS{}, LHS{}, RHS{})
    .parsersEq (tThen (P Non5) (P Ant1)) (P (.sequence [Non5, Ant1])),  -- 172: DEP_ASSERT_PARSER_VALUES_EQ(LLHS{}>> RRHS{},(sequence_parser<LLHS, RRHS>{}), LHS{}>> RHS{},(sequence_parser<LHS, RHS>{}))
    .isTerm (tThen (P Non5) (P QQ)),  -- 172: DEP_ASSERT_BINARY_OPERABLE(>>, LLHS{}, RRHS{}, LHS{}, RHS{})
    .parsersEq (tThen (P Non5) (P QQ)) (P (.sequence [Non5, QQ])),  -- 172: DEP_ASSERT_PARSER_VALUES_EQ(LLHS{}>> RRHS{},(sequence_parser<LLHS, RRHS>{}), LHS{}>> RHS{},(sequence_parser<LHS, RHS>{}))
    .isTerm (tThen (P Non5) (P ABC)),  -- 172: DEP_ASSERT_BINARY_OPERABLE(>>, LLHS{}, RRHS{}, LHS{}, RHS{})
    .parsersEq (tThen (P Non5) (P ABC)) (P (.sequence [Non5, ABC])),  -- 172: DEP_ASSERT_PARSER_VALUES_EQ(LLHS{}>> RRHS{},(sequence_parser<LLHS, RRHS>{}), LHS{}>> RHS{},(sequence_parser<LHS, RHS>{}))
    .isTerm (tThen (P Non5) (P Comma)),  -- 172: DEP_ASSERT_BINARY_OPERABLE(>>, LLHS{}, RRHS{}, LHS{}, RHS{})
    .parsersEq (tThen (P Non5) (P Comma)) (P (.sequence [Non5, Comma])),  -- 172: DEP_ASSERT_PARSER_VALUES_EQ(LLHS{}>> RRHS{},(sequence_parser<LLHS, RRHS>{}), LHS{}>> RHS{},(sequence_parser<LHS, RHS>{}))
    .isTerm (tThen (P Non5) (P SpaceDot)),  -- 172: DEP_ASSERT_BINARY_OPERABLE(>>, LLHS{}, RRHS{}, LHS{}, RHS{})
    .parsersEq (tThen (P Non5) (P SpaceDot)) (P (.sequence [Non5, SpaceDot])),  -- 172: DEP_ASSERT_PARSER_VALUES_EQ(LLHS{}>> RRHS{},(sequence_parser<LLHS, RRHS>{}), LHS{}>> RHS{},(sequence_parser<LHS, RHS>{}))
    .isTerm (tThen (P All1) (P Any1)),  -- 172: DEP_ASSERT_BINARY_OPERABLE(>>, LLHS{}, RRHS{}, LHS{}, RHS{})
    .parsersEq (tThen (P All1) (P Any1)) (P (.sequence [All1, Any1])),  -- 172: DEP_ASSERT_PARSER_VALUES_EQ(LLHS{}>> RRHS{},(sequence_parser<LLHS, RRHS>{}), LHS{}>> RHS{},(sequence_parser<LHS, RHS>{}))
    .isTerm (tThen (P All1) (P Any2)),  -- 172: DEP_ASSERT_BINARY_OPERABLE(>>, LLHS{}, RRHS{}, LHS{}, RHS{})
    .parsersEq (tThen (P All1) (P Any2)) (P (.sequence [All1, Any2])),  -- 172: DEP_ASSERT_PARSER_VALUES_EQ(LLHS{}>> RRHS{},(sequence_parser<LLHS, RRHS>{}), LHS{}>> RHS{},(sequence_parser<LHS, RHS>{}))
    .isTerm (tThen (P All1) (P Any3)),  -- 172: DEP_ASSERT_BINARY_OPERABLE(>>, LLHS{}, RRHS{}, LHS{}, RHS{})
    .parsersEq (tThen (P All1) (P Any3)) (P (.sequence [All1, Any3])),  -- 172: DEP_ASSERT_PARSER_VALUES_EQ(LLHS{}>> RRHS{},(sequence_parser<LLHS, RRHS>{}), LHS{}>> RHS{},(sequence_parser<LHS, RHS>{}))
    .isTerm (tThen (P All1) (P Any4)),  -- 172: DEP_ASSERT_BINARY_OPERABLE(>>, LLHS{}, RRHS{}, LHS{}, RHS{})
    .parsersEq (tThen (P All1) (P Any4)) (P (.sequence [All1, Any4])),  -- 172: DEP_ASSERT_PARSER_VALUES_EQ(LLHS{}>> RRHS{},(sequence_parser<LLHS, RRHS>{}), LHS{}>> RHS{},(sequence_parser<LHS, RHS>{}))
    .isTerm (tThen (P All1) (P Non1)),  -- 172: DEP_ASSERT_BINARY_OPERABLE(>>, LLHS{}, RRHS{}, LHS{}, RHS{})
    .parsersEq (tThen (P All1) (P Non1)) (P (.sequence [All1, Non1])),  -- 172: DEP_ASSERT_PARSER_VALUES_EQ(LLHS{}>> RRHS{},(sequence_parser<LLHS, RRHS>{}), LHS{}>> RHS{},(sequence_parser<LHS, RHS>{}))
    .isTerm (tThen (P All1) (P Non2)),  -- 172: DEP_ASSERT_BINARY_OPERABLE(>>, LLHS{}, RRHS{}, LHS{}, RHS{})
    .parsersEq (tThen (P All1) (P Non2)) (P (.sequence [All1, Non2])),  -- 172: DEP_ASSERT_PARSER_VALUES_EQ(LLHS{}>> RRHS{},(sequence_parser<LLHS, RRHS>{}), LHS{}>> RHS{},(sequence_parser<LHS, RHS>{}))
    .isTerm (tThen (P All1) (P Non3)),  -- 172: DEP_ASSERT_BINARY_OPERABLE(>>, LLHS{}, RRHS{}, LHS{}, RHS{})
    .parsersEq (tThen (P All1) (P Non3)) (P (.sequence [All1, Non3])),  -- 172: DEP_ASSERT_PARSER_VALUES_EQ(LLHS{}>> RRHS{},(sequence_parser<LLHS, RRHS>{}), LHS{}>> RHS{},(sequence_parser<LHS, RHS>{}))
    .isTerm (tThen (P All1) (P Non4)),  -- 172: DEP_ASSERT_BINARY_OPERABLE(>>, LLHS{}, RRHS{}, LHS{}, RHS{})
    .parsersEq (tThen (P All1) (P Non4)) (P (.sequence [All1, Non4])),  -- 172: DEP_ASSERT_PARSER_VALUES_EQ(LLHS{}>> RRHS{},(sequence_parser<LLHS, RRHS>{}), LHS{}>> RHS{},(sequence_parser<LHS, RHS>{}))
    .isTerm (tThen (P All1) (P Non5)),  -- 172: DEP_ASSERT_BINARY_OPERABLE(>>, LLHS{}, RRHS{}, LHS{}, RHS{})
    .parsersEq (tThen (P All1) (P Non5)) (P (.sequence [All1, Non5]))  -- 172: DEP_ASSERT_PARSER_VALUES_EQ(LLHS{}>> RRHS{},(sequence_parser<LLHS, RRHS>{}), LHS{}>> RHS{},(sequence_parser<LHS, RHS>{}))
    ], Assertion.Holds a :=
  Assertion.holds_of_check (by decide +kernel)

/-- sequence operator / {anything} >> {anything} (tests/char-tests/operators/sequence.cpp:172) -/
theorem charOperatorsSequence_5_7 : ∀ a ∈ [
    .isTerm (tThen (P All1) (P All1)),  -- 172: DEP_ASSERT_BINARY_OPERABLE(>>, LLHS{}, RRHS{}, LHS{}, RHS{})
    .parsersEq (tThen (P All1) (P All1)) (P (.allOf [108, 105, 116, 101, 114, 97, 108, 108, 105, 116, 101, 114, 97, 108])),  -- 172: DEP_ASSERT_PARSER_VALUES_EQ(LLHS{}>> RRHS{}, all_of_parser<str>{}, LHS{}>> RHS{}, all_of_parser<str>{})
    .isTerm (tThen (P All1) (P All2)),  -- 172: DEP_ASSERT_BINARY_OPERABLE(>>, LLHS{}, RRHS{}, LHS{}, RHS{})
    .parsersEq (tThen (P All1) (P All2)) (P (.allOf [108, 105, 116, 101, 114, 97, 108, 108, 121])),  -- 172: DEP_ASSERT_PARSER_VALUES_EQ(LLHS{}>> RRHS{}, all_of_parser<str>{}, LHS{}>> RHS{}, all_of_parser<str>{})
    .isTerm (tThen (P All1) (P All3)),  -- 172: DEP_ASSERT_BINARY_OPERABLE(>>, LLHS{}, RRHS{}, LHS{}, RHS{})
    .parsersEq (tThen (P All1) (P All3)) (P (.allOf [108, 105, 116, 101, 114, 97, 108, 116, 101, 115, 116])),  -- 172: DEP_ASSERT_PARSER_VALUES_EQ(LLHS{}>> RRHS{}, all_of_parser<str>{}, LHS{}>> RHS{}, all_of_parser<str>{})
    .isTerm (tThen (P All1) (P All4)),  -- 172: DEP_ASSERT_BINARY_OPERABLE(>>, LLHS{}, RRHS{}, LHS{}, RHS{})
    .parsersEq (tThen (P All1) (P All4)) (P (.allOf [108, 105, 116, 101, 114, 97, 108, 97, 98])),  -- 172: DEP_ASSERT_PARSER_VALUES_EQ(LLHS{}>> RRHS{}, all_of_parser<str>{}, LHS{}>> RHS{}, all_of_parser<str>{})
    .isTerm (tThen (P All1) (P Eps1)),  -- 172: DEP_ASSERT_BINARY_OPERABLE(>>, LLHS{}, RRHS{}, LHS{}, RHS{})
    .parsersEq (tThen (P All1) (P Eps1)) (P (.sequence [All1, Eps1])),  -- 172: DEP_ASSERT_PARSER_VALUES_EQ(LLHS{}>> RRHS{},(sequence_parser<LLHS, RRHS>{}), LHS{}>> RHS{},(sequence_parser<LHS, RHS>{}))
    .isTerm (tThen (P All1) (P Ant1)),  -- 172: DEP_ASSERT_BINARY_OPERABLE(>>, LLHS{}, RRHS{}, LHS{}, RHS{})
    .parsersEq (tThen (P All1) (P Ant1)) (P (.sequence [All1, Ant1])),  -- 172: DEP_ASSERT_PARSER_VALUES_EQ(LLHS{}>> RRHS{},(sequence_parser<LLHS, RRHS>{}), LHS{}>> RHS{},(sequence_parser<LHS, RHS>{}))
    .isTerm (tThen (P All1) (P QQ)),  -- 172: DEP_ASSERT_BINARY_OPERABLE(>>, LLHS{}, RRHS{}, LHS{}, RHS{})
    .parsersEq (tThen (P All1) (P QQ)) (P (.allOf [108, 105, 116, 101, 114, 97, 108, 63, 63])),  -- 172: DEP_ASSERT_PARSER_VALUES_EQ(LLHS{}>> RRHS{}, all_of_parser<str>{}, LHS{}>> RHS{}, all_of_parser<str>{})
    .isTerm (tThen (P All1) (P ABC)),  -- 172: DEP_ASSERT_BINARY_OPERABLE(>>, LLHS{}, RRHS{}, LHS{}, RHS{})
    .parsersEq (tThen (P All1) (P ABC)) (P (.allOf [108, 105, 116, 101, 114, 97, 108, 97, 98, 99])),  -- 172: DEP_ASSERT_PARSER_VALUES_EQ(LLHS{}>> RRHS{}, all_of_parser<str>{}, LHS{}>> RHS{}, all_of_parser<str>{})
    .isTerm (tThen (P All1) (P Comma)),  -- 172: DEP_ASSERT_BINARY_OPERABLE(>>, LLHS{}, RRHS{}, LHS{}, RHS{})
    .parsersEq (tThen (P All1) (P Comma)) (P (.sequence [All1, Comma])),  -- 172: DEP_ASSERT_PARSER_VALUES_EQ(LLHS{}>> RRHS{},(sequence_parser<LLHS, RRHS>{}), LHS{}>> RHS{},(sequence_parser<LHS, RHS>{}))
    .isTerm (tThen (P All1) (P SpaceDot)),  -- 172: DEP_ASSERT_BINARY_OPERABLE(>>, LLHS{}, RRHS{}, LHS{}, RHS{})
    .parsersEq (tThen (P All1) (P SpaceDot)) (P (.sequence [All1, SpaceDot])),  -- 172: DEP_ASSERT_PARSER_VALUES_EQ(LLHS{}>> RRHS{},(sequence_parser<LLHS, RRHS>{}), LHS{}>> RHS{},(sequence_parser<LHS, RHS>{}))
    .isTerm (tThen (P All2) (P Any1)),  -- 172: DEP_ASSERT_BINARY_OPERABLE(>>, LLHS{}, RRHS{}, LHS{}, RHS{})
    .parsersEq (tThen (P All2) (P Any1)) (P (.sequence [All2, Any1])),  -- 172: DEP_ASSERT_PARSER_VALUES_EQ(LLHS{}>> RRHS{},(sequence_parser<LLHS, RRHS>{}), LHS{}>> RHS{},(sequence_parser<LHS, RHS>{}))
    .isTerm (tThen (P All2) (P Any2)),  -- 172: DEP_ASSERT_BINARY_OPERABLE(>>, LLHS{}, RRHS{}, LHS{}, RHS{})
    .parsersEq (tThen (P All2) (P Any2)) (P (.sequence [All2, Any2])),  -- 172: DEP_ASSERT_PARSER_VALUES_EQ(LLHS{}>> RRHS{},(sequence_parser<LLHS, RRHS>{}), LHS{}>> RHS{},(sequence_parser<LHS, RHS>{}))
    .isTerm (tThen (P All2) (P Any3)),  -- 172: DEP_ASSERT_BINARY_OPERABLE(>>, LLHS{}, RRHS{}, LHS{}, RHS{})
    .parsersEq (tThen (P All2) (P Any3)) (P (.sequence [All2, Any3])),  -- 172: DEP_ASSERT_PARSER_VALUES_EQ(LLHS{}>> RRHS{},(sequence_parser<LLHS, RRHS>{}), LHS{}>> RHS{},(sequence_parser<LHS, RHS>{}))
    .isTerm (tThen (P All2) (P Any4)),  -- 172: DEP_ASSERT_BINARY_OPERABLE(>>, LLHS{}, RRHS{}, LHS{}, RHS{})
    .parsersEq (tThen (P All2) (P Any4)) (P (.sequence [All2, Any4])),  -- 172: DEP_ASSERT_PARSER_VALUES_EQ(LLHS{}>> RRHS{},(sequence_parser<LLHS, RRHS>{}), LHS{}>> RHS{},(sequence_parser<LHS, RHS>{}))
    .isTerm (tThen (P All2) (P Non1)),  -- 172: DEP_ASSERT_BINARY_OPERABLE(>>, LLHS{}, RRHS{}, LHS{}, RHS{})
    .parsersEq (tThen (P All2) (P Non1)) (P (.sequence [All2, Non1])),  -- 172: DEP_ASSERT_PARSER_VALUES_EQ(LLHS{}>> RRHS{},(sequence_parser<LLHS, RRHS>{}), LHS{}>> RHS{},(sequence_parser<LHS, RHS>{}))
    .isTerm (tThen (P All2) (P Non2)),  -- 172: DEP_ASSERT_BINARY_OPERABLE(>>, LLHS{}, RRHS{}, LHS{}, RHS{})
    .parsersEq (tThen (P All2) (P Non2)) (P (.sequence [All2, Non2])),  -- 172: DEP_ASSERT_PARSER_VALUES_EQ(LLHS{}>> RRHS{},(sequence_parser<LLHS, RRHS>{}), LHS{}>> RHS{},(sequence_parser<LHS, RHS>{}))
    .isTerm (tThen (P All2) (P Non3)),  -- 172: DEP_ASSERT_BINARY_OPERABLE(>>, LLHS{}, RRHS{}, LHS{}, RHS{})
    .parsersEq (tThen (P All2) (P Non3)) (P (.sequence [All2, Non3])),  -- 172: DEP_ASSERT_PARSER_VALUES_EQ(LLHS{}>> RRHS{},(sequence_parser<LLHS, RRHS>{}), LHS{}>> RHS{},(sequence_parser<LHS, RHS>{}))
    .isTerm (tThen (P All2) (P Non4)),  -- 172: DEP_ASSERT_BINARY_OPERABLE(>>, LLHS{}, RRHS{}, LHS{}, RHS{})
    .parsersEq (tThen (P All2) (P Non4)) (P (.sequence [All2, Non4])),  -- 172: DEP_ASSERT_PARSER_VALUES_EQ(LLHS{}>> RRHS{},(sequence_parser<LLHS, RRHS>{}), LHS{}>> RHS{},(sequence_parser<LHS, RHS>{}))
    .isTerm (tThen (P All2) (P Non5)),  -- 172: DEP_ASSERT_BINARY_OPERABLE(>>, LLHS{}, RRHS{}, LHS{}, RHS{})
    .parsersEq (tThen (P All2) (P Non5)) (P (.sequence [All2, Non5])),  -- 172: DEP_ASSERT_PARSER_VALUES_EQ(LLHS{}>> RRHS{},(sequence_parser<LLHS, RRHS>{}), LHS{}>> RHS{},(sequence_parser<LHS, RHS>{}))
    .isTerm (tThen (P All2) (P All1)),  -- 172: DEP_ASSERT_BINARY_OPERABLE(>>, LLHS{}, RRHS{}, LHS{}, RHS{})
    .parsersEq (tThen (P All2) (P All1)) (P (.allOf [108, 121, 108, 105, 116, 101, 114, 97, 108])),  -- 172: DEP_ASSERT_PARSER_VALUES_EQ(LLHS{}>> RRHS{}, all_of_parser<str>{}, LHS{}>> RHS{}, all_of_parser<str>{})
    .isTerm (tThen (P All2) (P All2)),  -- 172: DEP_ASSERT_BINARY_OPERABLE(>>, LLHS{}, RRHS{}, LHS{}, RHS{})
    .parsersEq (tThen (P All2) (P All2)) (P (.allOf [108, 121, 108, 121])),  -- 172: DEP_ASSERT_PARSER_VALUES_EQ(LLHS{}>> RRHS{}, all_of_parser<str>{}, LHS{}>> RHS{}, all_of_parser<str>{})
    .isTerm (tThen (P All2) (P All3)),  -- 172: DEP_ASSERT_BINARY_OPERABLE(>>, LLHS{}, RRHS{}, LHS{}, RHS{})
    .parsersEq (tThen (P All2) (P All3)) (P (.allOf [108, 121, 116, 101, 115, 116])),  -- 172: DEP_ASSERT_PARSER_VALUES_EQ(LLHS{}>> RRHS{}, all_of_parser<str>{}, LHS{}>> RHS{}, all_of_parser<str>{})
    .isTerm (tThen (P All2) (P All4)),  -- 172: DEP_ASSERT_BINARY_OPERABLE(>>, LLHS{}, RRHS{}, LHS{}, RHS{})
    .parsersEq (tThen (P All2) (P All4)) (P (.allOf [108, 121, 97, 98])),  -- 172: DEP_ASSERT_PARSER_VALUES_EQ(LLHS{}>> RRHS{}, all_of_parser<str>{}, LHS{}>> RHS{}, all_of_parser<str>{})
    .isTerm (tThen (P All2) (P Eps1)),  -- 172: DEP_ASSERT_BINARY_OPERABLE(>>, LLHS{}, RRHS{}, LHS{}, RHS{})
    .parsersEq (tThen (P All2) (P Eps1)) (P (.sequence [All2, Eps1])),  -- 172: DEP_ASSERT_PARSER_VALUES_EQ(LLHS{}>> RRHS{},(sequence_parser<LLHS, RRHS>{}), LHS{}>> RHS{},(sequence_parser<LHS, RHS>{}))
    .isTerm (tThen (P All2) (P Ant1)),  -- 172: DEP_ASSERT_BINARY_OPERABLE(>>, LLHS{}, RRHS{}, LHS{}, RHS{})
    .parsersEq (tThen (P All2) (P Ant1)) (P (.sequence [All2, Ant1])),  -- 172: DEP_ASSERT_PARSER_VALUES_EQ(LLHS{}>> RRHS{},(sequence_parser<LLHS, RRHS>{}), LHS{}>> RHS{},(sequence_parser<LHS, RHS>{}))
    .isTerm (tThen (P All2) (P QQ)),  -- 172: DEP_ASSERT_BINARY_OPERABLE(>>, LLHS{}, RRHS{}, LHS{}, RHS{})
    .parsersEq (tThen (P All2) (P QQ)) (P (.allOf [108, 121, 63, 63])),  -- 172: DEP_ASSERT_PARSER_VALUES_EQ(LLHS{}>> RRHS{}, all_of_parser<str>{}, LHS{}>> RHS{}, all_of_parser<str>{})
    .isTerm (tThen (P All2) (P ABC)),  -- 172: DEP_ASSERT_BINARY_OPERABLE(>>, LLHS{}, RRHS{}, LHS{}, RHS{})
    .parsersEq (tThen (P All2) (P ABC)) (P (.allOf [108, 121, 97, 98, 99])),  -- 172: DEP_ASSERT_PARSER_VALUES_EQ(LLHS{}>> RRHS{}, all_of_parser<str>{}, LHS{}>> RHS{}, all_of_parser<str>{})
    .isTerm (tThen (P All2) (P Comma)),  -- 172: DEP_ASSERT_BINARY_OPERABLE(>>, LLHS{}, RRHS{}, LHS{}, RHS{})
    .parsersEq (tThen (P All2) (P Comma)) (P (.sequence [All2, Comma])),  -- 172: DEP_ASSERT_PARSER_VALUES_EQ(LLHS{}>> RRHS{},(sequence_parser<LLHS, RRHS>{}), LHS{}>> RHS{},(sequence_parser<LHS, RHS>{}))
    .isTerm (tThen (P All2) (P SpaceDot)),  -- 172: DEP_ASSERT_BINARY_OPERABLE(>>, LLHS{}, RRHS{}, LHS{}, RHS{})
    .parsersEq (tThen (P All2) (P SpaceDot)) (P (.sequence [All2, SpaceDot])),  -- 172: DEP_ASSERT_PARSER_VALUES_EQ(LLHS{}>> RRHS{},(sequence_parser<LLHS, RRHS>{}), LHS{}>> RHS{},(sequence_parser<LHS, RHS>{}))
    .isTerm (tThen (P All3) (P Any1)),  -- 172: DEP_ASSERT_BINARY_OPERABLE(>>, LLHS{}, RRHS{}, LHS{}, RHS{})
    .parsersEq (tThen (P All3) (P Any1)) (P (.sequence [All3, Any1]))  -- 172: DEP_ASSERT_PARSER_VALUES_EQ(LLHS{}>> RRHS{},(sequence_parser<LLHS, RRHS>{}), LHS{}>> RHS{},(sequence_parser<LHS, RHS>{}))
    ], Assertion.Holds a :=
  Assertion.holds_of_check (by decide +kernel)

/-- sequence operator / {anything} >> {anything} (tests/char-tests/operators/sequence.cpp:172) -/
theorem charOperatorsSequence_5_8 : ∀ a ∈ [
    .isTerm (tThen (P All3) (P Any2)),  -- 172: DEP_ASSERT_BINARY_OPERABLE(>>, LLHS{}, RRHS{}, LHS{}, RHS{})
    .parsersEq (tThen (P All3) (P Any2)) (P (.sequence [All3, Any2])),  -- 172: DEP_ASSERT_PARSER_VALUES_EQ(LLHS{}>> RRHS{},(sequence_parser<LLHS, RRHS>{}), LHS{}>> RHS{},(sequence_parser<LHS, RHS>{}))
    .isTerm (tThen (P All3) (P Any3)),  -- 172: DEP_ASSERT_BINARY_OPERABLE(>>, LLHS{}, RRHS{}, LHS{}, RHS{})
    .parsersEq (tThen (P All3) (P Any3)) (P (.sequence [All3, Any3])),  -- 172: DEP_ASSERT_PARSER_VALUES_EQ(LLHS{}>> RRHS{},(sequence_parser<LLHS, RRHS>{}), LHS{}>> RHS{},(sequence_parser<LHS, RHS>{}))
    .isTerm (tThen (P All3) (P Any4)),  -- 172: DEP_ASSERT_BINARY_OPERABLE(>>, LLHS{}, RRHS{}, LHS{}, RHS{})
    .parsersEq (tThen (P All3) (P Any4)) (P (.sequence [All3, Any4])),  -- 172: DEP_ASSERT_PARSER_VALUES_EQ(LLHS{}>> RRHS{},(sequence_parser<LLHS, RRHS>{}), LHS{}>> RHS{},(sequence_parser<LHS, RHS>{}))
    .isTerm (tThen (P All3) (P Non1)),  -- 172: DEP_ASSERT_BINARY_OPERABLE(>>, LLHS{}, RRHS{}, LHS{}, RHS{})
    .parsersEq (tThen (P All3) (P Non1)) (P (.sequence [All3, Non1])),  -- 172: DEP_ASSERT_PARSER_VALUES_EQ(LLHS{}>> RRHS{},(sequence_parser<LLHS, RRHS>{}), LHS{}>> RHS{},(sequence_parser<LHS, RHS>{}))
    .isTerm (tThen (P All3) (P Non2)),  -- 172: DEP_ASSERT_BINARY_OPERABLE(>>, LLHS{}, RRHS{}, LHS{}, RHS{})
    .parsersEq (tThen (P All3) (P Non2)) (P (.sequence [All3, Non2])),  -- 172: DEP_ASSERT_PARSER_VALUES_EQ(LLHS{}>> RRHS{},(sequence_parser<LLHS, RRHS>{}), LHS{}>> RHS{},(sequence_parser<LHS, RHS>{}))
    .isTerm (tThen (P All3) (P Non3)),  -- 172: DEP_ASSERT_BINARY_OPERABLE(>>, LLHS{}, RRHS{}, LHS{}, RHS{})
    .parsersEq (tThen (P All3) (P Non3)) (P (.sequence [All3, Non3])),  -- 172: DEP_ASSERT_PARSER_VALUES_EQ(LLHS{}>> RRHS{},(sequence_parser<LLHS, RRHS>{}), LHS{}>> RHS{},(sequence_parser<LHS, RHS>{}))
    .isTerm (tThen (P All3) (P Non4)),  -- 172: DEP_ASSERT_BINARY_OPERABLE(>>, LLHS{}, RRHS{}, LHS{}, RHS{})
    .parsersEq (tThen (P All3) (P Non4)) (P (.sequence [All3, Non4])),  -- 172: DEP_ASSERT_PARSER_VALUES_EQ(LLHS{}>> RRHS{},(sequence_parser<LLHS, RRHS>{}), LHS{}>> RHS{},(sequence_parser<LHS, RHS>{}))
    .isTerm (tThen (P All3) (P Non5)),  -- 172: DEP_ASSERT_BINARY_OPERABLE(>>, LLHS{}, RRHS{}, LHS{}, RHS{})
    .parsersEq (tThen (P All3) (P Non5)) (P (.sequence [All3, Non5])),  -- 172: DEP_ASSERT_PARSER_VALUES_EQ(LLHS{}>> RRHS{},(sequence_parser<LLHS, RRHS>{}), LHS{}>> RHS{},(sequence_parser<LHS, RHS>{}))
    .isTerm (tThen (P All3) (P All1)),  -- 172: DEP_ASSERT_BINARY_OPERABLE(>>, LLHS{}, RRHS{}, LHS{}, RHS{})
    .parsersEq (tThen (P All3) (P All1)) (P (.allOf [116, 101, 115, 116, 108, 105, 116, 101, 114, 97, 108])),  -- 172: DEP_ASSERT_PARSER_VALUES_EQ(LLHS{}>> RRHS{}, all_of_parser<str>{}, LHS{}>> RHS{}, all_of_parser<str>{})
    .isTerm (tThen (P All3) (P All2)),  -- 172: DEP_ASSERT_BINARY_OPERABLE(>>, LLHS{}, RRHS{}, LHS{}, RHS{})
    .parsersEq (tThen (P All3) (P All2)) (P (.allOf [116, 101, 115, 116, 108, 121])),  -- 172: DEP_ASSERT_PARSER_VALUES_EQ(LLHS{}>> RRHS{}, all_of_parser<str>{}, LHS{}>> RHS{}, all_of_parser<str>{})
    .isTerm (tThen (P All3) (P All3)),  -- 172: DEP_ASSERT_BINARY_OPERABLE(>>, LLHS{}, RRHS{}, LHS{}, RHS{})
    .parsersEq (tThen (P All3) (P All3)) (P (.allOf [116, 101, 115, 116, 116, 101, 115, 116])),  -- 172: DEP_ASSERT_PARSER_VALUES_EQ(LLHS{}>> RRHS{}, all_of_parser<str>{}, LHS{}>> RHS{}, all_of_parser<str>{})
    .isTerm (tThen (P All3) (P All4)),  -- 172: DEP_ASSERT_BINARY_OPERABLE(>>, LLHS{}, RRHS{}, LHS{}, RHS{})
    .parsersEq (tThen (P All3) (P All4)) (P (.allOf [116, 101, 115, 116, 97, 98])),  -- 172: DEP_ASSERT_PARSER_VALUES_EQ(LLHS{}>> RRHS{}, all_of_parser<str>{}, LHS{}>> RHS{}, all_of_parser<str>{})
    .isTerm (tThen (P All3) (P Eps1)),  -- 172: DEP_ASSERT_BINARY_OPERABLE(>>, LLHS{}, RRHS{}, LHS{}, RHS{})
    .parsersEq (tThen (P All3) (P Eps1)) (P (.sequence [All3, Eps1])),  -- 172: DEP_ASSERT_PARSER_VALUES_EQ(LLHS{}>> RRHS{},(sequence_parser<LLHS, RRHS>{}), LHS{}>> RHS{},(sequence_parser<LHS, RHS>{}))
    .isTerm (tThen (P All3) (P Ant1)),  -- 172: DEP_ASSERT_BINARY_OPERABLE(>>, LLHS{}, RRHS{}, LHS{}, RHS{})
    .parsersEq (tThen (P All3) (P Ant1)) (P (.sequence [All3, Ant1])),  -- 172: DEP_ASSERT_PARSER_VALUES_EQ(LLHS{}>> RRHS{},(sequence_parser<LLHS, RRHS>{}), LHS{}>> RHS{},(sequence_parser<LHS, RHS>{}))
    .isTerm (tThen (P All3) (P QQ)),  -- 172: DEP_ASSERT_BINARY_OPERABLE(>>, LLHS{}, RRHS{}, LHS{}, RHS{})
    .parsersEq (tThen (P All3) (P QQ)) (P (.allOf [116, 101, 115, 116, 63, 63])),  -- 172: DEP_ASSERT_PARSER_VALUES_EQ(LLHS{}>> RRHS{}, all_of_parser<str>{}, LHS{}>> RHS{}, all_of_parser<str>{})
    .isTerm (tThen (P All3) (P ABC)),  -- 172: DEP_ASSERT_BINARY_OPERABLE(>>, LLHS{}, RRHS{}, LHS{}, RHS{})
    .parsersEq (tThen (P All3) (P ABC)) (P (.allOf [116, 101, 115, 116, 97, 98, 99])),  -- 172: DEP_ASSERT_PARSER_VALUES_EQ(LLHS{}>> RRHS{}, all_of_parser<str>{}, LHS{}>> RHS{}, all_of_parser<str>{})
    .isTerm (tThen (P All3) (P Comma)),  -- 172: DEP_ASSERT_BINARY_OPERABLE(>>, LLHS{}, RRHS{}, LHS{}, RHS{})
    .parsersEq (tThen (P All3) (P Comma)) (P (.sequence [All3, Comma])),  -- 172: DEP_ASSERT_PARSER_VALUES_EQ(LLHS{}>> RRHS{},(sequence_parser<LLHS, RRHS>{}), LHS{}>> RHS{},(sequence_parser<LHS, RHS>{}))
    .isTerm (tThen (P All3) (P SpaceDot)),  -- 172: DEP_ASSERT_BINARY_OPERABLE(>>, LLHS{}, RRHS{}, LHS{}, RHS{})
    .parsersEq (tThen (P All3) (P SpaceDot)) (P (.sequence [All3, SpaceDot])),  -- 172: DEP_ASSERT_PARSER_VALUES_EQ(LLHS{}>> RRHS{},(sequence_parser<LLHS, RRHS>{}), LHS{}>> RHS{},(sequence_parser<LHS, RHS>{}))
    .isTerm (tThen (P All4) (P Any1)),  -- 172: DEP_ASSERT_BINARY_OPERABLE(>>, LLHS{}, RRHS{}, LHS{}, RHS{})
    .parsersEq (tThen (P All4) (P Any1)) (P (.sequence [All4, Any1])),  -- 172: DEP_ASSERT_PARSER_VALUES_EQ(LLHS{}>> RRHS{},(sequence_parser<LLHS, RRHS>{}), LHS{}>> RHS{},(sequence_parser<LHS, RHS>{}))
    .isTerm (tThen (P All4) (P Any2)),  -- 172: DEP_ASSERT_BINARY_OPERABLE(>>, LLHS{}, RRHS{}, LHS{}, RHS{})
    .parsersEq (tThen (P All4) (P Any2)) (P (.sequence [All4, Any2])),  -- 172: DEP_ASSERT_PARSER_VALUES_EQ(LLHS{}>> RRHS{},(sequence_parser<LLHS, RRHS>{}), LHS{}>> RHS{},(sequence_parser<LHS, RHS>{}))
    .isTerm (tThen (P All4) (P Any3)),  -- 172: DEP_ASSERT_BINARY_OPERABLE(>>, LLHS{}, RRHS{}, LHS{}, RHS{})
    .parsersEq (tThen (P All4) (P Any3)) (P (.sequence [All4, Any3])),  -- 172: DEP_ASSERT_PARSER_VALUES_EQ(LLHS{}>> RRHS{},(sequence_parser<LLHS, RRHS>{}), LHS{}>> RHS{},(sequence_parser<LHS, RHS>{}))
    .isTerm (tThen (P All4) (P Any4)),  -- 172: DEP_ASSERT_BINARY_OPERABLE(>>, LLHS{}, RRHS{}, LHS{}, RHS{})
    .parsersEq (tThen (P All4) (P Any4)) (P (.sequence [All4, Any4])),  -- 172: DEP_ASSERT_PARSER_VALUES_EQ(LLHS{}>> RRHS{},(sequence_parser<LLHS, RRHS>{}), LHS{}>> RHS{},(sequence_parser<LHS, RHS>{}))
    .isTerm (tThen (P All4) (P Non1)),  -- 172: DEP_ASSERT_BINARY_OPERABLE(>>, LLHS{}, RRHS{}, LHS{}, RHS{})
    .parsersEq (tThen (P All4) (P Non1)) (P (.sequence [All4, Non1])),  -- 172: DEP_ASSERT_PARSER_VALUES_EQ(LLHS{}>> RRHS{},(sequence_parser<LLHS, RRHS>{}), LHS{}>> RHS{},(sequence_parser<LHS, RHS>{}))
    .isTerm (tThen (P All4) (P Non2)),  -- 172: DEP_ASSERT_BINARY_OPERABLE(>>, LLHS{}, RRHS{}, LHS{}, RHS{})
    .parsersEq (tThen (P All4) (P Non2)) (P (.sequence [All4, Non2])),  -- 172: DEP_ASSERT_PARSER_VALUES_EQ(LLHS{}>> RRHS{},(sequence_parser<LLHS, RRHS>{}), LHS{}>> RHS{},(sequence_parser<LHS, RHS>{}))
    .isTerm (tThen (P All4) (P Non3)),  -- 172: DEP_ASSERT_BINARY_OPERABLE(>>, LLHS{}, RRHS{}, LHS{}, RHS{})
    .parsersEq (tThen (P All4) (P Non3)) (P (.sequence [All4, Non3])),  -- 172: DEP_ASSERT_PARSER_VALUES_EQ(LLHS{}>> RRHS{},(sequence_parser<LLHS, RRHS>{}), LHS{}>> RHS{},(sequence_parser<LHS, RHS>{}))
    .isTerm (tThen (P All4) (P Non4)),  -- 172: DEP_ASSERT_BINARY_OPERABLE(>>, LLHS{}, RRHS{}, LHS{}, RHS{})
    .parsersEq (tThen (P All4) (P Non4)) (P (.sequence [All4, Non4])),  -- 172: DEP_ASSERT_PARSER_VALUES_EQ(LLHS{}>> RRHS{},(sequence_parser<LLHS, RRHS>{}), LHS{}>> RHS{},(sequence_parser<LHS, RHS>{}))
    .isTerm (tThen (P All4) (P Non5)),  -- 172: DEP_ASSERT_BINARY_OPERABLE(>>, LLHS{}, RRHS{}, LHS{}, RHS{})
    .parsersEq (tThen (P All4) (P Non5)) (P (.sequence [All4, Non5])),  -- 172: DEP_ASSERT_PARSER_VALUES_EQ(LLHS{}>> RRHS{},(sequence_parser<LLHS, RRHS>{}), LHS{}>> RHS{},(sequence_parser<LHS, RHS>{}))
    .isTerm (tThen (P All4) (P All1)),  -- 172: DEP_ASSERT_BINARY_OPERABLE(>>, LLHS{}, RRHS{}, LHS{}, RHS{})
    .parsersEq (tThen (P All4) (P All1)) (P (.allOf [97, 98, 108, 105, 116, 101, 114, 97, 108])),  -- 172: DEP_ASSERT_PARSER_VALUES_EQ(LLHS{}>> RRHS{}, all_of_parser<str>{}, LHS{}>> RHS{}, all_of_parser<str>{})
    .isTerm (tThen (P All4) (P All2)),  -- 172: DEP_ASSERT_BINARY_OPERABLE(>>, LLHS{}, RRHS{}, LHS{}, RHS{})
    .parsersEq (tThen (P All4) (P All2)) (P (.allOf [97, 98, 108, 121])),  -- 172: DEP_ASSERT_PARSER_VALUES_EQ(LLHS{}>> RRHS{}, all_of_parser<str>{}, LHS{}>> RHS{}, all_of_parser<str>{})
    .isTerm (tThen (P All4) (P All3)),  -- 172: DEP_ASSERT_BINARY_OPERABLE(>>, LLHS{}, RRHS{}, LHS{}, RHS{})
    .parsersEq (tThen (P All4) (P All3)) (P (.allOf [97, 98, 116, 101, 115, 116]))  -- 172: DEP_ASSERT_PARSER_VALUES_EQ(LLHS{}>> RRHS{}, all_of_parser<str>{}, LHS{}>> RHS{}, all_of_parser<str>{})
    ], Assertion.Holds a :=
  Assertion.holds_of_check (by decide +kernel)

/-- sequence operator / {anything} >> {anything} (tests/char-tests/operators/sequence.cpp:172) -/
theorem charOperatorsSequence_5_9 : ∀ a ∈ [
    .isTerm (tThen (P All4) (P All4)),  -- 172: DEP_ASSERT_BINARY_OPERABLE(>>, LLHS{}, RRHS{}, LHS{}, RHS{})
    .parsersEq (tThen (P All4) (P All4)) (P (.allOf [97, 98, 97, 98])),  -- 172: DEP_ASSERT_PARSER_VALUES_EQ(LLHS{}>> RRHS{}, all_of_parser<str>{}, LHS{}>> RHS{}, all_of_parser<str>{})
    .isTerm (tThen (P All4) (P Eps1)),  -- 172: DEP_ASSERT_BINARY_OPERABLE(>>, LLHS{}, RRHS{}, LHS{}, RHS{})
    .parsersEq (tThen (P All4) (P Eps1)) (P (.sequence [All4, Eps1])),  -- 172: DEP_ASSERT_PARSER_VALUES_EQ(LLHS{}>> RRHS{},(sequence_parser<LLHS, RRHS>{}), LHS{}>> RHS{},(sequence_parser<LHS, RHS>{}))
    .isTerm (tThen (P All4) (P Ant1)),  -- 172: DEP_ASSERT_BINARY_OPERABLE(>>, LLHS{}, RRHS{}, LHS{}, RHS{})
    .parsersEq (tThen (P All4) (P Ant1)) (P (.sequence [All4, Ant1])),  -- 172: DEP_ASSERT_PARSER_VALUES_EQ(LLHS{}>> RRHS{},(sequence_parser<LLHS, RRHS>{}), LHS{}>> RHS{},(sequence_parser<LHS, RHS>{}))
    .isTerm (tThen (P All4) (P QQ)),  -- 172: DEP_ASSERT_BINARY_OPERABLE(>>, LLHS{}, RRHS{}, LHS{}, RHS{})
    .parsersEq (tThen (P All4) (P QQ)) (P (.allOf [97, 98, 63, 63])),  -- 172: DEP_ASSERT_PARSER_VALUES_EQ(LLHS{}>> RRHS{}, all_of_parser<str>{}, LHS{}>> RHS{}, all_of_parser<str>{})
    .isTerm (tThen (P All4) (P ABC)),  -- 172: DEP_ASSERT_BINARY_OPERABLE(>>, LLHS{}, RRHS{}, LHS{}, RHS{})
    .parsersEq (tThen (P All4) (P ABC)) (P (.allOf [97, 98, 97, 98, 99])),  -- 172: DEP_ASSERT_PARSER_VALUES_EQ(LLHS{}>> RRHS{}, all_of_parser<str>{}, LHS{}>> RHS{}, all_of_parser<str>{})
    .isTerm (tThen (P All4) (P Comma)),  -- 172: DEP_ASSERT_BINARY_OPERABLE(>>, LLHS{}, RRHS{}, LHS{}, RHS{})
    .parsersEq (tThen (P All4) (P Comma)) (P (.sequence [All4, Comma])),  -- 172: DEP_ASSERT_PARSER_VALUES_EQ(LLHS{}>> RRHS{},(sequence_parser<LLHS, RRHS>{}), LHS{}>> RHS{},(sequence_parser<LHS, RHS>{}))
    .isTerm (tThen (P All4) (P SpaceDot)),  -- 172: DEP_ASSERT_BINARY_OPERABLE(>>, LLHS{}, RRHS{}, LHS{}, RHS{})
    .parsersEq (tThen (P All4) (P SpaceDot)) (P (.sequence [All4, SpaceDot])),  -- 172: DEP_ASSERT_PARSER_VALUES_EQ(LLHS{}>> RRHS{},(sequence_parser<LLHS, RRHS>{}), LHS{}>> RHS{},(sequence_parser<LHS, RHS>{}))
    .isTerm (tThen (P Eps1) (P Any1)),  -- 172: DEP_ASSERT_BINARY_OPERABLE(>>, LLHS{}, RRHS{}, LHS{}, RHS{})
    .parsersEq (tThen (P Eps1) (P Any1)) (P (.sequence [Eps1, Any1])),  -- 172: DEP_ASSERT_PARSER_VALUES_EQ(LLHS{}>> RRHS{},(sequence_parser<LLHS, RRHS>{}), LHS{}>> RHS{},(sequence_parser<LHS, RHS>{}))
    .isTerm (tThen (P Eps1) (P Any2)),  -- 172: DEP_ASSERT_BINARY_OPERABLE(>>, LLHS{}, RRHS{}, LHS{}, RHS{})
    .parsersEq (tThen (P Eps1) (P Any2)) (P (.sequence [Eps1, Any2])),  -- 172: DEP_ASSERT_PARSER_VALUES_EQ(LLHS{}>> RRHS{},(sequence_parser<LLHS, RRHS>{}), LHS{}>> RHS{},(sequence_parser<LHS, RHS>{}))
    .isTerm (tThen (P Eps1) (P Any3)),  -- 172: DEP_ASSERT_BINARY_OPERABLE(>>, LLHS{}, RRHS{}, LHS{}, RHS{})
    .parsersEq (tThen (P Eps1) (P Any3)) (P (.sequence [Eps1, Any3])),  -- 172: DEP_ASSERT_PARSER_VALUES_EQ(LLHS{}>> RRHS{},(sequence_parser<LLHS, RRHS>{}), LHS{}>> RHS{},(sequence_parser<LHS, RHS>{}))
    .isTerm (tThen (P Eps1) (P Any4)),  -- 172: DEP_ASSERT_BINARY_OPERABLE(>>, LLHS{}, RRHS{}, LHS{}, RHS{})
    .parsersEq (tThen (P Eps1) (P Any4)) (P (.sequence [Eps1, Any4])),  -- 172: DEP_ASSERT_PARSER_VALUES_EQ(LLHS{}>> RRHS{},(sequence_parser<LLHS, RRHS>{}), LHS{}>> RHS{},(sequence_parser<LHS, RHS>{}))
    .isTerm (tThen (P Eps1) (P Non1)),  -- 172: DEP_ASSERT_BINARY_OPERABLE(>>, LLHS{}, RRHS{}, LHS{}, RHS{})
    .parsersEq (tThen (P Eps1) (P Non1)) (P (.sequence [Eps1, Non1])),  -- 172: DEP_ASSERT_PARSER_VALUES_EQ(LLHS{}>> RRHS{},(sequence_parser<LLHS, RRHS>{}), LHS{}>> RHS{},(sequence_parser<LHS, RHS>{}))
    .isTerm (tThen (P Eps1) (P Non2)),  -- 172: DEP_ASSERT_BINARY_OPERABLE(>>, LLHS{}, RRHS{}, LHS{}, RHS{})
    .parsersEq (tThen (P Eps1) (P Non2)) (P (.sequence [Eps1, Non2])),  -- 172: DEP_ASSERT_PARSER_VALUES_EQ(LLHS{}>> RRHS{},(sequence_parser<LLHS, RRHS>{}), LHS{}>> RHS{},(sequence_parser<LHS, RHS>{}))
    .isTerm (tThen (P Eps1) (P Non3)),  -- 172: DEP_ASSERT_BINARY_OPERABLE(>>, LLHS{}, RRHS{}, LHS{}, RHS{})
    .parsersEq (tThen (P Eps1) (P Non3)) (P (.sequence [Eps1, Non3])),  -- 172: DEP_ASSERT_PARSER_VALUES_EQ(LLHS{}>> RRHS{},(sequence_parser<LLHS, RRHS>{}), LHS{}>> RHS{},(sequence_parser<LHS, RHS>{}))
    .isTerm (tThen (P Eps1) (P Non4)),  -- 172: DEP_ASSERT_BINARY_OPERABLE(>>, LLHS{}, RRHS{}, LHS{}, RHS{})
    .parsersEq (tThen (P Eps1) (P Non4)) (P (.sequence [Eps1, Non4])),  -- 172: DEP_ASSERT_PARSER_VALUES_EQ(LLHS{}>> RRHS{},(sequence_parser<LLHS, RRHS>{}), LHS{}>> RHS{},(sequence_parser<LHS, RHS>{}))
    .isTerm (tThen (P Eps1) (P Non5)),  -- 172: DEP_ASSERT_BINARY_OPERABLE(>>, LLHS{}, RRHS{}, LHS{}, RHS{})
    .parsersEq (tThen (P Eps1) (P Non5)) (P (.sequence [Eps1, Non5])),  -- 172: DEP_ASSERT_PARSER_VALUES_EQ(LLHS{}>> RRHS{},(sequence_parser<LLHS, RRHS>{}), LHS{}>> RHS{},(sequence_parser<LHS, RHS>{}))
    .isTerm (tThen (P Eps1) (P All1)),  -- 172: DEP_ASSERT_BINARY_OPERABLE(>>, LLHS{}, RRHS{}, LHS{}, RHS{})
    .parsersEq (tThen (P Eps1) (P All1)) (P (.sequence [Eps1, All1])),  -- 172: DEP_ASSERT_PARSER_VALUES_EQ(LLHS{}>> RRHS{},(sequence_parser<LLHS, RRHS>{}), LHS{}>> RHS{},(sequence_parser<LHS, RHS>{}))
    .isTerm (tThen (P Eps1) (P All2)),  -- 172: DEP_ASSERT_BINARY_OPERABLE(>>, LLHS{}, RRHS{}, LHS{}, RHS{})
    .parsersEq (tThen (P Eps1) (P All2)) (P (.sequence [Eps1, All2])),  -- 172: DEP_ASSERT_PARSER_VALUES_EQ(LLHS{}>> RRHS{},(sequence_parser<LLHS, RRHS>{}), LHS{}>> RHS{},(sequence_parser<LHS, RHS>{}))
    .isTerm (tThen (P Eps1) (P All3)),  -- 172: DEP_ASSERT_BINARY_OPERABLE(>>, LLHS{}, RRHS{}, LHS{}, RHS{})
    .parsersEq (tThen (P Eps1) (P All3)) (P (.sequence [Eps1, All3])),  -- 172: DEP_ASSERT_PARSER_VALUES_EQ(LLHS{}>> RRHS{},(sequence_parser<LLHS, RRHS>{}), LHS{}>> RHS{},(sequence_parser<LHS, RHS>{}))
    .isTerm (tThen (P Eps1) (P All4)),  -- 172: DEP_ASSERT_BINARY_OPERABLE(>>, LLHS{}, RRHS{}, LHS{}, RHS{})
    .parsersEq (tThen (P Eps1) (P All4)) (P (.sequence [Eps1, All4])),  -- 172: DEP_ASSERT_PARSER_VALUES_EQ(LLHS{}>> RRHS{},(sequence_parser<LLHS, RRHS>{}), LHS{}>> RHS{},(sequence_parser<LHS, RHS>{}))
    .isTerm (tThen (P Eps1) (P Eps1)),  -- 172: DEP_ASSERT_BINARY_OPERABLE(>>, LLHS{}, RRHS{}, LHS{}, RHS{})
    .parsersEq (tThen (P Eps1) (P Eps1)) (P (.sequence [Eps1, Eps1])),  -- 172: DEP_ASSERT_PARSER_VALUES_EQ(LLHS{}>> RRHS{},(sequence_parser<LLHS, RRHS>{}), LHS{}>> RHS{},(sequence_parser<LHS, RHS>{}))
    .isTerm (tThen (P Eps1) (P Ant1)),  -- 172: DEP_ASSERT_BINARY_OPERABLE(>>, LLHS{}, RRHS{}, LHS{}, RHS{})
    .parsersEq (tThen (P Eps1) (P Ant1)) (P (.sequence [Eps1, Ant1])),  -- 172: DEP_ASSERT_PARSER_VALUES_EQ(LLHS{}>> RRHS{},(sequence_parser<LLHS, RRHS>{}), LHS{}>> RHS{},(sequence_parser<LHS, RHS>{}))
    .isTerm (tThen (P Eps1) (P QQ)),  -- 172: DEP_ASSERT_BINARY_OPERABLE(>>, LLHS{}, RRHS{}, LHS{}, RHS{})
    .parsersEq (tThen (P Eps1) (P QQ)) (P (.sequence [Eps1, QQ])),  -- 172: DEP_ASSERT_PARSER_VALUES_EQ(LLHS{}>> RRHS{},(sequence_parser<LLHS, RRHS>{}), LHS{}>> RHS{},(sequence_parser<LHS, RHS>{}))
    .isTerm (tThen (P Eps1) (P ABC)),  -- 172: DEP_ASSERT_BINARY_OPERABLE(>>, LLHS{}, RRHS{}, LHS{}, RHS{})
    .parsersEq (tThen (P Eps1) (P ABC)) (P (.sequence [Eps1, ABC])),  -- 172: DEP_ASSERT_PARSER_VALUES_EQ(LLHS{}>> RRHS{},(sequence_parser<LLHS, RRHS>{}), LHS{}>> RHS{},(sequence_parser<LHS, RHS>{}))
    .isTerm (tThen (P Eps1) (P Comma)),  -- 172: DEP_ASSERT_BINARY_OPERABLE(>>, LLHS{}, RRHS{}, LHS{}, RHS{})
    .parsersEq (tThen (P Eps1) (P Comma)) (P (.sequence [Eps1, Comma])),  -- 172: DEP_ASSERT_PARSER_VALUES_EQ(LLHS{}>> RRHS{},(sequence_parser<LLHS, RRHS>{}), LHS{}>> RHS{},(sequence_parser<LHS, RHS>{}))
    .isTerm (tThen (P Eps1) (P SpaceDot)),  -- 172: DEP_ASSERT_BINARY_OPERABLE(>>, LLHS{}, RRHS{}, LHS{}, RHS{})
    .parsersEq (tThen (P Eps1) (P SpaceDot)) (P (.sequence [Eps1, SpaceDot])),  -- 172: DEP_ASSERT_PARSER_VALUES_EQ(LLHS{}>> RRHS{},(sequence_parser<LLHS, RRHS>{}), LHS{}>> RHS{},(sequence_parser<LHS, RHS>{}))
    .isTerm (tThen (P Ant1) (P Any1)),  -- 172: DEP_ASSERT_BINARY_OPERABLE(>>, LLHS{}, RRHS{}, LHS{}, RHS{})
    .parsersEq (tThen (P Ant1) (P Any1)) (P (.sequence [Ant1, Any1])),  -- 172: DEP_ASSERT_PARSER_VALUES_EQ(LLHS{}>> RRHS{},(sequence_parser<LLHS, RRHS>{}), LHS{}>> RHS{},(sequence_parser<LHS, RHS>{}))
    .isTerm (tThen (P Ant1) (P Any2)),  -- 172: DEP_ASSERT_BINARY_OPERABLE(>>, LLHS{}, RRHS{}, LHS{}, RHS{})
    .parsersEq (tThen (P Ant1) (P Any2)) (P (.sequence [Ant1, Any2])),  -- 172: DEP_ASSERT_PARSER_VALUES_EQ(LLHS{}>> RRHS{},(sequence_parser<LLHS, RRHS>{}), LHS{}>> RHS{},(sequence_parser<LHS, RHS>{}))
    .isTerm (tThen (P Ant1) (P Any3)),  -- 172: DEP_ASSERT_BINARY_OPERABLE(>>, LLHS{}, RRHS{}, LHS{}, RHS{})
    .parsersEq (tThen (P Ant1) (P Any3)) (P (.sequence [Ant1, Any3])),  -- 172: DEP_ASSERT_PARSER_VALUES_EQ(LLHS{}>> RRHS{},(sequence_parser<LLHS, RRHS>{}), LHS{}>> RHS{},(sequence_parser<LHS, RHS>{}))
    .isTerm (tThen (P Ant1) (P Any4)),  -- 172: DEP_ASSERT_BINARY_OPERABLE(>>, LLHS{}, RRHS{}, LHS{}, RHS{})
    .parsersEq (tThen (P Ant1) (P Any4)) (P (.sequence [Ant1, Any4]))  -- 172: DEP_ASSERT_PARSER_VALUES_EQ(LLHS{}>> RRHS{},(sequence_parser<LLHS, RRHS>{}), LHS{}>> RHS{},(sequence_parser<LHS, RHS>{}))
    ], Assertion.Holds a :=
  Assertion.holds_of_check (by decide +kernel)

/-- sequence operator / {anything} >> {anything} (tests/char-tests/operators/sequence.cpp:172) -/
theorem charOperatorsSequence_5_10 : ∀ a ∈ [
    .isTerm (tThen (P Ant1) (P Non1)),  -- 172: DEP_ASSERT_BINARY_OPERABLE(>>, LLHS{}, RRHS{}, LHS{}, RHS{})
    .parsersEq (tThen (P Ant1) (P Non1)) (P (.sequence [Ant1, Non1])),  -- 172: DEP_ASSERT_PARSER_VALUES_EQ(LLHS{}>> RRHS{},(sequence_parser<LLHS, RRHS>{}), LHS{}>> RHS{},(sequence_parser<LHS, RHS>{}))
    .isTerm (tThen (P Ant1) (P Non2)),  -- 172: DEP_ASSERT_BINARY_OPERABLE(>>, LLHS{}, RRHS{}, LHS{}, RHS{})
    .parsersEq (tThen (P Ant1) (P Non2)) (P (.sequence [Ant1, Non2])),  -- 172: DEP_ASSERT_PARSER_VALUES_EQ(LLHS{}>> RRHS{},(sequence_parser<LLHS, RRHS>{}), LHS{}>> RHS{},(sequence_parser<LHS, RHS>{}))
    .isTerm (tThen (P Ant1) (P Non3)),  -- 172: DEP_ASSERT_BINARY_OPERABLE(>>, LLHS{}, RRHS{}, LHS{}, RHS{})
    .parsersEq (tThen (P Ant1) (P Non3)) (P (.sequence [Ant1, Non3])),  -- 172: DEP_ASSERT_PARSER_VALUES_EQ(LLHS{}>> RRHS{},(sequence_parser<LLHS, RRHS>{}), LHS{}>> RHS{},(sequence_parser<LHS, RHS>{}))
    .isTerm (tThen (P Ant1) (P Non4)),  -- 172: DEP_ASSERT_BINARY_OPERABLE(>>, LLHS{}, RRHS{}, LHS{}, RHS{})
    .parsersEq (tThen (P Ant1) (P Non4)) (P (.sequence [Ant1, Non4])),  -- 172: DEP_ASSERT_PARSER_VALUES_EQ(LLHS{}>> RRHS{},(sequence_parser<LLHS, RRHS>{}), LHS{}>> RHS{},(sequence_parser<LHS, RHS>{}))
    .isTerm (tThen (P Ant1) (P Non5)),  -- 172: DEP_ASSERT_BINARY_OPERABLE(>>, LLHS{}, RRHS{}, LHS{}, RHS{})
    .parsersEq (tThen (P Ant1) (P Non5)) (P (.sequence [Ant1, Non5])),  -- 172: DEP_ASSERT_PARSER_VALUES_EQ(LLHS{}>> RRHS{},(sequence_parser<LLHS, RRHS>{}), LHS{}>> RHS{},(sequence_parser<LHS, RHS>{}))
    .isTerm (tThen (P Ant1) (P All1)),  -- 172: DEP_ASSERT_BINARY_OPERABLE(>>, LLHS{}, RRHS{}, LHS{}, RHS{})
    .parsersEq (tThen (P Ant1) (P All1)) (P (.sequence [Ant1, All1])),  -- 172: DEP_ASSERT_PARSER_VALUES_EQ(LLHS{}>> RRHS{},(sequence_parser<LLHS, RRHS>{}), LHS{}>> RHS{},(sequence_parser<LHS, RHS>{}))
    .isTerm (tThen (P Ant1) (P All2)),  -- 172: DEP_ASSERT_BINARY_OPERABLE(>>, LLHS{}, RRHS{}, LHS{}, RHS{})
    .parsersEq (tThen (P Ant1) (P All2)) (P (.sequence [Ant1, All2])),  -- 172: DEP_ASSERT_PARSER_VALUES_EQ(LLHS{}>> RRHS{},(sequence_parser<LLHS, RRHS>{}), LHS{}>> RHS{},(sequence_parser<LHS, RHS>{}))
    .isTerm (tThen (P Ant1) (P All3)),  -- 172: DEP_ASSERT_BINARY_OPERABLE(>>, LLHS{}, RRHS{}, LHS{}, RHS{})
    .parsersEq (tThen (P Ant1) (P All3)) (P (.sequence [Ant1, All3])),  -- 172: DEP_ASSERT_PARSER_VALUES_EQ(LLHS{}>> RRHS{},(sequence_parser<LLHS, RRHS>{}), LHS{}>> RHS{},(sequence_parser<LHS, RHS>{}))
    .isTerm (tThen (P Ant1) (P All4)),  -- 172: DEP_ASSERT_BINARY_OPERABLE(>>, LLHS{}, RRHS{}, LHS{}, RHS{})
    .parsersEq (tThen (P Ant1) (P All4)) (P (.sequence [Ant1, All4])),  -- 172: DEP_ASSERT_PARSER_VALUES_EQ(LLHS{}>> RRHS{},(sequence_parser<LLHS, RRHS>{}), LHS{}>> RHS{},(sequence_parser<LHS, RHS>{}))
    .isTerm (tThen (P Ant1) (P Eps1)),  -- 172: DEP_ASSERT_BINARY_OPERABLE(>>, LLHS{}, RRHS{}, LHS{}, RHS{})
    .parsersEq (tThen (P Ant1) (P Eps1)) (P (.sequence [Ant1, Eps1])),  -- 172: DEP_ASSERT_PARSER_VALUES_EQ(LLHS{}>> RRHS{},(sequence_parser<LLHS, RRHS>{}), LHS{}>> RHS{},(sequence_parser<LHS, RHS>{}))
    .isTerm (tThen (P Ant1) (P Ant1)),  -- 172: DEP_ASSERT_BINARY_OPERABLE(>>, LLHS{}, RRHS{}, LHS{}, RHS{})
    .parsersEq (tThen (P Ant1) (P Ant1)) (P (.sequence [Ant1, Ant1])),  -- 172: DEP_ASSERT_PARSER_VALUES_EQ(LLHS{}>> RRHS{},(sequence_parser<LLHS, RRHS>{}), LHS{}>> RHS{},(sequence_parser<LHS, RHS>{}))
    .isTerm (tThen (P Ant1) (P QQ)),  -- 172: DEP_ASSERT_BINARY_OPERABLE(>>, LLHS{}, RRHS{}, LHS{}, RHS{})
    .parsersEq (tThen (P Ant1) (P QQ)) (P (.sequence [Ant1, QQ])),  -- 172: DEP_ASSERT_PARSER_VALUES_EQ(LLHS{}>> RRHS{},(sequence_parser<LLHS, RRHS>{}), LHS{}>> RHS{},(sequence_parser<LHS, RHS>{}))
    .isTerm (tThen (P Ant1) (P ABC)),  -- 172: DEP_ASSERT_BINARY_OPERABLE(>>, LLHS{}, RRHS{}, LHS{}, RHS{})
    .parsersEq (tThen (P Ant1) (P ABC)) (P (.sequence [Ant1, ABC])),  -- 172: DEP_ASSERT_PARSER_VALUES_EQ(LLHS{}>> RRHS{},(sequence_parser<LLHS, RRHS>{}), LHS{}>> RHS{},(sequence_parser<LHS, RHS>{}))
    .isTerm (tThen (P Ant1) (P Comma)),  -- 172: DEP_ASSERT_BINARY_OPERABLE(>>, LLHS{}, RRHS{}, LHS{}, RHS{})
    .parsersEq (tThen (P Ant1) (P Comma)) (P (.sequence [Ant1, Comma])),  -- 172: DEP_ASSERT_PARSER_VALUES_EQ(LLHS{}>> RRHS{},(sequence_parser<LLHS, RRHS>{}), LHS{}>> RHS{},(sequence_parser<LHS, RHS>{}))
    .isTerm (tThen (P Ant1) (P SpaceDot)),  -- 172: DEP_ASSERT_BINARY_OPERABLE(>>, LLHS{}, RRHS{}, LHS{}, RHS{})
    .parsersEq (tThen (P Ant1) (P SpaceDot)) (P (.sequence [Ant1, SpaceDot])),  -- 172: DEP_ASSERT_PARSER_VALUES_EQ(LLHS{}>> RRHS{},(sequence_parser<LLHS, RRHS>{}), LHS{}>> RHS{},(sequence_parser<LHS, RHS>{}))
    .isTerm (tThen (P QQ) (P Any1)),  -- 172: DEP_ASSERT_BINARY_OPERABLE(>>, LLHS{}, RRHS{}, LHS{}, RHS{})
    .parsersEq (tThen (P QQ) (P Any1)) (P (.sequence [QQ, Any1])),  -- 172: DEP_ASSERT_PARSER_VALUES_EQ(LLHS{}>> RRHS{},(sequence_parser<LLHS, RRHS>{}), LHS{}>> RHS{},(sequence_parser<LHS, RHS>{}))
    .isTerm (tThen (P QQ) (P Any2)),  -- 172: DEP_ASSERT_BINARY_OPERABLE(>>, LLHS{}, RRHS{}, LHS{}, RHS{})
    .parsersEq (tThen (P QQ) (P Any2)) (P (.sequence [QQ, Any2])),  -- 172: DEP_ASSERT_PARSER_VALUES_EQ(LLHS{}>> RRHS{},(sequence_parser<LLHS, RRHS>{}), LHS{}>> RHS{},(sequence_parser<LHS, RHS>{}))
    .isTerm (tThen (P QQ) (P Any3)),  -- 172: DEP_ASSERT_BINARY_OPERABLE(>>, LLHS{}, RRHS{}, LHS{}, RHS{})
    .parsersEq (tThen (P QQ) (P Any3)) (P (.sequence [QQ, Any3])),  -- 172: DEP_ASSERT_PARSER_VALUES_EQ(LLHS{}>> RRHS{},(sequence_parser<LLHS, RRHS>{}), LHS{}>> RHS{},(sequence_parser<LHS, RHS>{}))
    .isTerm (tThen (P QQ) (P Any4)),  -- 172: DEP_ASSERT_BINARY_OPERABLE(>>, LLHS{}, RRHS{}, LHS{}, RHS{})
    .parsersEq (tThen (P QQ) (P Any4)) (P (.sequence [QQ, Any4])),  -- 172: DEP_ASSERT_PARSER_VALUES_EQ(LLHS{}>> RRHS{},(sequence_parser<LLHS, RRHS>{}), LHS{}>> RHS{},(sequence_parser<LHS, RHS>{}))
    .isTerm (tThen (P QQ) (P Non1)),  -- 172: DEP_ASSERT_BINARY_OPERABLE(>>, LLHS{}, RRHS{}, LHS{}, RHS{})
    .parsersEq (tThen (P QQ) (P Non1)) (P (.sequence [QQ, Non1])),  -- 172: DEP_ASSERT_PARSER_VALUES_EQ(LLHS{}>> RRHS{},(sequence_parser<LLHS, RRHS>{}), LHS{}>> RHS{},(sequence_parser<LHS, RHS>{}))
    .isTerm (tThen (P QQ) (P Non2)),  -- 172: DEP_ASSERT_BINARY_OPERABLE(>>, LLHS{}, RRHS{}, LHS{}, RHS{})
    .parsersEq (tThen (P QQ) (P Non2)) (P (.sequence [QQ, Non2])),  -- 172: DEP_ASSERT_PARSER_VALUES_EQ(LLHS{}>> RRHS{},(sequence_parser<LLHS, RRHS>{}), LHS{}>> RHS{},(sequence_parser<LHS, RHS>{}))
    .isTerm (tThen (P QQ) (P Non3)),  -- 172: DEP_ASSERT_BINARY_OPERABLE(>>, LLHS{}, RRHS{}, LHS{}, RHS{})
    .parsersEq (tThen (P QQ) (P Non3)) (P (.sequence [QQ, Non3])),  -- 172: DEP_ASSERT_PARSER_VALUES_EQ(LLHS{}>> RRHS{},(sequence_parser<LLHS, RRHS>{}), LHS{}>> RHS{},(sequence_parser<LHS, RHS>{}))
    .isTerm (tThen (P QQ) (P Non4)),  -- 172: DEP_ASSERT_BINARY_OPERABLE(>>, LLHS{}, RRHS{}, LHS{}, RHS{})
    .parsersEq (tThen (P QQ) (P Non4)) (P (.sequence [QQ, Non4])),  -- 172: DEP_ASSERT_PARSER_VALUES_EQ(LLHS{}>> RRHS{},(sequence_parser<LLHS, RRHS>{}), LHS{}>> RHS{},(sequence_parser<LHS, RHS>{}))
    .isTerm (tThen (P QQ) (P Non5)),  -- 172: DEP_ASSERT_BINARY_OPERABLE(>>, LLHS{}, RRHS{}, LHS{}, RHS{})
    .parsersEq (tThen (P QQ) (P Non5)) (P (.sequence [QQ, Non5])),  -- 172: DEP_ASSERT_PARSER_VALUES_EQ(LLHS{}>> RRHS{},(sequence_parser<LLHS, RRHS>{}), LHS{}>> RHS{},(sequence_parser<LHS, RHS>{}))
    .isTerm (tThen (P QQ) (P All1)),  -- 172: DEP_ASSERT_BINARY_OPERABLE(>>, LLHS{}, RRHS{}, LHS{}, RHS{})
    .parsersEq (tThen (P QQ) (P All1)) (P (.allOf [63, 63, 108, 105, 116, 101, 114, 97, 108])),  -- 172: DEP_ASSERT_PARSER_VALUES_EQ(LLHS{}>> RRHS{}, all_of_parser<str>{}, LHS{}>> RHS{}, all_of_parser<str>{})
    .isTerm (tThen (P QQ) (P All2)),  -- 172: DEP_ASSERT_BINARY_OPERABLE(>>, LLHS{}, RRHS{}, LHS{}, RHS{})
    .parsersEq (tThen (P QQ) (P All2)) (P (.allOf [63, 63, 108, 121])),  -- 172: DEP_ASSERT_PARSER_VALUES_EQ(LLHS{}>> RRHS{}, all_of_parser<str>{}, LHS{}>> RHS{}, all_of_parser<str>{})
    .isTerm (tThen (P QQ) (P All3)),  -- 172: DEP_ASSERT_BINARY_OPERABLE(>>, LLHS{}, RRHS{}, LHS{}, RHS{})
    .parsersEq (tThen (P QQ) (P All3)) (P (.allOf [63, 63, 116, 101, 115, 116])),  -- 172: DEP_ASSERT_PARSER_VALUES_EQ(LLHS{}>> RRHS{}, all_of_parser<str>{}, LHS{}>> RHS{}, all_of_parser<str>{})
    .isTerm (tThen (P QQ) (P All4)),  -- 172: DEP_ASSERT_BINARY_OPERABLE(>>, LLHS{}, RRHS{}, LHS{}, RHS{})
    .parsersEq (tThen (P QQ) (P All4)) (P (.allOf [63, 63, 97, 98])),  -- 172: DEP_ASSERT_PARSER_VALUES_EQ(LLHS{}>> RRHS{}, all_of_parser<str>{}, LHS{}>> RHS{}, all_of_parser<str>{})
    .isTerm (tThen (P QQ) (P Eps1)),  -- 172: DEP_ASSERT_BINARY_OPERABLE(>>, LLHS{}, RRHS{}, LHS{}, RHS{})
    .parsersEq (tThen (P QQ) (P Eps1)) (P (.sequence [QQ, Eps1])),  -- 172: DEP_ASSERT_PARSER_VALUES_EQ(LLHS{}>> RRHS{},(sequence_parser<LLHS, RRHS>{}), LHS{}>> RHS{},(sequence_parser<LHS, RHS>{}))
    .isTerm (tThen (P QQ) (P Ant1)),  -- 172: DEP_ASSERT_BINARY_OPERABLE(>>, LLHS{}, RRHS{}, LHS{}, RHS{})
    .parsersEq (tThen (P QQ) (P Ant1)) (P (.sequence [QQ, Ant1]))  -- 172: DEP_ASSERT_PARSER_VALUES_EQ(LLHS{}>> RRHS{},(sequence_parser<LLHS, RRHS>{}), LHS{}>> RHS{},(sequence_parser<LHS, RHS>{}))
    ], Assertion.Holds a :=
  Assertion.holds_of_check (by decide +kernel)

/-- sequence operator / {anything} >> {anything} (tests/char-tests/operators/sequence.cpp:172) -/
theorem charOperatorsSequence_5_11 : ∀ a ∈ [
    .isTerm (tThen (P QQ) (P QQ)),  -- 172: DEP_ASSERT_BINARY_OPERABLE(>>, LLHS{}, RRHS{}, LHS{}, RHS{})
    .parsersEq (tThen (P QQ) (P QQ)) (P (.allOf [63, 63, 63, 63])),  -- 172: DEP_ASSERT_PARSER_VALUES_EQ(LLHS{}>> RRHS{}, all_of_parser<str>{}, LHS{}>> RHS{}, all_of_parser<str>{})
    .isTerm (tThen (P QQ) (P ABC)),  -- 172: DEP_ASSERT_BINARY_OPERABLE(>>, LLHS{}, RRHS{}, LHS{}, RHS{})
    .parsersEq (tThen (P QQ) (P ABC)) (P (.allOf [63, 63, 97, 98, 99])),  -- 172: DEP_ASSERT_PARSER_VALUES_EQ(LLHS{}>> RRHS{}, all_of_parser<str>{}, LHS{}>> RHS{}, all_of_parser<str>{})
    .isTerm (tThen (P QQ) (P Comma)),  -- 172: DEP_ASSERT_BINARY_OPERABLE(>>, LLHS{}, RRHS{}, LHS{}, RHS{})
    .parsersEq (tThen (P QQ) (P Comma)) (P (.sequence [QQ, Comma])),  -- 172: DEP_ASSERT_PARSER_VALUES_EQ(LLHS{}>> RRHS{},(sequence_parser<LLHS, RRHS>{}), LHS{}>> RHS{},(sequence_parser<LHS, RHS>{}))
    .isTerm (tThen (P QQ) (P SpaceDot)),  -- 172: DEP_ASSERT_BINARY_OPERABLE(>>, LLHS{}, RRHS{}, LHS{}, RHS{})
    .parsersEq (tThen (P QQ) (P SpaceDot)) (P (.sequence [QQ, SpaceDot])),  -- 172: DEP_ASSERT_PARSER_VALUES_EQ(LLHS{}>> RRHS{},(sequence_parser<LLHS, RRHS>{}), LHS{}>> RHS{},(sequence_parser<LHS, RHS>{}))
    .isTerm (tThen (P ABC) (P Any1)),  -- 172: DEP_ASSERT_BINARY_OPERABLE(>>, LLHS{}, RRHS{}, LHS{}, RHS{})
    .parsersEq (tThen (P ABC) (P Any1)) (P (.sequence [ABC, Any1])),  -- 172: DEP_ASSERT_PARSER_VALUES_EQ(LLHS{}>> RRHS{},(sequence_parser<LLHS, RRHS>{}), LHS{}>> RHS{},(sequence_parser<LHS, RHS>{}))
    .isTerm (tThen (P ABC) (P Any2)),  -- 172: DEP_ASSERT_BINARY_OPERABLE(>>, LLHS{}, RRHS{}, LHS{}, RHS{})
    .parsersEq (tThen (P ABC) (P Any2)) (P (.sequence [ABC, Any2])),  -- 172: DEP_ASSERT_PARSER_VALUES_EQ(LLHS{}>> RRHS{},(sequence_parser<LLHS, RRHS>{}), LHS{}>> RHS{},(sequence_parser<LHS, RHS>{}))
    .isTerm (tThen (P ABC) (P Any3)),  -- 172: DEP_ASSERT_BINARY_OPERABLE(>>, LLHS{}, RRHS{}, LHS{}, RHS{})
    .parsersEq (tThen (P ABC) (P Any3)) (P (.sequence [ABC, Any3])),  -- 172: DEP_ASSERT_PARSER_VALUES_EQ(LLHS{}>> RRHS{},(sequence_parser<LLHS, RRHS>{}), LHS{}>> RHS{},(sequence_parser<LHS, RHS>{}))
    .isTerm (tThen (P ABC) (P Any4)),  -- 172: DEP_ASSERT_BINARY_OPERABLE(>>, LLHS{}, RRHS{}, LHS{}, RHS{})
    .parsersEq (tThen (P ABC) (P Any4)) (P (.sequence [ABC, Any4])),  -- 172: DEP_ASSERT_PARSER_VALUES_EQ(LLHS{}>> RRHS{},(sequence_parser<LLHS, RRHS>{}), LHS{}>> RHS{},(sequence_parser<LHS, RHS>{}))
    .isTerm (tThen (P ABC) (P Non1)),  -- 172: DEP_ASSERT_BINARY_OPERABLE(>>, LLHS{}, RRHS{}, LHS{}, RHS{})
    .parsersEq (tThen (P ABC) (P Non1)) (P (.sequence [ABC, Non1])),  -- 172: DEP_ASSERT_PARSER_VALUES_EQ(LLHS{}>> RRHS{},(sequence_parser<LLHS, RRHS>{}), LHS{}>> RHS{},(sequence_parser<LHS, RHS>{}))
    .isTerm (tThen (P ABC) (P Non2)),  -- 172: DEP_ASSERT_BINARY_OPERABLE(>>, LLHS{}, RRHS{}, LHS{}, RHS{})
    .parsersEq (tThen (P ABC) (P Non2)) (P (.sequence [ABC, Non2])),  -- 172: DEP_ASSERT_PARSER_VALUES_EQ(LLHS{}>> RRHS{},(sequence_parser<LLHS, RRHS>{}), LHS{}>> RHS{},(sequence_parser<LHS, RHS>{}))
    .isTerm (tThen (P ABC) (P Non3)),  -- 172: DEP_ASSERT_BINARY_OPERABLE(>>, LLHS{}, RRHS{}, LHS{}, RHS{})
    .parsersEq (tThen (P ABC) (P Non3)) (P (.sequence [ABC, Non3])),  -- 172: DEP_ASSERT_PARSER_VALUES_EQ(LLHS{}>> RRHS{},(sequence_parser<LLHS, RRHS>{}), LHS{}>> RHS{},(sequence_parser<LHS, RHS>{}))
    .isTerm (tThen (P ABC) (P Non4)),  -- 172: DEP_ASSERT_BINARY_OPERABLE(>>, LLHS{}, RRHS{}, LHS{}, RHS{})
    .parsersEq (tThen (P ABC) (P Non4)) (P (.sequence [ABC, Non4])),  -- 172: DEP_ASSERT_PARSER_VALUES_EQ(LLHS{}>> RRHS{},(sequence_parser<LLHS, RRHS>{}), LHS{}>> RHS{},(sequence_parser<LHS, RHS>{}))
    .isTerm (tThen (P ABC) (P Non5)),  -- 172: DEP_ASSERT_BINARY_OPERABLE(>>, LLHS{}, RRHS{}, LHS{}, RHS{})
    .parsersEq (tThen (P ABC) (P Non5)) (P (.sequence [ABC, Non5])),  -- 172: DEP_ASSERT_PARSER_VALUES_EQ(LLHS{}>> RRHS{},(sequence_parser<LLHS, RRHS>{}), LHS{}>> RHS{},(sequence_parser<LHS, RHS>{}))
    .isTerm (tThen (P ABC) (P All1)),  -- 172: DEP_ASSERT_BINARY_OPERABLE(>>, LLHS{}, RRHS{}, LHS{}, RHS{})
    .parsersEq (tThen (P ABC) (P All1)) (P (.allOf [97, 98, 99, 108, 105, 116, 101, 114, 97, 108])),  -- 172: DEP_ASSERT_PARSER_VALUES_EQ(LLHS{}>> RRHS{}, all_of_parser<str>{}, LHS{}>> RHS{}, all_of_parser<str>{})
    .isTerm (tThen (P ABC) (P All2)),  -- 172: DEP_ASSERT_BINARY_OPERABLE(>>, LLHS{}, RRHS{}, LHS{}, RHS{})
    .parsersEq (tThen (P ABC) (P All2)) (P (.allOf [97, 98, 99, 108, 121])),  -- 172: DEP_ASSERT_PARSER_VALUES_EQ(LLHS{}>> RRHS{}, all_of_parser<str>{}, LHS{}>> RHS{}, all_of_parser<str>{})
    .isTerm (tThen (P ABC) (P All3)),  -- 172: DEP_ASSERT_BINARY_OPERABLE(>>, LLHS{}, RRHS{}, LHS{}, RHS{})
    .parsersEq (tThen (P ABC) (P All3)) (P (.allOf [97, 98, 99, 116, 101, 115, 116])),  -- 172: DEP_ASSERT_PARSER_VALUES_EQ(LLHS{}>> RRHS{}, all_of_parser<str>{}, LHS{}>> RHS{}, all_of_parser<str>{})
    .isTerm (tThen (P ABC) (P All4)),  -- 172: DEP_ASSERT_BINARY_OPERABLE(>>, LLHS{}, RRHS{}, LHS{}, RHS{})
    .parsersEq (tThen (P ABC) (P All4)) (P (.allOf [97, 98, 99, 97, 98])),  -- 172: DEP_ASSERT_PARSER_VALUES_EQ(LLHS{}>> RRHS{}, all_of_parser<str>{}, LHS{}>> RHS{}, all_of_parser<str>{})
    .isTerm (tThen (P ABC) (P Eps1)),  -- 172: DEP_ASSERT_BINARY_OPERABLE(>>, LLHS{}, RRHS{}, LHS{}, RHS{})
    .parsersEq (tThen (P ABC) (P Eps1)) (P (.sequence [ABC, Eps1])),  -- 172: DEP_ASSERT_PARSER_VALUES_EQ(LLHS{}>> RRHS{},(sequence_parser<LLHS, RRHS>{}), LHS{}>> RHS{},(sequence_parser<LHS, RHS>{}))
    .isTerm (tThen (P ABC) (P Ant1)),  -- 172: DEP_ASSERT_BINARY_OPERABLE(>>, LLHS{}, RRHS{}, LHS{}, RHS{})
    .parsersEq (tThen (P ABC) (P Ant1)) (P (.sequence [ABC, Ant1])),  -- 172: DEP_ASSERT_PARSER_VALUES_EQ(LLHS{}>> RRHS{},(sequence_parser<LLHS, RRHS>{}), LHS{}>> RHS{},(sequence_parser<LHS, RHS>{}))
    .isTerm (tThen (P ABC) (P QQ)),  -- 172: DEP_ASSERT_BINARY_OPERABLE(>>, LLHS{}, RRHS{}, LHS{}, RHS{})
    .parsersEq (tThen (P ABC) (P QQ)) (P (.allOf [97, 98, 99, 63, 63])),  -- 172: DEP_ASSERT_PARSER_VALUES_EQ(LLHS{}>> RRHS{}, all_of_parser<str>{}, LHS{}>> RHS{}, all_of_parser<str>{})
    .isTerm (tThen (P ABC) (P ABC)),  -- 172: DEP_ASSERT_BINARY_OPERABLE(>>, LLHS{}, RRHS{}, LHS{}, RHS{})
    .parsersEq (tThen (P ABC) (P ABC)) (P (.allOf [97, 98, 99, 97, 98, 99])),  -- 172: DEP_ASSERT_PARSER_VALUES_EQ(LLHS{}>> RRHS{}, all_of_parser<str>{}, LHS{}>> RHS{}, all_of_parser<str>{})
    .isTerm (tThen (P ABC) (P Comma)),  -- 172: DEP_ASSERT_BINARY_OPERABLE(>>, LLHS{}, RRHS{}, LHS{}, RHS{})
    .parsersEq (tThen (P ABC) (P Comma)) (P (.sequence [ABC, Comma])),  -- 172: DEP_ASSERT_PARSER_VALUES_EQ(LLHS{}>> RRHS{},(sequence_parser<LLHS, RRHS>{}), LHS{}>> RHS{},(sequence_parser<LHS, RHS>{}))
    .isTerm (tThen (P ABC) (P SpaceDot)),  -- 172: DEP_ASSERT_BINARY_OPERABLE(>>, LLHS{}, RRHS{}, LHS{}, RHS{})
    .parsersEq (tThen (P ABC) (P SpaceDot)) (P (.sequence [ABC, SpaceDot])),  -- 172: DEP_ASSERT_PARSER_VALUES_EQ(LLHS{}>> RRHS{},(sequence_parser<LLHS, RRHS>{}), LHS{}>> RHS{},(sequence_parser<LHS, RHS>{}))
    .isTerm (tThen (P Comma) (P Any1)),  -- 172: DEP_ASSERT_BINARY_OPERABLE(>>, LLHS{}, RRHS{}, LHS{}, RHS{})
    .parsersEq (tThen (P Comma) (P Any1)) (P (.sequence [Comma, Any1])),  -- 172: DEP_ASSERT_PARSER_VALUES_EQ(LLHS{}>> RRHS{},(sequence_parser<LLHS, RRHS>{}), LHS{}>> RHS{},(sequence_parser<LHS, RHS>{}))
    .isTerm (tThen (P Comma) (P Any2)),  -- 172: DEP_ASSERT_BINARY_OPERABLE(>>, LLHS{}, RRHS{}, LHS{}, RHS{})
    .parsersEq (tThen (P Comma) (P Any2)) (P (.sequence [Comma, Any2])),  -- 172: DEP_ASSERT_PARSER_VALUES_EQ(LLHS{}>> RRHS{},(sequence_parser<LLHS, RRHS>{}), LHS{}>> RHS{},(sequence_parser<LHS, RHS>{}))
    .isTerm (tThen (P Comma) (P Any3)),  -- 172: DEP_ASSERT_BINARY_OPERABLE(>>, LLHS{}, RRHS{}, LHS{}, RHS{})
    .parsersEq (tThen (P Comma) (P Any3)) (P (.sequence [Comma, Any3])),  -- 172: DEP_ASSERT_PARSER_VALUES_EQ(LLHS{}>> RRHS{},(sequence_parser<LLHS, RRHS>{}), LHS{}>> RHS{},(sequence_parser<LHS, RHS>{}))
    .isTerm (tThen (P Comma) (P Any4)),  -- 172: DEP_ASSERT_BINARY_OPERABLE(>>, LLHS{}, RRHS{}, LHS{}, RHS{})
    .parsersEq (tThen (P Comma) (P Any4)) (P (.sequence [Comma, Any4])),  -- 172: DEP_ASSERT_PARSER_VALUES_EQ(LLHS{}>> RRHS{},(sequence_parser<LLHS, RRHS>{}), LHS{}>> RHS{},(sequence_parser<LHS, RHS>{}))
    .isTerm (tThen (P Comma) (P Non1)),  -- 172: DEP_ASSERT_BINARY_OPERABLE(>>, LLHS{}, RRHS{}, LHS{}, RHS{})
    .parsersEq (tThen (P Comma) (P Non1)) (P (.sequence [Comma, Non1])),  -- 172: DEP_ASSERT_PARSER_VALUES_EQ(LLHS{}>> RRHS{},(sequence_parser<LLHS, RRHS>{}), LHS{}>> RHS{},(sequence_parser<LHS, RHS>{}))
    .isTerm (tThen (P Comma) (P Non2)),  -- 172: DEP_ASSERT_BINARY_OPERABLE(>>, LLHS{}, RRHS{}, LHS{}, RHS{})
    .parsersEq (tThen (P Comma) (P Non2)) (P (.sequence [Comma, Non2])),  -- 172: DEP_ASSERT_PARSER_VALUES_EQ(LLHS{}>> RRHS{},(sequence_parser<LLHS, RRHS>{}), LHS{}>> RHS{},(sequence_parser<LHS, RHS>{}))
    .isTerm (tThen (P Comma) (P Non3)),  -- 172: DEP_ASSERT_BINARY_OPERABLE(>>, LLHS{}, RRHS{}, LHS{}, RHS{})
    .parsersEq (tThen (P Comma) (P Non3)) (P (.sequence [Comma, Non3]))  -- 172: DEP_ASSERT_PARSER_VALUES_EQ(LLHS{}>> RRHS{},(sequence_parser<LLHS, RRHS>{}), LHS{}>> RHS{},(sequence_parser<LHS, RHS>{}))
    ], Assertion.Holds a :=
  Assertion.holds_of_check (by decide +kernel)

/-- sequence operator / {anything} >> {anything} (tests/char-tests/operators/sequence.cpp:172) -/
theorem charOperatorsSequence_5_12 : ∀ a ∈ [
    .isTerm (tThen (P Comma) (P Non4)),  -- 172: DEP_ASSERT_BINARY_OPERABLE(>>, LLHS{}, RRHS{}, LHS{}, RHS{})
    .parsersEq (tThen (P Comma) (P Non4)) (P (.sequence [Comma, Non4])),  -- 172: DEP_ASSERT_PARSER_VALUES_EQ(LLHS{}>> RRHS{},(sequence_parser<LLHS, RRHS>{}), LHS{}>> RHS{},(sequence_parser<LHS, RHS>{}))
    .isTerm (tThen (P Comma) (P Non5)),  -- 172: DEP_ASSERT_BINARY_OPERABLE(>>, LLHS{}, RRHS{}, LHS{}, RHS{})
    .parsersEq (tThen (P Comma) (P Non5)) (P (.sequence [Comma, Non5])),  -- 172: DEP_ASSERT_PARSER_VALUES_EQ(LLHS{}>> RRHS{},(sequence_parser<LLHS, RRHS>{}), LHS{}>> RHS{},(sequence_parser<LHS, RHS>{}))
    .isTerm (tThen (P Comma) (P All1)),  -- 172: DEP_ASSERT_BINARY_OPERABLE(>>, LLHS{}, RRHS{}, LHS{}, RHS{})
    .parsersEq (tThen (P Comma) (P All1)) (P (.sequence [Comma, All1])),  -- 172: DEP_ASSERT_PARSER_VALUES_EQ(LLHS{}>> RRHS{},(sequence_parser<LLHS, RRHS>{}), LHS{}>> RHS{},(sequence_parser<LHS, RHS>{}))
    .isTerm (tThen (P Comma) (P All2)),  -- 172: DEP_ASSERT_BINARY_OPERABLE(>>, LLHS{}, RRHS{}, LHS{}, RHS{})
    .parsersEq (tThen (P Comma) (P All2)) (P (.sequence [Comma, All2])),  -- 172: DEP_ASSERT_PARSER_VALUES_EQ(LLHS{}>> RRHS{},(sequence_parser<LLHS, RRHS>{}), LHS{}>> RHS{},(sequence_parser<LHS, RHS>{}))
    .isTerm (tThen (P Comma) (P All3)),  -- 172: DEP_ASSERT_BINARY_OPERABLE(>>, LLHS{}, RRHS{}, LHS{}, RHS{})
    .parsersEq (tThen (P Comma) (P All3)) (P (.sequence [Comma, All3])),  -- 172: DEP_ASSERT_PARSER_VALUES_EQ(LLHS{}>> RRHS{},(sequence_parser<LLHS, RRHS>{}), LHS{}>> RHS{},(sequence_parser<LHS, RHS>{}))
    .isTerm (tThen (P Comma) (P All4)),  -- 172: DEP_ASSERT_BINARY_OPERABLE(>>, LLHS{}, RRHS{}, LHS{}, RHS{})
    .parsersEq (tThen (P Comma) (P All4)) (P (.sequence [Comma, All4])),  -- 172: DEP_ASSERT_PARSER_VALUES_EQ(LLHS{}>> RRHS{},(sequence_parser<LLHS, RRHS>{}), LHS{}>> RHS{},(sequence_parser<LHS, RHS>{}))
    .isTerm (tThen (P Comma) (P Eps1)),  -- 172: DEP_ASSERT_BINARY_OPERABLE(>>, LLHS{}, RRHS{}, LHS{}, RHS{})
    .parsersEq (tThen (P Comma) (P Eps1)) (P (.sequence [Comma, Eps1])),  -- 172: DEP_ASSERT_PARSER_VALUES_EQ(LLHS{}>> RRHS{},(sequence_parser<LLHS, RRHS>{}), LHS{}>> RHS{},(sequence_parser<LHS, RHS>{}))
    .isTerm (tThen (P Comma) (P Ant1)),  -- 172: DEP_ASSERT_BINARY_OPERABLE(>>, LLHS{}, RRHS{}, LHS{}, RHS{})
    .parsersEq (tThen (P Comma) (P Ant1)) (P (.sequence [Comma, Ant1])),  -- 172: DEP_ASSERT_PARSER_VALUES_EQ(LLHS{}>> RRHS{},(sequence_parser<LLHS, RRHS>{}), LHS{}>> RHS{},(sequence_parser<LHS, RHS>{}))
    .isTerm (tThen (P Comma) (P QQ)),  -- 172: DEP_ASSERT_BINARY_OPERABLE(>>, LLHS{}, RRHS{}, LHS{}, RHS{})
    .parsersEq (tThen (P Comma) (P QQ)) (P (.sequence [Comma, QQ])),  -- 172: DEP_ASSERT_PARSER_VALUES_EQ(LLHS{}>> RRHS{},(sequence_parser<LLHS, RRHS>{}), LHS{}>> RHS{},(sequence_parser<LHS, RHS>{}))
    .isTerm (tThen (P Comma) (P ABC)),  -- 172: DEP_ASSERT_BINARY_OPERABLE(>>, LLHS{}, RRHS{}, LHS{}, RHS{})
    .parsersEq (tThen (P Comma) (P ABC)) (P (.sequence [Comma, ABC])),  -- 172: DEP_ASSERT_PARSER_VALUES_EQ(LLHS{}>> RRHS{},(sequence_parser<LLHS, RRHS>{}), LHS{}>> RHS{},(sequence_parser<LHS, RHS>{}))
    .isTerm (tThen (P Comma) (P Comma)),  -- 172: DEP_ASSERT_BINARY_OPERABLE(>>, LLHS{}, RRHS{}, LHS{}, RHS{})
    .parsersEq (tThen (P Comma) (P Comma)) (P (.sequence [Comma, Comma])),  -- 172: DEP_ASSERT_PARSER_VALUES_EQ(LLHS{}>> RRHS{},(sequence_parser<LLHS, RRHS>{}), LHS{}>> RHS{},(sequence_parser<LHS, RHS>{}))
    .isTerm (tThen (P Comma) (P SpaceDot)),  -- 172: DEP_ASSERT_BINARY_OPERABLE(>>, LLHS{}, RRHS{}, LHS{}, RHS{})
    .parsersEq (tThen (P Comma) (P SpaceDot)) (P (.sequence [Comma, SpaceDot])),  -- 172: DEP_ASSERT_PARSER_VALUES_EQ(LLHS{}>> RRHS{},(sequence_parser<LLHS, RRHS>{}), LHS{}>> RHS{},(sequence_parser<LHS, RHS>{}))
    .isTerm (tThen (P SpaceDot) (P Any1)),  -- 172: DEP_ASSERT_BINARY_OPERABLE(>>, LLHS{}, RRHS{}, LHS{}, RHS{})
    .parsersEq (tThen (P SpaceDot) (P Any1)) (P (.sequence [SpaceDot, Any1])),  -- 172: DEP_ASSERT_PARSER_VALUES_EQ(LLHS{}>> RRHS{},(sequence_parser<LLHS, RRHS>{}), LHS{}>> RHS{},(sequence_parser<LHS, RHS>{}))
    .isTerm (tThen (P SpaceDot) (P Any2)),  -- 172: DEP_ASSERT_BINARY_OPERABLE(>>, LLHS{}, RRHS{}, LHS{}, RHS{})
    .parsersEq (tThen (P SpaceDot) (P Any2)) (P (.sequence [SpaceDot, Any2])),  -- 172: DEP_ASSERT_PARSER_VALUES_EQ(LLHS{}>> RRHS{},(sequence_parser<LLHS, RRHS>{}), LHS{}>> RHS{},(sequence_parser<LHS, RHS>{}))
    .isTerm (tThen (P SpaceDot) (P Any3)),  -- 172: DEP_ASSERT_BINARY_OPERABLE(>>, LLHS{}, RRHS{}, LHS{}, RHS{})
    .parsersEq (tThen (P SpaceDot) (P Any3)) (P (.sequence [SpaceDot, Any3])),  -- 172: DEP_ASSERT_PARSER_VALUES_EQ(LLHS{}>> RRHS{},(sequence_parser<LLHS, RRHS>{}), LHS{}>> RHS{},(sequence_parser<LHS, RHS>{}))
    .isTerm (tThen (P SpaceDot) (P Any4)),  -- 172: DEP_ASSERT_BINARY_OPERABLE(>>, LLHS{}, RRHS{}, LHS{}, RHS{})
    .parsersEq (tThen (P SpaceDot) (P Any4)) (P (.sequence [SpaceDot, Any4])),  -- 172: DEP_ASSERT_PARSER_VALUES_EQ(LLHS{}>> RRHS{},(sequence_parser<LLHS, RRHS>{}), LHS{}>> RHS{},(sequence_parser<LHS, RHS>{}))
    .isTerm (tThen (P SpaceDot) (P Non1)),  -- 172: DEP_ASSERT_BINARY_OPERABLE(>>, LLHS{}, RRHS{}, LHS{}, RHS{})
    .parsersEq (tThen (P SpaceDot) (P Non1)) (P (.sequence [SpaceDot, Non1])),  -- 172: DEP_ASSERT_PARSER_VALUES_EQ(LLHS{}>> RRHS{},(sequence_parser<LLHS, RRHS>{}), LHS{}>> RHS{},(sequence_parser<LHS, RHS>{}))
    .isTerm (tThen (P SpaceDot) (P Non2)),  -- 172: DEP_ASSERT_BINARY_OPERABLE(>>, LLHS{}, RRHS{}, LHS{}, RHS{})
    .parsersEq (tThen (P SpaceDot) (P Non2)) (P (.sequence [SpaceDot, Non2])),  -- 172: DEP_ASSERT_PARSER_VALUES_EQ(LLHS{}>> RRHS{},(sequence_parser<LLHS, RRHS>{}), LHS{}>> RHS{},(sequence_parser<LHS, RHS>{}))
    .isTerm (tThen (P SpaceDot) (P Non3)),  -- 172: DEP_ASSERT_BINARY_OPERABLE(>>, LLHS{}, RRHS{}, LHS{}, RHS{})
    .parsersEq (tThen (P SpaceDot) (P Non3)) (P (.sequence [SpaceDot, Non3])),  -- 172: DEP_ASSERT_PARSER_VALUES_EQ(LLHS{}>> RRHS{},(sequence_parser<LLHS, RRHS>{}), LHS{}>> RHS{},(sequence_parser<LHS, RHS>{}))
    .isTerm (tThen (P SpaceDot) (P Non4)),  -- 172: DEP_ASSERT_BINARY_OPERABLE(>>, LLHS{}, RRHS{}, LHS{}, RHS{})
    .parsersEq (tThen (P SpaceDot) (P Non4)) (P (.sequence [SpaceDot, Non4])),  -- 172: DEP_ASSERT_PARSER_VALUES_EQ(LLHS{}>> RRHS{},(sequence_parser<LLHS, RRHS>{}), LHS{}>> RHS{},(sequence_parser<LHS, RHS>{}))
    .isTerm (tThen (P SpaceDot) (P Non5)),  -- 172: DEP_ASSERT_BINARY_OPERABLE(>>, LLHS{}, RRHS{}, LHS{}, RHS{})
    .parsersEq (tThen (P SpaceDot) (P Non5)) (P (.sequence [SpaceDot, Non5])),  -- 172: DEP_ASSERT_PARSER_VALUES_EQ(LLHS{}>> RRHS{},(sequence_parser<LLHS, RRHS>{}), LHS{}>> RHS{},(sequence_parser<LHS, RHS>{}))
    .isTerm (tThen (P SpaceDot) (P All1)),  -- 172: DEP_ASSERT_BINARY_OPERABLE(>>, LLHS{}, RRHS{}, LHS{}, RHS{})
    .parsersEq (tThen (P SpaceDot) (P All1)) (P (.sequence [SpaceDot, All1])),  -- 172: DEP_ASSERT_PARSER_VALUES_EQ(LLHS{}>> RRHS{},(sequence_parser<LLHS, RRHS>{}), LHS{}>> RHS{},(sequence_parser<LHS, RHS>{}))
    .isTerm (tThen (P SpaceDot) (P All2)),  -- 172: DEP_ASSERT_BINARY_OPERABLE(>>, LLHS{}, RRHS{}, LHS{}, RHS{})
    .parsersEq (tThen (P SpaceDot) (P All2)) (P (.sequence [SpaceDot, All2])),  -- 172: DEP_ASSERT_PARSER_VALUES_EQ(LLHS{}>> RRHS{},(sequence_parser<LLHS, RRHS>{}), LHS{}>> RHS{},(sequence_parser<LHS, RHS>{}))
    .isTerm (tThen (P SpaceDot) (P All3)),  -- 172: DEP_ASSERT_BINARY_OPERABLE(>>, LLHS{}, RRHS{}, LHS{}, RHS{})
    .parsersEq (tThen (P SpaceDot) (P All3)) (P (.sequence [SpaceDot, All3])),  -- 172: DEP_ASSERT_PARSER_VALUES_EQ(LLHS{}>> RRHS{},(sequence_parser<LLHS, RRHS>{}), LHS{}>> RHS{},(sequence_parser<LHS, RHS>{}))
    .isTerm (tThen (P SpaceDot) (P All4)),  -- 172: DEP_ASSERT_BINARY_OPERABLE(>>, LLHS{}, RRHS{}, LHS{}, RHS{})
    .parsersEq (tThen (P SpaceDot) (P All4)) (P (.sequence [SpaceDot, All4])),  -- 172: DEP_ASSERT_PARSER_VALUES_EQ(LLHS{}>> RRHS{},(sequence_parser<LLHS, RRHS>{}), LHS{}>> RHS{},(sequence_parser<LHS, RHS>{}))
    .isTerm (tThen (P SpaceDot) (P Eps1)),  -- 172: DEP_ASSERT_BINARY_OPERABLE(>>, LLHS{}, RRHS{}, LHS{}, RHS{})
    .parsersEq (tThen (P SpaceDot) (P Eps1)) (P (.sequence [SpaceDot, Eps1])),  -- 172: DEP_ASSERT_PARSER_VALUES_EQ(LLHS{}>> RRHS{},(sequence_parser<LLHS, RRHS>{}), LHS{}>> RHS{},(sequence_parser<LHS, RHS>{}))
    .isTerm (tThen (P SpaceDot) (P Ant1)),  -- 172: DEP_ASSERT_BINARY_OPERABLE(>>, LLHS{}, RRHS{}, LHS{}, RHS{})
    .parsersEq (tThen (P SpaceDot) (P Ant1)) (P (.sequence [SpaceDot, Ant1])),  -- 172: DEP_ASSERT_PARSER_VALUES_EQ(LLHS{}>> RRHS{},(sequence_parser<LLHS, RRHS>{}), LHS{}>> RHS{},(sequence_parser<LHS, RHS>{}))
    .isTerm (tThen (P SpaceDot) (P QQ)),  -- 172: DEP_ASSERT_BINARY_OPERABLE(>>, LLHS{}, RRHS{}, LHS{}, RHS{})
    .parsersEq (tThen (P SpaceDot) (P QQ)) (P (.sequence [SpaceDot, QQ])),  -- 172: DEP_ASSERT_PARSER_VALUES_EQ(LLHS{}>> RRHS{},(sequence_parser<LLHS, RRHS>{}), LHS{}>> RHS{},(sequence_parser<LHS, RHS>{}))
    .isTerm (tThen (P SpaceDot) (P ABC)),  -- 172: DEP_ASSERT_BINARY_OPERABLE(>>, LLHS{}, RRHS{}, LHS{}, RHS{})
    .parsersEq (tThen (P SpaceDot) (P ABC)) (P (.sequence [SpaceDot, ABC])),  -- 172: DEP_ASSERT_PARSER_VALUES_EQ(LLHS{}>> RRHS{},(sequence_parser<LLHS, RRHS>{}), LHS{}>> RHS{},(sequence_parser<LHS, RHS>{}))
    .isTerm (tThen (P SpaceDot) (P Comma)),  -- 172: DEP_ASSERT_BINARY_OPERABLE(>>, LLHS{}, RRHS{}, LHS{}, RHS{})
    .parsersEq (tThen (P SpaceDot) (P Comma)) (P (.sequence [SpaceDot, Comma]))  -- 172: DEP_ASSERT_PARSER_VALUES_EQ(LLHS{}>> RRHS{},(sequence_parser<LLHS, RRHS>{}), LHS{}>> RHS{},(sequence_parser<LHS, RHS>{}))
    ], Assertion.Holds a :=
  Assertion.holds_of_check (by decide +kernel)

/-- sequence operator / {anything} >> {anything} (tests/char-tests/operators/sequence.cpp:172) -/
theorem charOperatorsSequence_5_13 : ∀ a ∈ [
    .isTerm (tThen (P SpaceDot) (P SpaceDot)),  -- 172: DEP_ASSERT_BINARY_OPERABLE(>>, LLHS{}, RRHS{}, LHS{}, RHS{})
    .parsersEq (tThen (P SpaceDot) (P SpaceDot)) (P (.sequence [SpaceDot, SpaceDot]))  -- 172: DEP_ASSERT_PARSER_VALUES_EQ(LLHS{}>> RRHS{},(sequence_parser<LLHS, RRHS>{}), LHS{}>> RHS{},(sequence_parser<LHS, RHS>{}))
    ], Assertion.Holds a :=
  Assertion.holds_of_check (by decide +kernel)

end Tok3n.Tests
