import Verif.Tests.Gen.SamplesChar
/- Generated by tools/tests2lean.py from tests/char-tests/modifiers/multi.cpp. -/

namespace Tok3n.Tests

/-- multi operator / creation (tests/char-tests/modifiers/multi.cpp:14): ASSERT_MODIFIER_VALUES_EQ(ignore % join,(multi_modifier<ignore_modifier, join_modifier>{})) -/
theorem charModifiersMulti_1_m1 : ∃ m, (tMod (M .ignore) (M .join)) = M m ∧ (M (.multi [.ignore, .join])) = M m := ⟨_, rfl, rfl⟩

/-- multi operator / creation (tests/char-tests/modifiers/multi.cpp:15): ASSERT_MODIFIER_VALUES_EQ(join % ignore,(multi_modifier<join_modifier, ignore_modifier>{})) -/
theorem charModifiersMulti_1_m2 : ∃ m, (tMod (M .join) (M .ignore)) = M m ∧ (M (.multi [.join, .ignore])) = M m := ⟨_, rfl, rfl⟩

/-- multi operator / creation (tests/char-tests/modifiers/multi.cpp:16): ASSERT_MODIFIER_VALUES_EQ(complete % join,(multi_modifier<complete_modifier, join_modifier>{})) -/
theorem charModifiersMulti_1_m3 : ∃ m, (tMod (M .complete) (M .join)) = M m ∧ (M (.multi [.complete, .join])) = M m := ⟨_, rfl, rfl⟩

/-- multi operator / creation (tests/char-tests/modifiers/multi.cpp:17): ASSERT_MODIFIER_VALUES_EQ(join % complete,(multi_modifier<join_modifier, complete_modifier>{})) -/
theorem charModifiersMulti_1_m4 : ∃ m, (tMod (M .join) (M .complete)) = M m ∧ (M (.multi [.join, .complete])) = M m := ⟨_, rfl, rfl⟩

/-- multi operator / creation (tests/char-tests/modifiers/multi.cpp:18): ASSERT_MODIFIER_VALUES_EQ(ignore % complete,(multi_modifier<ignore_modifier, complete_modifier>{})) -/
theorem charModifiersMulti_1_m5 : ∃ m, (tMod (M .ignore) (M .complete)) = M m ∧ (M (.multi [.ignore, .complete])) = M m := ⟨_, rfl, rfl⟩

/-- multi operator / creation (tests/char-tests/modifiers/multi.cpp:19): ASSERT_MODIFIER_VALUES_EQ(complete % ignore,(multi_modifier<complete_modifier, ignore_modifier>{})) -/
theorem charModifiersMulti_1_m6 : ∃ m, (tMod (M .complete) (M .ignore)) = M m ∧ (M (.multi [.complete, .ignore])) = M m := ⟨_, rfl, rfl⟩

/-- multi operator / not commutative (tests/char-tests/modifiers/multi.cpp:24): ASSERT_MODIFIER_VALUES_NE((ignore % join),(join % ignore)) -/
theorem charModifiersMulti_2_m1 : ∃ m n, (tMod (M .ignore) (M .join)) = M m ∧ (tMod (M .join) (M .ignore)) = M n ∧ m ≠ n := ⟨_, _, rfl, rfl, nofun⟩

/-- multi operator / not commutative (tests/char-tests/modifiers/multi.cpp:25): ASSERT_MODIFIER_VALUES_NE((complete % join),(join % complete)) -/
theorem charModifiersMulti_2_m2 : ∃ m n, (tMod (M .complete) (M .join)) = M m ∧ (tMod (M .join) (M .complete)) = M n ∧ m ≠ n := ⟨_, _, rfl, rfl, nofun⟩

/-- multi operator / not commutative (tests/char-tests/modifiers/multi.cpp:26): ASSERT_MODIFIER_VALUES_NE((ignore % complete),(complete % ignore)) -/
theorem charModifiersMulti_2_m3 : ∃ m n, (tMod (M .ignore) (M .complete)) = M m ∧ (tMod (M .complete) (M .ignore)) = M n ∧ m ≠ n := ⟨_, _, rfl, rfl, nofun⟩

/-- multi operator / associative (tests/char-tests/modifiers/multi.cpp:31): ASSERT_MODIFIER_VALUES_EQ(((ignore % join) % complete) % into<Sink>,(ignore %(join % complete)) % into<Sink>) -/
theorem charModifiersMulti_3_m1 : ∃ m, (tMod (tMod (tMod (M .ignore) (M .join)) (M .complete)) (M (.into tSink))) = M m ∧ (tMod (tMod (M .ignore) (tMod (M .join) (M .complete))) (M (.into tSink))) = M m := ⟨_, rfl, rfl⟩

/-- multi operator / associative (tests/char-tests/modifiers/multi.cpp:32): ASSERT_MODIFIER_VALUES_EQ(((ignore % join) % complete) % into<Sink>,(ignore % join) %(complete % into<Sink>)) -/
theorem charModifiersMulti_3_m2 : ∃ m, (tMod (tMod (tMod (M .ignore) (M .join)) (M .complete)) (M (.into tSink))) = M m ∧ (tMod (tMod (M .ignore) (M .join)) (tMod (M .complete) (M (.into tSink)))) = M m := ⟨_, rfl, rfl⟩

/-- multi operator / associative (tests/char-tests/modifiers/multi.cpp:33): ASSERT_MODIFIER_VALUES_EQ(((ignore % join) % complete) % into<Sink>, ignore %((join % complete) % into<Sink>)) -/
theorem charModifiersMulti_3_m3 : ∃ m, (tMod (tMod (tMod (M .ignore) (M .join)) (M .complete)) (M (.into tSink))) = M m ∧ (tMod (M .ignore) (tMod (tMod (M .join) (M .complete)) (M (.into tSink)))) = M m := ⟨_, rfl, rfl⟩

/-- multi operator / associative (tests/char-tests/modifiers/multi.cpp:34): ASSERT_MODIFIER_VALUES_EQ(((ignore % join) % complete) % into<Sink>, ignore %(join %(complete % into<Sink>))) -/
theorem charModifiersMulti_3_m4 : ∃ m, (tMod (tMod (tMod (M .ignore) (M .join)) (M .complete)) (M (.into tSink))) = M m ∧ (tMod (M .ignore) (tMod (M .join) (tMod (M .complete) (M (.into tSink))))) = M m := ⟨_, rfl, rfl⟩

/-- multi operator / applying the modifier (tests/char-tests/modifiers/multi.cpp:39) -/
theorem charModifiersMulti_4 : ∀ a ∈ [
    .parsersEq (tMod (P Oom1) (tMod (tMod (M .join) (M .ignore)) (M .complete))) (P (.complete (.ignore (.join Oom1)))),  -- 39: ASSERT_PARSER_VALUES_EQ(oom1 %(join % ignore % complete), complete_parser<ignore_parser<join_parser<Oom1>>>{})
    .parsersEq (tMod (P Oom1) (tMod (tMod (M .join) (M .complete)) (M .ignore))) (P (.ignore (.complete (.join Oom1))))  -- 40: ASSERT_PARSER_VALUES_EQ(oom1 %(join % complete % ignore), ignore_parser<complete_parser<join_parser<Oom1>>>{})
    ], Assertion.Holds a :=
  Assertion.holds_of_check (by decide +kernel)

end Tok3n.Tests
