import Verif.Proof.OneAhead
import Verif.Props.Language
/-
Property C85, for grammars where one element tells what to do (LL(1) grammars): a condition that only speaks of what the parts
of the grammar begin with.
-/

namespace Tok3n

variable {α β : Type} [LinearOrder α] {C : Ctx α β} {null : Nat → Bool} {begin' : Nat → β → Bool} {follow : Nat → β → Prop}

/-- Where one element tells what to do, the grammar is clear. -/
theorem C85_one_ahead (ht : OneAheadTable C null begin' follow) : ClearTable C null begin' follow ∧
    ∀ (p : Parser α) (F : β → Prop), OneAhead C null begin' follow p F → Clear C null begin' follow p F :=
  ⟨ht.clear, fun _ _ h => h.clear ht.toBeginTable ht.total⟩

/-- So `lookahead` of `complete(p)` decides the language of `p`: it succeeds on the words and fails, leaving the input, on
all other texts, and `parse` does as well, if no filter or join overrules and nothing throws. -/
theorem C85_decides (ht : OneAheadTable C null begin' follow) (p : Parser α)
    (hp : OneAhead C null begin' follow p fun _ => False) (s : Span) (hs : s.Valid C.mem) :
    (WordC C p (s.elems C.mem) → LooksAt C (.complete p) s s.len) ∧
    (¬ WordC C p (s.elems C.mem) → LookFails C (.complete p) s [] s) ∧
    (NeverOverrules C (.complete p) → (∀ log e, ¬ ParseErr C (.complete p) s log e) →
      (WordC C p (s.elems C.mem) → ParsesAt C (.complete p) s s.len) ∧
      (¬ WordC C p (s.elems C.mem) → ∃ log, ParseFails C (.complete p) s log s)) := by
  have hcl := (C85_one_ahead ht).2 _ _ hp
  have hcc : Clear C null begin' follow (.complete p) fun _ => False := ⟨hcl, fun _ => id⟩
  have hcom : ∀ h : WordC C p (s.elems C.mem), _ := fun h =>
    C85_complete ht.clear (.complete p) (fun _ => False) hcc s hs (s.elems C.mem) [] (by simp) (.complete h) nofun
  rw [hs.elems_length] at hcom
  have hlang := C85_language ht.clear p hcl s hs
  have htot : Total C (.complete p) := OneAhead.total ht.toBeginTable ht.total (.complete p) (fun _ => False) ⟨hp, fun _ => id⟩
  have hno : ¬ WordC C p (s.elems C.mem) → PegC C (.complete p) (s.elems C.mem) none := fun hw => by
    obtain ⟨o, ho⟩ := htot (s.elems C.mem)
    cases o with
    | none => exact ho
    | some k =>
      have hk := ho.le _ rfl
      rw [hs.elems_length] at hk
      exact (hw (hlang.1.1 ⟨[], _, ((C45_lookahead C _ s hs).1 [] _).2 ⟨rfl, k, ho, hs.advanced hk⟩⟩)).elim
  refine ⟨fun h => (hcom h).1, fun hw => ((C45_lookahead C _ s hs).2.1 [] s).2 ⟨rfl, rfl, hno hw⟩, fun hn he =>
    ⟨fun h => (hcom h).2 hn he, fun hw => ?_⟩⟩
  obtain ⟨log, h⟩ := (C45_parse C _ hn s hs he s).2.2 ⟨rfl, hno hw⟩
  exact ⟨log, h⟩

/-! ### Concrete cases -/

/-- nested tuples -/
theorem Ex.tuples_ahead (text : String) : OneAheadTable (Ex.tuples text) (fun k => k != 0) (fun _ => Ex.listsBegin)
    (fun _ x => x = 44 ∨ x = 41) where
  toBeginTable := Ex.tuples_begin text
  ahead k := by
    simp [tuples, OneAhead, oneAheadAll, oneAheadParts, behind, sequenceBegins, Parser.begins, ctx, str_comma, str_brackets,
      Parser.nullable, allNullable]
    omega
  returns k := ⟨[k, 0], fun _ => false, fun _ => 0, by
    simp [productive, tuples, Parser.nullable, someNullable, allNullable, Parser.repeatsOK, allRepeatsOK, Parser.customs,
      allCustoms, Parser.firsts, allFirsts, sequenceFirsts]
    exact ⟨rfl, rfl⟩⟩

/-- whether a text is a nested tuple is decided -/
example (text : String) :
    (WordC (Ex.tuples text) (.custom 0) ((Ex.input text).elems (Ex.tuples text).mem) →
      LooksAt (Ex.tuples text) (.complete (.custom 0)) (Ex.input text) (Ex.input text).len) ∧
    (¬ WordC (Ex.tuples text) (.custom 0) ((Ex.input text).elems (Ex.tuples text).mem) →
      LookFails (Ex.tuples text) (.complete (.custom 0)) (Ex.input text) [] (Ex.input text)) :=
  have h := C85_decides (Ex.tuples_ahead text) (.custom 0) nofun (Ex.input text) (Ex.input_valid text)
  ⟨h.1, h.2.1⟩

end Tok3n
