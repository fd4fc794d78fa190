import Verif.Spec.Types
import Verif.Proof.Compile
import Verif.Proof.Sequence
import Verif.Spec.Example
/-
C43: the type of a parser's value.
-/

namespace Tok3n

variable {α β : Type}

theorem voidOr_eq (f : Ty → Ty) (t : Ty) : voidOr f t = unlessVoid t (f t) := by
  cases t <;> rfl

theorem delimitTy_eq (t u : Ty) : delimitTy t u = delimitedType t u := by
  cases t <;> cases u <;> rfl

mutual
theorem resultType_of (C : Ctx α β) : (p : Parser α) → tyOK C p = true → ResultType C p (resultFor C p)
  | .anyOf _, _ => .anyOf
  | .noneOf _, _ => .noneOf
  | .allOf _, _ => .allOf
  | .anything, _ => .anything
  | .epsilon, _ => .epsilon
  | .choice ps, h => by
    rw [resultFor_choice]; exact .choice (resultTypes_of C ps h)
  | .sequence ps, h => by
    rw [resultFor_sequence]; exact .sequence (resultTypes_of C ps h)
  | .maybe p, h => by
    rw [resultFor, voidOr_eq]; exact .maybe (resultType_of C p h)
  | .exactly p n, h => by
    rw [resultFor, voidOr_eq]; exact .exactly (resultType_of C p h)
  | .oneOrMore p, h => by
    rw [resultFor, voidOr_eq]; exact .oneOrMore (resultType_of C p h)
  | .zeroOrMore p, h => by
    rw [resultFor, voidOr_eq]; exact .zeroOrMore (resultType_of C p h)
  | .delimit p d, h => by
    simp only [tyOK, Bool.and_eq_true] at h
    rw [resultFor, delimitTy_eq]; exact .delimit (resultType_of C p h.1) (resultType_of C d h.2)
  | .ignore _, _ => .ignore
  | .complete p, h => .complete (resultType_of C p h)
  | .join _, _ => .join
  | .map p f, h => by
    simp only [tyOK, Bool.and_eq_true, Option.isSome_iff_exists] at h
    obtain ⟨h1, t, h2⟩ := h
    rw [resultFor, mapTy, h2]
    exact .map (resultType_of C p h1) (given_iff.2 rfl) (returns_iff.2 h2)
  | .filter p f, h => by
    simp only [tyOK, Bool.and_eq_true] at h
    obtain ⟨h1, h2⟩ := h
    split at h2
    · next t ht => exact .filter (resultType_of C p h1) (given_iff.2 rfl) (returns_iff.2 ht) h2
    · cases h2
  | .named p _, h => .named (resultType_of C p h)
  | .custom _, _ => .custom
theorem resultTypes_of (C : Ctx α β) : (ps : List (Parser α)) → tysOK C ps = true →
    ResultTypes C ps (resultsFor C ps)
  | [], _ => .nil
  | p :: ps, h => by
    simp only [tysOK, Bool.and_eq_true] at h
    exact .cons (resultType_of C p h.1) (resultTypes_of C ps h.2)
end

mutual
theorem resultType_eq (C : Ctx α β) : (p : Parser α) → (t : Ty) → ResultType C p t →
    tyOK C p = true ∧ t = resultFor C p
  | .anyOf _, _, .anyOf => ⟨rfl, rfl⟩
  | .noneOf _, _, .noneOf => ⟨rfl, rfl⟩
  | .allOf _, _, .allOf => ⟨rfl, rfl⟩
  | .anything, _, .anything => ⟨rfl, rfl⟩
  | .epsilon, _, .epsilon => ⟨rfl, rfl⟩
  | .choice ps, _, .choice h => by
    obtain ⟨h1, rfl⟩ := resultTypes_eq C ps _ h
    exact ⟨h1, (resultFor_choice C ps).symm⟩
  | .sequence ps, _, .sequence h => by
    obtain ⟨h1, rfl⟩ := resultTypes_eq C ps _ h
    exact ⟨h1, (resultFor_sequence C ps).symm⟩
  | .maybe p, _, .maybe h => by
    obtain ⟨h1, rfl⟩ := resultType_eq C p _ h
    exact ⟨h1, by rw [resultFor, voidOr_eq]⟩
  | .exactly p n, _, .exactly h => by
    obtain ⟨h1, rfl⟩ := resultType_eq C p _ h
    exact ⟨h1, by rw [resultFor, voidOr_eq]⟩
  | .oneOrMore p, _, .oneOrMore h => by
    obtain ⟨h1, rfl⟩ := resultType_eq C p _ h
    exact ⟨h1, by rw [resultFor, voidOr_eq]⟩
  | .zeroOrMore p, _, .zeroOrMore h => by
    obtain ⟨h1, rfl⟩ := resultType_eq C p _ h
    exact ⟨h1, by rw [resultFor, voidOr_eq]⟩
  | .delimit p d, _, .delimit h h' => by
    obtain ⟨h1, rfl⟩ := resultType_eq C p _ h
    obtain ⟨h2, rfl⟩ := resultType_eq C d _ h'
    exact ⟨by simp [tyOK, h1, h2], by rw [resultFor, delimitTy_eq]⟩
  | .ignore _, _, .ignore => ⟨rfl, rfl⟩
  | .complete p, _, .complete h => resultType_eq C p _ h
  | .join _, _, .join => ⟨rfl, rfl⟩
  | .map p f, _, .map h hg hr => by
    obtain ⟨h1, rfl⟩ := resultType_eq C p _ h
    have h2 := returns_iff.1 hr
    rw [given_iff.1 hg] at h2
    exact ⟨by simp [tyOK, h1, h2], by rw [resultFor, mapTy, h2]; rfl⟩
  | .filter p f, _, .filter h hg hr hb => by
    obtain ⟨h1, rfl⟩ := resultType_eq C p _ h
    have h2 := returns_iff.1 hr
    rw [given_iff.1 hg] at h2
    exact ⟨by simp [tyOK, h1, h2, hb], by rw [resultFor]⟩
  | .named p _, _, .named h => resultType_eq C p _ h
  | .custom _, _, .custom => ⟨rfl, rfl⟩
theorem resultTypes_eq (C : Ctx α β) : (ps : List (Parser α)) → (ts : List Ty) → ResultTypes C ps ts →
    tysOK C ps = true ∧ ts = resultsFor C ps
  | [], _, .nil => ⟨rfl, rfl⟩
  | p :: ps, _, .cons h h' => by
    obtain ⟨h1, rfl⟩ := resultType_eq C p _ h
    obtain ⟨h2, rfl⟩ := resultTypes_eq C ps _ h'
    exact ⟨by simp [tysOK, h1, h2], rfl⟩
end

/-- `P::result_for<V>` is the type the documentation gives (`ResultType`), for expressions of any size, and exists
exactly if the documentation gives one. -/
theorem C43_result_for (C : Ctx α β) (p : Parser α) :
    ((∃ t, ResultType C p t) ↔ tyOK C p = true) ∧ ∀ t, ResultType C p t → resultFor C p = t :=
  ⟨⟨fun ⟨_, h⟩ => (resultType_eq C p _ h).1, fun h => ⟨_, resultType_of C p h⟩⟩,
    fun _ h => (resultType_eq C p _ h).2.symm⟩

/-- `"a" % map >> *ignore("b") >> ("c" | ~"d")`: the callback's type and a variant of span and optional -/
example : ResultType (Ex.ctx "") (.sequence [.map (Ex.all "a") (.user 0), .zeroOrMore (.ignore (Ex.all "b")),
    .choice [Ex.all "c", .maybe (Ex.all "d")]]) (.tup [.user 0, .var [.span, .opt .span]]) :=
  .sequence (ts := [.user 0, .void, .var [.span, .opt .span]]) (.cons (.map .allOf (.value nofun) (.user rfl)) (.cons (.zeroOrMore .ignore) (.cons
    (.choice (ts := [.span, .opt .span]) (.cons .allOf (.cons (.maybe .allOf) .nil))) .nil)))

end Tok3n
