import Verif.Proof.Lifetime
import Verif.Proof.Keeps
import Verif.Spec.Example
/-
Property C79: the spans in a result outlive the parse.
-/

namespace Tok3n

variable {α β : Type} {owned : Nat → Bool} {C : Ctx α β}

/-! ## C79 The spans in a result outlive the parse -/

/-- Destroying the objects `parse` made does not change what its result shows: if the user's code keeps
no pointers into its objects, only views are joined and the input is not inside such an object, then no
span in the value of a parse, in what remains, or in the arguments of a callback points into an object.
So, whatever becomes of the memory of the objects, these spans denote what they did. -/
theorem C79_lasting (p : Parser α) (hk : KeepsNone owned C p) (hj : JoinsViews owned C p) (s : Span)
    (hs : ¬ s.IntoObject owned) {log r} (hp : Parse C p s = .done log r) :
    (∀ c ∈ log, ∀ a ∈ c.args, a.Outside owned) ∧
    (∀ v s', r = .ok ⟨some v, s'⟩ → v.Outside owned) ∧
    (∀ v s', r = .ok ⟨v, s'⟩ → ¬ s'.IntoObject owned) ∧
    ∀ mem' : Mem β, (∀ b, owned b = false → mem' b = C.mem b) →
      (∀ v s', r = .ok ⟨some v, s'⟩ → ∀ t ∈ v.spans, t.elems mem' = t.elems C.mem) ∧
      ∀ v s', r = .ok ⟨v, s'⟩ → s'.elems mem' = s'.elems C.mem := by
  have hb := Parse_outside hk hj hs
  rw [hp] at hb
  have hl : LikeLog (OutS owned) (OutV owned) log log → ∀ c ∈ log, ∀ a ∈ c.args, a.Outside owned := by
    intro hl c hc
    exact ((likes_outside _ _).1 (List.forall₂_same.mp hl c hc).2).2
  have same : ∀ mem' : Mem β, (∀ b, owned b = false → mem' b = C.mem b) → ∀ t : Span, ¬ t.IntoObject owned →
      t.elems mem' = t.elems C.mem := by
    intro mem' hm t ht
    obtain ⟨ptr, len⟩ := t
    cases ptr with
    | null => rfl
    | «at» b o =>
      have : owned b = false := by
        cases hb : owned b with
        | false => rfl
        | true => exact absurd ⟨b, o, rfl, hb⟩ ht
      simp only [Span.elems, hm b this]
  have h3 : (∀ v s', r = .ok ⟨some v, s'⟩ → v.Outside owned) ∧ ∀ v s', r = .ok ⟨v, s'⟩ → ¬ s'.IntoObject owned := by
    cases r with
    | err e => exact ⟨nofun, nofun⟩
    | ok x =>
      obtain ⟨-, hv, hr⟩ := likeR_outside.1 hb.2
      refine ⟨fun v s' h => ?_, fun v s' h => ?_⟩
      · cases h; exact hv v rfl
      · cases h; exact hr
  have h4 : ∀ c ∈ log, ∀ a ∈ c.args, a.Outside owned := by
    cases r with
    | err e => exact hl hb.1
    | ok x => exact hl hb.1
  exact ⟨h4, h3.1, h3.2, fun mem' hm => ⟨fun v s' h t ht => same mem' hm t (h3.1 v s' h t ht),
    fun v s' h => same mem' hm s' (h3.2 v s' h)⟩⟩

/-- What is joined are views, if those of the user's types that are convertible to a span are views. -/
theorem C79_views (p : Parser α)
    (h : ∀ k f v, C.userSpan k = some f → v.Outside owned → ¬ (f v).IntoObject owned) : JoinsViews owned C p := by
  intro q _ s log v s' _ hv
  have key : ∀ v : Val, v.Outside owned → ∀ t ∈ joinLeaves C v, ¬ t.IntoObject owned := by
    refine fun v => Val.rec (motive_1 := fun v => v.Outside owned → ∀ t ∈ joinLeaves C v, ¬ t.IntoObject owned)
      (motive_2 := fun vs => (∀ v ∈ vs, v.Outside owned) → ∀ t ∈ joinLeavesList C vs, ¬ t.IntoObject owned)
      (motive_3 := fun o => (Val.opt o).Outside owned → ∀ t ∈ joinLeaves C (.opt o), ¬ t.IntoObject owned)
      ?_ ?_ ?_ ?_ ?_ ?_ ?_ ?_ ?_ ?_ ?_ ?_ ?_ v
    · simp [joinLeaves]
    · intro s h t ht
      simp only [joinLeaves, List.mem_singleton] at ht
      subst ht
      exact h t (by simp [Val.spans])
    · intro vs ih h; simp only [joinLeaves]; exact ih (outside_list.1 h)
    · intro vs ih h; simp only [joinLeaves]; exact ih (outside_list.1 h)
    · intro o ih; exact ih
    · intro vs ih h; simp only [joinLeaves]; exact ih (outside_list.1 h)
    · intros; simp_all [joinLeaves]
    · intros; simp_all [joinLeaves]
    · intro k tag vs _ hv t ht
      simp only [joinLeaves] at ht
      cases hk : C.userSpan k with
      | none => rw [hk] at ht; simp at ht
      | some f =>
        rw [hk] at ht
        simp only [List.mem_singleton] at ht
        subst ht
        exact h k f _ hk hv
    · simp [joinLeavesList]
    · intro v vs ih1 ih2 hv t ht
      simp only [joinLeavesList, List.mem_append] at ht
      exact ht.elim (ih1 (hv v (by simp)) t) (ih2 (fun w hw => hv w (by simp [hw])) t)
    · simp [joinLeaves]
    · intro v ih hv; simp only [joinLeaves]; exact ih hv
  exact key v hv

/-- What is joined are views, if no user type occurs in the result types of what is joined. -/
theorem C79_standard [LinearOrder α] (p : Parser α) (ht : C.Typed)
    (h : ∀ q, ParseReach C p (.join q) → Compiles C (.join q) ∧ (resultFor C q).standard = true) :
    JoinsViews owned C p := by
  intro q hq s log v s' hp hv
  obtain ⟨hc, hst⟩ := h q hq
  have hok := hc.parse
  simp only [parseOK, Bool.and_eq_true] at hok
  have hcp : Compiles C q := ⟨hc.ctx, by simpa [Parser.wf] using hc.wf, hok.1.1, hok.1.2⟩
  have hsat := Parse_typed hcp ht s
  rw [show Parse C q s = _ from hp] at hsat
  have hty : HasTy (resultFor C q) v := (hsat.val v rfl).1
  rw [joinLeaves_standard _ v hst hok.2 hty]
  exact hv

/-- The span `join` makes begins where the first of the non-empty spans it joins does, those user values
are convertible to included, and is empty, at the start of what remains, if there are none.  So it points
into an object of the user, which is destroyed when `join` returns, exactly if that span does, or if
there are none and the input does. -/
theorem C79_join (p : Parser α) (s : Span) {log w s'} (h : Parses C (.join p) s log w s') :
    ∃ v j, Parses C p s log v s' ∧ w = .span j ∧
      ((∃ t ts, nonEmpty (joinLeaves C v) = t :: ts ∧ j.ptr = t.ptr ∧ j.len ≠ 0 ∧
        (j.IntoObject owned ↔ t.IntoObject owned)) ∨
       (nonEmpty (joinLeaves C v) = [] ∧ j = ⟨s'.ptr, 0⟩ ∧ (j.IntoObject owned ↔ s'.IntoObject owned))) := by
  rw [Parses, Parse_join_eq, parseJoin, M.bind_eq, M.bind_eq_ok] at h
  obtain ⟨l1, l2, ⟨v, t⟩, h1, h2, rfl⟩ := h
  cases v with
  | none => simp [R.hasValue, R.failure] at h2
  | some v =>
    simp only [R.hasValue, Option.isSome_some, if_true, M.bind_eq, M.bind_eq_ok] at h2
    obtain ⟨l3, l4, j, h3, h4, rfl⟩ := h2
    obtain rfl : l3 = [] :=
      List.length_eq_zero_iff.1 (Nat.le_zero.1 ((joinExecutor_logs C ⟨some v, t⟩).on _ _ h3).1)
    cases j with
    | none => cases h4
    | some j =>
      cases h4
      refine ⟨v, j, by simp only [List.append_nil]; exact h1, rfl, ?_⟩
      have hst := joinExecutor_starts h3
      cases hh : nonEmpty (joinLeaves C v) with
      | nil =>
        rw [hh] at hst
        simp only [List.head?_nil] at hst
        subst hst
        exact .inr ⟨rfl, rfl, .rfl⟩
      | cons x xs =>
        rw [hh] at hst
        simp only [List.head?_cons] at hst
        exact .inl ⟨x, xs, rfl, hst.1, hst.2, by simp only [Span.IntoObject, hst.1]⟩

/-! ### Examples -/

/-- the example context, where the values of class 0 own the characters of array 1 and are convertible
to a span of them, as a `std::string` is -/
def Ex.strings (text : String) : Ctx Nat Nat :=
  { Ex.ctx text with userSpan := fun k => if k = 0 then some (fun _ => ⟨.at 1 0, 3⟩) else Option.none }

/-- the array inside the objects -/
def Ex.inString (b : Nat) : Bool := b == 1

theorem Ex.strings_ok (text : String) : (Ex.strings text).OK := by
  refine ⟨fun k => ?_, fun k => ?_, fun k => ?_, fun k => ?_⟩
  · match k with
    | 0 => rfl
    | _ + 1 => rfl
  · match k with
    | 0 => rfl
    | _ + 1 => rfl
  · match k with
    | 0 => rfl
    | _ + 1 => rfl
  · match k with
    | 0 => nofun
    | _ + 1 => exact fun _ => rfl

theorem Ex.strings_typed (text : String) : (Ex.strings text).Typed :=
  have h := Ex.ctx_typed text
  ⟨h.fn, h.const, h.ctor, h.dflt, h.conv, h.convOpt⟩

/-- its code keeps no pointers into the strings, if callback 4 is not used -/
theorem Ex.strings_keep (text : String) (p : Parser Nat)
    (h : ∀ q f, ParseReach (Ex.strings text) p (.map q f) → f = .user 0) :
    KeepsNone Ex.inString (Ex.strings text) p where
  maps q f hq args log v ha hv := by
    cases h q f hq
    cases hv
    exact outside_list.2 ha
  conv a b f v hf hv := by
    simp only [Ex.strings, Ex.ctx] at hf
    split at hf
    · cases hf
      exact outside_list.2 (by simpa using hv)
    · cases hf
  convOpt a b f v hf hv := by
    simp only [Ex.strings, Ex.ctx] at hf
    split at hf
    · cases hf
      simp [Val.Outside, Val.spans, spansList]
    · cases hf
  dflt k v hv := by
    cases hv
    simp [Val.Outside, Val.spans, spansList]

/-- `join` of a value that owns its characters returns a span into the value, which is destroyed as
`join` returns: although the input is valid, the expression compiles and the user's code keeps no pointers,
the result shows something else, and is not even valid, once the memory of the objects is released. -/
theorem C79_refuted : ∃ (C : Ctx Nat Nat) (p : Parser Nat) (s : Span) (owned : Nat → Bool) (log : List Call)
    (t s' : Span), Compiles C (.join p) ∧ C.Typed ∧ s.Valid C.mem ∧ ¬ s.IntoObject owned ∧
    KeepsNone owned C (.join p) ∧ Parses C (.join p) s log (.span t) s' ∧ t.IntoObject owned ∧
    ∃ mem' : Mem Nat, (∀ b, owned b = false → mem' b = C.mem b) ∧ t.Valid C.mem ∧ ¬ t.Valid mem' ∧
      t.elems mem' ≠ t.elems C.mem := by
  refine ⟨Ex.strings "a", .map (Ex.all "a") (.user 0), Ex.input "a", Ex.inString, _, ⟨.at 1 0, 3⟩, ⟨.at 0 1, 0⟩,
    ⟨Ex.strings_ok _, rfl, rfl, rfl⟩, Ex.strings_typed _, Ex.input_valid _, ?_, ?_, Ex.parses _ 5 rfl, ⟨1, 0, rfl, rfl⟩,
    fun b => if b = 1 then [] else (Ex.strings "a").mem b, ?_, by decide, by decide, by decide⟩
  · rintro ⟨b, o, h, hb⟩
    cases h
    cases hb
  · refine Ex.strings_keep _ _ fun q f h => ?_
    cases h with
    | step hc h =>
      cases hc
      cases h with
      | refl => rfl
      | step hc h => cases hc; cases h; rename_i hc _; cases hc
  · intro b hb
    have : b ≠ 1 := by rintro rfl; cases hb
    simp [this]

/-- The conditions of `C79_lasting` hold where such values are made but not joined:
`join(exactly<2>("a")) >> map("b", to_string)`. -/
example : ∃ log v s', Parses (Ex.strings "aab") (.sequence [.join (.exactly (Ex.all "a") 2), .map (Ex.all "b") (.user 0)])
      (Ex.input "aab") log v s' ∧
    KeepsNone Ex.inString (Ex.strings "aab") (.sequence [.join (.exactly (Ex.all "a") 2), .map (Ex.all "b") (.user 0)]) ∧
    JoinsViews Ex.inString (Ex.strings "aab") (.sequence [.join (.exactly (Ex.all "a") 2), .map (Ex.all "b") (.user 0)]) ∧
    ¬ (Ex.input "aab").IntoObject Ex.inString := by
  have basic : ∀ (a : String) (q : Parser Nat), ParseReach (Ex.strings "aab") (Ex.all a) q → q = Ex.all a := by
    intro a q h
    cases h with
    | refl => rfl
    | step hc => cases hc
  refine ⟨_, _, _, Ex.parses _ 8 rfl, Ex.strings_keep _ _ fun q f h => ?_,
    C79_standard _ (Ex.strings_typed _) fun q h => ?_, ?_⟩
  · cases h with
    | step hc h =>
      cases hc with
      | sequence hm =>
        simp only [List.mem_cons, List.not_mem_nil, or_false] at hm
        rcases hm with rfl | rfl
        · cases h with
          | step hc h =>
            cases hc
            cases h with
            | step hc h => cases hc; cases basic _ _ h
        · cases h with
          | refl => rfl
          | step hc h => cases hc; cases basic _ _ h
  · cases h with
    | step hc h =>
      cases hc with
      | sequence hm =>
        simp only [List.mem_cons, List.not_mem_nil, or_false] at hm
        rcases hm with rfl | rfl
        · cases h with
          | refl => exact ⟨⟨Ex.strings_ok _, rfl, rfl, rfl⟩, rfl⟩
          | step hc h =>
            cases hc
            cases h with
            | step hc h => cases hc; cases basic _ _ h
        · cases h with
          | step hc h => cases hc; cases basic _ _ h
  · rintro ⟨b, o, h, hb⟩
    cases h
    cases hb

end Tok3n
