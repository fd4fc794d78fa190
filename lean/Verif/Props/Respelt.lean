import Verif.Proof.Respelt
import Verif.Proof.Sets
import Verif.Proof.Reach
import Verif.Spec.Example
import Verif.Spec.Outcome
import Verif.Proof.Json
/-
Property C72: the element type is a parameter of a grammar.
-/

namespace Tok3n

variable {α α' β β' : Type} {E : β → β' → Prop} {C : Ctx α β} {C' : Ctx α' β'}

/-! ### Conversion is a respelling -/

theorem spell_respelt (D : Reading α α' β β') (f : α → α') (p : Parser α) :
    (∀ a ∈ p.letters, D.Letter a (f a)) → Respelt D p (p.spell f) := by
  have set {arr : List α} (h : ∀ a ∈ arr, D.Letter a (f a)) : D.Set arr (arr.map f) := fun x y hE => by
    simp only [List.mem_map, exists_exists_and_eq_and]
    exact exists_congr fun a => and_congr_right fun ha => by rw [h a ha x y hE]
  refine Parser.rec (motive_1 := fun p => (∀ a ∈ p.letters, D.Letter a (f a)) → Respelt D p (p.spell f))
    (motive_2 := fun ps => (∀ a ∈ Parser.lettersOf ps, D.Letter a (f a)) → Respelts D ps (Parser.spells f ps))
    ?_ ?_ ?_ ?_ ?_ ?_ ?_ ?_ ?_ ?_ ?_ ?_ ?_ ?_ ?_ ?_ ?_ ?_ ?_ ?_ ?_ p
  case refine_1 => intro arr h; simp only [Respelt, Parser.spell]; exact ⟨_, rfl, set h⟩
  case refine_2 => intro arr h; simp only [Respelt, Parser.spell]; exact ⟨_, rfl, set h⟩
  case refine_3 =>
    intro arr h
    simp only [Respelt, Parser.spell]
    refine ⟨_, rfl, ?_⟩
    rw [List.forall₂_map_right_iff, List.forall₂_same]
    exact h
  case refine_4 => intro _; simp only [Respelt, Parser.spell]
  case refine_5 => intro _; simp only [Respelt, Parser.spell]
  case refine_12 =>
    intro p d ihp ihd h
    simp only [Respelt, Parser.spell]
    simp only [Parser.letters, List.mem_append] at h
    exact ⟨_, _, rfl, ihp fun a ha => h a (.inl ha), ihd fun a ha => h a (.inr ha)⟩
  case refine_18 =>
    intro p n ih h
    simp only [Respelt, Parser.spell]
    exact ⟨_, _, rfl, ih h⟩
  case refine_19 => intro k _; simp only [Respelt, Parser.spell]
  case refine_20 => intro _; simp only [Respelts, Parser.spells]
  case refine_21 =>
    intro p ps ih ihs h
    simp only [Respelts, Parser.spells]
    simp only [Parser.lettersOf, List.mem_append] at h
    exact ⟨_, _, rfl, ih fun a ha => h a (.inl ha), ihs fun a ha => h a (.inr ha)⟩
  case refine_9 => intro p n ih h; simp only [Respelt, Parser.spell]; exact ⟨_, rfl, ih h⟩
  case refine_16 => intro p n ih h; simp only [Respelt, Parser.spell]; exact ⟨_, rfl, ih h⟩
  case refine_17 => intro p n ih h; simp only [Respelt, Parser.spell]; exact ⟨_, rfl, ih h⟩
  all_goals
    intro p ih h
    simp only [Respelt, Parser.spell]
    exact ⟨_, rfl, ih h⟩

theorem spell_id (p : Parser α) : p.spell id = p := by
  refine Parser.rec (motive_1 := fun p : Parser α => p.spell id = p)
    (motive_2 := fun ps => Parser.spells id ps = ps)
    ?_ ?_ ?_ ?_ ?_ ?_ ?_ ?_ ?_ ?_ ?_ ?_ ?_ ?_ ?_ ?_ ?_ ?_ ?_ ?_ ?_ p
  all_goals intros; simp_all [Parser.spell, Parser.spells]

theorem spell_wf [LinearOrder α] [LinearOrder α'] (f : α → α') (hf : ∀ a b, f a < f b ↔ a < b) (p : Parser α) :
    (p.spell f).wf = p.wf := by
  have sorted (arr : List α) : isSortedAndUniqued (arr.map f) = isSortedAndUniqued arr := by
    rw [Bool.eq_iff_iff, isSortedAndUniqued_iff, isSortedAndUniqued_iff, List.pairwise_map]
    simp only [hf]
  refine Parser.rec (motive_1 := fun p : Parser α => (p.spell f).wf = p.wf)
    (motive_2 := fun ps => Parser.wfs (Parser.spells f ps) = Parser.wfs ps ∧ (Parser.spells f ps).isEmpty = ps.isEmpty)
    ?_ ?_ ?_ ?_ ?_ ?_ ?_ ?_ ?_ ?_ ?_ ?_ ?_ ?_ ?_ ?_ ?_ ?_ ?_ ?_ ?_ p
  all_goals intros; simp_all [Parser.spell, Parser.spells, Parser.wf, Parser.wfs]

theorem spell_same (C : Ctx α β) (f : α → α') (g : β → β') (eqv' : α' → β' → Bool)
    (hf : ∀ a x, eqv' (f a) (g x) = C.eqv a x) : SameButSpelling (fun x y => y = g x) C (C.spell f g eqv') where
  mem b := by
    show List.Forall₂ _ _ ((C.mem b).map g)
    rw [List.forall₂_map_right_iff, List.forall₂_same]
    exact fun _ _ => rfl
  toolchain := rfl
  relaxedTtp := rfl
  ptrEq := rfl
  fnRet := rfl
  fnCall := rfl
  constTy := rfl
  constVal := rfl
  ctorOk := rfl
  ctor := rfl
  userDefault := rfl
  conv := rfl
  convOpt := rfl
  userSpan := rfl
  boolTy := rfl
  truthy := rfl
  declared _ := rfl
  customTy _ := rfl
  body k := spell_respelt _ _ _ fun a _ x y hy => by subst hy; exact (hf a x).symm

/-! ### The property -/

/-- **C72.**  A grammar spelt in another element type does, at every place of the corresponding
input, exactly what the grammar does: it succeeds or fails alike, with the same values at the same
places, the same remaining input and the same calls of the user's functions, throws alike and loops
alike. -/
theorem C72_respelt (h : SameButSpelling E C C') {p : Parser α} {q : Parser α'}
    (hq : Respelt ⟨C.eqv, C'.eqv, E⟩ p q) (s : Span) : Parse C' q s = Parse C p s ∧ Look C' q s = Look C p s := by
  constructor
  · show lim _ = lim _
    simp only [sem_respelt h _ p q hq]
  · show lim _ = lim _
    simp only [sem_respelt h _ p q hq]

/-- It makes values of the same type. -/
theorem C72_types (h : SameButSpelling E C C') {p : Parser α} {q : Parser α'}
    (hq : Respelt ⟨C.eqv, C'.eqv, E⟩ p q) : resultFor C' q = resultFor C p := (resultFor_respelt h p q hq).symm

/-- It compiles if the grammar does, provided the sets are spelt in increasing order (as the
suffixes `_any` and `_none` spell them). -/
theorem C72_compiles [LinearOrder α] [LinearOrder α'] (h : SameButSpelling E C C') {p : Parser α} {q : Parser α'}
    (hq : Respelt ⟨C.eqv, C'.eqv, E⟩ p q) (hc : Compiles C p) (hw : q.wf = true)
    (hws : ∀ k, (C'.custom k).body.wf = true) : Compiles C' q where
  ctx := {
    wf := hws
    ty k := (tyOK_respelt h _ _ (h.body k)).symm.trans (hc.ctx.ty k)
    parse k := (parseOK_respelt h _ _ (h.body k)).symm.trans (hc.ctx.parse k)
    inferred k hk := by
      rw [← resultFor_respelt h _ _ (h.body k), ← h.customTy k]
      exact hc.ctx.inferred k ((h.declared k).trans hk) }
  wf := hw
  ty := (tyOK_respelt h p q hq).symm.trans hc.ty
  parse := (parseOK_respelt h p q hq).symm.trans hc.parse

/-- The case of a conversion, say of `char` to `wchar_t`: literals converted by `f`, texts by `g`. -/
theorem C72_converted (C : Ctx α β) (f : α → α') (g : β → β') (eqv' : α' → β' → Bool)
    (hf : ∀ a x, eqv' (f a) (g x) = C.eqv a x) (p : Parser α) (s : Span) :
    Parse (C.spell f g eqv') (p.spell f) s = Parse C p s ∧ Look (C.spell f g eqv') (p.spell f) s = Look C p s :=
  C72_respelt (spell_same C f g eqv' hf)
    (spell_respelt _ _ _ fun a _ x y hy => by subst hy; exact (hf a x).symm) s

/-- A conversion of the literals that keeps their order keeps the program compiling. -/
theorem C72_converted_compiles [LinearOrder α] [LinearOrder α'] (C : Ctx α β) (f : α → α') (g : β → β')
    (eqv' : α' → β' → Bool) (hf : ∀ a x, eqv' (f a) (g x) = C.eqv a x) (hord : ∀ a b, f a < f b ↔ a < b)
    (p : Parser α) (hc : Compiles C p) : Compiles (C.spell f g eqv') (p.spell f) :=
  C72_compiles (spell_same C f g eqv' hf)
    (spell_respelt _ _ _ fun a _ x y hy => by subst hy; exact (hf a x).symm) hc
    ((spell_wf f hord p).trans hc.wf) fun k => (spell_wf f hord _).trans (hc.ctx.wf k)

/-- Replacing elements of the text by others that no literal of the grammar tells apart from them
changes nothing. -/
theorem C72_indistinguishable (C : Ctx α β) (p : Parser α) (mem' : Mem β)
    (hm : ∀ b, List.Forall₂ (Indistinguishable C p) (C.mem b) (mem' b)) (s : Span) :
    Parse { C with mem := mem' } p s = Parse C p s ∧ Look { C with mem := mem' } p s = Look C p s := by
  refine C72_respelt (C := C) (C' := { C with mem := mem' }) (E := Indistinguishable C p) ⟨hm, rfl, rfl, rfl, rfl, rfl, rfl, rfl, rfl, rfl, rfl, rfl, rfl, rfl, rfl,
    rfl, fun _ => rfl, fun _ => rfl, fun k => ?_⟩ ?_ s
  · have := spell_respelt (D := ⟨C.eqv, C.eqv, Indistinguishable C p⟩) id (C.custom k).body
      fun a ha x y hxy => hxy a (.inr ⟨k, ha⟩)
    rwa [spell_id] at this
  · have := spell_respelt (D := ⟨C.eqv, C.eqv, Indistinguishable C p⟩) id p fun a ha x y hxy => hxy a (.inl ha)
    rwa [spell_id] at this

/-- The condition on the letters is needed: `"a"_all` reads `a` and not `b`. -/
theorem C72_needs_indistinguishable : Parse (Ex.ctx "b") (Ex.all "a") (Ex.input "a") ≠
    Parse (Ex.ctx "a") (Ex.all "a") (Ex.input "a") := by
  rw [Parse_eq_done.2 ⟨5, rfl⟩, Parse_eq_done.2 ⟨5, rfl⟩]
  nofun

/-! ### Examples -/

/-- A case-insensitive reading of the example program: letters are compared with characters by their low five bits;
the text is lower case where the original is upper case. -/
def Ex.caseless (text : String) : Ctx Nat Nat :=
  { Ex.ctx text with eqv := fun a x => a % 32 == x % 32 }

/-- `("ab" | 'x')+` over `Nat`, and over `Int` with 1000 added to every code: a conversion that keeps the order -/
example (text : String) (s : Span) :
    Parse ((Ex.ctx text).spell (fun a => (a : Int) + 1000) (fun x => (x : Int) + 1000) (· == ·))
      (.oneOrMore (.choice [.allOf [1097, 1098], .anyOf [1120]])) s =
    Parse (Ex.ctx text) (.oneOrMore (.choice [Ex.all "ab", Ex.any "x"])) s :=
  (C72_converted (Ex.ctx text) (fun a => (a : Int) + 1000) (fun x => (x : Int) + 1000) (· == ·)
    (fun a x => by
      show ((a : Int) + 1000 == (x : Int) + 1000) = (a == x)
      rw [Bool.eq_iff_iff, beq_iff_eq, beq_iff_eq]; omega) (.oneOrMore (.choice [Ex.all "ab", Ex.any "x"])) s).1

/-- such a run, over `Int`: `abx` is read to the end -/
example : Parse ((Ex.ctx "abx").spell (fun a => (a : Int) + 1000) (fun x => (x : Int) + 1000) (· == ·))
      (.oneOrMore (.choice [.allOf [1097, 1098], .anyOf [1120]])) (Ex.input "abx") =
    .done [] (.ok ⟨some (.vec [.span ⟨.at 0 0, 2⟩, .span ⟨.at 0 2, 1⟩]), ⟨.at 0 3, 0⟩⟩) :=
  Parse_eq_done.2 ⟨9, rfl⟩

/-- without regard to case `aB` is read like `Ab` -/
example (s : Span) : Parse { Ex.caseless "aB" with mem := (Ex.ctx "Ab").mem } (Ex.all "ab") s =
    Parse (Ex.caseless "aB") (Ex.all "ab") s := by
  refine (C72_indistinguishable (Ex.caseless "aB") (Ex.all "ab") (Ex.ctx "Ab").mem (fun b => ?_) s).1
  have same : ∀ x y : Nat, x % 32 = y % 32 → Indistinguishable (Ex.caseless "aB") (Ex.all "ab") x y := by
    intro x y hxy a _
    show (a % 32 == x % 32) = (a % 32 == y % 32)
    rw [hxy]
  by_cases hb : b = 0
  · subst hb
    exact .cons (same _ _ rfl) (.cons (same _ _ rfl) .nil)
  · simp only [Ex.caseless, Ex.ctx, if_neg hb]
    exact .cons (same _ _ rfl) (.cons (same _ _ rfl) (.cons (same _ _ rfl) .nil))

/-- and is read: both letters -/
example : Parse (Ex.caseless "aB") (Ex.all "ab") (Ex.input "aB") =
    .done [] (.ok ⟨some (.span ⟨.at 0 0, 2⟩), ⟨.at 0 2, 0⟩⟩) := Parse_eq_done.2 ⟨3, rfl⟩

namespace Json

theorem letters_ascii {p : Parser Nat} (hp : p ∈ [jsonValue, jsonObject, jsonArray, string, number]) (m : Machine) (a : Nat)
    (ha : a ∈ p.letters ∨ ∃ k, a ∈ ((ctx m).custom k).body.letters) : a < 128 := by
  have small {l : List Nat} (h : l.all (· < 128) = true) (ha : a ∈ l) : a < 128 := by
    simpa using List.all_eq_true.1 h a ha
  rcases ha with ha | ⟨k, ha⟩
  · simp only [List.mem_cons, List.not_mem_nil, or_false] at hp
    rcases hp with rfl | rfl | rfl | rfl | rfl
    · nomatch ha
    · nomatch ha
    · nomatch ha
    · refine small ?_ ha
      rw [string_eq, chars, validChar_eq]; rfl
    · refine small ?_ ha
      rw [number_eq, integer_eq, fraction_eq, exponent_eq]; rfl
  · match k, ha with
    | 0, ha =>
      refine small (l := valueBody.letters) ?_ ha
      rw [valueBody_eq, number_eq, string_eq, chars, validChar_eq, integer_eq, fraction_eq, exponent_eq]; rfl
    | 1, ha =>
      refine small (l := objectBody.letters) ?_ ha
      rw [objectBody_eq, pair_eq, chars, validChar_eq]; rfl
    | 2, ha =>
      refine small (l := arrayBody.letters) ?_ ha
      rw [arrayBody_eq]; rfl
    | _ + 3, ha => nomatch ha

/-- The JSON example cannot tell characters outside ASCII apart: replacing some by others changes neither what is
accepted nor where the parts of the result lie. -/
theorem C72_json (p : Parser Nat) (hp : p ∈ [jsonValue, jsonObject, jsonArray, string, number]) (m : Machine) (mem' : Mem Nat)
    (hm : ∀ b, List.Forall₂ (fun x y => x = y ∨ 128 ≤ x ∧ 128 ≤ y) (m.mem b) (mem' b)) (s : Span) :
    Parse (ctx { m with mem := mem' }) p s = Parse (ctx m) p s ∧
      Look (ctx { m with mem := mem' }) p s = Look (ctx m) p s := by
  refine C72_indistinguishable (ctx m) p mem' (fun b => (hm b).imp fun x y hxy a ha => ?_) s
  have := letters_ascii hp m a ha
  show (a == x) = (a == y)
  rcases hxy with rfl | ⟨h1, h2⟩
  · rfl
  · rw [beq_false_of_ne (by omega), beq_false_of_ne (by omega)]

end Json

end Tok3n
