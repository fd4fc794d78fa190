import Verif.Proof.Replace
import Verif.Proof.Compile
import Verif.Props.Modify
/-
C62: a part may be replaced by one that cannot be told from it.
-/

namespace Tok3n

variable {α β : Type}

section
variable (C : Ctx α β)

/-- If `p` and `q` cannot be told apart, neither can any parser with `p` inside from the same parser with `q` there
instead, at any depth.  For all parsers, whether they compile or not. -/
theorem C62_replace (place : List (Frame α)) (p q : Parser α) (h : Interchangeable C p q) :
    Interchangeable C (plug place p) (plug place q) := by
  induction place with
  | nil => exact h
  | cons f fs ih => exact f.interchangeable ih

/-- For looking ahead it is enough that `p` and `q` look ahead in the same way; their types may differ. -/
theorem C62_lookahead (place : List (Frame α)) (p q : Parser α) (h : SameLookahead C p q) :
    SameLookahead C (plug place p) (plug place q) := by
  induction place with
  | nil => exact h
  | cons f fs ih => exact f.look ih

/-- Several parts can be replaced one after the other, and back again. -/
theorem C62_equivalence : Equivalence (Interchangeable (α := α) C) :=
  ⟨.refl, .symm, .trans⟩

/-- A name can be put around a part or taken away anywhere. -/
theorem C62_named (place : List (Frame α)) (p : Parser α) (n : Name) :
    Interchangeable C (plug place (.named p n)) (plug place p) :=
  C62_replace C place _ _ ⟨by rw [resultFor], fun s _ => Parse_named s p n, fun s _ => Look_named s p n⟩

end

section
variable [LinearOrder α] (C : Ctx α β)

/-- A part can be made into a custom parser of the same type anywhere, and back. -/
theorem C62_custom (place : List (Frame α)) (k : Nat) (hc : Compiles C (.custom k))
    (hk : (C.custom k).ty = resultFor C (C.custom k).body) :
    Interchangeable C (plug place (.custom k)) (plug place (C.custom k).body) :=
  C62_replace C place _ _ ⟨by rw [resultFor, hk], fun s _ => (C41_custom C k hc s).2.2.2.1 hk,
    fun s _ => (C41_custom C k hc s).1⟩

omit [LinearOrder α] in
theorem tysOK_append (xs ys : List (Parser α)) : tysOK C (xs ++ ys) = (tysOK C xs && tysOK C ys) := by
  induction xs with
  | nil => simp [tysOK]
  | cons x xs ih => simp [tysOK, ih, Bool.and_assoc]

omit [LinearOrder α] in
theorem parsesOK_around {p q : Parser α} (h : parseOK C p = true → parseOK C q = true) (b a : List (Parser α))
    (is : List (Option Nat)) (hp : parsesOK C (b ++ p :: a) is = true) : parsesOK C (b ++ q :: a) is = true := by
  induction b generalizing is with
  | nil =>
    match is with
    | [] => simp [parsesOK]
    | none :: is => simpa [parsesOK] using hp
    | some i :: is =>
      simp only [List.nil_append, parsesOK, Bool.and_eq_true] at hp ⊢
      exact ⟨h hp.1, hp.2⟩
  | cons x b ih =>
    match is with
    | [] => simp [parsesOK]
    | none :: is =>
      simp only [List.cons_append, parsesOK] at hp ⊢
      exact ih is hp
    | some i :: is =>
      simp only [List.cons_append, parsesOK, Bool.and_eq_true] at hp ⊢
      exact ⟨hp.1, ih is hp.2⟩

theorem Frame.compiles (f : Frame α) {p q : Parser α} (h : resultFor C p = resultFor C q)
    (hwf : p.wf = true → q.wf = true) (hty : tyOK C p = true → tyOK C q = true)
    (hp : parseOK C p = true → parseOK C q = true) :
    ((f.fill p).wf = true → (f.fill q).wf = true) ∧ (tyOK C (f.fill p) = true → tyOK C (f.fill q) = true) ∧
    (parseOK C (f.fill p) = true → parseOK C (f.fill q) = true) := by
  have hl (b a : List (Parser α)) : resultsFor C (b ++ p :: a) = resultsFor C (b ++ q :: a) := by
    rw [resultsFor_eq, resultsFor_eq]; simp [h]
  cases f with
  | choice b a =>
    simp only [Frame.fill, Parser.wf, tyOK, parseOK, hl, Bool.and_eq_true, wfs_append, tysOK_append, Parser.wfs, tysOK]
    exact ⟨fun x => ⟨by simp, x.2.1, hwf x.2.2.1, x.2.2.2⟩, fun x => ⟨x.1, hty x.2.1, x.2.2⟩,
      fun x => ⟨⟨⟨⟨x.1.1.1.1, hty x.1.1.1.2.1, x.1.1.1.2.2⟩, x.1.1.2⟩, x.1.2⟩, parsesOK_around C hp b a _ x.2⟩⟩
  | sequence b a =>
    simp only [Frame.fill, Parser.wf, tyOK, parseOK, hl, Bool.and_eq_true, wfs_append, tysOK_append, Parser.wfs, tysOK]
    exact ⟨fun x => ⟨by simp, x.2.1, hwf x.2.2.1, x.2.2.2⟩, fun x => ⟨x.1, hty x.2.1, x.2.2⟩,
      fun x => ⟨⟨⟨⟨x.1.1.1.1, hty x.1.1.1.2.1, x.1.1.1.2.2⟩, x.1.1.2⟩, x.1.2⟩, parsesOK_around C hp b a _ x.2⟩⟩
  | _ =>
    simp only [Frame.fill, Parser.wf, tyOK, parseOK, h, Bool.and_eq_true]
    tauto

/-- If moreover `q` compiles wherever `p` does, every parser with `q` inside compiles if it does with `p`. -/
theorem C62_compiles (place : List (Frame α)) (p q : Parser α) (h : resultFor C p = resultFor C q)
    (hwf : p.wf = true → q.wf = true) (hty : tyOK C p = true → tyOK C q = true)
    (hp : parseOK C p = true → parseOK C q = true) (hc : Compiles C (plug place p)) : Compiles C (plug place q) := by
  have key : resultFor C (plug place p) = resultFor C (plug place q) ∧
      ((plug place p).wf = true → (plug place q).wf = true) ∧
      (tyOK C (plug place p) = true → tyOK C (plug place q) = true) ∧
      (parseOK C (plug place p) = true → parseOK C (plug place q) = true) := by
    clear hc
    induction place with
    | nil => exact ⟨h, hwf, hty, hp⟩
    | cons f fs ih => exact ⟨f.type ih.1, f.compiles C ih.1 ih.2.1 ih.2.2.1 ih.2.2.2⟩
  exact ⟨hc.ctx, key.2.1 hc.wf, key.2.2.1 hc.ty, key.2.2.2 hc.parse⟩

end

/-- The types have to be the same: `any("")` and `ignore(any(""))` both fail on every input, parsing and looking
ahead, but `any("") | ~"a"` and `ignore(any("")) | ~"a"` return different values for "a". -/
theorem C62_type_needed : ∃ (p q r : Parser Nat) (v w : Val),
    (∀ s : Span, s.Valid (Ex.ctx "a").mem → Parse (Ex.ctx "a") p s = Parse (Ex.ctx "a") q s ∧
      Look (Ex.ctx "a") p s = Look (Ex.ctx "a") q s) ∧
    Parses (Ex.ctx "a") (.choice [p, r]) (Ex.input "a") [] v ⟨.at 0 1, 0⟩ ∧
    Parses (Ex.ctx "a") (.choice [q, r]) (Ex.input "a") [] w ⟨.at 0 1, 0⟩ ∧ v ≠ w := by
  refine ⟨.anyOf [], .ignore (.anyOf []), .maybe (Ex.all "a"),
    .var 1 (.opt (some (.span ⟨.at 0 0, 1⟩))), .opt (some (.span ⟨.at 0 0, 1⟩)),
    fun s hs => ?_, Ex.parses _ 6 rfl, Ex.parses _ 6 rfl, nofun⟩
  have hn : (BasicP.anyOf ([] : List Nat)).accepts (Ex.ctx "a").eqv (s.elems (Ex.ctx "a").mem) = false := by
    cases s.elems (Ex.ctx "a").mem <;> simp [BasicP.accepts]
  rw [Parse_ignore, Look_ignore, Parse_class (b := .anyOf []) rfl hs, Look_class (b := .anyOf []) rfl hs, hn]
  exact ⟨rfl, rfl⟩

-- `~(named "x") >> "b"` and `~"x" >> "b"`; the named part stands in a maybe in a sequence
example : Interchangeable (Ex.ctx "xb")
    (.sequence [.maybe (.named (Ex.all "x") ⟨0, []⟩), Ex.all "b"]) (.sequence [.maybe (Ex.all "x"), Ex.all "b"]) :=
  C62_named (Ex.ctx "xb") [.sequence [] [Ex.all "b"], .maybe] (Ex.all "x") ⟨0, []⟩

-- a custom parser whose type is that of its definition, under a repetition
example : Interchangeable (Ex.ctx "xx") (.zeroOrMore (.custom 1)) (.zeroOrMore (Ex.ctx "xx" |>.custom 1 |>.body)) :=
  C62_custom (Ex.ctx "xx") [.zeroOrMore] 1 ⟨Ex.ctx_ok _, rfl, rfl, rfl⟩ rfl

end Tok3n
