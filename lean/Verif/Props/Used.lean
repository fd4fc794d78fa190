import Verif.Proof.Used
import Verif.Props.Safety
/-
C76: a parser depends on what it is made of, and on nothing else of the program.
-/

namespace Tok3n

variable {α β : Type}

section
variable (C : Ctx α β) (p : Parser α) (c : Nat → CustomDef α) (r : Nat → List Ty → Option Ty)
  (g : Nat → List Val → Except Nat Val)

/-- What `lookahead` does is determined by the `get_parser()` of the custom parsers `p` uses.  Any other custom parser,
the declared types, and all callbacks may be replaced. -/
theorem C76_lookahead (h : ∀ k, Uses C p (.custom k) → (c k).body = (C.custom k).body) :
    Look (C.redefine c r g) p = Look C p :=
  Look_redefine (fun k hk => .inl (h k hk)) p .self

/-- What `parse` does, and the type of its value, is determined by that, by the custom parsers it parses with (those that
are not below `ignore`), and by the callbacks given to `map` and `filter` there. -/
theorem C76_parse (h : ∀ k, Uses C p (.custom k) → (c k).body = (C.custom k).body)
    (hc : ∀ k, ParseReach C p (.custom k) → c k = C.custom k)
    (hf : ∀ q f k, (ParseReach C p (.map q f) ∨ ParseReach C p (.filter q f)) → f.Calls k →
      r k = C.fnRet k ∧ g k = C.fnCall k) :
    Parse (C.redefine c r g) p = Parse C p ∧ resultFor (C.redefine c r g) p = resultFor C p :=
  ⟨Parse_redefine (fun k hk => .inl (h k hk)) ⟨hc, hf⟩ p .refl, resultFor_redefine p ⟨hc, hf⟩⟩

theorem parseReach_redefine {p q : Parser α} (hc : ∀ k, ParseReach C p (.custom k) → c k = C.custom k) :
    ParseReach (C.redefine c r g) p q ↔ ParseReach C p q := by
  constructor
  · intro h
    induction h with
    | refl => exact .refl
    | @step p q x hch _ ih =>
      have hch' : ParseChild C p q := by
        cases hch with
        | custom =>
          rw [show (C.redefine c r g).custom = c from rfl, hc _ .refl]
          exact .custom
        | choice h => exact .choice h
        | sequence h => exact .sequence h
        | _ => constructor
      exact .step hch' (ih fun k hk => hc k (.step hch' hk))
  · intro h
    induction h with
    | refl => exact .refl
    | @step p q x hch _ ih =>
      have ih := ih fun k hk => hc k (.step hch hk)
      refine .step ?_ ih
      cases hch with
      | @custom k =>
        have e : (C.redefine c r g).custom k = C.custom k := hc k .refl
        rw [← e]
        exact .custom
      | choice h => exact .choice h
      | sequence h => exact .sequence h
      | _ => constructor

theorem uses_redefine {p q : Parser α} (hc : ∀ k, Uses C p (.custom k) → (c k).body = (C.custom k).body) :
    Uses (C.redefine c r g) p q ↔ Uses C p q := by
  constructor
  · intro h
    induction h with
    | self => exact .self
    | part hp _ ih => exact .part hp (ih fun k hk => hc k (.part hp hk))
    | @custom k x _ ih =>
      have e : ((C.redefine c r g).custom k).body = (C.custom k).body := hc k .self
      rw [e] at ih
      exact .custom (ih fun j hj => hc j (.custom hj))
  · intro h
    induction h with
    | self => exact .self
    | part hp _ ih => exact .part hp (ih fun k hk => hc k (.part hp hk))
    | @custom k x _ ih =>
      have e : ((C.redefine c r g).custom k).body = (C.custom k).body := hc k .self
      refine .custom ?_
      rw [e]
      exact ih fun j hj => hc j (.custom hj)

/-- Whether `p.parse(input)` compiles is determined by the same. -/
theorem C76_compiles [LinearOrder α] (h : ∀ k, Uses C p (.custom k) → (c k).body = (C.custom k).body)
    (hc : ∀ k, ParseReach C p (.custom k) → c k = C.custom k)
    (hf : ∀ q f k, (ParseReach C p (.map q f) ∨ ParseReach C p (.filter q f)) → f.Calls k →
      r k = C.fnRet k ∧ g k = C.fnCall k) :
    CompilesAlone (C.redefine c r g) p ↔ CompilesAlone C p := by
  have hk : Keeps C c r g p := ⟨hc, hf⟩
  have key : ∀ k, ParseReach C p (.custom k) →
      (C.redefine c r g).custom k = C.custom k ∧
      tyOK (C.redefine c r g) (C.custom k).body = tyOK C (C.custom k).body ∧
      parseOK (C.redefine c r g) (C.custom k).body = parseOK C (C.custom k).body ∧
      resultFor (C.redefine c r g) (C.custom k).body = resultFor C (C.custom k).body := fun k hr =>
    have hb := (hk.reach hr).child .custom
    ⟨hc k hr, tyOK_redefine _ hb, parseOK_redefine _ hb, resultFor_redefine _ hb⟩
  constructor
  · intro hcomp
    refine ⟨hcomp.wf, (tyOK_redefine p hk).symm.trans hcomp.ty, (parseOK_redefine p hk).symm.trans hcomp.parse,
      fun k hu => ?_, fun k hr => ?_⟩
    · have := hcomp.bodies k ((uses_redefine C c r g h).2 hu)
      rwa [show ((C.redefine c r g).custom k).body = (C.custom k).body from h k hu] at this
    · have := hcomp.custom k ((parseReach_redefine C c r g hc).2 hr)
      obtain ⟨e, e1, e2, e3⟩ := key k hr
      rwa [e, e1, e2, e3] at this
  · intro hcomp
    refine ⟨hcomp.wf, (tyOK_redefine p hk).trans hcomp.ty, (parseOK_redefine p hk).trans hcomp.parse,
      fun k hu => ?_, fun k hr => ?_⟩
    · have hu := (uses_redefine C c r g h).1 hu
      rw [show ((C.redefine c r g).custom k).body = (C.custom k).body from h k hu]
      exact hcomp.bodies k hu
    · have hr := (parseReach_redefine C c r g hc).1 hr
      obtain ⟨e, e1, e2, e3⟩ := key k hr
      rw [e, e1, e2, e3]
      exact hcomp.custom k hr

end

/-- A parser that compiles in a program of which everything compiles, compiles alone. -/
theorem C76_of_compiles [LinearOrder α] {C : Ctx α β} {p : Parser α} (h : Compiles C p) : CompilesAlone C p :=
  ⟨h.wf, h.ty, h.parse, fun k _ => h.ctx.wf k, fun k _ => ⟨h.ctx.ty k, h.ctx.parse k, h.ctx.inferred k⟩⟩

/-- Conversely, a parser that compiles alone may be taken out of its program: there is a program, all of which compiles,
with the custom parsers `p` parses with and the same callbacks, in which `p` and everything in it does exactly the same.
So whatever has been proved for parsers that compile in programs of which everything compiles, holds for it. -/
theorem C76_alone [LinearOrder α] (C : Ctx α β) (p : Parser α) (h : CompilesAlone C p) :
    ∃ c, Compiles (C.redefine c C.fnRet C.fnCall) p ∧
      (∀ k, ParseReach C p (.custom k) → c k = C.custom k) ∧
      (∀ q, ParseReach C p q → Parse (C.redefine c C.fnRet C.fnCall) q = Parse C q ∧
        resultFor (C.redefine c C.fnRet C.fnCall) q = resultFor C q) ∧
      ∀ q, Uses C p q → Look (C.redefine c C.fnRet C.fnCall) q = Look C q := by
  classical
  let c : Nat → CustomDef α := fun k =>
    if ParseReach C p (.custom k) then C.custom k
    else if Uses C p (.custom k) then ⟨.ignore (C.custom k).body, true, (C.custom k).ty⟩
    else ⟨.epsilon, true, .void⟩
  have h1 : ∀ k, ParseReach C p (.custom k) → c k = C.custom k := fun k hk => if_pos hk
  have hk : Keeps C c C.fnRet C.fnCall p := ⟨h1, fun _ _ _ _ _ => ⟨rfl, rfl⟩⟩
  have hb : Bodies C c p := fun k hu => by
    by_cases hr : ParseReach C p (.custom k)
    · exact .inl (by rw [h1 k hr])
    · exact .inr (by simp only [c, if_neg hr, if_pos hu])
  refine ⟨c, ⟨⟨fun k => ?_, fun k => ?_, fun k => ?_, fun k => ?_⟩, h.wf, (tyOK_redefine p hk).trans h.ty,
    (parseOK_redefine p hk).trans h.parse⟩, h1, fun q hq => ⟨Parse_redefine hb hk q hq, resultFor_redefine q (hk.reach hq)⟩,
    fun q hq => Look_redefine hb q hq⟩
  all_goals
    show _
    rw [show (C.redefine c C.fnRet C.fnCall).custom = c from rfl]
    by_cases hr : ParseReach C p (.custom k)
  · rw [h1 k hr]; exact h.bodies k (parseReach_uses hr)
  · by_cases hu : Uses C p (.custom k)
    · simp only [c, if_neg hr, if_pos hu, Parser.wf]; exact h.bodies k hu
    · simp [c, if_neg hr, if_neg hu, Parser.wf]
  · rw [h1 k hr]; exact (tyOK_redefine _ ((hk.reach hr).child .custom)).trans (h.custom k hr).1
  · by_cases hu : Uses C p (.custom k)
    · simp [c, if_neg hr, if_pos hu, tyOK]
    · simp [c, if_neg hr, if_neg hu, tyOK]
  · rw [h1 k hr]; exact (parseOK_redefine _ ((hk.reach hr).child .custom)).trans (h.custom k hr).2.1
  · by_cases hu : Uses C p (.custom k)
    · simp [c, if_neg hr, if_pos hu, parseOK]
    · simp [c, if_neg hr, if_neg hu, parseOK]
  · rw [h1 k hr, resultFor_redefine _ ((hk.reach hr).child .custom)]; exact (h.custom k hr).2.2
  · by_cases hu : Uses C p (.custom k)
    · simp [c, if_neg hr, if_pos hu]
    · simp [c, if_neg hr, if_neg hu]

/-- For instance: the value of a parser that compiles alone has the type documented for it. -/
theorem C76_value_has_type [LinearOrder α] (C : Ctx α β) (p : Parser α) (s s' : Span) (h : CompilesAlone C p)
    (ht : C.Typed) (log : List Call) (v : Val) (hp : Parses C p s log v s') : HasTy (resultFor C p) v := by
  obtain ⟨c, hc, -, hq, -⟩ := C76_alone C p h
  obtain ⟨e, e'⟩ := hq p .refl
  rw [← e']
  exact C43_value_has_type (C.redefine c C.fnRet C.fnCall) p s s' hc ⟨ht.fn, ht.const, ht.ctor, ht.dflt, ht.conv, ht.convOpt⟩
    log v (show Parse _ p s = _ from (congrFun e s).trans hp)

/-- A program in which custom parser 0 is fine, custom parser 1 is never parsed with, only `ignore`d (its declared type
cannot be made from that of its body), and custom parser 2 is no parser at all: its list is not sorted. -/
def Ex.partly (text : String) : Ctx Nat Nat :=
  { Ex.ctx text with custom := fun
      | 0 => ⟨.sequence [Ex.all "a", .ignore (.custom 1)], false, .span⟩
      | 1 => ⟨.map (Ex.all "b") (.user 9), true, .user 5⟩
      | _ => ⟨.anyOf [2, 1], true, .span⟩ }

example : CompilesAlone (Ex.partly "ab") (.custom 0) ∧ ¬ Compiles (Ex.partly "ab") (.custom 0) ∧
    Parses (Ex.partly "ab") (.custom 0) (Ex.input "ab") [] (.span ⟨.at 0 0, 1⟩) ⟨.at 0 2, 0⟩ := by
  have key : ∀ {p q : Parser Nat}, Uses (Ex.partly "ab") p q → (p = .custom 0 ∨ p = .sequence [Ex.all "a", .ignore (.custom 1)] ∨
      p = Ex.all "a" ∨ p = .ignore (.custom 1) ∨ p = .custom 1 ∨ p = .map (Ex.all "b") (.user 9) ∨ p = Ex.all "b") →
      (q = .custom 0 ∨ q = .sequence [Ex.all "a", .ignore (.custom 1)] ∨
      q = Ex.all "a" ∨ q = .ignore (.custom 1) ∨ q = .custom 1 ∨ q = .map (Ex.all "b") (.user 9) ∨ q = Ex.all "b") := by
    intro p q h
    induction h with
    | self => exact id
    | part hp _ ih =>
      intro h
      apply ih
      rcases h with rfl | rfl | rfl | rfl | rfl | rfl | rfl <;>
        simp only [Parser.parts, Ex.all, List.mem_cons, List.not_mem_nil, or_false] at hp
      · rcases hp with rfl | rfl <;> simp [Ex.all]
      · subst hp; simp
      · subst hp; simp [Ex.all]
    | custom _ ih =>
      intro h
      apply ih
      rcases h with h | h | h | h | h | h | h <;> cases h
      · exact .inr (.inl rfl)
      · exact .inr (.inr (.inr (.inr (.inr (.inl rfl)))))
  have key' : ∀ {p q : Parser Nat}, ParseReach (Ex.partly "ab") p q → (p = .custom 0 ∨
      p = .sequence [Ex.all "a", .ignore (.custom 1)] ∨ p = Ex.all "a" ∨ p = .ignore (.custom 1)) →
      (q = .custom 0 ∨ q = .sequence [Ex.all "a", .ignore (.custom 1)] ∨ q = Ex.all "a" ∨ q = .ignore (.custom 1)) := by
    intro p q h
    induction h with
    | refl => exact id
    | step hp _ ih =>
      intro h
      apply ih
      rcases h with rfl | rfl | rfl | rfl
      · cases hp; exact .inr (.inl rfl)
      · cases hp with
        | sequence hp =>
          simp only [List.mem_cons, List.not_mem_nil, or_false] at hp
          rcases hp with rfl | rfl <;> simp
      · cases hp
      · cases hp
  refine ⟨⟨rfl, rfl, rfl, fun k hk => ?_, fun k hk => ?_⟩, fun h => absurd (h.ctx.wf 2) (by decide), Ex.parses _ 9 rfl⟩
  · rcases key hk (.inl rfl) with h | h | h | h | h | h | h <;> cases h <;> rfl
  · rcases key' hk (.inl rfl) with h | h | h | h <;> cases h
    exact ⟨rfl, rfl, fun _ => rfl⟩

end Tok3n
