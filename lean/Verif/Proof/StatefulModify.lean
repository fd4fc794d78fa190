import Verif.Proof.StatefulCompound
import Verif.Proof.Modify
import Verif.Proof.Join
import Verif.Proof.StatefulTyping
/-
Calls of function objects of every kind; `ignore`, `complete`, `named`, `custom` and `join`
with stateful callbacks.
-/

namespace Tok3n.Stateful

variable {σ α β A B : Type} {C : Ctx α β} {U : Callbacks σ}

/-! ### Function objects -/

theorem answer_eq (c : Call) (f : σ → Except Nat Val × σ) (st : σ) :
    answer c f st = match f st with
      | (.ok x, st') => .done [c] (.ok (x, st'))
      | (.error e, _) => .done [c] (.err (.exn e)) := by
  simp only [answer, M.bind_eq, M.log, M.bind]
  rcases f st with ⟨e | x, st'⟩ <;> rfl

theorem answer_ok {c : Call} {f : σ → Except Nat Val × σ} {st : σ} {l x st'} :
    answer c f st = .done l (.ok (x, st')) ↔ l = [c] ∧ f st = (.ok x, st') := by
  rw [answer_eq]
  rcases f st with ⟨e | y, st1⟩ <;> simp [eq_comm]
theorem answer_err {c : Call} {f : σ → Except Nat Val × σ} {st : σ} {l e} :
    answer c f st = .done l (.err e) ↔ l = [c] ∧ ∃ x st', f st = (.error x, st') ∧ e = .exn x := by
  rw [answer_eq]
  rcases f st with ⟨e | y, st1⟩ <;> simp [eq_comm]
theorem answer_diverge {c : Call} {f : σ → Except Nat Val × σ} {st : σ} : answer c f st ≠ .diverge := by
  rw [answer_eq]
  rcases f st with ⟨e | y, st1⟩ <;> simp

theorem invoke_deflt (t : Ty) (args : List Val) (st : σ) :
    invoke C U (.deflt t) args st = match defaultVal C t with
      | some v => .done [⟨.deflt t, args⟩] (.ok (v, st))
      | none => .done [⟨.deflt t, args⟩] (.err .ill) := by
  simp only [invoke]
  cases defaultVal C t <;> rfl

theorem invoke_apply (f : Fn) (args : List Val) (st : σ) :
    (∃ v vs, args = [v] ∧ Components v vs ∧ invoke C U (.apply f) args st = invoke C U f vs st) ∨
      invoke C U (.apply f) args st = .done [] (.err .ill) := by
  match args with
  | [] => exact .inr rfl
  | [v] =>
    cases h : componentsOf v with
    | none => right; simp only [invoke, h]; rfl
    | some vs => exact .inl ⟨v, vs, rfl, componentsOf_iff.1 h, by simp only [invoke, h]⟩
  | _ :: _ :: _ => exact .inr rfl

theorem invoke_ok (f : Fn) {args : List Val} {st : σ} {l x st'} :
    invoke C U f args st = .done l (.ok (x, st')) ↔ ∃ c, l = [c] ∧ Called C U f args st c (.ok x) st' := by
  induction f generalizing args with
  | user k =>
    rw [invoke, answer_ok]
    constructor
    · rintro ⟨rfl, h⟩; exact ⟨_, rfl, .user h⟩
    · rintro ⟨c, rfl, h⟩; cases h with | user h => exact ⟨rfl, h⟩
  | construct t =>
    rw [invoke, answer_ok]
    constructor
    · rintro ⟨rfl, h⟩; exact ⟨_, rfl, .construct h⟩
    · rintro ⟨c, rfl, h⟩; cases h with | construct h => exact ⟨rfl, h⟩
  | const k =>
    rw [invoke, answer_ok]
    constructor
    · rintro ⟨rfl, h⟩; cases h; exact ⟨_, rfl, .const⟩
    · rintro ⟨c, rfl, h⟩; cases h with | const => exact ⟨rfl, rfl⟩
  | deflt t =>
    rw [invoke_deflt]
    constructor
    · intro h
      split at h
      · cases h; exact ⟨_, rfl, .deflt ‹_›⟩
      · cases h
    · rintro ⟨c, rfl, h⟩
      cases h with | deflt h => rw [h]
  | apply f ih =>
    constructor
    · intro h
      rcases invoke_apply (C := C) (U := U) f args st with ⟨v, vs, rfl, hv, h'⟩ | h' <;> rw [h'] at h
      · obtain ⟨c, rfl, h1⟩ := ih.1 h
        exact ⟨c, rfl, .apply hv h1⟩
      · cases h
    · rintro ⟨c, rfl, h⟩
      cases h with
      | apply h1 h2 =>
        simp only [invoke, componentsOf_iff.2 h1]
        exact ih.2 ⟨c, rfl, h2⟩

theorem invoke_err (f : Fn) {args : List Val} {st : σ} {l e} (he : e ≠ .ill) :
    invoke C U f args st = .done l (.err e) ↔
      ∃ c x st', l = [c] ∧ Called C U f args st c (.error x) st' ∧ e = .exn x := by
  induction f generalizing args with
  | user k =>
    rw [invoke, answer_err]
    constructor
    · rintro ⟨rfl, x, st', h, rfl⟩; exact ⟨_, x, st', rfl, .user h, rfl⟩
    · rintro ⟨c, x, st', rfl, h, rfl⟩; cases h with | user h => exact ⟨rfl, x, st', h, rfl⟩
  | construct t =>
    rw [invoke, answer_err]
    constructor
    · rintro ⟨rfl, x, st', h, rfl⟩; exact ⟨_, x, st', rfl, .construct h, rfl⟩
    · rintro ⟨c, x, st', rfl, h, rfl⟩; cases h with | construct h => exact ⟨rfl, x, st', h, rfl⟩
  | const k =>
    rw [invoke, answer_err]
    constructor
    · rintro ⟨rfl, x, st', h, rfl⟩; cases h
    · rintro ⟨c, x, st', rfl, h, rfl⟩; cases h
  | deflt t =>
    rw [invoke_deflt]
    constructor
    · intro h
      split at h
      · cases h
      · cases h; exact absurd rfl he
    · rintro ⟨c, x, st', rfl, h, rfl⟩; cases h
  | apply f ih =>
    constructor
    · intro h
      rcases invoke_apply (C := C) (U := U) f args st with ⟨v, vs, rfl, hv, h'⟩ | h' <;> rw [h'] at h
      · obtain ⟨c, x, st', rfl, h1, rfl⟩ := ih.1 h
        exact ⟨c, x, st', rfl, .apply hv h1, rfl⟩
      · cases h; exact absurd rfl he
    · rintro ⟨c, x, st', rfl, h, rfl⟩
      cases h with
      | apply h1 h2 =>
        simp only [invoke, componentsOf_iff.2 h1]
        exact ih.2 ⟨c, x, st', rfl, h2, rfl⟩

theorem invoke_diverge (f : Fn) {args : List Val} {st : σ} : invoke C U f args st ≠ .diverge := by
  induction f generalizing args with
  | user k => exact answer_diverge
  | construct t => exact answer_diverge
  | const k => exact answer_diverge
  | deflt t => rw [invoke_deflt]; split <;> nofun
  | apply f ih =>
    rcases invoke_apply (C := C) (U := U) f args st with ⟨v, vs, rfl, hv, h'⟩ | h' <;> rw [h']
    · exact ih
    · nofun

/-! ### Modifiers -/

theorem Parse_ignore (p : Parser α) (s : Span) : Parse C U (.ignore p) s = Look C U p s := by
  rw [Parse_eq]; exact lim_const _
theorem Parse_named (p : Parser α) (n : Name) (s : Span) : Parse C U (.named p n) s = Parse C U p s := by
  rw [Parse_eq]; exact lim_const _
theorem Parse_complete (p : Parser α) (s : Span) : Parse C U (.complete p) s = parseComplete (den C U p) s := by
  rw [Parse_eq]; exact lim_const _
theorem Parse_custom (k : Nat) (s : Span) : Parse C U (.custom k) s =
    parseCustom C (resultFor C (C.custom k).body) (C.custom k).ty (den C U (C.custom k).body) s := by
  rw [Parse_eq]; exact lim_const _

theorem Parse_complete_eq (p : Parser α) (s : Span) (st : σ) :
    Parse C U (.complete p) s st = M.bind (Parse C U p s st) fun x =>
      M.pure (if x.1.val.isSome = true ∧ x.1.rem.len = 0 then x.1 else R.failure s, x.2) := by
  rw [Parse_complete]
  show M.bind (Parse C U p s st) _ = _
  refine M.bind_congr fun x => ?_
  obtain ⟨⟨v, t⟩, st1⟩ := x
  show (if (!v.isSome || !t.empty) = true then SRun.pure (R.failure s) else SRun.pure ⟨v, t⟩ : SRun σ R) st1 =
    M.pure (if v.isSome = true ∧ t.len = 0 then ⟨v, t⟩ else R.failure s, st1)
  by_cases h : v.isSome = true ∧ t.len = 0
  · rw [if_pos h, if_neg (by simp [h.1, Span.empty, h.2])]; rfl
  · rw [if_neg h, if_pos]
    · rfl
    · revert h
      cases v.isSome <;> simp [Span.empty]

/-! ### join -/

theorem Parse_typed [LinearOrder α] {p : Parser α} (hc : Compiles C p) (ht : ∀ st, (freeze C U st).Typed) (s : Span) :
    Sat (Parse C U p s) (GoodV (SLocal C U p) (resultFor C p) s) (OkErr C (SSafe C U p) s) := fun st => by
  rw [← Parse_freeze C U st]
  refine Parse_sat (fun n => ?_) st
  have := sem_typed (C := freeze C U st) (U := U) st (ht st) ht
    (fun k => by rw [tyOK_freeze]; exact hc.ctx.ty k)
    (fun k => by rw [parseOK_freeze]; exact hc.ctx.parse k) n p
    (by rw [tyOK_freeze]; exact hc.ty) (by rw [parseOK_freeze]; exact hc.parse) s
  rw [resultFor_freeze] at this
  exact this


theorem semJoin_generic {rec : Parser α → Sub σ} {k : Nat} {p : Parser α} (h : ¬ JoinSpec C p) :
    semJoin C rec k p = joinGeneric C (rec p) := by
  cases p with
  | exactly q n =>
    simp only [semJoin]
    cases hb : asBasic C q with
    | none => rfl
    | some b => exact absurd (.exactly hb) h
  | maybe q =>
    simp only [semJoin]
    cases hb : asBasic C q with
    | none => rfl
    | some b => exact absurd (.maybe hb) h
  | oneOrMore q =>
    simp only [semJoin]
    cases hb : asBasic C q with
    | none => rfl
    | some b => exact absurd (.oneOrMore hb) h
  | zeroOrMore q =>
    simp only [semJoin]
    cases hb : asBasic C q with
    | none => rfl
    | some b => exact absurd (.zeroOrMore hb) h
  | _ => rfl

theorem sem_basic {q : Parser α} {b : BasicP α} (h : asBasic C q = some b) (n : Nat) (U V : Callbacks σ) :
    sem C U n q = sem C V n q := by
  cases n with
  | zero => rfl
  | succ n => cases q <;> first | rfl | (exact absurd h nofun)

/-- no callback is called by what `join` has specialisations for -/
theorem sem_joinSpec {p : Parser α} (h : JoinSpec C p) (n : Nat) (U V : Callbacks σ) :
    sem C U n p = sem C V n p ∧ sem C U n (.join p) = sem C V n (.join p) := by
  cases n with
  | zero => exact ⟨rfl, rfl⟩
  | succ n =>
    cases h <;> rename_i h <;> (simp only [sem, step, semJoin, h, sem_basic h n U V]; exact ⟨trivial, trivial⟩)

theorem Parse_joinSpec {p : Parser α} (h : JoinSpec C p) (U V : Callbacks σ) (s : Span) :
    Parse C U p s = Parse C V p s ∧ Parse C U (.join p) s = Parse C V (.join p) s := by
  constructor <;> funext st <;> unfold Parse
  · simp only [(sem_joinSpec h _ U V).1]
  · simp only [(sem_joinSpec h _ U V).2]

theorem Parse_join (p : Parser α) (s : Span) : Parse C U (.join p) s = parseJoin C (den C U p) s := by
  by_cases h : JoinSpec C p
  · have hl : ParseLift (σ := σ) (den C (Callbacks.ofCtx C) p) (Tok3n.den C p) := fun s => Parse_lift C p s
    have h1 : parseJoin C (den C U p) s = parseJoin C (den C (Callbacks.ofCtx C) p) s := by
      simp only [parseJoin, den, (Parse_joinSpec h U (Callbacks.ofCtx C) s).1]
    rw [h1, (Parse_joinSpec h U (Callbacks.ofCtx C) s).2, parseJoin_lift C hl, ← Tok3n.Parse_join_eq]
    exact Parse_lift C (.join p) s
  · rw [Parse_eq]
    simp only [step, semJoin_generic h]
    exact lim_const _

end Tok3n.Stateful
