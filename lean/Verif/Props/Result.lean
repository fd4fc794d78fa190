import Verif.Spec.Result
import Verif.Spec.Example
/-
C66: what a program can do with the result of a parse.
-/

namespace Tok3n.Result

variable {α β : Type}

/-- what an object has to do with the history -/
def Tells (P : Prog α β) (h : List Op) (x : Nat) : Option Obj → Prop
  | none => fate P h x = none
  | some (.value opt rem) =>
    P.ty x ≠ .void ∧ fate P h x = some (opt.isSome, rem) ∧ ∀ v, held P h x = some v → opt = some v
  | some (.void ok rem) => P.ty x = .void ∧ ∃ b, ok = some b ∧ fate P h x = some (b, rem)

theorem Tells.frame {P : Prog α β} {h : List Op} {op : Op} {z : Nat} {o : Option Obj} (t : Tells P h z o)
    (f : fate P (op :: h) z = fate P h z)
    (v : held P (op :: h) z = held P h z ∨ held P (op :: h) z = none) : Tells P (op :: h) z o := by
  match o with
  | none => exact f.trans t
  | some (.value opt rem) =>
    refine ⟨t.1, f.trans t.2.1, fun w hw => ?_⟩
    rcases v with v | v
    · exact t.2.2 w (v ▸ hw)
    · rw [v] at hw; cases hw
  | some (.void ok rem) =>
    obtain ⟨a, b, c, d⟩ := t
    exact ⟨a, b, c, f.trans d⟩

theorem set_self (σ : Store) (x : Nat) (o : Obj) : σ.set x o x = some o := if_pos rfl
theorem set_other (σ : Store) {x z : Nat} (o : Obj) (h : z ≠ x) : σ.set x o z = σ z := if_neg h

/-- what is constructed from an object that tells the history tells it too -/
theorem construct_tells {P : Prog α β} {h : List Op} {x y : Nat} {o o' : Obj}
    (t : Tells P h y (some o)) (c : construct P.C (P.ty y) (P.ty x) o = .ok o') (op : Op)
    (f : fate P (op :: h) x = (fate P h y).map fun r =>
      (r.1 || (decide (P.ty y ≠ P.ty x) && (fromOptional P.C (P.ty y) (P.ty x)).isSome), r.2))
    (v : held P (op :: h) x = none ∨ held P (op :: h) x = converted P y x (held P h y)) : Tells P (op :: h) x (some o') := by
  match o with
  | .void ok rem =>
    obtain ⟨ht, b, rfl, hf⟩ := t
    simp only [construct] at c
    split at c
    · rename_i e
      cases c
      refine ⟨e ▸ ht, b, rfl, ?_⟩
      rw [f, hf]; simp [e]
    · cases c
  | .value opt rem =>
    obtain ⟨ht, hf, hv⟩ := t
    simp only [construct] at c
    split at c
    · rename_i e
      cases c
      refine ⟨e ▸ ht, ?_, fun w hw => ?_⟩
      · rw [f, hf]; simp [e]
      · rcases v with v | v
        · rw [v] at hw; cases hw
        · rw [v, converted, if_pos e] at hw; exact hv w hw
    · rename_i e
      split at c
      · cases c
      · rename_i nv
        split at c
        · rename_i g hg
          cases c
          refine ⟨nv, ?_, fun w hw => ?_⟩
          · rw [f, hf]; simp [e, hg]
          · rcases v with v | v
            · rw [v] at hw; cases hw
            · rw [v, converted, if_neg e, hg] at hw; cases hw
        · rename_i hg
          split at c
          · rename_i g hc
            cases c
            refine ⟨nv, ?_, fun w hw => ?_⟩
            · rw [f, hf]; simp [hg]
            · rcases v with v | v
              · rw [v] at hw; cases hw
              · rw [v, converted, if_neg e, hg, hc] at hw
                obtain ⟨u, hu, rfl⟩ := Option.map_eq_some_iff.1 hw
                rw [hv u hu]; rfl
          · cases c

theorem moved_tells {P : Prog α β} {h : List Op} {y : Nat} {o : Obj} {op : Op} {g : Val → Val}
    (t : Tells P h y (some o)) (f : fate P (op :: h) y = fate P h y) (v : held P (op :: h) y = none) :
    Tells P (op :: h) y (some (o.moved g)) := by
  match o with
  | .void ok rem =>
    obtain ⟨a, b, c, d⟩ := t
    exact ⟨a, b, c, f.trans d⟩
  | .value opt rem =>
    obtain ⟨a, b, c⟩ := t
    refine ⟨a, ?_, fun w hw => ?_⟩
    · rw [f, b]; cases opt <;> rfl
    · rw [v] at hw; cases hw

theorem construct_same {C : Ctx α β} {t : Ty} {o o' : Obj} (c : construct C t t o = .ok o') : o' = o := by
  cases o <;> simp only [construct, if_true] at c
  · cases c; rfl
  · split at c <;> cases c; rfl

theorem exec_tells {P : Prog α β} {h : List Op} {σ : Store} (t : ∀ z, Tells P h z (σ z)) {op : Op}
    {r : Store × Obs} (e : exec P σ op = .ok r) (i : Initialized P (op :: h)) (z : Nat) :
    Tells P (op :: h) z (r.1 z) := by
  cases op with
  | declare x =>
    cases e
    by_cases hz : z = x
    · subst hz
      dsimp only
      rw [set_self, if_neg (i z (.head _))]
      refine ⟨i z (.head _), ?_, ?_⟩ <;> simp [fate, held]
    · dsimp only
      rw [set_other _ _ hz]
      exact (t z).frame (by simp [fate, hz]) (.inl (by simp [held, hz]))
  | init x =>
    cases e
    by_cases hz : z = x
    · subst hz
      dsimp only
      rw [set_self]
      split
      · rename_i hv; exact ⟨hv, false, rfl, by simp [fate]⟩
      · rename_i hv; exact ⟨hv, by simp [fate], by simp [held]⟩
    · dsimp only
      rw [set_other _ _ hz]
      exact (t z).frame (by simp [fate, hz]) (.inl (by simp [held, hz]))
  | failure x s =>
    cases e
    by_cases hz : z = x
    · subst hz
      dsimp only
      rw [set_self]
      split
      · rename_i hv; exact ⟨hv, false, rfl, by simp [fate]⟩
      · rename_i hv; exact ⟨hv, by simp [fate], by simp [held]⟩
    · dsimp only
      rw [set_other _ _ hz]
      exact (t z).frame (by simp [fate, hz]) (.inl (by simp [held, hz]))
  | success x v s =>
    cases e
    by_cases hz : z = x
    · subst hz
      dsimp only
      rw [set_self]
      split
      · rename_i hv; exact ⟨hv, true, rfl, by simp [fate]⟩
      · rename_i hv; exact ⟨hv, by simp [fate], by simp [held]⟩
    · dsimp only
      rw [set_other _ _ hz]
      exact (t z).frame (by simp [fate, hz]) (.inl (by simp [held, hz]))
  | copy x y =>
    simp only [exec] at e
    split at e
    · cases e
    · rename_i o ho
      cases c : construct P.C (P.ty y) (P.ty x) o with
      | error err => rw [c] at e; cases e
      | ok o' =>
        rw [c] at e; cases e
        by_cases hz : z = x
        · subst hz
          dsimp only
          rw [set_self]
          exact construct_tells (ho ▸ t y) c _ (by simp [fate]) (.inr (by simp [held]))
        · dsimp only
          rw [set_other _ _ hz]
          exact (t z).frame (by simp [fate, hz]) (.inl (by simp [held, hz]))
  | move x y =>
    simp only [exec] at e
    split at e
    · cases e
    · rename_i o ho
      cases c : construct P.C (P.ty y) (P.ty x) o with
      | error err => rw [c] at e; cases e
      | ok o' =>
        rw [c] at e
        replace e : (if x = y then _ else _) = Except.ok r := e
        split at e
        · rename_i hxy
          subst hxy
          cases e
          by_cases hz : z = x
          · subst hz
            dsimp only
            rw [set_self]
            refine moved_tells (ho ▸ t z) ?_ (by simp [held])
            simp [fate]
          · dsimp only
            rw [set_other _ _ hz]
            exact (t z).frame (by simp [fate, hz]) (.inl (by simp [held, hz]))
        · rename_i hxy
          cases e
          by_cases hz : z = x
          · subst hz
            dsimp only
            rw [set_self]
            exact construct_tells (ho ▸ t y) c _ (by simp [fate]) (.inr (by simp [held, hxy]))
          · dsimp only
            rw [set_other _ _ hz]
            by_cases hy : z = y
            · subst hy
              rw [set_self]
              exact moved_tells (ho ▸ t z) (by simp [fate, hz]) (by simp [held, hz, hxy])
            · rw [set_other _ _ hy]
              exact (t z).frame (by simp [fate, hz]) (.inl (by simp [held, hz, hxy, hy]))
  | hasValue x =>
    have : r.1 = σ := by
      simp only [exec] at e; split at e <;> cases e <;> rfl
    rw [this]; exact (t z).frame rfl (.inl rfl)
  | remaining x =>
    have : r.1 = σ := by
      simp only [exec] at e; split at e <;> cases e <;> rfl
    rw [this]; exact (t z).frame rfl (.inl rfl)
  | value x =>
    have : r.1 = σ := by
      simp only [exec] at e; split at e <;> cases e <;> rfl
    rw [this]; exact (t z).frame rfl (.inl rfl)
  | deref x =>
    have : r.1 = σ := by
      simp only [exec] at e; split at e <;> cases e <;> rfl
    rw [this]; exact (t z).frame rfl (.inl rfl)
  | takeValue x =>
    have hv : held P (.takeValue x :: h) z = held P h z ∨ held P (.takeValue x :: h) z = none := by
      by_cases hz : z = x <;> simp [held, hz]
    simp only [exec] at e
    split at e
    · rename_i v rem ho
      cases e
      by_cases hz : z = x
      · subst hz
        dsimp only
        rw [set_self]
        exact moved_tells (o := .value (some v) rem) (ho ▸ t z) rfl (by simp [held])
      · dsimp only
        rw [set_other _ _ hz]
        exact (t z).frame rfl hv
    · cases e; exact (t z).frame rfl hv
    · cases e
  | takeDeref x =>
    have hv : held P (.takeDeref x :: h) z = held P h z ∨ held P (.takeDeref x :: h) z = none := by
      by_cases hz : z = x <;> simp [held, hz]
    simp only [exec] at e
    split at e
    · rename_i v rem ho
      cases e
      by_cases hz : z = x
      · subst hz
        dsimp only
        rw [set_self]
        exact moved_tells (o := .value (some v) rem) (ho ▸ t z) rfl (by simp [held])
      · dsimp only
        rw [set_other _ _ hz]
        exact (t z).frame rfl hv
    · cases e
    · cases e

theorem run_cons {P : Prog α β} {h : List Op} {op : Op} {σ : Store} (r : run P (op :: h) = .ok σ) :
    ∃ σ' o, run P h = .ok σ' ∧ exec P σ' op = .ok (σ, o) := by
  unfold run at r
  cases h1 : run P h with
  | error e => rw [h1] at r; cases r
  | ok σ' =>
    rw [h1] at r
    replace r : (exec P σ' op >>= fun r => Except.ok r.1) = Except.ok σ := r
    cases h2 : exec P σ' op with
    | error e => rw [h2] at r; cases r
    | ok q =>
      rw [h2] at r; cases r
      exact ⟨σ', q.2, rfl, by rw [h2]⟩

theorem run_tells {P : Prog α β} : ∀ {h : List Op} {σ : Store}, run P h = .ok σ → Initialized P h →
    ∀ z, Tells P h z (σ z)
  | [], _, r, _, _ => by cases r; rfl
  | op :: h, σ, r, i, z => by
    obtain ⟨σ', o, h1, h2⟩ := run_cons r
    exact exec_tells (run_tells h1 fun x hx => i x (.tail _ hx)) h2 i z

theorem observe_eq {P : Prog α β} {h : List Op} {σ : Store} (r : run P h = .ok σ) (op : Op) :
    observe P h op = (exec P σ op).map (·.2) := by
  unfold observe
  rw [r]
  show (exec P σ op >>= fun r => Except.ok r.2) = _
  cases exec P σ op <;> rfl

/-- **C66.** After any history of a program (constructing, copying, moving, converting, reading and emptying results),
`has_value()` and `remaining()` of a variable say whether the parse it stems from succeeded and what that left.  Moving
from a result, or taking its value out, does not change them. -/
theorem C66_verdict (P : Prog α β) (h : List Op) (σ : Store) (r : run P h = .ok σ) (i : Initialized P h)
    (x : Nat) (b : Bool) (s : Span) (f : fate P h x = some (b, s)) :
    observe P h (.hasValue x) = .ok (.bool b) ∧ observe P h (.remaining x) = .ok (.span s) := by
  have t := run_tells r i x
  rw [observe_eq r, observe_eq r]
  simp only [exec]
  match o : σ x, t with
  | none, t => rw [show fate P h x = none from t] at f; cases f
  | some (.value opt rem), t => rw [t.2.1] at f; cases f; exact ⟨rfl, rfl⟩
  | some (.void ok rem), t =>
    obtain ⟨_, b', rfl, hf⟩ := t
    rw [hf] at f; cases f; exact ⟨rfl, rfl⟩

/-- **C66.** `value()` and `*` give the value of that parse, converted where the variables' types differ, as long as it
was not moved or taken out. -/
theorem C66_value (P : Prog α β) (h : List Op) (σ : Store) (r : run P h = .ok σ) (i : Initialized P h)
    (x : Nat) (nv : P.ty x ≠ .void) (v : Val) (hv : held P h x = some v) :
    observe P h (.value x) = .ok (.val v) ∧ observe P h (.deref x) = .ok (.val v) ∧
      observe P h (.takeValue x) = .ok (.val v) ∧ observe P h (.takeDeref x) = .ok (.val v) := by
  have t := run_tells r i x
  rw [observe_eq r, observe_eq r, observe_eq r, observe_eq r]
  simp only [exec]
  match o : σ x, t with
  | none, t =>
    exfalso
    have none_converted : ∀ y x, converted P y x none = none := by
      intro y x; unfold converted; split
      · rfl
      · split <;> rfl
    have key : ∀ (h : List Op) (x : Nat), fate P h x = none → held P h x = none := by
      intro h
      induction h with
      | nil => intros; rfl
      | cons op h ih =>
        intro x hf
        cases op <;> simp only [fate, held] at hf ⊢ <;> (try exact ih x hf) <;>
          (try (split at hf <;> simp_all)) <;> (try (split <;> simp_all))
    rw [key h x t] at hv; cases hv
  | some (.value opt rem), t =>
    rw [t.2.2 v hv]
    exact ⟨rfl, rfl, rfl, rfl⟩
  | some (.void ok rem), t => exact absurd t.1 nv

/-- **C66.** `value()` throws `std::bad_optional_access` exactly if the parse failed; then `*` is undefined. -/
theorem C66_throws (P : Prog α β) (h : List Op) (σ : Store) (r : run P h = .ok σ) (i : Initialized P h)
    (x : Nat) (nv : P.ty x ≠ .void) (b : Bool) (s : Span) (f : fate P h x = some (b, s)) :
    (observe P h (.value x) = .ok .threw ↔ b = false) ∧ (observe P h (.deref x) = .error .ub ↔ b = false) ∧
      (observe P h (.takeValue x) = .ok .threw ↔ b = false) ∧ (observe P h (.takeDeref x) = .error .ub ↔ b = false) := by
  have t := run_tells r i x
  rw [observe_eq r, observe_eq r, observe_eq r, observe_eq r]
  simp only [exec]
  match o : σ x, t with
  | none, t => rw [show fate P h x = none from t] at f; cases f
  | some (.value opt rem), t =>
    rw [t.2.1] at f; cases f
    cases opt <;> simp [Except.map]
  | some (.void ok rem), t => exact absurd t.1 nv

/-- **C66.** Nothing else is undefined: if a history runs into undefined behaviour, one of its statements is a `*` on
the result of a failed parse. -/
theorem C66_undefined (P : Prog α β) : ∀ (h : List Op), run P h = .error .ub → Initialized P h →
    ∃ (later earlier : List Op) (x : Nat) (s : Span), (h = later ++ .deref x :: earlier ∨ h = later ++ .takeDeref x :: earlier) ∧
      fate P earlier x = some (false, s)
  | [], r, _ => by cases r
  | op :: h, r, i => by
    have i' : Initialized P h := fun x hx => i x (.tail _ hx)
    unfold run at r
    cases h1 : run P h with
    | error e =>
      rw [h1] at r
      cases r
      obtain ⟨l, e, x, s, hh, f⟩ := C66_undefined P h h1 i'
      refine ⟨op :: l, e, x, s, ?_, f⟩
      rcases hh with rfl | rfl
      · exact .inl rfl
      · exact .inr rfl
    | ok σ =>
      rw [h1] at r
      replace r : (exec P σ op >>= fun r => Except.ok r.1) = Except.error Err.ub := r
      have t := run_tells h1 i'
      have e : exec P σ op = .error .ub := by
        cases h2 : exec P σ op with
        | error e => rw [h2] at r; cases r; rfl
        | ok q => rw [h2] at r; cases r
      have nc : ∀ {x y o}, σ y = some o → construct P.C (P.ty y) (P.ty x) o ≠ .error .ub := by
        intro x y o ho c
        have ty := t y
        rw [ho] at ty
        match o with
        | .void ok rem =>
          obtain ⟨_, b, rfl, _⟩ := ty
          simp only [construct] at c
          split at c <;> cases c
        | .value opt rem =>
          simp only [construct] at c
          (repeat' split at c) <;> cases c
      cases op with
      | declare x => cases e
      | init x => cases e
      | failure x s => cases e
      | success x v s => cases e
      | copy x y =>
        simp only [exec] at e
        split at e
        · cases e
        · rename_i o ho
          cases c : construct P.C (P.ty y) (P.ty x) o with
          | error err => rw [c] at e; cases e; exact absurd c (nc ho)
          | ok o' => rw [c] at e; cases e
      | move x y =>
        simp only [exec] at e
        split at e
        · cases e
        · rename_i o ho
          cases c : construct P.C (P.ty y) (P.ty x) o with
          | error err => rw [c] at e; cases e; exact absurd c (nc ho)
          | ok o' =>
            rw [c] at e
            replace e : (if x = y then _ else _) = Except.error Err.ub := e
            split at e <;> cases e
      | hasValue x =>
        simp only [exec] at e
        split at e <;> try cases e
        rename_i ho
        have := t x
        rw [ho] at this
        obtain ⟨_, b, hb, _⟩ := this
        cases hb
      | remaining x => simp only [exec] at e; split at e <;> cases e
      | value x => simp only [exec] at e; split at e <;> cases e
      | takeValue x => simp only [exec] at e; split at e <;> cases e
      | deref x =>
        simp only [exec] at e
        split at e <;> try cases e
        rename_i rem ho
        have := t x
        rw [ho] at this
        exact ⟨[], h, x, rem, .inl rfl, this.2.1⟩
      | takeDeref x =>
        simp only [exec] at e
        split at e <;> try cases e
        rename_i rem ho
        have := t x
        rw [ho] at this
        exact ⟨[], h, x, rem, .inr rfl, this.2.1⟩

/-- **C66**, the restriction is needed: `result<void, U> r; r.has_value()` reads a `bool` that was never written, so does
a copy of `r` (result.h:72, 86).  With `{}` it is `false`. -/
theorem C66_indeterminate (P : Prog α β) (x : Nat) (h : P.ty x = .void) :
    observe P [.declare x] (.hasValue x) = .error .ub ∧ observe P [.init x] (.hasValue x) = .ok (.bool false) := by
  constructor <;> simp [observe, run, exec, h, Store.set, bind, Except.bind]

/-- the statement that keeps what `parse` returned in the variable `x` -/
def keep (x : Nat) (r : R) : Op :=
  match r.val with
  | some v => .success x v r.rem
  | none => .failure x r.rem

/-- **C66**, for what a parse returns: `value()` gives the parsed value exactly if the parse succeeded and throws exactly if
it failed, whatever else the program did before. -/
theorem C66_parse (P : Prog α β) (h : List Op) (σ : Store) (r : run P h = .ok σ)
    (x : Nat) (nv : P.ty x ≠ .void) (res : R) :
    (∀ v, observe P (keep x res :: h) (.value x) = .ok (.val v) ↔ res.val = some v) ∧
      (observe P (keep x res :: h) (.value x) = .ok .threw ↔ res.val = none) ∧
      observe P (keep x res :: h) (.hasValue x) = .ok (.bool res.val.isSome) ∧
      observe P (keep x res :: h) (.remaining x) = .ok (.span res.rem) := by
  obtain ⟨val, rem⟩ := res
  cases val <;> simp [keep, observe, run, r, exec, nv, Store.set, bind, Except.bind]

/-- The conversion of results in `custom_parser::parse` (`convertResult`, C41) is this constructor. -/
theorem construct_convertResult (C : Ctx α β) (src dst : Ty) (hd : src = dst ∨ src ≠ .void ∧ dst ≠ .void)
    (hc : convOK C src dst || (fromOptional C src dst).isSome) (r : R) :
    ∃ r', convertResult C src dst r = M.pure r' ∧
      construct C src dst (.value r.val r.rem) = .ok (.value r'.val r'.rem) := by
  unfold convertResult
  simp only [construct]
  by_cases e : src = dst
  · exact ⟨r, by rw [if_pos e], by rw [if_pos e]⟩
  · obtain ⟨h1, h2⟩ := hd.resolve_left e
    simp only [if_neg e, h1, h2, decide_false, Bool.or_self, Bool.false_eq_true, if_false]
    cases hg : fromOptional C src dst with
    | some g => exact ⟨_, rfl, rfl⟩
    | none =>
      cases hf : C.conv src dst with
      | none => simp [convOK, e, hf, hg] at hc
      | some f =>
        obtain ⟨val, rem⟩ := r
        cases val with
        | none => exact ⟨_, rfl, rfl⟩
        | some v => simp only [convert, if_neg e, hf]; exact ⟨_, rfl, rfl⟩

/-! ### A concrete history

`a` holds a parse of `"xa"` by `"x"_all`; it is copied to `b`, its value is moved to `c`, and `d` is left over from a
failed parse. -/

def Ex.prog : Prog Nat Nat := ⟨Tok3n.Ex.ctx "xa", fun _ => .span, fun _ _ => .span Span.default⟩

def Ex.history : List Op :=
  [.failure 3 ⟨.at 0 0, 2⟩, .move 2 0, .copy 1 0, .success 0 (.span ⟨.at 0 0, 1⟩) ⟨.at 0 1, 1⟩]

/-- The hypotheses are met; the moved-from variable keeps its verdict and its remaining input, but not its value. -/
theorem Ex.history_runs :
    (∃ σ, run Ex.prog Ex.history = .ok σ) ∧ Initialized Ex.prog Ex.history ∧
      fate Ex.prog Ex.history 0 = some (true, ⟨.at 0 1, 1⟩) ∧ held Ex.prog Ex.history 0 = none ∧
      held Ex.prog Ex.history 1 = some (.span ⟨.at 0 0, 1⟩) ∧ held Ex.prog Ex.history 2 = some (.span ⟨.at 0 0, 1⟩) ∧
      fate Ex.prog Ex.history 3 = some (false, ⟨.at 0 0, 2⟩) ∧
      observe Ex.prog Ex.history (.value 0) = .ok (.val (.span Span.default)) :=
  ⟨⟨_, rfl⟩, fun _ _ => nofun, rfl, rfl, rfl, rfl, rfl, rfl⟩

-- `has_value` and `remaining` of the moved-from variable
example : observe Ex.prog Ex.history (.hasValue 0) = .ok (.bool true) ∧
    observe Ex.prog Ex.history (.remaining 0) = .ok (.span ⟨.at 0 1, 1⟩) :=
  let ⟨⟨σ, r⟩, i, f, _⟩ := Ex.history_runs
  C66_verdict _ _ σ r i 0 _ _ f

-- the value of the copy, although the original was moved away since
example : observe Ex.prog Ex.history (.value 1) = .ok (.val (.span ⟨.at 0 0, 1⟩)) :=
  let ⟨⟨σ, r⟩, i, _, _, f, _⟩ := Ex.history_runs
  (C66_value _ _ σ r i 1 nofun _ f).1

-- `value()` of the failed parse throws, `*` is undefined
example : observe Ex.prog Ex.history (.value 3) = .ok .threw ∧ observe Ex.prog Ex.history (.deref 3) = .error .ub :=
  let ⟨⟨σ, r⟩, i, _, _, _, _, f, _⟩ := Ex.history_runs
  ⟨(C66_throws _ _ σ r i 3 nofun _ _ f).1.2 rfl, (C66_throws _ _ σ r i 3 nofun _ _ f).2.1.2 rfl⟩

-- a history that is undefined because of this `*`
example : run Ex.prog (.deref 3 :: Ex.history) = .error .ub ∧ Initialized Ex.prog (.deref 3 :: Ex.history) ∧
    fate Ex.prog Ex.history 3 = some (false, ⟨.at 0 0, 2⟩) :=
  ⟨rfl, fun _ _ => nofun, rfl⟩

-- what `"x"_all` returns on `"xa"`, kept in a fifth variable
example : observe Ex.prog (keep 4 ⟨some (.span ⟨.at 0 0, 1⟩), ⟨.at 0 1, 1⟩⟩ :: Ex.history) (.value 4) =
    .ok (.val (.span ⟨.at 0 0, 1⟩)) :=
  let ⟨⟨σ, r⟩, _⟩ := Ex.history_runs
  ((C66_parse _ _ σ r 4 nofun _).1 _).2 rfl

end Tok3n.Result
