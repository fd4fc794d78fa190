import Verif.Spec.Used
import Verif.Proof.Fix
import Verif.Proof.Join
import Verif.Proof.Terminate
import Verif.Proof.Size
/-
Proofs for C76: a parser does not depend on custom parsers and callbacks it does not use.
-/

namespace Tok3n

variable {α β : Type}

/-! ### A step depends on the parts only -/

section
variable (C : Ctx α β) (c : Nat → CustomDef α) (r : Nat → List Ty → Option Ty) (g : Nat → List Val → Except Nat Val)

set_option smartUnfolding false in
theorem defaultVal_redefine (t : Ty) : defaultVal (C.redefine c r g) t = defaultVal C t := by with_unfolding_all rfl
set_option smartUnfolding false in
theorem joinExecutor_redefine (x : R) : joinExecutor (C.redefine c r g) x = joinExecutor C x := by with_unfolding_all rfl
set_option smartUnfolding false in
theorem joinable_redefine (t : Ty) : joinable (C.redefine c r g) t = joinable C t := by with_unfolding_all rfl
theorem asBasic_redefine (p : Parser α) : asBasic (C.redefine c r g) p = asBasic C p := by cases p <;> rfl

theorem invoke_redefine {f : Fn} (h : ∀ k, f.Calls k → g k = C.fnCall k) (args : List Val) :
    invoke (C.redefine c r g) f args = invoke C f args := by
  induction f generalizing args with
  | user k =>
    simp only [invoke]
    rw [show (C.redefine c r g).fnCall = g from rfl, h k rfl]
  | apply f ih =>
    simp only [invoke]
    split
    · split
      · exact ih h _
      · rfl
    · rfl
  | const k => rfl
  | construct t => rfl
  | deflt t => simp only [invoke, defaultVal_redefine]

theorem fnTy_redefine {f : Fn} (h : ∀ k, f.Calls k → r k = C.fnRet k) (ts : List Ty) :
    fnTy (C.redefine c r g) f ts = fnTy C f ts := by
  induction f generalizing ts with
  | user k =>
    simp only [fnTy]
    rw [show (C.redefine c r g).fnRet = r from rfl, h k rfl]
  | apply f ih =>
    unfold fnTy
    split
    · split
      · exact ih h _
      · rfl
    · rfl
  | const k => rfl
  | construct t => rfl
  | deflt t => simp only [fnTy, defaultVal_redefine]

/-! ### What is kept of a parser -/

/-- the custom parsers and callbacks `p` parses with are kept -/
structure Keeps (p : Parser α) : Prop where
  custom : ∀ k, ParseReach C p (.custom k) → c k = C.custom k
  calls : ∀ q f k, (ParseReach C p (.map q f) ∨ ParseReach C p (.filter q f)) → f.Calls k →
    r k = C.fnRet k ∧ g k = C.fnCall k

variable {C c r g}

theorem Keeps.child {p q : Parser α} (h : Keeps C c r g p) (hc : ParseChild C p q) : Keeps C c r g q :=
  ⟨fun k hk => h.custom k (.step hc hk), fun q f k hk => h.calls q f k (hk.imp (.step hc) (.step hc))⟩

theorem Keeps.map_ret {p : Parser α} {f : Fn} (h : Keeps C c r g (.map p f)) (k : Nat) (hk : f.Calls k) :
    r k = C.fnRet k := (h.calls p f k (.inl .refl) hk).1
theorem Keeps.map_call {p : Parser α} {f : Fn} (h : Keeps C c r g (.map p f)) (k : Nat) (hk : f.Calls k) :
    g k = C.fnCall k := (h.calls p f k (.inl .refl) hk).2
theorem Keeps.filter_ret {p : Parser α} {f : Fn} (h : Keeps C c r g (.filter p f)) (k : Nat) (hk : f.Calls k) :
    r k = C.fnRet k := (h.calls p f k (.inr .refl) hk).1
theorem Keeps.filter_call {p : Parser α} {f : Fn} (h : Keeps C c r g (.filter p f)) (k : Nat) (hk : f.Calls k) :
    g k = C.fnCall k := (h.calls p f k (.inr .refl) hk).2

mutual
theorem resultFor_redefine : ∀ p : Parser α, Keeps C c r g p → resultFor (C.redefine c r g) p = resultFor C p
  | .anyOf _, _ | .noneOf _, _ | .allOf _, _ | .anything, _ | .epsilon, _ | .ignore _, _ | .join _, _ => rfl
  | .choice ps, h => by
    simp only [resultFor, resultsFor_redefine ps fun p hp => h.child (.choice hp)]
  | .sequence ps, h => by
    simp only [resultFor, resultsFor_redefine ps fun p hp => h.child (.sequence hp)]
  | .maybe p, h => by simp only [resultFor, resultFor_redefine p (h.child .maybe)]
  | .exactly p n, h => by simp only [resultFor, resultFor_redefine p (h.child .exactly)]
  | .oneOrMore p, h => by simp only [resultFor, resultFor_redefine p (h.child .oneOrMore)]
  | .zeroOrMore p, h => by simp only [resultFor, resultFor_redefine p (h.child .zeroOrMore)]
  | .delimit p d, h => by
    simp only [resultFor, resultFor_redefine p (h.child .delimit), resultFor_redefine d (h.child .delimiter)]
  | .complete p, h => by simp only [resultFor, resultFor_redefine p (h.child .complete)]
  | .map p f, h => by
    simp only [resultFor, mapTy, resultFor_redefine p (h.child .map), fnTy_redefine C c r g h.map_ret]
  | .filter p f, h => by simp only [resultFor, resultFor_redefine p (h.child .filter)]
  | .named p n, h => by simp only [resultFor, resultFor_redefine p (h.child .named)]
  | .custom k, h => by
    simp only [resultFor]
    rw [show (C.redefine c r g).custom = c from rfl, h.custom k .refl]
theorem resultsFor_redefine : ∀ ps : List (Parser α), (∀ p ∈ ps, Keeps C c r g p) →
    resultsFor (C.redefine c r g) ps = resultsFor C ps
  | [], _ => rfl
  | p :: ps, h => by
    simp only [resultsFor, resultFor_redefine p (h p (by simp)), resultsFor_redefine ps fun q hq => h q (by simp [hq])]
end

mutual
theorem tyOK_redefine : ∀ p : Parser α, Keeps C c r g p → tyOK (C.redefine c r g) p = tyOK C p
  | .anyOf _, _ | .noneOf _, _ | .allOf _, _ | .anything, _ | .epsilon, _ | .ignore _, _ | .join _, _ | .custom _, _ => by
    simp [tyOK]
  | .choice ps, h => by simp only [tyOK, tysOK_redefine ps fun p hp => h.child (.choice hp)]
  | .sequence ps, h => by simp only [tyOK, tysOK_redefine ps fun p hp => h.child (.sequence hp)]
  | .maybe p, h => by simp only [tyOK, tyOK_redefine p (h.child .maybe)]
  | .exactly p n, h => by simp only [tyOK, tyOK_redefine p (h.child .exactly)]
  | .oneOrMore p, h => by simp only [tyOK, tyOK_redefine p (h.child .oneOrMore)]
  | .zeroOrMore p, h => by simp only [tyOK, tyOK_redefine p (h.child .zeroOrMore)]
  | .delimit p d, h => by
    simp only [tyOK, tyOK_redefine p (h.child .delimit), tyOK_redefine d (h.child .delimiter)]
  | .complete p, h => by simp only [tyOK, tyOK_redefine p (h.child .complete)]
  | .map p f, h => by
    simp only [tyOK, tyOK_redefine p (h.child .map), resultFor_redefine p (h.child .map),
      fnTy_redefine C c r g h.map_ret]
  | .filter p f, h => by
    simp only [tyOK, tyOK_redefine p (h.child .filter), resultFor_redefine p (h.child .filter),
      fnTy_redefine C c r g h.filter_ret]
    rfl
  | .named p n, h => by simp only [tyOK, tyOK_redefine p (h.child .named)]
theorem tysOK_redefine : ∀ ps : List (Parser α), (∀ p ∈ ps, Keeps C c r g p) →
    tysOK (C.redefine c r g) ps = tysOK C ps
  | [], _ => rfl
  | p :: ps, h => by
    simp only [tysOK, tyOK_redefine p (h p (by simp)), tysOK_redefine ps fun q hq => h q (by simp [hq])]
end

theorem elementsOK_redefine (b : Bool) (tr : Trait) (ts : List Ty) (is : List (Option Nat)) :
    elementsOK (C.redefine c r g) b tr ts is = elementsOK C b tr ts is := by
  induction ts generalizing is with
  | nil => cases is <;> rfl
  | cons t ts ih =>
    cases is with
    | nil => rfl
    | cons i is =>
      simp only [elementsOK, ih]
      rfl

mutual
theorem parseOK_redefine : ∀ p : Parser α, Keeps C c r g p → parseOK (C.redefine c r g) p = parseOK C p
  | .anyOf _, _ | .noneOf _, _ | .allOf _, _ | .anything, _ | .epsilon, _ | .ignore _, _ => by
    simp [parseOK]
  | .choice ps, h => by
    have hc := fun p hp => h.child (.choice (p := p) hp)
    simp only [parseOK, resultsFor_redefine ps hc, tysOK_redefine ps hc, defaultVal_redefine, elementsOK_redefine,
      parsesOK_redefine ps _ hc]
  | .sequence ps, h => by
    have hc := fun p hp => h.child (.sequence (p := p) hp)
    simp only [parseOK, resultsFor_redefine ps hc, tysOK_redefine ps hc, defaultVal_redefine, elementsOK_redefine,
      parsesOK_redefine ps _ hc]
  | .maybe p, h => by
    simp only [parseOK, tyOK_redefine p (h.child .maybe), parseOK_redefine p (h.child .maybe)]
  | .exactly p n, h => by
    simp only [parseOK, tyOK_redefine p (h.child .exactly), parseOK_redefine p (h.child .exactly),
      resultFor_redefine p (h.child .exactly), defaultVal_redefine]
  | .oneOrMore p, h => by
    simp only [parseOK, tyOK_redefine p (h.child .oneOrMore), parseOK_redefine p (h.child .oneOrMore)]
  | .zeroOrMore p, h => by
    simp only [parseOK, tyOK_redefine p (h.child .zeroOrMore), parseOK_redefine p (h.child .zeroOrMore)]
  | .delimit p d, h => by
    simp only [parseOK, tyOK_redefine p (h.child .delimit), tyOK_redefine d (h.child .delimiter),
      parseOK_redefine p (h.child .delimit), parseOK_redefine d (h.child .delimiter)]
  | .complete p, h => by
    simp only [parseOK, tyOK_redefine p (h.child .complete), parseOK_redefine p (h.child .complete)]
  | .join p, h => by
    simp only [parseOK, tyOK_redefine p (h.child .join), parseOK_redefine p (h.child .join),
      resultFor_redefine p (h.child .join), joinable_redefine]
  | .map p f, h => by
    simp only [parseOK, tyOK_redefine (.map p f) h, parseOK_redefine p (h.child .map)]
  | .filter p f, h => by
    simp only [parseOK, tyOK_redefine (.filter p f) h, parseOK_redefine p (h.child .filter)]
  | .named p n, h => by
    simp only [parseOK, tyOK_redefine p (h.child .named), parseOK_redefine p (h.child .named)]
  | .custom k, h => by
    have e : (C.redefine c r g).custom k = C.custom k := h.custom k .refl
    have h1 : resultFor (C.redefine c r g) (C.custom k).body = resultFor C (C.custom k).body :=
      resultFor_redefine _ (h.child .custom)
    simp only [parseOK, e, h1]
    rfl
theorem parsesOK_redefine : ∀ (ps : List (Parser α)) (is : List (Option Nat)), (∀ p ∈ ps, Keeps C c r g p) →
    parsesOK (C.redefine c r g) ps is = parsesOK C ps is
  | [], is, _ => by simp [parsesOK]
  | p :: ps, [], _ => by simp [parsesOK]
  | p :: ps, none :: is, h => by simp only [parsesOK, parsesOK_redefine ps is fun q hq => h q (by simp [hq])]
  | p :: ps, some i :: is, h => by
    simp only [parsesOK, parseOK_redefine p (h p (by simp)), parsesOK_redefine ps is fun q hq => h q (by simp [hq])]
end

/-! ### One step -/

theorem foldOr_looks (rec rec' : Parser α → Sub) (u u' b : Bool) (C' : Ctx α β) (ps : List (Parser α))
    (h : ∀ p ∈ ps, (rec p).look = (rec' p).look) (st : Exec) :
    foldOr (execute C' .void u b) (mkLookElems rec' C' ps) st = foldOr (execute C .void u' b) (mkLookElems rec C ps) st ∧
    foldAnd (execute C' .void u b) (mkLookElems rec' C' ps) st = foldAnd (execute C .void u' b) (mkLookElems rec C ps) st := by
  induction ps generalizing st with
  | nil => exact ⟨rfl, rfl⟩
  | cons p ps ih =>
    have ih := ih fun q hq => h q (by simp [hq])
    simp only [mkLookElems, foldOr, foldAnd, execute, M.bind_eq, h p (by simp)]
    exact ⟨M.bind_congr fun ⟨ok, st⟩ => by simp only [(ih st).1], M.bind_congr fun ⟨ok, st⟩ => by simp only [(ih st).2]⟩

theorem joinGeneric_redefine (P : Sub) : joinGeneric (C.redefine c r g) P = joinGeneric C P := by
  have : parseJoin (C.redefine c r g) P = parseJoin C P := by
    funext s; simp only [parseJoin, joinExecutor_redefine]
  simp only [joinGeneric, this]

section
variable (C c r g) (b : BasicP α) (n : Nat)
set_option smartUnfolding false
theorem joinExactly_redefine : parseJoinExactlyBasic (C.redefine c r g) b n = parseJoinExactlyBasic C b n ∧
    lookJoinExactlyBasic (C.redefine c r g) b n = lookJoinExactlyBasic C b n :=
  ⟨by with_unfolding_all rfl, by with_unfolding_all rfl⟩
theorem joinMaybe_redefine : parseJoinMaybeBasic (C.redefine c r g) b = parseJoinMaybeBasic C b ∧
    lookJoinMaybeBasic (C.redefine c r g) b = lookJoinMaybeBasic C b :=
  ⟨by with_unfolding_all rfl, by with_unfolding_all rfl⟩
theorem joinOneOrMore_redefine : parseJoinOneOrMoreBasic (C.redefine c r g) b n = parseJoinOneOrMoreBasic C b n ∧
    lookJoinOneOrMoreBasic (C.redefine c r g) b n = lookJoinOneOrMoreBasic C b n :=
  ⟨by with_unfolding_all rfl, by with_unfolding_all rfl⟩
theorem joinZeroOrMore_redefine : parseJoinZeroOrMoreBasic (C.redefine c r g) b n = parseJoinZeroOrMoreBasic C b n ∧
    lookJoinZeroOrMoreBasic (C.redefine c r g) b n = lookJoinZeroOrMoreBasic C b n :=
  ⟨by with_unfolding_all rfl, by with_unfolding_all rfl⟩
end

theorem semJoin_same_ctx (rec : Parser α → Sub) (fuel : Nat) (p : Parser α) :
    semJoin (C.redefine c r g) rec fuel p = semJoin C rec fuel p := by
  cases p with
  | exactly q n =>
    simp only [semJoin, asBasic_redefine, (joinExactly_redefine ..).1, (joinExactly_redefine ..).2, joinGeneric_redefine]
  | maybe q =>
    simp only [semJoin, asBasic_redefine, (joinMaybe_redefine ..).1, (joinMaybe_redefine ..).2, joinGeneric_redefine]
  | oneOrMore q =>
    simp only [semJoin, asBasic_redefine, (joinOneOrMore_redefine ..).1, (joinOneOrMore_redefine ..).2,
      joinGeneric_redefine]
  | zeroOrMore q =>
    simp only [semJoin, asBasic_redefine, (joinZeroOrMore_redefine ..).1, (joinZeroOrMore_redefine ..).2,
      joinGeneric_redefine]
  | _ => exact joinGeneric_redefine _

theorem semJoin_look {rec rec' : Parser α → Sub} (fuel : Nat) (p : Parser α) (h : (rec p).look = (rec' p).look) :
    (semJoin (C.redefine c r g) rec' fuel p).look = (semJoin C rec fuel p).look := by
  rw [semJoin_same_ctx]
  cases p with
  | exactly q n => simp only [semJoin]; split <;> first | exact h.symm | rfl
  | maybe q => simp only [semJoin]; split <;> first | exact h.symm | rfl
  | oneOrMore q => simp only [semJoin]; split <;> first | exact h.symm | rfl
  | zeroOrMore q => simp only [semJoin]; split <;> first | exact h.symm | rfl
  | _ => exact h.symm

theorem semJoin_redefine {rec rec' : Parser α → Sub} (fuel : Nat) (p : Parser α) (h : rec p = rec' p) :
    semJoin (C.redefine c r g) rec' fuel p = semJoin C rec fuel p := by
  rw [semJoin_same_ctx]
  cases p <;> simp only [semJoin, h]

/-- what `lookahead` does depends on the `lookahead` of the parts -/
theorem step_look {rec rec' : Parser α → Sub} (fuel : Nat) (p : Parser α) (hk : ∀ k, p ≠ .custom k)
    (h : ∀ q ∈ p.parts, (rec q).look = (rec' q).look) :
    (step (C.redefine c r g) rec' fuel p).look = (step C rec fuel p).look := by
  cases p with
  | custom k => exact absurd rfl (hk k)
  | choice ps =>
    funext s
    simp only [step, lookChoice, M.bind_eq]
    rw [(foldOr_looks rec rec' _ _ true _ ps h _).1]
  | sequence ps =>
    funext s
    simp only [step, lookSequence, M.bind_eq]
    rw [(foldOr_looks rec rec' _ _ false _ ps h _).2]
  | maybe p => funext s; simp only [step, lookMaybe, h p (by simp [Parser.parts])]
  | exactly p n =>
    funext s
    have e := h p (by simp [Parser.parts])
    have : ∀ o k s, lookExactlyLoop (rec' p) o k s = lookExactlyLoop (rec p) o k s := fun o k => by
      induction k with
      | zero => exact fun _ => rfl
      | succ k ih => intro s; simp only [lookExactlyLoop, e, ih]
    simp only [step, lookExactly, this]
  | oneOrMore p =>
    funext s
    have e := h p (by simp [Parser.parts])
    have : ∀ k b s, lookOneOrMoreLoop (rec' p) k b s = lookOneOrMoreLoop (rec p) k b s := fun k => by
      induction k with
      | zero => exact fun _ _ => rfl
      | succ k ih => intro b s; simp only [lookOneOrMoreLoop, e, ih]
    simp only [step, lookOneOrMore, this]
  | zeroOrMore p =>
    funext s
    have e := h p (by simp [Parser.parts])
    have : ∀ k s, lookZeroOrMoreLoop (rec' p) k s = lookZeroOrMoreLoop (rec p) k s := fun k => by
      induction k with
      | zero => exact fun _ => rfl
      | succ k ih => intro s; simp only [lookZeroOrMoreLoop, e, ih]
    simp only [step, lookZeroOrMore, this]
  | delimit p d =>
    funext s
    have e := h p (by simp [Parser.parts])
    have e' := h d (by simp [Parser.parts])
    have : ∀ k x s, lookDelimitLoop (rec' p) (rec' d) k x s = lookDelimitLoop (rec p) (rec d) k x s := fun k => by
      induction k with
      | zero => exact fun _ _ => rfl
      | succ k ih => intro x s; simp only [lookDelimitLoop, e, e', ih]
    simp only [step, lookDelimit, e, this]
  | ignore p => funext s; simp only [step, parseIgnore, h p (by simp [Parser.parts])]
  | complete p => funext s; simp only [step, lookComplete, h p (by simp [Parser.parts])]
  | join p => exact semJoin_look fuel p (h p (by simp [Parser.parts]))
  | map p f => exact (h p (by simp [Parser.parts])).symm
  | filter p f => exact (h p (by simp [Parser.parts])).symm
  | named p n => exact (h p (by simp [Parser.parts])).symm
  | _ => rfl

theorem mkElems_redefine {rec rec' : Parser α → Sub} (ps : List (Parser α)) (is : List (Option Nat))
    (hk : ∀ p ∈ ps, Keeps C c r g p) (h : ∀ p ∈ ps, rec p = rec' p) :
    mkElems rec' (C.redefine c r g) ps is = mkElems rec C ps is := by
  induction ps generalizing is with
  | nil => cases is <;> rfl
  | cons p ps ih =>
    cases is with
    | nil => rfl
    | cons i is =>
      simp only [mkElems, h p (by simp), resultFor_redefine p (hk p (by simp)),
        ih is (fun q hq => hk q (by simp [hq])) fun q hq => h q (by simp [hq])]

theorem builderInit_redefine (t : Ty) : builderInit (C.redefine c r g) t = builderInit C t := by
  simp only [builderInit, defaultVal_redefine]

theorem execute_redefine (T : Ty) (u b : Bool) (e : Elem) (st : Exec) :
    execute (C.redefine c r g) T u b e st = execute C T u b e st := rfl

/-- what a parser does depends on what its parts do; below `ignore`, on what they do in `lookahead` -/
theorem step_redefine {rec rec' : Parser α → Sub} (fuel : Nat) (p : Parser α) (hk : Keeps C c r g p)
    (h : ∀ q ∈ p.parts, (rec q).look = (rec' q).look) (h' : ∀ q, ParseChild C p q → rec q = rec' q) :
    step (C.redefine c r g) rec' fuel p = step C rec fuel p := by
  cases p with
  | choice ps =>
    have e : ∀ q ∈ ps, rec q = rec' q := fun q hq => h' q (.choice hq)
    have ek := fun p hp => hk.child (.choice (p := p) hp)
    have hl := step_look (C := C) (c := c) (r := r) (g := g) fuel (.choice ps) (by nofun) h
    have hp : (step (C.redefine c r g) rec' fuel (.choice ps)).parse = (step C rec fuel (.choice ps)).parse := by
      funext s
      simp only [step, resultsFor_redefine ps ek, mkElems_redefine ps _ ek e, parseChoice, builderInit_redefine]
      rfl
    cases h1 : step (C.redefine c r g) rec' fuel (.choice ps)
    cases h2 : step C rec fuel (.choice ps)
    simp only [h1, h2] at hl hp
    rw [hl, hp]
  | sequence ps =>
    have e : ∀ q ∈ ps, rec q = rec' q := fun q hq => h' q (.sequence hq)
    have ek := fun p hp => hk.child (.sequence (p := p) hp)
    have hl := step_look (C := C) (c := c) (r := r) (g := g) fuel (.sequence ps) (by nofun) h
    have hp : (step (C.redefine c r g) rec' fuel (.sequence ps)).parse = (step C rec fuel (.sequence ps)).parse := by
      funext s
      simp only [step, resultsFor_redefine ps ek, mkElems_redefine ps _ ek e, parseSequence, builderInit_redefine]
      rfl
    cases h1 : step (C.redefine c r g) rec' fuel (.sequence ps)
    cases h2 : step C rec fuel (.sequence ps)
    simp only [h1, h2] at hl hp
    rw [hl, hp]
  | maybe p =>
    simp only [step, ← h' p .maybe, resultFor_redefine _ hk, Sub.mk.injEq, and_true]
    funext s; simp only [parseMaybe, builderInit_redefine]
  | exactly p n =>
    simp only [step, ← h' p .exactly, resultFor_redefine _ hk, Sub.mk.injEq, and_true]
    funext s; simp only [parseExactly, builderInit_redefine]
  | oneOrMore p =>
    simp only [step, ← h' p .oneOrMore, resultFor_redefine _ hk, Sub.mk.injEq, and_true]
    funext s; simp only [parseOneOrMore, builderInit_redefine]
  | zeroOrMore p =>
    simp only [step, ← h' p .zeroOrMore, resultFor_redefine _ hk, Sub.mk.injEq, and_true]
    funext s; simp only [parseZeroOrMore, builderInit_redefine]
  | delimit p d =>
    simp only [step, ← h' p .delimit, ← h' d .delimiter, resultFor_redefine _ hk, resultFor_redefine _ (hk.child .delimit),
      resultFor_redefine _ (hk.child .delimiter), Sub.mk.injEq, and_true]
    funext s; simp only [parseDelimit, builderInit_redefine]
  | ignore p =>
    have e := h p (by simp [Parser.parts])
    simp only [step, Sub.mk.injEq, and_self]
    funext s; simp only [parseIgnore, e]
  | complete p => simp only [step, ← h' p .complete]
  | join p => exact semJoin_redefine fuel p (h' p .join)
  | map p f =>
    simp only [step, ← h' p .map, resultFor_redefine _ hk, resultFor_redefine _ (hk.child .map), Sub.mk.injEq, and_true]
    funext s; simp only [parseMap, invoke_redefine C c r g hk.map_call]
  | filter p f =>
    simp only [step, ← h' p .filter, resultFor_redefine _ (hk.child .filter), Sub.mk.injEq, and_true]
    funext s; simp only [parseFilter, invoke_redefine C c r g hk.filter_call]; rfl
  | named p n => simp only [step, ← h' p .named]
  | custom k =>
    have e : (C.redefine c r g).custom k = C.custom k := hk.custom k .refl
    simp only [step, e, ← h' _ .custom, resultFor_redefine _ (hk.child .custom), Sub.mk.injEq, and_true]
    rfl
  | _ => rfl

/-! ### All steps -/

theorem sem_le_le {C : Ctx α β} {j k : Nat} (h : j ≤ k) (p : Parser α) : (sem C j p).le (sem C k p) := fun s =>
  ⟨(sem_mono_parse p s).le h, (sem_mono_look p s).le h⟩

theorem step_fuel_le_le {C : Ctx α β} (rec : Parser α → Sub) {j k : Nat} (h : j ≤ k) (p : Parser α) :
    (step C rec j p).le (step C rec k p) := by
  induction k with
  | zero => cases Nat.le_zero.1 h; exact Sub.le_refl _
  | succ k ih =>
    rcases Nat.lt_or_ge k j with h' | h'
    · cases Nat.le_antisymm h h'; exact Sub.le_refl _
    · exact Sub.le_trans (ih h') (step_fuel_le rec k p)

section
variable {p : Parser α}

open Classical in
/-- `lookahead` of the parts of `q` as `P` does it, everything else as `Q` does -/
noncomputable def onLooks (q : Parser α) (P Q : Parser α → Sub) (x : Parser α) : Sub :=
  ⟨(Q x).parse, if x ∈ q.parts then (P x).look else (Q x).look⟩

open Classical in
/-- the parts of `q` as `P` does them, everything else as `Q` does; below `ignore`, only `lookahead` -/
noncomputable def onParts (C : Ctx α β) (q : Parser α) (P Q : Parser α → Sub) (x : Parser α) : Sub :=
  if ParseChild C q x then P x else onLooks q P Q x

theorem step_look_le {rec rec' : Parser α → Sub} {j k : Nat} (hjk : j ≤ k) (q : Parser α) (hq : ∀ k, q ≠ .custom k)
    (h : ∀ x ∈ q.parts, ∀ s, ((rec x).look s).le ((rec' x).look s)) (s : Span) :
    ((step (C.redefine c r g) rec j q).look s).le ((step C rec' k q).look s) ∧
    ((step C rec j q).look s).le ((step (C.redefine c r g) rec' k q).look s) := by
  have hle : ∀ x, (rec x).le (onLooks q rec' rec x) := fun x s => ⟨M.le_refl _, by
    simp only [onLooks]; split
    · exact h x ‹_› s
    · exact M.le_refl _⟩
  have heq : ∀ x ∈ q.parts, (rec' x).look = (onLooks q rec' rec x).look := fun x hx => by simp only [onLooks, if_pos hx]
  refine ⟨?_, ?_⟩
  · refine M.le_trans (step_rec_le hle j q s).2 (M.le_trans ?_ (step_fuel_le_le rec' hjk q s).2)
    rw [step_look (C := C) (c := c) (r := r) (g := g) j q hq heq]
    exact M.le_refl _
  · refine M.le_trans (step_rec_le hle j q s).2 (M.le_trans ?_ (step_fuel_le_le rec' hjk q s).2)
    rw [← step_look (C := C) (c := c) (r := r) (g := g) j q hq fun x hx => (heq x hx).symm]
    exact M.le_refl _

theorem parts_child {q x : Parser α} (h : x ∈ q.parts) (hq : ∀ y, q ≠ .ignore y) : ParseChild C q x := by
  cases q with
  | choice ps => exact .choice h
  | sequence ps => exact .sequence h
  | ignore y => exact absurd rfl (hq y)
  | delimit p d =>
    simp only [Parser.parts, List.mem_cons, List.not_mem_nil, or_false] at h
    rcases h with rfl | rfl
    · exact .delimit
    · exact .delimiter
  | anyOf _ | noneOf _ | allOf _ | anything | epsilon | custom _ => cases h
  | _ => simp only [Parser.parts, List.mem_cons, List.not_mem_nil, or_false] at h; subst h; constructor

theorem step_parse_le {rec rec' : Parser α → Sub} {j k : Nat} (hjk : j ≤ k) (q : Parser α) (hk : Keeps C c r g q)
    (h : ∀ x ∈ q.parts, ∀ s, ((rec x).look s).le ((rec' x).look s))
    (h' : ∀ x, ParseChild C q x → (rec x).le (rec' x)) :
    (step (C.redefine c r g) rec j q).le (step C rec' k q) ∧ (step C rec j q).le (step (C.redefine c r g) rec' k q) := by
  have hle : ∀ x, (rec x).le (onParts C q rec' rec x) := fun x s => by
    unfold onParts
    split
    · exact h' x ‹_› s
    · refine ⟨M.le_refl _, ?_⟩
      simp only [onLooks]; split
      · exact h x ‹_› s
      · exact M.le_refl _
  have heq : ∀ x ∈ q.parts, (rec' x).look = (onParts C q rec' rec x).look := fun x hx => by
    unfold onParts
    split
    · rfl
    · simp only [onLooks, if_pos hx]
  have heq' : ∀ x, ParseChild C q x → rec' x = onParts C q rec' rec x := fun x hx => by rw [onParts, if_pos hx]
  refine ⟨?_, ?_⟩
  · refine Sub.le_trans (step_rec_le hle j q) (Sub.le_trans ?_ (step_fuel_le_le rec' hjk q))
    rw [step_redefine (C := C) (c := c) (r := r) (g := g) j q hk heq heq']
    exact Sub.le_refl _
  · refine Sub.le_trans (step_rec_le hle j q) (Sub.le_trans ?_ (step_fuel_le_le rec' hjk q))
    rw [← step_redefine (C := C) (c := c) (r := r) (g := g) j q hk (fun x hx => (heq x hx).symm)
      fun x hx => (heq' x hx).symm]
    exact Sub.le_refl _

/-- every custom parser `p` uses has its body, or its body below `ignore` -/
def Bodies (C : Ctx α β) (c : Nat → CustomDef α) (p : Parser α) : Prop :=
  ∀ k, Uses C p (.custom k) → (c k).body = (C.custom k).body ∨ (c k).body = .ignore (C.custom k).body

theorem sem_look_below (hb : Bodies C c p) (n : Nat) (q : Parser α) (hq : Uses C p q) (s : Span) :
    ((sem (C.redefine c r g) n q).look s).le ((sem C n q).look s) := by
  induction n using Nat.strongRecOn generalizing q s with
  | _ n ih =>
    cases n with
    | zero => exact fun h => absurd rfl h
    | succ n =>
      by_cases hk : ∃ k, q = .custom k
      · obtain ⟨k, rfl⟩ := hk
        have hu := hq.trans (.custom .self)
        show ((sem (C.redefine c r g) n (c k).body).look s).le ((sem C n (C.custom k).body).look s)
        rcases hb k hq with e | e
        · rw [e]; exact ih n (Nat.lt_succ_self n) _ hu s
        · rw [e]
          cases n with
          | zero => exact fun h => absurd rfl h
          | succ m => exact M.le_trans (ih m (by omega) _ hu s) ((sem_mono_look _ s).le (Nat.le_succ m))
      · exact (step_look_le (Nat.le_refl n) q (fun k e => hk ⟨k, e⟩)
          (fun x hx s => ih n (Nat.lt_succ_self n) x (hq.child hx) s) s).1

theorem sem_look_above (hb : Bodies C c p) (n : Nat) (q : Parser α) (hq : Uses C p q) (s : Span) :
    ((sem C n q).look s).le ((sem (C.redefine c r g) (2 * n) q).look s) := by
  induction n generalizing q s with
  | zero => exact fun h => absurd rfl h
  | succ n ih =>
    by_cases hk : ∃ k, q = .custom k
    · obtain ⟨k, rfl⟩ := hk
      have hu := hq.trans (.custom .self)
      show ((sem C n (C.custom k).body).look s).le ((sem (C.redefine c r g) (2 * n + 1) (c k).body).look s)
      rcases hb k hq with e | e
      · rw [e]; exact M.le_trans (ih _ hu s) ((sem_mono_look _ s).le (Nat.le_succ _))
      · rw [e]; exact ih _ hu s
    · exact (step_look_le (rec' := sem (C.redefine c r g) (2 * n + 1)) (k := 2 * n + 1) (by omega) q
        (fun k e => hk ⟨k, e⟩)
        (fun x hx s => M.le_trans (ih x (hq.child hx) s) ((sem_mono_look _ s).le (Nat.le_succ _))) s).2

theorem parseReach_uses {q : Parser α} (h : ParseReach C p q) : Uses C p q := by
  induction h with
  | refl => exact .self
  | step hc _ ih => cases hc with
    | custom => exact .custom ih
    | choice h => exact .part h ih
    | sequence h => exact .part h ih
    | _ => exact .part (by simp [Parser.parts]) ih

theorem Keeps.reach {q : Parser α} (h : Keeps C c r g p) (hq : ParseReach C p q) : Keeps C c r g q := by
  induction hq with
  | refl => exact h
  | step hc _ ih => exact ih (h.child hc)

theorem sem_parse_below (hb : Bodies C c p) (hk : Keeps C c r g p) (n : Nat) (q : Parser α) (hq : ParseReach C p q) :
    (sem (C.redefine c r g) n q).le (sem C n q) := by
  induction n generalizing q with
  | zero => exact fun s => ⟨fun h => absurd rfl h, fun h => absurd rfl h⟩
  | succ n ih =>
    exact (step_parse_le (Nat.le_refl n) q (hk.reach hq)
      (fun x hx s => sem_look_below hb n x ((parseReach_uses hq).child hx) s) fun x hx => ih x (hq.snoc hx)).1

theorem sem_parse_above (hb : Bodies C c p) (hk : Keeps C c r g p) (n : Nat) (q : Parser α) (hq : ParseReach C p q) :
    (sem C n q).le (sem (C.redefine c r g) (2 * n) q) := by
  induction n generalizing q with
  | zero => exact fun s => ⟨fun h => absurd rfl h, fun h => absurd rfl h⟩
  | succ n ih =>
    exact (step_parse_le (rec' := sem (C.redefine c r g) (2 * n + 1)) (k := 2 * n + 1) (by omega) q (hk.reach hq)
      (fun x hx s => M.le_trans (sem_look_above hb n x ((parseReach_uses hq).child hx) s)
        ((sem_mono_look _ s).le (Nat.le_succ _)))
      fun x hx => Sub.le_trans (ih x (hq.snoc hx)) (sem_le_le (Nat.le_succ _) x)).2

theorem lim_eq_of_le {A L : Type} {m m' : Nat → M L A} (hm : Mono m) (hm' : Mono m') (h : ∀ n, (m' n).le (m n))
    (h' : ∀ n, (m n).le (m' (2 * n))) : lim m' = lim m := by
  refine Lim.unique hm'.lim ⟨hm', fun l r => (hm.lim.iff l r).trans ⟨fun ⟨n, hn⟩ => ⟨2 * n, (h' n).done hn⟩,
    fun ⟨n, hn⟩ => ⟨n, (h n).done hn⟩⟩⟩

/-- `lookahead` is determined by the bodies of the custom parsers used -/
theorem Look_redefine (hb : Bodies C c p) (q : Parser α) (hq : Uses C p q) :
    Look (C.redefine c r g) q = Look C q :=
  funext fun s => lim_eq_of_le (sem_mono_look q s) (sem_mono_look q s) (fun n => sem_look_below hb n q hq s)
    fun n => sem_look_above hb n q hq s

theorem Parse_redefine (hb : Bodies C c p) (hk : Keeps C c r g p) (q : Parser α) (hq : ParseReach C p q) :
    Parse (C.redefine c r g) q = Parse C q :=
  funext fun s => lim_eq_of_le (sem_mono_parse q s) (sem_mono_parse q s) (fun n => (sem_parse_below hb hk n q hq s).1)
    fun n => (sem_parse_above hb hk n q hq s).1

end

end

end Tok3n
