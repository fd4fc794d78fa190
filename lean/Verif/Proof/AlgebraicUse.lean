import Verif.Proof.AlgebraicGreedy
/-
The algebraic example: evaluating and printing what represents an expression.
-/

namespace Tok3n.Algebraic

open Json (Ws Digit Digits Fraction Ends)

variable {mem : Mem Nat} {R : Type} {A : Arith R}

/-! ### The shape of the values -/

theorem RepExpr.length : (e : Expr) → {vs ds : List Val} → RepExpr mem vs ds e → vs.length = ds.length + 1
  | .one _, _, _, h => by cases h; rfl
  | .add e _, _, _, h => by cases h with | add h _ _ => simp [RepExpr.length e h]
  | .sub e _, _, _, h => by cases h with | sub h _ _ => simp [RepExpr.length e h]
theorem RepFactors.length : (t : Term) → {vs ds : List Val} → RepFactors mem vs ds t → vs.length = ds.length + 1
  | .one _, _, _, h => by cases h; rfl
  | .mul t _, _, _, h => by cases h with | mul h _ _ => simp [RepFactors.length t h]
  | .div t _, _, _, h => by cases h with | div h _ _ => simp [RepFactors.length t h]
theorem RepPowterms.pos {f : Factor} {vs : List Val} (h : RepPowterms mem vs f) : vs ≠ [] := by cases h <;> simp

/-! ### A value represents one expression -/

theorem RepOpt.unique {v : Val} {x y : Option (List Nat)} (h : RepOpt mem v x) (h' : RepOpt mem v y) : x = y := by
  cases h <;> cases h' <;> rfl
theorem RepNumber.unique {v : Val} {x y : Number} (h : RepNumber mem v x) (h' : RepNumber mem v y) : x = y := by
  cases h with
  | mk _ h1 h2 => cases h' with | mk _ h1' h2' => rw [h1.unique h1', h2.unique h2']
theorem RepChar.unique {v : Val} {x y : Nat} (h : RepChar mem v x) (h' : RepChar mem v y) : x = y := by
  cases h with
  | mk _ h1 => cases h' with | mk _ h1' => rw [h1] at h1'; simpa using h1'

theorem snoc_inj {v v' : Val} {vs vs' : List Val} (h : vs ++ [v] = vs' ++ [v']) : vs = vs' ∧ v = v' := by
  simpa using List.append_inj' h rfl

mutual
theorem RepExpr.unique : (e : Expr) → {vs ds : List Val} → {e' : Expr} → RepExpr mem vs ds e → RepExpr mem vs ds e' → e = e'
  | .one t, vs, ds, e', h, h' => by
    cases h with
    | one h =>
      generalize hv : [_] = vs at h'
      generalize hd : [] = ds at h'
      cases h' with
      | one h' => simp at hv; subst hv; rw [RepTerm.unique t h h']
      | add _ _ _ => simp at hd
      | sub _ _ _ => simp at hd
  | .add e t, vs, ds, e', h, h' => by
    cases h with
    | add h h1 h2 =>
      generalize hv : _ ++ [_] = vs at h'
      generalize hd : _ ++ [_] = ds at h'
      cases h' with
      | one h' => simp at hd
      | add h' h1' h2' =>
        obtain ⟨rfl, rfl⟩ := snoc_inj hv
        obtain ⟨rfl, rfl⟩ := snoc_inj hd
        rw [RepExpr.unique e h h', RepTerm.unique t h2 h2']
      | sub h' h1' h2' =>
        obtain ⟨rfl, rfl⟩ := snoc_inj hd
        have := h1.unique h1'
        omega
  | .sub e t, vs, ds, e', h, h' => by
    cases h with
    | sub h h1 h2 =>
      generalize hv : _ ++ [_] = vs at h'
      generalize hd : _ ++ [_] = ds at h'
      cases h' with
      | one h' => simp at hd
      | sub h' h1' h2' =>
        obtain ⟨rfl, rfl⟩ := snoc_inj hv
        obtain ⟨rfl, rfl⟩ := snoc_inj hd
        rw [RepExpr.unique e h h', RepTerm.unique t h2 h2']
      | add h' h1' h2' =>
        obtain ⟨rfl, rfl⟩ := snoc_inj hd
        have := h1.unique h1'
        omega
theorem RepTerm.unique : (t : Term) → {v : Val} → {t' : Term} → RepTerm mem v t → RepTerm mem v t' → t = t'
  | .one f, v, t', h, h' => by
    cases h with
    | mk h =>
    cases h' with
    | mk h' =>
    cases h with
    | one h =>
      generalize hv : [_] = vs at h'
      generalize hd : [] = ds at h'
      cases h' with
      | one h' => simp at hv; subst hv; rw [RepFactor.unique f h h']
      | mul _ _ _ => simp at hd
      | div _ _ _ => simp at hd
  | .mul t f, v, t', h, h' => by
    cases h with
    | mk h =>
    cases h' with
    | mk h' =>
    cases h with
    | mul h h1 h2 =>
      generalize hv : _ ++ [_] = vs at h'
      generalize hd : _ ++ [_] = ds at h'
      cases h' with
      | one h' => simp at hd
      | mul h' h1' h2' =>
        obtain ⟨rfl, rfl⟩ := snoc_inj hv
        obtain ⟨rfl, rfl⟩ := snoc_inj hd
        rw [RepTerm.unique t (.mk h) (.mk h'), RepFactor.unique f h2 h2']
      | div h' h1' h2' =>
        obtain ⟨rfl, rfl⟩ := snoc_inj hd
        have := h1.unique h1'
        omega
  | .div t f, v, t', h, h' => by
    cases h with
    | mk h =>
    cases h' with
    | mk h' =>
    cases h with
    | div h h1 h2 =>
      generalize hv : _ ++ [_] = vs at h'
      generalize hd : _ ++ [_] = ds at h'
      cases h' with
      | one h' => simp at hd
      | div h' h1' h2' =>
        obtain ⟨rfl, rfl⟩ := snoc_inj hv
        obtain ⟨rfl, rfl⟩ := snoc_inj hd
        rw [RepTerm.unique t (.mk h) (.mk h'), RepFactor.unique f h2 h2']
      | mul h' h1' h2' =>
        obtain ⟨rfl, rfl⟩ := snoc_inj hd
        have := h1.unique h1'
        omega
theorem RepFactor.unique : (f : Factor) → {v : Val} → {f' : Factor} → RepFactor mem v f → RepFactor mem v f' → f = f'
  | .one p, v, f', h, h' => by
    cases h with
    | mk h =>
    cases h' with
    | mk h' =>
    cases h with
    | one h =>
    cases h' with
    | one h' => rw [RepPowterm.unique p h h']
    | pow _ h' => exact absurd rfl h'.pos
  | .pow p f, v, f', h, h' => by
    cases h with
    | mk h =>
    cases h' with
    | mk h' =>
    cases h with
    | pow h h1 =>
    cases h' with
    | one _ => exact absurd rfl h1.pos
    | pow h' h1' => rw [RepPowterm.unique p h h', RepFactor.unique f (.mk h1) (.mk h1')]
theorem RepPowterm.unique : (p : Powterm) → {v : Val} → {p' : Powterm} → RepPowterm mem v p → RepPowterm mem v p' → p = p'
  | .paren e, v, p', h, h' => by
    cases h with
    | paren h =>
    cases h' with
    | paren h' => rw [RepExpr.unique e h h']
  | .neg e, v, p', h, h' => by
    cases h with
    | neg h =>
    cases h' with
    | neg h' => rw [RepExpr.unique e h h']
  | .num n, v, p', h, h' => by
    cases h with
    | num h =>
    cases h' with
    | num h' => rw [h.unique h']
end

/-! ### Evaluation -/

/-- how `evaluate` reports that there is no value -/
def report : NoValue → Failure
  | .number => .invalidArgument
  | .exponent => .terminate

def reported {α : Type} : Except NoValue α → Except Failure α
  | .ok x => .ok x
  | .error e => .error (report e)

theorem reported_bind {α β : Type} (x : Except NoValue α) (f : α → Except NoValue β) :
    reported (x >>= f) = reported x >>= fun a => reported (f a) := by cases x <;> rfl

theorem except_bind_assoc {ε α β γ : Type} (x : Except ε α) (f : α → Except ε β) (g : β → Except ε γ) :
    (x >>= f) >>= g = x >>= fun a => f a >>= g := by cases x <;> rfl

theorem decimal_eq (x : List Nat) : decimal x = Nat.ofDigits 10 (x.reverse.map (· - 48)) := by
  induction x using List.reverseRecOn with
  | nil => rfl
  | append_singleton x c ih =>
    rw [decimal, List.foldl_append, ← decimal, ih]
    simp [Nat.ofDigits_cons]
    omega

theorem takeDigits {x : List Nat} (h : ∀ c ∈ x, Digit c) : x.takeWhile (fun c => 48 ≤ c && c ≤ 57) = x := by
  induction x with
  | nil => rfl
  | cons c x ih =>
    have := h c (by simp)
    simp only [Digit] at this
    rw [List.takeWhile_cons_of_pos (by simp; omega), ih fun d hd => h d (by simp [hd])]

theorem fromChars_pos {x : List Nat} (hx : Digits x) :
    fromCharsInt x = if -2147483648 ≤ (decimal x : Int) ∧ (decimal x : Int) ≤ 2147483647 then some (decimal x : Int) else none := by
  obtain ⟨h0, hd⟩ := hx
  obtain ⟨c, y, rfl⟩ := List.exists_cons_of_ne_nil h0
  have hc : ∀ z, c :: y = 45 :: z → False := by
    intro z h
    have := hd c (by simp)
    simp only [Digit] at this
    injection h; omega
  unfold fromCharsInt
  split
  rename_i sign z hm
  split at hm
  · rename_i h; exact (hc _ h).elim
  · obtain ⟨rfl, rfl⟩ := Prod.mk.inj hm
    simp [takeDigits hd]

theorem fromChars_eq {e x : List Nat} (hs : e = [] ∨ e = [0x2D]) (hx : Digits x) :
    fromCharsInt (e ++ x) = if -2147483648 ≤ integerValue (e ++ x) ∧ integerValue (e ++ x) ≤ 2147483647
      then some (integerValue (e ++ x)) else none := by
  rcases hs with rfl | rfl
  · have hi : integerValue x = (decimal x : Int) := by
      rw [decimal_eq, integerValue.eq_def]
      split
      · have := hx.2 45 (by simp)
        simp [Digit] at this
      · rfl
    rw [List.nil_append, fromChars_pos hx, hi]
  · have hi : integerValue ([0x2D] ++ x) = -(decimal x : Int) := by rw [decimal_eq]; rfl
    rw [hi]
    obtain ⟨h0, hd⟩ := hx
    obtain ⟨c, y, rfl⟩ := List.exists_cons_of_ne_nil h0
    simp [fromCharsInt, takeDigits hd]

theorem textOf_eq {s : Span} (hs : s.Valid mem) : textOf mem s = .ok (s.elems mem) := by rw [textOf, if_pos hs]

theorem frontOf_eq {d : Val} {c : Nat} (h : RepChar mem d c) : frontOf mem d = .ok c := by
  cases h with
  | mk hs he => simp [frontOf, textOf_eq hs, he]

theorem optionalText_eq {v : Val} {x : Option (List Nat)} (h : RepOpt mem v x) : optionalText mem v = .ok x := by
  cases h with
  | none => rfl
  | some hs => simp [optionalText, textOf_eq hs]

theorem evaluateNumber_eq {v : Val} {n : Number} {x : List Nat} (h : RepNumber mem v n) (hx : IsNumber x n) :
    evaluateNumber mem A v = reported (n.value A) := by
  cases h with
  | @mk sp f e fo eo hs hf he =>
    cases hx with
    | mk _ _ hE =>
      simp only [evaluateNumber, textOf_eq hs, optionalText_eq hf, optionalText_eq he, Number.value, bind, Except.bind]
      generalize A.real _ = ro
      cases ro with
      | none => rfl
      | some r =>
        cases hE with
        | none => rfl
        | @some _ sign y _ h2 h3 =>
          simp only [fromChars_eq h2 h3]
          by_cases hr : -2147483648 ≤ integerValue (sign ++ y) ∧ integerValue (sign ++ y) ≤ 2147483647
          · simp only [if_pos hr]; rfl
          · simp only [if_neg hr]; rfl

mutual
theorem evaluate_expr : (e : Expr) → {x : List Nat} → {vs ds : List Val} → IsExpr x e → RepExpr mem vs ds e →
    ∀ vs2 ds2, ∃ v0 vs', vs = v0 :: vs' ∧ (evaluateTerm mem A v0 >>= fun o => exprLoop mem A o (vs' ++ vs2) (ds ++ ds2)) =
      (reported (e.value A) >>= fun o => exprLoop mem A o vs2 ds2)
  | .one t, _, _, _, hx, h, vs2, ds2 => by
    cases hx with
    | one _ hx =>
    cases h with
    | one h =>
      refine ⟨_, [], rfl, ?_⟩
      rw [evaluate_term t hx h, Expr.value]; rfl
  | .add e t, _, _, _, hx, h, vs2, ds2 => by
    cases hx with
    | add hx _ _ hy =>
    cases h with
    | @add vs ds v d _ _ h h1 h2 =>
      obtain ⟨v0, vs', rfl, hv⟩ := evaluate_expr e hx h (v :: vs2) (d :: ds2)
      refine ⟨v0, vs' ++ [v], rfl, ?_⟩
      rw [List.append_assoc, List.append_assoc, List.singleton_append, List.singleton_append, hv, Expr.value]
      simp only [exprLoop, frontOf_eq h1, evaluate_term t hy h2, reported_bind, except_bind_assoc]
      rfl
  | .sub e t, _, _, _, hx, h, vs2, ds2 => by
    cases hx with
    | sub hx _ _ hy =>
    cases h with
    | @sub vs ds v d _ _ h h1 h2 =>
      obtain ⟨v0, vs', rfl, hv⟩ := evaluate_expr e hx h (v :: vs2) (d :: ds2)
      refine ⟨v0, vs' ++ [v], rfl, ?_⟩
      rw [List.append_assoc, List.append_assoc, List.singleton_append, List.singleton_append, hv, Expr.value]
      simp only [exprLoop, frontOf_eq h1, evaluate_term t hy h2, reported_bind, except_bind_assoc]
      rfl
theorem evaluate_factors : (t : Term) → {x : List Nat} → {vs ds : List Val} → IsTerm x t → RepFactors mem vs ds t →
    ∀ vs2 ds2, ∃ v0 vs', vs = v0 :: vs' ∧ (evaluateFactor mem A v0 >>= fun o => termLoop mem A o (vs' ++ vs2) (ds ++ ds2)) =
      (reported (t.value A) >>= fun o => termLoop mem A o vs2 ds2)
  | .one f, _, _, _, hx, h, vs2, ds2 => by
    cases hx with
    | one _ hx =>
    cases h with
    | one h =>
      refine ⟨_, [], rfl, ?_⟩
      rw [evaluate_factor f hx h, Term.value]; rfl
  | .mul e t, _, _, _, hx, h, vs2, ds2 => by
    cases hx with
    | mul hx _ _ hy =>
    cases h with
    | @mul vs ds v d _ _ h h1 h2 =>
      obtain ⟨v0, vs', rfl, hv⟩ := evaluate_factors e hx h (v :: vs2) (d :: ds2)
      refine ⟨v0, vs' ++ [v], rfl, ?_⟩
      rw [List.append_assoc, List.append_assoc, List.singleton_append, List.singleton_append, hv, Term.value]
      simp only [termLoop, frontOf_eq h1, evaluate_factor t hy h2, reported_bind, except_bind_assoc]
      rfl
  | .div e t, _, _, _, hx, h, vs2, ds2 => by
    cases hx with
    | div hx _ _ hy =>
    cases h with
    | @div vs ds v d _ _ h h1 h2 =>
      obtain ⟨v0, vs', rfl, hv⟩ := evaluate_factors e hx h (v :: vs2) (d :: ds2)
      refine ⟨v0, vs' ++ [v], rfl, ?_⟩
      rw [List.append_assoc, List.append_assoc, List.singleton_append, List.singleton_append, hv, Term.value]
      simp only [termLoop, frontOf_eq h1, evaluate_factor t hy h2, reported_bind, except_bind_assoc]
      rfl
theorem evaluate_term (t : Term) {x : List Nat} {v : Val} (hx : IsTerm x t) (h : RepTerm mem v t) :
    evaluateTerm mem A v = reported (t.value A) := by
  cases h with
  | mk h =>
    obtain ⟨v0, vs', rfl, hv⟩ := evaluate_factors t hx h [] []
    rw [List.append_nil, List.append_nil] at hv
    rw [evaluateTerm, hv]
    cases reported (t.value A) <;> rfl
theorem evaluate_factor : (f : Factor) → {x : List Nat} → {v : Val} → IsFactor x f → RepFactor mem v f →
    evaluateFactor mem A v = reported (f.value A)
  | .one p, _, _, hx, h => by
    cases hx with
    | one _ hx =>
    cases h with
    | mk h =>
    cases h with
    | one h => rw [evaluateFactor, factorLoop, evaluate_powterm p hx h, Factor.value]
  | .pow p f, _, _, hx, h => by
    cases hx with
    | pow _ hx _ hy =>
    cases h with
    | mk h =>
    cases h with
    | pow h h1 =>
      have ih := evaluate_factor f hy (.mk h1)
      rw [evaluateFactor] at ih
      rw [evaluateFactor, factorLoop, ih, evaluate_powterm p hx h, Factor.value, reported_bind]
      · simp only [reported_bind]; rfl
      · exact h1.pos
theorem evaluate_powterm : (p : Powterm) → {x : List Nat} → {v : Val} → IsPowterm x p → RepPowterm mem v p →
    evaluatePowterm mem A v = reported (p.value A)
  | .paren e, _, _, hx, h => by
    cases hx with
    | paren _ hx =>
    cases h with
    | paren h =>
      obtain ⟨v0, vs', rfl, hv⟩ := evaluate_expr e hx h [] []
      rw [List.append_nil, List.append_nil] at hv
      rw [evaluatePowterm, evaluateExpr, hv, Powterm.value]
      cases reported (e.value A) <;> rfl
  | .neg e, _, _, hx, h => by
    cases hx with
    | neg _ hx =>
    cases h with
    | neg h =>
      obtain ⟨v0, vs', rfl, hv⟩ := evaluate_expr e hx h [] []
      rw [List.append_nil, List.append_nil] at hv
      rw [evaluatePowterm, evaluateExpr, hv, Powterm.value, reported_bind]
      cases reported (e.value A) <;> rfl
  | .num n, _, _, hx, h => by
    cases hx with
    | num hx =>
    cases h with
    | num h => rw [evaluatePowterm, evaluateNumber_eq h hx, Powterm.value]
end

theorem evaluate_rep {e : Expr} {x : List Nat} {v : Val} (hx : IsExpr x e) (h : Rep mem v e) :
    evaluateExpr mem A v = reported (e.value A) := by
  obtain ⟨vs, ds, rfl, h⟩ := h
  obtain ⟨v0, vs', rfl, hv⟩ := evaluate_expr (A := A) e hx h [] []
  rw [List.append_nil, List.append_nil] at hv
  rw [evaluateExpr, hv]
  cases reported (e.value A) <;> rfl

/-! ### Printing -/

/-- It is fine exactly if `b`, and otherwise undefined. -/
def Fits {α : Type} (r : Except Failure α) (b : Prop) : Prop := (b → ∃ out, r = .ok out) ∧ (¬ b → r = .error .ub)

theorem Fits.iff {α : Type} {r : Except Failure α} {b b' : Prop} (h : Fits r b) (e : b ↔ b') : Fits r b' := by
  rwa [← propext e]
theorem Fits.ok {α : Type} {x : α} : Fits (.ok x) True := ⟨fun _ => ⟨x, rfl⟩, fun h => absurd trivial h⟩
theorem Fits.bind {α β : Type} {r : Except Failure α} {f : α → Except Failure β} {p q : Prop} (h : Fits r p)
    (h' : ∀ x, Fits (f x) q) : Fits (r >>= f) (p ∧ q) := by
  by_cases hp : p
  · obtain ⟨x, rfl⟩ := h.1 hp
    exact ⟨fun hq => (h' x).1 hq.2, fun hq => (h' x).2 fun h => hq ⟨hp, h⟩⟩
  · rw [h.2 hp]
    exact ⟨fun hq => absurd hq.1 hp, fun _ => rfl⟩

theorem fits_tabs (n : Nat) : Fits (getTabs n) (n ≤ 1025) := by
  unfold getTabs
  split <;> rename_i h
  · exact ⟨fun _ => ⟨_, rfl⟩, fun h' => absurd h h'⟩
  · exact ⟨fun h' => absurd h' h, fun _ => rfl⟩
theorem fits_text (x : String) (n : Nat) : Fits (printText x n) (n ≤ 1025) :=
  ((fits_tabs n).bind fun _ => .ok).iff (by simp)
theorem fits_auto (x : String) (n : Nat) {r : Except Failure (List Nat)} {q : Prop} (h : Fits r q) :
    Fits (autoprint x n r) (n ≤ 1025 ∧ q) :=
  ((fits_text x n).bind fun _ => (fits_text _ n).bind fun _ => h.bind fun _ => (fits_text _ n).bind fun _ => .ok).iff
    (by simp; tauto)

theorem fits_number {v : Val} {n : Number} (h : RepNumber mem v n) (tabs : Nat) :
    Fits (printNumber mem v tabs) (tabs ≤ 1025) := by
  cases h with
  | mk hs hf he =>
    rw [printNumber, textOf_eq hs, optionalText_eq hf, optionalText_eq he]
    exact ((fits_text _ tabs).bind fun _ => Fits.ok.bind fun _ => Fits.ok.bind fun _ => Fits.ok.bind fun _ => .ok).iff (by simp)

theorem fits_factors {tabs : Nat} {q : Val → Prop} : ∀ {vs ds : List Val}, vs.length = ds.length + 1 →
    (∀ d ∈ ds, RepChar mem d 0x2A ∨ RepChar mem d 0x2F) → (∀ v ∈ vs, Fits (printFactor mem v tabs) (q v)) →
    (∀ v ∈ vs, q v → tabs ≤ 1025) → Fits (printFactors mem vs ds tabs) (∀ v ∈ vs, q v)
  | [], _, h, _, _, _ => by simp at h
  | [v], _, _, _, h, _ => by
    rw [printFactors]; exact (h v (by simp)).iff (by simp)
  | v :: w :: vs, [], h, _, _, _ => by simp at h
  | v :: w :: vs, d :: ds, h, hd, hq, ht => by
    have ih := fits_factors (tabs := tabs) (q := q) (vs := w :: vs) (ds := ds) (by simpa using h)
      (fun d' h' => hd d' (by simp [h'])) (fun v' h' => hq v' (by simp at h'; simp [h']))
      (fun v' h' => ht v' (by simp at h'; simp [h']))
    rw [printFactors]
    case x_3 => simp
    have hc : ∃ c, frontOf mem d = .ok c ∧ Fits (if c = 42 then printText "<multiplied by>" tabs else if c = 47 then
        printText "<divided by>" tabs else .error .terminate) (tabs ≤ 1025) := by
      rcases hd d (by simp) with h | h
      · exact ⟨_, frontOf_eq h, by simpa using fits_text _ _⟩
      · exact ⟨_, frontOf_eq h, by simpa using fits_text _ _⟩
    obtain ⟨c, e, hc⟩ := hc
    rw [e]
    refine ((hq v (by simp)).bind (q := tabs ≤ 1025 ∧ (∀ v ∈ w :: vs, q v) ∧ True) fun a =>
      hc.bind fun _ => ih.bind fun _ => .ok).iff ?_
    constructor
    · rintro ⟨h1, -, h2, -⟩ v' hv'
      rcases List.mem_cons.1 hv' with rfl | h
      · exact h1
      · exact h2 v' h
    · intro h
      exact ⟨h v (by simp), ht v (by simp) (h v (by simp)), fun v' hv' => h v' (List.mem_cons_of_mem _ hv'), trivial⟩

theorem fits_terms {tabs : Nat} {q : Val → Prop} : ∀ {vs ds : List Val}, vs.length = ds.length + 1 →
    (∀ d ∈ ds, RepChar mem d 0x2B ∨ RepChar mem d 0x2D) → (∀ v ∈ vs, Fits (printTerm mem v tabs) (q v)) →
    (∀ v ∈ vs, q v → tabs ≤ 1025) → Fits (printTerms mem vs ds tabs) (∀ v ∈ vs, q v)
  | [], _, h, _, _, _ => by simp at h
  | [v], _, _, _, h, _ => by
    rw [printTerms]; exact (h v (by simp)).iff (by simp)
  | v :: w :: vs, [], h, _, _, _ => by simp at h
  | v :: w :: vs, d :: ds, h, hd, hq, ht => by
    have ih := fits_terms (tabs := tabs) (q := q) (vs := w :: vs) (ds := ds) (by simpa using h)
      (fun d' h' => hd d' (by simp [h'])) (fun v' h' => hq v' (by simp at h'; simp [h']))
      (fun v' h' => ht v' (by simp at h'; simp [h']))
    rw [printTerms]
    case x_3 => simp
    have hc : ∃ c, frontOf mem d = .ok c ∧ Fits (if c = 43 then printText "<plus>" tabs else if c = 45 then
        printText "<minus>" tabs else .error .terminate) (tabs ≤ 1025) := by
      rcases hd d (by simp) with h | h
      · exact ⟨_, frontOf_eq h, by simpa using fits_text _ _⟩
      · exact ⟨_, frontOf_eq h, by simpa using fits_text _ _⟩
    obtain ⟨c, e, hc⟩ := hc
    rw [e]
    refine ((hq v (by simp)).bind (q := tabs ≤ 1025 ∧ (∀ v ∈ w :: vs, q v) ∧ True) fun a =>
      hc.bind fun _ => ih.bind fun _ => .ok).iff ?_
    constructor
    · rintro ⟨h1, -, h2, -⟩ v' hv'
      rcases List.mem_cons.1 hv' with rfl | h
      · exact h1
      · exact h2 v' h
    · intro h
      exact ⟨h v (by simp), ht v (by simp) (h v (by simp)), fun v' hv' => h v' (List.mem_cons_of_mem _ hv'), trivial⟩

theorem RepExpr.chars : (e : Expr) → {vs ds : List Val} → RepExpr mem vs ds e →
    ∀ d ∈ ds, RepChar mem d 0x2B ∨ RepChar mem d 0x2D
  | .one _, _, _, h => by cases h; simp
  | .add e _, _, _, h => by
    cases h with
    | add h h1 _ =>
      intro d hd
      rcases List.mem_append.1 hd with hd | hd
      · exact RepExpr.chars e h d hd
      · simp at hd; subst hd; exact .inl h1
  | .sub e _, _, _, h => by
    cases h with
    | sub h h1 _ =>
      intro d hd
      rcases List.mem_append.1 hd with hd | hd
      · exact RepExpr.chars e h d hd
      · simp at hd; subst hd; exact .inr h1
theorem RepFactors.chars : (t : Term) → {vs ds : List Val} → RepFactors mem vs ds t →
    ∀ d ∈ ds, RepChar mem d 0x2A ∨ RepChar mem d 0x2F
  | .one _, _, _, h => by cases h; simp
  | .mul t _, _, _, h => by
    cases h with
    | mul h h1 _ =>
      intro d hd
      rcases List.mem_append.1 hd with hd | hd
      · exact RepFactors.chars t h d hd
      · simp at hd; subst hd; exact .inl h1
  | .div t _, _, _, h => by
    cases h with
    | div h h1 _ =>
      intro d hd
      rcases List.mem_append.1 hd with hd | hd
      · exact RepFactors.chars t h d hd
      · simp at hd; subst hd; exact .inr h1

/-- The elements of a list are printed if the deepest one fits. -/
def Each (f : Val → Except Failure (List Nat)) (vs : List Val) (limit : Nat) (depth : Nat) : Prop :=
  ∃ q : Val → Prop, (∀ v ∈ vs, Fits (f v) (q v)) ∧ ((∀ v ∈ vs, q v) ↔ limit + 5 * depth ≤ 1025) ∧ ∀ v ∈ vs, q v → limit ≤ 1025

theorem Each.one {f : Val → Except Failure (List Nat)} {v : Val} {l d : Nat} (h : Fits (f v) (l + 5 * d ≤ 1025)) :
    Each f [v] l d := ⟨fun _ => l + 5 * d ≤ 1025, by simpa using h, by simp, by intros; omega⟩

theorem fits_ok {α : Type} {r : Except Failure α} {b : Prop} (h : Fits r b) : b ↔ ∃ out, r = .ok out := by
  refine ⟨h.1, fun ⟨x, hx⟩ => ?_⟩
  by_contra hb
  rw [h.2 hb] at hx; cases hx

theorem Each.append {f : Val → Except Failure (List Nat)} {vs ws : List Val} {l d d' : Nat} (h : Each f vs l d)
    (h' : Each f ws l d') : Each f (vs ++ ws) l (max d d') := by
  obtain ⟨q, h1, h2, h3⟩ := h
  obtain ⟨q', h1', h2', h3'⟩ := h'
  have e : ∀ v ∈ vs, q v ↔ ∃ out, f v = .ok out := fun v hv => fits_ok (h1 v hv)
  have e' : ∀ v ∈ ws, q' v ↔ ∃ out, f v = .ok out := fun v hv => fits_ok (h1' v hv)
  refine ⟨fun v => ∃ out, f v = .ok out, ?_, ?_, ?_⟩
  · intro v hv
    rcases List.mem_append.1 hv with hv | hv
    · exact (h1 v hv).iff (e v hv)
    · exact (h1' v hv).iff (e' v hv)
  · have a : (∀ v ∈ vs ++ ws, ∃ out, f v = .ok out) ↔ (∀ v ∈ vs, q v) ∧ ∀ v ∈ ws, q' v := by
      constructor
      · intro h
        exact ⟨fun v hv => (e v hv).2 (h v (List.mem_append_left _ hv)), fun v hv => (e' v hv).2 (h v (List.mem_append_right _ hv))⟩
      · rintro ⟨ha, hb⟩ v hv
        rcases List.mem_append.1 hv with hv | hv
        · exact (e v hv).1 (ha v hv)
        · exact (e' v hv).1 (hb v hv)
    rw [a, h2, h2']
    omega
  · intro v hv hq
    rcases List.mem_append.1 hv with hv | hv
    · exact h3 v hv ((e v hv).2 hq)
    · exact h3' v hv ((e' v hv).2 hq)

theorem fits_powterms {tabs : Nat} {q : Val → Prop} : ∀ {vs : List Val}, (∀ v ∈ vs, Fits (printPowterm mem v tabs) (q v)) →
    Fits (printPowterms mem vs tabs) (∀ v ∈ vs, q v)
  | [], _ => by rw [printPowterms]; exact Fits.ok.iff (by simp)
  | v :: vs, h => by
    rw [printPowterms]
    exact ((h v (by simp)).bind fun _ => (fits_powterms fun v' hv' => h v' (List.mem_cons_of_mem _ hv')).bind fun _ => .ok).iff
      (by simp)

theorem fits_term (t : Term) {vs ds : List Val} (h : RepFactors mem vs ds t) {tabs : Nat}
    (he : Each (fun v => printFactor mem v (tabs + 1)) vs (tabs + 1 + 2) t.depth) :
    Fits (printTerm mem (.pair (.vec vs) (.vec ds)) tabs) (tabs + 3 + 5 * t.depth ≤ 1025) := by
  obtain ⟨q, h1, h2, h3⟩ := he
  rw [printTerm]
  refine (fits_auto _ _ (fits_factors (RepFactors.length t h) (RepFactors.chars t h) h1 fun v hv hq => ?_)).iff ?_
  · have := h3 v hv hq; omega
  · rw [h2]; omega

theorem fits_factor {d : Nat} {vs : List Val} {tabs : Nat} (he : Each (fun v => printPowterm mem v (tabs + 1)) vs (tabs + 1 + 1) d) :
    Fits (printFactor mem (.vec vs) tabs) (tabs + 2 + 5 * d ≤ 1025) := by
  obtain ⟨q, h1, h2, h3⟩ := he
  rw [printFactor]
  refine (fits_auto _ _ (fits_powterms h1)).iff ?_
  rw [h2]; omega

theorem fits_expr (e : Expr) {vs ds : List Val} (h : RepExpr mem vs ds e) {tabs : Nat}
    (he : Each (fun v => printTerm mem v (tabs + 1)) vs (tabs + 1 + 3) e.depth) :
    Fits (printExpr mem (.pair (.vec vs) (.vec ds)) tabs) (tabs + 4 + 5 * e.depth ≤ 1025) := by
  obtain ⟨q, h1, h2, h3⟩ := he
  rw [printExpr]
  refine (fits_auto _ _ (fits_terms (RepExpr.length e h) (RepExpr.chars e h) h1 fun v hv hq => ?_)).iff ?_
  · have := h3 v hv hq; omega
  · rw [h2]; omega

mutual
theorem print_expr : (e : Expr) → {vs ds : List Val} → RepExpr mem vs ds e → ∀ tabs,
    Each (fun v => printTerm mem v tabs) vs (tabs + 3) e.depth
  | .one t, _, _, h, tabs => by
    cases h with
    | one h => cases h with | mk h => rw [Expr.depth]; exact .one (fits_term t h (print_factors t h _))
  | .add e t, _, _, h, tabs => by
    cases h with
    | add h _ h2 =>
      cases h2 with
      | mk h2 => rw [Expr.depth]; exact (print_expr e h tabs).append (.one (fits_term t h2 (print_factors t h2 _)))
  | .sub e t, _, _, h, tabs => by
    cases h with
    | sub h _ h2 =>
      cases h2 with
      | mk h2 => rw [Expr.depth]; exact (print_expr e h tabs).append (.one (fits_term t h2 (print_factors t h2 _)))
theorem print_factors : (t : Term) → {vs ds : List Val} → RepFactors mem vs ds t → ∀ tabs,
    Each (fun v => printFactor mem v tabs) vs (tabs + 2) t.depth
  | .one f, _, _, h, tabs => by
    cases h with
    | one h => cases h with | mk h => rw [Term.depth]; exact .one (fits_factor (print_powterms f h _))
  | .mul e t, _, _, h, tabs => by
    cases h with
    | mul h _ h2 =>
      cases h2 with
      | mk h2 => rw [Term.depth]; exact (print_factors e h tabs).append (.one (fits_factor (print_powterms t h2 _)))
  | .div e t, _, _, h, tabs => by
    cases h with
    | div h _ h2 =>
      cases h2 with
      | mk h2 => rw [Term.depth]; exact (print_factors e h tabs).append (.one (fits_factor (print_powterms t h2 _)))
theorem print_powterms : (f : Factor) → {vs : List Val} → RepPowterms mem vs f → ∀ tabs,
    Each (fun v => printPowterm mem v tabs) vs (tabs + 1) f.depth
  | .one p, _, h, tabs => by
    cases h with
    | one h => rw [Factor.depth]; exact .one (print_powterm p h tabs)
  | .pow p f, _, h, tabs => by
    cases h with
    | pow h h2 => rw [Factor.depth]; exact (Each.one (print_powterm p h tabs)).append (print_powterms f h2 tabs)
theorem print_powterm : (p : Powterm) → {v : Val} → RepPowterm mem v p → ∀ tabs,
    Fits (printPowterm mem v tabs) (tabs + 1 + 5 * p.depth ≤ 1025)
  | .paren e, _, h, tabs => by
    cases h with
    | paren h =>
      rw [printPowterm, Powterm.depth]
      exact (fits_auto _ _ (fits_auto _ _ (fits_expr e h (print_expr e h _)))).iff (by omega)
  | .neg e, _, h, tabs => by
    cases h with
    | neg h =>
      rw [printPowterm, Powterm.depth]
      exact (fits_auto _ _ (fits_auto _ _ (fits_expr e h (print_expr e h _)))).iff (by omega)
  | .num n, _, h, tabs => by
    cases h with
    | num h =>
      rw [printPowterm, Powterm.depth]
      exact (fits_auto _ _ (fits_number h _)).iff (by omega)
end

theorem print_rep {e : Expr} {v : Val} (h : Rep mem v e) (tabs : Nat) :
    Fits (printExpr mem v tabs) (tabs + 4 + 5 * e.depth ≤ 1025) := by
  obtain ⟨vs, ds, rfl, h⟩ := h
  exact fits_expr e h (print_expr e h _)

end Tok3n.Algebraic
