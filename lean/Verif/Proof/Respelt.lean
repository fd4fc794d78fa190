import Verif.Spec.Respelt
import Verif.Proof.Join
/-
Proofs for C72: the element type is a parameter.
-/

namespace Tok3n

variable {α α' β β' : Type} {E : β → β' → Prop} {C : Ctx α β} {C' : Ctx α' β'}

/-! ### User code -/

section
variable (h : SameButSpelling E C C')
include h

mutual
theorem defaultVal_respelt : ∀ t, defaultVal C t = defaultVal C' t
  | .void => rfl
  | .span => rfl
  | .vec _ => rfl
  | .arr t n => by simp only [defaultVal]; rw [defaultVal_respelt t]
  | .opt _ => rfl
  | .tup ts => by simp only [defaultVal]; rw [defaultVals_respelt ts]
  | .var [] => rfl
  | .var (t :: ts) => by simp only [defaultVal, defaultHead]; rw [defaultVal_respelt t]
  | .pair a b => by simp only [defaultVal]; rw [defaultVal_respelt a, defaultVal_respelt b]
  | .user k => by simp only [defaultVal]; rw [h.userDefault]
theorem defaultVals_respelt : ∀ ts, defaultVals C ts = defaultVals C' ts
  | [] => rfl
  | t :: ts => by simp only [defaultVals]; rw [defaultVal_respelt t, defaultVals_respelt ts]
end

theorem fnTy_respelt (f : Fn) (args : List Ty) : fnTy C f args = fnTy C' f args := by
  induction f generalizing args with
  | user k => simp only [fnTy]; rw [h.fnRet]
  | apply f ih =>
    match args with
    | [] => rfl
    | [t] => simp only [fnTy]; cases components t <;> simp only [ih]
    | _ :: _ :: _ => rfl
  | const k => simp only [fnTy]; rw [h.constTy]
  | construct t => simp only [fnTy]; rw [h.ctorOk]
  | deflt t => simp only [fnTy]; rw [defaultVal_respelt h]

theorem mapTy_respelt (t : Ty) (f : Fn) : mapTy C t f = mapTy C' t f := by
  simp only [mapTy]; rw [fnTy_respelt h]

theorem invoke_respelt (f : Fn) (args : List Val) : invoke C f args = invoke C' f args := by
  induction f generalizing args with
  | user k => simp only [invoke]; rw [h.fnCall]
  | apply f ih =>
    match args with
    | [] => rfl
    | [t] => simp only [invoke]; cases componentsOf t <;> simp only [ih]
    | _ :: _ :: _ => rfl
  | const k => simp only [invoke]; rw [h.constVal]
  | construct t => simp only [invoke]; rw [h.ctor]
  | deflt t => simp only [invoke]; rw [defaultVal_respelt h]

theorem convert_respelt (a b : Ty) (v : Val) : convert C a b v = convert C' a b v := by
  unfold convert; rw [h.conv]

theorem fromOptional_respelt (a b : Ty) : fromOptional C a b = fromOptional C' a b := by
  unfold fromOptional; rw [h.convOpt]

theorem convertResult_respelt (a b : Ty) (r : R) : convertResult C a b r = convertResult C' a b r := by
  unfold convertResult
  rw [fromOptional_respelt h]
  simp only [convert_respelt h]

theorem builderInit_respelt (t : Ty) : builderInit C t = builderInit C' t := by
  unfold builderInit; rw [defaultVal_respelt h]

theorem builderEmplaceAt_respelt (T : Ty) (i : Nat) (src : Ty) (v : Val) (r : R) :
    builderEmplaceAt C T i src v r = builderEmplaceAt C' T i src v r := by
  unfold builderEmplaceAt
  simp only [convert_respelt h]

/-! ### Memory -/

theorem Ptr.add_respelt (p : Ptr) (n : Nat) : (p.add C.mem n : Run Ptr) = p.add C'.mem n := by
  cases p with
  | null => rfl
  | «at» b o => simp only [Ptr.add]; rw [(h.mem b).length_eq]

theorem subspan_respelt (s : Span) (n : Nat) : (s.subspan C.mem n : Run Span) = s.subspan C'.mem n := by
  unfold Span.subspan; rw [Ptr.add_respelt h]

theorem advance_respelt (s : Span) (n : Nat) : advance C s n = advance C' s n := by
  unfold advance; rw [Ptr.add_respelt h]

theorem adjacent_respelt (j o : Span) : adjacent C j o = adjacent C' j o := by
  unfold adjacent; rw [Ptr.add_respelt h, h.toolchain, h.ptrEq]

theorem tryJoinSpan_respelt (j : Option Span) (o : Span) : tryJoinSpan C j o = tryJoinSpan C' j o := by
  unfold tryJoinSpan
  simp only [adjacent_respelt h]

mutual
theorem tryJoin_respelt (j : Option Span) : ∀ v, tryJoin C j v = tryJoin C' j v
  | .span s => by simp only [tryJoin]; rw [tryJoinSpan_respelt h]
  | .vec vs => by simp only [tryJoin]; rw [tryJoins_respelt j vs]
  | .arr vs => by simp only [tryJoin]; rw [tryJoins_respelt j vs]
  | .opt none => rfl
  | .opt (some v) => by simp only [tryJoin]; rw [tryJoin_respelt j v]
  | .tup vs => by simp only [tryJoin]; rw [tryJoins_respelt j vs]
  | .user k t vs => by
    simp only [tryJoin]
    rw [h.userSpan]
    cases C'.userSpan k with
    | none => rfl
    | some f => simp only [tryJoinSpan_respelt h]
  | .unit => rfl
  | .var .. => rfl
  | .pair .. => rfl
theorem tryJoins_respelt (j : Option Span) : ∀ vs, tryJoins C j vs = tryJoins C' j vs
  | [] => rfl
  | v :: vs => by
    simp only [tryJoins]
    rw [tryJoin_respelt j v]
    refine M.bind_congr fun x => ?_
    obtain ⟨ok, j'⟩ := x
    simp only [tryJoins_respelt j' vs]
end

theorem parseJoin_respelt (P : Sub) (s : Span) : parseJoin C P s = parseJoin C' P s := by
  unfold parseJoin joinExecutor
  simp only [tryJoin_respelt h]

theorem joinGeneric_respelt (P : Sub) : joinGeneric C P = joinGeneric C' P := by
  unfold joinGeneric
  congr 1
  funext s
  exact parseJoin_respelt h P s

/-- reading corresponding elements -/
theorem Ptr.read_respelt {B : Type} (p : Ptr) (i : Nat) {f : β → Run B} {g : β' → Run B}
    (hfg : ∀ x y, E x y → f x = g y) : M.bind (p.read C.mem i) f = M.bind (p.read C'.mem i) g := by
  cases p with
  | null => rfl
  | «at» b o =>
    simp only [Ptr.read]
    have hl := (h.mem b).length_eq
    by_cases hi : o + i < (C.mem b).length
    · rw [List.getElem?_eq_getElem hi, List.getElem?_eq_getElem (hl ▸ hi)]
      simp only [M.ofOption]
      have := hfg _ _ ((List.forall₂_iff_get.1 (h.mem b)).2 _ hi (hl ▸ hi))
      simp only [List.get_eq_getElem] at this
      simp only [M.pure, M.bind, this]
    · rw [List.getElem?_eq_none (by omega), List.getElem?_eq_none (by omega)]
      rfl

theorem execute_respelt (T : Ty) (u c : Bool) (e : Elem) (st : Exec) :
    execute C T u c e st = execute C' T u c e st := by
  unfold execute
  simp only [builderEmplaceAt_respelt h]

end

/-! ### Basic parsers -/

/-- a basic parser spelt in the other element type -/
def RespeltB (D : Reading α α' β β') : BasicP α → BasicP α' → Prop
  | .anyOf a, .anyOf b => D.Set a b
  | .noneOf a, .noneOf b => D.Set a b
  | .allOf a, .allOf b => List.Forall₂ D.Letter a b
  | .anything, .anything => True
  | _, _ => False

theorem contains_respelt {D : Reading α α' β β'} {a : List α} {a' : List α'} (ha : D.Set a a') {x : β} {y : β'}
    (hE : D.E x y) : contains D.eqv a x = contains D.eqv' a' y := by
  rw [contains_eq, contains_eq, Bool.eq_iff_iff, List.any_eq_true, List.any_eq_true]
  exact ha x y hE

section
variable (h : SameButSpelling E C C')
include h

theorem equalLoop_respelt {arr : List α} {arr' : List α'} (ha : List.Forall₂ (Reading.Letter ⟨C.eqv, C'.eqv, E⟩) arr arr')
    (p : Ptr) (n i : Nat) :
    (Span.equalLoop ((Ptr.at 0 0).read fun _ => arr) (p.read C.mem) C.eqv n i : Run Bool) =
      Span.equalLoop ((Ptr.at 0 0).read fun _ => arr') (p.read C'.mem) C'.eqv n i := by
  induction n generalizing i with
  | zero => rfl
  | succ n ih =>
    simp only [Span.equalLoop, M.bind_eq]
    simp only [Ptr.read, Nat.zero_add]
    have hl := ha.length_eq
    by_cases hi : i < arr.length
    · rw [List.getElem?_eq_getElem hi, List.getElem?_eq_getElem (hl ▸ hi)]
      have hL := (List.forall₂_iff_get.1 ha).2 _ hi (hl ▸ hi)
      simp only [List.get_eq_getElem] at hL
      simp only [M.ofOption]
      have := Ptr.read_respelt h p i (f := fun b => if (!C.eqv arr[i] b) = true then M.pure false
          else Span.equalLoop ((Ptr.at 0 0).read fun _ => arr) (p.read C.mem) C.eqv n (i + 1))
        (g := fun b => if (!C'.eqv arr'[i] b) = true then M.pure false
          else Span.equalLoop ((Ptr.at 0 0).read fun _ => arr') (p.read C'.mem) C'.eqv n (i + 1))
        (fun x y hxy => by rw [show C.eqv arr[i] x = C'.eqv arr'[i] y from hL x y hxy, ih])
      exact congrArg (M.after []) this
    · rw [List.getElem?_eq_none (by omega), List.getElem?_eq_none (by omega)]
      rfl

theorem failureCondition_respelt {b : BasicP α} {b' : BasicP α'} (hb : RespeltB ⟨C.eqv, C'.eqv, E⟩ b b')
    (s : Span) : failureCondition C b s = failureCondition C' b' s := by
  cases b <;> cases b' <;> try exact hb.elim
  · simp only [failureCondition]
    split
    · rfl
    · simp only [Span.front]
      split
      · rfl
      · exact Ptr.read_respelt h _ _ fun x y hxy => by rw [contains_respelt hb hxy]
  · simp only [failureCondition]
    split
    · rfl
    · simp only [Span.front]
      split
      · rfl
      · exact Ptr.read_respelt h _ _ fun x y hxy => by rw [contains_respelt hb hxy]
  · have hl := List.Forall₂.length_eq hb
    simp only [failureCondition, arrNotEqual, Span.equal]
    rw [hl]
    split
    · rfl
    · refine M.bind_congr fun f => ?_
      split
      · rfl
      · exact congrArg (fun m => M.bind m _) (equalLoop_respelt h hb _ _ _)
  · rfl

theorem BasicP.length_respelt {b : BasicP α} {b' : BasicP α'} (hb : RespeltB ⟨C.eqv, C'.eqv, E⟩ b b') :
    b.length = b'.length := by
  cases b <;> cases b' <;> try exact hb.elim
  · rfl
  · rfl
  · exact List.Forall₂.length_eq hb
  · rfl

section
variable {b : BasicP α} {b' : BasicP α'} (hb : RespeltB ⟨C.eqv, C'.eqv, E⟩ b b')
include hb

theorem parseBasic_respelt : parseBasic C b = parseBasic C' b' := by
  funext s
  unfold parseBasic
  rw [failureCondition_respelt h hb, BasicP.length_respelt h hb, advance_respelt h]

theorem lookBasic_respelt : lookBasic C b = lookBasic C' b' := by
  funext s
  unfold lookBasic
  rw [failureCondition_respelt h hb, BasicP.length_respelt h hb, advance_respelt h]

theorem parseJoinExactlyBasic_respelt (n : Nat) : parseJoinExactlyBasic C b n = parseJoinExactlyBasic C' b' n := by
  funext s
  unfold parseJoinExactlyBasic
  generalize (⟨s.ptr, 0⟩ : Span) = r
  suffices ∀ o, joinExactlyLoop C b o n s r = joinExactlyLoop C' b' o n s r from this s
  intro o
  induction n generalizing s r with
  | zero => rfl
  | succ n ih =>
    simp only [joinExactlyLoop]
    rw [failureCondition_respelt h hb, BasicP.length_respelt h hb, subspan_respelt h]
    simp only [ih]

theorem lookJoinExactlyBasic_respelt (n : Nat) : lookJoinExactlyBasic C b n = lookJoinExactlyBasic C' b' n := by
  funext s
  unfold lookJoinExactlyBasic
  suffices ∀ o, lookJoinExactlyLoop C b o n s = lookJoinExactlyLoop C' b' o n s from this s
  intro o
  induction n generalizing s with
  | zero => rfl
  | succ n ih =>
    simp only [lookJoinExactlyLoop]
    rw [failureCondition_respelt h hb, BasicP.length_respelt h hb, subspan_respelt h]
    simp only [ih]

theorem parseJoinMaybeBasic_respelt : parseJoinMaybeBasic C b = parseJoinMaybeBasic C' b' := by
  funext s
  unfold parseJoinMaybeBasic
  rw [failureCondition_respelt h hb, BasicP.length_respelt h hb, advance_respelt h]

theorem lookJoinMaybeBasic_respelt : lookJoinMaybeBasic C b = lookJoinMaybeBasic C' b' := by
  funext s
  unfold lookJoinMaybeBasic
  rw [failureCondition_respelt h hb, BasicP.length_respelt h hb, advance_respelt h]

theorem joinRepeatLoop_respelt (n : Nat) (s r : Span) : joinRepeatLoop C b n s r = joinRepeatLoop C' b' n s r := by
  induction n generalizing s r with
  | zero => rfl
  | succ n ih =>
    simp only [joinRepeatLoop]
    rw [failureCondition_respelt h hb, BasicP.length_respelt h hb, subspan_respelt h]
    simp only [ih]

theorem lookJoinRepeatLoop_respelt (n : Nat) (s : Span) : lookJoinRepeatLoop C b n s = lookJoinRepeatLoop C' b' n s := by
  induction n generalizing s with
  | zero => rfl
  | succ n ih =>
    simp only [lookJoinRepeatLoop]
    rw [failureCondition_respelt h hb, BasicP.length_respelt h hb, subspan_respelt h]
    simp only [ih]

theorem parseJoinOneOrMoreBasic_respelt (n : Nat) :
    parseJoinOneOrMoreBasic C b n = parseJoinOneOrMoreBasic C' b' n := by
  funext s
  unfold parseJoinOneOrMoreBasic
  rw [failureCondition_respelt h hb, BasicP.length_respelt h hb, subspan_respelt h]
  simp only [joinRepeatLoop_respelt h hb]

theorem lookJoinOneOrMoreBasic_respelt (n : Nat) :
    lookJoinOneOrMoreBasic C b n = lookJoinOneOrMoreBasic C' b' n := by
  funext s
  unfold lookJoinOneOrMoreBasic
  rw [failureCondition_respelt h hb, BasicP.length_respelt h hb, subspan_respelt h]
  simp only [lookJoinRepeatLoop_respelt h hb]

theorem parseJoinZeroOrMoreBasic_respelt (n : Nat) :
    parseJoinZeroOrMoreBasic C b n = parseJoinZeroOrMoreBasic C' b' n := by
  funext s
  unfold parseJoinZeroOrMoreBasic
  rw [joinRepeatLoop_respelt h hb]

theorem lookJoinZeroOrMoreBasic_respelt (n : Nat) :
    lookJoinZeroOrMoreBasic C b n = lookJoinZeroOrMoreBasic C' b' n := by
  funext s
  unfold lookJoinZeroOrMoreBasic
  rw [lookJoinRepeatLoop_respelt h hb]

end

/-- both are basic parsers for the optimisations of `join`, or neither is -/
theorem asBasic_respelt {p : Parser α} {q : Parser α'} (hq : Respelt ⟨C.eqv, C'.eqv, E⟩ p q) :
    (asBasic C p = none ∧ asBasic C' q = none) ∨
      ∃ b b', asBasic C p = some b ∧ asBasic C' q = some b' ∧ RespeltB ⟨C.eqv, C'.eqv, E⟩ b b' := by
  have ht := h.relaxedTtp
  cases p <;> simp only [Respelt] at hq
  case anyOf arr =>
    obtain ⟨arr', rfl, ha⟩ := hq
    simp only [asBasic, ht]
    split
    · exact .inr ⟨_, _, rfl, rfl, ha⟩
    · exact .inl ⟨rfl, rfl⟩
  case noneOf arr =>
    obtain ⟨arr', rfl, ha⟩ := hq
    simp only [asBasic, ht]
    split
    · exact .inr ⟨_, _, rfl, rfl, ha⟩
    · exact .inl ⟨rfl, rfl⟩
  case allOf arr =>
    obtain ⟨arr', rfl, ha⟩ := hq
    exact .inr ⟨_, _, rfl, rfl, ha⟩
  case anything => subst hq; exact .inl ⟨rfl, rfl⟩
  case epsilon => subst hq; exact .inl ⟨rfl, rfl⟩
  case custom => subst hq; exact .inl ⟨rfl, rfl⟩
  case delimit => obtain ⟨_, _, rfl, -⟩ := hq; exact .inl ⟨rfl, rfl⟩
  case named => obtain ⟨_, _, rfl, -⟩ := hq; exact .inl ⟨rfl, rfl⟩
  all_goals obtain ⟨_, rfl, -⟩ := hq; exact .inl ⟨rfl, rfl⟩

/-! ### Types -/

mutual
theorem resultFor_respelt : ∀ (p : Parser α) (q : Parser α'), Respelt ⟨C.eqv, C'.eqv, E⟩ p q →
    resultFor C p = resultFor C' q
  | .anyOf _, _, hq => by simp only [Respelt] at hq; obtain ⟨_, rfl, -⟩ := hq; rfl
  | .noneOf _, _, hq => by simp only [Respelt] at hq; obtain ⟨_, rfl, -⟩ := hq; rfl
  | .allOf _, _, hq => by simp only [Respelt] at hq; obtain ⟨_, rfl, -⟩ := hq; rfl
  | .anything, _, hq => by simp only [Respelt] at hq; subst hq; rfl
  | .epsilon, _, hq => by simp only [Respelt] at hq; subst hq; rfl
  | .choice ps, _, hq => by
    simp only [Respelt] at hq; obtain ⟨qs, rfl, hq⟩ := hq
    simp only [resultFor]; rw [resultsFor_respelt ps qs hq]
  | .sequence ps, _, hq => by
    simp only [Respelt] at hq; obtain ⟨qs, rfl, hq⟩ := hq
    simp only [resultFor]; rw [resultsFor_respelt ps qs hq]
  | .maybe p, _, hq => by
    simp only [Respelt] at hq; obtain ⟨q, rfl, hq⟩ := hq
    simp only [resultFor]; rw [resultFor_respelt p q hq]
  | .exactly p n, _, hq => by
    simp only [Respelt] at hq; obtain ⟨q, rfl, hq⟩ := hq
    simp only [resultFor]; rw [resultFor_respelt p q hq]
  | .oneOrMore p, _, hq => by
    simp only [Respelt] at hq; obtain ⟨q, rfl, hq⟩ := hq
    simp only [resultFor]; rw [resultFor_respelt p q hq]
  | .zeroOrMore p, _, hq => by
    simp only [Respelt] at hq; obtain ⟨q, rfl, hq⟩ := hq
    simp only [resultFor]; rw [resultFor_respelt p q hq]
  | .delimit p d, _, hq => by
    simp only [Respelt] at hq; obtain ⟨q, e, rfl, hq, he⟩ := hq
    simp only [resultFor]; rw [resultFor_respelt p q hq, resultFor_respelt d e he]
  | .ignore _, _, hq => by simp only [Respelt] at hq; obtain ⟨_, rfl, -⟩ := hq; rfl
  | .complete p, _, hq => by
    simp only [Respelt] at hq; obtain ⟨q, rfl, hq⟩ := hq
    simp only [resultFor]; rw [resultFor_respelt p q hq]
  | .join _, _, hq => by simp only [Respelt] at hq; obtain ⟨_, rfl, -⟩ := hq; rfl
  | .map p f, _, hq => by
    simp only [Respelt] at hq; obtain ⟨q, rfl, hq⟩ := hq
    simp only [resultFor]; rw [resultFor_respelt p q hq, mapTy_respelt h]
  | .filter p f, _, hq => by
    simp only [Respelt] at hq; obtain ⟨q, rfl, hq⟩ := hq
    simp only [resultFor]; rw [resultFor_respelt p q hq]
  | .named p _, _, hq => by
    simp only [Respelt] at hq; obtain ⟨q, n, rfl, hq⟩ := hq
    simp only [resultFor]; rw [resultFor_respelt p q hq]
  | .custom k, _, hq => by
    simp only [Respelt] at hq; subst hq
    simp only [resultFor]; exact h.customTy k
theorem resultsFor_respelt : ∀ (ps : List (Parser α)) (qs : List (Parser α')), Respelts ⟨C.eqv, C'.eqv, E⟩ ps qs →
    resultsFor C ps = resultsFor C' qs
  | [], _, hq => by simp only [Respelts] at hq; subst hq; rfl
  | p :: ps, _, hq => by
    simp only [Respelts] at hq; obtain ⟨q, qs, rfl, hq, hqs⟩ := hq
    simp only [resultsFor]; rw [resultFor_respelt p q hq, resultsFor_respelt ps qs hqs]
end

/-! ### One step -/

section
variable {rec : Parser α → Sub} {rec' : Parser α' → Sub}
  (hr : ∀ p q, Respelt ⟨C.eqv, C'.eqv, E⟩ p q → rec p = rec' q)
include hr

theorem mkElems_respelt (ps : List (Parser α)) (qs : List (Parser α')) (hq : Respelts ⟨C.eqv, C'.eqv, E⟩ ps qs)
    (is : List (Option Nat)) : mkElems rec C ps is = mkElems rec' C' qs is := by
  induction ps generalizing qs is with
  | nil => simp only [Respelts] at hq; subst hq; simp only [mkElems]
  | cons p ps ih =>
    simp only [Respelts] at hq; obtain ⟨q, qs, rfl, hq, hqs⟩ := hq
    cases is with
    | nil => simp only [mkElems]
    | cons i is => simp only [mkElems]; rw [hr p q hq, resultFor_respelt h p q hq, ih qs hqs is]

theorem mkLookElems_respelt (ps : List (Parser α)) (qs : List (Parser α')) (hq : Respelts ⟨C.eqv, C'.eqv, E⟩ ps qs) :
    mkLookElems rec C ps = mkLookElems rec' C' qs := by
  induction ps generalizing qs with
  | nil => simp only [Respelts] at hq; subst hq; rfl
  | cons p ps ih =>
    simp only [Respelts] at hq; obtain ⟨q, qs, rfl, hq, hqs⟩ := hq
    simp only [mkLookElems]; rw [hr p q hq, resultFor_respelt h p q hq, ih qs hqs]

theorem semJoin_respelt (n : Nat) (p : Parser α) (q : Parser α') (hq : Respelt ⟨C.eqv, C'.eqv, E⟩ p q) :
    semJoin C rec n p = semJoin C' rec' n q := by
  have hg : joinGeneric C (rec p) = joinGeneric C' (rec' q) := by rw [hr p q hq, joinGeneric_respelt h]
  cases p
  case exactly p k =>
    simp only [Respelt] at hq; obtain ⟨q, rfl, hq⟩ := hq
    simp only [semJoin]
    rcases asBasic_respelt h hq with ⟨h1, h2⟩ | ⟨b, b', h1, h2, hb⟩ <;> rw [h1, h2]
    · exact hg
    · simp only [parseJoinExactlyBasic_respelt h hb, lookJoinExactlyBasic_respelt h hb]
  case maybe p =>
    simp only [Respelt] at hq; obtain ⟨q, rfl, hq⟩ := hq
    simp only [semJoin]
    rcases asBasic_respelt h hq with ⟨h1, h2⟩ | ⟨b, b', h1, h2, hb⟩ <;> rw [h1, h2]
    · exact hg
    · simp only [parseJoinMaybeBasic_respelt h hb, lookJoinMaybeBasic_respelt h hb]
  case oneOrMore p =>
    simp only [Respelt] at hq; obtain ⟨q, rfl, hq⟩ := hq
    simp only [semJoin]
    rcases asBasic_respelt h hq with ⟨h1, h2⟩ | ⟨b, b', h1, h2, hb⟩ <;> rw [h1, h2]
    · exact hg
    · simp only [parseJoinOneOrMoreBasic_respelt h hb, lookJoinOneOrMoreBasic_respelt h hb]
  case zeroOrMore p =>
    simp only [Respelt] at hq; obtain ⟨q, rfl, hq⟩ := hq
    simp only [semJoin]
    rcases asBasic_respelt h hq with ⟨h1, h2⟩ | ⟨b, b', h1, h2, hb⟩ <;> rw [h1, h2]
    · exact hg
    · simp only [parseJoinZeroOrMoreBasic_respelt h hb, lookJoinZeroOrMoreBasic_respelt h hb]
  case anything => simp only [Respelt] at hq; subst hq; exact hg
  case epsilon => simp only [Respelt] at hq; subst hq; exact hg
  case custom => simp only [Respelt] at hq; subst hq; exact hg
  case delimit => simp only [Respelt] at hq; obtain ⟨_, _, rfl, -⟩ := hq; exact hg
  case named => simp only [Respelt] at hq; obtain ⟨_, _, rfl, -⟩ := hq; exact hg
  all_goals simp only [Respelt] at hq; obtain ⟨_, rfl, -⟩ := hq; exact hg

theorem step_respelt (n : Nat) (p : Parser α) (q : Parser α') (hq : Respelt ⟨C.eqv, C'.eqv, E⟩ p q) :
    step C rec n p = step C' rec' n q := by
  have ht := resultFor_respelt h p q hq
  have hi := fun T => builderInit_respelt h (t := T)
  have hx : ∀ T u c, execute C T u c = execute C' T u c := fun T u c => by
    funext e st; exact execute_respelt h T u c e st
  cases p
  case anyOf arr =>
    simp only [Respelt] at hq; obtain ⟨arr', rfl, ha⟩ := hq
    simp only [step]
    rw [parseBasic_respelt h (b := .anyOf arr) (b' := .anyOf arr') ha,
      lookBasic_respelt h (b := .anyOf arr) (b' := .anyOf arr') ha]
  case noneOf arr =>
    simp only [Respelt] at hq; obtain ⟨arr', rfl, ha⟩ := hq
    simp only [step]
    rw [parseBasic_respelt h (b := .noneOf arr) (b' := .noneOf arr') ha,
      lookBasic_respelt h (b := .noneOf arr) (b' := .noneOf arr') ha]
  case allOf arr =>
    simp only [Respelt] at hq; obtain ⟨arr', rfl, ha⟩ := hq
    simp only [step]
    rw [parseBasic_respelt h (b := .allOf arr) (b' := .allOf arr') ha,
      lookBasic_respelt h (b := .allOf arr) (b' := .allOf arr') ha]
  case anything =>
    simp only [Respelt] at hq; subst hq
    simp only [step]
    rw [parseBasic_respelt h (b := .anything) (b' := .anything) trivial,
      lookBasic_respelt h (b := .anything) (b' := .anything) trivial]
  case epsilon => simp only [Respelt] at hq; subst hq; rfl
  case choice ps =>
    simp only [Respelt] at hq; obtain ⟨qs, rfl, hq⟩ := hq
    simp only [step]
    rw [resultsFor_respelt h ps qs hq, mkElems_respelt h hr ps qs hq, mkLookElems_respelt h hr ps qs hq]
    congr 1
    funext s
    simp only [parseChoice, hi, hx]
  case sequence ps =>
    simp only [Respelt] at hq; obtain ⟨qs, rfl, hq⟩ := hq
    simp only [step]
    rw [resultsFor_respelt h ps qs hq, mkElems_respelt h hr ps qs hq, mkLookElems_respelt h hr ps qs hq]
    congr 1
    funext s
    simp only [parseSequence, hi, hx]
  case maybe p =>
    simp only [Respelt] at hq; obtain ⟨q, rfl, hq⟩ := hq
    simp only [step]
    rw [ht, hr p q hq]
    congr 1; funext s
    simp only [parseMaybe, hi]
  case exactly p k =>
    simp only [Respelt] at hq; obtain ⟨q, rfl, hq⟩ := hq
    simp only [step]
    rw [ht, hr p q hq]
    congr 1; funext s
    simp only [parseExactly, hi]
  case oneOrMore p =>
    simp only [Respelt] at hq; obtain ⟨q, rfl, hq⟩ := hq
    simp only [step]
    rw [ht, hr p q hq]
    congr 1; funext s
    simp only [parseOneOrMore, hi]
  case zeroOrMore p =>
    simp only [Respelt] at hq; obtain ⟨q, rfl, hq⟩ := hq
    simp only [step]
    rw [ht, hr p q hq]
    congr 1; funext s
    simp only [parseZeroOrMore, hi]
  case delimit p d =>
    simp only [Respelt] at hq; obtain ⟨q, e, rfl, hq, he⟩ := hq
    simp only [step]
    rw [ht, hr p q hq, hr d e he, resultFor_respelt h p q hq, resultFor_respelt h d e he]
    congr 1; funext s
    simp only [parseDelimit, hi]
  case ignore p =>
    simp only [Respelt] at hq; obtain ⟨q, rfl, hq⟩ := hq
    simp only [step]
    rw [hr p q hq]
  case complete p =>
    simp only [Respelt] at hq; obtain ⟨q, rfl, hq⟩ := hq
    simp only [step]
    rw [hr p q hq]
  case join p =>
    simp only [Respelt] at hq; obtain ⟨q, rfl, hq⟩ := hq
    simp only [step]
    exact semJoin_respelt h hr n p q hq
  case map p f =>
    simp only [Respelt] at hq; obtain ⟨q, rfl, hq⟩ := hq
    simp only [step]
    rw [ht, hr p q hq, resultFor_respelt h p q hq]
    congr 1; funext s
    simp only [parseMap, invoke_respelt h]
  case filter p f =>
    simp only [Respelt] at hq; obtain ⟨q, rfl, hq⟩ := hq
    simp only [step]
    rw [hr p q hq, resultFor_respelt h p q hq]
    congr 1; funext s
    simp only [parseFilter, invoke_respelt h, h.truthy]
  case named p nm =>
    simp only [Respelt] at hq; obtain ⟨q, nm', rfl, hq⟩ := hq
    simp only [step]
    rw [hr p q hq]
  case custom k =>
    simp only [Respelt] at hq; subst hq
    simp only [step]
    rw [hr _ _ (h.body k), resultFor_respelt h _ _ (h.body k), h.customTy k]
    congr 1; funext s
    simp only [parseCustom, convertResult_respelt h]

end

theorem sem_respelt (n : Nat) (p : Parser α) (q : Parser α') (hq : Respelt ⟨C.eqv, C'.eqv, E⟩ p q) :
    sem C n p = sem C' n q := by
  induction n generalizing p q with
  | zero => rfl
  | succ n ih => exact step_respelt h ih n p q hq

/-! ### What compiles -/

mutual
theorem joinable_respelt : ∀ t, joinable C t = joinable C' t
  | .span => rfl
  | .vec t => by simp only [joinable]; rw [joinable_respelt t]
  | .arr t _ => by simp only [joinable]; rw [joinable_respelt t]
  | .opt t => by simp only [joinable]; rw [joinable_respelt t]
  | .tup ts => by simp only [joinable]; rw [joinables_respelt ts]
  | .user k => by simp only [joinable]; rw [h.userSpan]
  | .void => rfl
  | .var _ => rfl
  | .pair .. => rfl
theorem joinables_respelt : ∀ ts, joinable.joinables C ts = joinable.joinables C' ts
  | [] => rfl
  | t :: ts => by simp only [joinable.joinables]; rw [joinable_respelt t, joinables_respelt ts]
end

theorem elementsOK_respelt (c : Bool) (tr : Trait) (ts : List Ty) (is : List (Option Nat)) :
    elementsOK C c tr ts is = elementsOK C' c tr ts is := by
  induction ts generalizing is with
  | nil => cases is <;> rfl
  | cons t ts ih =>
    cases is with
    | nil => rfl
    | cons i is =>
      simp only [elementsOK]
      rw [ih]
      congr 1
      unfold elementOK convOK
      rw [h.conv]

theorem tyOK_respelt (p : Parser α) : ∀ q : Parser α', Respelt ⟨C.eqv, C'.eqv, E⟩ p q → tyOK C p = tyOK C' q := by
  refine Parser.rec (motive_1 := fun p => ∀ q : Parser α', Respelt ⟨C.eqv, C'.eqv, E⟩ p q → tyOK C p = tyOK C' q)
    (motive_2 := fun ps => ∀ qs : List (Parser α'), Respelts ⟨C.eqv, C'.eqv, E⟩ ps qs → tysOK C ps = tysOK C' qs)
    ?_ ?_ ?_ ?_ ?_ ?_ ?_ ?_ ?_ ?_ ?_ ?_ ?_ ?_ ?_ ?_ ?_ ?_ ?_ ?_ ?_ p
  case refine_4 => intro q hq; simp only [Respelt] at hq; subst hq; rfl
  case refine_5 => intro q hq; simp only [Respelt] at hq; subst hq; rfl
  case refine_12 =>
    intro p d ihp ihd q hq
    simp only [Respelt] at hq; obtain ⟨q, e, rfl, hq, he⟩ := hq
    simp only [tyOK]; rw [ihp q hq, ihd e he]
  case refine_16 =>
    intro p f ih q hq
    simp only [Respelt] at hq; obtain ⟨q, rfl, hq⟩ := hq
    simp only [tyOK]; rw [ih q hq, fnTy_respelt h, resultFor_respelt h p q hq]
  case refine_17 =>
    intro p f ih q hq
    simp only [Respelt] at hq; obtain ⟨q, rfl, hq⟩ := hq
    simp only [tyOK]; rw [ih q hq, fnTy_respelt h, resultFor_respelt h p q hq, h.boolTy]
  case refine_18 =>
    intro p f ih q hq
    simp only [Respelt] at hq; obtain ⟨q, _, rfl, hq⟩ := hq
    simp only [tyOK]; rw [ih q hq]
  case refine_19 => intro k q hq; simp only [Respelt] at hq; subst hq; rfl
  case refine_20 => intro q hq; simp only [Respelts] at hq; subst hq; rfl
  case refine_21 =>
    intro p ps ih ihs qs hq
    simp only [Respelts] at hq; obtain ⟨q, qs, rfl, hq, hqs⟩ := hq
    simp only [tysOK]; rw [ih q hq, ihs qs hqs]
  case refine_9 =>
    intro p n ih q hq
    simp only [Respelt] at hq; obtain ⟨q, rfl, hq⟩ := hq
    simp only [tyOK]; rw [ih q hq]
  case refine_1 | refine_2 | refine_3 =>
    intro p q hq
    simp only [Respelt] at hq; obtain ⟨q, rfl, hq⟩ := hq
    rfl
  case refine_13 | refine_15 =>
    intro p _ q hq
    simp only [Respelt] at hq; obtain ⟨q, rfl, hq⟩ := hq
    rfl
  all_goals
    intro p ih q hq
    simp only [Respelt] at hq; obtain ⟨q, rfl, hq⟩ := hq
    simp only [tyOK]; rw [ih q hq]

theorem tysOK_respelt : ∀ (ps : List (Parser α)) (qs : List (Parser α')), Respelts ⟨C.eqv, C'.eqv, E⟩ ps qs →
    tysOK C ps = tysOK C' qs
  | [], _, hq => by simp only [Respelts] at hq; subst hq; rfl
  | p :: ps, _, hq => by
    simp only [Respelts] at hq; obtain ⟨q, qs, rfl, hq, hqs⟩ := hq
    simp only [tysOK]; rw [tyOK_respelt h p q hq, tysOK_respelt ps qs hqs]

theorem parseOK_respelt (p : Parser α) :
    ∀ q : Parser α', Respelt ⟨C.eqv, C'.eqv, E⟩ p q → parseOK C p = parseOK C' q := by
  have hty := tyOK_respelt h
  have hrf := resultFor_respelt h
  refine Parser.rec (motive_1 := fun p => ∀ q : Parser α', Respelt ⟨C.eqv, C'.eqv, E⟩ p q → parseOK C p = parseOK C' q)
    (motive_2 := fun ps => ∀ (qs : List (Parser α')) (is : List (Option Nat)), Respelts ⟨C.eqv, C'.eqv, E⟩ ps qs →
      parsesOK C ps is = parsesOK C' qs is)
    ?_ ?_ ?_ ?_ ?_ ?_ ?_ ?_ ?_ ?_ ?_ ?_ ?_ ?_ ?_ ?_ ?_ ?_ ?_ ?_ ?_ p
  case refine_4 => intro q hq; simp only [Respelt] at hq; subst hq; rfl
  case refine_5 => intro q hq; simp only [Respelt] at hq; subst hq; rfl
  case refine_6 | refine_7 =>
    intro ps ih q hq
    simp only [Respelt] at hq; obtain ⟨qs, rfl, hq⟩ := hq
    simp only [parseOK]
    rw [resultsFor_respelt h ps qs hq, tysOK_respelt h ps qs hq, defaultVal_respelt h, elementsOK_respelt h, ih qs _ hq]
  case refine_12 =>
    intro p d ihp ihd q hq
    simp only [Respelt] at hq; obtain ⟨q, e, rfl, hq, he⟩ := hq
    simp only [parseOK]; rw [ihp q hq, ihd e he, hty p q hq, hty d e he]
  case refine_15 =>
    intro p ih q hq
    simp only [Respelt] at hq; obtain ⟨q, rfl, hq⟩ := hq
    simp only [parseOK]; rw [ih q hq, hty p q hq, joinable_respelt h, hrf p q hq]
  case refine_16 =>
    intro p f ih q hq
    have := hty _ _ hq
    simp only [Respelt] at hq; obtain ⟨q, rfl, hq⟩ := hq
    simp only [parseOK]; rw [ih q hq, this]
  case refine_17 =>
    intro p f ih q hq
    have := hty _ _ hq
    simp only [Respelt] at hq; obtain ⟨q, rfl, hq⟩ := hq
    simp only [parseOK]; rw [ih q hq, this]
  case refine_18 =>
    intro p f ih q hq
    simp only [Respelt] at hq; obtain ⟨q, _, rfl, hq⟩ := hq
    simp only [parseOK]; rw [ih q hq, hty p q hq]
  case refine_19 =>
    intro k q hq
    simp only [Respelt] at hq; subst hq
    simp only [parseOK]
    rw [hrf _ _ (h.body k), h.customTy k, fromOptional_respelt h, h.conv]
  case refine_20 => intro q is hq; simp only [Respelts] at hq; subst hq; rfl
  case refine_21 =>
    intro p ps ih ihs qs is hq
    simp only [Respelts] at hq; obtain ⟨q, qs, rfl, hq, hqs⟩ := hq
    match is with
    | [] => rfl
    | none :: is => simp only [parsesOK]; exact ihs qs is hqs
    | some _ :: is => simp only [parsesOK]; rw [ih q hq, ihs qs is hqs]
  case refine_9 =>
    intro p n ih q hq
    simp only [Respelt] at hq; obtain ⟨q, rfl, hq⟩ := hq
    simp only [parseOK]; rw [ih q hq, hty p q hq, defaultVal_respelt h, hrf p q hq]
  case refine_1 | refine_2 | refine_3 =>
    intro p q hq
    simp only [Respelt] at hq; obtain ⟨q, rfl, hq⟩ := hq
    rfl
  case refine_13 =>
    intro p _ q hq
    simp only [Respelt] at hq; obtain ⟨q, rfl, hq⟩ := hq
    rfl
  all_goals
    intro p ih q hq
    simp only [Respelt] at hq; obtain ⟨q, rfl, hq⟩ := hq
    simp only [parseOK]; rw [ih q hq, hty p q hq]

end

end Tok3n
