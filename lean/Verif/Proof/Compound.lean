import Verif.Proof.Indices
import Verif.Proof.Equations
import Verif.Proof.Quiet
/-
Choices and sequences in terms of the reference combinators of `Spec/Combinators.lean`.
-/

namespace Tok3n

variable {α β : Type} {C : Ctx α β}

theorem zipWith_eq_map {A B D : Type} (f : A → B → D) (l : List A) (l' : List B) :
    List.zipWith f l l' = (l.zip l').map fun x => f x.1 x.2 := by
  induction l generalizing l' with
  | nil => simp
  | cons a l ih => cases l' <;> simp [ih]

/-! ### Choice -/

/-- the final result of one alternative, in the notation of the fold -/
def execResult (s : Span) (T : Ty) (x : Bool × Exec) : R :=
  if x.1 then builderBuild T x.2.value x.2.input else ⟨none, s⟩

theorem foldOr_firstOf {exec : Elem → Exec → Run (Bool × Exec)} {T : Ty} (es : List Elem) (s : Span) (d : Val)
    (hfail : ∀ e ∈ es, ∀ l x, exec e ⟨s, d⟩ = .done l (.ok x) → x.1 = false → x.2 = ⟨s, d⟩) :
    (M.bind (foldOr exec es ⟨s, d⟩) fun x =>
      if not x.1 then M.pure (R.failure s) else M.pure (builderBuild T x.2.value x.2.input)) =
    firstOf s (es.map fun e => M.bind (exec e ⟨s, d⟩) fun x => M.pure (execResult s T x)) := by
  induction es with
  | nil => simp [foldOr, firstOf, R.failure, M.pure_bind]
  | cons e es ih =>
    simp only [foldOr, List.map_cons, firstOf, M.bind_eq, M.bind_assoc]
    apply M.bind_congr'
    intro l x hx
    obtain ⟨b, st⟩ := x
    cases b with
    | true =>
      simp only [if_true, M.pure_bind, Bool.not_true, Bool.false_eq_true, if_false, execResult]
      have : (builderBuild T st.value st.input).val.isSome = true := by
        unfold builderBuild; split <;> rfl
      simp [this]
    | false =>
      have := hfail e (by simp) l _ hx rfl
      subst this
      simp only [Bool.false_eq_true, if_false, M.pure_bind, execResult, Option.isSome_none]
      exact ih fun e he => hfail e (by simp [he])

/-- a conversion, where there is one -/
def convFn (C : Ctx α β) (src dst : Ty) (v : Val) : Val :=
  if src = dst then v else match C.conv src dst with
    | some f => f v
    | none => v

/-- what the builder of a choice makes of the value of an alternative with index `i` -/
def injectAt (C : Ctx α β) (tr : Trait) (d : Val) (t : Ty) (i : Nat) (v : Val) : Val :=
  if tr.unwrapped then (if tr.ty = .void then d else v)
  else match tr.ty with
    | .var ts => .var i (convFn C t (ts.getD i .void) v)
    | _ => v

/-- how a choice runs one alternative, given how parsers run -/
def altRunOf (rec : Parser α → Sub) (C : Ctx α β) (tr : Trait) (d : Val) (s : Span) (p : Parser α) (i : Option Nat) :
    Run R :=
  match i with
  | none => mapVal (fun _ => d) ((rec p).look s)
  | some i => mapVal (injectAt C tr d (resultFor C p) i) ((rec p).parse s)

/-- how a choice runs one alternative -/
noncomputable def altRun (C : Ctx α β) (tr : Trait) (d : Val) (s : Span) (p : Parser α) (i : Option Nat) :
    Run R :=
  match i with
  | none => mapVal (fun _ => d) (Look C p s)
  | some i => mapVal (injectAt C tr d (resultFor C p) i) (Parse C p s)

theorem convert_eq {src dst : Ty} (h : convOK C src dst = true) (v : Val) :
    convert C src dst v = M.pure (convFn C src dst v) := by
  unfold convert convFn
  by_cases hs : src = dst
  · rw [if_pos hs, if_pos hs]
  · rw [if_neg hs, if_neg hs]
    simp only [convOK, hs, decide_false, Bool.false_or] at h
    obtain ⟨f, hf⟩ := Option.isSome_iff_exists.1 h
    simp [hf]

theorem build_eq {T : Ty} {v : Val} (h : T = .void → v = .unit) (s : Span) :
    builderBuild T v s = ⟨some v, s⟩ := by
  unfold builderBuild
  split
  · next hT => rw [h hT]; rfl
  · rfl

theorem execChoice_eq {rec : Parser α → Sub} (hrec : ∀ q, SubGood (rec q)) {tr : Trait} {d : Val} (hd : defaultVal C tr.ty = some d) (s : Span) (p : Parser α)
    (i : Option Nat) (hok : elementOK C true tr (resultFor C p) i = true) :
    (M.bind (execute C tr.ty tr.unwrapped true ⟨rec p, resultFor C p, i⟩ ⟨s, d⟩) fun x =>
      M.pure (execResult s tr.ty x)) = altRunOf rec C tr d s p i := by
  have hdu : tr.ty = .void → d = .unit := by
    intro h; rw [h, defaultVal] at hd; exact (Option.some.inj hd).symm
  cases i with
  | none =>
    simp only [execute, M.bind_eq, M.bind_assoc, M.pure_bind, altRunOf, mapVal]
    apply M.bind_congr'
    intro l r hr
    have hg := ((hrec p).look s).ok hr
    simp only [execResult, R.hasValue]
    obtain ⟨rv, rr⟩ := r
    cases rv with
    | none => simp [show rr = s from hg.2 rfl]
    | some v => simp [build_eq hdu]
  | some i =>
    simp only [execute, M.bind_eq, M.bind_assoc, altRunOf, mapVal]
    apply M.bind_congr'
    intro l r hr
    have hg := ((hrec p).parse s).ok hr
    simp only [R.hasValue]
    obtain ⟨rv, rr⟩ := r
    cases rv with
    | none => simp [show rr = s from hg.2 rfl, M.pure_bind, execResult]
    | some v =>
      simp only [Option.isSome_some, Bool.not_true, Bool.false_eq_true, if_false, M.bind_assoc, M.pure_bind,
        Option.map_some]
      simp only [elementOK] at hok
      by_cases hu : tr.unwrapped = true
      · simp only [hu, if_true] at hok ⊢
        unfold builderAssign injectAt
        by_cases hT : tr.ty = .void
        · simp [hT, hu, M.pure_bind, execResult, builderBuild, hdu hT, R.successVoid]
        · simp [hT, hu, R.deref, M.pure_bind, execResult, builderBuild, R.success]
      · simp only [hu, Bool.false_eq_true, if_false] at hok ⊢
        unfold injectAt
        split at hok
        · next ts hT =>
          simp only [Bool.true_and] at hok
          simp only [hT, if_true, builderEmplaceAt]
          split at hok
          · next u hu' =>
            simp only [hu', M.bind_eq, R.deref, M.pure_bind, M.bind_assoc]
            rw [convert_eq hok, M.pure_bind]
            simp [execResult, builderBuild, R.success, List.getD, hu', hu]
          · cases hok
        · simp at hok
        · cases hok

theorem mkElems_eq_zipWith (rec : Parser α → Sub) (ps : List (Parser α)) (is : List (Option Nat)) :
    mkElems rec C ps is = List.zipWith (fun p i => ⟨rec p, resultFor C p, i⟩) ps is := by
  induction ps generalizing is with
  | nil => simp [mkElems]
  | cons p ps ih =>
    cases is with
    | nil => simp [mkElems]
    | cons i is => simp [mkElems, ih]

theorem resultsFor_eq (ps : List (Parser α)) : resultsFor C ps = ps.map (resultFor C) := by
  induction ps with
  | nil => rfl
  | cons p ps ih => simp [resultsFor, ih]

theorem execFail {rec : Parser α → Sub} (hrec : ∀ q, SubGood (rec q)) {u : Bool} {d : Val} {s : Span} {p : Parser α} {i : Option Nat} {T : Ty}
    {t : Ty} {c : Bool} {l} {x : Bool × Exec} (h : execute C T u c ⟨rec p, t, i⟩ ⟨s, d⟩ = .done l (.ok x))
    (hx : x.1 = false) : x.2 = ⟨s, d⟩ := by
  cases i with
  | none =>
    simp only [execute, M.bind_eq] at h
    obtain ⟨l1, r, l2, hr, hf, -⟩ := M.bind_eq_ok.1 h
    have hg := ((hrec p).look s).ok hr
    cases hf
    simp only [R.hasValue, Option.isSome_eq_false_iff, Option.isNone_iff_eq_none] at hx
    rw [hg.2 hx]
  | some i =>
    simp only [execute, M.bind_eq] at h
    obtain ⟨l1, r, l2, hr, hf, -⟩ := M.bind_eq_ok.1 h
    split at hf
    · cases hf; rfl
    · obtain ⟨l3, v, l4, hv, hf, -⟩ := M.bind_eq_ok.1 hf
      cases hf; cases hx

theorem elementsOK_zip {tr : Trait} {c : Bool} {ps : List (Parser α)} {is : List (Option Nat)}
    (h : elementsOK C c tr (resultsFor C ps) is = true) :
    ∀ pi ∈ List.zip ps is, elementOK C c tr (resultFor C pi.1) pi.2 = true := by
  induction ps generalizing is with
  | nil => simp
  | cons p ps ih =>
    cases is with
    | nil => simp
    | cons i is =>
      simp only [resultsFor, elementsOK, Bool.and_eq_true] at h
      simp only [List.zip_cons_cons, List.mem_cons, forall_eq_or_imp]
      exact ⟨h.1, ih h.2⟩

/-- any choice whose `parse` compiles -/
theorem parseChoice_general {rec : Parser α → Sub} (hrec : ∀ q, SubGood (rec q)) {ps : List (Parser α)} {d : Val}
    (hd : defaultVal C (choiceTrait (resultsFor C ps)).ty = some d)
    (hok : elementsOK C true (choiceTrait (resultsFor C ps)) (resultsFor C ps)
      (choiceTrait (resultsFor C ps)).seq = true) (s : Span) :
    parseChoice C (choiceTrait (resultsFor C ps)) (mkElems rec C ps (choiceTrait (resultsFor C ps)).seq) s =
      firstOf s (List.zipWith (altRunOf rec C (choiceTrait (resultsFor C ps)) d s) ps
        (choiceTrait (resultsFor C ps)).seq) := by
  have hz := elementsOK_zip hok
  rw [parseChoice]
  simp only [builderInit, hd, M.ofOption, M.bind_eq, M.pure_bind]
  rw [foldOr_firstOf]
  · congr 1
    rw [mkElems_eq_zipWith]
    generalize choiceTrait (resultsFor C ps) = tr at *
    rw [List.map_zipWith, zipWith_eq_map, zipWith_eq_map]
    apply List.map_congr_left
    intro pi hpi
    exact execChoice_eq hrec hd s pi.1 pi.2 (hz pi hpi)
  · intro e he l x hx hf
    rw [mkElems_eq_zipWith, zipWith_eq_map, List.mem_map] at he
    obtain ⟨pi, -, rfl⟩ := he
    exact execFail hrec hx hf

theorem Parse_choice_general {ps : List (Parser α)} {d : Val}
    (hd : defaultVal C (choiceTrait (resultsFor C ps)).ty = some d)
    (hok : elementsOK C true (choiceTrait (resultsFor C ps)) (resultsFor C ps)
      (choiceTrait (resultsFor C ps)).seq = true) (s : Span) :
    Parse C (.choice ps) s = firstOf s (List.zipWith (altRun C (choiceTrait (resultsFor C ps)) d s) ps
      (choiceTrait (resultsFor C ps)).seq) := by
  rw [Parse_choice]
  exact parseChoice_general den_good hd hok s

/-- how a part of a choice or sequence runs, given how parsers run -/
def partOf (rec : Parser α → Sub) (C : Ctx α β) (p : Parser α) (s : Span) : Run R :=
  if resultFor C p = .void then (rec p).look s else (rec p).parse s

/-- a choice whose indices are right -/
theorem parseChoice_eq {rec : Parser α → Sub} (hrec : ∀ q, SubGood (rec q)) {ps : List (Parser α)}
    (hp : parseOK C (.choice ps) = true)
    (hi : Indexable (resultsFor C ps)) {d : Val}
    (hd : defaultVal C (choiceType (resultsFor C ps)) = some d) (s : Span) :
    parseChoice C (choiceTrait (resultsFor C ps)) (mkElems rec C ps (choiceTrait (resultsFor C ps)).seq) s =
      firstOf s (ps.map fun p =>
        mapVal (choiceValue (distinct (resultsFor C ps)) d (resultFor C p)) (partOf rec C p s)) := by
  simp only [parseOK, Bool.and_eq_true] at hp
  rw [← choiceTrait_ty] at hd
  rw [parseChoice_general hrec hd hp.1.2]
  congr 1
  have hseq : (choiceTrait (resultsFor C ps)).seq =
      ps.map fun p => wanted (distinct (resultsFor C ps)) (resultFor C p) := by
    rw [choiceTrait_seq, (filterOutVoidDeduplicate_snd _).2 hi]
    conv_lhs => rw [resultsFor_eq, List.map_map]
    rw [← resultsFor_eq]; rfl
  have hU := choiceTrait_unwrapped (resultsFor C ps)
  have hty := choiceTrait_ty (resultsFor C ps)
  have hmem : ∀ p ∈ ps, resultFor C p ≠ .void → resultFor C p ∈ distinct (resultsFor C ps) := by
    intro p hp hv
    rw [mem_distinct, resultsFor_eq]
    exact ⟨List.mem_map_of_mem hp, hv⟩
  have hnv : .void ∉ distinct (resultsFor C ps) := fun h => ((mem_distinct _ _).1 h).2 rfl
  rw [hseq]
  unfold choiceType at hty
  generalize choiceTrait (resultsFor C ps) = tr at hU hty hd ⊢
  generalize distinct (resultsFor C ps) = us at hU hty hmem hnv ⊢
  clear hseq hi hp
  rw [List.zipWith_map_right, List.zipWith_self]
  apply List.map_congr_left
  intro p hp
  by_cases hv : resultFor C p = .void
  · simp only [wanted, hv, if_true, altRunOf, partOf]
    congr 1
  · simp only [wanted, hv, if_false, altRunOf, partOf]
    have hmem := hmem p hp hv
    congr 1
    funext v
    unfold injectAt
    match us, hmem, hU, hty with
    | [t], hmem, hU, hty =>
      simp only [List.mem_singleton] at hmem
      simp only at hty
      rw [hU.2 (by simp), if_pos rfl, if_neg (by rw [hty, ← hmem]; exact hv)]
      simp [choiceValue, hv]
    | a :: b :: us, hmem, hU, hty =>
      simp only at hty
      have : ¬ tr.unwrapped = true := by rw [hU]; simp
      rw [if_neg this]
      simp only [hty, choiceValue, hv, if_false]
      congr 1
      have hlt := List.idxOf_lt_length_of_mem hmem
      simp [convFn, List.getD, List.getElem?_eq_getElem hlt, List.getElem_idxOf hlt]

theorem Parse_choice_eq {ps : List (Parser α)} (hp : parseOK C (.choice ps) = true)
    (hi : Indexable (resultsFor C ps)) {d : Val}
    (hd : defaultVal C (choiceType (resultsFor C ps)) = some d) (s : Span) :
    Parse C (.choice ps) s = firstOf s (ps.map fun p =>
      mapVal (choiceValue (distinct (resultsFor C ps)) d (resultFor C p)) (partRun C p s)) := by
  rw [Parse_choice]
  exact parseChoice_eq den_good hp hi hd s

theorem mkLookElems_eq_map (rec : Parser α → Sub) (ps : List (Parser α)) :
    mkLookElems rec C ps = ps.map fun p => ⟨rec p, resultFor C p, none⟩ := by
  induction ps with
  | nil => rfl
  | cons p ps ih => simp [mkLookElems, ih]

theorem Look_unit {p : Parser α} {s : Span} {l r} (h : Look C p s = .done l (.ok r)) :
    l = [] ∧ (r.val = none ∧ r.rem = s ∨ r.val = some .unit) := by
  have hq := Look_quiet (C := C) p s
  have hl : l = [] := hq.log h
  have hg := hq.sat.ok h
  refine ⟨hl, ?_⟩
  cases hv : r.val with
  | none => exact .inl ⟨rfl, hg.toGood.2 hv⟩
  | some v => exact .inr (by rw [hg.unit v hv])

theorem Look_choice_eq (ps : List (Parser α)) (s : Span) :
    Look C (.choice ps) s = firstOf s (ps.map fun p => Look C p s) := by
  rw [Look_choice, lookChoice]
  simp only [M.bind_eq]
  have := foldOr_firstOf (T := .void) (exec := execute C .void (choiceTrait (resultsFor C ps)).unwrapped true)
    (mkLookElems (den C) C ps) s .unit (by
      intro e he l x hx hf
      rw [mkLookElems_eq_map, List.mem_map] at he
      obtain ⟨p, -, rfl⟩ := he
      exact execFail den_good hx hf)
  rw [mkLookElems_eq_map, List.map_map] at this
  rw [mkLookElems_eq_map]
  convert this using 1
  · apply M.bind_congr
    rintro ⟨b, st⟩
    cases b <;> simp [builderBuild]
  · congr 1
    apply List.map_congr_left
    intro p hp
    simp only [Function.comp, execute, M.bind_eq, M.bind_assoc, M.pure_bind]
    conv_lhs => rw [← M.bind_pure (Look C p s)]
    apply M.bind_congr'
    intro l r hr
    rcases (Look_unit hr).2 with ⟨h1, h2⟩ | h1
    · obtain ⟨rv, rr⟩ := r
      simp only at h1 h2; subst h1 h2
      simp [execResult, R.hasValue]
    · obtain ⟨rv, rr⟩ := r
      simp only at h1; subst h1
      simp [execResult, R.hasValue, builderBuild, R.successVoid]

/-! ### Sequence -/

theorem sequenceTrait_seq (ts : List Ty) : (sequenceTrait ts).seq = positions 0 ts := by
  simp only [sequenceTrait, compoundTrait, filterOutVoid_eq]
  split <;> rfl
theorem sequenceTrait_ty (ts : List Ty) : (sequenceTrait ts).ty = sequenceType ts := by
  simp only [sequenceTrait, compoundTrait, sequenceType, filterOutVoid_eq]
  cases ts.filter (· ≠ .void) with
  | nil => rfl
  | cons a l => cases l <;> rfl
theorem sequenceTrait_unwrapped (ts : List Ty) :
    (sequenceTrait ts).unwrapped = true ↔ (ts.filter (· ≠ .void)).length ≤ 1 := by
  simp only [sequenceTrait, compoundTrait, filterOutVoid_eq]
  cases ts.filter (· ≠ .void) with
  | nil => simp
  | cons a l => cases l <;> simp

theorem defaultVals_length {ts : List Ty} {vs : List Val} (h : defaultVals C ts = some vs) :
    vs.length = ts.length := by
  induction ts generalizing vs with
  | nil => simp only [defaultVals, Option.some.injEq] at h; subst h; rfl
  | cons t ts ih =>
    simp only [defaultVals] at h
    split at h
    · next v ws h1 h2 =>
      cases h
      simp [ih h2]
    · cases h

/-- the builder's value after the values `ws` have been stored -/
def fill (us : List Ty) (d : Val) (ws : List Val) : Val :=
  match us with
  | [] => .unit
  | [_] => ws.headD d
  | _ => match d with
    | .tup ds => .tup (ws ++ ds.drop ws.length)
    | _ => d

theorem fill_nil {us : List Ty} {d : Val} {tr : Trait} (hty : tr.ty = tupleType us)
    (hd : defaultVal C tr.ty = some d) : fill us d [] = d := by
  match us with
  | [] => simp only [tupleType] at hty; rw [hty, defaultVal] at hd; exact Option.some.inj hd
  | [t] => rfl
  | a :: b :: us =>
    simp only [fill]
    cases d <;> simp

theorem fill_step {us : List Ty} {d : Val} {tr : Trait} (hnv : .void ∉ us)
    (hty : tr.ty = tupleType us) (hU : tr.unwrapped = true ↔ us.length ≤ 1)
    (hd : defaultVal C tr.ty = some d) {ws : List Val} (hlen : ws.length < us.length) (v : Val) (s : Span) :
    (if tr.unwrapped then builderAssign tr.ty (fill us d ws) ⟨some v, s⟩
      else builderGetAssign tr.ty (fill us d ws) ws.length ⟨some v, s⟩) = M.pure (fill us d (ws ++ [v])) := by
  match us with
  | [] => simp at hlen
  | [t] =>
    simp only [tupleType] at hty
    have : ws = [] := by simpa using hlen
    subst this
    rw [if_pos (hU.2 (by simp)), builderAssign, hty, if_neg (by simpa [eq_comm] using hnv)]
    rfl
  | a :: b :: us =>
    simp only [tupleType] at hty
    rw [hty, defaultVal] at hd
    obtain ⟨ds, hds, rfl⟩ := Option.map_eq_some_iff.1 hd
    have hl := defaultVals_length hds
    have hf : ∀ ws, fill (a :: b :: us) (.tup ds) ws = .tup (ws ++ ds.drop ws.length) := fun _ => rfl
    rw [if_neg (by rw [hU]; simp), hf, hf, builderGetAssign, hty, if_neg (by simp)]
    simp only [R.deref, M.bind_eq, M.pure_bind]
    rw [if_pos (by simp only [List.length_append, List.length_drop]; omega)]
    congr 2
    have hlt : ws.length < ds.length := by omega
    rw [List.set_append_right _ _ (le_refl _), Nat.sub_self]
    have hdrop : (ds.drop ws.length).set 0 v = v :: ds.drop (ws.length + 1) := by
      rw [List.drop_eq_getElem_cons hlt, List.set_cons_zero]
    rw [hdrop]; simp

theorem fill_full {us : List Ty} {d : Val} {tr : Trait} (hnv : .void ∉ us)
    (hty : tr.ty = tupleType us)
    (hd : defaultVal C tr.ty = some d) {ws : List Val} (hlen : ws.length = us.length) (s : Span) :
    builderBuild tr.ty (fill us d ws) s = ⟨some (sequenceValue ws), s⟩ := by
  match us with
  | [] =>
    simp only [tupleType] at hty
    have : ws = [] := by simpa using hlen
    subst this
    rw [hty]; rfl
  | [t] =>
    simp only [tupleType] at hty
    match ws, hlen with
    | [w], _ =>
      rw [hty]
      simp only [fill, builderBuild, sequenceValue, List.headD_cons]
      rw [if_neg (by simpa [eq_comm] using hnv)]; rfl
  | a :: b :: us =>
    simp only [tupleType] at hty
    rw [hty, defaultVal] at hd
    obtain ⟨ds, hds, rfl⟩ := Option.map_eq_some_iff.1 hd
    have hl := defaultVals_length hds
    rw [hty]
    match ws, hlen with
    | w :: w' :: ws, hlen =>
      simp only [fill, builderBuild, sequenceValue]
      rw [List.drop_eq_nil_of_le (by omega)]
      simp [R.success]

theorem foldAnd_inOrder {rec : Parser α → Sub} {us : List Ty} {d : Val} {tr : Trait} (hnv : .void ∉ us)
    (hty : tr.ty = tupleType us) (hU : tr.unwrapped = true ↔ us.length ≤ 1)
    (hd : defaultVal C tr.ty = some d) (s0 : Span) (ps : List (Parser α)) (ws : List Val)
    (hlen : ws.length + ((resultsFor C ps).filter (· ≠ .void)).length = us.length) (s : Span) :
    (M.bind (foldAnd (execute C tr.ty tr.unwrapped false)
        (mkElems rec C ps (positions ws.length (resultsFor C ps))) ⟨s, fill us d ws⟩) fun x =>
      if not x.1 then M.pure (R.failure s0) else M.pure (builderBuild tr.ty x.2.value x.2.input)) =
    allOrNothing s0 (fun vs => sequenceValue (ws ++ withValue (resultsFor C ps) vs))
      (inOrder (ps.map (partOf rec C)) s) := by
  induction ps generalizing ws s with
  | nil =>
    simp only [resultsFor, List.filter_nil, List.length_nil, Nat.add_zero] at hlen
    simp only [mkElems, foldAnd, M.pure_bind, Bool.not_true, Bool.false_eq_true, if_false, List.map_nil, inOrder,
      allOrNothing]
    rw [fill_full hnv hty hd hlen, resultsFor, withValue, List.append_nil]
    nofun
  | cons p ps ih =>
    by_cases hv : resultFor C p = .void
    · simp only [resultsFor, positions, hv, if_true, mkElems, foldAnd, execute, M.bind_eq, M.bind_assoc,
        M.pure_bind, List.map_cons, inOrder, allOrNothing]
      rw [partOf, if_pos hv]
      apply M.bind_congr'
      intro l r hr
      obtain ⟨rv, rr⟩ := r
      cases rv with
      | none => simp [R.hasValue, M.pure_bind, R.failure]
      | some v =>
        simp only [R.hasValue, Option.isSome_some, if_true, M.bind_assoc, M.pure_bind]
        have hlen' : ws.length + ((resultsFor C ps).filter (· ≠ .void)).length = us.length := by
          simpa [resultsFor, hv] using hlen
        rw [ih ws hlen' rr, allOrNothing]
        apply M.bind_congr
        intro x
        cases x <;> simp [withValue]
    · simp only [resultsFor, positions, hv, if_false, mkElems, foldAnd, execute, M.bind_eq, M.bind_assoc,
        List.map_cons, inOrder, allOrNothing]
      rw [partOf, if_neg hv]
      apply M.bind_congr'
      intro l r hr
      obtain ⟨rv, rr⟩ := r
      cases rv with
      | none => simp [R.hasValue, M.pure_bind, R.failure]
      | some v =>
        simp only [R.hasValue, Option.isSome_some, Bool.not_true, Bool.false_eq_true, if_false, M.bind_assoc,
          M.pure_bind]
        have hlen' : (ws ++ [v]).length + ((resultsFor C ps).filter (· ≠ .void)).length = us.length := by
          simp only [resultsFor] at hlen
          rw [List.filter_cons_of_pos (by simpa using hv)] at hlen
          simp only [List.length_cons, List.length_append, List.length_nil] at hlen ⊢
          omega
        have hlt : ws.length < us.length := by
          simp only [List.length_append, List.length_singleton] at hlen'; omega
        rw [fill_step hnv hty hU hd hlt, M.pure_bind]
        simp only [if_true]
        have := ih (ws ++ [v]) hlen' rr
        rw [List.length_append, List.length_singleton] at this
        rw [this, allOrNothing]
        apply M.bind_congr
        intro x
        cases x <;> simp [withValue, hv]

theorem parseSequence_eq {rec : Parser α → Sub} {ps : List (Parser α)} {d : Val}
    (hd : defaultVal C (sequenceType (resultsFor C ps)) = some d) (s : Span) :
    parseSequence C (sequenceTrait (resultsFor C ps)) (mkElems rec C ps (sequenceTrait (resultsFor C ps)).seq) s =
      allOrNothing s (fun vs => sequenceValue (withValue (resultsFor C ps) vs))
        (inOrder (ps.map (partOf rec C)) s) := by
  rw [← sequenceTrait_ty] at hd
  rw [parseSequence]
  simp only [builderInit, hd, M.ofOption, M.bind_eq, M.pure_bind]
  have hty := sequenceTrait_ty (resultsFor C ps)
  unfold sequenceType at hty
  have h := foldAnd_inOrder (rec := rec) (us := (resultsFor C ps).filter (· ≠ .void)) (by simp) hty
    (sequenceTrait_unwrapped _) hd s ps [] (by simp) s
  rw [fill_nil hty hd] at h
  rw [sequenceTrait_seq]
  simpa using h

theorem Parse_sequence_eq {ps : List (Parser α)} {d : Val}
    (hd : defaultVal C (sequenceType (resultsFor C ps)) = some d) (s : Span) :
    Parse C (.sequence ps) s =
      allOrNothing s (fun vs => sequenceValue (withValue (resultsFor C ps) vs))
        (inOrder (ps.map (partRun C)) s) := by
  rw [Parse_sequence]
  exact parseSequence_eq hd s

theorem Look_sequence_eq (ps : List (Parser α)) (s : Span) :
    Look C (.sequence ps) s = allOrNothing s (fun _ => .unit) (inOrder (ps.map (Look C)) s) := by
  rw [Look_sequence, lookSequence]
  simp only [M.bind_eq]
  generalize (sequenceTrait (resultsFor C ps)).unwrapped = u
  suffices ∀ s', (M.bind (foldAnd (execute C .void u false) (mkLookElems (den C) C ps) ⟨s', .unit⟩) fun x =>
      if x.1 then M.pure (R.successVoid x.2.input) else M.pure (R.failure s)) =
      allOrNothing s (fun _ => .unit) (inOrder (ps.map (Look C)) s') by
    exact this s
  induction ps with
  | nil => intro s'; simp [mkLookElems, foldAnd, inOrder, allOrNothing, M.pure_bind, R.successVoid]
  | cons p ps ih =>
    intro s'
    simp only [mkLookElems, foldAnd, execute, M.bind_eq, M.bind_assoc, M.pure_bind, List.map_cons, inOrder,
      allOrNothing]
    apply M.bind_congr
    intro r
    obtain ⟨rv, rr⟩ := r
    cases rv with
    | none => simp [R.hasValue, M.pure_bind, R.failure]
    | some v =>
      simp only [R.hasValue, Option.isSome_some, if_true, M.bind_assoc, M.pure_bind]
      rw [ih rr, allOrNothing]
      apply M.bind_congr
      intro x
      cases x <;> simp

end Tok3n
