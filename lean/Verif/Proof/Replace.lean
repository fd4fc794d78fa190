import Verif.Spec.Replace
import Verif.Proof.Join
import Verif.Proof.Sequence
/-
Proofs for C62: loops and folds over parts that do the same on readable inputs.
-/

namespace Tok3n

variable {α β : Type}

section
variable {V : Span → Prop}

/-- `P` and `Q` parse alike on `V`, and stay in `V` -/
structure SameP (V : Span → Prop) (P Q : Sub) : Prop where
  eq : ∀ s, V s → P.parse s = Q.parse s
  stay : ∀ s, V s → ∀ l r, Q.parse s = .done l (.ok r) → V r.rem
structure SameL (V : Span → Prop) (P Q : Sub) : Prop where
  eq : ∀ s, V s → P.look s = Q.look s
  stay : ∀ s, V s → ∀ l r, Q.look s = .done l (.ok r) → V r.rem

variable {P P' D D' : Sub} {T tp td : Ty}

theorem exactlyLoop_same (h : SameP V P P') (o : Span) (n i : Nat) (s : Span) (v : Val) (hs : V s) :
    exactlyLoop T P o n i s v = exactlyLoop T P' o n i s v := by
  induction n generalizing i s v with
  | zero => rfl
  | succ n ih =>
    simp only [exactlyLoop, M.bind_eq]
    rw [h.eq s hs]
    refine M.bind_congr' fun l r hr => ?_
    split
    · rfl
    · exact M.bind_congr fun w => ih _ _ _ (h.stay s hs _ _ hr)

theorem lookExactlyLoop_same (h : SameL V P P') (o : Span) (n : Nat) (s : Span) (hs : V s) :
    lookExactlyLoop P o n s = lookExactlyLoop P' o n s := by
  induction n generalizing s with
  | zero => rfl
  | succ n ih =>
    simp only [lookExactlyLoop, M.bind_eq]
    rw [h.eq s hs]
    refine M.bind_congr' fun l r hr => ?_
    split
    · rfl
    · exact ih _ (h.stay s hs _ _ hr)

theorem oneOrMoreLoop_same (h : SameP V P P') (k : Nat) (b : Bool) (s : Span) (v : Val) (hs : V s) :
    oneOrMoreLoop T P k b s v = oneOrMoreLoop T P' k b s v := by
  induction k generalizing b s v with
  | zero => rfl
  | succ n ih =>
    simp only [oneOrMoreLoop, M.bind_eq]
    rw [h.eq s hs]
    refine M.bind_congr' fun l r hr => ?_
    split
    · rfl
    · exact M.bind_congr fun w => ih _ _ _ (h.stay s hs _ _ hr)

theorem oomLoop_same (h : SameP V P P') (b : Bool) (s : Span) (v : Val) (hs : V s) :
    oomLoop T P b s v = oomLoop T P' b s v := by
  unfold oomLoop
  congr 1
  funext k
  exact oneOrMoreLoop_same h k b s v hs

theorem lookOneOrMoreLoop_same (h : SameL V P P') (k : Nat) (b : Bool) (s : Span) (hs : V s) :
    lookOneOrMoreLoop P k b s = lookOneOrMoreLoop P' k b s := by
  induction k generalizing b s with
  | zero => rfl
  | succ n ih =>
    simp only [lookOneOrMoreLoop, M.bind_eq]
    rw [h.eq s hs]
    refine M.bind_congr' fun l r hr => ?_
    split
    · rfl
    · exact ih _ _ (h.stay s hs _ _ hr)

theorem lookOomLoop_same (h : SameL V P P') (b : Bool) (s : Span) (hs : V s) :
    lookOomLoop P b s = lookOomLoop P' b s := by
  unfold lookOomLoop
  congr 1
  funext k
  exact lookOneOrMoreLoop_same h k b s hs

theorem zeroOrMoreLoop_same (h : SameP V P P') (k : Nat) (s : Span) (v : Val) (hs : V s) :
    zeroOrMoreLoop T P k s v = zeroOrMoreLoop T P' k s v := by
  induction k generalizing s v with
  | zero => rfl
  | succ n ih =>
    simp only [zeroOrMoreLoop, M.bind_eq]
    rw [h.eq s hs]
    refine M.bind_congr' fun l r hr => ?_
    split
    · rfl
    · exact M.bind_congr fun w => ih _ _ (h.stay s hs _ _ hr)

theorem zomLoop_same (h : SameP V P P') (s : Span) (v : Val) (hs : V s) :
    zomLoop T P s v = zomLoop T P' s v := by
  unfold zomLoop
  congr 1
  funext k
  exact zeroOrMoreLoop_same h k s v hs

theorem lookZeroOrMoreLoop_same (h : SameL V P P') (k : Nat) (s : Span) (hs : V s) :
    lookZeroOrMoreLoop P k s = lookZeroOrMoreLoop P' k s := by
  induction k generalizing s with
  | zero => rfl
  | succ n ih =>
    simp only [lookZeroOrMoreLoop, M.bind_eq]
    rw [h.eq s hs]
    refine M.bind_congr' fun l r hr => ?_
    split
    · rfl
    · exact ih _ (h.stay s hs _ _ hr)

theorem lookZomLoop_same (h : SameL V P P') (s : Span) (hs : V s) :
    lookZomLoop P s = lookZomLoop P' s := by
  unfold lookZomLoop
  congr 1
  funext k
  exact lookZeroOrMoreLoop_same h k s hs

theorem dlmLoop_same (h : SameP V P P') (hd : SameP V D D') (r : R) (s : Span) (v : Val) (hr : V r.rem) :
    dlmLoop T tp td P D r s v = dlmLoop T tp td P' D' r s v := by
  unfold dlmLoop
  congr 1
  funext k
  induction k generalizing r s v with
  | zero => rfl
  | succ n ih =>
    simp only [delimitLoop, M.bind_eq]
    split
    · rfl
    · refine M.bind_congr fun w => ?_
      rw [hd.eq _ hr]
      refine M.bind_congr' fun l d hd' => ?_
      split
      · rfl
      · have hdv := hd.stay _ hr _ _ hd'
        rw [h.eq _ hdv]
        refine M.bind_congr' fun l x hx => ?_
        exact M.bind_congr fun w => ih _ _ _ (h.stay _ hdv _ _ hx)

theorem lookDlmLoop_same (h : SameL V P P') (hd : SameL V D D') (r : R) (s : Span) (hr : V r.rem) :
    lookDlmLoop P D r s = lookDlmLoop P' D' r s := by
  unfold lookDlmLoop
  congr 1
  funext k
  induction k generalizing r s with
  | zero => rfl
  | succ n ih =>
    simp only [lookDelimitLoop, M.bind_eq]
    split
    · rfl
    · rw [hd.eq _ hr]
      refine M.bind_congr' fun l d hd' => ?_
      split
      · rfl
      · have hdv := hd.stay _ hr _ _ hd'
        rw [h.eq _ hdv]
        refine M.bind_congr' fun l x hx => ?_
        exact ih _ _ (h.stay _ hdv _ _ hx)

/-- elements of a fold that do the same; whether the type matters depends on the index -/
structure SameE (V : Span → Prop) (e e' : Elem) : Prop where
  idx : e.idx = e'.idx
  ty : e.idx ≠ none → e.ty = e'.ty
  parse : e.idx ≠ none → SameP V e.sub e'.sub
  look : e.idx = none → SameL V e.sub e'.sub

theorem execute_same (C : Ctx α β) (u u' c : Bool) {e e' : Elem} (h : SameE V e e') (hu : e.idx ≠ none → u = u')
    (st : Exec) (hs : V st.input) : execute C T u c e st = execute C T u' c e' st ∧
    ∀ l x, execute C T u' c e' st = .done l (.ok x) → V x.2.input := by
  obtain ⟨P, t, i⟩ := e
  obtain ⟨P', t', i'⟩ := e'
  obtain rfl : i = i' := h.idx
  cases i with
  | none =>
    have hl := h.look rfl
    simp only [execute, M.bind_eq]
    refine ⟨by rw [hl.eq _ hs], fun l x hx => ?_⟩
    obtain ⟨l1, l2, r, h1, h2, h3⟩ := M.bind_eq_ok.1 hx
    cases h2
    exact hl.stay _ hs _ _ h1
  | some i =>
    have hp := h.parse (by nofun)
    obtain rfl : t = t' := h.ty (by nofun)
    obtain rfl : u = u' := hu (by nofun)
    simp only [execute, M.bind_eq]
    refine ⟨by rw [hp.eq _ hs], fun l x hx => ?_⟩
    obtain ⟨l1, l2, r, h1, h2, h3⟩ := M.bind_eq_ok.1 hx
    split at h2
    · cases h2; exact hs
    · obtain ⟨l3, l4, w, h4, h5, h6⟩ := M.bind_eq_ok.1 h2
      cases h5
      exact hp.stay _ hs _ _ h1

theorem foldOr_same (C : Ctx α β) (u u' c : Bool) {es es' : List Elem} (h : List.Forall₂ (SameE V) es es')
    (hu : ∀ e ∈ es, e.idx ≠ none → u = u') (st : Exec) (hs : V st.input) :
    foldOr (execute C T u c) es st = foldOr (execute C T u' c) es' st := by
  induction h generalizing st with
  | nil => rfl
  | cons h _ ih =>
    have hx := execute_same (T := T) C u u' c h (hu _ (by simp)) st hs
    simp only [foldOr, M.bind_eq]
    rw [hx.1]
    refine M.bind_congr' fun l x hr => ?_
    split
    · rfl
    · exact ih (fun e he => hu e (by simp [he])) _ (hx.2 _ _ hr)

theorem foldAnd_same (C : Ctx α β) (u u' c : Bool) {es es' : List Elem} (h : List.Forall₂ (SameE V) es es')
    (hu : ∀ e ∈ es, e.idx ≠ none → u = u') (st : Exec) (hs : V st.input) :
    foldAnd (execute C T u c) es st = foldAnd (execute C T u' c) es' st := by
  induction h generalizing st with
  | nil => rfl
  | cons h _ ih =>
    have hx := execute_same (T := T) C u u' c h (hu _ (by simp)) st hs
    simp only [foldAnd, M.bind_eq]
    rw [hx.1]
    refine M.bind_congr' fun l x hr => ?_
    split
    · exact ih (fun e he => hu e (by simp [he])) _ (hx.2 _ _ hr)
    · rfl

end

section
variable {C : Ctx α β}

abbrev Readable (C : Ctx α β) : Span → Prop := fun s => s.Valid C.mem

theorem sameL {p q : Parser α} (h : SameLookahead C p q) : SameL (Readable C) (den C p) (den C q) :=
  ⟨h, fun s hs _ _ hr => ((Look_good q s).ok hr).suffix.valid hs⟩

theorem sameP {p q : Parser α} (h : Interchangeable C p q) : SameP (Readable C) (den C p) (den C q) :=
  ⟨h.parse, fun s hs _ _ hr => ((Parse_good q s).ok hr).suffix.valid hs⟩

theorem Interchangeable.refl (p : Parser α) : Interchangeable C p p := ⟨rfl, fun _ _ => rfl, fun _ _ => rfl⟩
theorem Interchangeable.symm {p q : Parser α} (h : Interchangeable C p q) : Interchangeable C q p :=
  ⟨h.type.symm, fun s hs => (h.parse s hs).symm, fun s hs => (h.look s hs).symm⟩
theorem Interchangeable.trans {p q r : Parser α} (h : Interchangeable C p q) (h' : Interchangeable C q r) :
    Interchangeable C p r :=
  ⟨h.type.trans h'.type, fun s hs => (h.parse s hs).trans (h'.parse s hs), fun s hs => (h.look s hs).trans (h'.look s hs)⟩

theorem mkLookElems_same {ps qs : List (Parser α)} (h : List.Forall₂ (SameLookahead C) ps qs) :
    List.Forall₂ (SameE (Readable C)) (mkLookElems (den C) C ps) (mkLookElems (den C) C qs) := by
  induction h with
  | nil => exact .nil
  | cons h _ ih => exact .cons ⟨rfl, nofun, nofun, fun _ => sameL h⟩ ih

theorem mkLookElems_idx (ps : List (Parser α)) : ∀ e ∈ mkLookElems (den C) C ps, e.idx = none := by
  induction ps with
  | nil => nofun
  | cons p ps ih =>
    intro e he
    rcases List.mem_cons.1 he with rfl | he
    · rfl
    · exact ih e he

theorem mkElems_same {ps qs : List (Parser α)} (h : List.Forall₂ (Interchangeable C) ps qs) (is : List (Option Nat)) :
    List.Forall₂ (SameE (Readable C)) (mkElems (den C) C ps is) (mkElems (den C) C qs is) := by
  induction h generalizing is with
  | nil => exact .nil
  | cons h _ ih =>
    cases is with
    | nil => exact .nil
    | cons i is => exact .cons ⟨rfl, fun _ => h.type, fun _ => sameP h, fun _ => sameL h.look⟩ (ih is)

theorem resultsFor_same {ps qs : List (Parser α)} (h : List.Forall₂ (Interchangeable C) ps qs) :
    resultsFor C ps = resultsFor C qs := by
  induction h with
  | nil => rfl
  | cons h _ ih => rw [resultsFor, resultsFor, h.type, ih]

theorem forall₂_around {Q : Parser α → Parser α → Prop} (hr : ∀ p, Q p p) {p q : Parser α} (h : Q p q)
    (before after : List (Parser α)) : List.Forall₂ Q (before ++ p :: after) (before ++ q :: after) := by
  induction before with
  | nil => exact .cons h (List.forall₂_same.2 fun p _ => hr p)
  | cons b _ ih => exact .cons (hr b) ih

/-- one frame, looking ahead -/
theorem Frame.look (f : Frame α) {p q : Parser α} (h : SameLookahead C p q) :
    SameLookahead C (f.fill p) (f.fill q) := by
  intro s hs
  have hS := sameL h
  cases f with
  | choice b a =>
    simp only [Frame.fill]
    rw [Look_choice, Look_choice]
    simp only [lookChoice, M.bind_eq]
    rw [foldOr_same C _ _ _ (mkLookElems_same (forall₂_around (fun _ _ _ => rfl) h b a))
      (fun e he hi => absurd (mkLookElems_idx _ e he) hi) _ hs]
  | sequence b a =>
    simp only [Frame.fill]
    rw [Look_sequence, Look_sequence]
    simp only [lookSequence, M.bind_eq]
    rw [foldAnd_same C _ _ _ (mkLookElems_same (forall₂_around (fun _ _ _ => rfl) h b a))
      (fun e he hi => absurd (mkLookElems_idx _ e he) hi) _ hs]
  | maybe =>
    simp only [Frame.fill]
    rw [Look_maybe, Look_maybe]
    simp only [lookMaybe, M.bind_eq]
    rw [hS.eq s hs]
  | exactly n =>
    simp only [Frame.fill]
    rw [Look_exactly, Look_exactly]
    exact lookExactlyLoop_same hS s n s hs
  | oneOrMore =>
    simp only [Frame.fill]
    rw [Look_oneOrMore, Look_oneOrMore, lookOomLoop_same hS false s hs]
  | zeroOrMore =>
    simp only [Frame.fill]
    rw [Look_zeroOrMore, Look_zeroOrMore, lookZomLoop_same hS s hs]
  | element d =>
    simp only [Frame.fill]
    rw [Look_delimit, Look_delimit, h s hs]
    refine M.bind_congr' fun l r hr => ?_
    rw [lookDlmLoop_same hS (sameL (p := d) fun _ _ => rfl) r s (hS.stay s hs l r hr)]
  | delimiter x =>
    simp only [Frame.fill]
    rw [Look_delimit, Look_delimit]
    refine M.bind_congr' fun l r hr => ?_
    rw [lookDlmLoop_same (sameL (p := x) fun _ _ => rfl) hS r s (((Look_good x s).ok hr).suffix.valid hs)]
  | ignore =>
    simp only [Frame.fill]
    rw [Look_ignore, Look_ignore, h s hs]
  | complete =>
    simp only [Frame.fill]
    rw [Look_complete, Look_complete]
    simp only [lookComplete, M.bind_eq]
    rw [hS.eq s hs]
  | join =>
    simp only [Frame.fill]
    rw [Look_join_eq, Look_join_eq, h s hs]
  | map f =>
    simp only [Frame.fill]
    rw [Look_map, Look_map, h s hs]
  | filter f =>
    simp only [Frame.fill]
    rw [Look_filter, Look_filter, h s hs]
  | named n =>
    simp only [Frame.fill]
    rw [Look_named, Look_named, h s hs]

/-- one frame, the type -/
theorem Frame.type (f : Frame α) {p q : Parser α} (h : resultFor C p = resultFor C q) :
    resultFor C (f.fill p) = resultFor C (f.fill q) := by
  have hl (b a : List (Parser α)) : resultsFor C (b ++ p :: a) = resultsFor C (b ++ q :: a) := by
    rw [resultsFor_eq, resultsFor_eq]; simp [h]
  cases f <;> simp only [Frame.fill, resultFor, h, hl]

/-- one frame, parsing -/
theorem Frame.parse (f : Frame α) {p q : Parser α} (h : Interchangeable C p q) {s : Span} (hs : s.Valid C.mem) :
    Parse C (f.fill p) s = Parse C (f.fill q) s := by
  have hS := sameP h
  have ht := f.type h.type
  cases f with
  | choice b a =>
    have hf := forall₂_around (fun x => Interchangeable.refl x) h b a
    simp only [Frame.fill]
    rw [Parse_choice, Parse_choice, resultsFor_same hf]
    simp only [parseChoice, M.bind_eq]
    refine M.bind_congr fun v => ?_
    rw [foldOr_same C _ _ _ (mkElems_same hf _) (fun _ _ _ => rfl) _ hs]
  | sequence b a =>
    have hf := forall₂_around (fun x => Interchangeable.refl x) h b a
    simp only [Frame.fill]
    rw [Parse_sequence, Parse_sequence, resultsFor_same hf]
    simp only [parseSequence, M.bind_eq]
    refine M.bind_congr fun v => ?_
    rw [foldAnd_same C _ _ _ (mkElems_same hf _) (fun _ _ _ => rfl) _ hs]
  | maybe =>
    simp only [Frame.fill] at ht ⊢
    rw [Parse_maybe, Parse_maybe, ht]
    simp only [parseMaybe, M.bind_eq]
    rw [hS.eq s hs]
  | exactly n =>
    simp only [Frame.fill] at ht ⊢
    rw [Parse_exactly, Parse_exactly, ht]
    simp only [parseExactly, M.bind_eq]
    exact M.bind_congr fun v => exactlyLoop_same hS s n 0 s v hs
  | oneOrMore =>
    simp only [Frame.fill] at ht ⊢
    rw [Parse_oneOrMore, Parse_oneOrMore, ht]
    exact M.bind_congr fun v => by rw [oomLoop_same hS false s v hs]
  | zeroOrMore =>
    simp only [Frame.fill] at ht ⊢
    rw [Parse_zeroOrMore, Parse_zeroOrMore, ht]
    exact M.bind_congr fun v => by rw [zomLoop_same hS s v hs]
  | element d =>
    simp only [Frame.fill] at ht ⊢
    rw [Parse_delimit, Parse_delimit, ht, h.type]
    refine M.bind_congr fun v => ?_
    rw [h.parse s hs]
    refine M.bind_congr' fun l r hr => ?_
    rw [dlmLoop_same hS (sameP (Interchangeable.refl d)) r s v (hS.stay s hs l r hr)]
  | delimiter x =>
    simp only [Frame.fill] at ht ⊢
    rw [Parse_delimit, Parse_delimit, ht, h.type]
    refine M.bind_congr fun v => ?_
    refine M.bind_congr' fun l r hr => ?_
    rw [dlmLoop_same (sameP (Interchangeable.refl x)) hS r s v (((Parse_good x s).ok hr).suffix.valid hs)]
  | ignore =>
    simp only [Frame.fill]
    rw [Parse_ignore, Parse_ignore, h.look s hs]
  | complete =>
    simp only [Frame.fill]
    rw [Parse_complete, Parse_complete]
    simp only [parseComplete, M.bind_eq]
    rw [hS.eq s hs]
  | join =>
    simp only [Frame.fill]
    rw [Parse_join_eq, Parse_join_eq]
    simp only [parseJoin, M.bind_eq]
    rw [hS.eq s hs]
  | map f =>
    simp only [Frame.fill] at ht ⊢
    rw [Parse_map, Parse_map, ht, h.type]
    simp only [parseMap, M.bind_eq]
    rw [hS.eq s hs]
  | filter f =>
    simp only [Frame.fill] at ht ⊢
    rw [Parse_filter, Parse_filter, h.type]
    simp only [parseFilter, M.bind_eq]
    rw [hS.eq s hs]
  | named n =>
    simp only [Frame.fill]
    rw [Parse_named, Parse_named, h.parse s hs]

theorem Frame.interchangeable (f : Frame α) {p q : Parser α} (h : Interchangeable C p q) :
    Interchangeable C (f.fill p) (f.fill q) :=
  ⟨f.type h.type, fun _ hs => f.parse h hs, f.look h.look⟩

end

end Tok3n
