import Verif.Proof.Prefix
/-
The fuel-free equations: `Parse C p` and `Look C p` in terms of `Parse`/`Look` of the
sub-parsers, for each parser, and the unfolding equations of the loops.
-/

namespace Tok3n

variable {α β : Type}

/-! ### Loops without fuel -/

noncomputable def oomLoop (T : Ty) (P : Sub) (b : Bool) (s : Span) (v : Val) : Run (Bool × Span × Val) :=
  lim fun k => oneOrMoreLoop T P k b s v
noncomputable def lookOomLoop (P : Sub) (b : Bool) (s : Span) : Run (Bool × Span) :=
  lim fun k => lookOneOrMoreLoop P k b s
noncomputable def zomLoop (T : Ty) (P : Sub) (s : Span) (v : Val) : Run (Span × Val) :=
  lim fun k => zeroOrMoreLoop T P k s v
noncomputable def lookZomLoop (P : Sub) (s : Span) : Run Span :=
  lim fun k => lookZeroOrMoreLoop P k s
noncomputable def dlmLoop (T tp td : Ty) (P D : Sub) (r : R) (s : Span) (v : Val) : Run (Span × Val) :=
  lim fun k => delimitLoop T tp td P D k r s v
noncomputable def lookDlmLoop (P D : Sub) (r : R) (s : Span) : Run Span :=
  lim fun k => lookDelimitLoop P D k r s
noncomputable def jrLoop (C : Ctx α β) (b : BasicP α) (s r : Span) : Run (Span × Span) :=
  lim fun k => joinRepeatLoop C b k s r
noncomputable def lookJrLoop (C : Ctx α β) (b : BasicP α) (s : Span) : Run Span :=
  lim fun k => lookJoinRepeatLoop C b k s

section
variable {L A : Type}

theorem lim_succ {m : Nat → M L A} (h : Mono m) : lim m = lim fun n => m (n + 1) :=
  (h.lim.tail).unique (Mono.lim fun n => h (n + 1))

theorem Lim.lim_done {m : Nat → M L A} (h : Mono m) {l r} :
    lim m = .done l r ↔ ∃ n, m n = .done l r := h.lim.iff l r
end

section
variable {T tp td : Ty} {P D : Sub} {C : Ctx α β}

theorem oomLoop_lim (b : Bool) (s : Span) (v : Val) :
    Lim (fun k => oneOrMoreLoop T P k b s v) (oomLoop T P b s v) := (oneOrMoreLoop_mono _ _ _ _).lim
theorem lookOomLoop_lim (b : Bool) (s : Span) :
    Lim (fun k => lookOneOrMoreLoop P k b s) (lookOomLoop P b s) := (lookOneOrMoreLoop_mono _ _).lim
theorem zomLoop_lim (s : Span) (v : Val) :
    Lim (fun k => zeroOrMoreLoop T P k s v) (zomLoop T P s v) := (zeroOrMoreLoop_mono _ _ _).lim
theorem lookZomLoop_lim (s : Span) :
    Lim (fun k => lookZeroOrMoreLoop P k s) (lookZomLoop P s) := (lookZeroOrMoreLoop_mono _).lim
theorem dlmLoop_lim (r : R) (s : Span) (v : Val) :
    Lim (fun k => delimitLoop T tp td P D k r s v) (dlmLoop T tp td P D r s v) :=
  (delimitLoop_mono _ _ _ _ _ _).lim
theorem lookDlmLoop_lim (r : R) (s : Span) :
    Lim (fun k => lookDelimitLoop P D k r s) (lookDlmLoop P D r s) := (lookDelimitLoop_mono _ _).lim
theorem jrLoop_lim (b : BasicP α) (s r : Span) :
    Lim (fun k => joinRepeatLoop C b k s r) (jrLoop C b s r) := (joinRepeatLoop_mono _ _ _).lim
theorem lookJrLoop_lim (b : BasicP α) (s : Span) :
    Lim (fun k => lookJoinRepeatLoop C b k s) (lookJrLoop C b s) := (lookJoinRepeatLoop_mono _ _).lim

theorem oomLoop_eq (b : Bool) (s : Span) (v : Val) :
    oomLoop T P b s v = M.bind (P.parse s) fun r =>
      if not r.hasValue then M.pure (b || r.hasValue, r.rem, v)
      else M.bind (builderInsertBack T v r) fun v => oomLoop T P (b || r.hasValue) r.rem v :=
  (oomLoop_lim b s v).tail.unique <|
    Lim.bind (Lim.const _) fun r => Lim.ite (fun _ => Lim.const _) fun _ =>
      Lim.bind (Lim.const _) fun _ => oomLoop_lim _ _ _

theorem lookOomLoop_eq (b : Bool) (s : Span) :
    lookOomLoop P b s = M.bind (P.look s) fun r =>
      if not r.hasValue then M.pure (b || r.hasValue, r.rem)
      else lookOomLoop P (b || r.hasValue) r.rem :=
  (lookOomLoop_lim b s).tail.unique <|
    Lim.bind (Lim.const _) fun r => Lim.ite (fun _ => Lim.const _) fun _ => lookOomLoop_lim _ _

theorem zomLoop_eq (s : Span) (v : Val) :
    zomLoop T P s v = M.bind (P.parse s) fun r =>
      if not r.hasValue then M.pure (r.rem, v)
      else M.bind (builderInsertBack T v r) fun v => zomLoop T P r.rem v :=
  (zomLoop_lim s v).tail.unique <|
    Lim.bind (Lim.const _) fun r => Lim.ite (fun _ => Lim.const _) fun _ =>
      Lim.bind (Lim.const _) fun _ => zomLoop_lim _ _

theorem lookZomLoop_eq (s : Span) :
    lookZomLoop P s = M.bind (P.look s) fun r =>
      if not r.hasValue then M.pure r.rem else lookZomLoop P r.rem :=
  (lookZomLoop_lim s).tail.unique <|
    Lim.bind (Lim.const _) fun r => Lim.ite (fun _ => Lim.const _) fun _ => lookZomLoop_lim _

theorem dlmLoop_eq (r : R) (s : Span) (v : Val) :
    dlmLoop T tp td P D r s v =
      if not r.hasValue then M.pure (s, v)
      else M.bind (delimitRecordP T tp td v r) fun v => M.bind (D.parse r.rem) fun dr =>
        if not dr.hasValue then M.pure (r.rem, v)
        else M.bind (P.parse dr.rem) fun r' => M.bind (delimitRecordD T tp td v r' dr) fun v =>
          dlmLoop T tp td P D r' r.rem v :=
  (dlmLoop_lim r s v).tail.unique <|
    Lim.ite (fun _ => Lim.const _) fun _ => Lim.bind (Lim.const _) fun _ => Lim.bind (Lim.const _) fun _ =>
      Lim.ite (fun _ => Lim.const _) fun _ => Lim.bind (Lim.const _) fun _ =>
        Lim.bind (Lim.const _) fun _ => dlmLoop_lim _ _ _

theorem lookDlmLoop_eq (r : R) (s : Span) :
    lookDlmLoop P D r s =
      if not r.hasValue then M.pure s
      else M.bind (D.look r.rem) fun dr =>
        if not dr.hasValue then M.pure r.rem
        else M.bind (P.look dr.rem) fun r' => lookDlmLoop P D r' r.rem :=
  (lookDlmLoop_lim r s).tail.unique <|
    Lim.ite (fun _ => Lim.const _) fun _ => Lim.bind (Lim.const _) fun _ =>
      Lim.ite (fun _ => Lim.const _) fun _ => Lim.bind (Lim.const _) fun _ => lookDlmLoop_lim _ _

theorem jrLoop_eq (b : BasicP α) (s r : Span) :
    jrLoop C b s r = M.bind (failureCondition C b s) fun c =>
      if c then M.pure (s, r)
      else M.bind (s.subspan C.mem b.length) fun s' => jrLoop C b s' ⟨r.ptr, r.len + b.length⟩ :=
  (jrLoop_lim b s r).tail.unique <|
    Lim.bind (Lim.const _) fun _ => Lim.ite (fun _ => Lim.const _) fun _ =>
      Lim.bind (Lim.const _) fun _ => jrLoop_lim _ _ _

theorem lookJrLoop_eq (b : BasicP α) (s : Span) :
    lookJrLoop C b s = M.bind (failureCondition C b s) fun c =>
      if c then M.pure s
      else M.bind (s.subspan C.mem b.length) fun s' => lookJrLoop C b s' :=
  (lookJrLoop_lim b s).tail.unique <|
    Lim.bind (Lim.const _) fun _ => Lim.ite (fun _ => Lim.const _) fun _ =>
      Lim.bind (Lim.const _) fun _ => lookJrLoop_lim _ _

end

/-! ### Parsers -/

section
variable {C : Ctx α β} (s : Span)

theorem Parse_anyOf (arr : List α) : Parse C (.anyOf arr) s = parseBasic C (.anyOf arr) s := by
  rw [Parse_eq]; exact lim_const _
theorem Parse_noneOf (arr : List α) : Parse C (.noneOf arr) s = parseBasic C (.noneOf arr) s := by
  rw [Parse_eq]; exact lim_const _
theorem Parse_allOf (arr : List α) : Parse C (.allOf arr) s = parseBasic C (.allOf arr) s := by
  rw [Parse_eq]; exact lim_const _
theorem Parse_anything : Parse C .anything s = parseBasic C .anything s := by
  rw [Parse_eq]; exact lim_const _
theorem Parse_epsilon : Parse C .epsilon s = M.pure (R.successVoid s) := by
  rw [Parse_eq]; exact lim_const _
theorem Look_anyOf (arr : List α) : Look C (.anyOf arr) s = lookBasic C (.anyOf arr) s := by
  rw [Look_eq]; exact lim_const _
theorem Look_noneOf (arr : List α) : Look C (.noneOf arr) s = lookBasic C (.noneOf arr) s := by
  rw [Look_eq]; exact lim_const _
theorem Look_allOf (arr : List α) : Look C (.allOf arr) s = lookBasic C (.allOf arr) s := by
  rw [Look_eq]; exact lim_const _
theorem Look_anything : Look C .anything s = lookBasic C .anything s := by
  rw [Look_eq]; exact lim_const _
theorem Look_epsilon : Look C .epsilon s = M.pure (R.successVoid s) := by
  rw [Look_eq]; exact lim_const _

theorem Parse_choice (ps : List (Parser α)) :
    Parse C (.choice ps) s = parseChoice C (choiceTrait (resultsFor C ps))
      (mkElems (den C) C ps (choiceTrait (resultsFor C ps)).seq) s := by
  rw [Parse_eq]; exact lim_const _
theorem Look_choice (ps : List (Parser α)) :
    Look C (.choice ps) s = lookChoice C (choiceTrait (resultsFor C ps)) (mkLookElems (den C) C ps) s := by
  rw [Look_eq]; exact lim_const _
theorem Parse_sequence (ps : List (Parser α)) :
    Parse C (.sequence ps) s = parseSequence C (sequenceTrait (resultsFor C ps))
      (mkElems (den C) C ps (sequenceTrait (resultsFor C ps)).seq) s := by
  rw [Parse_eq]; exact lim_const _
theorem Look_sequence (ps : List (Parser α)) :
    Look C (.sequence ps) s =
      lookSequence C (sequenceTrait (resultsFor C ps)) (mkLookElems (den C) C ps) s := by
  rw [Look_eq]; exact lim_const _

variable (p d : Parser α)

theorem Parse_maybe :
    Parse C (.maybe p) s = parseMaybe C (resultFor C (.maybe p)) (den C p) s := by
  rw [Parse_eq]; exact lim_const _
theorem Look_maybe : Look C (.maybe p) s = lookMaybe (den C p) s := by
  rw [Look_eq]; exact lim_const _
theorem Parse_exactly (n : Nat) :
    Parse C (.exactly p n) s = parseExactly C (resultFor C (.exactly p n)) n (den C p) s := by
  rw [Parse_eq]; exact lim_const _
theorem Look_exactly (n : Nat) : Look C (.exactly p n) s = lookExactly n (den C p) s := by
  rw [Look_eq]; exact lim_const _

theorem Parse_oneOrMore :
    Parse C (.oneOrMore p) s =
      M.bind (builderInit C (resultFor C (.oneOrMore p))) fun v =>
      M.bind (oomLoop (resultFor C (.oneOrMore p)) (den C p) false s v) fun x =>
        if x.1 then M.pure (builderBuild (resultFor C (.oneOrMore p)) x.2.2 x.2.1)
        else M.pure (R.failure x.2.1) := by
  rw [Parse_eq]
  exact Lim.eq (Lim.bind (Lim.const _) fun _ => Lim.bind (oomLoop_lim _ _ _) fun ⟨_, _, _⟩ => Lim.const _)
theorem Look_oneOrMore :
    Look C (.oneOrMore p) s =
      M.bind (lookOomLoop (den C p) false s) fun x =>
        if x.1 then M.pure (R.successVoid x.2) else M.pure (R.failure x.2) := by
  rw [Look_eq]
  exact Lim.eq (Lim.bind (lookOomLoop_lim _ _) fun ⟨_, _⟩ => Lim.const _)
theorem Parse_zeroOrMore :
    Parse C (.zeroOrMore p) s =
      M.bind (builderInit C (resultFor C (.zeroOrMore p))) fun v =>
      M.bind (zomLoop (resultFor C (.zeroOrMore p)) (den C p) s v) fun x =>
        M.pure (builderBuild (resultFor C (.zeroOrMore p)) x.2 x.1) := by
  rw [Parse_eq]
  exact Lim.eq (Lim.bind (Lim.const _) fun _ => Lim.bind (zomLoop_lim _ _) fun ⟨_, _⟩ => Lim.const _)
theorem Look_zeroOrMore :
    Look C (.zeroOrMore p) s =
      M.bind (lookZomLoop (den C p) s) fun x => M.pure (R.successVoid x) := by
  rw [Look_eq]
  exact Lim.eq (Lim.bind (lookZomLoop_lim _) fun _ => Lim.const _)
theorem Parse_delimit :
    Parse C (.delimit p d) s =
      M.bind (builderInit C (resultFor C (.delimit p d))) fun v =>
      M.bind (Parse C p s) fun r =>
        if not r.hasValue then M.pure (R.failure s)
        else M.bind (dlmLoop (resultFor C (.delimit p d)) (resultFor C p) (resultFor C d)
            (den C p) (den C d) r s v) fun x =>
          M.pure (builderBuild (resultFor C (.delimit p d)) x.2 x.1) := by
  rw [Parse_eq]
  exact Lim.eq (Lim.bind (Lim.const _) fun _ => Lim.bind (Lim.const _) fun _ =>
    Lim.ite (fun _ => Lim.const _) fun _ => Lim.bind (dlmLoop_lim _ _ _) fun ⟨_, _⟩ => Lim.const _)
theorem Look_delimit :
    Look C (.delimit p d) s =
      M.bind (Look C p s) fun r =>
        if not r.hasValue then M.pure (R.failure s)
        else M.bind (lookDlmLoop (den C p) (den C d) r s) fun x => M.pure (R.successVoid x) := by
  rw [Look_eq]
  exact Lim.eq (Lim.bind (Lim.const _) fun _ =>
    Lim.ite (fun _ => Lim.const _) fun _ => Lim.bind (lookDlmLoop_lim _ _) fun _ => Lim.const _)
theorem Parse_ignore : Parse C (.ignore p) s = Look C p s := by
  rw [Parse_eq]; exact lim_const _
theorem Look_ignore : Look C (.ignore p) s = Look C p s := by
  rw [Look_eq]; exact lim_const _
theorem Parse_complete : Parse C (.complete p) s = parseComplete (den C p) s := by
  rw [Parse_eq]; exact lim_const _
theorem Look_complete : Look C (.complete p) s = lookComplete (den C p) s := by
  rw [Look_eq]; exact lim_const _
theorem Parse_map (f : Fn) :
    Parse C (.map p f) s = parseMap C (resultFor C p) (resultFor C (.map p f)) f (den C p) s := by
  rw [Parse_eq]; exact lim_const _
theorem Look_map (f : Fn) : Look C (.map p f) s = Look C p s := by
  rw [Look_eq]; exact lim_const _
theorem Parse_filter (f : Fn) :
    Parse C (.filter p f) s = parseFilter C (resultFor C p) f (den C p) s := by
  rw [Parse_eq]; exact lim_const _
theorem Look_filter (f : Fn) : Look C (.filter p f) s = Look C p s := by
  rw [Look_eq]; exact lim_const _
theorem Parse_named (n : Name) : Parse C (.named p n) s = Parse C p s := by
  rw [Parse_eq]; exact lim_const _
theorem Look_named (n : Name) : Look C (.named p n) s = Look C p s := by
  rw [Look_eq]; exact lim_const _
theorem Parse_custom (k : Nat) :
    Parse C (.custom k) s =
      parseCustom C (resultFor C (C.custom k).body) (C.custom k).ty (den C (C.custom k).body) s := by
  rw [Parse_eq]; exact lim_const _
theorem Look_custom (k : Nat) : Look C (.custom k) s = Look C (C.custom k).body s := by
  rw [Look_eq]; exact lim_const _

/-- the parser `p` for which `join_parser<p>` has a specialisation, with its basic parser -/
inductive JoinSpec (C : Ctx α β) : Parser α → Prop where
  | exactly {q n b} : asBasic C q = some b → JoinSpec C (.exactly q n)
  | maybe {q b} : asBasic C q = some b → JoinSpec C (.maybe q)
  | oneOrMore {q b} : asBasic C q = some b → JoinSpec C (.oneOrMore q)
  | zeroOrMore {q b} : asBasic C q = some b → JoinSpec C (.zeroOrMore q)

theorem semJoin_generic {rec : Parser α → Sub} {k : Nat} (h : ¬ JoinSpec C p) :
    semJoin C rec k p = joinGeneric C (rec p) := by
  cases p with
  | exactly q n =>
    simp only [semJoin]
    cases hb : asBasic C q with
    | none => rfl
    | some b => exact absurd (.exactly hb) h
  | maybe q =>
    simp only [semJoin]
    cases hb : asBasic C q with
    | none => rfl
    | some b => exact absurd (.maybe hb) h
  | oneOrMore q =>
    simp only [semJoin]
    cases hb : asBasic C q with
    | none => rfl
    | some b => exact absurd (.oneOrMore hb) h
  | zeroOrMore q =>
    simp only [semJoin]
    cases hb : asBasic C q with
    | none => rfl
    | some b => exact absurd (.zeroOrMore hb) h
  | _ => rfl

theorem Parse_join_generic (h : ¬ JoinSpec C p) : Parse C (.join p) s = parseJoin C (den C p) s := by
  rw [Parse_eq]
  simp only [step, semJoin_generic p h]
  exact lim_const _
theorem Look_join_generic (h : ¬ JoinSpec C p) : Look C (.join p) s = Look C p s := by
  rw [Look_eq]
  simp only [step, semJoin_generic p h]
  exact lim_const _

variable {p} {b : BasicP α} (hb : asBasic C p = some b)
include hb

theorem Parse_join_exactly (n : Nat) :
    Parse C (.join (.exactly p n)) s = parseJoinExactlyBasic C b n s := by
  rw [Parse_eq]; simp only [step, semJoin, hb]; exact lim_const _
theorem Look_join_exactly (n : Nat) :
    Look C (.join (.exactly p n)) s = lookJoinExactlyBasic C b n s := by
  rw [Look_eq]; simp only [step, semJoin, hb]; exact lim_const _
theorem Parse_join_maybe : Parse C (.join (.maybe p)) s = parseJoinMaybeBasic C b s := by
  rw [Parse_eq]; simp only [step, semJoin, hb]; exact lim_const _
theorem Look_join_maybe : Look C (.join (.maybe p)) s = lookJoinMaybeBasic C b s := by
  rw [Look_eq]; simp only [step, semJoin, hb]; exact lim_const _
theorem Parse_join_oneOrMore :
    Parse C (.join (.oneOrMore p)) s =
      M.bind (failureCondition C b s) fun c =>
        if c then M.pure (R.failure s)
        else M.bind (s.subspan C.mem b.length) fun s' =>
          M.bind (jrLoop C b s' ⟨s.ptr, b.length⟩) fun x => M.pure (R.success (.span x.2) x.1) := by
  rw [Parse_eq]; simp only [step, semJoin, hb]
  exact Lim.eq (Lim.bind (Lim.const _) fun _ => Lim.ite (fun _ => Lim.const _) fun _ =>
    Lim.bind (Lim.const _) fun _ => Lim.bind (jrLoop_lim _ _ _) fun ⟨_, _⟩ => Lim.const _)
theorem Look_join_oneOrMore :
    Look C (.join (.oneOrMore p)) s =
      M.bind (failureCondition C b s) fun c =>
        if c then M.pure (R.failure s)
        else M.bind (s.subspan C.mem b.length) fun s' =>
          M.bind (lookJrLoop C b s') fun x => M.pure (R.successVoid x) := by
  rw [Look_eq]; simp only [step, semJoin, hb]
  exact Lim.eq (Lim.bind (Lim.const _) fun _ => Lim.ite (fun _ => Lim.const _) fun _ =>
    Lim.bind (Lim.const _) fun _ => Lim.bind (lookJrLoop_lim _ _) fun _ => Lim.const _)
theorem Parse_join_zeroOrMore :
    Parse C (.join (.zeroOrMore p)) s =
      M.bind (jrLoop C b s ⟨s.ptr, 0⟩) fun x => M.pure (R.success (.span x.2) x.1) := by
  rw [Parse_eq]; simp only [step, semJoin, hb]
  exact Lim.eq (Lim.bind (jrLoop_lim _ _ _) fun ⟨_, _⟩ => Lim.const _)
theorem Look_join_zeroOrMore :
    Look C (.join (.zeroOrMore p)) s =
      M.bind (lookJrLoop C b s) fun x => M.pure (R.successVoid x) := by
  rw [Look_eq]; simp only [step, semJoin, hb]
  exact Lim.eq (Lim.bind (lookJrLoop_lim _ _) fun _ => Lim.const _)

end

end Tok3n
