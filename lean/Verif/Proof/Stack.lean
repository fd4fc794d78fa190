import Verif.Spec.Stack
import Verif.Proof.Terminate
import Verif.Proof.Replace
/-
Proofs for C64: with room for the calls that are made, the outcome of deeper calls makes no difference.
-/

namespace Tok3n

variable {α β : Type} {C : Ctx α β}

/-! ### Heights -/

theorem height_mem {ps : List (Parser α)} {q : Parser α} (h : q ∈ ps) : q.height ≤ heights ps := by
  induction ps with
  | nil => cases h
  | cons p ps ih =>
    simp only [heights]
    rcases List.mem_cons.1 h with rfl | h
    · omega
    · have := ih h; omega

theorem height_part {p q : Parser α} (h : q ∈ p.parts) : q.height < p.height := by
  cases p <;> simp only [Parser.parts, List.mem_cons, List.not_mem_nil, or_false] at h
  case choice ps => have := height_mem h; simp only [Parser.height]; omega
  case sequence ps => have := height_mem h; simp only [Parser.height]; omega
  case delimit p d => rcases h with rfl | rfl <;> simp only [Parser.height] <;> omega
  all_goals (subst h; simp only [Parser.height]; omega)

theorem height_pos (p : Parser α) : 0 < p.height := by cases p <;> simp [Parser.height]

/-! ### What a step depends on -/

theorem mkElems_congr {rec rec' : Parser α → Sub} {ps : List (Parser α)} (h : ∀ q ∈ ps, rec q = rec' q)
    (is : List (Option Nat)) : mkElems rec C ps is = mkElems rec' C ps is := by
  induction ps generalizing is with
  | nil => rfl
  | cons p ps ih =>
    cases is with
    | nil => rfl
    | cons i is => rw [mkElems, mkElems, h p (by simp), ih fun q hq => h q (by simp [hq])]

theorem mkLookElems_congr {rec rec' : Parser α → Sub} {ps : List (Parser α)} (h : ∀ q ∈ ps, rec q = rec' q) :
    mkLookElems rec C ps = mkLookElems rec' C ps := by
  induction ps with
  | nil => rfl
  | cons p ps ih => rw [mkLookElems, mkLookElems, h p (by simp), ih fun q hq => h q (by simp [hq])]

theorem semJoin_congr {rec rec' : Parser α → Sub} {p : Parser α} (h : rec p = rec' p) (k : Nat) :
    semJoin C rec k p = semJoin C rec' k p := by
  unfold semJoin
  split <;> first | rw [h] | (split <;> first | rfl | rw [h])

theorem step_congr {rec rec' : Parser α → Sub} {p : Parser α} (h : ∀ q ∈ p.parts, rec q = rec' q)
    (hk : ∀ k, p = .custom k → rec (C.custom k).body = rec' (C.custom k).body) (k : Nat) :
    step C rec k p = step C rec' k p := by
  cases p <;> simp only [Parser.parts, List.mem_cons, List.not_mem_nil, or_false, forall_eq] at h
  case choice ps => simp only [step, mkElems_congr h, mkLookElems_congr h]
  case sequence ps => simp only [step, mkElems_congr h, mkLookElems_congr h]
  case join p => simp only [step]; exact semJoin_congr h k
  case delimit p d => simp only [step, h p (.inl rfl), h d (.inr rfl)]
  case custom j => simp only [step, hk j rfl]
  all_goals first | rfl | simp only [step, h]

theorem den_eq (p : Parser α) : den C p = ⟨fun s => lim fun k => (step C (den C) k p).parse s,
    fun s => lim fun k => (step C (den C) k p).look s⟩ := by
  unfold den
  congr 1
  · funext s; exact Parse_eq p s
  · funext s; exact Look_eq p s

theorem budget_of_step {o : Sub} {d : Nat} {p : Parser α} (h : ∀ k, step C (budget C o d) k p = step C (den C) k p) :
    budget C o (d + 1) p = den C p := by
  rw [den_eq, budget]
  simp only [h]

theorem Fits.budget {d : Nat} {p : Parser α} (h : Fits C d p) (d' : Nat) (hd : d ≤ d') (o : Sub) :
    budget C o d' p = den C p := by
  induction h generalizing d' with
  | @intro d p _ _ ih ihk =>
    obtain ⟨e, rfl⟩ : ∃ e, d' = e + 1 := ⟨d' - 1, by omega⟩
    exact budget_of_step (step_congr (fun q hq => ih q hq e (by omega)) fun k hk => ihk k hk e (by omega))

/-! ### Steps whose parts agree where they are called -/

/-- `rec` does on `s` what `q` does -/
def DoesAs (C : Ctx α β) (rec : Parser α → Sub) (s : Span) (q : Parser α) : Prop :=
  (rec q).parse s = Parse C q s ∧ (rec q).look s = Look C q s

/-- readable inputs of length at most `n` -/
abbrev UpTo (C : Ctx α β) (n : Nat) : Span → Prop := fun s => s.Valid C.mem ∧ s.len ≤ n

variable {rec : Parser α → Sub} {n : Nat}

theorem agreeP {q : Parser α} (h : ∀ s : Span, s.Valid C.mem → s.len ≤ n → DoesAs C rec s q) :
    SameP (UpTo C n) (rec q) (den C q) :=
  ⟨fun s hs => (h s hs.1 hs.2).1, fun s hs _ _ hr =>
    have := ((Parse_good q s).ok hr).suffix
    ⟨this.valid hs.1, Nat.le_trans this.len_le hs.2⟩⟩

theorem agreeL {q : Parser α} (h : ∀ s : Span, s.Valid C.mem → s.len ≤ n → DoesAs C rec s q) :
    SameL (UpTo C n) (rec q) (den C q) :=
  ⟨fun s hs => (h s hs.1 hs.2).2, fun s hs _ _ hr =>
    have := ((Look_good q s).ok hr).suffix
    ⟨this.valid hs.1, Nat.le_trans this.len_le hs.2⟩⟩

theorem mkElems_doesAs {ps : List (Parser α)} (h : ∀ q ∈ ps, ∀ s : Span, s.Valid C.mem → s.len ≤ n → DoesAs C rec s q)
    (is : List (Option Nat)) : List.Forall₂ (SameE (UpTo C n)) (mkElems rec C ps is) (mkElems (den C) C ps is) := by
  induction ps generalizing is with
  | nil => cases is <;> exact .nil
  | cons p ps ih =>
    cases is with
    | nil => exact .nil
    | cons i is =>
      have hp := h p (by simp)
      exact .cons ⟨rfl, fun _ => rfl, fun _ => agreeP hp, fun _ => agreeL hp⟩ (ih (fun q hq => h q (by simp [hq])) is)

theorem mkLookElems_doesAs {ps : List (Parser α)}
    (h : ∀ q ∈ ps, ∀ s : Span, s.Valid C.mem → s.len ≤ n → DoesAs C rec s q) :
    List.Forall₂ (SameE (UpTo C n)) (mkLookElems rec C ps) (mkLookElems (den C) C ps) := by
  induction ps with
  | nil => exact .nil
  | cons p ps ih =>
    have hp := h p (by simp)
    exact .cons ⟨rfl, fun _ => rfl, fun _ => agreeP hp, fun _ => agreeL hp⟩ (ih fun q hq => h q (by simp [hq]))

/-- the elements `es` and `es'` run the parsers `ps` in turn, by `rec` and by themselves -/
inductive RunsAs (C : Ctx α β) (rec : Parser α → Sub) : List Elem → List Elem → List (Parser α) → Prop where
  | nil {ps} : RunsAs C rec [] [] ps
  | cons {t i es es' q ps} : RunsAs C rec es es' ps → RunsAs C rec (⟨rec q, t, i⟩ :: es) (⟨den C q, t, i⟩ :: es') (q :: ps)

theorem runsAs_mkElems (ps : List (Parser α)) (is : List (Option Nat)) :
    RunsAs C rec (mkElems rec C ps is) (mkElems (den C) C ps is) ps := by
  induction ps generalizing is with
  | nil => cases is <;> exact .nil
  | cons p ps ih =>
    cases is with
    | nil => exact .nil
    | cons i is => exact .cons (ih is)

theorem runsAs_mkLookElems (ps : List (Parser α)) :
    RunsAs C rec (mkLookElems rec C ps) (mkLookElems (den C) C ps) ps := by
  induction ps with
  | nil => exact .nil
  | cons p ps ih => exact .cons ih

theorem execute_doesAs {q : Parser α} {st : Exec} (h : DoesAs C rec st.input q) (T t : Ty) (i : Option Nat) (u c : Bool) :
    execute C T u c ⟨rec q, t, i⟩ st = execute C T u c ⟨den C q, t, i⟩ st := by
  cases i with
  | none => simp only [execute, h.2]; rfl
  | some i => simp only [execute, h.1]; rfl

theorem foldAnd_doesAs {es es' : List Elem} {ps : List (Parser α)} (he : RunsAs C rec es es' ps) (T : Ty) (u c : Bool)
    (st : Exec) (hs : st.input.Valid C.mem) (hn : st.input.len ≤ n)
    (hlt : ∀ q ∈ ps, ∀ s : Span, s.Valid C.mem → s.len < n → DoesAs C rec s q)
    (heq : st.input.len = n → ∀ qs q rs, ps = qs ++ q :: rs → (∀ x ∈ qs, Nullable C x) →
      ∀ s : Span, s.Valid C.mem → s.len = n → DoesAs C rec s q) :
    foldAnd (execute C T u c) es st = foldAnd (execute C T u c) es' st := by
  induction he generalizing st with
  | nil => rfl
  | @cons t i es es' q ps _ ih =>
    have hr : DoesAs C rec st.input q := by
      rcases Nat.lt_or_ge st.input.len n with h | h
      · exact hlt q (by simp) _ hs h
      · exact heq (by omega) [] q ps rfl nofun _ hs (by omega)
    simp only [foldAnd, M.bind_eq]
    rw [execute_doesAs hr]
    refine M.bind_congr' fun l x hx => ?_
    obtain ⟨b, st'⟩ := x
    obtain ⟨hsuf, -, hnull⟩ := execute_left rfl hs hx
    cases b with
    | false => rfl
    | true =>
      have hle := hsuf.len_le
      refine ih st' (hsuf.valid hs) (by omega) (fun q hq => hlt q (by simp [hq])) fun hst => ?_
      intro qs r rs hps hqs
      have hnq : Nullable C q := hnull rfl (by omega)
      refine heq (by omega) (q :: qs) r rs (by rw [hps]; rfl) fun x hx => ?_
      rcases List.mem_cons.1 hx with rfl | hx
      · exact hnq
      · exact hqs x hx

section
variable {p d : Parser α} (hp : ∀ s : Span, s.Valid C.mem → s.len ≤ n → DoesAs C rec s p)
  (hlt : ∀ s : Span, s.Valid C.mem → s.len < n → DoesAs C rec s d)
  (heq : Nullable C p → ∀ s : Span, s.Valid C.mem → s.len = n → DoesAs C rec s d)
include hp hlt heq

theorem delimitLoop_doesAs (T tp td : Ty) (k : Nat) (r : R) (s : Span) (v : Val) (hr : UpTo C n r.rem)
    (hn : r.hasValue = true → r.rem.len = n → Nullable C p) :
    delimitLoop T tp td (rec p) (rec d) k r s v = delimitLoop T tp td (den C p) (den C d) k r s v := by
  induction k generalizing r s v with
  | zero => rfl
  | succ k ih =>
    simp only [delimitLoop, M.bind_eq]
    split
    · rfl
    · next hv =>
      refine M.bind_congr fun w => ?_
      have hd : DoesAs C rec r.rem d := by
        rcases Nat.lt_or_ge r.rem.len n with h | h
        · exact hlt _ hr.1 h
        · exact heq (hn (by simpa using hv) (by have := hr.2; omega)) _ hr.1 (by have := hr.2; omega)
      rw [hd.1]
      refine M.bind_congr' fun l x hx => ?_
      split
      · rfl
      · have hsuf := ((Parse_good d _).ok hx).suffix
        have hxr : UpTo C n x.rem := ⟨hsuf.valid hr.1, Nat.le_trans hsuf.len_le hr.2⟩
        rw [(hp _ hxr.1 hxr.2).1]
        refine M.bind_congr' fun l y hy => ?_
        refine M.bind_congr fun w => ?_
        have hsuf' := ((Parse_good p _).ok hy).suffix
        refine ih _ _ _ ⟨hsuf'.valid hxr.1, Nat.le_trans hsuf'.len_le hxr.2⟩ fun hyv hyn => ?_
        obtain ⟨yv, yr⟩ := y
        cases yv with
        | none => cases hyv
        | some yv => exact .of_parse hxr.1 hy (by have := hsuf'.len_le; have := hxr.2; simp only at *; omega)

theorem lookDelimitLoop_doesAs (k : Nat) (r : R) (s : Span) (hr : UpTo C n r.rem)
    (hn : r.hasValue = true → r.rem.len = n → Nullable C p) :
    lookDelimitLoop (rec p) (rec d) k r s = lookDelimitLoop (den C p) (den C d) k r s := by
  induction k generalizing r s with
  | zero => rfl
  | succ k ih =>
    simp only [lookDelimitLoop, M.bind_eq]
    split
    · rfl
    · next hv =>
      have hd : DoesAs C rec r.rem d := by
        rcases Nat.lt_or_ge r.rem.len n with h | h
        · exact hlt _ hr.1 h
        · exact heq (hn (by simpa using hv) (by have := hr.2; omega)) _ hr.1 (by have := hr.2; omega)
      rw [hd.2]
      refine M.bind_congr' fun l x hx => ?_
      split
      · rfl
      · have hsuf := ((Look_good d _).ok hx).suffix
        have hxr : UpTo C n x.rem := ⟨hsuf.valid hr.1, Nat.le_trans hsuf.len_le hr.2⟩
        rw [(hp _ hxr.1 hxr.2).2]
        refine M.bind_congr' fun l y hy => ?_
        have hsuf' := ((Look_good p _).ok hy).suffix
        refine ih _ _ ⟨hsuf'.valid hxr.1, Nat.le_trans hsuf'.len_le hxr.2⟩ fun hyv hyn => ?_
        obtain ⟨yv, yr⟩ := y
        cases yv with
        | none => cases hyv
        | some yv => exact .of_look hxr.1 hy (by have := hsuf'.len_le; have := hxr.2; simp only at *; omega)
end

theorem semJoin_doesAs {p : Parser α} {s : Span} (h : DoesAs C rec s p) (k : Nat) :
    (semJoin C rec k p).parse s = (semJoin C (den C) k p).parse s ∧
      (semJoin C rec k p).look s = (semJoin C (den C) k p).look s := by
  have hg : (joinGeneric C (rec p)).parse s = (joinGeneric C (den C p)).parse s ∧
      (joinGeneric C (rec p)).look s = (joinGeneric C (den C p)).look s := by
    refine ⟨?_, h.2⟩
    simp only [joinGeneric, parseJoin, M.bind_eq]
    rw [h.1]; rfl
  unfold semJoin
  split <;> first | exact hg | (split <;> first | exact ⟨rfl, rfl⟩ | exact hg)

theorem step_doesAs {q : Parser α} {s : Span} (hs : s.Valid C.mem) (hn : s.len = n)
    (part : ∀ r, r ∈ q.parts → (∀ k, Reaches C r k → Reaches C q k) →
      ∀ s : Span, s.Valid C.mem → s.len ≤ n → DoesAs C rec s r)
    (short : ∀ r, r ∈ q.parts → ∀ s : Span, s.Valid C.mem → s.len < n → DoesAs C rec s r)
    (hk : ∀ k, q = .custom k → DoesAs C rec s (C.custom k).body) (k : Nat) :
    (step C rec k q).parse s = (step C (den C) k q).parse s ∧
      (step C rec k q).look s = (step C (den C) k q).look s := by
  have one : ∀ r, q.parts = [r] → ∀ s : Span, s.Valid C.mem → s.len ≤ n → DoesAs C rec s r := fun r hr =>
    part r (by rw [hr]; simp) fun k h => .within hr h
  have hu : UpTo C n s := ⟨hs, by omega⟩
  have hle : s.len ≤ n := by omega
  cases q with
  | anyOf a => exact ⟨rfl, rfl⟩
  | noneOf a => exact ⟨rfl, rfl⟩
  | allOf a => exact ⟨rfl, rfl⟩
  | anything => exact ⟨rfl, rfl⟩
  | epsilon => exact ⟨rfl, rfl⟩
  | choice ps =>
    have h : ∀ r ∈ ps, ∀ s : Span, s.Valid C.mem → s.len ≤ n → DoesAs C rec s r := fun r hr =>
      part r hr fun k => .choice hr
    simp only [step, parseChoice, lookChoice, M.bind_eq]
    refine ⟨M.bind_congr fun v => ?_, ?_⟩
    · rw [foldOr_same C _ _ _ (mkElems_doesAs h _) (fun _ _ _ => rfl) _ hu]
    · rw [foldOr_same C _ _ _ (mkLookElems_doesAs h) (fun _ _ _ => rfl) _ hu]
  | sequence ps =>
    have heq : ∀ qs q rs, ps = qs ++ q :: rs → (∀ x ∈ qs, Nullable C x) →
        ∀ s : Span, s.Valid C.mem → s.len = n → DoesAs C rec s q := by
      intro qs r rs hps hqs s hs hn
      subst hps
      exact part r (by simp [Parser.parts]) (fun k => .sequence hqs) s hs (by omega)
    simp only [step, parseSequence, lookSequence, M.bind_eq]
    refine ⟨M.bind_congr fun v => ?_, ?_⟩
    · rw [foldAnd_doesAs (runsAs_mkElems ps _) _ _ _ _ hs hle short fun _ => heq]
    · rw [foldAnd_doesAs (runsAs_mkLookElems ps) _ _ _ _ hs hle short fun _ => heq]
  | maybe r =>
    have h := one r rfl s hs hle
    simp only [step, parseMaybe, lookMaybe, M.bind_eq]
    rw [h.1, h.2]; exact ⟨rfl, rfl⟩
  | exactly r m =>
    have h := one r rfl
    simp only [step, parseExactly, lookExactly, M.bind_eq]
    exact ⟨M.bind_congr fun v => exactlyLoop_same (agreeP h) _ _ _ _ _ hu, lookExactlyLoop_same (agreeL h) _ _ _ hu⟩
  | oneOrMore r =>
    have h := one r rfl
    simp only [step, parseOneOrMore, lookOneOrMore, M.bind_eq]
    refine ⟨M.bind_congr fun v => ?_, ?_⟩
    · rw [oneOrMoreLoop_same (agreeP h) _ _ _ _ hu]
    · rw [lookOneOrMoreLoop_same (agreeL h) _ _ _ hu]
  | zeroOrMore r =>
    have h := one r rfl
    simp only [step, parseZeroOrMore, lookZeroOrMore, M.bind_eq]
    refine ⟨M.bind_congr fun v => ?_, ?_⟩
    · rw [zeroOrMoreLoop_same (agreeP h) _ _ _ hu]
    · rw [lookZeroOrMoreLoop_same (agreeL h) _ _ hu]
  | delimit r d =>
    have hr := part r (by simp [Parser.parts]) (fun k => .element)
    have hlt := short d (by simp [Parser.parts])
    have heq : Nullable C r → ∀ s : Span, s.Valid C.mem → s.len = n → DoesAs C rec s d := fun hnull s hs hn =>
      part d (by simp [Parser.parts]) (fun k => .delimiter hnull) s hs (by omega)
    simp only [step, parseDelimit, lookDelimit, M.bind_eq]
    refine ⟨M.bind_congr fun v => ?_, ?_⟩
    · rw [(hr s hs hle).1]
      refine M.bind_congr' fun l x hx => ?_
      split
      · rfl
      · have hsuf := ((Parse_good r _).ok hx).suffix
        rw [delimitLoop_doesAs hr hlt heq _ _ _ _ _ _ _ ⟨hsuf.valid hs, Nat.le_trans hsuf.len_le hle⟩ fun hv hxn => ?_]
        obtain ⟨xv, xr⟩ := x
        cases xv with
        | none => cases hv
        | some xv => exact .of_parse hs hx (by simp only at *; omega)
    · rw [(hr s hs hle).2]
      refine M.bind_congr' fun l x hx => ?_
      split
      · rfl
      · have hsuf := ((Look_good r _).ok hx).suffix
        rw [lookDelimitLoop_doesAs hr hlt heq _ _ _ ⟨hsuf.valid hs, Nat.le_trans hsuf.len_le hle⟩ fun hv hxn => ?_]
        obtain ⟨xv, xr⟩ := x
        cases xv with
        | none => cases hv
        | some xv => exact .of_look hs hx (by simp only at *; omega)
  | ignore r =>
    have h := one r rfl s hs hle
    exact ⟨h.2, h.2⟩
  | complete r =>
    have h := one r rfl s hs hle
    simp only [step, parseComplete, lookComplete, M.bind_eq]
    rw [h.1, h.2]; exact ⟨rfl, rfl⟩
  | join r => exact semJoin_doesAs (one r rfl s hs hle) k
  | map r f =>
    have h := one r rfl s hs hle
    simp only [step, parseMap, M.bind_eq]
    rw [h.1]; exact ⟨rfl, h.2⟩
  | filter r f =>
    have h := one r rfl s hs hle
    simp only [step, parseFilter, M.bind_eq]
    rw [h.1]; exact ⟨rfl, h.2⟩
  | named r m => exact one r rfl s hs hle
  | custom j =>
    have h := hk j rfl
    simp only [step, parseCustom, M.bind_eq]
    rw [h.1]; exact ⟨rfl, h.2⟩

/-! ### Recursive grammars -/

theorem Uses.height_le {rank : Nat → Nat} {R h : Nat} {p : Parser α} (hr : Ranked C rank R h p) {q : Parser α}
    (hq : Uses C p q) : q.height ≤ h := by
  suffices H : ∀ x, Uses C p x → x.height ≤ h → ∀ {q}, Uses C x q → q.height ≤ h from H p .self hr.height hq
  intro x hx hxh q hq
  induction hq with
  | self => exact hxh
  | part hm _ ih => exact ih (hx.child hm) (Nat.le_trans (Nat.le_of_lt (height_part hm)) hxh)
  | custom _ ih => exact ih (hx.trans (.custom .self)) (hr.bodies _ hx)

theorem ranked_doesAs {rank : Nat → Nat} {R h : Nat} {p : Parser α} (hr : Ranked C rank R h p) (o : Sub) (d : Nat)
    (q : Parser α) (hq : Uses C p q) (s : Span) (hs : s.Valid C.mem) (ρ : Nat) (hρ : ρ ≤ R)
    (hre : ∀ k, Reaches C q k → rank k < ρ)
    (hd : s.len * ((R + 1) * (h + 1)) + ρ * (h + 1) + q.height ≤ d) : DoesAs C (budget C o d) s q := by
  induction d generalizing q s ρ with
  | zero => have := height_pos q; omega
  | succ d ih =>
    have short : ∀ r, Uses C p r → ∀ s' : Span, s'.Valid C.mem → s'.len < s.len → DoesAs C (budget C o d) s' r := by
      intro r hrp s' hs' hlt
      refine ih r hrp s' hs' R (Nat.le_refl _) (fun k hk => hr.below k (hrp.trans hk.uses)) ?_
      have h1 := hrp.height_le hr
      have h2 : (s'.len + 1) * ((R + 1) * (h + 1)) ≤ s.len * ((R + 1) * (h + 1)) := Nat.mul_le_mul_right _ hlt
      have h3 : (s'.len + 1) * ((R + 1) * (h + 1)) = s'.len * ((R + 1) * (h + 1)) + (R * (h + 1) + (h + 1)) := by
        rw [Nat.add_mul, Nat.one_mul, Nat.add_mul R 1, Nat.one_mul]
      have h4 := height_pos q
      omega
    have key := step_doesAs (rec := budget C o d) (n := s.len) hs rfl
      (fun r hm hre' s' hs' hle => by
        rcases Nat.lt_or_ge s'.len s.len with hlt | hge
        · exact short r (hq.child hm) s' hs' hlt
        · have e : s'.len = s.len := by omega
          refine ih r (hq.child hm) s' hs' ρ hρ (fun k hk => hre k (hre' k hk)) ?_
          have := height_part hm
          rw [e]; omega)
      (fun r hm => short r (hq.child hm))
      (fun k hk => by
        subst hk
        have hlow := hre k .custom
        refine ih _ (hq.trans (.custom .self)) s hs (rank k) (by omega) (fun j hj => hr.lower k j hq hj) ?_
        have h1 := hr.bodies k hq
        have h2 : (rank k + 1) * (h + 1) ≤ ρ * (h + 1) := Nat.mul_le_mul_right _ hlow
        have h3 : (rank k + 1) * (h + 1) = rank k * (h + 1) + (h + 1) := by rw [Nat.add_mul, Nat.one_mul]
        simp only [Parser.height] at hd
        omega)
    constructor
    · rw [Parse_eq]
      simp only [budget]
      congr 1
      funext k
      exact (key k).1
    · rw [Look_eq]
      simp only [budget]
      congr 1
      funext k
      exact (key k).2

theorem ranked_nests {rank : Nat → Nat} {R h : Nat} {p : Parser α} (hr : Ranked C rank R h p) (s : Span)
    (hs : s.Valid C.mem) : NestsAtMost C ((s.len + 1) * ((R + 1) * (h + 1))) p s := by
  intro d hd o
  refine ranked_doesAs hr o d p .self s hs R (Nat.le_refl _) (fun k hk => hr.below k hk.uses) ?_
  have h1 := hr.height
  have h2 : (s.len + 1) * ((R + 1) * (h + 1)) = s.len * ((R + 1) * (h + 1)) + (R * (h + 1) + (h + 1)) := by
        rw [Nat.add_mul, Nat.one_mul, Nat.add_mul R 1, Nat.one_mul]
  omega

end Tok3n
