import Verif.Spec.Gives
import Verif.Props.Compile
import Verif.Props.Exact
import Verif.Proof.Peg
import Verif.Proof.Terminate
import Verif.Props.Peg
/-
`parse` and the rules of `Spec/Gives.lean` agree.
-/

namespace Tok3n

variable {α β : Type} {C : Ctx α β}

/-- the result of a parse of `s` that ends this way -/
def Ending.out (s : Span) : Ending Val → Res R
  | .ok v s' => .ok ⟨some v, s'⟩
  | .no => .ok ⟨none, s⟩
  | .throws e => .err (.exn e)

/-- the same for a list of parts -/
def Ending.list {A : Type} : Ending A → Res (Option (A × Span))
  | .ok a s' => .ok (some (a, s'))
  | .no => .ok none
  | .throws e => .err (.exn e)

/-- the same for a repetition, which does not fail -/
def Ending.loop {A : Type} : Ending A → Res (A × Span)
  | .ok a s' => .ok (a, s')
  | .no => .err .ill
  | .throws e => .err (.exn e)

/-- what a function object does -/
def called : Except Nat Val → Res Val
  | .ok v => .ok v
  | .error e => .err (.exn e)

/-! ### Function objects -/

theorem Invokes.run {f : Fn} {args : List Val} {log : List Call} {r : Except Nat Val} (h : Invokes C f args log r) :
    invoke C f args = .done log (called r) := by
  induction h with
  | @user k args =>
    simp only [invoke, M.bind_eq, M.log, M.ok_bind, liftCall]
    cases C.fnCall k args <;> simp [M.pure, M.fail, called]
  | apply hv _ ih => simp only [invoke, componentsOf_iff.2 hv]; exact ih
  | const => simp [invoke, M.log, M.pure, called]
  | @construct t args =>
    simp only [invoke, M.bind_eq, M.log, M.ok_bind, liftCall]
    cases C.ctor t args <;> simp [M.pure, M.fail, called]
  | deflt hd => simp [invoke, M.log, M.ofOption, (isDefault_iff C _ _).1 hd, M.pure, called]

theorem invokes_of {f : Fn} {args : List Val} {log : List Call} {r : Res Val} (h : invoke C f args = .done log r)
    (hr : ∀ e, r = .err e → ∃ x, e = .exn x) : ∃ o, Invokes C f args log o := by
  induction f generalizing args with
  | user k =>
    refine ⟨C.fnCall k args, ?_⟩
    have h' := (Invokes.user (C := C) (k := k) (args := args)).run
    rw [h] at h'; cases h'; exact .user
  | apply f ih =>
    simp only [invoke] at h
    split at h
    · split at h
      · rename_i hv
        obtain ⟨o, ho⟩ := ih h
        exact ⟨o, .apply (componentsOf_iff.1 hv) ho⟩
      · cases h; obtain ⟨x, hx⟩ := hr _ rfl; cases hx
    · cases h; obtain ⟨x, hx⟩ := hr _ rfl; cases hx
  | const k =>
    have h' := (Invokes.const (C := C) (k := k) (args := args)).run
    rw [h] at h'; cases h'; exact ⟨_, .const⟩
  | construct t =>
    have h' := (Invokes.construct (C := C) (t := t) (args := args)).run
    rw [h] at h'; cases h'; exact ⟨_, .construct⟩
  | deflt t =>
    cases hd : defaultVal C t with
    | none =>
      simp only [invoke, hd, M.ofOption, M.bind_eq, M.log, M.ok_bind, M.fail, M.after_done] at h
      cases h; obtain ⟨x, hx⟩ := hr _ rfl; cases hx
    | some d =>
      have h' := (Invokes.deflt (C := C) (args := args) ((isDefault_iff C _ _).2 hd)).run
      rw [h] at h'; cases h'; exact ⟨_, .deflt ((isDefault_iff C _ _).2 hd)⟩

/-! ### The parts of a sequence -/

/-- the parts of a sequence one after the other, collecting the values of those that have one -/
def runParts (C : Ctx α β) (part : Parser α → Span → Run R) : List (Parser α) → Span → Run (Option (List Val × Span))
  | [], s => M.pure (some ([], s))
  | p :: ps, s => M.bind (part p s) fun r => match r.val with
    | none => M.pure none
    | some v => M.bind (runParts C part ps r.rem) fun x =>
      M.pure (x.map fun y => (if resultFor C p = .void then y.1 else v :: y.1, y.2))

theorem runParts_eq (part : Parser α → Span → Run R) (ps : List (Parser α)) (s : Span) :
    runParts C part ps s = M.bind (inOrder (ps.map part) s) fun x =>
      M.pure (x.map fun y => (withValue (resultsFor C ps) y.1, y.2)) := by
  induction ps generalizing s with
  | nil => simp [runParts, inOrder, resultsFor, withValue]
  | cons p ps ih =>
    rw [runParts, List.map_cons, inOrder, M.bind_assoc]
    refine M.bind_congr fun r => ?_
    obtain ⟨rv, rr⟩ := r
    cases rv with
    | none => simp
    | some v =>
      simp only [ih, M.bind_assoc]
      refine M.bind_congr fun x => ?_
      cases x with
      | none => simp
      | some x => by_cases hv : resultFor C p = .void <;> simp [withValue, resultsFor, hv]

theorem allOrNothing_parts (part : Parser α → Span → Run R) (ps : List (Parser α)) (s s0 : Span) :
    allOrNothing s0 (fun vs => sequenceValue (withValue (resultsFor C ps) vs)) (inOrder (ps.map part) s) =
      allOrNothing s0 sequenceValue (runParts C part ps s) := by
  rw [runParts_eq, allOrNothing, allOrNothing, M.bind_assoc]
  refine M.bind_congr fun x => ?_
  cases x <;> simp

/-! ### From the rules to the runs -/

theorem valid_rest {p : Parser α} {s : Span} {l v s'} (hs : s.Valid C.mem) (h : Parse C p s = .done l (.ok ⟨v, s'⟩)) :
    s'.Valid C.mem := (Parse_suffix h).valid hs

theorem allOrNothing_out {s : Span} {log : List Call} {o : Ending (List Val)} {m} (f : List Val → Val)
    (h : m = .done log o.list) : allOrNothing s f m = .done log ((o.map f).out s) := by
  subst h
  cases o <;> simp [allOrNothing, Ending.list, Ending.map, Ending.out, M.pure]

/-- what `lookahead` does, by the rules -/
theorem look_some {p : Parser α} {s s' : Span} {k : Nat} (hs : s.Valid C.mem)
    (h : PegC C p (s.elems C.mem) (some k)) (ha : s.Advanced k s') : Look C p s = .done [] (.ok ⟨some .unit, s'⟩) := by
  rw [h.look s hs rfl, ha.eq_drop]; rfl

theorem look_none {p : Parser α} {s : Span} (hs : s.Valid C.mem)
    (h : PegC C p (s.elems C.mem) none) : Look C p s = .done [] (.ok ⟨none, s⟩) := by
  rw [h.look s hs rfl]; rfl

section
variable [LinearOrder α]

/-- compiles, and nothing that is joined invents spans -/
structure Fit (C : Ctx α β) (p : Parser α) : Prop where
  compiles : Compiles C p
  safe : JoinSafe C p

theorem Fit.child {p q : Parser α} (h : Fit C p) (hq : Compiles C q) (hc : ParseChild C p q) : Fit C q :=
  ⟨hq, h.safe.child hc⟩

theorem Fit.maybe {p : Parser α} (h : Fit C (.maybe p)) : Fit C p :=
  h.child ((C57_others C h.compiles.ctx p p 0 (.user 0) ⟨0, []⟩).1.1 h.compiles) .maybe
theorem Fit.oneOrMore {p : Parser α} (h : Fit C (.oneOrMore p)) : Fit C p :=
  h.child ((C57_others C h.compiles.ctx p p 0 (.user 0) ⟨0, []⟩).2.1.1 h.compiles) .oneOrMore
theorem Fit.zeroOrMore {p : Parser α} (h : Fit C (.zeroOrMore p)) : Fit C p :=
  h.child ((C57_others C h.compiles.ctx p p 0 (.user 0) ⟨0, []⟩).2.2.1.1 h.compiles) .zeroOrMore
theorem Fit.complete {p : Parser α} (h : Fit C (.complete p)) : Fit C p :=
  h.child ((C57_others C h.compiles.ctx p p 0 (.user 0) ⟨0, []⟩).2.2.2.1.1 h.compiles) .complete
theorem Fit.named {p : Parser α} {n : Name} (h : Fit C (.named p n)) : Fit C p :=
  h.child ((C57_others C h.compiles.ctx p p 0 (.user 0) n).2.2.2.2.1.1 h.compiles) .named
theorem Fit.element {p d : Parser α} (h : Fit C (.delimit p d)) : Fit C p :=
  h.child ((C57_others C h.compiles.ctx p d 0 (.user 0) ⟨0, []⟩).2.2.2.2.2.2.1.1 h.compiles).1 .delimit
theorem Fit.delimiter {p d : Parser α} (h : Fit C (.delimit p d)) : Fit C d :=
  h.child ((C57_others C h.compiles.ctx p d 0 (.user 0) ⟨0, []⟩).2.2.2.2.2.2.1.1 h.compiles).2 .delimiter
theorem Fit.exactly {p : Parser α} {n : Nat} (h : Fit C (.exactly p n)) : Fit C p :=
  h.child ((C57_others C h.compiles.ctx p p n (.user 0) ⟨0, []⟩).2.2.2.2.2.2.2.1.1 h.compiles).2.1 .exactly
theorem Fit.join {p : Parser α} (h : Fit C (.join p)) : Fit C p :=
  h.child ((C57_others C h.compiles.ctx p p 0 (.user 0) ⟨0, []⟩).2.2.2.2.2.2.2.2.1.1 h.compiles).1 .join
theorem Fit.map {p : Parser α} {f : Fn} (h : Fit C (.map p f)) : Fit C p :=
  h.child ((C57_others C h.compiles.ctx p p 0 f ⟨0, []⟩).2.2.2.2.2.2.2.2.2.1.1 h.compiles).1 .map
theorem Fit.filter {p : Parser α} {f : Fn} (h : Fit C (.filter p f)) : Fit C p :=
  h.child ((C57_others C h.compiles.ctx p p 0 f ⟨0, []⟩).2.2.2.2.2.2.2.2.2.2.1.1 h.compiles).1 .filter
theorem Fit.custom {k : Nat} (h : Fit C (.custom k)) : Fit C (C.custom k).body :=
  h.child ⟨h.compiles.ctx, h.compiles.ctx.wf k, h.compiles.ctx.ty k, h.compiles.ctx.parse k⟩ .custom

/-- the parts of a sequence that are parsed fit -/
def FitParts (C : Ctx α β) (ps : List (Parser α)) : Prop := ∀ p ∈ ps, resultFor C p ≠ .void → Fit C p

theorem Fit.sequence {ps : List (Parser α)} (h : Fit C (.sequence ps)) : FitParts C ps := fun p hp hv => by
  obtain ⟨h1, h2, h3, -⟩ := ((C57_sequence C h.compiles.ctx ps).1 h.compiles).2 p hp
  exact h.child ⟨h.compiles.ctx, h1, h2, h3 hv⟩ (.sequence hp)

/-- the alternatives of a choice that are parsed fit -/
def FitFirst (C : Ctx α β) (ps : List (Parser α)) (is : List (Option Nat)) : Prop :=
  is.length = ps.length ∧ ∀ p i, (p, some i) ∈ ps.zip is → Fit C p

theorem Fit.choice {ps : List (Parser α)} {is : List (Option Nat)} (h : Fit C (.choice ps))
    (hr : Recorded (ps.map (resultFor C)) is) : FitFirst C ps is := by
  have hl : is.length = ps.length := by simpa using hr.length
  have hp := h.compiles.parse
  have hw := h.compiles.wf
  rw [(C60_recorded _ _).1 hr, ← resultsFor_eq] at *
  simp only [parseOK, Bool.and_eq_true] at hp
  simp only [Parser.wf, Bool.and_eq_true] at hw
  refine ⟨hl, fun p i hpi => ?_⟩
  have hm := (List.of_mem_zip hpi).1
  refine h.child ⟨h.compiles.ctx, wfs_iff.1 hw.2 p hm, tysOK_iff.1 hp.1.1.1 p hm, ?_⟩ (.choice hm)
  have hpa := hp.2
  revert hpa hpi
  generalize (choiceTrait (resultsFor C ps)).seq = js
  clear * -
  intro hpi hpa
  induction ps generalizing js with
  | nil => simp at hpi
  | cons q ps ih =>
    cases js with
    | nil => simp at hpi
    | cons j js =>
      simp only [List.zip_cons_cons, List.mem_cons, Prod.mk.injEq] at hpi
      cases j with
      | none =>
        rcases hpi with ⟨-, h⟩ | hpi
        · cases h
        · exact ih js hpi (by simpa [parsesOK] using hpa)
      | some j =>
        simp only [parsesOK, Bool.and_eq_true] at hpa
        rcases hpi with ⟨rfl, -⟩ | hpi
        · exact hpa.1
        · exact ih js hpi hpa.2

/-- `join` in terms of the parser in it -/
theorem Parse_join_key (ht : C.Typed) {p : Parser α} (h : Fit C (.join p)) {s : Span} (hs : s.Valid C.mem)
    {l v s'} (hp : Parse C p s = .done l (.ok ⟨some v, s'⟩)) :
    (Contiguous (nonEmpty (joinLeaves C v)) →
      Parse C (.join p) s = .done l (.ok ⟨some (.span (cover s' (nonEmpty (joinLeaves C v)))), s'⟩)) ∧
    (¬ Contiguous (nonEmpty (joinLeaves C v)) → Parse C (.join p) s = .done l (.ok ⟨none, s⟩)) := by
  have hl : SpanLocal C p := h.safe p .refl
  have hg := (Parse_typed h.join.compiles ht s).ok hp
  have hv := hg.val v rfl
  have hok := h.compiles.parse
  simp only [parseOK, Bool.and_eq_true] at hok
  obtain ⟨h1, h2⟩ := joinExecutor_spec hok.2 hv.ty hs hg.suffix hl.ctx fun x hx => hv.spans x hx hl
  rw [Parse_join_eq, parseJoin]
  simp only [den, M.bind_eq, hp, M.ok_bind, R.hasValue, Option.isSome_some, if_true]
  constructor
  · intro hc; rw [h1 hc]; simp [M.pure, R.success]
  · intro hc; rw [h2 hc]; simp [M.pure, R.failure]

theorem FitParts.tail {p : Parser α} {ps : List (Parser α)} (h : FitParts C (p :: ps)) : FitParts C ps :=
  fun q hq => h q (List.mem_cons_of_mem _ hq)

theorem FitFirst.tail {p : Parser α} {ps : List (Parser α)} {i is} (h : FitFirst C (p :: ps) (i :: is)) :
    FitFirst C ps is :=
  ⟨by simpa using h.1, fun q j hq => h.2 q j (by simp [hq])⟩

theorem FitFirst.head {p : Parser α} {ps : List (Parser α)} {i is} (h : FitFirst C (p :: ps) (some i :: is)) :
    Fit C p := h.2 p i (by simp)

omit [LinearOrder α] in
theorem converted_self (t : Ty) (v : Val) : converted C t t v = v := by rw [converted, if_pos rfl]

omit [LinearOrder α] in
theorem recordedRun_some {us : List Ty} {d : Val} {s : Span} {p : Parser α} {i : Nat} :
    recordedRun C us d s p (some i) = mapVal (alternativeValue C us i (resultFor C p)) (Parse C p s) := by
  rw [recordedRun]; rfl

theorem out_map {s : Span} {log : List Call} {o : Ending Val} (f : Val → Val) :
    mapVal f (.done log (o.out s)) = .done log ((o.map f).out s) := by
  cases o <;> simp [mapVal, Ending.out, Ending.map, M.pure]

mutual
theorem Gives.run (ht : C.Typed) : ∀ {p : Parser α} {s log o}, Gives C p s log o → Fit C p → s.Valid C.mem →
    Parse C p s = .done log (o.out s)
  | _, s, _, _, .hit (s' := s') hp hm ha, _, hs =>
    ((C07_basic_parse C _ hp s hs [] _ s').1).2 ⟨rfl, _, hm, rfl, ha⟩
  | _, s, _, _, .miss hp hm, _, hs => ((C07_basic_parse C _ hp s hs [] .unit s).2).2 ⟨rfl, rfl, hm⟩
  | _, s, _, _, .epsilon, _, _ => by rw [Parse_epsilon]; rfl
  | _, s, _, _, .choice (ps := ps) hr hd h, hf, hs => by
    rw [C60_every_choice C ps hf.compiles _ hr _ hd s]
    exact h.run ht (hf.choice hr) hs
  | _, s, _, _, .sequence (ps := ps) h, hf, hs => by
    have hp := hf.compiles.parse
    simp only [parseOK, Bool.and_eq_true, sequenceTrait_ty] at hp
    obtain ⟨d, hd⟩ := Option.isSome_iff_exists.1 hp.1.1.2
    rw [Parse_sequence_eq hd, allOrNothing_parts]
    exact allOrNothing_out _ (h.run ht hf.sequence hs)
  | _, s, _, _, .maybe h, hf, hs => by
    rw [Parse_maybe_eq, h.run ht hf.maybe hs]; simp [Ending.out, M.pure]
  | _, s, _, _, .maybeNot h, hf, hs => by
    rw [Parse_maybe_eq, h.run ht hf.maybe hs]; simp [Ending.out, M.pure]
  | _, s, _, _, .maybeThrows h, hf, hs => by
    rw [Parse_maybe_eq, h.run ht hf.maybe hs]; simp [Ending.out]
  | _, s, _, _, .exactly h, hf, hs => by
    rw [Parse_exactly_eq hf.compiles.parse]
    exact allOrNothing_out _ (h.run ht hf.exactly hs)
  | _, s, _, _, .zeroOrMore (o := o) h, hf, hs => by
    obtain ⟨h1, h2⟩ := h.run ht hf.zeroOrMore hs
    rw [Parse_zeroOrMore_eq, h1]
    cases o with
    | no => exact absurd rfl h2
    | ok vs s' => simp [Ending.loop, Ending.map, Ending.out, M.pure]
    | throws e => simp [Ending.loop, Ending.map, Ending.out]
  | _, s, _, _, .oneOrMore (o := o) h h', hf, hs => by
    have h0 := h.run ht hf.oneOrMore hs
    obtain ⟨h1, h2⟩ := h'.run ht hf.oneOrMore (valid_rest hs h0)
    rw [Parse_oneOrMore_eq, repeatAll_eq, stepOf_some.2 h0]
    simp only [M.ok_bind, h1]
    cases o with
    | no => exact absurd rfl h2
    | ok vs s' => simp [Ending.loop, Ending.map, Ending.out, M.pure]
    | throws e => simp [Ending.loop, Ending.map, Ending.out]
  | _, s, _, _, .oneStops h hst, hf, hs => by
    have h0 := h.run ht hf.oneOrMore hs
    rw [Parse_oneOrMore_eq, repeatAll_eq]
    cases hst with
    | no => rw [stepOf_none.2 ⟨_, h0⟩]; simp [Ending.out, M.pure]
    | throws => rw [stepOf_err.2 h0]; simp [Ending.out]
  | _, s, _, _, .delimit (o := o) h h', hf, hs => by
    have h0 := h.run ht hf.element hs
    obtain ⟨h1, h2⟩ := h'.run ht hf.delimiter hf.element (valid_rest hs h0)
    rw [Parse_delimit_eq, h0]
    simp only [Ending.out, M.ok_bind, h1]
    cases o with
    | no => exact absurd rfl h2
    | ok vs s' => simp [Ending.loop, Ending.map, M.pure]
    | throws e => simp [Ending.loop, Ending.map]
  | _, s, _, _, .delimitStops h hst, hf, hs => by
    have h0 := h.run ht hf.element hs
    rw [Parse_delimit_eq, h0]
    cases hst <;> simp [Ending.out, M.pure]
  | _, s, _, _, .ignore h ha, _, hs => by rw [Parse_ignore, look_some hs h ha]; rfl
  | _, s, _, _, .ignoreNot h, _, hs => by rw [Parse_ignore, look_none hs h]; rfl
  | _, s, _, _, .complete (s' := s') h h0, hf, hs =>
    ((C27_complete C _ s s' _).1 _).2 ⟨h.run ht hf.complete hs, h0⟩
  | _, s, _, _, .completeShort h h0, hf, hs =>
    ((C27_complete C _ s s _).2.1).2 ⟨rfl, .inr ⟨_, _, h.run ht hf.complete hs, h0⟩⟩
  | _, s, _, _, .completeStops h hst, hf, hs => by
    have h0 := h.run ht hf.complete hs
    cases hst with
    | no => exact ((C27_complete C _ s s _).2.1).2 ⟨rfl, .inl h0⟩
    | throws => exact ((C27_complete C _ s s _).2.2.1 _).2 h0
  | _, s, _, _, .join h hc, hf, hs => (Parse_join_key ht hf hs (h.run ht hf.join hs)).1 hc
  | _, s, _, _, .joinGap h hc, hf, hs => (Parse_join_key ht hf hs (h.run ht hf.join hs)).2 hc
  | _, s, _, _, .joinStops h hst, hf, hs => by
    have h0 := h.run ht hf.join hs
    rw [Parse_join_eq, parseJoin]
    simp only [den, M.bind_eq, h0]
    cases hst <;> simp [Ending.out, M.pure, R.hasValue, R.failure]
  | _, s, _, _, .map (v := v) h hi, hf, hs => by
    have h0 := h.run ht hf.map hs
    rw [Parse_map_eq, h0]
    simp [Ending.out, M.pure, hi.run, called]
  | _, s, _, _, .mapThrows h hi, hf, hs => by
    have h0 := h.run ht hf.map hs
    rw [Parse_map_eq, h0]
    simp [Ending.out, hi.run, called]
  | _, s, _, _, .mapStops h hst, hf, hs => by
    have h0 := h.run ht hf.map hs
    rw [Parse_map_eq, h0]
    cases hst <;> simp [Ending.out, M.pure]
  | _, s, _, _, .filter h hi hx, hf, hs => by
    have h0 := h.run ht hf.filter hs
    rw [Parse_filter_eq, h0]
    simp [Ending.out, M.pure, hi.run, called, hx]
  | _, s, _, _, .filterOut h hi hx, hf, hs => by
    have h0 := h.run ht hf.filter hs
    rw [Parse_filter_eq, h0]
    simp [Ending.out, M.pure, hi.run, called, hx]
  | _, s, _, _, .filterThrows h hi, hf, hs => by
    have h0 := h.run ht hf.filter hs
    rw [Parse_filter_eq, h0]
    simp [Ending.out, hi.run, called]
  | _, s, _, _, .filterStops h hst, hf, hs => by
    have h0 := h.run ht hf.filter hs
    rw [Parse_filter_eq, h0]
    cases hst <;> simp [Ending.out, M.pure]
  | _, s, _, _, .named h, hf, hs => by rw [Parse_named]; exact h.run ht hf.named hs
  | _, s, _, _, .custom (k := k) hn h, hf, hs => by
    have h0 := h.run ht hf.custom hs
    obtain ⟨-, -, -, h1, h2, -⟩ := C41_custom C k hf.compiles s
    by_cases he : (C.custom k).ty = resultFor C (C.custom k).body
    · rw [h1 he, h0, ← out_map, he, show converted C (resultFor C (C.custom k).body) (resultFor C (C.custom k).body) =
        id from funext (converted_self _), ← h0, mapVal]
      simp only [Option.map_id, id]
      exact (M.bind_pure _).symm
    · obtain ⟨g, hg, h3⟩ := h2 he hn
      rw [h3, h0, out_map, show converted C (resultFor C (C.custom k).body) (C.custom k).ty = g from funext fun v => by
        rw [converted, if_neg fun h => he h.symm, hg]]
  | _, s, _, _, .pretended (k := k) hp hg h, hf, hs => by
    obtain ⟨-, -, -, -, -, h1⟩ := C41_custom C k hf.compiles s
    obtain ⟨g, hg', h2⟩ := h1 hp
    rw [hg] at hg'; cases hg'
    rw [h2, h.run ht hf.custom hs]; simp [Ending.out, M.pure]
  | _, s, _, _, .pretendedNot (k := k) hp hg h, hf, hs => by
    obtain ⟨-, -, -, -, -, h1⟩ := C41_custom C k hf.compiles s
    obtain ⟨g, hg', h2⟩ := h1 hp
    rw [hg] at hg'; cases hg'
    rw [h2, h.run ht hf.custom hs]; simp [Ending.out, M.pure]
  | _, s, _, _, .pretendedThrows (k := k) hp h, hf, hs => by
    obtain ⟨-, -, -, -, -, h1⟩ := C41_custom C k hf.compiles s
    obtain ⟨g, hg', h2⟩ := h1 hp
    rw [h2, h.run ht hf.custom hs]; simp [Ending.out]

theorem GivesFirst.run (ht : C.Typed) : ∀ {us d} {ps : List (Parser α)} {is s log o}, GivesFirst C us d ps is s log o →
    FitFirst C ps is → s.Valid C.mem →
    firstOf s (List.zipWith (recordedRun C us d s) ps is) = .done log (o.out s)
  | _, _, _, _, s, _, _, .nil, _, _ => rfl
  | _, _, _, _, s, _, _, .looked h ha, _, hs => by
    simp [List.zipWith_cons_cons, firstOf, recordedRun, mapVal, look_some hs h ha, M.pure, Ending.out]
  | _, _, _, _, s, _, _, .lookedNot h h', hf, hs => by
    have := h'.run ht hf.tail hs
    simp [List.zipWith_cons_cons, firstOf, recordedRun, mapVal, look_none hs h, M.pure, this]
  | _, _, _, _, s, _, _, .parsed h, hf, hs => by
    rw [List.zipWith_cons_cons, firstOf, recordedRun_some, h.run ht hf.head hs, out_map]
    simp [Ending.out, Ending.map, M.pure]
  | _, _, _, _, s, _, _, .parsedNot h h', hf, hs => by
    have := h'.run ht hf.tail hs
    rw [List.zipWith_cons_cons, firstOf, recordedRun_some, h.run ht hf.head hs, out_map]
    simp [Ending.out, Ending.map, this]
  | _, _, _, _, s, _, _, .throws h, hf, hs => by
    rw [List.zipWith_cons_cons, firstOf, recordedRun_some, h.run ht hf.head hs, out_map]
    simp [Ending.out, Ending.map]

theorem GivesParts.run (ht : C.Typed) : ∀ {ps : List (Parser α)} {s log o}, GivesParts C ps s log o →
    FitParts C ps → s.Valid C.mem → runParts C (partRun C) ps s = .done log o.list
  | _, _, _, _, .nil, _, _ => rfl
  | _, s, _, _, .value (o := o) hv h h', hf, hs => by
    have h0 := h.run ht (hf _ (by simp) hv) hs
    have h1 := h'.run ht hf.tail (valid_rest hs h0)
    rw [runParts, partRun, if_neg hv, h0]
    simp only [Ending.out, M.ok_bind, h1]
    cases o <;> simp [Ending.list, Ending.map, M.pure, hv]
  | _, s, _, _, .stops hv h hst, hf, hs => by
    have h0 := h.run ht (hf _ (by simp) hv) hs
    rw [runParts, partRun, if_neg hv, h0]
    cases hst <;> simp [Ending.out, Ending.list, M.pure]
  | _, s, _, _, .void (o := o) hv h ha h', hf, hs => by
    have h0 := look_some hs h ha
    have h1 := h'.run ht hf.tail (Span.SuffixOf.valid ⟨_, ha⟩ hs)
    rw [runParts, partRun, if_pos hv, h0]
    simp only [M.ok_bind, h1]
    cases o <;> simp [Ending.list, M.pure, hv]
  | _, s, _, _, .voidNot hv h, hf, hs => by
    rw [runParts, partRun, if_pos hv, look_none hs h]
    simp [Ending.list, M.pure]

theorem GivesTimes.run (ht : C.Typed) : ∀ {p : Parser α} {n s log o}, GivesTimes C p n s log o →
    Fit C p → s.Valid C.mem → inOrder (List.replicate n (Parse C p)) s = .done log o.list
  | _, _, _, _, _, .zero, _, _ => rfl
  | _, _, s, _, _, .more (o := o) h h', hf, hs => by
    have h0 := h.run ht hf hs
    have h1 := h'.run ht hf (valid_rest hs h0)
    rw [List.replicate_succ, inOrder, h0]
    simp only [Ending.out, M.ok_bind, h1]
    cases o <;> simp [Ending.list, Ending.map, M.pure]
  | _, _, s, _, _, .stops h hst, hf, hs => by
    rw [List.replicate_succ, inOrder, h.run ht hf hs]
    cases hst <;> simp [Ending.out, Ending.list, M.pure]

theorem GivesMany.run (ht : C.Typed) : ∀ {p : Parser α} {s log o}, GivesMany C p s log o →
    Fit C p → s.Valid C.mem → repeatAll (stepOf (Parse C p)) s = .done log o.loop ∧ o ≠ .no
  | _, s, _, _, .more (o := o) h h', hf, hs => by
    have h0 := h.run ht hf hs
    obtain ⟨h1, h2⟩ := h'.run ht hf (valid_rest hs h0)
    rw [repeatAll_eq, stepOf_some.2 h0]
    simp only [M.ok_bind, h1]
    cases o with
    | no => exact absurd rfl h2
    | ok vs s' => simp [Ending.loop, Ending.map, M.pure]
    | throws e => simp [Ending.loop, Ending.map]
  | _, s, _, _, .over h, hf, hs => by
    rw [repeatAll_eq, stepOf_none.2 ⟨_, h.run ht hf hs⟩]; simp [Ending.loop, M.pure]
  | _, s, _, _, .throws h, hf, hs => by
    rw [repeatAll_eq, stepOf_err.2 (h.run ht hf hs)]; simp [Ending.loop]

theorem GivesPairs.run (ht : C.Typed) : ∀ {d p : Parser α} {s log o}, GivesPairs C d p s log o →
    Fit C d → Fit C p → s.Valid C.mem →
    repeatAll (stepPair (Parse C d) (Parse C p)) s = .done log o.loop ∧ o ≠ .no
  | _, _, s, _, _, .more (o := o) h h' h'', hd, hf, hs => by
    have h0 := h.run ht hd hs
    have hs1 := valid_rest hs h0
    have h1 := h'.run ht hf hs1
    obtain ⟨h2, h3⟩ := h''.run ht hd hf (valid_rest hs1 h1)
    rw [repeatAll_eq, stepPair_some.2 ⟨_, _, _, h0, h1, rfl⟩]
    simp only [M.ok_bind, h2]
    cases o with
    | no => exact absurd rfl h3
    | ok vs s' => simp [Ending.loop, Ending.map, M.pure]
    | throws e => simp [Ending.loop, Ending.map]
  | _, _, s, _, _, .noDelimiter h, hd, hf, hs => by
    rw [repeatAll_eq, stepPair_none.2 (.inl ⟨_, h.run ht hd hs⟩)]; simp [Ending.loop, M.pure]
  | _, _, s, _, _, .noElement h h', hd, hf, hs => by
    have h0 := h.run ht hd hs
    have h1 := h'.run ht hf (valid_rest hs h0)
    rw [repeatAll_eq, stepPair_none.2 (.inr ⟨_, _, _, _, _, h0, h1, rfl⟩)]; simp [Ending.loop, M.pure]
  | _, _, s, _, _, .delimiterThrows h, hd, hf, hs => by
    rw [repeatAll_eq, stepPair, h.run ht hd hs]; simp [Ending.loop, Ending.out]
  | _, _, s, _, _, .elementThrows h h', hd, hf, hs => by
    have h0 := h.run ht hd hs
    have h1 := h'.run ht hf (valid_rest hs h0)
    rw [repeatAll_eq, stepPair, h0]
    simp [Ending.loop, Ending.out, h1]
end

/-! ### From the runs to the rules -/

omit [LinearOrder α] in
theorem ne_bind {A B : Type} {m : Run A} {f : A → Run B} (h : M.bind m f ≠ .diverge) : m ≠ .diverge := by
  rintro rfl; exact h rfl

omit [LinearOrder α] in
theorem ne_cont {A B : Type} {m : Run A} {f : A → Run B} {l a} (h : M.bind m f ≠ .diverge)
    (hm : m = .done l (.ok a)) : f a ≠ .diverge := by
  subst hm
  intro h'
  rw [M.ok_bind, h'] at h
  exact h rfl

/-- wherever the run ends, the rules say so -/
def Settled (C : Ctx α β) (p : Parser α) (run : Span → Run R) : Prop :=
  ∀ s, s.Valid C.mem → run s ≠ .diverge → ∃ log o, Gives C p s log o ∧ run s = .done log (o.out s) ∧
    ∀ v s', o = .ok v s' → s'.Valid C.mem

/-- the same for `lookahead` -/
def LookSettled (C : Ctx α β) (p : Parser α) (run : Span → Run R) : Prop :=
  ∀ s, s.Valid C.mem → run s ≠ .diverge →
    (∃ k s', PegC C p (s.elems C.mem) (some k) ∧ s.Advanced k s' ∧ run s = .done [] (.ok ⟨some .unit, s'⟩)) ∨
    PegC C p (s.elems C.mem) none ∧ run s = .done [] (.ok ⟨none, s⟩)

omit [LinearOrder α] in
theorem sem_lookSettled (n : Nat) (p : Parser α) : LookSettled C p (sem C n p).look := by
  intro s hs hn
  cases h : (sem C n p).look s with
  | diverge => exact absurd h hn
  | done l r =>
    have hl := Look_eq_done.2 ⟨n, h⟩
    have hd : ∃ o, PegC C p (s.elems C.mem) o := by
      by_contra hno
      have := ((C45_lookahead C p s hs).2.2.1).2 fun o ho => hno ⟨o, ho⟩
      rw [LookLoops, hl] at this; cases this
    obtain ⟨o, ho⟩ := hd
    cases o with
    | none => have h0 := look_none hs ho; rw [h0] at hl; exact .inr ⟨ho, hl.symm⟩
    | some k =>
      have hk := ho.le _ rfl
      rw [hs.elems_length] at hk
      have h0 := look_some hs ho (hs.advanced hk)
      rw [h0] at hl
      exact .inl ⟨k, _, ho, hs.advanced hk, hl.symm⟩

/-- it is enough that the rules say something -/
theorem settled_of (ht : C.Typed) {p : Parser α} (hf : Fit C p) {s : Span} (hs : s.Valid C.mem) {m : Run R}
    (hm : ∀ l r, m = .done l r → Parse C p s = .done l r) (hn : m ≠ .diverge) (h : ∃ log o, Gives C p s log o) :
    ∃ log o, Gives C p s log o ∧ m = .done log (o.out s) ∧ ∀ v s', o = .ok v s' → s'.Valid C.mem := by
  obtain ⟨log, o, ho⟩ := h
  have hr := ho.run ht hf hs
  refine ⟨log, o, ho, ?_, ?_⟩
  · cases hm' : m with
    | diverge => exact absurd hm' hn
    | done l r => rw [← hr, hm l r hm']
  · rintro v s' rfl
    exact valid_rest hs hr

section
variable {p d : Parser α} {run drun : Span → Run R}

omit [LinearOrder α] in
theorem settle_many (h : Settled C p run) (k : Nat) {s : Span} (hs : s.Valid C.mem)
    (hr : rep (stepOf run) k s ≠ .diverge) : ∃ log o, GivesMany C p s log o := by
  induction k generalizing s with
  | zero => exact absurd rfl hr
  | succ k ih =>
    rw [rep] at hr
    obtain ⟨log, o, ho, hrun, hv⟩ := h s hs fun h0 => ne_bind hr (stepOf_diverge.2 h0)
    cases o with
    | no => exact ⟨_, _, .over ho⟩
    | throws e => exact ⟨_, _, .throws ho⟩
    | ok v s' =>
      have h1 := ne_cont hr (stepOf_some.2 hrun)
      obtain ⟨log', o', h2⟩ := ih (hv _ _ rfl) (ne_bind h1)
      exact ⟨_, _, .more ho h2⟩

omit [LinearOrder α] in
theorem settle_one (h : Settled C p run) (k : Nat) {s : Span} (hs : s.Valid C.mem)
    (hr : rep (stepOf run) k s ≠ .diverge) : ∃ log o, Gives C (.oneOrMore p) s log o := by
  cases k with
  | zero => exact absurd rfl hr
  | succ k =>
    rw [rep] at hr
    obtain ⟨log, o, ho, hrun, hv⟩ := h s hs fun h0 => ne_bind hr (stepOf_diverge.2 h0)
    cases o with
    | no => exact ⟨_, _, .oneStops ho .no⟩
    | throws e => exact ⟨_, _, .oneStops ho .throws⟩
    | ok v s' =>
      have h1 := ne_cont hr (stepOf_some.2 hrun)
      obtain ⟨log', o', h2⟩ := settle_many h k (hv _ _ rfl) (ne_bind h1)
      exact ⟨_, _, .oneOrMore ho h2⟩

omit [LinearOrder α] in
theorem settle_times (h : Settled C p run) (n : Nat) {s : Span} (hs : s.Valid C.mem)
    (hr : inOrder (List.replicate n run) s ≠ .diverge) : ∃ log o, GivesTimes C p n s log o := by
  induction n generalizing s with
  | zero => exact ⟨_, _, .zero⟩
  | succ n ih =>
    rw [List.replicate_succ, inOrder] at hr
    obtain ⟨log, o, ho, hrun, hv⟩ := h s hs (ne_bind hr)
    cases o with
    | no => exact ⟨_, _, .stops ho .no⟩
    | throws e => exact ⟨_, _, .stops ho .throws⟩
    | ok v s' =>
      have h1 := ne_cont hr hrun
      obtain ⟨log', o', h2⟩ := ih (hv _ _ rfl) (ne_bind h1)
      exact ⟨_, _, .more ho h2⟩

omit [LinearOrder α] in
theorem settle_pairs (hd : Settled C d drun) (h : Settled C p run) (k : Nat) {s : Span} (hs : s.Valid C.mem)
    (hr : rep (stepPair drun run) k s ≠ .diverge) : ∃ log o, GivesPairs C d p s log o := by
  induction k generalizing s with
  | zero => exact absurd rfl hr
  | succ k ih =>
    rw [rep] at hr
    have h0 := ne_bind hr
    rw [stepPair] at h0
    obtain ⟨log, o, ho, hrun, hv⟩ := hd s hs (ne_bind h0)
    cases o with
    | no => exact ⟨_, _, .noDelimiter ho⟩
    | throws e => exact ⟨_, _, .delimiterThrows ho⟩
    | ok x s1 =>
      have h1 := ne_cont h0 hrun
      obtain ⟨log', o', ho', hrun', hv'⟩ := h s1 (hv _ _ rfl) (ne_bind h1)
      cases o' with
      | no => exact ⟨_, _, .noElement ho ho'⟩
      | throws e => exact ⟨_, _, .elementThrows ho ho'⟩
      | ok v s2 =>
        have h2 := ne_cont hr (stepPair_some.2 ⟨_, _, _, hrun, hrun', rfl⟩)
        obtain ⟨log'', o'', h3⟩ := ih (hv' _ _ rfl) (ne_bind h2)
        exact ⟨_, _, .more ho ho' h3⟩

omit [LinearOrder α] in
theorem settle_parts {rec : Parser α → Sub} (ps : List (Parser α))
    (h : ∀ p ∈ ps, resultFor C p ≠ .void → Settled C p (rec p).parse) (hl : ∀ p, LookSettled C p (rec p).look)
    {s : Span} (hs : s.Valid C.mem) (hr : inOrder (ps.map (partOf rec C)) s ≠ .diverge) :
    ∃ log o, GivesParts C ps s log o := by
  induction ps generalizing s with
  | nil => exact ⟨_, _, .nil⟩
  | cons p ps ih =>
    rw [List.map_cons, inOrder] at hr
    have h0 := ne_bind hr
    have ih' := @ih fun q hq => h q (List.mem_cons_of_mem _ hq)
    by_cases hv : resultFor C p = .void
    · rw [partOf, if_pos hv] at h0
      rcases hl p s hs h0 with ⟨k, s', hk, ha, hrun⟩ | ⟨hk, -⟩
      · have h1 := ne_cont hr (show partOf rec C p s = _ by rw [partOf, if_pos hv]; exact hrun)
        obtain ⟨log, o, h2⟩ := ih' (Span.SuffixOf.valid ⟨_, ha⟩ hs) (ne_bind h1)
        exact ⟨_, _, .void hv hk ha h2⟩
      · exact ⟨_, _, .voidNot hv hk⟩
    · rw [partOf, if_neg hv] at h0
      obtain ⟨log, o, ho, hrun, hval⟩ := h p (by simp) hv s hs h0
      cases o with
      | no => exact ⟨_, _, .stops hv ho .no⟩
      | throws e => exact ⟨_, _, .stops hv ho .throws⟩
      | ok v s' =>
        have h1 := ne_cont hr (show partOf rec C p s = _ by rw [partOf, if_neg hv]; exact hrun)
        obtain ⟨log', o', h2⟩ := ih' (hval _ _ rfl) (ne_bind h1)
        exact ⟨_, _, .value hv ho h2⟩

omit [LinearOrder α] in
theorem settle_first {rec : Parser α → Sub} (us : List Ty) (tr : Trait) (d : Val) (ps : List (Parser α))
    (is : List (Option Nat)) (hlen : is.length = ps.length)
    (h : ∀ p i, (p, some i) ∈ ps.zip is → Settled C p (rec p).parse) (hl : ∀ p, LookSettled C p (rec p).look)
    {s : Span} (hs : s.Valid C.mem) (hr : firstOf s (List.zipWith (altRunOf rec C tr d s) ps is) ≠ .diverge) :
    ∃ log o, GivesFirst C us d ps is s log o := by
  induction ps generalizing is with
  | nil =>
    cases is with
    | nil => exact ⟨_, _, .nil⟩
    | cons i is => simp at hlen
  | cons p ps ih =>
    cases is with
    | nil => simp at hlen
    | cons i is =>
      rw [List.zipWith_cons_cons, firstOf] at hr
      have h0 := ne_bind hr
      have ih' := ih is (by simpa using hlen) fun q j hq => h q j (by simp [hq])
      cases i with
      | none =>
        rw [altRunOf, mapVal] at h0
        rcases hl p s hs (ne_bind h0) with ⟨k, s', hk, ha, -⟩ | ⟨hk, hrun⟩
        · exact ⟨_, _, .looked hk ha⟩
        · have h1 := ne_cont (l := []) (a := ⟨none, s⟩) hr (by rw [altRunOf, mapVal, hrun]; rfl)
          obtain ⟨log, o, h2⟩ := ih' h1
          exact ⟨_, _, .lookedNot hk h2⟩
      | some i =>
        rw [altRunOf, mapVal] at h0
        obtain ⟨log, o, ho, hrun, -⟩ := h p i (by simp) s hs (ne_bind h0)
        cases o with
        | ok v s' => exact ⟨_, _, .parsed ho⟩
        | throws e => exact ⟨_, _, .throws ho⟩
        | no =>
          have h1 := ne_cont (l := log) (a := ⟨none, s⟩) hr
            (by rw [altRunOf, mapVal, hrun]; simp [Ending.out, M.pure])
          obtain ⟨log', o', h2⟩ := ih' h1
          exact ⟨_, _, .parsedNot ho h2⟩

end

omit [LinearOrder α] in
theorem gives_basic {p : Parser α} (hp : IsBasic p) {s : Span} (hs : s.Valid C.mem) : ∃ log o, Gives C p s log o := by
  by_cases h : ∃ k, Matches C.eqv p (s.elems C.mem) k
  · obtain ⟨k, hk⟩ := h
    obtain ⟨b, hb⟩ := hp.get
    have hk' := (matches_iff hb _ _).1 hk
    have hle : k ≤ s.len := by rw [hk'.1, ← hs.elems_length]; exact BasicP.accepts_length hk'.2
    exact ⟨_, _, .hit hp hk (hs.advanced hle)⟩
  · exact ⟨_, _, .miss hp fun k hk => h ⟨k, hk⟩⟩

omit [LinearOrder α] in
theorem repeatAll_ends {A : Type} {step : Step A} {s : Span} (h : repeatAll step s ≠ .diverge) :
    ∃ k, rep step k s ≠ .diverge := by
  cases hr : repeatAll step s with
  | diverge => exact absurd hr h
  | done l r =>
    obtain ⟨k, hk⟩ := ((repeatAll_lim step s).iff _ _).1 hr
    exact ⟨k, by rw [hk]; nofun⟩

/-- a function object that is called ends as the rules say -/
theorem gives_invokes (ht : C.Typed) {p : Parser α} {f : Fn} {t : Ty} (hf : Fit C p)
    (hty : fnTy C f (argTys (resultFor C p)) = some t) {s : Span} {l v s'}
    (hp : Parse C p s = .done l (.ok ⟨some v, s'⟩)) :
    ∃ log o, Invokes C f (argsOf (resultFor C p) v) log o := by
  have hv := (((Parse_typed hf.compiles ht s).ok hp).val v rfl).ty
  have ha : HasTys (argTys (resultFor C p)) (argsOf (resultFor C p) v) := by
    unfold argTys argsOf
    split
    · rfl
    · exact ⟨v, [], rfl, hv, rfl⟩
  have h := invoke_ok ht f hty ha
  cases hi : invoke C f (argsOf (resultFor C p) v) with
  | diverge => exact absurd hi (invoke_ends f _)
  | done log r =>
    refine ⟨log, invokes_of hi fun e he => ?_⟩
    subst he
    exact h.err hi

omit [LinearOrder α] in
/-- `exactly` in terms of the runs of the parser in it -/
theorem parseExactly_eq {p : Parser α} {n : Nat} (hp : parseOK C (.exactly p n) = true) (P : Sub) (s : Span) :
    parseExactly C (resultFor C (.exactly p n)) n P s =
      allOrNothing s (arrayValue (resultFor C p)) (inOrder (List.replicate n P.parse) s) := by
  rw [parseExactly]
  have hT : resultFor C (.exactly p n) = voidOr (.arr · n) (resultFor C p) := by rw [resultFor]
  rw [hT]
  by_cases h : resultFor C p = .void
  · simp only [voidOr, h, ↓reduceIte, builderInit, defaultVal, M.ofOption, M.bind_eq, M.pure_bind]
    rw [exactlyLoop_void]
    congr 1
  · simp only [parseOK, Bool.and_eq_true] at hp
    have hd : ∃ d, defaultVal C (resultFor C p) = some d := by
      simpa [voidOr, h, defaultVal, Option.isSome_iff_exists] using hp.2
    obtain ⟨d, hd⟩ := hd
    simp only [voidOr, h, ↓reduceIte, builderInit, defaultVal, hd, Option.map_some, M.ofOption, M.bind_eq,
      M.pure_bind]
    have := exactlyLoop_arr (T := .arr (resultFor C p) n) (by nofun) (P := P) s n s [] (List.replicate n d)
      (by simp)
    simp only [List.length_nil, List.nil_append] at this
    rw [this]
    congr 1
    funext vs
    rw [arrayValue, if_neg h]

theorem gives_step (ht : C.Typed) {n : Nat} (ih : ∀ q, Fit C q → Settled C q (sem C n q).parse) (p : Parser α)
    (hf : Fit C p) {s : Span} (hs : s.Valid C.mem) (hn : (step C (sem C n) n p).parse s ≠ .diverge) :
    ∃ log o, Gives C p s log o := by
  have hfb : ∀ q, FailsBack (sem C n q).parse := fun q s l s' h => (((sem_good n q).parse s).ok h).2 rfl
  cases p with
  | anyOf a => exact gives_basic (p := .anyOf a) trivial hs
  | noneOf a => exact gives_basic (p := .noneOf a) trivial hs
  | allOf a => exact gives_basic (p := .allOf a) trivial hs
  | anything => exact gives_basic (p := .anything) trivial hs
  | epsilon => exact ⟨_, _, .epsilon⟩
  | choice ps =>
    have hp := hf.compiles.parse
    simp only [parseOK, Bool.and_eq_true] at hp
    obtain ⟨d, hd⟩ := Option.isSome_iff_exists.1 hp.1.1.2
    simp only [step] at hn
    rw [parseChoice_general (fun q => sem_good n q) hd hp.1.2] at hn
    have hr : Recorded (ps.map (resultFor C)) (choiceTrait (resultsFor C ps)).seq :=
      (C60_recorded _ _).2 (by rw [resultsFor_eq])
    have hff := hf.choice hr
    obtain ⟨log, o, ho⟩ := settle_first (distinct (ps.map (resultFor C))) _ d ps _ hff.1
      (fun p i hpi => ih p (hff.2 p i hpi)) (fun p => sem_lookSettled n p) hs hn
    refine ⟨_, _, .choice hr ((isDefault_iff C _ _).2 ?_) ho⟩
    rw [← hd, resultFor]
  | sequence ps =>
    have hp := hf.compiles.parse
    simp only [parseOK, Bool.and_eq_true, sequenceTrait_ty] at hp
    obtain ⟨d, hd⟩ := Option.isSome_iff_exists.1 hp.1.1.2
    simp only [step] at hn
    rw [parseSequence_eq hd, allOrNothing] at hn
    obtain ⟨log, o, ho⟩ := settle_parts ps (fun p hp hv => ih p (hf.sequence p hp hv))
      (fun p => sem_lookSettled n p) hs (ne_bind hn)
    exact ⟨_, _, .sequence ho⟩
  | maybe p =>
    have h0 : (sem C n p).parse s ≠ .diverge := by
      intro h0
      apply hn
      simp only [step, parseMaybe, h0, M.bind_eq, M.diverge_bind]
      have hT : resultFor C (.maybe p) = voidOr .opt (resultFor C p) := by rw [resultFor]
      rw [hT]
      by_cases h : resultFor C p = .void <;> simp [voidOr, h, builderInit, defaultVal, M.ofOption]
    obtain ⟨log, o, ho, -, -⟩ := ih p hf.maybe s hs h0
    cases o with
    | ok v s' => exact ⟨_, _, .maybe ho⟩
    | no => exact ⟨_, _, .maybeNot ho⟩
    | throws e => exact ⟨_, _, .maybeThrows ho⟩
  | exactly p k =>
    simp only [step] at hn
    rw [parseExactly_eq hf.compiles.parse, allOrNothing] at hn
    obtain ⟨log, o, ho⟩ := settle_times (ih p hf.exactly) k hs (ne_bind hn)
    exact ⟨_, _, .exactly ho⟩
  | oneOrMore p =>
    simp only [step, parseOneOrMore, M.bind_eq] at hn
    have hT : resultFor C (.oneOrMore p) = voidOr .vec (resultFor C p) := by rw [resultFor]
    rw [hT] at hn
    obtain ⟨d, hd, hv, _⟩ := collect_vectorValue (C := C) (resultFor C p) []
    simp only [builderInit, hd, M.ofOption, M.pure_bind] at hn
    rw [oneOrMoreLoop_rep (hfb p) _ _ _ _ hv] at hn
    exact settle_one (ih p hf.oneOrMore) n hs (ne_bind (ne_bind hn))
  | zeroOrMore p =>
    simp only [step, parseZeroOrMore, M.bind_eq] at hn
    have hT : resultFor C (.zeroOrMore p) = voidOr .vec (resultFor C p) := by rw [resultFor]
    rw [hT] at hn
    obtain ⟨d, hd, hv, _⟩ := collect_vectorValue (C := C) (resultFor C p) []
    simp only [builderInit, hd, M.ofOption, M.pure_bind] at hn
    rw [zeroOrMoreLoop_rep (hfb p) _ _ _ hv] at hn
    obtain ⟨log, o, ho⟩ := settle_many (ih p hf.zeroOrMore) n hs (ne_bind (ne_bind hn))
    exact ⟨_, _, .zeroOrMore ho⟩
  | delimit p d =>
    simp only [step, parseDelimit, M.bind_eq] at hn
    have hT : resultFor C (.delimit p d) = delimitTy (resultFor C p) (resultFor C d) := by rw [resultFor]
    rw [hT] at hn
    obtain ⟨v0, hd, hv, hb⟩ := delimit_start (C := C) (resultFor C p) (resultFor C d)
    simp only [builderInit, hd, M.ofOption, M.pure_bind] at hn
    obtain ⟨log, o, ho, hrun, hval⟩ := ih p hf.element s hs (ne_bind hn)
    cases o with
    | no => exact ⟨_, _, .delimitStops ho .no⟩
    | throws e => exact ⟨_, _, .delimitStops ho .throws⟩
    | ok w s1 =>
      have h1 := ne_cont hn hrun
      simp only [R.hasValue, Option.isSome_some, Bool.not_true, Bool.false_eq_true, ↓reduceIte] at h1
      have h2 := ne_bind h1
      have h3 := delimitLoop_rep (P := sem C n p) (D := sem C n d) n w s s1 v0 hv h2
      rw [← h3] at h2
      obtain ⟨k, hk⟩ := repeatAll_ends (ne_bind h2)
      obtain ⟨log', o', ho'⟩ := settle_pairs (ih d hf.delimiter) (ih p hf.element) k (hval _ _ rfl) hk
      exact ⟨_, _, .delimit ho ho'⟩
  | ignore p =>
    simp only [step, parseIgnore] at hn
    rcases sem_lookSettled n p s hs hn with ⟨k, s', hk, ha, -⟩ | ⟨hk, -⟩
    · exact ⟨_, _, .ignore hk ha⟩
    · exact ⟨_, _, .ignoreNot hk⟩
  | complete p =>
    simp only [step, parseComplete, M.bind_eq] at hn
    obtain ⟨log, o, ho, -, -⟩ := ih p hf.complete s hs (ne_bind hn)
    cases o with
    | ok v s' =>
      by_cases h0 : s'.len = 0
      · exact ⟨_, _, .complete ho h0⟩
      · exact ⟨_, _, .completeShort ho h0⟩
    | no => exact ⟨_, _, .completeStops ho .no⟩
    | throws e => exact ⟨_, _, .completeStops ho .throws⟩
  | join p =>
    have key : (∃ log o, Gives C p s log o) → ∃ log o, Gives C (.join p) s log o := by
      rintro ⟨log, o, ho⟩
      cases o with
      | ok v s' =>
        by_cases h0 : Contiguous (nonEmpty (joinLeaves C v))
        · exact ⟨_, _, .join ho h0⟩
        · exact ⟨_, _, .joinGap ho h0⟩
      | no => exact ⟨_, _, .joinStops ho .no⟩
      | throws e => exact ⟨_, _, .joinStops ho .throws⟩
    refine key ?_
    by_cases hj : JoinSpec C p
    · have hP : Parse C p s ≠ .diverge := by
        intro h0
        cases hm : (step C (sem C n) n (.join p)).parse s with
        | diverge => exact hn hm
        | done l r =>
          have := Parse_eq_done.2 ⟨n + 1, hm⟩
          rw [Parse_join_eq, parseJoin] at this
          simp only [den, M.bind_eq, h0, M.diverge_bind] at this
          cases this
      have hbas : ∀ {q b}, asBasic C q = some b → Fit C q → Settled C q (Parse C q) := fun hb hfq s hs h =>
        settled_of ht hfq hs (fun _ _ h => h) h (gives_basic (asBasic_basic hb).1 hs)
      have hfp := hf.join
      cases hj with
      | exactly hb =>
        rw [Parse_exactly_eq hfp.compiles.parse, allOrNothing] at hP
        obtain ⟨log, o, ho⟩ := settle_times (hbas hb hfp.exactly) _ hs (ne_bind hP)
        exact ⟨_, _, .exactly ho⟩
      | maybe hb =>
        rw [Parse_maybe_eq] at hP
        obtain ⟨log, o, ho, -, -⟩ := hbas hb hfp.maybe s hs (ne_bind hP)
        cases o with
        | ok v s' => exact ⟨_, _, .maybe ho⟩
        | no => exact ⟨_, _, .maybeNot ho⟩
        | throws e => exact ⟨_, _, .maybeThrows ho⟩
      | oneOrMore hb =>
        rw [Parse_oneOrMore_eq] at hP
        obtain ⟨k, hk⟩ := repeatAll_ends (ne_bind hP)
        exact settle_one (hbas hb hfp.oneOrMore) k hs hk
      | zeroOrMore hb =>
        rw [Parse_zeroOrMore_eq] at hP
        obtain ⟨k, hk⟩ := repeatAll_ends (ne_bind hP)
        obtain ⟨log, o, ho⟩ := settle_many (hbas hb hfp.zeroOrMore) k hs hk
        exact ⟨_, _, .zeroOrMore ho⟩
    · simp only [step, semJoin_generic p hj, joinGeneric, parseJoin, M.bind_eq] at hn
      obtain ⟨log, o, ho, -, -⟩ := ih p hf.join s hs (ne_bind hn)
      exact ⟨log, o, ho⟩
  | map p f =>
    simp only [step, parseMap, M.bind_eq] at hn
    obtain ⟨log, o, ho, -, -⟩ := ih p hf.map s hs (ne_bind hn)
    cases o with
    | no => exact ⟨_, _, .mapStops ho .no⟩
    | throws e => exact ⟨_, _, .mapStops ho .throws⟩
    | ok v s' =>
      have hty := hf.compiles.ty
      simp only [tyOK, Bool.and_eq_true, Option.isSome_iff_exists] at hty
      obtain ⟨t, hty⟩ := hty.2
      obtain ⟨l, r, hi⟩ := gives_invokes ht hf.map hty (ho.run ht hf.map hs)
      cases r with
      | ok x => exact ⟨_, _, .map ho hi⟩
      | error e => exact ⟨_, _, .mapThrows ho hi⟩
  | filter p f =>
    simp only [step, parseFilter, M.bind_eq] at hn
    obtain ⟨log, o, ho, -, -⟩ := ih p hf.filter s hs (ne_bind hn)
    cases o with
    | no => exact ⟨_, _, .filterStops ho .no⟩
    | throws e => exact ⟨_, _, .filterStops ho .throws⟩
    | ok v s' =>
      have hty := hf.compiles.ty
      simp only [tyOK, Bool.and_eq_true] at hty
      cases hfn : fnTy C f (argTys (resultFor C p)) with
      | none => rw [hfn] at hty; simp at hty
      | some t =>
        obtain ⟨l, r, hi⟩ := gives_invokes ht hf.filter hfn (ho.run ht hf.filter hs)
        cases r with
        | ok x =>
          cases hx : C.truthy x with
          | true => exact ⟨_, _, .filter ho hi hx⟩
          | false => exact ⟨_, _, .filterOut ho hi hx⟩
        | error e => exact ⟨_, _, .filterThrows ho hi⟩
  | named p m =>
    simp only [step] at hn
    obtain ⟨log, o, ho, -, -⟩ := ih p hf.named s hs hn
    exact ⟨_, _, .named ho⟩
  | custom k =>
    simp only [step, parseCustom, M.bind_eq] at hn
    obtain ⟨log, o, ho, -, -⟩ := ih _ hf.custom s hs (ne_bind hn)
    by_cases hp : Pretends C k
    · obtain ⟨g, hg⟩ := Option.isSome_iff_exists.1 hp.2
      cases o with
      | ok v s' => exact ⟨_, _, .pretended hp hg ho⟩
      | no => exact ⟨_, _, .pretendedNot hp hg ho⟩
      | throws e => exact ⟨_, _, .pretendedThrows hp ho⟩
    · exact ⟨_, _, .custom hp ho⟩

theorem sem_settled (ht : C.Typed) (n : Nat) : ∀ p : Parser α, Fit C p → Settled C p (sem C n p).parse := by
  induction n with
  | zero => exact fun p _ s _ h => absurd rfl h
  | succ n ih =>
    intro p hf s hs hn
    exact settled_of ht hf hs (fun l r h => Parse_eq_done.2 ⟨n + 1, h⟩) hn (gives_step ht ih p hf hs hn)

/-- wherever `parse` ends, the rules say how -/
theorem gives_of_ends (ht : C.Typed) {p : Parser α} (hf : Fit C p) {s : Span} (hs : s.Valid C.mem)
    (h : Parse C p s ≠ .diverge) : ∃ log o, Gives C p s log o := by
  cases hm : Parse C p s with
  | diverge => exact absurd hm h
  | done l r =>
    obtain ⟨n, hn⟩ := Parse_eq_done.1 hm
    obtain ⟨log, o, ho, -, -⟩ := sem_settled ht n p hf s hs (by rw [hn]; nofun)
    exact ⟨log, o, ho⟩

end

end Tok3n
