import Verif.Proof.Size
import Verif.Proof.Reach
import Verif.Spec.Example
import Verif.Props.Json
import Verif.Props.Algebraic
import Verif.Props.Sequence
import Verif.Props.Modify
import Verif.Props.Repetition
/-
C71: the size of a result grows at most linearly with what was consumed.
-/

namespace Tok3n

variable {α β : Type}

section
variable (C : Ctx α β) (mem : Mem β) (tc : Toolchain) (relaxed : Bool) (e : Ptr → Ptr → Bool)

theorem defaultVal_on (t : Ty) : defaultVal (C.on mem tc relaxed e) t = defaultVal C t := by
  apply Ty.rec (motive_1 := fun t => defaultVal (C.on mem tc relaxed e) t = defaultVal C t)
    (motive_2 := fun ts => defaultVals (C.on mem tc relaxed e) ts = defaultVals C ts ∧
      defaultHead (C.on mem tc relaxed e) ts = defaultHead C ts)
  all_goals (intros; simp_all [defaultVal, defaultVals, defaultHead])

theorem invoke_on (f : Fn) (args : List Val) : invoke (C.on mem tc relaxed e) f args = invoke C f args := by
  induction f generalizing args with
  | user k => rfl
  | apply f ih =>
    simp only [invoke]
    split
    · split
      · exact ih _
      · rfl
    · rfl
  | const k => rfl
  | construct t => rfl
  | deflt t => simp only [invoke, defaultVal_on]

set_option smartUnfolding false in
theorem resultFor_on (p : Parser α) : resultFor (C.on mem tc relaxed e) p = resultFor C p := by
  with_unfolding_all rfl

theorem bulk_on (F x : Nat) (p : Parser α) : p.bulk (C.on mem tc relaxed e) F x = p.bulk C F x := by
  have h1 : ∀ ps, resultsFor (C.on mem tc relaxed e) ps = resultsFor C ps := fun ps => by
    rw [resultsFor_eq, resultsFor_eq]; exact List.map_congr_left fun p _ => resultFor_on C mem tc relaxed e p
  have h2 : ∀ t, startSize (C.on mem tc relaxed e) t = startSize C t := fun t => by
    simp only [startSize, defaultVal_on]
  refine Parser.rec (motive_1 := fun p => p.bulk (C.on mem tc relaxed e) F x = p.bulk C F x)
    (motive_2 := fun ps => bulks (C.on mem tc relaxed e) F x ps = bulks C F x ps)
    ?_ ?_ ?_ ?_ ?_ ?_ ?_ ?_ ?_ ?_ ?_ ?_ ?_ ?_ ?_ ?_ ?_ ?_ ?_ ?_ ?_ p
  all_goals (intros; simp_all only [Parser.bulk, bulks, resultFor_on])

theorem rankBulk_on (F : Nat) (ks : List Nat) (r : Nat) :
    rankBulk (C.on mem tc relaxed e) F ks r = rankBulk C F ks r := by
  induction r with
  | zero => rfl
  | succ r ih => simp only [rankBulk, ih, bulk_on]

theorem perElement_on (F : Nat) (ks : List Nat) (p : Parser α) :
    perElement (C.on mem tc relaxed e) F ks p = perElement C F ks p := by
  simp only [perElement, rankBulk_on, bulk_on]

variable {C} in
theorem ParseReach.on {p q : Parser α} (h : ParseReach (C.on mem tc relaxed e) p q) : ParseReach C p q := by
  induction h with
  | refl => exact .refl
  | step hc _ ih =>
    refine .step ?_ ih
    cases hc <;> constructor <;> assumption

variable {C} in
theorem AddsAtMost.on {F : Nat} {p : Parser α} (h : AddsAtMost C F p) : AddsAtMost (C.on mem tc relaxed e) F p :=
  ⟨h.conv, h.convOpt, fun q f hq args log v hv => h.fns q f (.on _ _ _ _ hq) args log v (by rwa [invoke_on] at hv)⟩

end

/-- The result of a parse has at most linearly many parts (spans, vectors, arrays, tuples, optionals, variants, pairs
and objects) in the length of what was consumed, if user code adds boundedly many.  The constants depend on the
grammar and the user's types only: they are the same for all inputs on all machines.  This holds of every grammar, left
recursive or not. -/
theorem C71_linear (C : Ctx α β) (p : Parser α) (hfin : ∃ ks : List Nat, ∀ k, ParseReach C p (.custom k) → k ∈ ks)
    (F : Nat) (hF : AddsAtMost C F p) :
    ∃ a b, ∀ (mem : Mem β) (tc : Toolchain) (relaxed : Bool) (e : Ptr → Ptr → Bool) (s s' : Span) (log : List Call) (v : Val),
      s.Valid mem → Parses (C.on mem tc relaxed e) p s log v s' → v.size ≤ a * (s.len - s'.len) + b := by
  obtain ⟨ks, hks⟩ := hfin
  refine ⟨perElement C F ks p * (ks.toFinset.card + 1), perElement C F ks p, fun mem tc relaxed e s s' log v hs h => ?_⟩
  have := Parse_size (hF.on mem tc relaxed e) (fun k hk => hks k (.on mem tc relaxed e hk)) hs h
  rw [perElement_on] at this
  exact this

/-- So a result for which nothing was consumed has at most as many parts as the grammar says, however long the input. -/
theorem C71_nothing_consumed (C : Ctx α β) (p : Parser α)
    (hfin : ∃ ks : List Nat, ∀ k, ParseReach C p (.custom k) → k ∈ ks) (F : Nat) (hF : AddsAtMost C F p) :
    ∃ b, ∀ (mem : Mem β) (tc : Toolchain) (relaxed : Bool) (e : Ptr → Ptr → Bool) (s : Span) (log : List Call) (v : Val),
      s.Valid mem → Parses (C.on mem tc relaxed e) p s log v s → v.size ≤ b := by
  obtain ⟨a, b, h⟩ := C71_linear C p hfin F hF
  exact ⟨b, fun mem tc relaxed e s log v hs hp => by simpa using h mem tc relaxed e s s log v hs hp⟩

/-! ### Cases -/

/-- no default constructor is called -/
def Fn.noDeflt : Fn → Bool
  | .deflt _ => false
  | .apply f => f.noDeflt
  | _ => true

theorem componentsOf_size {v : Val} {vs : List Val} (h : componentsOf v = some vs) : sizes vs ≤ v.size := by
  cases v <;> simp only [componentsOf, Option.some.injEq, reduceCtorEq] at h <;> subst h <;> simp [Val.size, sizes]

/-- It is enough to look at the user's functions, constants and constructors. -/
theorem invoke_adds {C : Ctx α β} {F : Nat} (hf : ∀ k vs v, C.fnCall k vs = .ok v → v.size ≤ sizes vs + F)
    (hk : ∀ k, (C.constVal k).size ≤ F) (hc : ∀ t vs v, C.ctor t vs = .ok v → v.size ≤ sizes vs + F) (f : Fn)
    (hd : f.noDeflt = true) (args : List Val) (log : List Call) (v : Val) (h : invoke C f args = .done log (.ok v)) :
    v.size ≤ sizes args + F := by
  have lift : ∀ {r : Except Nat Val} {c : Call}, M.bind (M.log c) (fun _ => liftCall r) = .done log (.ok v) → r = .ok v := by
    intro r c h
    rw [show (M.log c : Run Unit) = .done [c] (.ok ()) from rfl, M.ok_bind] at h
    cases r <;> simp_all [liftCall, M.pure, M.fail, M.after]
  induction f generalizing args with
  | user k => exact hf _ _ _ (lift h)
  | construct t => exact hc _ _ _ (lift h)
  | const k =>
    rw [invoke, M.bind_eq, show (M.log _ : Run Unit) = .done [_] (.ok ()) from rfl, M.ok_bind] at h
    simp only [M.pure, M.after, M.done.injEq, Res.ok.injEq] at h
    have := hk k
    rw [← h.2]; omega
  | deflt t => simp [Fn.noDeflt] at hd
  | apply f ih =>
    rw [invoke.eq_def] at h
    dsimp only at h
    split at h
    · split at h
      · next hv =>
        have := ih hd _ h
        have := componentsOf_size hv
        simp only [sizes]; omega
      · simp [M.fail] at h
    · simp [M.fail] at h

/-- The objects of the example program are one larger than what they are made of. -/
theorem Ex.adds (text : String) (p : Parser Nat)
    (hp : ∀ q f, ParseReach (Ex.ctx text) p (.map q f) → f.noDeflt = true) : AddsAtMost (Ex.ctx text) 1 p := by
  refine ⟨?_, ?_, fun q f hq => invoke_adds ?_ ?_ ?_ f (hp q f hq)⟩
  · intro src dst f v h
    simp only [Ex.ctx] at h
    split at h
    · simp only [Option.some.injEq] at h; subst h; simp [Val.size, sizes]; omega
    · simp at h
  · intro src dst f v h
    simp only [Ex.ctx] at h
    split at h
    · simp only [Option.some.injEq] at h; subst h; simp [Val.size, sizes]
    · simp at h
  · intro k vs v h
    simp only [Ex.ctx] at h
    split at h <;> simp only [Except.ok.injEq, reduceCtorEq] at h <;> subst h <;> simp [Val.size, sizes] <;> omega
  · intro k; simp [Ex.ctx, Val.size, sizes]
  · intro t vs v h
    simp only [Ex.ctx, Except.ok.injEq] at h
    subst h
    simp [Val.size]; omega

/-- Brackets in brackets, each pair wrapped by the user's conversion, with a callback around the whole: the result is
linear in the number of brackets. -/
example : ∃ a b, ∀ (text : String) (s s' : Span) (log : List Call) (v : Val), s.Valid (Ex.ctx text).mem →
    Parses (Ex.ctx text) (.map (.oneOrMore (.custom 0)) (.user 0)) s log v s' → v.size ≤ a * (s.len - s'.len) + b := by
  let okB : Parser Nat → Bool := fun | .map _ f => f.noDeflt | .custom k => k == 0 | _ => true
  have h : ∀ q, ParseReach (Ex.ctx "") (.map (.oneOrMore (.custom 0)) (.user 0)) q → okB q = true := fun q hq =>
    reach_ok (by intro k; cases k <;> rfl) (by rfl) hq
  obtain ⟨a, b, h⟩ := C71_linear (Ex.ctx "") (.map (.oneOrMore (.custom 0)) (.user 0))
    ⟨[0], fun k hk => by simpa [okB] using h _ hk⟩ 1 (Ex.adds "" _ fun q f hq => h _ hq)
  exact ⟨a, b, fun text => h (Ex.ctx text).mem .gnuRuntime true fun _ _ => false⟩

/-- such a run: `(())()` -/
example : ∃ log v, Parses (Ex.ctx "(())()") (.map (.oneOrMore (.custom 0)) (.user 0)) (Ex.input "(())()") log v ⟨.at 0 6, 0⟩ ∧
    v.size = 17 := ⟨_, _, Ex.parses _ 20 rfl, rfl⟩

namespace Json

/-- no default constructor, no custom parser beyond the three -/
def plainB : Parser Nat → Bool
  | .map _ f => f.noDeflt
  | .custom k => [0, 1, 2].contains k
  | _ => true

theorem json_plain {m : Machine} {p : Parser Nat} (hp : p ∈ [jsonValue, jsonObject, jsonArray, string, number])
    {q : Parser Nat} (hq : ParseReach (ctx m) p q) : plainB q = true := by
  have hb : ∀ k, everyNode plainB ((ctx m).custom k).body = true := by
    intro k
    match k with
    | 0 =>
      show everyNode plainB valueBody = true
      rw [valueBody_eq, number_eq, string_eq, chars, validChar_eq, integer_eq, fraction_eq, exponent_eq]; rfl
    | 1 =>
      show everyNode plainB objectBody = true
      rw [objectBody_eq, pair_eq, chars, validChar_eq]; rfl
    | 2 =>
      show everyNode plainB arrayBody = true
      rw [arrayBody_eq]; rfl
    | _ + 3 => rfl
  have hn : everyNode plainB p = true := by
    simp only [List.mem_cons, List.not_mem_nil, or_false] at hp
    rcases hp with rfl | rfl | rfl | rfl | rfl
    · rfl
    · rfl
    · rfl
    · rw [string_eq, chars, validChar_eq]; rfl
    · rw [number_eq, integer_eq, fraction_eq, exponent_eq]; rfl
  exact reach_ok hb hn hq

theorem json_adds {m : Machine} {p : Parser Nat} (hp : p ∈ [jsonValue, jsonObject, jsonArray, string, number]) :
    AddsAtMost (ctx m) 1 p := by
  refine ⟨?_, fun _ _ _ _ h => by simp [ctx] at h, fun q f hq => invoke_adds ?_ ?_ ?_ f (json_plain hp hq)⟩
  · intro src dst f v h
    simp only [ctx] at h
    split at h
    · simp only [Option.some.injEq] at h; subst h; simp [Val.size, sizes]; omega
    · simp at h
  · intro k vs v h; simp only [ctx, Except.ok.injEq] at h; subst h; simp [Val.size]
  · intro k; simp only [ctx]; split <;> simp [Val.size, sizes]
  · intro t vs v h
    simp only [ctx] at h
    split at h <;> simp only [Except.ok.injEq] at h <;> subst h <;> simp [Val.size, sizes] <;> omega

/-- The value `JsonValue::parse` makes, and those of the other parsers of the example, are linear in the length of the
text, for all texts and on all machines. -/
theorem C71_json (p : Parser Nat) (hp : p ∈ [jsonValue, jsonObject, jsonArray, string, number]) :
    ∃ a b, ∀ (m : Machine) (s s' : Span) (log : List Call) (v : Val),
      s.Valid m.mem → Parses (ctx m) p s log v s' → v.size ≤ a * (s.len - s'.len) + b := by
  obtain ⟨a, b, h⟩ := C71_linear (ctx (machine "")) p ⟨[0, 1, 2], fun k hk => by simpa [plainB] using json_plain hp hk⟩ 1
    (json_adds hp)
  exact ⟨a, b, fun m => h m.mem m.toolchain m.relaxedTtp m.ptrEq⟩

end Json

namespace Algebraic

/-- no default constructor, no custom parser beyond the six -/
def plainB : Parser Nat → Bool
  | .map _ f => f.noDeflt
  | .custom k => [0, 1, 2, 3, 4, 5].contains k
  | _ => true

theorem algebraic_plain {m : Machine} {p : Parser Nat} (hp : p ∈ [number, powterm, factor, term, expr, input])
    {q : Parser Nat} (hq : ParseReach (ctx m) p q) : plainB q = true := by
  have hb : ∀ k, everyNode plainB ((ctx m).custom k).body = true := by
    intro k
    match k with
    | 0 => show everyNode plainB numberBody = true; rw [numberBody_eq]; rfl
    | 1 => show everyNode plainB powtermBody = true; rw [powtermBody_eq]; rfl
    | 2 => show everyNode plainB factorBody = true; rw [factorBody_eq]; rfl
    | 3 => show everyNode plainB termBody = true; rw [termBody_eq]; rfl
    | 4 => show everyNode plainB exprBody = true; rw [exprBody_eq]; rfl
    | 5 => show everyNode plainB inputBody = true; rw [inputBody_eq]; rfl
    | _ + 6 => rfl
  have hn : everyNode plainB p = true := by
    simp only [List.mem_cons, List.not_mem_nil, or_false] at hp
    rcases hp with rfl | rfl | rfl | rfl | rfl | rfl <;> rfl
  exact reach_ok hb hn hq

theorem algebraic_adds {m : Machine} {p : Parser Nat} (hp : p ∈ [number, powterm, factor, term, expr, input]) :
    AddsAtMost (ctx m) 1 p := by
  refine ⟨fun _ _ _ _ h => by simp [ctx] at h, fun _ _ _ _ h => by simp [ctx] at h,
    fun q f hq => invoke_adds ?_ ?_ ?_ f (algebraic_plain hp hq)⟩
  · intro k vs v h; simp only [ctx, Except.ok.injEq] at h; subst h; simp [Val.size]
  · intro k; simp [ctx, Val.size, sizes]
  · intro t vs v h
    simp only [ctx] at h
    split at h <;> simp only [Except.ok.injEq] at h <;> subst h <;> simp [Val.size] <;> omega

/-- The trees the parsers of the algebraic example make are linear in the length of the text, for all texts and on all
machines. -/
theorem C71_algebraic (p : Parser Nat) (hp : p ∈ [number, powterm, factor, term, expr, input]) :
    ∃ a b, ∀ (m : Machine) (s s' : Span) (log : List Call) (v : Val),
      s.Valid m.mem → Parses (ctx m) p s log v s' → v.size ≤ a * (s.len - s'.len) + b := by
  obtain ⟨a, b, h⟩ := C71_linear (ctx ⟨fun _ => [], .gnuRuntime, true, fun _ _ => false⟩) p
    ⟨[0, 1, 2, 3, 4, 5], fun k hk => by simpa [plainB] using algebraic_plain hp hk⟩ 1 (algebraic_adds hp)
  exact ⟨a, b, fun m => h m.mem m.toolchain m.relaxedTtp m.ptrEq⟩

end Algebraic

/-! ### What is asked for is needed -/

/-- `custom := maybe(ignore(anything) >> custom) % map(f)`, where `f` makes an object that holds its argument twice, and
a text of `n` times `a`. -/
def Ex.doubling (n : Nat) : Ctx Nat Nat := { Ex.ctx "" with
  mem := fun b => if b = 0 then List.replicate n 97 else []
  fnRet := fun _ _ => some (.user 0)
  fnCall := fun _ vs => .ok (.user 0 0 (vs ++ vs))
  custom := fun _ => ⟨.map (.maybe (.sequence [.ignore .anything, .custom 0])) (.user 0), true, .user 0⟩ }

theorem Ex.doubling_compiles (n : Nat) : Compiles (Ex.doubling n) (.custom 0) :=
  ⟨⟨fun _ => rfl, fun _ => rfl, fun _ => rfl, fun _ => nofun⟩, rfl, rfl, rfl⟩

theorem Ex.doubling_parses (n m i : Nat) (h : i + m = n) : ∃ log v,
    Parses (Ex.doubling n) (.custom 0) ⟨.at 0 i, m⟩ log v ⟨.at 0 n, 0⟩ ∧ 2 ^ m ≤ v.size := by
  have hcs : Compiles (Ex.doubling n) (.sequence [.ignore .anything, .custom 0]) :=
    ⟨⟨fun k => rfl, fun k => rfl, fun k => rfl, fun k => nofun⟩, rfl, rfl, rfl⟩
  have hb : ∀ s s' log v, Parses (Ex.doubling n) (.maybe (.sequence [.ignore .anything, .custom 0])) s log v s' →
      Parses (Ex.doubling n) (.custom 0) s (log ++ [⟨.user 0, [v]⟩]) (.user 0 0 [v, v]) s' := by
    intro s s' log v h
    have h' := ((C31_map (Ex.doubling n) _ 0 s s' (log ++ [⟨.user 0, [v]⟩])).1 (.user 0 0 [v, v])).2 ⟨log, v, _, h, rfl, rfl, rfl⟩
    show Parse _ _ _ = _
    rw [Parse_custom]
    show parseCustom _ _ _ (den _ (.map (.maybe (.sequence [.ignore .anything, .custom 0])) (.user 0))) s = _
    unfold parseCustom den
    dsimp only
    rw [h', M.bind_eq]
    have hc : convertResult (Ex.doubling n) (resultFor (Ex.doubling n) ((Ex.doubling n).custom 0).body)
        ((Ex.doubling n).custom 0).ty ⟨some (.user 0 0 [v, v]), s'⟩ = .done [] (.ok ⟨some (.user 0 0 [v, v]), s'⟩) := rfl
    simp only [M.bind, hc, M.after, List.append_nil]
  induction m generalizing i with
  | zero =>
    obtain rfl : i = n := by omega
    refine ⟨_, _, hb _ _ [] (.opt Option.none) ?_, by simp [Val.size]⟩
    refine ((C18_maybe _ _ _ _ _).1 _).2 (.inr ⟨?_, rfl, rfl⟩)
    refine (C15_sequence_partial _ _ hcs _ _ _).2.2 ⟨rfl, [], _, _, [], [], [], _, ⟨.at 0 i, 0⟩, rfl, .nil, ?_, rfl⟩
    show Look _ (.ignore .anything) _ = _
    rw [Look_ignore, Look_anything]
    rfl
  | succ m ih =>
    obtain ⟨log, v, hv, hsz⟩ := ih (i + 1) (by omega)
    refine ⟨_, _, hb _ _ ([] ++ (log ++ [])) (.opt (some v)) ?_, ?_⟩
    · refine ((C18_maybe _ _ _ _ _).1 _).2 (.inl ⟨v, ?_, rfl⟩)
      refine ((C15_sequence_partial _ _ hcs _ _ _).1 _).2
        ⟨[.unit, v], .cons (s' := ⟨.at 0 (i + 1), m⟩) ?_ (.cons ?_ .nil), rfl⟩
      · show Look _ (.ignore .anything) _ = _
        rw [Look_ignore, Look_anything]
        have hle : i + 1 ≤ n := by omega
        simp [lookBasic, failureCondition, advance, M.bind_eq, M.bind, M.pure, sizeSub, Span.empty, Ptr.add, Ex.doubling, hle, BasicP.length, R.successVoid]
      · exact hv
    · simp only [Val.size, sizes, Nat.pow_succ]; omega

/-- A callback that copies what it is given can make the result exponentially large. -/
theorem C71_needs_bounded_callbacks (n : Nat) : Compiles (Ex.doubling n) (.custom 0) ∧ ∃ log v,
    Parses (Ex.doubling n) (.custom 0) ⟨.at 0 0, n⟩ log v ⟨.at 0 n, 0⟩ ∧ 2 ^ n ≤ v.size :=
  ⟨Ex.doubling_compiles n, Ex.doubling_parses n n 0 (by omega)⟩

end Tok3n
