import Verif.Proof.Templates
import Verif.Props.Modify
import Verif.Props.Substitution
/-
Property C86: substitution reaches into the arguments of users' class templates.
-/

namespace Tok3n

variable {α β : Type} {T : Templates α} {n : Name} {mod : Parser α → Option (Term α)}

/-- Without users' templates the rules say what C34 and C35 are about. -/
theorem C86_without (hT : ∀ k, T.of k = none) (p q : Parser α) :
    SubstOne T n mod p q ↔ substituteOne n mod p = some q :=
  ⟨fun h => h.computed hT, substOne_of hT p q⟩

/-- There is at most one result, … -/
theorem C86_unique (p q q' : Parser α) (h : SubstOne T n mod p q) (h' : SubstOne T n mod p q') : q = q' := h.unique h'

/-- … and there is one, if the modifier can be applied to every parser, template arguments are not nested endlessly, and the
specialisations that are needed are there. -/
theorem C86_exists (hm : ∀ q, ∃ r, mod q = some (.parser r)) (rank : Nat → Nat)
    (hr : ∀ k t args, T.of k = some (t, args) → allCustoms (fun j => rank j < rank k) args = true)
    (hT : ∀ k t args args', T.of k = some (t, args) → SubstMany T n mod args args' → ∃ k', T.of k' = some (t, args'))
    (p : Parser α) : ∃ q, SubstOne T n mod p q := by
  have hk : ∀ r k, rank k < r → ∃ q, SubstOne T n mod (.custom k) q := by
    intro r
    induction r with
    | zero => intro k h; cases h
    | succ r ih =>
      intro k h
      cases hof : T.of k with
      | none => exact ⟨_, .custom hof⟩
      | some ta =>
        obtain ⟨t, args⟩ := ta
        obtain ⟨args', ha⟩ := substMany_exists hm (fun j => rank j < rank k)
          (fun j hj => ih j (by have : rank j < rank k := by simpa using hj
                                omega)) args (hr k t args hof)
        obtain ⟨k', hk'⟩ := hT k t args args' hof ha
        exact ⟨_, .template hof ha hk'⟩
  exact substOne_exists hm (fun _ => true) (fun k _ => hk _ k (Nat.lt_succ_self _)) p (customs_true p)

/-- To substitute in the arguments of a template is to substitute in its `get_parser()`: if that is made of the template's
arguments (`shape`, C86), and the name does not occur in what the template itself says, `my<P> % sub(name<n> = m)` is
another specialisation, and it parses like `my<P>::get_parser() % sub(name<n> = m)`. -/
theorem C86_get_parser [LinearOrder α] (C : Ctx α β) (t : Nat) (shape : Parser α)
    (hshape : ∀ k args, T.of k = some (t, args) → (C.custom k).body = shape.instantiate args)
    (hnames : ∀ m ∈ shape.names, m.char = n.char ∧ m ≠ n)
    (k : Nat) (args : List (Parser α)) (hk : T.of k = some (t, args))
    (hown : shape.customs (fun i => i < args.length || (T.of i).isNone) = true)
    (q : Parser α) (h : SubstOne T n mod (.custom k) q) :
    ∃ k' args' body', q = .custom k' ∧ T.of k' = some (t, args') ∧ SubstOne T n mod (C.custom k).body body' ∧
      (∀ s, Look C q s = Look C body' s) ∧
      (Compiles C q → (C.custom k').ty = resultFor C body' → ∀ s, Parse C q s = Parse C body' s) := by
  cases h with
  | custom h => rw [h] at hk; cases hk
  | @template _ k' _ _ args' h1 h2 h3 =>
    rw [hk] at h1
    cases h1
    refine ⟨k', args', (C.custom k').body, rfl, h3, ?_, fun s => Look_custom s k', fun hc he s =>
      (C41_custom C k' hc s).2.2.2.1 he⟩
    rw [hshape k args hk, hshape k' args' h3]
    refine substOne_withArgs (fun i hi => ?_) shape hown hnames
    rcases h2.getD i with ⟨-, p, q, hp, hq, hpq⟩ | ⟨hl, hp, hq⟩
    · rw [hp, hq]; exact hpq
    · rw [hp, hq]
      have : (T.of i).isNone = true := by simpa [Nat.not_lt.2 hl] using hi
      exact .custom (Option.isNone_iff_eq_none.1 this)

/-! ### Concrete cases -/

/-- the name `x` -/
abbrev Ex.x : Name := ⟨0, [120]⟩

/-- Class 5 is `list_of<name<"x">("a")>`, class 6 is `list_of<ignore("a")>`. -/
def Ex.listOf : Templates Nat where
  of k := if k = 5 then some (0, [.named (Ex.all "a") Ex.x]) else if k = 6 then some (0, [.ignore (Ex.all "a")]) else Option.none
  inj k k' t args h h' := by
    have e := h.trans h'.symm
    by_cases h5 : k = 5 <;> by_cases h6 : k = 6 <;> by_cases h5' : k' = 5 <;> by_cases h6' : k' = 6 <;>
      first | omega | (simp [h5, h6, h5', h6'] at e; done) | (simp [h5, h6] at h; done)

/-- `list_of<P>::get_parser()` is `"(" >> *P >> ")"`. -/
def Ex.listShape : Parser Nat := .sequence [Ex.all "(", .zeroOrMore (.custom 0), Ex.all ")"]

def Ex.listCtx (text : String) : Ctx Nat Nat := { Ex.ctx text with
  custom := fun k => if k = 5 then ⟨Ex.listShape.instantiate [.named (Ex.all "a") Ex.x], true, resultFor (Ex.ctx text) (Ex.listShape.instantiate [.named (Ex.all "a") Ex.x])⟩
    else if k = 6 then ⟨Ex.listShape.instantiate [.ignore (Ex.all "a")], true, resultFor (Ex.ctx text) (Ex.listShape.instantiate [.ignore (Ex.all "a")])⟩
    else ⟨Ex.all "x", true, .span⟩ }

theorem Ex.list_sub : SubstOne Ex.listOf Ex.x (callMod .ignore) (.custom 5) (.custom 6) :=
  .template (k := 5) (k' := 6) rfl (.cons (.here .allOf rfl) .nil) rfl

/-- `list_of<name<"x">("a")> % sub(name<"x"> = ignore)` is `list_of<ignore("a")>`, and parses like
`("(" >> *name<"x">("a") >> ")") % sub(name<"x"> = ignore)` -/
example (text : String) : ∃ k' args' body', (Parser.custom 6 : Parser Nat) = .custom k' ∧ Ex.listOf.of k' = some (0, args') ∧
    SubstOne Ex.listOf Ex.x (callMod .ignore) ((Ex.listCtx text).custom 5).body body' ∧
      (∀ s, Look (Ex.listCtx text) (.custom 6) s = Look (Ex.listCtx text) body' s) ∧
      (Compiles (Ex.listCtx text) (.custom 6) → ((Ex.listCtx text).custom k').ty = resultFor (Ex.listCtx text) body' →
        ∀ s, Parse (Ex.listCtx text) (.custom 6) s = Parse (Ex.listCtx text) body' s) :=
  C86_get_parser (Ex.listCtx text) 0 Ex.listShape
    (fun k args h => by
      simp only [Ex.listOf] at h
      split at h
      · cases h; subst k; rfl
      · split at h
        · cases h; subst k; rfl
        · cases h)
    (fun m hm => by simp [Ex.listShape, Parser.names, Parser.namesAll, Ex.all] at hm) 5 _ rfl rfl _ Ex.list_sub

/-- every parser that may contain `list_of` can be substituted in -/
example (p : Parser Nat) : ∃ q, SubstOne Ex.listOf Ex.x (callMod .ignore) p q := by
  refine C86_exists (fun q => ⟨_, by rw [callMod]⟩) (fun _ => 0) (fun k t args h => ?_) (fun k t args args' h ha => ?_) p
  · simp only [Ex.listOf] at h
    split at h
    · cases h; rfl
    · split at h <;> cases h; rfl
  · simp only [Ex.listOf] at h
    split at h
    · cases h
      rw [← SubstMany.unique (.cons (.here .allOf rfl) .nil) ha]
      exact ⟨6, rfl⟩
    · split at h <;> cases h
      rw [← SubstMany.unique (.cons (.ignore .allOf) .nil) ha]
      exact ⟨6, rfl⟩

/-- It matters that the name does not occur in what the template itself says: `get_parser()` returns `P % name<"x">`, the
argument has no names.  Then `my<P> % sub(...)` is `my<P>`, but `my<P>::get_parser() % sub(...)` is not
`my<P>::get_parser()`. -/
theorem C86_refuted_own_names :
    let T : Templates Nat := ⟨fun k => if k = 5 then some (0, [Ex.all "a"]) else Option.none, fun k k' t args h h' => by
      split at h
      · split at h'
        · omega
        · cases h'
      · cases h⟩
    let body := (Parser.named (.custom 0) Ex.x : Parser Nat).instantiate [Ex.all "a"]
    SubstOne T Ex.x (callMod .ignore) (.custom 5) (.custom 5) ∧
    SubstOne T Ex.x (callMod .ignore) body (.ignore (Ex.all "a")) ∧ body ≠ .ignore (Ex.all "a") := by
  refine ⟨.template (k := 5) (k' := 5) rfl (.cons .allOf .nil) rfl, .here .allOf rfl, nofun⟩

end Tok3n
