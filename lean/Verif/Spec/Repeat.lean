import Verif.Spec.Combinators
/-
Repetition, written without reference to the library's loops.
-/

namespace Tok3n

variable {A : Type}

/-- One step of a repetition: `none` when it is over. -/
abbrev Step (A : Type) := Span → Run (Option (A × Span))

/-- The step made of one run that may fail. -/
def stepOf (run : Span → Run R) : Step Val := fun s =>
  M.bind (run s) fun r => M.pure (r.val.map fun v => (v, r.rem))

/-- A delimiter followed by an element. -/
def stepPair (D P : Span → Run R) : Step (Val × Val) := fun s =>
  M.bind (D s) fun d => match d.val with
    | none => M.pure none
    | some dv => M.bind (P d.rem) fun r => M.pure (r.val.map fun v => ((dv, v), r.rem))

/-- Steps taken one after the other: `log` is what they called, `xs` their values. -/
inductive Chain (step : Step A) : Span → List Call → List A → Span → Prop where
  | nil {s} : Chain step s [] [] s
  | cons {s l x s' log xs s''} : step s = .done l (.ok (some (x, s'))) → Chain step s' log xs s'' →
      Chain step s (l ++ log) (x :: xs) s''

/-- Elements `vs` separated by delimiters `ds`: an element, and as often as there are
delimiters a delimiter and another element. -/
inductive Delimited (P D : Span → Run R) : Span → List Call → List Val → List Val → Span → Prop where
  | one {s l v s'} : P s = .done l (.ok ⟨some v, s'⟩) → Delimited P D s l [v] [] s'
  | more {s l v s1 l' d s2 log vs ds s'} : P s = .done l (.ok ⟨some v, s1⟩) →
      D s1 = .done l' (.ok ⟨some d, s2⟩) → Delimited P D s2 log vs ds s' →
      Delimited P D s (l ++ (l' ++ log)) (v :: vs) (d :: ds) s'

/-- No further delimiter, or one that no element follows. -/
def NoMore (P D : Span → Run R) (s : Span) (log : List Call) : Prop :=
  (∃ s', D s = .done log (.ok ⟨none, s'⟩)) ∨
  ∃ l l' d s1 s2, D s = .done l (.ok ⟨some d, s1⟩) ∧ P s1 = .done l' (.ok ⟨none, s2⟩) ∧ log = l ++ l'

/-- The value of `*p` and `+p`: the vector of the values, nothing if `p` has no value. -/
def vectorValue (t : Ty) (vs : List Val) : Val := if t = .void then .unit else .vec vs
/-- The value of `exactly<N>(p)`. -/
def arrayValue (t : Ty) (vs : List Val) : Val := if t = .void then .unit else .arr vs
/-- The value of `~p`. -/
def optionalValue (t : Ty) (v : Option Val) : Val := if t = .void then .unit else .opt v
/-- The value of `delimit_keep(p, d)`: the vectors of those that have a value. -/
def delimitValue (tp td : Ty) (vs ds : List Val) : Val :=
  if td = .void then vectorValue tp vs
  else if tp = .void then .vec ds else .pair (.vec vs) (.vec ds)

/-- `~q` or `*q`, which never fail -/
def Parser.neverFails {α : Type} : Parser α → Bool
  | .maybe _ | .zeroOrMore _ => true
  | _ => false

mutual
/-- `+(~q)`, `*(~q)`, `+(*q)`, `*(*q)`, and the equally pointless `~(~q)` and `~(*q)`, occur
nowhere in the parser (not looking into custom parsers). -/
def Parser.noEndless {α : Type} : Parser α → Bool
  | .maybe p | .oneOrMore p | .zeroOrMore p => !p.neverFails && p.noEndless
  | .choice ps | .sequence ps => Parser.noEndlesses ps
  | .exactly p _ | .ignore p | .complete p | .join p | .map p _ | .filter p _ | .named p _ =>
    p.noEndless
  | .delimit p d => p.noEndless && d.noEndless
  | .anyOf _ | .noneOf _ | .allOf _ | .anything | .epsilon | .custom _ => true
def Parser.noEndlesses {α : Type} : List (Parser α) → Bool
  | [] => true
  | p :: ps => p.noEndless && Parser.noEndlesses ps
end

end Tok3n
