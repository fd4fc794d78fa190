import Verif.Spec.Stack
/-
How many calls a parse makes: the vocabulary of C65.
-/

namespace Tok3n

variable {α β : Type}

/-- The entry of the log that stands for a call of `parse` or `lookahead`.  The library's own entries are never of this
form: what is logged for `apply_function<f>` is the call of `f`. -/
def callMark : Call := ⟨.apply (.user 0), []⟩

/-- `parse` and `lookahead` that leave a mark in the log when they are called. -/
def marked (P : Sub) : Sub :=
  ⟨fun s => do M.log callMark; P.parse s, fun s => do M.log callMark; P.look s⟩

/-- `sem` with every call of `parse` and `lookahead` marked. -/
def counted (C : Ctx α β) : Nat → Parser α → Sub
  | 0, _ => ⟨fun _ => M.diverge, fun _ => M.diverge⟩
  | n + 1, p => marked (step C (counted C n) n p)

/-- `P::parse(input)` with every call marked. -/
noncomputable def CountedParse (C : Ctx α β) (p : Parser α) (s : Span) : Run R :=
  lim fun n => (counted C n p).parse s

/-- `P::lookahead(input)` with every call marked. -/
noncomputable def CountedLook (C : Ctx α β) (p : Parser α) (s : Span) : Run R :=
  lim fun n => (counted C n p).look s

/-- is a mark -/
def Call.isMark (c : Call) : Bool :=
  match c.fn with
  | .apply _ => true
  | _ => false

/-- the log without the marks -/
def unmarked (l : List Call) : List Call := l.filter fun c => !c.isMark

/-- `P::parse(input)` ends, with whatever outcome, after `n` calls of `parse`, `lookahead` and callbacks. -/
def ParseCalls (C : Ctx α β) (p : Parser α) (s : Span) (n : Nat) : Prop :=
  ∃ log r, CountedParse C p s = .done log r ∧ log.length = n

/-- `P::lookahead(input)` ends after `n` calls of `parse` and `lookahead`. -/
def LookCalls (C : Ctx α β) (p : Parser α) (s : Span) (n : Nat) : Prop :=
  ∃ log r, CountedLook C p s = .done log r ∧ log.length = n

/-- A bound for the number of calls on an input of length `n`, for an expression at most `d` high (custom parsers
included): a repetition tries its part at most `n + 1` times. -/
def effort (C : Ctx α β) : (d : Nat) → Parser α → (n : Nat) → Nat
  | 0, _, _ => 0
  | d + 1, p, n => 1 + match p with
    | .anyOf _ | .noneOf _ | .allOf _ | .anything | .epsilon => 0
    | .choice ps | .sequence ps => (ps.map fun q => effort C d q n).sum
    | .maybe p | .ignore p | .complete p | .join p | .named p _ => effort C d p n
    | .map p _ | .filter p _ => effort C d p n + 1
    | .exactly p k => k * effort C d p n
    | .oneOrMore p | .zeroOrMore p => (n + 1) * effort C d p n
    | .delimit p e => effort C d p n + (n + 1) * (effort C d p n + effort C d e n)
    | .custom k => effort C d (C.custom k).body n

/-- How deep repetitions are nested in an expression at most `d` high. -/
def loops (C : Ctx α β) : (d : Nat) → Parser α → Nat
  | 0, _ => 0
  | d + 1, p => match p with
    | .anyOf _ | .noneOf _ | .allOf _ | .anything | .epsilon => 0
    | .choice ps | .sequence ps => (ps.map fun q => loops C d q).foldr max 0
    | .maybe p | .ignore p | .complete p | .join p | .named p _ | .map p _ | .filter p _ | .exactly p _ => loops C d p
    | .oneOrMore p | .zeroOrMore p => loops C d p + 1
    | .delimit p e => max (loops C d p) (loops C d e) + 1
    | .custom k => loops C d (C.custom k).body

/-- `*((q >> b) | a)`, where `q` is the same with one repetition less, and nothing at all for none. -/
def tower (a b : α) : Nat → Parser α
  | 0 => .epsilon
  | d + 1 => .ignore (.zeroOrMore (.choice [.sequence [tower a b d, .ignore (.allOf [b])], .ignore (.allOf [a])]))

end Tok3n
