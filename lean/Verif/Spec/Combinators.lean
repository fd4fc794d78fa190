import Verif.Spec.Outcome
/-
Reference combinators: what choices and sequences are supposed to do, written without
reference to the library's builders, index sequences and fold expressions.
-/

namespace Tok3n

variable {α β : Type} (C : Ctx α β)

/-- Change the value of a success, nothing else. -/
def mapVal (f : Val → Val) (m : Run R) : Run R :=
  M.bind m fun r => M.pure ⟨r.val.map f, r.rem⟩

/-- Forget the value of a success. -/
def recognise (m : Run R) : Run R := mapVal (fun _ => .unit) m

/-- Run the alternatives in turn up to the first success, and return that; fail with
remaining input `s` if there is none. -/
def firstOf (s : Span) : List (Run R) → Run R
  | [] => M.pure ⟨none, s⟩
  | m :: ms => M.bind m fun r => if r.val.isSome then M.pure r else firstOf s ms

/-- Run the parts one after the other, each on what the one before left; stop at the first
failure (`none`), otherwise return all values and what is left. -/
def inOrder : List (Span → Run R) → Span → Run (Option (List Val × Span))
  | [], s => M.pure (some ([], s))
  | m :: ms, s => M.bind (m s) fun r =>
    match r.val with
    | none => M.pure none
    | some v => M.bind (inOrder ms r.rem) fun x => M.pure (x.map fun y => (v :: y.1, y.2))

/-- A part of a choice or sequence is parsed; one without value is only looked ahead
(finding 2). -/
noncomputable def partRun (p : Parser α) (s : Span) : Run R :=
  if resultFor C p = .void then Look C p s else Parse C p s

/-- The distinct non-void types in order of first appearance. -/
def distinct (ts : List Ty) : List Ty :=
  ts.foldl (fun us t => if t = .void ∨ t ∈ us then us else us ++ [t]) []

/-- The value of a choice: the value itself if there is only one type, otherwise a variant
engaged at the type's place among the distinct types; `d` for an alternative without
value. -/
def choiceValue (us : List Ty) (d : Val) (t : Ty) (v : Val) : Val :=
  if t = .void then d else match us with
    | [_] => v
    | _ => .var (us.idxOf t) v

/-- The type of a choice. -/
def choiceType (ts : List Ty) : Ty :=
  match distinct ts with
  | [] => .void
  | [t] => t
  | us => .var us

/-- Whenever a type occurs again, what precedes its first occurrence contains neither
`void` nor a repetition (otherwise `filter_out_void_deduplicate` records wrong indices,
finding 3). -/
def Indexable (ts : List Ty) : Prop :=
  ∀ before t after, ts = before ++ t :: after → t ≠ .void → t ∈ before →
    (before.takeWhile (· ≠ t)).Nodup ∧ .void ∉ before.takeWhile (· ≠ t)

/-- The value of a sequence: the tuple of the values of the parts that have one; the bare
value if there is one, nothing if there is none. -/
def sequenceValue (vs : List Val) : Val :=
  match vs with
  | [] => .unit
  | [v] => v
  | vs => .tup vs

/-- Nothing, the type itself, or a tuple. -/
def tupleType : List Ty → Ty
  | [] => .void
  | [t] => t
  | us => .tup us

/-- The type of a sequence: the types of its parts without the void ones. -/
def sequenceType (ts : List Ty) : Ty := tupleType (ts.filter (· ≠ .void))

/-- Turn the outcome of all parts into the outcome of the whole started at `s`. -/
def allOrNothing (s : Span) (f : List Val → Val) (m : Run (Option (List Val × Span))) : Run R :=
  M.bind m fun
    | none => M.pure ⟨none, s⟩
    | some (vs, s') => M.pure ⟨some (f vs), s'⟩

/-- The values of the parts that have one. -/
def withValue : List Ty → List Val → List Val
  | t :: ts, v :: vs => if t = .void then withValue ts vs else v :: withValue ts vs
  | _, _ => []

end Tok3n

namespace Tok3n

/-- All runs fail; `log` is what they called, in order. -/
inductive AllFail : List (Run R) → List Call → Prop where
  | nil : AllFail [] []
  | cons {l log s' m ms} : m = .done l (.ok ⟨none, s'⟩) → AllFail ms log → AllFail (m :: ms) (l ++ log)

/-- The runs succeed one after the other, each on what the one before left; `log` is what
they called, in order, `vs` their values. -/
inductive InTurn : List (Span → Run R) → Span → List Call → List Val → Span → Prop where
  | nil {s} : InTurn [] s [] [] s
  | cons {m ms s l v s' log vs s''} : m s = .done l (.ok ⟨some v, s'⟩) → InTurn ms s' log vs s'' →
      InTurn (m :: ms) s (l ++ log) (v :: vs) s''

end Tok3n
