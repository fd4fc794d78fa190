import Verif.Model.Parse
/-
Objects of class `result` (include/k3/tok3n/detail/result.h).

`R` (Model/Parse.lean) is what a call of `parse` returns; this file models what a program
does with it afterwards: variables of type `result<T, U>` that are constructed, copied,
moved, converted and read, in any order.
-/

namespace Tok3n.Result

variable {α β : Type}

/-- An object of class `result<T, U>`.
* the primary template (result.h:14-63): `_result`, a `std::optional<T>`, and `_remaining`
* the specialization for `void` (result.h:65-88): `_successful` and `_remaining`; a `bool`
  that was never written has an indeterminate value, here `none` -/
inductive Obj where
  | value (opt : Option Val) (rem : Span)
  | void (successful : Option Bool) (rem : Span)
  deriving DecidableEq, Repr

/-- What a statement of a program does with its variables (numbered, of fixed types): the members of `result`
(result.h:14-88). -/
inductive Op where
  /-- `result<T, U> x;` (result.h:22, 72) -/
  | declare (x : Nat)
  /-- `result<T, U> x{};` -/
  | init (x : Nat)
  /-- `x = { failure_tag, s }` (result.h:24-25, 74-75) -/
  | failure (x : Nat) (s : Span)
  /-- `x = { success_tag, v, s }` (result.h:27-31), without `v` for `void` (result.h:77-78) -/
  | success (x : Nat) (v : Val) (s : Span)
  /-- `x = y`; `result(const result<T2, U>&)` (result.h:33-35), or the implicit copy -/
  | copy (x y : Nat)
  /-- `x = std::move(y)`; `result(result<T2, U>&&)` (result.h:37-39), or the implicit move -/
  | move (x y : Nat)
  /-- `x.has_value()` or `bool(x)` (result.h:41-42, 80-81) -/
  | hasValue (x : Nat)
  /-- `x.remaining()` (result.h:54, 83) -/
  | remaining (x : Nat)
  /-- `x.value()` (result.h:44-45) -/
  | value (x : Nat)
  /-- `*x` (result.h:49-50) -/
  | deref (x : Nat)
  /-- `T t = std::move(x).value();` (result.h:46) -/
  | takeValue (x : Nat)
  /-- `T t = *std::move(x);` (result.h:51) -/
  | takeDeref (x : Nat)
  deriving DecidableEq, Repr

/-- What the statement returns (result.h:14-88). -/
inductive Obs where
  | nothing
  | bool (b : Bool)
  | span (s : Span)
  | val (v : Val)
  /-- `std::bad_optional_access` was thrown -/
  | threw
  deriving DecidableEq, Repr

/-- The variables of a user's program, not in /repo; one that has not been declared yet is `none`. -/
abbrev Store := Nat → Option Obj

/-- a variable gets a value (C++ itself) -/
def Store.set (σ : Store) (x : Nat) (o : Obj) : Store := fun y => if y = x then some o else σ y

/-- The types of a program's variables (not in /repo) and what user code does in them: `left t v` is what is
left in an object of type `t` with value `v` when it is moved from.  For an `int` or a span it
is `v`; in general the standard promises nothing. -/
structure Prog (α β : Type) where
  C : Ctx α β
  ty : Nat → Ty
  left : Ty → Val → Val

/-- an object's members after it was moved from (the implicit move operations of result.h:14-88): a `std::optional`
that is moved from still
holds an object, which was moved from; spans and `bool`s are copied -/
def Obj.moved (left : Val → Val) : Obj → Obj
  | .value opt rem => .value (opt.map left) rem
  | .void b rem => .void b rem

/-- Copying or moving `src` into an object of type `dst` (result.h:33-39 if the types differ).
Reading an indeterminate `bool` is undefined; there is no conversion from or to `result<void>`. -/
def construct (C : Ctx α β) (src dst : Ty) : Obj → Except Err Obj
  | .void ok rem =>
    if src = dst then
      match ok with
      | some b => .ok (.void (some b) rem)
      | none => .error .ub
    else .error .ill
  | .value opt rem =>
    if src = dst then .ok (.value opt rem)
    else if dst = .void then .error .ill
    else match fromOptional C src dst with
      | some g => .ok (.value (some (g opt)) rem)
      | none =>
        match C.conv src dst with
        | some f => .ok (.value (opt.map f) rem)
        | none => .error .ill

/-- One statement; each case is the member function that `Op` cites.  The use of a variable that is not declared does
not compile. -/
def exec (P : Prog α β) (σ : Store) : Op → Except Err (Store × Obs)
  | .declare x => .ok (σ.set x (if P.ty x = .void then .void none Span.default else .value none Span.default), .nothing)
  -- the default constructor is not user-provided, so `{}` zeroes the object first
  | .init x => .ok (σ.set x (if P.ty x = .void then .void (some false) Span.default else .value none Span.default), .nothing)
  | .failure x s => .ok (σ.set x (if P.ty x = .void then .void (some false) s else .value none s), .nothing)
  | .success x v s => .ok (σ.set x (if P.ty x = .void then .void (some true) s else .value (some v) s), .nothing)
  | .copy x y =>
    match σ y with
    | none => .error .ill
    | some o => do
      let o' ← construct P.C (P.ty y) (P.ty x) o
      .ok (σ.set x o', .nothing)
  | .move x y =>
    match σ y with
    | none => .error .ill
    | some o => do
      let o' ← construct P.C (P.ty y) (P.ty x) o
      -- moving a variable into itself leaves whatever moving its value into itself leaves
      if x = y then .ok (σ.set x (o.moved (P.left (P.ty y))), .nothing)
      else .ok ((σ.set y (o.moved (P.left (P.ty y)))).set x o', .nothing)
  | .hasValue x =>
    match σ x with
    | some (.value opt _) => .ok (σ, .bool opt.isSome)
    | some (.void (some b) _) => .ok (σ, .bool b)
    | some (.void none _) => .error .ub
    | none => .error .ill
  | .remaining x =>
    match σ x with
    | some (.value _ rem) => .ok (σ, .span rem)
    | some (.void _ rem) => .ok (σ, .span rem)
    | none => .error .ill
  | .value x =>
    match σ x with
    | some (.value (some v) _) => .ok (σ, .val v)
    | some (.value none _) => .ok (σ, .threw)          -- std::optional::value()
    | _ => .error .ill
  | .deref x =>
    match σ x with
    | some (.value (some v) _) => .ok (σ, .val v)
    | some (.value none _) => .error .ub               -- std::optional::operator*
    | _ => .error .ill
  | .takeValue x =>
    match σ x with
    | some (.value (some v) rem) => .ok (σ.set x (.value (some (P.left (P.ty x) v)) rem), .val v)
    | some (.value none _) => .ok (σ, .threw)
    | _ => .error .ill
  | .takeDeref x =>
    match σ x with
    | some (.value (some v) rem) => .ok (σ.set x (.value (some (P.left (P.ty x) v)) rem), .val v)
    | some (.value none _) => .error .ub
    | _ => .error .ill

/-- The variables after a history of calls of result.h's members (`exec`), given latest statement first. -/
def run (P : Prog α β) : List Op → Except Err Store
  | [] => .ok fun _ => none
  | op :: earlier => do
    let σ ← run P earlier
    let r ← exec P σ op
    .ok r.1

/-- What the statement `op` (a member of result.h) returns after the history `h`. -/
def observe (P : Prog α β) (h : List Op) (op : Op) : Except Err Obs := do
  let σ ← run P h
  let r ← exec P σ op
  .ok r.2

end Tok3n.Result
