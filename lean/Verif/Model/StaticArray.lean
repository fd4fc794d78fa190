import Mathlib.Order.Defs.LinearOrder
import Mathlib.Data.List.Sort
/-
Models `include/k3/tok3n/detail/static_array.h` and
`include/k3/tok3n/detail/set_operations.h`.

A `static_array<T, N>` is modelled by the list of its `N` elements.
Simplification: `T`'s `<`, `<=` and `==` are assumed to form a linear order.
-/

namespace Tok3n

variable {α β : Type}

/-- `static_array::contains` (static_array.h:50-57): linear search with
`element == u`. -/
def contains (eqv : α → β → Bool) : List α → β → Bool
  | [], _ => false
  | a :: as, u => if eqv a u then true else contains eqv as u

/-- `operator+` (static_array.h:144-153). -/
def concat (lhs rhs : List α) : List α := lhs ++ rhs

section
variable [LinearOrder α]

/-- `is_sorted_and_uniqued` (static_array.h:92-103): no adjacent pair with
`span[i + 1] <= span[i]`. -/
def isSortedAndUniqued : List α → Bool
  | [] => true
  | [_] => true
  | a :: b :: as => if b ≤ a then false else isSortedAndUniqued (b :: as)

/-- `std::ranges::unique` (used in static_array.h:122): keep the first element of
every run of equal elements. -/
def uniqueAdjacent : List α → List α
  | [] => []
  | [a] => [a]
  | a :: b :: as => if a = b then uniqueAdjacent (b :: as) else a :: uniqueAdjacent (b :: as)

/-- `sort_and_unique` (static_array.h:105-131).  Simplification: `std::ranges::sort`
is replaced by insertion sort; on a linear order its result is determined. -/
def sortAndUnique (str : List α) : List α :=
  if isSortedAndUniqued str then str
  else uniqueAdjacent (str.insertionSort (· ≤ ·))

/-- `set_operation_type` (set_operations.h:32-38). -/
inductive SetOp where
  | union
  | intersection
  | differenceLeft
  | differenceRight
  deriving DecidableEq, Repr

/-- `*it++ = u` guarded by `cond` (`do_if`, set_operations.h:48-52): the output is
the list of elements written. -/
def doIf (u : α) (cond : Bool) (rest : List α) : List α :=
  if cond then u :: rest else rest

/-- The merge loop of `set_operation::operator()` (set_operations.h:54-73).
`lhs`/`rhs` are the ranges `[lhs_it, lhs_end)`/`[rhs_it, rhs_end)`. -/
def setOperation (type : SetOp) : List α → List α → List α
  | [], [] => []
  | [], r :: rs =>
    doIf r (type == .union || type == .differenceRight) (setOperation type [] rs)
  | l :: ls, [] =>
    doIf l (type == .union || type == .differenceLeft) (setOperation type ls [])
  | l :: ls, r :: rs =>
    if l < r then
      doIf l (type == .union || type == .differenceLeft) (setOperation type ls (r :: rs))
    else if r < l then
      doIf r (type == .union || type == .differenceRight) (setOperation type (l :: ls) rs)
    else
      doIf l (type == .union || type == .intersection) (setOperation type ls rs)
termination_by ls rs => ls.length + rs.length

/-- The number of writes counted by `counting_insert_iterator`
(set_operations.h:12-30, 81-86): same loop, `++count` instead of a store. -/
def setOperationCount (type : SetOp) : List α → List α → Nat
  | [], [] => 0
  | [], r :: rs =>
    (if type == .union || type == .differenceRight then 1 else 0) + setOperationCount type [] rs
  | l :: ls, [] =>
    (if type == .union || type == .differenceLeft then 1 else 0) + setOperationCount type ls []
  | l :: ls, r :: rs =>
    if l < r then
      (if type == .union || type == .differenceLeft then 1 else 0) +
        setOperationCount type ls (r :: rs)
    else if r < l then
      (if type == .union || type == .differenceRight then 1 else 0) +
        setOperationCount type (l :: ls) rs
    else
      (if type == .union || type == .intersection then 1 else 0) + setOperationCount type ls rs
termination_by ls rs => ls.length + rs.length

/-- `set_union` (set_operations.h:95-96). -/
def setUnion (a b : List α) : List α := setOperation .union a b
/-- `set_intersection` (set_operations.h:98-99). -/
def setIntersection (a b : List α) : List α := setOperation .intersection a b
/-- `set_difference_left` (set_operations.h:101-102). -/
def setDifferenceLeft (a b : List α) : List α := setOperation .differenceLeft a b
/-- `set_difference_right` (set_operations.h:104-105). -/
def setDifferenceRight (a b : List α) : List α := setOperation .differenceRight a b

end

end Tok3n
