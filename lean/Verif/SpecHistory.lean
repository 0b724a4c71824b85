import Verif.SpecLists
import Verif.Model.RangeHeap

/-!
# Specification of histories of range lists

Programs that use lists of ranges: which methods they call, in which order, on which objects. Nothing here says what the
methods do; `RangeOp.call` says which modelled method a call stands for.
-/

namespace Bibleref

/-- The calls a program can make on lists, which are numbered in the order of their creation. -/
inductive RangeOp where
  /-- a method that `BibleRangeList` has from `GroupedList`, or making a list -/
  | basic (op : WorldOp BibleRange)
  | verse0to1 (L : Nat)
  | verse1to0 (L : Nat)
  | regroup (L : Nat) (flags : Option BibleFlag)
  | sort (L : Nat) (regroupToo : Bool)
  | merge (L : Nat) (flags : Option BibleFlag)
  | isDisjoint (L M : Nat)
  | contains (L M : Nat) (flags : Option BibleFlag)
  | union (L M : Nat) (flags : Option BibleFlag)
  | unionUpdate (L M : Nat) (flags : Option BibleFlag)
  | intersection (L M : Nat) (flags : Option BibleFlag)
  | intersectionUpdate (L M : Nat) (flags : Option BibleFlag)
  | difference (L M : Nat) (flags : Option BibleFlag)
  | differenceUpdate (L M : Nat) (flags : Option BibleFlag)
  | symDifference (L M : Nat) (flags : Option BibleFlag)
  | symDifferenceUpdate (L M : Nat) (flags : Option BibleFlag)

/-- Leave out the value a method returns. -/
def HM.silent {α β : Type} (x : HM α β) : HM α Unit := do
  let _ ← x
  return ()

/-- The method a call stands for. `BibleRangeList` has its own `sort`; no other method that it has from `GroupedList` asks which of
two elements is smaller. -/
def RangeOp.call (e : Env) (depth fuel : Nat) : RangeOp → HM BibleRange Unit
  | .basic (.on L .sort) => RangeHeap.sort e depth L true
  | .basic op => (op.call (fun _ _ => true) depth).silent
  | .verse0to1 L => RangeHeap.verse0to1 e L
  | .verse1to0 L => RangeHeap.verse1to0 e L
  | .regroup L flags => RangeHeap.regroup e flags L
  | .sort L regroupToo => RangeHeap.sort e depth L regroupToo
  | .merge L flags => RangeHeap.merge e depth L flags
  | .isDisjoint L M => (RangeHeap.isDisjoint e L M).silent
  | .contains L M flags => (RangeHeap.contains e depth L M flags).silent
  | .union L M flags => (RangeHeap.union e depth fuel L M flags).silent
  | .unionUpdate L M flags => RangeHeap.unionUpdate e depth fuel L M flags
  | .intersection L M flags => (RangeHeap.intersection e depth L M flags).silent
  | .intersectionUpdate L M flags => RangeHeap.intersectionUpdate e depth fuel L M flags
  | .difference L M flags => (RangeHeap.difference e depth fuel L M flags).silent
  | .differenceUpdate L M flags => RangeHeap.differenceUpdate e depth fuel L M flags
  | .symDifference L M flags => (RangeHeap.symDifference e depth fuel L M flags).silent
  | .symDifferenceUpdate L M flags => RangeHeap.symDifferenceUpdate e depth fuel L M flags

/-- The list a call is meant to change, if it is meant to change one. -/
def RangeOp.target : RangeOp → Option Nat
  | .basic (.on L _) | .basic (.extendList L _) => some L
  | .verse0to1 L | .verse1to0 L | .regroup L _ | .sort L _ | .merge L _ | .unionUpdate L _ _ | .intersectionUpdate L _ _
  | .differenceUpdate L _ _ | .symDifferenceUpdate L _ _ => some L
  | _ => none

/-- The flags passed to the method. -/
def RangeOp.flags : RangeOp → Option BibleFlag
  | .regroup _ flags | .merge _ flags | .contains _ _ flags | .union _ _ flags | .unionUpdate _ _ flags | .intersection _ _ flags
  | .intersectionUpdate _ _ flags | .difference _ _ flags | .differenceUpdate _ _ flags | .symDifference _ _ flags
  | .symDifferenceUpdate _ _ flags => flags
  | _ => none

/-- What iterating group by group gives for every list. -/
def contents {α : Type} (h : Heap α) : List (List (List α)) :=
  (List.range h.lists).map fun L => match (Heap.toNested L h).1 with
    | .ok xs => xs
    | .error _ => []

/-- The list `L` exists and has these groups. -/
def Holds {α : Type} (h : Heap α) (L : Nat) (xs : List (List α)) : Prop := L < h.lists ∧ (Heap.toNested L h).1 = .ok xs

/-- The lists that existed before, with the possible exception of one, have the same groups as before. -/
def Unchanged {α : Type} (h h' : Heap α) (except : Option Nat) : Prop :=
  ∀ K xs, except ≠ some K → Holds h K xs → Holds h' K xs

/-- Ranges that can be compared with each other: all of their books are in the book order, or there is just one book. -/
def Orderly (d : BibleData) (l : List BibleRange) : Prop :=
  (∀ r ∈ l, r.start.book ∈ d.bookOrder ∧ r.stop.book ∈ d.bookOrder) ∨ ∃ b, ∀ r ∈ l, r.start.book = b ∧ r.stop.book = b

/-- What is asked of the arguments of a call: the lists it is about exist (the operands may be the same list), the conditions of
`WorldOp.Sensible` for the methods that `BibleRangeList` has from `GroupedList`, and, for the methods that sort, ranges that can
be compared with each other: a comparison that fails leaves a list half sorted. -/
def RangeOp.Sensible (d : BibleData) (depth : Nat) (ws : List (List (List BibleRange))) : RangeOp → Prop
  | .basic (.on L .sort) => L < ws.length ∧ Orderly d (ws[L]?.getD []).flatten
  | .basic op => op.Sensible depth ws
  | .verse0to1 L | .verse1to0 L | .regroup L _ => L < ws.length
  | .sort L _ | .merge L _ => L < ws.length ∧ Orderly d (ws[L]?.getD []).flatten
  | .isDisjoint L M => L < ws.length ∧ M < ws.length
  | .contains L M _ | .union L M _ | .unionUpdate L M _ | .intersection L M _ | .intersectionUpdate L M _
  | .difference L M _ | .differenceUpdate L M _ | .symDifference L M _ | .symDifferenceUpdate L M _ =>
    (L < ws.length ∧ M < ws.length) ∧ Orderly d ((ws[L]?.getD []).flatten ++ (ws[M]?.getD []).flatten)

/-- The method ended, and not because nested calls ran out: it returned or raised one of its exceptions. -/
def Ended (run : Except PyErr Unit × Heap BibleRange) : Prop := run.1 ≠ .error .recursionError ∧ run.1 ≠ .error .diverges

/-- Memory that a program can produce: starting with no list at all, it makes any number of such calls, goes on after those that
raise exceptions, and may change the settings in between. -/
inductive Reachable : Heap BibleRange → Prop where
  | start (v : BibleRange) : Reachable (Heap.empty v)
  | call {h : Heap BibleRange} (e : Env) (depth fuel : Nat) (op : RangeOp) : Reachable h → op.Sensible e.data depth (contents h) →
      Ended (op.call e depth fuel h) → Reachable (op.call e depth fuel h).2

end Bibleref
