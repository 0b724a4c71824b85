import Verif.Model.Heap

/-!
# Lists of ranges in memory

Model of the methods of `BibleRangeList` (`src/bibleref/ref.py:1272-1631`) on the linked nodes of `Verif.Model.Heap`, where
operands may be the same object, operands stay in memory after the operation, and an exception leaves behind what had been
written. `Verif.Model.RangeList` has the same methods as functions on groups.

A `BibleVerse` or `BibleRange` argument is turned into a new list with one range by the code (e.g. ref.py:1407-1411), so the
methods here take lists. `depth` is the number of nested calls that Python's recursion limit still allows. Loops that may
change the list they are going through have `fuel`, one unit per iteration; `diverges` is the result when it runs out.
-/

namespace Bibleref
namespace RangeHeap
open HM Heap

/-- A computation without access to the heap. -/
def lift {β : Type} (x : Except PyErr β) : HM BibleRange β := readE fun _ => x

/-- The loop of `verse_0_to_1` and `verse_1_to_0` (ref.py:1275-1276, 1283-1284). The nodes are listed beforehand; the loop does
not change the links. -/
def mapNodes (f : BibleRange → Except PyErr BibleRange) : List Nat → HM BibleRange Unit
  | [] => Pure.pure ()
  | n :: l => do
    let v ← read fun h => h.value n
    let w ← lift (f v)
    setValue n w
    mapNodes f l

/-- `verse_0_to_1` (ref.py:1272-1277). -/
def verse0to1 (e : Env) (L : Nat) : HM BibleRange Unit := do
  let l ← readE (ids L)
  mapNodes (fun r => r.verse0to1 e) l

/-- `verse_1_to_0` (ref.py:1279-1285). -/
def verse1to0 (e : Env) (L : Nat) : HM BibleRange Unit := do
  let l ← readE (ids L)
  mapNodes (fun r => r.verse1to0 e) l

/-- The part of `regroup`'s loop body after the group has been made (ref.py:1611-1631): the variables carried on to the next
iteration. -/
def regroupEnd (e : Env) (flags : Option BibleFlag) (r : BibleRange) (chap : Option Int) (atVerse showStart : Bool) :
    Except PyErr RangeList.GroupState := do
  let atVerse ← (if showStart then pure atVerse else do
    let endsChap ← r.spansEndChap e none
    pure (if endsChap then atVerse else true) : Except PyErr Bool)
  let dual ← RangeList.isDual e flags r
  if dual then RangeList.regroupStop e flags atVerse r
  else return ⟨some r.start.book, chap, atVerse⟩

/-- `regroup`'s loop (ref.py:1585-1631). The nodes are listed beforehand; the loop changes groups, not the chain of nodes. -/
def regroupLoop (e : Env) (flags : Option BibleFlag) (L : Nat) : RangeList.GroupState → List Nat → HM BibleRange Unit
  | _, [] => Pure.pure ()
  | s, n :: l => do
    let r ← read fun h => h.value n
    let (head, chap, atVerse, showStart) ← lift (RangeList.regroupStart e flags s r)
    if head then insertNewGroupAtNode L n
    let s' ← lift (regroupEnd e flags r chap atVerse showStart)
    regroupLoop e flags L s' l

/-- `regroup` (ref.py:1570-1631). -/
def regroup (e : Env) (flags : Option BibleFlag) (L : Nat) : HM BibleRange Unit := do
  clearGroups L
  let l ← readE (ids L)
  regroupLoop e flags L ⟨none, none, false⟩ l

/-- `sort(regroup)` (ref.py:1339-1344). -/
def sort (e : Env) (depth : Nat) (L : Nat) (regroupToo : Bool) : HM BibleRange Unit := do
  Heap.sort (fun a b => a.lessEq e.data b) depth L
  if regroupToo then regroup e none L

/-- The `while` loop of `merge` (ref.py:1353-1362). -/
def mergeLoop (e : Env) (flags : Option BibleFlag) (L : Nat) : Nat → Option Nat → HM BibleRange Unit
  | _, none => Pure.pure ()
  | 0, some _ => throw .diverges
  | k + 1, some n => do
    let q ← read fun h => h.next n
    match q with
    | none => Pure.pure ()
    | some m => do
      let a ← read fun h => h.value n
      let b ← read fun h => h.value m
      let u ← lift (a.union e b flags)
      match u with
      | [x] => do
        setValue n x
        let _ ← popAfter L (some n)
        mergeLoop e flags L k (some n)
      | _ => mergeLoop e flags L k (some m)

/-- `merge` (ref.py:1346-1363). Every iteration of the loop removes a node or goes on to the next one, so the number of nodes
bounds their number. -/
def merge (e : Env) (depth : Nat) (L : Nat) (flags : Option BibleFlag) : HM BibleRange Unit := do
  sort e depth L false
  let f ← read fun h => h.first L
  let k ← read fun h => h.nodes + 1
  mergeLoop e flags L k f
  regroup e none L

/-- `is_disjoint` (ref.py:1365-1373). -/
def isDisjoint (e : Env) (L M : Nat) : HM BibleRange Bool := do
  let l ← toList L
  let m ← toList M
  lift (l.allM fun a => m.allM fun b => a.isDisjoint e.data b)

/-- `contains` (ref.py:1375-1390). -/
def contains (e : Env) (depth : Nat) (L M : Nat) (flags : Option BibleFlag) : HM BibleRange Bool := do
  let N ← copy L
  merge e depth N flags
  let l ← toList N
  let m ← toList M
  lift (m.allM fun b => l.anyM fun a => a.contains e.data b)

/-- `union_update` (ref.py:1402-1416). -/
def unionUpdate (e : Env) (depth fuel : Nat) (L M : Nat) (flags : Option BibleFlag) : HM BibleRange Unit := do
  extendList L M fuel
  merge e depth L flags

/-- `union` (ref.py:1392-1400): the new list. -/
def union (e : Env) (depth fuel : Nat) (L M : Nat) (flags : Option BibleFlag) : HM BibleRange Nat := do
  let N ← copy L
  unionUpdate e depth fuel N M flags
  return N

/-- The inner loop of `intersection` (ref.py:1439-1442). The operands are read beforehand; only the new list is changed. -/
def meetAll (e : Env) (flags : Option BibleFlag) (N : Nat) (a : BibleRange) : List BibleRange → HM BibleRange Unit
  | [] => Pure.pure ()
  | b :: m => do
    let i ← lift (a.intersection e b flags)
    match i with
    | [] => Pure.pure ()
    | x :: _ => append N x false
    meetAll e flags N a m

/-- The outer loop of `intersection` (ref.py:1438-1442). -/
def meetAllAll (e : Env) (flags : Option BibleFlag) (N : Nat) (m : List BibleRange) : List BibleRange → HM BibleRange Unit
  | [] => Pure.pure ()
  | a :: l => do
    meetAll e flags N a m
    meetAllAll e flags N m l

/-- `intersection` (ref.py:1418-1444): the new list. -/
def intersection (e : Env) (depth : Nat) (L M : Nat) (flags : Option BibleFlag) : HM BibleRange Nat := do
  let N ← newList
  let l ← toList L
  let m ← toList M
  meetAllAll e flags N m l
  merge e depth N flags
  return N

/-- `intersection_update` (ref.py:1446-1454). -/
def intersectionUpdate (e : Env) (depth fuel : Nat) (L M : Nat) (flags : Option BibleFlag) : HM BibleRange Unit := do
  let N ← intersection e depth L M flags
  clear L
  extendList L N fuel

/-- `for difference_range in reversed(item_difference_list)` (ref.py:1500-1502), given the reversed list: `self_node`
afterwards. -/
def putBefore (L : Nat) : List BibleRange → Nat → HM BibleRange Nat
  | [], n => return n
  | r :: rs, n => do
    insertBefore L (some n) r false
    let p ← read fun h => h.prev n
    let n' ← deref p
    putBefore L rs n'

/-- The inner `for` loop of `difference_update` (ref.py:1492-1503) from the given node of the other list on: `self_node`
afterwards. The next node of the other list is looked up after the body of the loop. -/
def diffInner (e : Env) (flags : Option BibleFlag) (L : Nat) : Nat → Option Nat → Nat → HM BibleRange Nat
  | _, none, n => return n
  | 0, some _, _ => throw .diverges
  | k + 1, some m, n => do
    let b ← read fun h => h.value m
    let a ← read fun h => h.value n
    let diff ← lift (a.difference e b flags)
    let n' ← (match diff with
      | [] => return n
      | _ => do
        let n' ← putBefore L diff.reverse n
        let _ ← popNode L (some n)
        return n' : HM BibleRange Nat)
    let q ← read fun h => h.next m
    diffInner e flags L k q n'

/-- The `while` loop of `difference_update` (ref.py:1491-1504) with the given `self_node`. Every run of the inner loop may take
`fuel` iterations. -/
def diffOuter (e : Env) (flags : Option BibleFlag) (L M fuel : Nat) : Nat → Option Nat → HM BibleRange Unit
  | _, none => Pure.pure ()
  | 0, some _ => throw .diverges
  | k + 1, some n => do
    let f ← read fun h => h.first M
    let n' ← diffInner e flags L fuel f n
    let q ← read fun h => h.next n'
    diffOuter e flags L M fuel k q

/-- `difference_update` (ref.py:1465-1505). -/
def differenceUpdate (e : Env) (depth fuel : Nat) (L M : Nat) (flags : Option BibleFlag) : HM BibleRange Unit := do
  let f ← read fun h => h.first L
  diffOuter e flags L M fuel fuel f
  merge e depth L none

/-- `difference` (ref.py:1456-1463): the new list. -/
def difference (e : Env) (depth fuel : Nat) (L M : Nat) (flags : Option BibleFlag) : HM BibleRange Nat := do
  let N ← copy L
  differenceUpdate e depth fuel N M flags
  return N

/-- `sym_difference` (ref.py:1507-1523): the new list. -/
def symDifference (e : Env) (depth fuel : Nat) (L M : Nat) (flags : Option BibleFlag) : HM BibleRange Nat := do
  let U ← union e depth fuel L M flags
  let I ← intersection e depth L M flags
  difference e depth fuel U I flags

/-- `sym_difference_update` (ref.py:1525-1533). -/
def symDifferenceUpdate (e : Env) (depth fuel : Nat) (L M : Nat) (flags : Option BibleFlag) : HM BibleRange Unit := do
  let N ← symDifference e depth fuel L M flags
  clear L
  extendList L N fuel

end RangeHeap
end Bibleref
