import Verif.Tests.Basic
import Verif.Model.Heap
import Verif.SpecLists

/-!
# The tests of test/test_util.py, run on the model

Written by tools/translate_list_tests.py; see `Verif/Tests/Verses.lean`. When a method is defined twice, only the second
one counts.
-/

namespace Bibleref.Tests.GroupedLists

set_option linter.unusedVariables false

/-- An assertion: the number of its line if it does not hold or raises an exception. -/
def check (line : Nat) (m : HM Int Bool) : HM Int (List Nat) := fun h => match m h with
  | (.ok true, h) => (.ok [], h)
  | (_, h) => (.ok [line], h)

/-- `assertRaises` -/
def checkRaises (line : Nat) (err : PyErr) (m : HM Int Unit) : HM Int (List Nat) := fun h => match m h with
  | (.error err', h) => (.ok (if err = err' then [] else [line]), h)
  | (.ok _, h) => (.ok [line], h)

/-- `GroupedList(items)` with items that are not lists (util.py:188-200). -/
def ofItems (l : List Int) : HM Int Nat := do
  let L ← Heap.newList
  Heap.extend L l
  return L

/-- The loop of `GroupedList(items)` with items that are lists (util.py:188-200). -/
def appendGroups (L : Nat) : List (List Int) → HM Int Unit
  | [] => Pure.pure ()
  | g :: l => do
    Heap.appendGroup L g
    appendGroups L l

/-- `GroupedList(items)` with items that are lists (util.py:188-200). -/
def ofNested (l : List (List Int)) : HM Int Nat := do
  let L ← Heap.newList
  appendGroups L l
  return L

/-- `sorted(l)` -/
def sorted (l : List Int) : List Int := l.foldr (fun x m => m.takeWhile (· < x) ++ x :: m.dropWhile (· < x)) []

/-- `node.value` -/
def nodeValue (o : Option Nat) : HM Int Int := do
  let n ← HM.deref o
  HM.read fun h => h.value n

/-- `node.next` -/
def nodeNext (o : Option Nat) : HM Int (Option Nat) := do
  let n ← HM.deref o
  HM.read fun h => h.next n

/-- `_pop_before` (util.py:394-399), which only the tests use. -/
def popBefore (L : Nat) (node : Option Nat) : HM Int Int := do
  let n ← Heap.checkIsChild L node
  let f ← HM.read fun h => h.first L
  if f = some n then HM.throw .indexError
  else
    let q ← HM.read fun h => h.prev n
    Heap.popNode L q

/-- `verify_is_single_group` (test/test_util.py:346-360). -/
def isSingleGroup (L : Nat) : HM Int Bool := HM.readE fun h => do
  let l ← Heap.ids L h
  return l.zipIdx.all fun (n, i) =>
    (i ≠ 0 || h.firstHead L == some n && h.lastHead L == some n) && h.isHead n == (i == 0) &&
    h.prevHead n == none && h.nextHead n == none

/-- `test_construction` (test/test_util.py:7-11). -/
def test_construction : HM Int (List Nat) := do
  let fails : List Nat := []
  let fails := fails ++ (← check 8 do return decide (((← Heap.toList (← ofItems []) : List Int)) = ([])))
  let fails := fails ++ (← check 9 do return decide (((← Heap.toList (← ofItems [(1)]) : List Int)) = ([(1)])))
  let test_list := (← ofItems [(5), (8), (2), (7), (3), (10)])
  let fails := fails ++ (← check 11 do return decide (((← Heap.toList (test_list) : List Int)) = ([(5), (8), (2), (7), (3), (10)])))
  return fails

theorem test_construction_passes : (test_construction (Heap.empty 0)).1 = .ok [] := by decide +kernel

/-- `test_conform_index` (test/test_util.py:13-16). -/
def test_conform_index : HM Int (List Nat) := do
  let fails : List Nat := []
  let test_list := (← ofItems [(5), (8), (2), (7), (3), (10)])
  let fails := fails ++ (← check 15 do return decide (((← Heap.conformIndex (test_list) (-2) : Int)) = ((-2) + (← Heap.len (test_list)))))
  let fails := fails ++ (← checkRaises 16 .indexError do let _ := (← Heap.conformIndex (test_list) (← Heap.len (test_list))))
  return fails

theorem test_conform_index_passes : (test_conform_index (Heap.empty 0)).1 = .ok [] := by decide +kernel

/-- `test_node_at` (test/test_util.py:18-22). -/
def test_node_at : HM Int (List Nat) := do
  let fails : List Nat := []
  let test_list := (← ofItems [(5), (8), (2), (7), (3), (10)])
  let fails := fails ++ (← check 20 do return decide ((← Heap.nodeAt (test_list) (0)) = (← HM.read fun h => h.first (test_list))))
  let fails := fails ++ (← check 21 do return decide ((← Heap.nodeAt (test_list) (-1)) = (← HM.read fun h => h.last (test_list))))
  let fails := fails ++ (← check 22 do return decide ((← Heap.nodeAt (test_list) (2)) = (← nodeNext (← nodeNext (← HM.read fun h => h.first (test_list))))))
  return fails

theorem test_node_at_passes : (test_node_at (Heap.empty 0)).1 = .ok [] := by decide +kernel

/-- `test_insert_first` (test/test_util.py:24-29). -/
def test_insert_first : HM Int (List Nat) := do
  let fails : List Nat := []
  let test_list := (← ofItems [])
  let _ := (← Heap.insertFirst (test_list) (6))
  let fails := fails ++ (← check 27 do return decide ((← HM.read fun h => h.first (test_list)) = (← HM.read fun h => h.last (test_list))))
  let fails := fails ++ (← check 28 do return decide (((← nodeValue (← HM.read fun h => h.first (test_list)) : Int)) = (6)))
  let fails := fails ++ (← check 29 do return decide (((← Heap.len (test_list) : Int)) = (1)))
  return fails

theorem test_insert_first_passes : (test_insert_first (Heap.empty 0)).1 = .ok [] := by decide +kernel

/-- `test_insert_before` (test/test_util.py:31-36). -/
def test_insert_before : HM Int (List Nat) := do
  let fails : List Nat := []
  let test_list := (← ofItems [(5), (8), (2), (7), (3), (10)])
  let _ := (← Heap.insertBefore (test_list) (← Heap.nodeAt (test_list) (3)) (12) false)
  let fails := fails ++ (← check 34 do return decide (((← Heap.toList (test_list) : List Int)) = ([(5), (8), (2), (12), (7), (3), (10)])))
  let _ := (← Heap.insertBefore (test_list) (← Heap.nodeAt (test_list) (0)) (14) false)
  let fails := fails ++ (← check 36 do return decide (((← Heap.toList (test_list) : List Int)) = ([(14), (5), (8), (2), (12), (7), (3), (10)])))
  return fails

theorem test_insert_before_passes : (test_insert_before (Heap.empty 0)).1 = .ok [] := by decide +kernel

/-- `test_insert_after` (test/test_util.py:38-43). -/
def test_insert_after : HM Int (List Nat) := do
  let fails : List Nat := []
  let test_list := (← ofItems [(5), (8), (2), (7), (3), (10)])
  let _ := (← Heap.insertAfter (test_list) (← Heap.nodeAt (test_list) (3)) (12) false)
  let fails := fails ++ (← check 41 do return decide (((← Heap.toList (test_list) : List Int)) = ([(5), (8), (2), (7), (12), (3), (10)])))
  let _ := (← Heap.insertAfter (test_list) (← Heap.nodeAt (test_list) (-1)) (14) false)
  let fails := fails ++ (← check 43 do return decide (((← Heap.toList (test_list) : List Int)) = ([(5), (8), (2), (7), (12), (3), (10), (14)])))
  return fails

theorem test_insert_after_passes : (test_insert_after (Heap.empty 0)).1 = .ok [] := by decide +kernel

/-- `test_pop_node` (test/test_util.py:45-61). -/
def test_pop_node : HM Int (List Nat) := do
  let fails : List Nat := []
  let test_list := (← ofItems [(1)])
  let value := (← Heap.popNode (test_list) (← Heap.nodeAt (test_list) (0)))
  let fails := fails ++ (← check 48 do return decide (((value : Int)) = (1)))
  let fails := fails ++ (← check 49 do return decide (((← Heap.toList (test_list) : List Int)) = ([])))
  let fails := fails ++ (← check 50 do return (← Heap.equals (test_list) (← ofItems []) true))
  let fails := fails ++ (← check 51 do return decide (((← Heap.len (test_list) : Int)) = (0)))
  let test_list := (← ofItems [(5), (8), (2), (7), (3), (10)])
  let value := (← Heap.popNode (test_list) (← Heap.nodeAt (test_list) (0)))
  let fails := fails ++ (← check 55 do return decide (((value : Int)) = (5)))
  let fails := fails ++ (← check 56 do return decide (((← Heap.toList (test_list) : List Int)) = ([(8), (2), (7), (3), (10)])))
  let fails := fails ++ (← check 57 do return decide (((← Heap.len (test_list) : Int)) = (5)))
  let value := (← Heap.popNode (test_list) (← Heap.nodeAt (test_list) (-1)))
  let fails := fails ++ (← check 59 do return decide (((value : Int)) = (10)))
  let fails := fails ++ (← check 60 do return decide (((← Heap.toList (test_list) : List Int)) = ([(8), (2), (7), (3)])))
  let fails := fails ++ (← check 61 do return decide (((← Heap.len (test_list) : Int)) = (4)))
  return fails

theorem test_pop_node_passes : (test_pop_node (Heap.empty 0)).1 = .ok [] := by decide +kernel

/-- `test_pop_before` (test/test_util.py:63-68). -/
def test_pop_before : HM Int (List Nat) := do
  let fails : List Nat := []
  let test_list := (← ofItems [(5), (8), (2), (7), (3), (10)])
  let fails := fails ++ (← checkRaises 65 .indexError do let _ := (← popBefore (test_list) (← Heap.nodeAt (test_list) (0))))
  let value := (← popBefore (test_list) (← Heap.nodeAt (test_list) (3)))
  let fails := fails ++ (← check 67 do return decide (((value : Int)) = (2)))
  let fails := fails ++ (← check 68 do return decide (((← Heap.toList (test_list) : List Int)) = ([(5), (8), (7), (3), (10)])))
  return fails

theorem test_pop_before_passes : (test_pop_before (Heap.empty 0)).1 = .ok [] := by decide +kernel

/-- `test_pop_after` (test/test_util.py:70-75). -/
def test_pop_after : HM Int (List Nat) := do
  let fails : List Nat := []
  let test_list := (← ofItems [(5), (8), (2), (7), (3), (10)])
  let fails := fails ++ (← checkRaises 72 .indexError do let _ := (← Heap.popAfter (test_list) (← Heap.nodeAt (test_list) (-1))))
  let value := (← Heap.popAfter (test_list) (← Heap.nodeAt (test_list) (2)))
  let fails := fails ++ (← check 74 do return decide (((value : Int)) = (7)))
  let fails := fails ++ (← check 75 do return decide (((← Heap.toList (test_list) : List Int)) = ([(5), (8), (2), (3), (10)])))
  return fails

theorem test_pop_after_passes : (test_pop_after (Heap.empty 0)).1 = .ok [] := by decide +kernel

/-- `test_prepend` (test/test_util.py:77-82). -/
def test_prepend : HM Int (List Nat) := do
  let fails : List Nat := []
  let test_list := (← ofItems [])
  let _ := (← Heap.prepend (test_list) (1) false)
  let fails := fails ++ (← check 80 do return decide (((← Heap.toList (test_list) : List Int)) = ([(1)])))
  let _ := (← Heap.prepend (test_list) (2) false)
  let fails := fails ++ (← check 82 do return decide (((← Heap.toList (test_list) : List Int)) = ([(2), (1)])))
  return fails

theorem test_prepend_passes : (test_prepend (Heap.empty 0)).1 = .ok [] := by decide +kernel

/-- `test_append` (test/test_util.py:84-89). -/
def test_append : HM Int (List Nat) := do
  let fails : List Nat := []
  let test_list := (← ofItems [])
  let _ := (← Heap.append (test_list) (1) false)
  let fails := fails ++ (← check 87 do return decide (((← Heap.toList (test_list) : List Int)) = ([(1)])))
  let _ := (← Heap.append (test_list) (2) false)
  let fails := fails ++ (← check 89 do return decide (((← Heap.toList (test_list) : List Int)) = ([(1), (2)])))
  return fails

theorem test_append_passes : (test_append (Heap.empty 0)).1 = .ok [] := by decide +kernel

/-- `test_insert` (test/test_util.py:91-99). -/
def test_insert : HM Int (List Nat) := do
  let fails : List Nat := []
  let test_list := (← ofItems [])
  let _ := (← Heap.insert (test_list) (0) (1))
  let fails := fails ++ (← check 94 do return decide (((← Heap.toList (test_list) : List Int)) = ([(1)])))
  let _ := (← Heap.insert (test_list) (0) (2))
  let _ := (← Heap.insert (test_list) (1) (3))
  let fails := fails ++ (← check 97 do return decide (((← Heap.toList (test_list) : List Int)) = ([(2), (3), (1)])))
  let _ := (← Heap.insert (test_list) (3) (4))
  let fails := fails ++ (← check 99 do return decide (((← Heap.toList (test_list) : List Int)) = ([(2), (3), (1), (4)])))
  return fails

theorem test_insert_passes : (test_insert (Heap.empty 0)).1 = .ok [] := by decide +kernel

/-- `test_index` (test/test_util.py:101-106). -/
def test_index : HM Int (List Nat) := do
  let fails : List Nat := []
  let test_list := (← ofItems [(5), (3), (6), (3), (1), (7), (1), (6), (9), (3)])
  let fails := fails ++ (← check 103 do return decide (((← Heap.index (test_list) (3) none none : Int)) = (1)))
  let fails := fails ++ (← check 104 do return decide (((← Heap.index (test_list) (3) (some (2)) none : Int)) = (3)))
  let fails := fails ++ (← check 105 do return decide (((← Heap.index (test_list) (3) (some (4)) (some (← Heap.len (test_list))) : Int)) = (9)))
  let fails := fails ++ (← checkRaises 106 .valueError do let _ := (← Heap.index (test_list) (3) (some (4)) (some (-1))))
  return fails

theorem test_index_passes : (test_index (Heap.empty 0)).1 = .ok [] := by decide +kernel

/-- `test_count` (test/test_util.py:108-114). -/
def test_count : HM Int (List Nat) := do
  let fails : List Nat := []
  let test_list := (← ofItems [(5), (3), (6), (3), (1), (7), (1), (6), (9), (3)])
  let fails := fails ++ (← check 110 do return decide (((← Heap.count (test_list) (5) : Int)) = (1)))
  let fails := fails ++ (← check 111 do return decide (((← Heap.count (test_list) (3) : Int)) = (3)))
  let fails := fails ++ (← check 112 do return decide (((← Heap.count (test_list) (6) : Int)) = (2)))
  let fails := fails ++ (← check 113 do return decide (((← Heap.count (test_list) (1) : Int)) = (2)))
  let fails := fails ++ (← check 114 do return decide (((← Heap.count (test_list) (10) : Int)) = (0)))
  return fails

theorem test_count_passes : (test_count (Heap.empty 0)).1 = .ok [] := by decide +kernel

/-- `test_pop` (test/test_util.py:116-126). -/
def test_pop : HM Int (List Nat) := do
  let fails : List Nat := []
  let test_list := (← ofItems [(5), (8), (2), (7), (3), (10)])
  let value := (← Heap.pop (test_list) none)
  let fails := fails ++ (← check 119 do return decide (((value : Int)) = (10)))
  let fails := fails ++ (← check 120 do return decide (((← Heap.toList (test_list) : List Int)) = ([(5), (8), (2), (7), (3)])))
  let value := (← Heap.pop (test_list) (some (0)))
  let fails := fails ++ (← check 122 do return decide (((value : Int)) = (5)))
  let fails := fails ++ (← check 123 do return decide (((← Heap.toList (test_list) : List Int)) = ([(8), (2), (7), (3)])))
  let value := (← Heap.pop (test_list) (some (2)))
  let fails := fails ++ (← check 125 do return decide (((value : Int)) = (7)))
  let fails := fails ++ (← check 126 do return decide (((← Heap.toList (test_list) : List Int)) = ([(8), (2), (3)])))
  return fails

theorem test_pop_passes : (test_pop (Heap.empty 0)).1 = .ok [] := by decide +kernel

/-- `test_clear` (test/test_util.py:320-323). -/
def test_clear : HM Int (List Nat) := do
  let fails : List Nat := []
  let list_1 := (← ofNested [[(1), (2), (3)], [(4), (5), (6)], [(7), (8)], [(9), (10)]])
  let _ := (← Heap.clear (list_1))
  let fails := fails ++ (← check 323 do return (← Heap.equals (list_1) (← ofItems []) true))
  return fails

theorem test_clear_passes : (test_clear (Heap.empty 0)).1 = .ok [] := by decide +kernel

/-- `test_len` (test/test_util.py:137-140). -/
def test_len : HM Int (List Nat) := do
  let fails : List Nat := []
  let test_list := (← ofItems [(5), (8), (2), (7), (3), (10)])
  let fails := fails ++ (← check 139 do return (← Heap.contains (test_list) (2)))
  let fails := fails ++ (← check 140 do return !(← Heap.contains (test_list) (9)))
  return fails

theorem test_len_passes : (test_len (Heap.empty 0)).1 = .ok [] := by decide +kernel

/-- `test_get_set` (test/test_util.py:142-152). -/
def test_get_set : HM Int (List Nat) := do
  let fails : List Nat := []
  let test_list := (← ofItems [(5), (8), (2), (7), (3), (10)])
  let fails := fails ++ (← check 144 do return decide (((← Heap.getItem (test_list) (0) : Int)) = (5)))
  let fails := fails ++ (← check 145 do return decide (((← Heap.getItem (test_list) (5) : Int)) = (10)))
  let fails := fails ++ (← check 146 do return decide (((← Heap.getItem (test_list) (3) : Int)) = (7)))
  Heap.setItem (test_list) (0) (20)
  Heap.setItem (test_list) (5) (30)
  Heap.setItem (test_list) (3) (40)
  let fails := fails ++ (← check 150 do return decide (((← Heap.getItem (test_list) (0) : Int)) = (20)))
  let fails := fails ++ (← check 151 do return decide (((← Heap.getItem (test_list) (5) : Int)) = (30)))
  let fails := fails ++ (← check 152 do return decide (((← Heap.getItem (test_list) (3) : Int)) = (40)))
  return fails

theorem test_get_set_passes : (test_get_set (Heap.empty 0)).1 = .ok [] := by decide +kernel

/-- `test_del` (test/test_util.py:154-161). -/
def test_del : HM Int (List Nat) := do
  let fails : List Nat := []
  let test_list := (← ofItems [(5), (8), (2), (7), (3), (10)])
  Heap.delItem (test_list) (0)
  let fails := fails ++ (← check 157 do return decide (((← Heap.toList (test_list) : List Int)) = ([(8), (2), (7), (3), (10)])))
  Heap.delItem (test_list) (4)
  let fails := fails ++ (← check 159 do return decide (((← Heap.toList (test_list) : List Int)) = ([(8), (2), (7), (3)])))
  Heap.delItem (test_list) (2)
  let fails := fails ++ (← check 161 do return decide (((← Heap.toList (test_list) : List Int)) = ([(8), (2), (3)])))
  return fails

theorem test_del_passes : (test_del (Heap.empty 0)).1 = .ok [] := by decide +kernel

/-- `test_reversed` (test/test_util.py:163-165). -/
def test_reversed : HM Int (List Nat) := do
  let fails : List Nat := []
  let test_list := (← ofItems [(5), (8), (2), (7), (3), (10)])
  let fails := fails ++ (← check 165 do return decide (((← Heap.toListReversed (test_list) : List Int)) = ([(10), (3), (7), (2), (8), (5)])))
  return fails

theorem test_reversed_passes : (test_reversed (Heap.empty 0)).1 = .ok [] := by decide +kernel

/-- `test_extend` (test/test_util.py:167-170). -/
def test_extend : HM Int (List Nat) := do
  let fails : List Nat := []
  let test_list := (← ofItems [(5), (8), (2), (7), (3), (10)])
  let _ := (← Heap.extend (test_list) [(12), (9), (20)])
  let fails := fails ++ (← check 170 do return decide (((← Heap.toList (test_list) : List Int)) = ([(5), (8), (2), (7), (3), (10), (12), (9), (20)])))
  return fails

theorem test_extend_passes : (test_extend (Heap.empty 0)).1 = .ok [] := by decide +kernel

/-- `test_remove` (test/test_util.py:172-175). -/
def test_remove : HM Int (List Nat) := do
  let fails : List Nat := []
  let test_list := (← ofItems [(5), (8), (2), (7), (3), (10), (2)])
  let _ := (← Heap.remove (test_list) (2))
  let fails := fails ++ (← check 175 do return decide (((← Heap.toList (test_list) : List Int)) = ([(5), (8), (7), (3), (10), (2)])))
  return fails

theorem test_remove_passes : (test_remove (Heap.empty 0)).1 = .ok [] := by decide +kernel

/-- `test_reverse` (test/test_util.py:177-180). -/
def test_reverse : HM Int (List Nat) := do
  let fails : List Nat := []
  let test_list := (← ofItems [(5), (8), (2), (7), (3), (10)])
  let _ := (← Heap.reverse (test_list))
  let fails := fails ++ (← check 180 do return decide (((← Heap.toList (test_list) : List Int)) = ([(10), (3), (7), (2), (8), (5)])))
  return fails

theorem test_reverse_passes : (test_reverse (Heap.empty 0)).1 = .ok [] := by decide +kernel

/-- `test_iadd` (test/test_util.py:182-185). -/
def test_iadd : HM Int (List Nat) := do
  let fails : List Nat := []
  let test_list := (← ofItems [(5), (8), (2), (7), (3), (10)])
  Heap.extend (test_list) [(12), (9), (20)]
  let fails := fails ++ (← check 185 do return decide (((← Heap.toList (test_list) : List Int)) = ([(5), (8), (2), (7), (3), (10), (12), (9), (20)])))
  return fails

theorem test_iadd_passes : (test_iadd (Heap.empty 0)).1 = .ok [] := by decide +kernel

/-- `test_group_construction` (test/test_util.py:187-189). -/
def test_group_construction : HM Int (List Nat) := do
  let fails : List Nat := []
  let test_list := (← ofNested [[(2), (8), (4)], [(1), (9), (6)], [(3), (7), (5)]])
  let fails := fails ++ (← check 189 do return decide ((← Heap.toNested (test_list)) = ([[(2), (8), (4)], [(1), (9), (6)], [(3), (7), (5)]])))
  return fails

theorem test_group_construction_passes : (test_group_construction (Heap.empty 0)).1 = .ok [] := by decide +kernel

/-- `test_groups_view` (test/test_util.py:191-198). -/
def test_groups_view : HM Int (List Nat) := do
  let fails : List Nat := []
  let test_list := (← ofNested [[(2), (8), (4)], [(1), (9), (6)], [(3), (7), (5)]])
  let fails := fails ++ (← check 193 do return decide (((← Heap.groupsLen (test_list) : Int)) = (3)))
  let fails := fails ++ (← check 194 do return decide (((← nodeValue (some (← Heap.groupAt (test_list) (2))) : Int)) = (3)))
  let group_list := (← HM.readE (Heap.heads (test_list)))
  let fails := fails ++ (← check 196 do return decide (((← nodeValue (some ((group_list).getD 0 0)) : Int)) = (2)))
  let fails := fails ++ (← check 197 do return decide (((← nodeValue (some ((group_list).getD 1 0)) : Int)) = (1)))
  let fails := fails ++ (← check 198 do return decide (((← nodeValue (some ((group_list).getD 2 0)) : Int)) = (3)))
  return fails

theorem test_groups_view_passes : (test_groups_view (Heap.empty 0)).1 = .ok [] := by decide +kernel

/-- `test_group_view` (test/test_util.py:200-209). -/
def test_group_view : HM Int (List Nat) := do
  let fails : List Nat := []
  let test_list := (← ofNested [[(2), (8), (4)], [(1), (9), (6)], [(3), (7), (5)]])
  let group_0 := (← Heap.groupAt (test_list) (0))
  let fails := fails ++ (← check 203 do return decide (((← Heap.viewGet (group_0) (0) : Int)) = (2)))
  let fails := fails ++ (← check 204 do return decide (((← Heap.viewGet (group_0) (1) : Int)) = (8)))
  let fails := fails ++ (← check 205 do return decide (((← Heap.viewGet (group_0) (2) : Int)) = (4)))
  let fails := fails ++ (← check 207 do return decide (((← Heap.viewGet (← Heap.groupAt (test_list) (2)) (0) : Int)) = (3)))
  let fails := fails ++ (← check 208 do return decide (((← Heap.viewGet (← Heap.groupAt (test_list) (2)) (1) : Int)) = (7)))
  let fails := fails ++ (← check 209 do return decide (((← Heap.viewGet (← Heap.groupAt (test_list) (2)) (2) : Int)) = (5)))
  return fails

theorem test_group_view_passes : (test_group_view (Heap.empty 0)).1 = .ok [] := by decide +kernel

/-- `test_group_head_deletion` (test/test_util.py:211-242). -/
def test_group_head_deletion : HM Int (List Nat) := do
  let fails : List Nat := []
  let test_list := (← ofNested [[(2), (8), (4)], [(1), (9), (6)], [(3), (7), (5)]])
  let group_1 := (← Heap.groupAt (test_list) (1))
  let group_2 := (← Heap.groupAt (test_list) (2))
  let fails := fails ++ (← check 215 do return decide ((← Heap.toNested (test_list)) = ([[(2), (8), (4)], [(1), (9), (6)], [(3), (7), (5)]])))
  let fails := fails ++ (← check 216 do return decide (((← Heap.groupsLen (test_list) : Int)) = (3)))
  let fails := fails ++ (← check 217 do return decide (((← Heap.viewGet (group_1) (0) : Int)) = (1)))
  let fails := fails ++ (← check 218 do return decide (((← Heap.viewGet (group_2) (0) : Int)) = (3)))
  Heap.delItem (test_list) (3)
  let fails := fails ++ (← check 221 do return decide ((← Heap.toNested (test_list)) = ([[(2), (8), (4)], [(9), (6)], [(3), (7), (5)]])))
  let fails := fails ++ (← check 222 do return decide (((← Heap.groupsLen (test_list) : Int)) = (3)))
  let fails := fails ++ (← checkRaises 223 .groupView do let _ := (← Heap.viewGet (group_1) (0)))
  let fails := fails ++ (← check 224 do return decide (((← Heap.viewGet (group_2) (0) : Int)) = (3)))
  Heap.delItem (test_list) (3)
  let fails := fails ++ (← check 227 do return decide ((← Heap.toNested (test_list)) = ([[(2), (8), (4)], [(6)], [(3), (7), (5)]])))
  let fails := fails ++ (← check 228 do return decide (((← Heap.groupsLen (test_list) : Int)) = (3)))
  let fails := fails ++ (← checkRaises 229 .groupView do let _ := (← Heap.viewGet (group_1) (0)))
  let fails := fails ++ (← check 230 do return decide (((← Heap.viewGet (group_2) (0) : Int)) = (3)))
  Heap.delItem (test_list) (3)
  let fails := fails ++ (← check 233 do return decide ((← Heap.toNested (test_list)) = ([[(2), (8), (4)], [(3), (7), (5)]])))
  let fails := fails ++ (← check 234 do return decide (((← Heap.groupsLen (test_list) : Int)) = (2)))
  let fails := fails ++ (← checkRaises 235 .groupView do let _ := (← Heap.viewGet (group_1) (0)))
  let fails := fails ++ (← check 236 do return decide (((← Heap.viewGet (group_2) (0) : Int)) = (3)))
  Heap.delItem (test_list) (3)
  Heap.delItem (test_list) (3)
  Heap.delItem (test_list) (3)
  let fails := fails ++ (← check 241 do return decide (((← Heap.groupsLen (test_list) : Int)) = (1)))
  let fails := fails ++ (← check 242 do return decide ((← Heap.toNested (test_list)) = ([[(2), (8), (4)]])))
  return fails

theorem test_group_head_deletion_passes : (test_group_head_deletion (Heap.empty 0)).1 = .ok [] := by decide +kernel

/-- `test_group_prepend` (test/test_util.py:244-250). -/
def test_group_prepend : HM Int (List Nat) := do
  let fails : List Nat := []
  let test_list := (← ofNested [[(2), (8), (4)], [(1), (9), (6)]])
  let fails := fails ++ (← check 246 do return decide ((← Heap.toNested (test_list)) = ([[(2), (8), (4)], [(1), (9), (6)]])))
  let _ := (← Heap.prepend (test_list) (3) false)
  let fails := fails ++ (← check 248 do return decide ((← Heap.toNested (test_list)) = ([[(3), (2), (8), (4)], [(1), (9), (6)]])))
  let _ := (← Heap.prepend (test_list) (7) true)
  let fails := fails ++ (← check 250 do return decide ((← Heap.toNested (test_list)) = ([[(7)], [(3), (2), (8), (4)], [(1), (9), (6)]])))
  return fails

theorem test_group_prepend_passes : (test_group_prepend (Heap.empty 0)).1 = .ok [] := by decide +kernel

/-- `test_group_insert_before` (test/test_util.py:252-282). -/
def test_group_insert_before : HM Int (List Nat) := do
  let fails : List Nat := []
  let test_list := (← ofNested [[(2), (8), (4)], [(1), (9), (6)]])
  let fails := fails ++ (← check 254 do return decide ((← Heap.toNested (test_list)) = ([[(2), (8), (4)], [(1), (9), (6)]])))
  let fails := fails ++ (← check 255 do return decide ((← HM.read fun h => h.firstHead (test_list)) = (← Heap.nodeAt (test_list) (0))))
  let fails := fails ++ (← check 256 do return decide ((← HM.read fun h => h.lastHead (test_list)) = (← Heap.nodeAt (test_list) (3))))
  let _ := (← Heap.insertBefore (test_list) (← Heap.nodeAt (test_list) (3)) (7) false)
  let fails := fails ++ (← check 259 do return decide ((← Heap.toNested (test_list)) = ([[(2), (8), (4)], [(7), (1), (9), (6)]])))
  let fails := fails ++ (← check 260 do return decide ((← HM.read fun h => h.firstHead (test_list)) = (← Heap.nodeAt (test_list) (0))))
  let fails := fails ++ (← check 261 do return decide ((← HM.read fun h => h.lastHead (test_list)) = (← Heap.nodeAt (test_list) (3))))
  let _ := (← Heap.insertBefore (test_list) (← Heap.nodeAt (test_list) (3)) (5) true)
  let fails := fails ++ (← check 264 do return decide ((← Heap.toNested (test_list)) = ([[(2), (8), (4)], [(5)], [(7), (1), (9), (6)]])))
  let fails := fails ++ (← check 265 do return decide ((← HM.read fun h => h.firstHead (test_list)) = (← Heap.nodeAt (test_list) (0))))
  let fails := fails ++ (← check 266 do return decide ((← HM.read fun h => h.lastHead (test_list)) = (← Heap.nodeAt (test_list) (4))))
  let _ := (← Heap.insertBefore (test_list) (← Heap.nodeAt (test_list) (2)) (3) false)
  let fails := fails ++ (← check 269 do return decide ((← Heap.toNested (test_list)) = ([[(2), (8), (3), (4)], [(5)], [(7), (1), (9), (6)]])))
  let fails := fails ++ (← check 270 do return decide ((← HM.read fun h => h.firstHead (test_list)) = (← Heap.nodeAt (test_list) (0))))
  let fails := fails ++ (← check 271 do return decide ((← HM.read fun h => h.lastHead (test_list)) = (← Heap.nodeAt (test_list) (5))))
  let _ := (← Heap.insertBefore (test_list) (← Heap.nodeAt (test_list) (2)) (10) true)
  let fails := fails ++ (← check 274 do return decide ((← Heap.toNested (test_list)) = ([[(2), (8)], [(10), (3), (4)], [(5)], [(7), (1), (9), (6)]])))
  let fails := fails ++ (← check 275 do return decide ((← HM.read fun h => h.firstHead (test_list)) = (← Heap.nodeAt (test_list) (0))))
  let fails := fails ++ (← check 276 do return decide ((← HM.read fun h => h.lastHead (test_list)) = (← Heap.nodeAt (test_list) (6))))
  let test_list := (← ofItems [(5)])
  let _ := (← Heap.insertBefore (test_list) (← Heap.nodeAt (test_list) (0)) (6) false)
  let fails := fails ++ (← check 280 do return decide ((← Heap.toNested (test_list)) = ([[(6), (5)]])))
  let fails := fails ++ (← check 281 do return decide ((← HM.read fun h => h.firstHead (test_list)) = (← Heap.nodeAt (test_list) (0))))
  let fails := fails ++ (← check 282 do return decide ((← HM.read fun h => h.lastHead (test_list)) = (← Heap.nodeAt (test_list) (0))))
  return fails

theorem test_group_insert_before_passes : (test_group_insert_before (Heap.empty 0)).1 = .ok [] := by decide +kernel

/-- `test_group_pop_node` (test/test_util.py:284-292). -/
def test_group_pop_node : HM Int (List Nat) := do
  let fails : List Nat := []
  let test_list := (← ofNested [[(2), (8), (4)], [(1), (9), (6)]])
  let fails := fails ++ (← check 286 do return decide ((← Heap.toNested (test_list)) = ([[(2), (8), (4)], [(1), (9), (6)]])))
  let fails := fails ++ (← check 287 do return decide ((← HM.read fun h => h.firstHead (test_list)) = (← Heap.nodeAt (test_list) (0))))
  let fails := fails ++ (← check 288 do return decide ((← HM.read fun h => h.lastHead (test_list)) = (← Heap.nodeAt (test_list) (3))))
  let _ := (← Heap.pop (test_list) (some (0)))
  let fails := fails ++ (← check 290 do return decide ((← Heap.toNested (test_list)) = ([[(8), (4)], [(1), (9), (6)]])))
  let fails := fails ++ (← check 291 do return decide ((← HM.read fun h => h.firstHead (test_list)) = (← Heap.nodeAt (test_list) (0))))
  let fails := fails ++ (← check 292 do return decide ((← HM.read fun h => h.lastHead (test_list)) = (← Heap.nodeAt (test_list) (2))))
  return fails

theorem test_group_pop_node_passes : (test_group_pop_node (Heap.empty 0)).1 = .ok [] := by decide +kernel

/-- `test_group_item_modify` (test/test_util.py:294-301). -/
def test_group_item_modify : HM Int (List Nat) := do
  let fails : List Nat := []
  let test_list := (← ofNested [[(2), (8), (4)], [(1), (9), (6)], [(3), (7), (5)]])
  let fails := fails ++ (← check 296 do return decide ((← Heap.toNested (test_list)) = ([[(2), (8), (4)], [(1), (9), (6)], [(3), (7), (5)]])))
  Heap.viewSet (← Heap.groupAt (test_list) (1)) (2) (20)
  let fails := fails ++ (← check 298 do return decide ((← Heap.toNested (test_list)) = ([[(2), (8), (4)], [(1), (9), (20)], [(3), (7), (5)]])))
  Heap.viewDel (← Heap.groupAt (test_list) (1)) (2)
  let fails := fails ++ (← check 301 do return decide ((← Heap.toNested (test_list)) = ([[(2), (8), (4)], [(1), (9)], [(3), (7), (5)]])))
  return fails

theorem test_group_item_modify_passes : (test_group_item_modify (Heap.empty 0)).1 = .ok [] := by decide +kernel

/-- `test_group_equals` (test/test_util.py:303-312). -/
def test_group_equals : HM Int (List Nat) := do
  let fails : List Nat := []
  let list_1 := (← ofNested [[(1), (2), (3)], [(4), (5), (6)], [(7), (8)], [(9), (10)]])
  let list_2 := (← ofNested [[(1), (2), (3)], [(4), (5), (6)], [(7), (8), (9)], [(10)]])
  let fails := fails ++ (← check 306 do return !(← Heap.equals (list_1) (list_2) true))
  let fails := fails ++ (← check 307 do return (← Heap.equals (list_1) (list_2) false))
  let fails := fails ++ (← check 308 do return (← Heap.equals (list_1) (← ofItems [(1), (2), (3), (4), (5), (6), (7), (8), (9), (10)]) false))
  let list_3 := (← ofItems [(1), (2), (3), (4), (5), (6), (7), (8), (9), (10)])
  let list_4 := (← ofItems [(1), (2), (3), (4), (5), (6), (7), (8), (9), (11)])
  let fails := fails ++ (← check 312 do return !(← Heap.equals (list_3) (list_4) true))
  return fails

theorem test_group_equals_passes : (test_group_equals (Heap.empty 0)).1 = .ok [] := by decide +kernel

/-- `test_group_insert_at_index` (test/test_util.py:314-318). -/
def test_group_insert_at_index : HM Int (List Nat) := do
  let fails : List Nat := []
  let test_list := (← ofItems [(1), (2), (3), (4), (5), (6), (7), (8), (9), (10)])
  let _ := (← Heap.insertGroupAt (test_list) (3))
  let _ := (← Heap.insertGroupAt (test_list) (7))
  let fails := fails ++ (← check 318 do return (← Heap.equals (test_list) (← ofNested [[(1), (2), (3)], [(4), (5), (6), (7)], [(8), (9), (10)]]) true))
  return fails

theorem test_group_insert_at_index_passes : (test_group_insert_at_index (Heap.empty 0)).1 = .ok [] := by decide +kernel

/-- `test_clear_groups` (test/test_util.py:325-328). -/
def test_clear_groups : HM Int (List Nat) := do
  let fails : List Nat := []
  let list_1 := (← ofNested [[(1), (2), (3)], [(4), (5), (6)], [(7), (8)], [(9), (10)]])
  let _ := (← Heap.clearGroups (list_1))
  let fails := fails ++ (← check 328 do return (← Heap.equals (list_1) (← ofItems [(1), (2), (3), (4), (5), (6), (7), (8), (9), (10)]) true))
  return fails

theorem test_clear_groups_passes : (test_clear_groups (Heap.empty 0)).1 = .ok [] := by decide +kernel

/-- `test_basic_sort` (test/test_util.py:330-337). -/
def test_basic_sort : HM Int (List Nat) := do
  let fails : List Nat := []
  let values : List Int := ([(10), (1), (9), (2), (8), (3), (7), (4), (6), (5)])
  let test_list := (← ofItems values)
  let _ := (← Heap.sort (fun a b => .ok (decide (a ≤ b))) 900 (test_list))
  let fails := fails ++ (← check 334 do return (← Heap.equals (test_list) (← ofItems (sorted values)) true))
  let fails := fails ++ (← check 335 do return decide (((← nodeValue (← HM.read fun h => h.first (test_list)) : Int)) = (1)))
  let fails := fails ++ (← check 336 do return decide (((← nodeValue (← HM.read fun h => h.last (test_list)) : Int)) = (10)))
  let fails := fails ++ (← check 337 do return (← isSingleGroup (test_list)))
  return fails

theorem test_basic_sort_passes : (test_basic_sort (Heap.empty 0)).1 = .ok [] := by decide +kernel

/-- `test_sort_of_groups` (test/test_util.py:339-345). -/
def test_sort_of_groups : HM Int (List Nat) := do
  let fails : List Nat := []
  let test_list := (← ofNested [[(12), (3), (20)], [(18), (5), (11)], [(1), (8)], [(15)], [(2), (6), (14)]])
  let _ := (← Heap.sort (fun a b => .ok (decide (a ≤ b))) 900 (test_list))
  let fails := fails ++ (← check 342 do return (← Heap.equals (test_list) (← ofItems [(1), (2), (3), (5), (6), (8), (11), (12), (14), (15), (18), (20)]) true))
  let fails := fails ++ (← check 343 do return decide (((← nodeValue (← HM.read fun h => h.first (test_list)) : Int)) = (1)))
  let fails := fails ++ (← check 344 do return decide (((← nodeValue (← HM.read fun h => h.last (test_list)) : Int)) = (20)))
  let fails := fails ++ (← check 345 do return (← isSingleGroup (test_list)))
  return fails

theorem test_sort_of_groups_passes : (test_sort_of_groups (Heap.empty 0)).1 = .ok [] := by decide +kernel

end Bibleref.Tests.GroupedLists
