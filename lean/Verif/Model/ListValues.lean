import Verif.Model.Values
import Verif.Model.Heap

/-!
# Methods of lists with arguments of any type

What the methods that `BibleRangeList` has from `GroupedList` (`src/bibleref/util.py`) do with values of any type. `Model/Heap.lean`
has the same methods for arguments of the intended types. The simplifications of `Model/Values.lean` apply. `seq` is taken to have
a length in `equalsV`.
-/

namespace Bibleref
namespace RangeHeap
open HM

/-- `_check_type` of `BibleRangeList` (ref.py:1268-1270). -/
def checkType : PyVal → HM BibleRange BibleRange
  | .range r => Pure.pure r
  | _ => throw .typeError

/-- `index < 0` and what follows (util.py:216-217): only an integer can be compared with 0. -/
def checkIndex : PyVal → HM BibleRange Int
  | .int i => Pure.pure i
  | _ => throw .typeError

/-- `prepend` (util.py:460-468). -/
def prependV (L : Nat) (x : PyVal) (newGroup : Bool) : HM BibleRange Unit := do
  let r ← checkType x
  Heap.prepend L r newGroup

/-- `append` (util.py:470-478). -/
def appendV (L : Nat) (x : PyVal) (newGroup : Bool) : HM BibleRange Unit := do
  let r ← checkType x
  Heap.append L r newGroup

/-- The loops of `extend` (util.py:491-492) and, with `newGroup` for the first item only, `append_group` (util.py:484-487). -/
def extendItems (L : Nat) : Bool → List PyVal → HM BibleRange Unit
  | _, [] => Pure.pure ()
  | newGroup, x :: xs => do
    appendV L x newGroup
    extendItems L false xs

/-- `extend` with something other than a list that is changed thereby (util.py:489-492), and `+=` (util.py:699-701). -/
def extendV (d : BibleData) (L : Nat) (x : PyVal) : HM BibleRange Unit := do
  let xs ← readE fun _ => x.items d
  extendItems L false xs

/-- `append_group` with something other than a list that is changed thereby (util.py:480-487). -/
def appendGroupV (d : BibleData) (L : Nat) (x : PyVal) : HM BibleRange Unit := do
  let xs ← readE fun _ => x.items d
  extendItems L true xs

/-- `insert` (util.py:494-502). What is no integer is not equal to one either and gets to `_node_at`. -/
def insertV (L : Nat) (i x : PyVal) : HM BibleRange Unit := do
  let r ← checkType x
  let i ← checkIndex i
  Heap.insert L i r

/-- `insert_group_at` (util.py:504-506). The default for the index is `None`. -/
def insertGroupAtV (L : Nat) (i : PyVal) : HM BibleRange Unit := do
  let i ← checkIndex i
  Heap.insertGroupAt L i

/-- `pop` (util.py:508-513). `None` is the default for the index. -/
def popV (L : Nat) : PyVal → HM BibleRange BibleRange
  | .none => Heap.pop L none
  | i => do
    let i ← checkIndex i
    Heap.pop L (some i)

/-- `del self[i]` (util.py:690-691), which calls `pop`. -/
def delItemV (L : Nat) (i : PyVal) : HM BibleRange Unit := do
  let _ ← popV L i

/-- `self[i]` (util.py:683-684). -/
def getItemV (L : Nat) (i : PyVal) : HM BibleRange BibleRange := do
  let i ← checkIndex i
  Heap.getItem L i

/-- `self[i] = x` (util.py:686-688). -/
def setItemV (L : Nat) (i x : PyVal) : HM BibleRange Unit := do
  let r ← checkType x
  let i ← checkIndex i
  Heap.setItem L i r

/-- `remove` (util.py:515-525). -/
def removeV (L : Nat) (x : PyVal) : HM BibleRange Unit := do
  let r ← checkType x
  Heap.remove L r

/-- `count` (util.py:451-458). -/
def countV (L : Nat) (x : PyVal) : HM BibleRange Int := do
  let r ← checkType x
  Heap.count L r

/-- `groups[k]` (util.py:86-101, 113-115). -/
def groupAtV (L : Nat) (k : PyVal) : HM BibleRange Nat := do
  let k ← checkIndex k
  Heap.groupAt L k

/-- `view[i]` (util.py:168-170). -/
def viewGetV (g : Nat) (i : PyVal) : HM BibleRange BibleRange := do
  readE (Heap.viewCheck g)
  let i ← checkIndex i
  Heap.viewGet g i

/-- `view[i] = x` (util.py:172-175). -/
def viewSetV (g : Nat) (i x : PyVal) : HM BibleRange Unit := do
  readE (Heap.viewCheck g)
  let r ← checkType x
  let i ← checkIndex i
  Heap.viewSet g i r

/-- `del view[i]` (util.py:177-180). -/
def viewDelV (g : Nat) (i : PyVal) : HM BibleRange Unit := do
  readE (Heap.viewCheck g)
  let i ← checkIndex i
  Heap.viewDel g i

/-- `x - 1` (used at util.py:440): for verses (ref.py:546-549), ranges (ref.py:1121-1122) and lists (ref.py:1546-1547) their own
operators are called. -/
def minusOne (e : Env) : PyVal → Except PyErr PyVal
  | .int i => .ok (.int (i - 1))
  | .verse v => do
    match ← v.sub e 1 none with
    | none => return .none
    | some w => return .verse w
  | .range r => do
    let l ← r.differenceV e (.int 1) none
    return .list l
  | .list l => do
    let m ← RangeList.differenceV e l (.int 1) none 0
    return .list m
  | _ => .error .typeError

/-- `index` (util.py:431-449). -/
def indexV (e : Env) (L : Nat) (x lo hi : PyVal) : HM BibleRange Int := do
  let r ← checkType x
  let lo ← (match lo with
    | .none => Pure.pure 0
    | lo => checkIndex lo : HM BibleRange Int)
  match hi with
  | .none => Heap.index L r (some lo) none
  | hi =>
    let _ ← Heap.conformIndex L lo
    let m ← readE fun _ => minusOne e hi
    let i ← checkIndex m
    Heap.index L r (some lo) (some (i + 1))

/-- `self_item != other_item` for the items in turn (util.py:669-672), until one of the two runs out. What is no range is different
from one, except that for a list Python asks the list, which raises `TypeError` for want of a length. -/
def itemsEq : List BibleRange → List PyVal → Except PyErr Bool
  | a :: l, x :: m => match x with
    | .range b => if a = b then itemsEq l m else .ok false
    | .list _ => .error .typeError
    | _ => .ok false
  | _, _ => .ok true

/-- `len(value)` (used at util.py:653): `TypeError` for what has no length. -/
def lenV : PyVal → Except PyErr Int
  | .str s => .ok s.length
  | .list l => .ok l.flatten.length
  | .seq _ l => .ok l.length
  | _ => .error .typeError

/-- `equals` with a value (util.py:647-673), and `==` (util.py:644-645). Two lists of the heap are compared by `Heap.equals`. -/
def equalsV (d : BibleData) (L : Nat) (x : PyVal) (compareGroups : Bool) : HM BibleRange Bool := do
  let c ← Heap.len L
  let n ← readE fun _ => lenV x
  if c ≠ n then return false
  else if compareGroups then
    match x with
    | .list l =>
      let k ← Heap.groupsLen L
      if k ≠ l.length then return false
      else
        let gs ← Heap.toNested L
        return (gs.zip l).all fun p => Heap.zipEq p.1 p.2
    | _ => return false
  else
    let l ← Heap.toList L
    let m ← readE fun _ => x.items d
    readE fun _ => itemsEq l m

end RangeHeap
end Bibleref
