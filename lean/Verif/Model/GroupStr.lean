import Verif.Model.Heap
import Verif.Model.Repr

/-!
# Strings of groups

Model of the `__str__` and `__repr__` methods of `GroupViews`, `GroupView` and `GroupedList` (`src/bibleref/util.py:117-121, 182-186,
703-707`). `shown` is `repr` of an item. `BibleRangeList` has its own `__str__` and `__repr__` (ref.py:1564-1568,
`Verif/Model/Repr.lean`), but the groups of such a list are shown as here. `_Node.__str__` (util.py:69-74), which shows addresses, is
not modelled.
-/

namespace Bibleref

/-- What stands between the brackets of `str(l)`. -/
def pyItems : List (List Char) → List Char
  | [] => []
  | [x] => x
  | x :: l => x ++ ',' :: ' ' :: pyItems l

/-- `str(l)` for a Python list `l` whose items have these `repr`s. -/
def pyListStr (items : List (List Char)) : List Char := '[' :: pyItems items ++ [']']

namespace Heap
open HM
variable {α : Type} (shown : α → Except PyErr (List Char))

/-- `GroupView.__str__` (util.py:185-186) for the view with the given head. -/
def viewText (g : Nat) (h : Heap α) : Except PyErr (List Char) := do
  let l ← viewIds g h
  let items ← l.mapM fun n => shown (h.value n)
  return pyListStr items

/-- `str(view)` (util.py:185-186). -/
def viewStr (g : Nat) : HM α (List Char) := readE (viewText shown g)

/-- `GroupView.__repr__` (util.py:182-183). -/
def viewRepr (g : Nat) (h : Heap α) : Except PyErr (List Char) := do
  let s ← viewText shown g h
  return "GroupView(".toList ++ s ++ [')']

/-- `str(list.groups)`, `GroupViews.__str__` (util.py:120-121): the views are made first (util.py:106-111). -/
def groupsStr (L : Nat) : HM α (List Char) := readE fun h => do
  let l ← heads L h
  let items ← l.mapM fun g => viewRepr shown g h
  return pyListStr items

/-- `repr(list.groups)`, `GroupViews.__repr__` (util.py:117-118). -/
def groupsRepr (L : Nat) : HM α (List Char) := do
  let s ← groupsStr shown L
  return "GroupViews(".toList ++ s ++ [')']

/-- `GroupedList.__str__` (util.py:706-707): `str` of the nested Python lists. -/
def listStr (L : Nat) : HM α (List Char) := do
  let xs ← toNested L
  readE fun _ => do
    let items ← xs.mapM fun g => do
      let items ← g.mapM shown
      return pyListStr items
    return pyListStr items

/-- `GroupedList.__repr__` (util.py:703-704). -/
def listRepr (L : Nat) : HM α (List Char) := do
  let s ← listStr shown L
  return "GroupedList(".toList ++ s ++ [')']

end Heap
end Bibleref
