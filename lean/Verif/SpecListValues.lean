import Verif.SpecHistory
import Verif.Model.ListValues

/-!
# Specification of list methods with arguments of any type

Which calls with arguments of any type are calls with arguments of the intended types. Nothing here refers to the modelled methods
except `ValueOp.call`, which says which method a call stands for.
-/

namespace Bibleref

/-- The calls that change a list, with arguments of any type. -/
inductive ValueOp where
  | prepend (x : PyVal) (newGroup : Bool)
  | append (x : PyVal) (newGroup : Bool)
  | insert (i x : PyVal)
  | insertGroupAt (i : PyVal)
  | pop (i : PyVal)
  | remove (x : PyVal)
  | setItem (i x : PyVal)
  | delItem (i : PyVal)

/-- The method a call stands for. -/
def ValueOp.call (L : Nat) : ValueOp → HM BibleRange (Option BibleRange)
  | .prepend x newGroup => do RangeHeap.prependV L x newGroup; return none
  | .append x newGroup => do RangeHeap.appendV L x newGroup; return none
  | .insert i x => do RangeHeap.insertV L i x; return none
  | .insertGroupAt i => do RangeHeap.insertGroupAtV L i; return none
  | .pop i => do
    let r ← RangeHeap.popV L i
    return some r
  | .remove x => do RangeHeap.removeV L x; return none
  | .setItem i x => do RangeHeap.setItemV L i x; return none
  | .delItem i => do RangeHeap.delItemV L i; return none

/-- The call with arguments of the intended types: items are ranges, indices are integers, and the index of `pop` may be left
out. -/
def ValueOp.plain : ValueOp → Option (ListOp BibleRange)
  | .prepend (.range r) newGroup => some (.prepend r newGroup)
  | .append (.range r) newGroup => some (.append r newGroup)
  | .insert (.int i) (.range r) => some (.insert i r)
  | .insertGroupAt (.int i) => some (.insertGroupAt i)
  | .pop .none => some (.pop none)
  | .pop (.int i) => some (.pop (some i))
  | .remove (.range r) => some (.remove r)
  | .setItem (.int i) (.range r) => some (.setItem i r)
  | .delItem (.int i) => some (.delItem i)
  | _ => none

/-- The ranges with which a sequence of values begins. -/
def leadingRanges : List PyVal → List BibleRange
  | .range r :: xs => r :: leadingRanges xs
  | _ => []

/-- The values are ranges only. -/
def onlyRanges : List PyVal → Bool
  | [] => true
  | .range _ :: xs => onlyRanges xs
  | _ :: _ => false

/-- An index that may be left out: `None` or an integer. -/
def optIndex : PyVal → Option (Option Int)
  | .none => some none
  | .int i => some (some i)
  | _ => none

end Bibleref
