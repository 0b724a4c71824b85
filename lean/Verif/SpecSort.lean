/-!
# How deeply the calls of `sort` are nested

A separate specification of the room on the stack that sorting a list takes.
-/

namespace Bibleref.Spec

/-- Merging two lists by looking at their first elements takes one call for each element that is moved until one list is used up, and
one more; each call is made by the one before. -/
def mergeCalls {α : Type} (le : α → α → Bool) : List α → List α → Nat
  | [], _ => 1
  | _ :: _, [] => 1
  | a :: as, b :: bs => 1 + if le a b then mergeCalls le as (b :: bs) else mergeCalls le (a :: as) bs
termination_by as bs => as.length + bs.length

/-- Sorting a list takes one call, within which the halves are sorted and then merged. The first half is the longer one. -/
def sortCalls {α : Type} (le : α → α → Bool) (l : List α) : Nat :=
  if l.length ≤ 1 then 1
  else
    let first := l.take ((l.length + 1) / 2)
    let second := l.drop ((l.length + 1) / 2)
    1 + max (max (sortCalls le first) (sortCalls le second)) (mergeCalls le (first.mergeSort le) (second.mergeSort le))
termination_by l.length
decreasing_by
  · simp only [List.length_take]; omega
  · simp only [List.length_drop]; omega

end Bibleref.Spec
