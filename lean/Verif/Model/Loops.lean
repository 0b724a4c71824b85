import Verif.Model.Heap

/-!
# Loops over lists that are changed by the body of the loop

The generators behind `for` loops keep a node and follow its link when the next element is asked for.
-/

namespace Bibleref
namespace Heap
open HM
variable {α : Type}

/-- `for value in list: body` (util.py:638-642), and with `reversed(list)` (util.py:693-697) if `back`. `body` is given the elements
that the loop has yielded so far, the current one last. The result is all elements yielded. The first argument bounds the number
of iterations. -/
def forNodes (back : Bool) (body : List α → HM α Unit) : Nat → List α → Option Nat → HM α (List α)
  | _, seen, none => Pure.pure seen
  | 0, _, some _ => throw .diverges
  | k + 1, seen, some n => do
    let v ← read fun h => h.value n
    body (seen ++ [v])
    let q ← read fun h => if back then h.prev n else h.next n
    forNodes back body k (seen ++ [v]) q

/-- The loop from its beginning (util.py:639, 694). -/
def forEach (back : Bool) (L : Nat) (body : List α → HM α Unit) (fuel : Nat) : HM α (List α) := do
  let q ← read fun h => if back then h.last L else h.first L
  forNodes back body fuel [] q

/-- `for group in list.groups: body` (util.py:106-111). `body` is given the view. The result is the number of groups yielded. -/
def forHeads (body : Nat → HM α Unit) : Nat → Nat → Option Nat → HM α Nat
  | _, c, none => Pure.pure c
  | 0, _, some _ => throw .diverges
  | k + 1, c, some g => do
    body g
    let q ← read fun h => h.nextHead g
    forHeads body k (c + 1) q

/-- The loop from its beginning (util.py:108). -/
def forGroups (L : Nat) (body : Nat → HM α Unit) (fuel : Nat) : HM α Nat := do
  let q ← read fun h => h.firstHead L
  forHeads body fuel 0 q

/-- `for value in group: body` after the check (util.py:151-155), from the given node on. `body` is given the elements that the loop
has yielded so far. The result is all elements yielded. -/
def forViewFrom (body : List α → HM α Unit) : Nat → List α → Nat → HM α (List α)
  | 0, _, _ => throw .diverges
  | k + 1, seen, n => do
    let v ← read fun h => h.value n
    body (seen ++ [v])
    let q ← read fun h => h.next n
    match q with
    | none => Pure.pure (seen ++ [v])
    | some q =>
      let b ← read fun h => h.isHead q
      if b then Pure.pure (seen ++ [v]) else forViewFrom body k (seen ++ [v]) q

/-- The loop from its beginning (util.py:148-155). -/
def forView (g : Nat) (body : List α → HM α Unit) (fuel : Nat) : HM α (List α) := do
  readE (viewCheck g)
  forViewFrom body fuel [] g

end Heap
end Bibleref
