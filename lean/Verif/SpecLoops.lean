import Verif.SpecLists
import Verif.Model.Loops

/-!
# What a loop over a list is meant to do when its body changes the list
-/

namespace Bibleref
variable {α : Type} [DecidableEq α]

/-- The place of the current element, which was at position `i`, after an operation: the number of elements before it and the
position of the element after it. These are the same if it has been removed. -/
def ListOp.place (xs : List (List α)) (i : Nat) : ListOp α → Nat × Nat
  | .prepend _ _ => (i + 1, i + 2)
  | .insert j _ =>
    if j = Nested.size xs then (i, i + 1) else match Nested.pos (Nested.size xs) j with
      | some k => if k ≤ i then (i + 1, i + 2) else (i, i + 1)
      | none => (i, i + 1)
  | .pop j => without i (Nested.pos (Nested.size xs) (j.getD (-1)))
  | .delItem j => without i (Nested.pos (Nested.size xs) j)
  | .remove v => without i (some (xs.flatten.idxOf v))
  | .groupDel k j => without i (some ((xs.take k).flatten.length + j))
  | .reverse => (Nested.size xs - 1 - i, Nested.size xs - i)
  | .append _ _ | .extend _ | .appendGroup _ | .insertGroupAt _ | .setItem _ _ | .groupSet _ _ _ | .clearGroups | .clear | .sort =>
    (i, i + 1)
where
  /-- The place after the element at position `k` has been removed. -/
  without (i : Nat) : Option Nat → Nat × Nat
    | some k => if k < i then (i - 1, i) else if k = i then (i, i) else (i, i + 1)
    | none => (i, i + 1)

/-- The position of the element a loop yields next, the gap between the elements yielded and the others being at `c`. -/
def cursor (back : Bool) (c : Nat) : Option Nat := if back then (if c = 0 then none else some (c - 1)) else some c

/-- A loop whose body performs at most one operation, which it chooses by looking at the elements yielded so far and at the whole
list. Result: the elements yielded, or the exception, and the list afterwards. -/
def loopMeaning (le : α → α → Bool) (back : Bool) (choose : List α → List (List α) → Option (ListOp α)) :
    Nat → List α → Nat → List (List α) → Except PyErr (List α) × List (List α)
  | fuel, seen, c, xs => match (cursor back c).bind fun i => xs.flatten[i]?.map fun v => (i, v) with
    | none => (.ok seen, xs)
    | some (i, v) => match fuel with
      | 0 => (.error .diverges, xs)
      | fuel + 1 => match choose (seen ++ [v]) xs with
        | none => loopMeaning le back choose fuel (seen ++ [v]) (if back then i else i + 1) xs
        | some op => match op.meaning le xs with
          | .error x => (.error x, xs)
          | .ok (_, xs') => loopMeaning le back choose fuel (seen ++ [v])
              (if back then (op.place xs i).1 else (op.place xs i).2) xs'

/-- The body of such a loop. -/
def loopBody (le : α → α → Bool) (depth L : Nat) (choose : List α → List (List α) → Option (ListOp α)) (seen : List α) : HM α Unit := do
  let xs ← Heap.toNested L
  match choose seen xs with
  | none => Pure.pure ()
  | some op =>
    let _ ← op.call le depth L

/-- What is asked of the operations: sensible arguments, and neither `clear` nor `sort`. -/
def GoodChoice (depth : Nat) (choose : List α → List (List α) → Option (ListOp α)) : Prop :=
  ∀ seen xs op, choose seen xs = some op → op.Sensible depth xs ∧ op ≠ .clear ∧ op ≠ .sort

omit [DecidableEq α] in
/-- The group that begins at position `i` of the list, if one does. -/
def Nested.groupFrom : List (List α) → Nat → Option (List α)
  | [], _ => none
  | g :: xs, i => if i = 0 then some g else if i < g.length then none else groupFrom xs (i - g.length)

/-- A loop over the groups whose body performs at most one operation, which it chooses by looking at the group it is given and at
the whole list. `i` is the position of the first element of the group. The loop goes on with the group after the one which then
begins with that element; if it has been removed or begins no group any more, the loop ends. Result: the number of groups yielded,
or the exception, and the list afterwards. -/
def groupLoopMeaning (le : α → α → Bool) (choose : List α → List (List α) → Option (ListOp α)) :
    Nat → Nat → Nat → List (List α) → Except PyErr Nat × List (List α)
  | fuel, c, i, xs => match Nested.groupFrom xs i with
    | none => (.ok c, xs)
    | some g => match fuel with
      | 0 => (.error .diverges, xs)
      | fuel + 1 => match choose g xs with
        | none => groupLoopMeaning le choose fuel (c + 1) (i + g.length) xs
        | some op => match op.meaning le xs with
          | .error x => (.error x, xs)
          | .ok (_, xs') =>
            let p := op.place xs i
            match if p.1 = p.2 then none else Nested.groupFrom xs' p.1 with
            | none => (.ok (c + 1), xs')
            | some g' => groupLoopMeaning le choose fuel (c + 1) (p.1 + g'.length) xs'

/-- The body of such a loop. -/
def groupBody (le : α → α → Bool) (depth L : Nat) (choose : List α → List (List α) → Option (ListOp α)) (view : Nat) : HM α Unit := do
  let g ← Heap.viewToList view
  let xs ← Heap.toNested L
  match choose g xs with
  | none => Pure.pure ()
  | some op =>
    let _ ← op.call le depth L

/-- A loop over a group whose body performs at most one operation, which it chooses by looking at the elements yielded so far and at
the whole list. `i` is the position of the current element. The loop goes on with the element that then follows, if there is one and
it does not begin a group. Result: the elements yielded, or the exception, and the list afterwards. -/
def viewLoopMeaning (le : α → α → Bool) (choose : List α → List (List α) → Option (ListOp α)) :
    Nat → List α → Nat → List (List α) → Except PyErr (List α) × List (List α)
  | fuel, seen, i, xs => match xs.flatten[i]? with
    | none => (.ok seen, xs)
    | some v => match fuel with
      | 0 => (.error .diverges, xs)
      | fuel + 1 =>
        let after (j : Nat) (xs' : List (List α)) :=
          if Nested.groupFrom xs' j = none then viewLoopMeaning le choose fuel (seen ++ [v]) j xs' else (.ok (seen ++ [v]), xs')
        match choose (seen ++ [v]) xs with
        | none => after (i + 1) xs
        | some op => match op.meaning le xs with
          | .error x => (.error x, xs)
          | .ok (_, xs') => after (op.place xs i).2 xs'

omit [DecidableEq α] in
/-- Without the elements that meet `p`; groups in which nothing is left vanish. -/
def Nested.dropping (p : α → Bool) (xs : List (List α)) : List (List α) := (xs.map fun g => g.filter fun v => !p v).filter fun g => !g.isEmpty

/-- The loop `for v in list: if p(v): list.remove(v)`. -/
def removing (p : α → Bool) (seen : List α) (_ : List (List α)) : Option (ListOp α) := match seen.getLast? with
  | some v => if p v then some (.remove v) else none
  | none => none

/-- The loop `for i, v in enumerate(list): list[i] = f(v)`. -/
def replacing (f : α → α) (seen : List α) (xs : List (List α)) : Option (ListOp α) := match seen.getLast? with
  | some v => if seen.length ≤ xs.flatten.length then some (.setItem (seen.length - 1) (f v)) else none
  | none => none

/-- The loop `for v in list: if p(v): list.append(f(v))`. -/
def appending (p : α → Bool) (f : α → α) (seen : List α) (_ : List (List α)) : Option (ListOp α) := match seen.getLast? with
  | some v => if p v then some (.append (f v) false) else none
  | none => none

/-- The loop `for group in list.groups: if p(group): list.append_group(f(group))`. -/
def appendingGroups (p : List α → Bool) (f : List α → List α) (g : List α) (_ : List (List α)) : Option (ListOp α) :=
  if p g then some (.appendGroup (f g)) else none

end Bibleref
