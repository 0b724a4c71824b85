import Verif.Model.Loops

/-!
# Iterators that are advanced one element at a time

`iter(list)`, `reversed(list)`, `iter(group)` and `iter(list.groups)` make generators. A generator runs only when `next()` is called, up to its next
`yield`; in between it keeps a node. After its end or an exception every `next()` raises `StopIteration`.
-/

namespace Bibleref

/-- Which generator: `__iter__` (util.py:638-642) or `__reversed__` (util.py:693-697) of a list, `__iter__` of a group
(util.py:148-155), or `__iter__` of the groups of a list (util.py:106-111). -/
inductive Walk where
  | forward
  | backward
  | group
  | groups
  deriving DecidableEq

/-- What a generator keeps. -/
inductive Gen where
  /-- not begun, for a list or its groups (util.py:638, 693, 106) -/
  | list (L : Nat)
  /-- not begun, for the group with the given head (util.py:148) -/
  | view (g : Nat)
  /-- at a `yield` for the given node (util.py:641, 696, 152, 155); for groups, of the view with this head (util.py:110) -/
  | at (n : Nat)
  /-- ended -/
  | ended

namespace Heap
variable {α : Type}

/-- The generator has come to the node, if there is one (util.py:640-641, 695-696): what `next()` gives (`none` stands for
`StopIteration`), and what the generator then keeps. -/
def reach (h : Heap α) : Option Nat → Except PyErr (Option α) × Gen
  | none => (.ok none, .ended)
  | some n => (.ok (some (h.value n)), .at n)

/-- `next(iterator)` (util.py:638-642, 693-697, 148-155, 106-111). Simplification: for a view the value of its head is given. -/
def advance (h : Heap α) (w : Walk) : Gen → Except PyErr (Option α) × Gen
  | .list L => h.reach (match w with | .backward => h.last L | .groups => h.firstHead L | _ => h.first L)
  | .view g => match viewCheck g h with
    | .error x => (.error x, .ended)
    | .ok () => h.reach (some g)
  | .at n => match w with
    | .forward => h.reach (h.next n)
    | .backward => h.reach (h.prev n)
    | .groups => h.reach (h.nextHead n)
    | .group => match h.next n with
      | none => h.reach none
      | some q => if h.isHead q then h.reach none else h.reach (some q)
  | .ended => (.ok none, .ended)

end Heap

end Bibleref
