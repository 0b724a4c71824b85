import Verif.SpecLoops
import Verif.Model.Iterators

/-!
# What iterators are meant to do when lists are changed between their steps
-/

namespace Bibleref
variable {α : Type}

/-- What a program that uses lists and iterators does, step by step. Iterators are numbered in the order of their creation. -/
inductive Action (α : Type) where
  /-- an operation on lists -/
  | call (op : WorldOp α)
  /-- `iter(list)` or `reversed(list)` (util.py:638, 693) -/
  | iter (L : Nat) (back : Bool)
  /-- `iter(list.groups[k])` (util.py:113-115, 148) -/
  | iterGroup (L k : Nat)
  /-- `iter(list.groups)` (util.py:106) -/
  | iterGroups (L : Nat)
  /-- `iter(group)` for the group that the iterator with the number `k` over the groups of a list has given last (util.py:110, 148) -/
  | iterView (k : Nat)
  /-- `next(iterator)` -/
  | next (k : Nat)

/-- The methods an action stands for. Result: what it gives and the memory and iterators afterwards. -/
def Action.run [DecidableEq α] (le : α → α → Bool) (depth : Nat) (h : Heap α) (gens : List (Walk × Gen)) :
    Action α → Except PyErr (Option α) × Heap α × List (Walk × Gen)
  | .call op => let (r, h') := op.call le depth h; (r, h', gens)
  | .iter L back => (.ok none, h, gens ++ [(if back then .backward else .forward, .list L)])
  | .iterGroup L k => match Heap.groupAt L k h with
    | (.ok g, h') => (.ok none, h', gens ++ [(.group, .view g)])
    | (.error x, h') => (.error x, h', gens)
  | .iterGroups L => (.ok none, h, gens ++ [(.groups, .list L)])
  | .iterView k => match gens[k]? with
    | some (.groups, .at n) => (.ok none, h, gens ++ [(.group, .view n)])
    | _ => (.error .indexError, h, gens)
  | .next k => match gens[k]? with
    | none => (.error .indexError, h, gens)
    | some (w, g) => let (r, g') := h.advance w g; (r, h, gens.set k (w, g'))

/-- A program. -/
def Action.runs [DecidableEq α] (le : α → α → Bool) (depth : Nat) :
    List (Action α) → Heap α → List (Walk × Gen) → List (Except PyErr (Option α)) × Heap α × List (Walk × Gen)
  | [], h, gens => ([], h, gens)
  | a :: as, h, gens =>
    let (r, h', gens') := a.run le depth h gens
    let (rs, h'', gens'') := runs le depth as h' gens'
    (r :: rs, h'', gens'')

/-- What comes after an element that has been removed. -/
inductive Ahead (α : Type) where
  /-- nothing: it was the last one -/
  | nothing
  /-- the element now at position `i` -/
  | element (i : Nat)
  /-- an element `v` that has been removed too -/
  | removed (v : α) (next : Ahead α)

/-- Where an iterator is. -/
inductive Spot (α : Type) where
  /-- before the beginning of a list -/
  | start
  /-- before the beginning of a group, whose first element when the iterator was made is now at position `i` -/
  | first (i : Nat)
  /-- before the beginning of a group, whose first element when the iterator was made has been removed -/
  | firstRemoved
  /-- at the element now at position `i`; an iterator over groups is at the first element that its group had when it came to it -/
  | on (i : Nat)
  /-- at an element that has been removed -/
  | off (next : Ahead α)
  /-- after the end -/
  | over
  /-- the list has been cleared -/
  | unknown

/-- An iterator. -/
structure Cursor (α : Type) where
  list : Nat
  walk : Walk
  place : Spot α

/-- The iterator comes to position `o`: what `next()` gives (`none` stands for `StopIteration`) and where the iterator is then. -/
def Spot.arrive (xs : List (List α)) (o : Option Nat) : Except PyErr (Option α) × Spot α :=
  match o.bind fun i => xs.flatten[i]?.map fun v => (i, v) with
  | none => (.ok none, .over)
  | some (i, v) => (.ok (some v), .on i)

/-- An iterator over a group ends where another group begins. -/
def Spot.arriveIn (w : Walk) (xs : List (List α)) (i : Nat) : Except PyErr (Option α) × Spot α :=
  if w = .group ∧ (Nested.groupFrom xs i).isSome then (.ok none, .over) else arrive xs (some i)

/-- What `next()` is meant to do. An iterator goes on with the element after the one it is at, or before it for `reversed`. If this
one has been removed, it goes on with the one that came next when it was removed. An iterator over groups goes on with the next
group if its element is still the first one of a group; if it is not, or has been removed, it ends. For a group its first element
is given. -/
def Spot.next (w : Walk) (xs : List (List α)) : Spot α → Except PyErr (Option α) × Spot α
  | .start => match w with
    | .backward => arrive xs (if xs.flatten.length = 0 then none else some (xs.flatten.length - 1))
    | _ => arrive xs (some 0)
  | .first i => if (Nested.groupFrom xs i).isSome then arrive xs (some i) else (.error .groupView, .over)
  | .firstRemoved => (.error .groupView, .over)
  | .on i => match w with
    | .backward => arrive xs (if i = 0 then none else some (i - 1))
    | .groups => arrive xs ((Nested.groupFrom xs i).map fun g => i + g.length)
    | w => arriveIn w xs (i + 1)
  | .off .nothing => (.ok none, .over)
  | .off (.element i) => arriveIn w xs i
  | .off (.removed v a) => (.ok (some v), .off a)
  | .over => (.ok none, .over)
  | .unknown => (.ok none, .unknown)

section
variable [DecidableEq α] (le : α → α → Bool)

/-- Where the element at position `i` is after an operation, as `ListOp.place`, with `sort`: equal elements keep their order. -/
def ListOp.moves (xs : List (List α)) (op : ListOp α) (i : Nat) : Nat × Nat := match op with
  | .sort =>
    let k := ((xs.flatten.zipIdx.mergeSort fun a b => le a.1 b.1).map Prod.snd).idxOf i
    (k, k + 1)
  | op => op.place xs i

/-- What comes next after an element that has just been removed and had the place `p`; `n` elements are left. -/
def Ahead.from (w : Walk) (n : Nat) (p : Nat × Nat) : Ahead α := match w with
  | .backward => if p.1 = 0 then .nothing else .element (p.1 - 1)
  | .groups => .nothing
  | _ => if p.2 < n then .element p.2 else .nothing

/-- What comes next after an operation; `moves` says where the elements are, `xs` is the list before and `n` the number of elements
after it. -/
def Ahead.after (w : Walk) (moves : Nat → Nat × Nat) (xs : List α) (n : Nat) : Ahead α → Ahead α
  | .nothing => .nothing
  | .element i => match xs[i]? with
    | none => .nothing
    | some v => if (moves i).1 = (moves i).2 then .removed v (Ahead.from w n (moves i)) else .element (moves i).1
  | .removed v a => .removed v (a.after w moves xs n)

/-- Where the iterator is after an operation. -/
def Spot.after (w : Walk) (moves : Nat → Nat × Nat) (xs : List α) (n : Nat) : Spot α → Spot α
  | .first i => if (moves i).1 = (moves i).2 then .firstRemoved else .first (moves i).1
  | .on i => if (moves i).1 = (moves i).2 then .off (Ahead.from w n (moves i)) else .on (moves i).1
  | .off a => .off (a.after w moves xs n)
  | p => p

/-- Where the iterator is after the list has been cleared. -/
def Spot.cleared : Spot α → Spot α
  | .start => .start
  | .over => .over
  | _ => .unknown

/-- An iterator after an operation. -/
def Cursor.after (ws ws' : List (List (List α))) (op : WorldOp α) (c : Cursor α) : Cursor α := match op with
  | .on L op => if c.list = L then { c with place := match op with
      | .clear => c.place.cleared
      | op => c.place.after c.walk (op.moves le (ws[L]?.getD [])) (ws[L]?.getD []).flatten (ws'[L]?.getD []).flatten.length } else c
  | _ => c

/-- What an action is meant to do. -/
def Action.meaning (ws : List (List (List α))) (cs : List (Cursor α)) :
    Action α → Except PyErr (Option α) × List (List (List α)) × List (Cursor α)
  | .call op => match op.meaning le ws with
    | .ok (r, ws') => (.ok r, ws', cs.map (Cursor.after le ws ws' op))
    | .error x => (.error x, ws, cs)
  | .iter L back => (.ok none, ws, cs ++ [⟨L, if back then .backward else .forward, .start⟩])
  | .iterGroup L k => (.ok none, ws, cs ++ [⟨L, .group, .first (((ws[L]?.getD []).take k).flatten.length)⟩])
  | .iterGroups L => (.ok none, ws, cs ++ [⟨L, .groups, .start⟩])
  | .iterView k => match cs[k]? with
    | some ⟨L, .groups, .on i⟩ => (.ok none, ws, cs ++ [⟨L, .group, .first i⟩])
    | some ⟨L, .groups, .off _⟩ => (.ok none, ws, cs ++ [⟨L, .group, .firstRemoved⟩])
    | _ => (.error .indexError, ws, cs)
  | .next k => match cs[k]? with
    | none => (.error .indexError, ws, cs)
    | some c => let (r, p) := c.place.next c.walk (ws[c.list]?.getD []); (r, ws, cs.set k { c with place := p })

/-- What a program is meant to do. -/
def Action.meanings : List (Action α) → List (List (List α)) → List (Cursor α) →
    List (Except PyErr (Option α)) × List (List (List α)) × List (Cursor α)
  | [], ws, cs => ([], ws, cs)
  | a :: as, ws, cs =>
    let (r, ws', cs') := a.meaning le ws cs
    let (rs, ws'', cs'') := meanings as ws' cs'
    (r :: rs, ws'', cs'')

/-- What is asked of an action: the arguments are sensible, and an iterator is not used any more when its list has been cleared
after it was begun. -/
def Action.Sensible (depth : Nat) (ws : List (List (List α))) (cs : List (Cursor α)) : Action α → Prop
  | .call op => op.Sensible depth ws
  | .iter L _ => L < ws.length
  | .iterGroup L k => ∃ xs, ws[L]? = some xs ∧ k < xs.length
  | .iterGroups L => L < ws.length
  | .iterView k | .next k => ∀ c, cs[k]? = some c → c.place ≠ .unknown

/-- A program of such actions. -/
def Action.SensibleRun (depth : Nat) : List (Action α) → List (List (List α)) → List (Cursor α) → Prop
  | [], _, _ => True
  | a :: as, ws, cs => a.Sensible depth ws cs ∧ SensibleRun depth as (a.meaning le ws cs).2.1 (a.meaning le ws cs).2.2

end
end Bibleref
