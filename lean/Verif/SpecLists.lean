import Verif.Model.Heap

/-!
# Specification of grouped lists

What a grouped list is meant to be: a plain sequence of groups, each a plain sequence. The operations of the interface are
given here on such nested lists, without nodes or links. Nothing here refers to the modelled methods except `ListOp.call` and
`WorldOp.call`, which say which method an operation of a history stands for.
-/

namespace Bibleref
namespace Nested
variable {α : Type}

/-- Put `v` before position `i`; at a boundary between groups it begins the later group, at the end it ends the last group. -/
def insertAt (v : α) : List (List α) → Nat → List (List α)
  | [], _ => [[v]]
  | [g], i => [g.take i ++ v :: g.drop i]
  | g :: gs, i => if i < g.length then (g.take i ++ v :: g.drop i) :: gs else g :: insertAt v gs (i - g.length)

/-- Take out the element at position `i`, and its group if nothing is left in it. -/
def removeAt : List (List α) → Nat → List (List α)
  | [], _ => []
  | g :: gs, i =>
    if i < g.length then (if g.length = 1 then gs else g.eraseIdx i :: gs) else g :: removeAt gs (i - g.length)

/-- Replace the element at position `i`. -/
def setAt (v : α) : List (List α) → Nat → List (List α)
  | [], _ => []
  | g :: gs, i => if i < g.length then g.set i v :: gs else g :: setAt v gs (i - g.length)

/-- Begin a group at position `i`, unless one begins there already. -/
def splitAt : List (List α) → Nat → List (List α)
  | [], _ => []
  | g :: gs, i =>
    if i = 0 then g :: gs
    else if i < g.length then g.take i :: g.drop i :: gs
    else g :: splitAt gs (i - g.length)

/-- Put `l` at the end of the last group. -/
def extend : List (List α) → List α → List (List α)
  | [], [] => []
  | [], l => [l]
  | [g], l => [g ++ l]
  | g :: gs, l => g :: extend gs l

/-- Put `l` at the end as a group of its own, unless it is empty. -/
def addGroup (gs : List (List α)) (l : List α) : List (List α) := if l = [] then gs else gs ++ [l]

/-- One group, or none when there are no elements. -/
def single (l : List α) : List (List α) := if l = [] then [] else [l]

/-- Number of elements. -/
def size (gs : List (List α)) : Nat := gs.flatten.length

/-- The positions where groups begin. -/
def begins (gs : List (List α)) : List Nat := (List.range gs.length).map fun i => (gs.take i).flatten.length

/-- The position a Python index stands for in a sequence of length `n`. -/
def pos (n : Nat) (i : Int) : Option Nat :=
  if 0 ≤ i ∧ i < n then some i.toNat else if i < 0 ∧ -(n : Int) ≤ i then some (i + n).toNat else none

/-- The position, or `IndexError`. -/
def posE (n : Nat) (i : Int) : Except PyErr Nat :=
  match pos n i with
  | some k => .ok k
  | none => .error .indexError

end Nested

/-- The operations on one list. -/
inductive ListOp (α : Type) where
  | prepend (v : α) (newGroup : Bool)
  | append (v : α) (newGroup : Bool)
  | extend (l : List α)
  | appendGroup (l : List α)
  | insert (i : Int) (v : α)
  | insertGroupAt (i : Int)
  | pop (i : Option Int)
  | remove (v : α)
  | setItem (i : Int) (v : α)
  | delItem (i : Int)
  | groupSet (k i : Nat) (v : α)
  | groupDel (k i : Nat)
  | clear
  | clearGroups
  | reverse
  | sort

/-- The operations on all lists, numbered in the order of their creation. -/
inductive WorldOp (α : Type) where
  /-- create an empty list -/
  | new
  /-- an operation on one list -/
  | on (L : Nat) (op : ListOp α)
  /-- extend the first list with the second -/
  | extendList (L M : Nat)
  /-- create a list from another one -/
  | copy (M : Nat)

section
variable {α : Type} [DecidableEq α] (le : α → α → Bool)

/-- What an operation is meant to do to a list: the value it returns, if any, and the list afterwards, or the exception it
raises, which leaves the list as it was. -/
def ListOp.meaning (xs : List (List α)) : ListOp α → Except PyErr (Option α × List (List α))
  | .prepend v newGroup => .ok (none, if newGroup then [v] :: xs else Nested.insertAt v xs 0)
  | .append v newGroup => .ok (none, if newGroup then xs ++ [[v]] else Nested.insertAt v xs (Nested.size xs))
  | .extend l => .ok (none, Nested.extend xs l)
  | .appendGroup l => .ok (none, Nested.addGroup xs l)
  | .insert i v => do
    let k ← if i = Nested.size xs then .ok (Nested.size xs) else Nested.posE (Nested.size xs) i
    return (none, Nested.insertAt v xs k)
  | .insertGroupAt i => do
    let k ← Nested.posE (Nested.size xs) i
    return (none, Nested.splitAt xs k)
  | .pop i => do
    let k ← Nested.posE (Nested.size xs) (i.getD (-1))
    return (xs.flatten[k]?, Nested.removeAt xs k)
  | .remove v => if v ∈ xs.flatten then .ok (none, Nested.removeAt xs (xs.flatten.idxOf v)) else .error .valueError
  | .setItem i v => do
    let k ← Nested.posE (Nested.size xs) i
    return (none, Nested.setAt v xs k)
  | .delItem i => do
    let k ← Nested.posE (Nested.size xs) i
    return (none, Nested.removeAt xs k)
  | .groupSet k i v => match xs[k]? with
    | none => .error .indexError
    | some g => if i < g.length then .ok (none, xs.set k (g.set i v)) else .error .indexError
  | .groupDel k i => match xs[k]? with
    | none => .error .indexError
    | some g => if i < g.length then .ok (none, if g.length = 1 then xs.eraseIdx k else xs.set k (g.eraseIdx i))
      else .error .indexError
  | .clear => .ok (none, [])
  | .clearGroups => .ok (none, Nested.single xs.flatten)
  | .reverse => .ok (none, Nested.single xs.flatten.reverse)
  | .sort => .ok (none, Nested.single (xs.flatten.mergeSort le))

/-- What an operation is meant to do to all lists. -/
def WorldOp.meaning (ws : List (List (List α))) : WorldOp α → Except PyErr (Option α × List (List (List α)))
  | .new => .ok (none, ws ++ [[]])
  | .on L op => do
    let (r, xs) ← op.meaning le (ws[L]?.getD [])
    return (r, ws.set L xs)
  | .extendList L M => .ok (none, ws.set L (Nested.extend (ws[L]?.getD []) (ws[M]?.getD []).flatten))
  | .copy M => .ok (none, ws ++ [ws[M]?.getD []])

/-- A history: every operation gives a value or an exception; the following ones are performed in any case. -/
def meanings : List (WorldOp α) → List (List (List α)) → List (Except PyErr (Option α)) × List (List (List α))
  | [], ws => ([], ws)
  | op :: ops, ws => match op.meaning le ws with
    | .ok (r, ws') => let (rs, ws'') := meanings ops ws'; (.ok r :: rs, ws'')
    | .error e => let (rs, ws') := meanings ops ws; (.error e :: rs, ws')

/-- The method an operation stands for. `groups[k][i] = v` and `del groups[k][i]` take the view first. -/
def ListOp.call (depth L : Nat) : ListOp α → HM α (Option α)
  | .prepend v newGroup => do Heap.prepend L v newGroup; return none
  | .append v newGroup => do Heap.append L v newGroup; return none
  | .extend l => do Heap.extend L l; return none
  | .appendGroup l => do Heap.appendGroup L l; return none
  | .insert i v => do Heap.insert L i v; return none
  | .insertGroupAt i => do Heap.insertGroupAt L i; return none
  | .pop i => do
    let v ← Heap.pop L i
    return some v
  | .remove v => do Heap.remove L v; return none
  | .setItem i v => do Heap.setItem L i v; return none
  | .delItem i => do Heap.delItem L i; return none
  | .groupSet k i v => do
    let g ← Heap.groupAt L k
    Heap.viewSet g i v
    return none
  | .groupDel k i => do
    let g ← Heap.groupAt L k
    Heap.viewDel g i
    return none
  | .clear => do Heap.clear L; return none
  | .clearGroups => do Heap.clearGroups L; return none
  | .reverse => do Heap.reverse L; return none
  | .sort => do Heap.sort (fun a b => .ok (le a b)) depth L; return none

/-- The method an operation stands for. -/
def WorldOp.call (depth : Nat) : WorldOp α → HM α (Option α)
  | .new => do
    let _ ← Heap.newList
    return none
  | .on L op => op.call le depth L
  | .extendList L M => do
    let k ← HM.read fun h => h.nodes + 1
    Heap.extendList L M k
    return none
  | .copy M => do
    let _ ← Heap.copy M
    return none

/-- Performing a history. -/
def calls (depth : Nat) : List (WorldOp α) → Heap α → List (Except PyErr (Option α)) × Heap α
  | [], h => ([], h)
  | op :: ops, h =>
    let (r, h') := op.call le depth h
    let (rs, h'') := calls depth ops h'
    (r :: rs, h'')

/-- Before anything has been created. `v` stands for the content of memory not yet in use. -/
def Heap.empty (v : α) : Heap α where
  value _ := v
  parent _ := none
  prev _ := none
  next _ := none
  isHead _ := false
  prevHead _ := none
  nextHead _ := none
  first _ := none
  last _ := none
  nodeCount _ := 0
  firstHead _ := none
  lastHead _ := none
  groupCount _ := 0
  nodes := 0
  lists := 0

/-- An index no smaller than minus the length. -/
def Nested.notBelow (n : Nat) (i : Int) : Prop := -(n : Int) ≤ i

/-- A group other than the first one begins at position `k`. -/
def Nested.Boundary (xs : List (List α)) (k : Nat) : Prop := k ≠ 0 ∧ k ∈ Nested.begins xs

/-- What is asked of the arguments of an operation on a list. The implementation is wrong without these conditions:
indices below minus the length (and `pop()` on an empty list) are not refused, `insert_group_at` damages the list when a
group already begins at that place, and sorting needs `depth`, the number of nested calls still possible, to be greater
than the number of elements. -/
def ListOp.Sensible (depth : Nat) (xs : List (List α)) : ListOp α → Prop
  | .insert i _ | .setItem i _ | .delItem i => Nested.notBelow (Nested.size xs) i
  | .insertGroupAt i => Nested.notBelow (Nested.size xs) i ∧ ∀ k, Nested.pos (Nested.size xs) i = some k → ¬ Nested.Boundary xs k
  | .pop none => xs ≠ []
  | .pop (some i) => Nested.notBelow (Nested.size xs) i
  | .sort => Nested.size xs < depth
  | _ => True

/-- What is asked of the arguments of an operation: the lists it is about exist, and a list is not extended with itself,
which goes on for ever. -/
def WorldOp.Sensible (depth : Nat) (ws : List (List (List α))) : WorldOp α → Prop
  | .new => True
  | .on L op => L < ws.length ∧ op.Sensible depth (ws[L]?.getD [])
  | .extendList L M => L < ws.length ∧ M < ws.length ∧ L ≠ M
  | .copy M => M < ws.length

/-- A history of such operations. -/
def SensibleRun (depth : Nat) : List (WorldOp α) → List (List (List α)) → Prop
  | [], _ => True
  | op :: ops, ws => op.Sensible depth ws ∧
    SensibleRun depth ops (match op.meaning le ws with
      | .ok (_, ws') => ws'
      | .error _ => ws)

/-- `h` is the memory after a history of such operations, and `ws` are the lists as they are meant to be then. -/
structure After (depth : Nat) (ops : List (WorldOp α)) (h : Heap α) (ws : List (List (List α))) : Prop where
  sensible : SensibleRun le depth ops []
  run : ∃ v, h = (calls le depth ops (Heap.empty v)).2
  meant : ws = (meanings le ops []).2

end
end Bibleref
