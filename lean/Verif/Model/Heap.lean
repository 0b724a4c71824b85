import Verif.Model.RangeList

/-!
# Grouped lists as linked nodes in memory

Model of `GroupedList` (`src/bibleref/util.py:10-707`). Node and list objects are numbered in the order of their creation;
a heap gives the attributes of every object, one function per attribute. Methods are computations that read and write the
heap and may raise an exception; what was written before the exception stays written.

Loops that only follow links are bounded by the number of nodes: a walk that has not ended by then has met a node twice and
goes on for ever, which is the result `diverges`. Element types are not checked (`_check_type`, util.py:202-206, does
nothing in `GroupedList`; `BibleRangeList` refuses what is not a `BibleRange`, which cannot be written here). Elements are
compared by equality (util.py:445, 456, 520, 678), and by `le` when sorting (util.py:63-64, 616).
-/

namespace Bibleref

/-- `f` with its value at `a` replaced by `b`: assignment to an attribute of one object. -/
def upd {β : Type} (f : Nat → β) (a : Nat) (b : β) : Nat → β := fun x => if x = a then b else f x

/-- The attributes of all nodes (`GroupedList._Node`, util.py:31-44), of all lists (util.py:527-534), and the number of nodes
and of lists created so far. -/
structure Heap (α : Type) where
  value : Nat → α
  parent : Nat → Option Nat
  prev : Nat → Option Nat
  next : Nat → Option Nat
  isHead : Nat → Bool
  prevHead : Nat → Option Nat
  nextHead : Nat → Option Nat
  first : Nat → Option Nat
  last : Nat → Option Nat
  nodeCount : Nat → Int
  firstHead : Nat → Option Nat
  lastHead : Nat → Option Nat
  groupCount : Nat → Int
  nodes : Nat
  lists : Nat

/-- A computation on the heap that may raise. -/
def HM (α β : Type) := Heap α → Except PyErr β × Heap α

namespace HM
variable {α β γ : Type}

/-- Doing nothing. -/
protected def pure (b : β) : HM α β := fun h => (.ok b, h)

/-- Doing one thing after another; an exception ends the computation. -/
protected def bind (x : HM α β) (f : β → HM α γ) : HM α γ := fun h =>
  match x h with
  | (.ok b, h') => f b h'
  | (.error e, h') => (.error e, h')

instance : Monad (HM α) where
  pure := HM.pure
  bind := HM.bind

/-- `raise`. -/
def throw (e : PyErr) : HM α β := fun h => (.error e, h)

/-- Reading the heap. -/
def read (f : Heap α → β) : HM α β := fun h => (.ok (f h), h)

/-- Reading by a computation that may raise. -/
def readE (f : Heap α → Except PyErr β) : HM α β := fun h => (f h, h)

/-- Writing the heap. -/
def modify (f : Heap α → Heap α) : HM α Unit := fun h => (.ok (), f h)

/-- The object a variable refers to, when an attribute of it is used: `AttributeError` for `None`. -/
def deref : Option Nat → HM α Nat
  | some n => pure n
  | none => throw .attributeError

end HM

namespace Heap
variable {α : Type}
open HM

/-- `_Node(value, prev, next, parent)` (util.py:37-44). -/
def newNode (v : α) (prev next : Option Nat) (parent : Nat) : HM α Nat := fun h =>
  (.ok h.nodes, { h with
    value := upd h.value h.nodes v, parent := upd h.parent h.nodes (some parent), prev := upd h.prev h.nodes prev,
    next := upd h.next h.nodes next, isHead := upd h.isHead h.nodes false, prevHead := upd h.prevHead h.nodes none,
    nextHead := upd h.nextHead h.nodes none, nodes := h.nodes + 1 })

/-- `node.clear_group_head()` (util.py:46-49). -/
def clearGroupHead (n : Nat) : HM α Unit := modify fun h =>
  { h with isHead := upd h.isHead n false, prevHead := upd h.prevHead n none, nextHead := upd h.nextHead n none }

/-- `node.prev = x` -/
def setPrev (n : Nat) (x : Option Nat) : HM α Unit := modify fun h => { h with prev := upd h.prev n x }
/-- `node.next = x` -/
def setNext (n : Nat) (x : Option Nat) : HM α Unit := modify fun h => { h with next := upd h.next n x }
/-- `node.prev_head = x` -/
def setPrevHead (n : Nat) (x : Option Nat) : HM α Unit := modify fun h => { h with prevHead := upd h.prevHead n x }
/-- `node.next_head = x` -/
def setNextHead (n : Nat) (x : Option Nat) : HM α Unit := modify fun h => { h with nextHead := upd h.nextHead n x }
/-- `node.is_group_head = True` -/
def setIsHead (n : Nat) : HM α Unit := modify fun h => { h with isHead := upd h.isHead n true }
/-- `node.parent = None` -/
def clearParent (n : Nat) : HM α Unit := modify fun h => { h with parent := upd h.parent n none }
/-- `node.value = v` -/
def setValue (n : Nat) (v : α) : HM α Unit := modify fun h => { h with value := upd h.value n v }
/-- `self._first = x` -/
def setFirst (L : Nat) (x : Option Nat) : HM α Unit := modify fun h => { h with first := upd h.first L x }
/-- `self._last = x` -/
def setLast (L : Nat) (x : Option Nat) : HM α Unit := modify fun h => { h with last := upd h.last L x }
/-- `self._first_head = x` -/
def setFirstHead (L : Nat) (x : Option Nat) : HM α Unit := modify fun h => { h with firstHead := upd h.firstHead L x }
/-- `self._last_head = x` -/
def setLastHead (L : Nat) (x : Option Nat) : HM α Unit := modify fun h => { h with lastHead := upd h.lastHead L x }
/-- `self._node_count += k` -/
def addNodeCount (L : Nat) (k : Int) : HM α Unit := modify fun h => { h with nodeCount := upd h.nodeCount L (h.nodeCount L + k) }
/-- `self._group_count += k` -/
def addGroupCount (L : Nat) (k : Int) : HM α Unit := modify fun h => { h with groupCount := upd h.groupCount L (h.groupCount L + k) }

/-- `clear` (util.py:527-534). -/
def clear (L : Nat) : HM α Unit := modify fun h =>
  { h with first := upd h.first L none, last := upd h.last L none, nodeCount := upd h.nodeCount L 0,
           firstHead := upd h.firstHead L none, lastHead := upd h.lastHead L none, groupCount := upd h.groupCount L 0 }

/-- `GroupedList()` (util.py:188-195). -/
def newList : HM α Nat := do
  let L ← (fun h => (.ok h.lists, { h with lists := h.lists + 1 }) : HM α Nat)
  clear L
  return L

/-- `_check_is_child` (util.py:208-210). -/
def checkIsChild (L : Nat) (n : Option Nat) : HM α Nat := do
  match n with
  | none => throw .valueError
  | some n =>
    let p ← read fun h => h.parent n
    if p = some L then return n else throw .valueError

/-- `_conform_index` (util.py:212-220). -/
def conformIndex (L : Nat) (i : Int) : HM α Int := do
  let c ← read fun h => h.nodeCount L
  let i := if i < 0 then i + c else i
  if i ≥ c then throw .indexError else return i

/-- `for i in range(k): node = node.next` (util.py:227-228). -/
def walkNext : Nat → Option Nat → HM α (Option Nat)
  | 0, o => return o
  | k + 1, o => do
    let n ← deref o
    let o' ← read fun h => h.next n
    walkNext k o'

/-- `for i in range(k): node = node.prev` (util.py:233-234). -/
def walkPrev : Nat → Option Nat → HM α (Option Nat)
  | 0, o => return o
  | k + 1, o => do
    let n ← deref o
    let o' ← read fun h => h.prev n
    walkPrev k o'

/-- `_node_at` (util.py:222-235). -/
def nodeAt (L : Nat) (i : Int) : HM α (Option Nat) := do
  let i ← conformIndex L i
  let c ← read fun h => h.nodeCount L
  if i ≤ c / 2 then
    let o ← read fun h => h.first L
    walkNext i.toNat o
  else
    let o ← read fun h => h.last L
    walkPrev (c - i - 1).toNat o

/-- `_setup_single_group` (util.py:245-255). -/
def setupSingleGroup (L : Nat) : HM α Unit := do
  let c ← read fun h => h.nodeCount L
  if c > 0 then
    let o ← read fun h => h.first L
    let f ← deref o
    setIsHead f
    setPrevHead f none
    setNextHead f none
    setFirstHead L (some f)
    setLastHead L (some f)
    modify fun h => { h with groupCount := upd h.groupCount L 1 }

/-- `_insert_first` (util.py:237-243). -/
def insertFirst (L : Nat) (v : α) : HM α Unit := do
  let n ← newNode v none none L
  setFirst L (some n)
  setLast L (some n)
  addNodeCount L 1
  setupSingleGroup L

/-- `_insert_new_group_before_head` (util.py:299-318). -/
def insertNewGroupBeforeHead (L n : Nat) (keep : Bool) : HM α Unit := do
  let o ← read fun h => h.next n
  setIsHead n
  let old ← deref o
  let oldPrev ← read fun h => h.prevHead old
  setPrevHead n oldPrev
  match oldPrev with
  | some p => setNextHead p (some n)
  | none => Pure.pure ()
  if keep then
    setNextHead n (some old)
    setPrevHead old (some n)
    addGroupCount L 1
  else
    let oldNext ← read fun h => h.nextHead old
    setNextHead n oldNext
    match oldNext with
    | some q => setPrevHead q (some n)
    | none =>
      let lh ← read fun h => h.lastHead L
      if lh = some old then setLastHead L (some n)
    clearGroupHead old
  let fh ← read fun h => h.firstHead L
  if fh = some old then setFirstHead L (some n)

/-- The loop of `_find_group_head` (util.py:335-339). -/
def findHeadFrom (h : Heap α) : Nat → Option Nat → Except PyErr (Option Nat)
  | _, none => .ok none
  | 0, some _ => .error .diverges
  | k + 1, some n => if h.isHead n then .ok (some n) else findHeadFrom h k (h.prev n)

/-- `_find_group_head` (util.py:335-339). -/
def findGroupHead (o : Option Nat) : HM α (Option Nat) := readE fun h => findHeadFrom h (h.nodes + 1) o

/-- `_insert_new_group_at_node` (util.py:320-333). -/
def insertNewGroupAtNode (L n : Nat) : HM α Unit := do
  let f ← read fun h => h.first L
  if f = some n then return ()
  else
    setIsHead n
    let p ← read fun h => h.prev n
    let o ← findGroupHead p
    setPrevHead n o
    let ph ← deref o
    let q ← read fun h => h.nextHead ph
    setNextHead n q
    match q with
    | some q => setPrevHead q (some n)
    | none => Pure.pure ()
    setNextHead ph (some n)
    let lh ← read fun h => h.lastHead L
    if lh = some ph then setLastHead L (some n)
    addGroupCount L 1

/-- `_insert_before` (util.py:257-282). -/
def insertBefore (L : Nat) (node : Option Nat) (v : α) (newGroup : Bool) : HM α Unit := do
  let n ← checkIsChild L node
  let f ← read fun h => h.first L
  let insertingFirst := decide (f = some n)
  let p ← read fun h => h.prev n
  let new ← newNode v p (some n) L
  match p with
  | some p => setNext p (some new)
  | none => Pure.pure ()
  setPrev n (some new)
  if f = some n then setFirst L (some new)
  addNodeCount L 1
  if newGroup then
    if insertingFirst then insertNewGroupBeforeHead L new true
    else insertNewGroupAtNode L new
  else
    let isHead ← read fun h => h.isHead n
    if isHead then insertNewGroupBeforeHead L new false

/-- `_insert_after` (util.py:284-297). -/
def insertAfter (L : Nat) (node : Option Nat) (v : α) (newGroup : Bool) : HM α Unit := do
  let n ← checkIsChild L node
  let q ← read fun h => h.next n
  let new ← newNode v (some n) q L
  match q with
  | some q => setPrev q (some new)
  | none => Pure.pure ()
  setNext n (some new)
  let l ← read fun h => h.last L
  if l = some n then setLast L (some new)
  addNodeCount L 1
  if newGroup then insertNewGroupAtNode L new

/-- The first half of `_pop_node` (util.py:344-364): taking the node out of the chain of all nodes. -/
def unlink (L n : Nat) : HM α Unit := do
  let c ← read fun h => h.nodeCount L
  let f ← read fun h => h.first L
  let l ← read fun h => h.last L
  if c = 1 then
    setFirst L none
    setLast L none
    setFirstHead L none
    setLastHead L none
  else if f = some n then
    let q ← read fun h => h.next n
    setFirst L q
    let q ← deref q
    setPrev q none
  else if l = some n then
    let p ← read fun h => h.prev n
    setLast L p
    let p ← deref p
    setNext p none
  else
    let p ← read fun h => h.prev n
    let p' ← deref p
    let q ← read fun h => h.next n
    setNext p' q
    let q ← read fun h => h.next n
    let q' ← deref q
    let p ← read fun h => h.prev n
    setPrev q' p
  clearParent n
  addNodeCount L (-1)

/-- The second half of `_pop_node` (util.py:366-390): taking the node out of the chain of group heads. -/
def unlinkHead (L n : Nat) : HM α Unit := do
  let nextHead ← read fun h => h.nextHead n
  let prevHead ← read fun h => h.prevHead n
  let q ← read fun h => h.next n
  let lost ← read fun h => match q with
    | none => true
    | some q => h.isHead q
  let (nextLink, prevLink) ← (match q, lost with
    | some q, false => do
      setIsHead q
      setPrevHead q prevHead
      setNextHead q nextHead
      return (some q, some q)
    | _, _ => do
      addGroupCount L (-1)
      return (nextHead, prevHead) : HM α (Option Nat × Option Nat))
  let fh ← read fun h => h.firstHead L
  if fh = some n then setFirstHead L nextLink
  let lh ← read fun h => h.lastHead L
  if lh = some n then setLastHead L prevLink
  match prevHead with
  | some p => setNextHead p nextLink
  | none => Pure.pure ()
  match nextHead with
  | some q => setPrevHead q prevLink
  | none => Pure.pure ()
  clearGroupHead n

/-- `_pop_node` (util.py:341-392). -/
def popNode (L : Nat) (node : Option Nat) : HM α α := do
  let n ← checkIsChild L node
  unlink L n
  let isHead ← read fun h => h.isHead n
  if isHead then unlinkHead L n
  read fun h => h.value n

/-- `_pop_after` (util.py:401-406). -/
def popAfter (L : Nat) (node : Option Nat) : HM α α := do
  let n ← checkIsChild L node
  let l ← read fun h => h.last L
  if l = some n then throw .indexError
  else
    let q ← read fun h => h.next n
    popNode L q

/-- The nodes met by following the links `f` (util.py:408-413, 106-111, 638-642, 693-697). -/
def chain (f : Nat → Option Nat) : Nat → Option Nat → Except PyErr (List Nat)
  | _, none => .ok []
  | 0, some _ => .error .diverges
  | k + 1, some n => do
    let rest ← chain f k (f n)
    return n :: rest

/-- The nodes of `for value in self` (util.py:638-642). -/
def ids (L : Nat) (h : Heap α) : Except PyErr (List Nat) := chain h.next (h.nodes + 1) (h.first L)

/-- `list(self)`. -/
def toList (L : Nat) : HM α (List α) := readE fun h => do
  let l ← ids L h
  return l.map h.value

/-- `list(reversed(self))` (util.py:693-697). -/
def toListReversed (L : Nat) : HM α (List α) := readE fun h => do
  let l ← chain h.prev (h.nodes + 1) (h.last L)
  return l.map h.value

/-- The nodes of a group after the given one (util.py:153-155). -/
def groupRest (h : Heap α) : Nat → Nat → Except PyErr (List Nat)
  | 0, _ => .error .diverges
  | k + 1, n => match h.next n with
    | none => .ok []
    | some q => if h.isHead q then .ok [] else do
      let rest ← groupRest h k q
      return q :: rest

/-- `GroupView._check_group_head` (util.py:138-140). -/
def viewCheck (g : Nat) (h : Heap α) : Except PyErr Unit :=
  if h.isHead g = false ∨ h.parent g = none then .error .groupView else .ok ()

/-- The nodes a `GroupView` iterates over (util.py:148-155). -/
def viewIds (g : Nat) (h : Heap α) : Except PyErr (List Nat) := do
  viewCheck g h
  let rest ← groupRest h (h.nodes + 1) g
  return g :: rest

/-- `list(view)` for the `GroupView` with the given head (util.py:148-155). -/
def viewToList (g : Nat) : HM α (List α) := readE fun h => do
  let l ← viewIds g h
  return l.map h.value

/-- `len(view)` (util.py:142-146). -/
def viewLen (g : Nat) : HM α Int := readE fun h => do
  let l ← viewIds g h
  return l.length

/-- `GroupView._node_at` (util.py:161-166): the loop from the group head. -/
def viewWalk (h : Heap α) : Nat → Nat → Except PyErr Nat
  | 0, n => .ok n
  | k + 1, n => match h.next n with
    | none => .error .indexError
    | some q => if h.isHead q then .error .indexError else viewWalk h k q

/-- `GroupView._node_at` (util.py:157-166), after the check made by the callers (util.py:169, 173, 178). -/
def viewNodeAt (g : Nat) (i : Int) (h : Heap α) : Except PyErr Nat := do
  viewCheck g h
  if i < 0 then .error .indexError
  else
    viewCheck g h
    viewWalk h i.toNat g

/-- `view[i]` (util.py:168-170). -/
def viewGet (g : Nat) (i : Int) : HM α α := readE fun h => do
  let n ← viewNodeAt g i h
  return h.value n

/-- `view[i] = v` (util.py:172-175). -/
def viewSet (g : Nat) (i : Int) (v : α) : HM α Unit := do
  let n ← readE (viewNodeAt g i)
  setValue n v

/-- `del view[i]` (util.py:177-180). -/
def viewDel (g : Nat) (i : Int) : HM α Unit := do
  let n ← readE (viewNodeAt g i)
  let p ← read fun h => h.parent g
  let L ← deref p
  let _ ← popNode L (some n)

/-- `list(self.groups)` as the heads of the views (util.py:106-111). -/
def heads (L : Nat) (h : Heap α) : Except PyErr (List Nat) := chain h.nextHead (h.nodes + 1) (h.firstHead L)

/-- `to_nested_lists` (util.py:420-429). -/
def toNested (L : Nat) : HM α (List (List α)) := readE fun h => do
  let l ← heads L h
  l.mapM fun g => do
    let l' ← viewIds g h
    return l'.map h.value

/-- `self.groups[i]` as the head of the view (util.py:86-101, 113-115). -/
def groupAt (L : Nat) (i : Int) : HM α Nat := do
  let c ← read fun h => h.groupCount L
  let i := if i < 0 then i + c else i
  if i ≥ c then throw .indexError
  else
    let o ← readE fun h => (do
      let o := h.firstHead L
      (List.range i.toNat).foldlM (fun o _ => match o with
        | some g => .ok (h.nextHead g)
        | none => .error .attributeError) o : Except PyErr (Option Nat))
    deref o

/-- `len(self)` (util.py:635-636). -/
def len (L : Nat) : HM α Int := read fun h => h.nodeCount L

/-- `len(self.groups)` (util.py:103-104). -/
def groupsLen (L : Nat) : HM α Int := read fun h => h.groupCount L

/-- `prepend` (util.py:460-468). -/
def prepend (L : Nat) (v : α) (newGroup : Bool) : HM α Unit := do
  let c ← len L
  if c = 0 then insertFirst L v
  else
    let f ← read fun h => h.first L
    insertBefore L f v newGroup

/-- `append` (util.py:470-478). -/
def append (L : Nat) (v : α) (newGroup : Bool) : HM α Unit := do
  let c ← len L
  if c = 0 then insertFirst L v
  else
    let l ← read fun h => h.last L
    insertAfter L l v newGroup

/-- `extend` with anything but a grouped list (util.py:489-492). -/
def extend (L : Nat) : List α → HM α Unit
  | [] => Pure.pure ()
  | v :: l => do
    append L v false
    extend L l

/-- `append_group` with anything but (a group of) a grouped list (util.py:480-487). -/
def appendGroup (L : Nat) : List α → HM α Unit
  | [] => Pure.pure ()
  | v :: l => do
    append L v true
    extend L l

/-- The loop of `extend` with a grouped list (util.py:489-492, 638-642): the next node is looked up after the value has been
appended. -/
def extendFrom (L : Nat) : Nat → Option Nat → HM α Unit
  | _, none => Pure.pure ()
  | 0, some _ => throw .diverges
  | k + 1, some n => do
    let v ← read fun h => h.value n
    append L v false
    let q ← read fun h => h.next n
    extendFrom L k q

/-- `extend` with a grouped list, possibly the same one (util.py:489-492). One unit of fuel per element. -/
def extendList (L M : Nat) (fuel : Nat) : HM α Unit := do
  let f ← read fun h => h.first M
  extendFrom L fuel f

/-- `BibleRangeList(other)` (ref.py:1240-1243): the groups are appended one by one. They are read beforehand here; appending to
the new list does not change the old one. -/
def copy (M : Nat) : HM α Nat := do
  let L ← newList
  let gs ← toNested M
  let rec go : List (List α) → HM α Unit
    | [] => Pure.pure ()
    | g :: gs => do
      appendGroup L g
      go gs
  go gs
  return L

/-- `insert` (util.py:494-502). -/
def insert (L : Nat) (i : Int) (v : α) : HM α Unit := do
  let c ← len L
  if i = 0 then prepend L v false
  else if i = c then append L v false
  else
    let n ← nodeAt L i
    insertBefore L n v false

/-- `insert_group_at` (util.py:504-506). -/
def insertGroupAt (L : Nat) (i : Int) : HM α Unit := do
  let i ← conformIndex L i
  let o ← nodeAt L i
  let n ← deref o
  insertNewGroupAtNode L n

/-- `pop` (util.py:508-513). -/
def pop (L : Nat) (i : Option Int) : HM α α := do
  let c ← len L
  let i := i.getD (c - 1)
  let i ← conformIndex L i
  let n ← nodeAt L i
  popNode L n

/-- `self[i]` (util.py:683-684). -/
def getItem (L : Nat) (i : Int) : HM α α := do
  let o ← nodeAt L i
  let n ← deref o
  read fun h => h.value n

/-- `self[i] = v` (util.py:686-688). -/
def setItem (L : Nat) (i : Int) (v : α) : HM α Unit := do
  let o ← nodeAt L i
  let n ← deref o
  setValue n v

/-- `del self[i]` (util.py:690-691). -/
def delItem (L : Nat) (i : Int) : HM α Unit := do
  let _ ← pop L (some i)

/-- The loop of `remove` (util.py:518-525): the node found. -/
def findNode [DecidableEq α] (h : Heap α) (v : α) : Nat → Option Nat → Except PyErr Nat
  | _, none => .error .valueError
  | 0, some _ => .error .diverges
  | k + 1, some n => if h.value n = v then .ok n else findNode h v k (h.next n)

/-- `remove` (util.py:515-525). -/
def remove [DecidableEq α] (L : Nat) (v : α) : HM α Unit := do
  let n ← readE fun h => findNode h v (h.nodes + 1) (h.first L)
  let _ ← popNode L (some n)

/-- The loop of `index` (util.py:443-449): `k` positions remain to be looked at, the current one is `i`. -/
def indexFrom [DecidableEq α] (h : Heap α) (v : α) (lo : Int) : Nat → Int → Option Nat → Except PyErr Int
  | 0, _, _ => .error .valueError
  | _ + 1, _, none => .error .attributeError
  | k + 1, i, some n => if h.value n = v ∧ i ≥ lo then .ok i else indexFrom h v lo k (i + 1) (h.next n)

/-- `index` (util.py:431-449). -/
def index [DecidableEq α] (L : Nat) (v : α) (lo hi : Option Int) : HM α Int := do
  let c ← len L
  let lo ← conformIndex L (lo.getD 0)
  let hi ← conformIndex L (hi.getD c - 1)
  let hi := hi + 1
  let (lo, hi) := if lo > hi then (hi, lo) else (lo, hi)
  readE fun h => indexFrom h v lo hi.toNat 0 (h.first L)

/-- `count` (util.py:451-458). -/
def count [DecidableEq α] (L : Nat) (v : α) : HM α Int := do
  let l ← toList L
  return (l.filter fun x => decide (x = v)).length

/-- `GroupedList.__contains__` (util.py:675-681). -/
def contains [DecidableEq α] (L : Nat) (v : α) : HM α Bool := do
  let l ← toList L
  return l.any fun x => decide (x = v)

/-- The loop of `clear_groups` (util.py:539-540). -/
def clearHeads : List Nat → HM α Unit
  | [] => Pure.pure ()
  | n :: l => do
    clearGroupHead n
    clearHeads l

/-- `clear_groups` (util.py:536-541). -/
def clearGroups (L : Nat) : HM α Unit := do
  let l ← readE (ids L)
  clearHeads l
  setupSingleGroup L

/-- The loop of `reverse` (util.py:550-555). -/
def reverseFrom : Nat → Option Nat → HM α Unit
  | _, none => Pure.pure ()
  | 0, some _ => throw .diverges
  | k + 1, some n => do
    let p ← read fun h => h.prev n
    let q ← read fun h => h.next n
    setNext n p
    setPrev n q
    clearGroupHead n
    let o ← read fun h => h.next n
    reverseFrom k o

/-- `reverse` (util.py:543-557). -/
def reverse (L : Nat) : HM α Unit := do
  let c ← len L
  if c = 0 then return ()
  else
    let f ← read fun h => h.first L
    let l ← read fun h => h.last L
    let k ← read fun h => h.nodes + 1
    reverseFrom k l
    setFirst L l
    setLast L f
    setupSingleGroup L

/-- The loop of `_split` (util.py:592-600). -/
def splitLoop (clearHeads : Bool) : Nat → Nat → Option Nat → HM α Nat
  | _, slow, none => return slow
  | 0, _, some _ => throw .diverges
  | k + 1, slow, some f => do
    if clearHeads then clearGroupHead f
    let o ← read fun h => h.next f
    match o with
    | none => return slow
    | some f' => do
      if clearHeads then clearGroupHead f'
      let s ← read fun h => h.next slow
      let s ← deref s
      let o' ← read fun h => h.next f'
      splitLoop clearHeads k s o'

/-- `_split` (util.py:584-605). -/
def split (first : Nat) (clearHeads : Bool) : HM α Nat := do
  if clearHeads then clearGroupHead first
  let fast ← read fun h => h.next first
  let k ← read fun h => h.nodes + 1
  let slow ← splitLoop clearHeads k first fast
  let o ← read fun h => h.next slow
  setNext slow none
  let b ← deref o
  setPrev b none
  return b

/-- `_merge_sublists` (util.py:607-629). The first argument is the number of nested calls that Python's recursion limit still
allows. -/
def mergeSublists (le : α → α → Except PyErr Bool) : Nat → Option Nat → Option Nat → Option Nat → Option Nat →
    HM α (Option Nat × Option Nat)
  | 0, _, _, _, _ => throw .recursionError
  | _ + 1, none, _, b, lb => return (b, lb)
  | _ + 1, a, la, none, _ => return (a, la)
  | d + 1, some a, la, some b, lb => do
    let va ← read fun h => h.value a
    let vb ← read fun h => h.value b
    let first ← readE fun _ => le va vb
    if first then
      let q ← read fun h => h.next a
      let (f, l) ← mergeSublists le d q la (some b) lb
      setNext a f
      let f' ← deref f
      setPrev f' (some a)
      setPrev a none
      return (some a, l)
    else
      let q ← read fun h => h.next b
      let (f, l) ← mergeSublists le d (some a) la q lb
      setNext b f
      let f' ← deref f
      setPrev f' (some b)
      setPrev b none
      return (some b, l)

/-- `_merge_sort` (util.py:569-582), with the number of nested calls still allowed. -/
def mergeSort (le : α → α → Except PyErr Bool) : Nat → Option Nat → Bool → HM α (Option Nat × Option Nat)
  | 0, _, _ => throw .recursionError
  | _ + 1, none, _ => return (none, none)
  | d + 1, some f, clearHeads => do
    let q ← read fun h => h.next f
    if q = none then return (some f, some f)
    else
      let b ← split f clearHeads
      let (a, la) ← mergeSort le d (some f) false
      let (b, lb) ← mergeSort le d (some b) false
      mergeSublists le d a la b lb

/-- `sort` (util.py:563-567). -/
def sort (le : α → α → Except PyErr Bool) (depth : Nat) (L : Nat) : HM α Unit := do
  let o ← read fun h => h.first L
  let (f, l) ← mergeSort le depth o true
  setFirst L f
  setLast L l
  setupSingleGroup L

/-- The comparison of two groups in `equals` (util.py:662-668): `zip(..., strict=True)` raises, and `False` is returned, when
the lengths differ, but only after the common part has been compared. -/
def zipEq [DecidableEq α] : List α → List α → Bool
  | [], [] => true
  | a :: l, b :: m => if a = b then zipEq l m else false
  | _, _ => false

/-- The comparison without groups in `equals` (util.py:669-672): `zip` stops at the shorter one. -/
def zipEqShort [DecidableEq α] : List α → List α → Bool
  | a :: l, b :: m => if a = b then zipEqShort l m else false
  | _, _ => true

/-- `equals` of two grouped lists (util.py:647-673); `==` is `equals` with `compare_groups=True` (util.py:644-645). -/
def equals [DecidableEq α] (L M : Nat) (compareGroups : Bool) : HM α Bool := do
  let c ← len L
  let d ← len M
  if c ≠ d then return false
  else if compareGroups then
    let c ← groupsLen L
    let d ← groupsLen M
    if c ≠ d then return false
    else
      let gs ← toNested L
      let gs' ← toNested M
      return (gs.zip gs').all fun p => zipEq p.1 p.2
  else
    let l ← toList L
    let m ← toList M
    return zipEqShort l m

end Heap
end Bibleref
