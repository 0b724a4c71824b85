/-!
# Books, flags, Bible data

Model of `src/bibleref/ref.py:17-266` (flags and books) and of the data the books carry (`src/bibleref/data.py:8-202`).
-/

namespace Bibleref

/-- The exceptions the modelled code can raise. `invalidReference`, `multibookRange` and `parsing` are the package's own
(ref.py:1852-1873), and so is `groupView`, for `GroupViewError` (util.py:710-711); the others are Python's. Messages and the
attributes of parsing errors are not modelled. `diverges` is not an exception: it is the outcome of a loop that has used up the fuel given to it. -/
inductive PyErr where
  | invalidReference | multibookRange | parsing
  | valueError | typeError | attributeError | indexError | keyError | runtimeError
  | recursionError | groupView | diverges
  deriving DecidableEq, Repr

deriving instance DecidableEq for Except

/-- `BibleFlag` (ref.py:17-36): a `Flag` with the two bits `MULTIBOOK` and `VERSE_0`. -/
structure BibleFlag where
  multibook : Bool
  verse0 : Bool
  deriving DecidableEq, Repr

namespace BibleFlag
/-- `BibleFlag.NONE`, ref.py:21. -/
def none : BibleFlag := ⟨false, false⟩
/-- `BibleFlag.MULTIBOOK`, ref.py:24. -/
def MULTIBOOK : BibleFlag := ⟨true, false⟩
/-- `BibleFlag.VERSE_0`, ref.py:28. -/
def VERSE_0 : BibleFlag := ⟨false, true⟩
/-- `BibleFlag.ALL`, ref.py:35. -/
def ALL : BibleFlag := ⟨true, true⟩
/-- `f | g` on flags. -/
def union (f g : BibleFlag) : BibleFlag := ⟨f.multibook || g.multibook, f.verse0 || g.verse0⟩
end BibleFlag

/-- `BibleBook` (ref.py:41-124), the enum of books in definition order. -/
inductive BibleBook where
  | Gen | Exod | Lev | Num | Deut | Josh | Judg | Ruth | ISam | IISam | IKgs | IIKgs | IChr | IIChr | Ezra | Neh | Esth
  | Job | Psa | Prov | Eccl | Song | Isa | Jer | Lam | Ezek | Dan | Hos | Joel | Amos | Obad | Jonah | Mic | Nah | Hab
  | Zeph | Hag | Zech | Mal | Matt | Mark | Luke | John | Acts | Rom | ICor | IICor | Gal | Eph | Phil | Col | ITh | IITh
  | ITim | IITim | Titus | Phlm | Heb | Jam | IPet | IIPet | IJn | IIJn | IIIJn | Jude | Rev
  deriving DecidableEq, Repr

open BibleBook in
/-- The enum's iteration order, `for book in BibleBook` (ref.py:59-124). -/
def BibleBook.all : List BibleBook :=
  [Gen, Exod, Lev, Num, Deut, Josh, Judg, Ruth, ISam, IISam, IKgs, IIKgs, IChr, IIChr, Ezra, Neh, Esth, Job, Psa, Prov,
   Eccl, Song, Isa, Jer, Lam, Ezek, Dan, Hos, Joel, Amos, Obad, Jonah, Mic, Nah, Hab, Zeph, Hag, Zech, Mal, Matt, Mark,
   Luke, John, Acts, Rom, ICor, IICor, Gal, Eph, Phil, Col, ITh, IITh, ITim, IITim, Titus, Phlm, Heb, Jam, IPet, IIPet,
   IJn, IIJn, IIIJn, Jude, Rev]

/-- One entry of `name_data` (data.py:278-353): abbreviation, full title, minimum unique characters, extra
abbreviations. Strings are lists of characters. -/
structure NameData where
  abbr : List Char
  title : List Char
  minChars : Nat
  extra : List (List Char)
  deriving DecidableEq, Repr

/-- `BibleData` (data.py:8-202) with the attributes its setters put on the books. Dictionaries keyed by book are
functions; a missing key is `none` (`max_verses`, `name_data`) or the empty set (`verse_0s`), as the setters have it
(data.py:104-118, 179-186, 196-202). Separators are single characters, as their documentation says. -/
structure BibleData where
  bookOrder : List BibleBook
  maxVerses : BibleBook → Option (List Int)
  verse0s : BibleBook → List Int
  nameData : BibleBook → Option NameData
  rangeSep : Char
  majorListSep : Char
  minorListSep : Char
  verseSepStd : Char
  verseSepAlt : Char

/-- The global state every call can read: the current Bible data and `bibleref.flags` (ref.py:38). -/
structure Env where
  data : BibleData
  flags : BibleFlag

/-- `flags = flags or bibleref.flags or BibleFlag.NONE`, the first line of most methods (e.g. ref.py:179). Python's `or`
takes the right side when the left one is `None` or has no bit set. -/
def Env.eff (e : Env) : Option BibleFlag → BibleFlag
  | none => e.flags
  | some f => if f = BibleFlag.none then e.flags else f

namespace BibleBook

/-- `BibleBook.order` as set by the `book_order` setter (data.py:85-95) for an order without repetitions; books not
listed have order `None`. -/
def order (d : BibleData) (b : BibleBook) : Option Nat := d.bookOrder.idxOf? b

/-- `BibleBook.__lt__` (ref.py:244-248): the orders are compared, which raises `TypeError` if one of them is `None`.
`__gt__` (ref.py:256-260) is the same with the arguments swapped. -/
def less (d : BibleData) (a b : BibleBook) : Except PyErr Bool := match a.order d, b.order d with
  | some i, some j => .ok (decide (i < j))
  | _, _ => .error .typeError

/-- `BibleBook.__le__` (ref.py:250-254). `__ge__` (ref.py:262-266) swaps the arguments. -/
def lessEq (d : BibleData) (a b : BibleBook) : Except PyErr Bool := match a.order d, b.order d with
  | some i, some j => .ok (decide (i ≤ j))
  | _, _ => .error .typeError

/-- `min_chap_num` (ref.py:160-166). -/
def minChapNum (d : BibleData) (b : BibleBook) : Int :=
  match d.maxVerses b with
  | none => 0
  | some _ => 1

/-- `max_chap_num` (ref.py:168-174). -/
def maxChapNum (d : BibleData) (b : BibleBook) : Int :=
  match d.maxVerses b with
  | none => 0
  | some l => l.length

/-- `chap_count` (ref.py:155-158). -/
def chapCount (d : BibleData) (b : BibleBook) : Int := b.maxChapNum d - b.minChapNum d + 1

/-- `min_verse_num` (ref.py:176-182). -/
def minVerseNum (e : Env) (b : BibleBook) (chap : Int) (flags : Option BibleFlag) : Except PyErr Int :=
  let f := e.eff flags
  if chap < b.minChapNum e.data ∨ chap > b.maxChapNum e.data then .error .invalidReference
  else .ok (if f.verse0 = true ∧ chap ∈ e.data.verse0s b then 0 else 1)

/-- `max_verse_num` (ref.py:184-189). When `_max_verses` is `None` and the chapter is 0 the check passes and indexing
`None` raises `TypeError`. -/
def maxVerseNum (d : BibleData) (b : BibleBook) (chap : Int) : Except PyErr Int :=
  if chap < b.minChapNum d ∨ chap > b.maxChapNum d then .error .invalidReference
  else match d.maxVerses b with
    | none => .error .typeError
    | some l => match l[(chap - 1).toNat]? with
      | some m => .ok m
      | none => .error .indexError

/-- `verse_count` (ref.py:148-153): a loop over the chapters adding up; the model is the left fold of that loop. -/
def verseCount (e : Env) (b : BibleBook) (flags : Option BibleFlag) : Except PyErr Int :=
  (List.range (b.chapCount e.data).toNat).foldlM (fun count (i : Nat) => do
    let mx ← b.maxVerseNum e.data (i + 1)
    let mn ← b.minVerseNum e (i + 1) flags
    return count + (mx - mn + 1)) 0

/-- `next` (ref.py:207-214). -/
def next (d : BibleData) (b : BibleBook) : Option BibleBook :=
  match b.order d with
  | none => none
  | some i => if i + 1 = d.bookOrder.length then none else d.bookOrder[i + 1]?

/-- `prev` (ref.py:216-223). -/
def prev (d : BibleData) (b : BibleBook) : Option BibleBook :=
  match b.order d with
  | none => none
  | some i => if i = 0 then none else d.bookOrder[i - 1]?

end BibleBook

/-- One step of the `book_order` setter's loop (data.py:89-91): set the order of the book at the current position and
remove it from the set of books not seen, which raises `KeyError` when it is not there. The state is the orders given so
far, the books not seen, and the position. -/
def setBookOrderStep (s : (BibleBook → Option Nat) × List BibleBook × Nat) (b : BibleBook) :
    Except PyErr ((BibleBook → Option Nat) × List BibleBook × Nat) :=
  let orders := fun x => if x = b then some s.2.2 else s.1 x
  if b ∈ s.2.1 then .ok (orders, s.2.1.filter (· ≠ b), s.2.2 + 1) else .error .keyError

/-- The `book_order` setter (data.py:85-95): from the books' previous orders and the new list to their new orders. -/
def setBookOrder (old : BibleBook → Option Nat) (l : List BibleBook) : Except PyErr (BibleBook → Option Nat) := do
  let s ← l.foldlM setBookOrderStep (old, BibleBook.all, 0)
  return fun x => if x ∈ s.2.1 then none else s.1 x

end Bibleref
