import Verif.Model.Book
import Verif.Model.DefaultData

/-!
# Setting the Bible data

The setters of `BibleData` (`src/bibleref/data.py`) copy parts of their argument to the books and make a new parser. This file
models all these copies; elsewhere a `BibleData` stands for all of them. Simplifications: separators are single characters (as
their documentation says) with which Lark accepts the grammar, name data does not make `re.compile` fail, and what is assigned is
not modified afterwards.
-/

namespace Bibleref

/-- The separators built into a parser (parser.py:204-208, 232-238). -/
structure Separators where
  range : Char
  major : Char
  minor : Char
  verseStd : Char
  verseAlt : Char
  deriving DecidableEq

/-- The `BibleData` object (data.py:13-22), the attributes of the books set by its setters, and the parser (parser.py:16), which is
`none` before it is first needed. A regular expression is represented by the name data it is made from (data.py:128-170). -/
structure Store where
  seps : Separators
  bookOrder : List BibleBook
  nameData : BibleBook → Option NameData
  maxVerses : BibleBook → Option (List Int)
  verse0s : BibleBook → Option (List Int)
  order : BibleBook → Option Nat
  abbr : BibleBook → Option (List Char)
  title : BibleBook → Option (List Char)
  regex : BibleBook → Option NameData
  bookMaxVerses : BibleBook → Option (List Int)
  bookVerse0s : BibleBook → List Int
  parser : Option Separators

/-- An assignment to an attribute of `bible_data()`. Dictionaries are functions; a missing key is `none`. -/
inductive Assign where
  | rangeSep (c : Char)
  | majorListSep (c : Char)
  | minorListSep (c : Char)
  | verseSepStd (c : Char)
  | verseSepAlt (c : Char)
  | bookOrder (l : List BibleBook)
  | nameData (f : BibleBook → Option NameData)
  | maxVerses (f : BibleBook → Option (List Int))
  | verse0s (f : BibleBook → Option (List Int))

namespace Store

/-- `_recreate_parser` (parser.py:202-248). -/
def recreateParser (s : Store) : Store := { s with parser := some s.seps }

/-- The separators of the parser used to read strings (`_parser`, parser.py:18-28): it is made if there is none yet. -/
def parserSeps (s : Store) : Separators := match s.parser with
  | some p => p
  | none => s.seps

/-- The loop of the `book_order` setter (data.py:88-95) with the books not seen yet and the current position: whether an exception
is raised and the orders afterwards. The order of a book is set before `remove` raises `KeyError`. -/
def orderLoop (orders : BibleBook → Option Nat) (unseen : List BibleBook) (i : Nat) :
    List BibleBook → Except PyErr Unit × (BibleBook → Option Nat)
  | [] => (.ok (), fun x => if x ∈ unseen then none else orders x)
  | b :: l =>
    let orders := fun x => if x = b then some i else orders x
    if b ∈ unseen then orderLoop orders (unseen.filter (· ≠ b)) (i + 1) l else (.error .keyError, orders)

/-- An assignment (data.py:29-95, 103-118, 120-129, 170, 178-186, 195-202): whether it raises an exception and the state
afterwards. -/
def assign (s : Store) : Assign → Except PyErr Unit × Store
  | .rangeSep c => (.ok (), recreateParser { s with seps := { s.seps with range := c } })
  | .majorListSep c => (.ok (), recreateParser { s with seps := { s.seps with major := c } })
  | .minorListSep c => (.ok (), recreateParser { s with seps := { s.seps with minor := c } })
  | .verseSepStd c => (.ok (), recreateParser { s with seps := { s.seps with verseStd := c } })
  | .verseSepAlt c => (.ok (), recreateParser { s with seps := { s.seps with verseAlt := c } })
  | .bookOrder l =>
    let r := orderLoop s.order BibleBook.all 0 l
    (r.1, { s with bookOrder := l, order := r.2 })
  | .nameData f => (.ok (), { s with
      nameData := f
      abbr := fun b => (f b).map (·.abbr)
      title := fun b => (f b).map (·.title)
      regex := f })
  | .maxVerses f => (.ok (), { s with maxVerses := f, bookMaxVerses := f })
  | .verse0s f => (.ok (), { s with
      verse0s := f
      bookVerse0s := fun b => match f b with
        | some l => l
        | none => [] })

/-- Using the parser (parser.py:18-28), which every conversion of a string does. -/
def useParser (s : Store) : Store := match s.parser with
  | some _ => s
  | none => s.recreateParser

/-- `BibleData()` (data.py:13-22), with books that have no attributes yet. -/
def fresh : Store where
  seps := ⟨'-', ';', ',', ':', '.'⟩
  bookOrder := []
  nameData := fun _ => none
  maxVerses := fun _ => none
  verse0s := fun _ => none
  order := fun _ => none
  abbr := fun _ => none
  title := fun _ => none
  regex := fun _ => none
  bookMaxVerses := fun _ => none
  bookVerse0s := fun _ => []
  parser := none

/-- The assignments made when the package is imported (data.py:446-450). -/
def importAssigns : List Assign :=
  [.bookOrder defaultData.bookOrder, .nameData defaultData.nameData, .maxVerses defaultData.maxVerses,
    .verse0s fun b => if defaultData.verse0s b = [] then none else some (defaultData.verse0s b)]

/-- Assignments one after another, going on after exceptions; between them the parser may be used. -/
def run (s : Store) : List (Option Assign) → Store
  | [] => s
  | some a :: l => run (assign s a).2 l
  | none :: l => run s.useParser l

/-- The state after `import bibleref`. -/
def imported : Store := run fresh (importAssigns.map some)

end Store
end Bibleref
