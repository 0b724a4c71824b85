import Verif.Model.Calls
import Verif.Model.Order
import Verif.Model.Values
import Verif.Model.Str
import Verif.Model.DefaultData

/-!
# Running the project's tests on the model

The other modules of this directory put the project's own tests (`test/*.py`) to the model. They prove nothing about all inputs;
they are here to check that the model does what the code is known to do.
-/

namespace Bibleref.Tests

/-- The characters of the tests are ASCII. -/
def uni : Uni := ⟨fun _ => false, fun _ => false, id⟩

/-- The package as imported: the default data and no flags. -/
def env : Env := ⟨defaultData, .none⟩

/-- Enough for the loops of the tests. -/
def fuel : Nat := 40000

/-- An assertion: the number of its line if it does not hold or raises an exception. -/
def check (line : Nat) (m : PM Bool) : PM (List Nat) := fun s => match m s with
  | (.ok true, s) => (.ok [], s)
  | (_, s) => (.ok [line], s)

/-- `assertRaises` -/
def checkRaises (line : Nat) (err : PyErr) (m : PM Unit) : PM (List Nat) := fun s => match m s with
  | (.error err', s) => (.ok (if err = err' then [] else [line]), s)
  | (.ok _, s) => (.ok [line], s)

/-- `BibleRange(*args, start=..., end=..., flags=...)` with verses in its attributes. -/
def mkRange (e : Env) (args : List PyVal) (start stop : PyVal) (flags : Option BibleFlag) : PM BibleRange := do
  match ← BibleRange.ofValues uni e (fun _ => none) args start stop flags with
  | (.verse a, .verse b) => return ⟨a, b⟩
  | _ => PM.raise .typeError

/-- `l[i]` -/
def item {α : Type} (l : List α) (i : Nat) : PM α := match l[i]? with
  | some x => pure x
  | none => PM.raise .indexError

/-- `book.title` -/
def title (e : Env) (b : BibleBook) : PM (List Char) := match e.data.nameData b with
  | some n => pure n.title
  | none => PM.raise .attributeError

/-- `for book in BibleBook` -/
def forBooks (body : BibleBook → PM (List Nat)) : PM (List Nat) := do
  let fails ← BibleBook.all.mapM body
  return fails.flatten

end Bibleref.Tests
