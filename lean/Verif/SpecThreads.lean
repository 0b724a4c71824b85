import Verif.Model.Threads
import Verif.Spec

/-!
# Specification vocabulary: several threads
-/

namespace Bibleref.Spec

/-- The single reference says all there is to know: it names its book and does not leave the chapter to be understood. A number
after the name of a book with one chapter is a verse and leaves it. -/
def SaysAll (u : Uni) (d : BibleData) : Single → Prop
  | .book _ | .bookChapVerse _ _ _ => True
  | .bookNum name _ => ∀ b, BibleBook.fromStr u d name = some b → (chapters d b).length ≠ 1
  | .chapVerse _ _ | .num _ => False

/-- So do both sides of a range. -/
def RefSaysAll (u : Uni) (d : BibleData) : Ref → Prop
  | .single x => SaysAll u d x
  | .dual x y => SaysAll u d x ∧ SaysAll u d y

/-- A string whose references all say all there is to know. -/
def TextSaysAll (u : Uni) (d : BibleData) (s : List Char) : Prop :=
  ∀ t, parseTree u d s = some t → RefSaysAll u d t.first ∧ ∀ x ∈ t.rest, RefSaysAll u d x.2

/-- The threads that read one string each, with these flags. -/
def readers (u : Uni) (e : Env) (calls : List (Option BibleFlag × List Char)) : List (Thread RangeList) :=
  calls.map fun c => Thread.listOfStr u e c.1 c.2

/-- The result of the thread, once it has ended. -/
def resultOf {α : Type} (x : Thread.System α) (i : Nat) : Option (Except PyErr α) := x.2[i]?.bind Thread.result

/-- The global names a transformer that exists, which has already been used. -/
def InUse (s : Shared) : Prop := ∃ t a, s.current = some t ∧ s.objs[t]? = some a

/-- What the transformer remembers: nothing if there is none. -/
def remembered (s : Shared) : PState :=
  match s.current with
  | none => .init
  | some t => ⟨(s.attrs t).book, (s.attrs t).chap, (s.attrs t).atVerse⟩

end Bibleref.Spec
