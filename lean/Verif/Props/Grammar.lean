import Verif.Lemmas.Grammar
import Verif.Props.Parsing

/-!
# The parser and the grammar (C53)
-/

namespace Bibleref
open Spec

theorem default_plainSeps (u : Uni) : PlainSeps u defaultData := by
  refine ⟨?_, by decide, by decide, by decide⟩
  intro c hc
  have : c = '-' ∨ c = ';' ∨ c = ',' ∨ c = ':' ∨ c = '.' := by
    simp only [List.mem_cons, List.not_mem_nil, or_false] at hc
    exact hc
  rcases this with rfl | rfl | rfl | rfl | rfl <;> exact ⟨rfl, rfl⟩

/-- **C53, exactly the grammar.** The parser finds a tree for a string if and only if the grammar has it for the whole
string. -/
theorem C53_grammar (u : Uni) (d : BibleData) (hd : PlainSeps u d) (s : List Char) (t : Tree) :
    parseTree u d s = some t ↔ ListRule u d s t :=
  ⟨tree_sound, tree_complete hd⟩

/-- **C53, one meaning.** A string has at most one tree. -/
theorem C53_unambiguous (u : Uni) (d : BibleData) (hd : PlainSeps u d) (s : List Char) (t t' : Tree) (h : ListRule u d s t)
    (h' : ListRule u d s t') : t = t' :=
  Option.some.inj ((tree_complete hd h).symm.trans (tree_complete hd h'))

/-- **C53, the rest is refused.** A string that the grammar does not have raises a parsing error, and nothing is remembered
of it. -/
theorem C53_refused (u : Uni) (e : Env) (flags : Option BibleFlag) (s : List Char) (st : PState)
    (h : ∀ t, ¬ ListRule u e.data s t) : RangeList.ofStr u e flags s st = (.error .parsing, st) := by
  have : parseTree u e.data s = none := by
    cases hp : parseTree u e.data s with
    | none => rfl
    | some t => exact absurd (tree_sound hp) (h t)
  unfold RangeList.ofStr parse
  rw [this]
  rfl

example : PlainSeps exampleUni defaultData ∧ ListRule exampleUni defaultData " 1 John 2 : 3 -4 ;5,".toList
    ⟨.dual (.bookChapVerse "1 John".toList 2 3) (.num 4), [(true, .single (.num 5))], some false⟩ := by
  exact ⟨default_plainSeps _, tree_sound (by decide +kernel)⟩

end Bibleref
