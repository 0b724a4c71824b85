import Verif.Lemmas.Compare
import Verif.Model.Values

/-! # Iterating over values -/

namespace Bibleref

theorem PyVal.items_error {d : BibleData} {x : PyVal} {y : PyErr} (h : x.items d = .error y) : y = .typeError := by
  cases x with
  | range r =>
    simp only [PyVal.items] at h
    cases hc : r.start.comparable d r.stop with
    | true => rw [BibleVerse.lessEq_eq hc] at h; cases h
    | false => rw [BibleVerse.lessEq_error hc] at h; cases h; rfl
  | _ => simp only [PyVal.items, reduceCtorEq, Except.error.injEq] at h <;> exact h.symm

end Bibleref
