import Verif.Props.Steps

/-!
# Exactly when a negative step is a step in the other direction (C08)
-/

namespace Bibleref
open Spec

/-- C08, second half, for all flags and distances: moving by `-n` is moving by `n` in the other direction exactly if the verse
reached is in the chapter of the first one, or if the other call raises too. A call of `add` with `n` never raises; when a call
of `subtract` does is said by `C05_subtract_exact`. -/
theorem C08_negative_iff (e : Env) (h : e.data.WF) (flags : Option BibleFlag) (v : BibleVerse) (hv : v ∈ canon e.data true)
    (n : Nat) (v0 : Bool) (hv0 : v0 = ((inForce e flags).verse0 || v.verse == 0)) :
    (v.add e (-n) flags = v.sub e n flags ↔
      (⟨v.book, v.chap, v.verse - n⟩ : BibleVerse) ∈ chapVerses e.data v0 v.book v.chap ∨
        v.sub e n flags = .error .invalidReference) ∧
    (v.sub e (-n) flags = v.add e n flags ↔
      (⟨v.book, v.chap, v.verse + n⟩ : BibleVerse) ∈ chapVerses e.data v0 v.book v.chap) := by
  have hv' : Valid e.data v0 v := by
    have := ((mem_canon h).mp hv).honour (v0 := (inForce e flags).verse0)

    rw [hv0]; exact this
  obtain ⟨h1, h2⟩ := C08_negative_partial e h flags v n v0 hv0 ((mem_canon h).mpr hv')
  rw [← eff_eq] at hv0
  constructor
  · rw [h1]
    by_cases hc : (⟨v.book, v.chap, v.verse - n⟩ : BibleVerse) ∈ chapVerses e.data v0 v.book v.chap
    · rw [if_pos hc]
      simp only [hc, true_or, iff_true]
      have hc' := (mem_chapVerses.mp hc).2.2
      have hl := hv'.le_last
      rw [sub_nonpos h flags hv'.mono (by rw [← hv0]; exact hc'.1), if_pos (by omega)]
    · rw [if_neg hc]
      simp only [hc, false_or]
      exact eq_comm
  · rw [h2]
    by_cases hc : (⟨v.book, v.chap, v.verse + n⟩ : BibleVerse) ∈ chapVerses e.data v0 v.book v.chap
    · rw [if_pos hc]
      have hc' := (mem_chapVerses.mp hc).2.2
      rw [add_nonpos h flags hv'.mono hc'.2, ← hv0, if_pos hc'.1]
      simp [hc]
    · rw [if_neg hc]
      simp only [hc, iff_false]
      intro hh
      obtain ⟨i, hi⟩ : ∃ i : Nat, (walk e.data (e.eff flags).multibook v0 v.book)[i]? = some v := by
        apply List.mem_iff_getElem?.mp
        unfold walk; split
        · exact (mem_canon h).mpr hv'
        · exact mem_bookVerses.mpr ⟨rfl, (valid_iff.mp hv').1⟩
      have := add_walk h (v := v) (flags := flags) (i := i) (by rw [← hv0]; exact hi) n
      rw [this] at hh
      cases hh

example : BibleVerse.add dflt ⟨.Matt, 2, 5⟩ (-3) none = BibleVerse.sub dflt ⟨.Matt, 2, 5⟩ 3 none ∧
    BibleVerse.add dflt ⟨.Matt, 2, 5⟩ (-5) none ≠ BibleVerse.sub dflt ⟨.Matt, 2, 5⟩ 5 none ∧
    (⟨.Matt, 2, 5⟩ : BibleVerse) ∈ canon dflt.data true := by
  refine ⟨by decide +kernel, by decide +kernel, (mem_canon defaultData_wf).mpr (by decide +kernel)⟩

end Bibleref
