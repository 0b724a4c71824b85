import Verif.Lemmas.RoundTrip
import Verif.Props.Verses

/-! # What `subtract` computes for all flags (C05, C06)

`subtract` uses the flags of the call in the chapter of the verse only; in all other chapters it uses the global flags
(ref.py:530). These theorems say exactly what comes of that. -/

namespace Bibleref
open Spec

/-- The verses that `subtract` counts when called for `v`: those of the Bible (or of the book, without `MULTIBOOK`); verse 0s of the
chapter of `v` if the call allows verse 0s or `v` is one, other verse 0s if the global flags allow them. -/
def Spec.counted (e : Env) (flags : Option BibleFlag) (v : BibleVerse) : List BibleVerse :=
  (if (inForce e flags).multibook then canon e.data true else bookVerses e.data true v.book).filter fun u =>
    u.verse ≠ 0 || (if u.book = v.book ∧ u.chap = v.chap then (inForce e flags).verse0 || v.verse == 0 else e.flags.verse0)

/-- C05 for all flags: `subtract(n)` is `n` steps back among the verses counted; if that is a verse 0 and the call does not allow
verse 0s, `InvalidReferenceError` is raised. -/
theorem C05_subtract_exact (e : Env) (h : e.data.WF) (flags : Option BibleFlag) (v : BibleVerse) (i n : Nat)
    (hi : (counted e flags v)[i]? = some v) :
    v.sub e n flags = if n ≤ i then
        (match (counted e flags v)[i - n]? with
          | some w => if w.verse = 0 ∧ (inForce e flags).verse0 = false ∧ v.verse ≠ 0 then .error .invalidReference
            else .ok (some w)
          | none => .ok none)
      else .ok none := by
  have hl : counted e flags v = (walk e.data (e.eff flags).multibook true v.book).filter (fun u => u.verse ≠ 0 ||
      (if u.book = v.book ∧ u.chap = v.chap then (e.eff flags).verse0 || v.verse == 0 else e.flags.verse0)) := by
    rw [eff_eq]; rfl
  rw [sub_exact h hl hi n, eff_eq]
  by_cases hn : n ≤ i
  · rw [if_pos hn, if_pos hn]
    cases (counted e flags v)[i - n]? with
    | none => rfl
    | some w =>
      simp only [landing]
      congr 1
      simp
  · rw [if_neg hn, if_neg hn]; rfl

/-- Every verse that exists is among the verses counted for it. -/
theorem C05_applicable (e : Env) (h : e.data.WF) (flags : Option BibleFlag) (v : BibleVerse) (hv : v ∈ canon e.data true) :
    ∃ i : Nat, (counted e flags v)[i]? = some v := by
  apply List.mem_iff_getElem?.mp
  unfold counted
  rw [List.mem_filter]
  constructor
  · split
    · exact hv
    · exact mem_bookVerses.mpr ⟨rfl, (mem_canon_iff.mp hv).2⟩
  · by_cases h0 : v.verse = 0 <;> simp [h0]

/-- C06 for all flags: when `subtract(n)` leads back from where `add(n)` has led. Both must count the same verse 0s on the way, and
`subtract` must be allowed to return a verse 0 if that is what it started from. -/
theorem C06_subtract_undoes_add (e : Env) (h : e.data.WF) (flags : Option BibleFlag) (v w : BibleVerse) (n : Nat)
    (hv : v ∈ canon e.data true) (ha : v.add e n flags = .ok (some w)) :
    w.sub e n flags = .ok (some v) ↔
      (∀ u ∈ canon e.data true, u.verse = 0 → v.lessEq e.data u = .ok true → u.less e.data w = .ok true →
        ((if u.book = w.book ∧ u.chap = w.chap then (inForce e flags).verse0 || w.verse == 0 else e.flags.verse0) =
          ((inForce e flags).verse0 || v.verse == 0))) ∧
      (v.verse = 0 → (inForce e flags).verse0 = true ∨ w.verse = 0) := by
  rw [mem_canon h] at hv
  have hvv : Valid e.data ((e.eff flags).verse0 || v.verse == 0) v := by
    by_cases h0 : v.verse = 0
    · simpa [h0] using hv
    · exact hv.of_ne_zero h0
  have := sub_of_add h hvv ha
  have hwv := add_valid h hvv ha
  rw [this, eff_eq]
  simp only [mem_canon h, Bool.or_eq_true, beq_iff_eq]
  exact and_congr_left fun _ => forall₂_congr fun u hu => by rw [lessEq_listed hv hu, less_listed hu hwv]

/-- C06 for all flags, the other way round. -/
theorem C06_add_undoes_subtract (e : Env) (h : e.data.WF) (flags : Option BibleFlag) (v w : BibleVerse) (n : Nat)
    (hv : v ∈ canon e.data true) (hw : w ∈ canon e.data true) (hs : w.sub e n flags = .ok (some v)) :
    v.add e n flags = .ok (some w) ↔
      (∀ u ∈ canon e.data true, u.verse = 0 → v.lessEq e.data u = .ok true → u.less e.data w = .ok true →
        ((if u.book = w.book ∧ u.chap = w.chap then (inForce e flags).verse0 || w.verse == 0 else e.flags.verse0) =
          ((inForce e flags).verse0 || v.verse == 0))) ∧
      (w.verse = 0 → (inForce e flags).verse0 = true ∨ v.verse = 0) := by
  rw [mem_canon h] at hv hw
  have hww : Valid e.data ((e.eff flags).verse0 || w.verse == 0) w := by
    by_cases h0 : w.verse = 0
    · simpa [h0] using hw
    · exact hw.of_ne_zero h0
  have := add_of_sub h hv hww hs
  rw [this, eff_eq]
  simp only [mem_canon h, Bool.or_eq_true, beq_iff_eq]
  exact and_congr_left fun _ => forall₂_congr fun u hu => by rw [lessEq_listed hv hu, less_listed hu hw]

/-- A corollary: stretches without verse 0s are walked back and forth with any flags. -/
theorem C06_no_verse0 (e : Env) (h : e.data.WF) (flags : Option BibleFlag) (v w : BibleVerse) (n : Nat)
    (hv : v ∈ canon e.data false) (hw : w ∈ canon e.data false)
    (hno : ∀ u ∈ canon e.data true, u.verse = 0 → v.lessEq e.data u = .ok true → ¬ u.less e.data w = .ok true) :
    v.add e n flags = .ok (some w) ↔ w.sub e n flags = .ok (some v) := by
  rw [mem_canon h] at hv hw
  have h0 : ∀ u : BibleVerse, Valid e.data false u → u.verse ≠ 0 := by
    intro u hu hz
    have := hu.2.2.1
    simp [firstNum] at this; omega
  constructor
  · intro ha
    exact (C06_subtract_undoes_add e h flags v w n ((mem_canon h).mpr hv.mono) ha).mpr
      ⟨fun u hu hz h1 h2 => absurd h2 (hno u hu hz h1), fun hz => absurd hz (h0 v hv)⟩
  · intro hs
    exact (C06_add_undoes_subtract e h flags v w n ((mem_canon h).mpr hv.mono) ((mem_canon h).mpr hw.mono) hs).mpr
      ⟨fun u hu hz h1 h2 => absurd h2 (hno u hu hz h1), fun hz => absurd hz (h0 w hw)⟩

example : BibleVerse.sub dflt ⟨.Psa, 5, 0⟩ 9 none = .ok (some ⟨.Psa, 3, 8⟩) ∧
    BibleVerse.sub dfltAll ⟨.Psa, 5, 1⟩ 9 (some .MULTIBOOK) = .error .invalidReference ∧
    BibleVerse.sub dflt ⟨.Psa, 5, 1⟩ 8 (some .VERSE_0) = .ok (some ⟨.Psa, 4, 2⟩) ∧
    BibleVerse.add dflt ⟨.Psa, 4, 2⟩ 8 (some .VERSE_0) = .ok (some ⟨.Psa, 5, 1⟩) := by decide +kernel

end Bibleref
