import Verif.Lemmas.Count

/-! Iterating over a range. -/

namespace Bibleref
open Spec

theorem iterFrom_none (e : Env) (t : BibleVerse) (fuel : Nat) : BibleRange.iterFrom e t fuel none = .ok [] := by
  cases fuel <;> rfl

theorem iterFrom_false {e : Env} (h : e.data.WF) {t : BibleVerse} (ht : Valid e.data true t) (fuel : Nat) : ∀ {i : Nat},
    (canon e.data false).length - i < fuel →
    BibleRange.iterFrom e t fuel (canon e.data false)[i]? =
      .ok (((canon e.data false).drop i).filter fun v => decide (pos e.data v ≤ pos e.data t)) := by
  induction fuel with
  | zero => intro i hi; omega
  | succ fuel ih =>
    intro i hi
    by_cases hlen : i < (canon e.data false).length
    · have hg := List.getElem?_eq_getElem hlen
      generalize hv : (canon e.data false)[i] = v at hg
      have hval := valid_of_get h hg
      have hdrop : (canon e.data false).drop i = v :: (canon e.data false).drop (i + 1) := by
        rw [List.drop_eq_getElem_cons hlen, hv]
      rw [hg]
      unfold BibleRange.iterFrom
      rw [hdrop, List.filter_cons, BibleVerse.lessEq_eq (comparable_listed hval ht)]
      simp only [bind, Except.bind]
      by_cases hle : v.le e.data t = true
      · rw [if_pos hle]
        have hv0 : v.verse ≠ 0 := by
          have := hval.2.2.1
          rw [firstNum_false] at this; omega
        have hadd := add_canon h (v := v) (flags := some .MULTIBOOK) (v0 := false)
          (by rw [eff_eq]; simp [inForce, BibleFlag.MULTIBOOK, hv0]) hg 1
        have hmb : (e.eff (some .MULTIBOOK)).multibook = true := by rw [eff_eq]; rfl
        simp only [hmb, Bool.true_or, optFilter_true] at hadd
        rw [show (((1 : Nat) : Int)) = 1 from rfl] at hadd
        have hrec := ih (i := i + 1) (by omega)
        rw [if_pos (by rw [decide_eq_true_iff, ← h.le_pos hval ht]; exact hle)]
        simp only [hadd, hrec, pure, Except.pure]
      · rw [if_neg hle]
        refine congrArg Except.ok ?_
        have hgt : pos e.data t < pos e.data v := by
          rw [h.le_pos hval ht] at hle; omega
        rw [if_neg (by rw [decide_eq_true_iff]; omega)]
        symm
        rw [List.filter_eq_nil_iff]
        intro u hu
        obtain ⟨k, hk⟩ := List.mem_iff_getElem?.mp hu
        rw [List.getElem?_drop] at hk
        have huv := (pos_le_ix h hval (valid_of_get h hk)).mpr (by rw [ix_of_get h hg, ix_of_get h hk]; omega)
        rw [decide_eq_true_iff]; omega
    · rw [List.getElem?_eq_none (by omega), iterFrom_none, List.drop_eq_nil_of_le (by omega)]; rfl

theorem filter_drop_canon {d : BibleData} (h : d.WF) {v0 : Bool} {r : BibleRange} (hs : Valid d v0 r.start) :
    ((canon d v0).drop (ix d v0 r.start)).filter (fun v => decide (pos d v ≤ pos d r.stop)) = versesOf d v0 r := by
  have hsplit : versesOf d v0 r = ((canon d v0).take (ix d v0 r.start)).filter (fun v => decide (InRange d r v)) ++
      ((canon d v0).drop (ix d v0 r.start)).filter (fun v => decide (InRange d r v)) := by
    rw [← List.filter_append, List.take_append_drop]; rfl
  rw [hsplit]
  have h1 : ((canon d v0).take (ix d v0 r.start)).filter (fun v => decide (InRange d r v)) = [] := by
    rw [List.filter_eq_nil_iff]
    intro u hu
    obtain ⟨k, hk⟩ := List.mem_iff_getElem?.mp hu
    rw [List.getElem?_take] at hk
    split at hk
    · rename_i hlt
      have := (pos_lt_ix h (valid_of_get h hk) hs).mpr (by rw [ix_of_get h hk]; exact hlt)
      rw [decide_eq_true_iff, InRange]; omega
    · cases hk
  rw [h1, List.nil_append]
  apply List.filter_congr
  intro u hu
  obtain ⟨k, hk⟩ := List.mem_iff_getElem?.mp hu
  rw [List.getElem?_drop] at hk
  have := (pos_le_ix h hs (valid_of_get h hk)).mpr (by rw [ix_of_get h hk]; omega)
  rw [decide_eq_decide, InRange]; omega

/-- What iteration yields. -/
theorem iter_eq {e : Env} (h : e.data.WF) {r : BibleRange} (hr : ROK e.data true r) :
    r.iter e = .ok ((if r.start.verse = 0 then [r.start] else []) ++ versesOf e.data false r) := by
  have hlen := length_canon_le h false
  unfold BibleRange.iter
  by_cases h0 : r.start.verse = 0
  · rw [if_pos h0]
    have hle : r.start.le e.data r.stop = true := (h.le_pos hr.s hr.t).mpr hr.le
    -- the verse after it is verse 1
    have h1 := hr.s.1
    have h2 := hr.s.2.1
    have hlast := h.lastNum_pos h1 h2
    have hw : Valid e.data false ⟨r.start.book, r.start.chap, 1⟩ := ⟨h1, h2, by rw [firstNum_false]; simp, by simpa using hlast,
      hr.s.listed⟩
    have hadd := add_nonpos h (v := r.start) (some .MULTIBOOK) (n := 1) hr.s (by omega)
    rw [if_pos (by have := firstNum_le_one e.data ((e.eff (some .MULTIBOOK)).verse0 || r.start.verse == 0) r.start.book r.start.chap; omega)] at hadd
    rw [show r.start.verse + 1 = 1 by omega] at hadd
    unfold BibleRange.iterFrom
    have hrec := iterFrom_false h hr.t (e.data.totalVerses + 1) (i := ix e.data false ⟨r.start.book, r.start.chap, 1⟩) (by omega)
    rw [ix_get h hw] at hrec
    simp only [BibleVerse.lessEq_eq (comparable_listed hr.s hr.t), if_pos hle, hadd, bind, Except.bind, hrec, pure, Except.pure]
    rw [filter_drop_canon h (r := ⟨⟨r.start.book, r.start.chap, 1⟩, r.stop⟩) hw]
    congr 1
    rw [List.singleton_append]
    congr 1
    apply List.filter_congr
    intro u hu
    rw [mem_canon h] at hu
    rw [decide_eq_decide, InRange, InRange, ← h.le_pos hr.s hu, ← h.le_pos hw hu, h.le_iff, h.le_iff]
    have := hu.2.2.1
    rw [firstNum_false] at this
    simp only [h0]
    constructor
    · rintro ⟨a, b⟩
      refine ⟨a.imp id (And.imp id (Or.imp id (And.imp id (by omega)))), b⟩
    · rintro ⟨a, b⟩
      refine ⟨a.imp id (And.imp id (Or.imp id (And.imp id (by omega)))), b⟩
  · have hs := hr.s.of_ne_zero h0 (v0 := false)
    have := iterFrom_false h hr.t (e.data.totalVerses + 2) (i := ix e.data false r.start) (by omega)
    rw [ix_get h hs] at this
    rw [this, if_neg h0, List.nil_append, filter_drop_canon h hs]

end Bibleref
