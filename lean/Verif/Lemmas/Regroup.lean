import Verif.Lemmas.Groups
import Verif.Lemmas.Shape

/-! What the shape tests of ranges evaluate to, and that regrouping does not raise. -/

namespace Bibleref
open Spec

section
variable {e : Env} (h : e.data.WF) {flags : Option BibleFlag} (hg : (e.eff flags).verse0 = true → e.flags.verse0 = true)
  {r : BibleRange} (hr : ROK e.data true r)
include h hg hr

theorem spansStartBook_eq : r.spansStartBook e flags = .ok (decide (r.start = stBook e.data (e.eff flags).verse0 r.start ∧
    pos e.data (enBook e.data r.start) ≤ pos e.data r.stop)) := by
  unfold BibleRange.spansStartBook
  rw [first_st_book h hg, last_en_book h]
  simp only [bind, Except.bind, pure, Except.pure]
  by_cases h1 : r.start = stBook e.data (e.eff flags).verse0 r.start
  · rw [if_neg (not_not_intro h1)]
    rw [lessEq_ok h (enBook_valid h true hr.s.listed) hr.t]
    congr 1
    rw [decide_eq_decide]
    exact ⟨fun hh => ⟨h1, hh⟩, fun hh => hh.2⟩
  · rw [if_pos h1]; congr 1; symm; rw [decide_eq_false_iff_not]; exact fun hh => h1 hh.1

theorem spansStartChap_eq : r.spansStartChap e flags = .ok (decide (r.start = stChap e.data (e.eff flags).verse0 r.start ∧
    pos e.data (enChap e.data r.start) ≤ pos e.data r.stop)) := by
  unfold BibleRange.spansStartChap
  rw [first_st_chap h hg hr.s, last_en_chap h hr.s]
  simp only [bind, Except.bind, pure, Except.pure]
  by_cases h1 : r.start = stChap e.data (e.eff flags).verse0 r.start
  · rw [if_neg (not_not_intro h1)]
    rw [lessEq_ok h ((blocks_chap h true).en_valid hr.s) hr.t]
    congr 1
    rw [decide_eq_decide]
    exact ⟨fun hh => ⟨h1, hh⟩, fun hh => hh.2⟩
  · rw [if_pos h1]; congr 1; symm; rw [decide_eq_false_iff_not]; exact fun hh => h1 hh.1

theorem spansEndBook_eq : r.spansEndBook e flags = .ok (decide (r.stop = enBook e.data r.stop ∧
    pos e.data r.start ≤ pos e.data (stBook e.data (e.eff flags).verse0 r.stop))) := by
  unfold BibleRange.spansEndBook
  rw [first_st_book h hg, last_en_book h]
  simp only [bind, Except.bind, pure, Except.pure]
  by_cases h1 : r.stop = enBook e.data r.stop
  · rw [if_neg (not_not_intro h1)]
    rw [lessEq_ok h hr.s ((blocks_book h (e.eff flags).verse0).st_valid hr.t)]
    congr 1
    rw [decide_eq_decide]
    exact ⟨fun hh => ⟨h1, hh⟩, fun hh => hh.2⟩
  · rw [if_pos h1]; congr 1; symm; rw [decide_eq_false_iff_not]; exact fun hh => h1 hh.1

theorem spansEndChap_eq : r.spansEndChap e flags = .ok (decide (r.stop = enChap e.data r.stop ∧
    pos e.data r.start ≤ pos e.data (stChap e.data (e.eff flags).verse0 r.stop))) := by
  unfold BibleRange.spansEndChap
  rw [first_st_chap h hg hr.t, last_en_chap h hr.t]
  simp only [bind, Except.bind, pure, Except.pure]
  by_cases h1 : r.stop = enChap e.data r.stop
  · rw [if_neg (not_not_intro h1)]
    rw [lessEq_ok h hr.s ((blocks_chap h (e.eff flags).verse0).st_valid hr.t)]
    congr 1
    rw [decide_eq_decide]
    exact ⟨fun hh => ⟨h1, hh⟩, fun hh => hh.2⟩
  · rw [if_pos h1]; congr 1; symm; rw [decide_eq_false_iff_not]; exact fun hh => h1 hh.1

omit hr in
theorem isWholeBook_eq : r.isWholeBook e flags = .ok (decide (r.start = stBook e.data (e.eff flags).verse0 r.start ∧
    r.stop = enBook e.data r.start)) := by
  unfold BibleRange.isWholeBook
  rw [first_st_book h hg, last_en_book h]
  simp only [bind, Except.bind, pure, Except.pure]
  by_cases h0 : r.start.book = r.stop.book
  · rw [if_neg (not_not_intro h0)]
    have he : enBook e.data r.stop = enBook e.data r.start := by simp [enBook, h0]
    by_cases h1 : r.start = stBook e.data (e.eff flags).verse0 r.start
    · rw [if_neg (not_not_intro h1)]
      congr 1
      rw [decide_eq_decide, he]
      exact ⟨fun hh => ⟨h1, hh⟩, fun hh => hh.2⟩
    · rw [if_pos h1]; congr 1; symm; rw [decide_eq_false_iff_not]; exact fun hh => h1 hh.1
  · rw [if_pos h0]; congr 1; symm; rw [decide_eq_false_iff_not]
    rintro ⟨_, hh⟩; apply h0; rw [hh]; rfl

theorem isWholeChap_eq : r.isWholeChap e flags = .ok (decide (r.start = stChap e.data (e.eff flags).verse0 r.start ∧
    r.stop = enChap e.data r.start)) := by
  unfold BibleRange.isWholeChap
  rw [first_st_chap h hg hr.s]
  simp only [bind, Except.bind, pure, Except.pure]
  by_cases h0 : r.start.book = r.stop.book
  · rw [if_neg (not_not_intro h0), ← h0, last_en_chap h hr.s]
    by_cases h1 : r.start = stChap e.data (e.eff flags).verse0 r.start
    · rw [if_neg (not_not_intro h1)]
      simp only
      congr 1
      rw [decide_eq_decide]
      exact ⟨fun hh => ⟨h1, hh⟩, fun hh => hh.2⟩
    · rw [if_pos h1]; congr 1; symm; rw [decide_eq_false_iff_not]; exact fun hh => h1 hh.1
  · rw [if_pos h0]; congr 1; symm; rw [decide_eq_false_iff_not]
    rintro ⟨_, hh⟩; apply h0; rw [hh]; rfl

end

namespace RangeList

variable {e : Env} (h : e.data.WF) {flags : Option BibleFlag} (hg : (e.eff flags).verse0 = true → e.flags.verse0 = true)
include h hg

theorem regroupStart_ok {r : BibleRange} (hr : ROK e.data true r) (s : GroupState) : ∃ x, regroupStart e flags s r = .ok x := by
  unfold regroupStart
  obtain ⟨n, hn, _⟩ := chapCount_eq h hr rfl
  rw [spansStartBook_eq h hg hr, spansStartChap_eq h hg hr, hn]
  simp only [bind, Except.bind, pure, Except.pure]
  repeat' split
  all_goals exact ⟨_, rfl⟩

theorem isDual_ok {r : BibleRange} (hr : ROK e.data true r) : ∃ x, isDual e flags r = .ok x := by
  unfold isDual
  rw [isWholeBook_eq h hg, isWholeChap_eq h hg hr]
  simp only [bind, Except.bind, pure, Except.pure]
  repeat' split
  all_goals exact ⟨_, rfl⟩

theorem regroupStop_ok {r : BibleRange} (hr : ROK e.data true r) (b : Bool) : ∃ x, regroupStop e flags b r = .ok x := by
  unfold regroupStop
  rw [spansEndBook_eq h hg hr, spansEndChap_eq h hg hr]
  simp only [bind, Except.bind, pure, Except.pure]
  by_cases h1 : r.stop.book ≠ r.start.book
  · simp only [if_pos h1, Bool.false_eq_true, if_false]
    split <;> exact ⟨_, rfl⟩
  · simp only [if_neg h1]
    cases b <;> simp only [Bool.false_eq_true, if_false, if_true] <;> split <;> exact ⟨_, rfl⟩

theorem regroupStep_ok {r : BibleRange} (hr : ROK e.data true r) (s : GroupState) : ∃ x, regroupStep e flags s r = .ok x := by
  obtain ⟨⟨a, b, c, d⟩, h1⟩ := regroupStart_ok h hg hr s
  obtain ⟨x, h2⟩ := isDual_ok h hg hr
  unfold regroupStep
  rw [h1, h2, spansEndChap_eq h (flags := none) (fun hh => hh) hr]
  simp only [bind, Except.bind, pure, Except.pure]
  cases d <;> cases x <;> simp only [Bool.false_eq_true, if_false, if_true]
  · exact ⟨_, rfl⟩
  · obtain ⟨y, h3⟩ := regroupStop_ok h hg hr (if decide (r.stop = enChap e.data r.stop ∧
      pos e.data r.start ≤ pos e.data (stChap e.data (e.eff none).verse0 r.stop)) = true then c else true)
    rw [h3]; exact ⟨_, rfl⟩
  · exact ⟨_, rfl⟩
  · obtain ⟨y, h3⟩ := regroupStop_ok h hg hr c
    rw [h3]; exact ⟨_, rfl⟩

theorem regroupHeads_ok {l : List BibleRange} (hl : ∀ r ∈ l, ROK e.data true r) (s : GroupState) :
    ∃ x, regroupHeads e flags s l = .ok x := by
  induction l generalizing s with
  | nil => exact ⟨_, rfl⟩
  | cons r l ih =>
    obtain ⟨⟨a, s'⟩, h1⟩ := regroupStep_ok h hg (hl r List.mem_cons_self) s
    obtain ⟨x, h2⟩ := ih (fun r hr => hl r (List.mem_cons_of_mem _ hr)) s'
    simp only [regroupHeads, h1, h2, bind, Except.bind]
    exact ⟨_, rfl⟩

/-- Regrouping never raises on ranges that exist, and keeps the ranges and their order. -/
theorem regroup_ok {l : List BibleRange} (hl : ∀ r ∈ l, ROK e.data true r) :
    ∃ m, regroup e flags l = .ok m ∧ m.flatten = l ∧ Groups.NE m := by
  obtain ⟨x, h1⟩ := regroupHeads_ok h hg hl ⟨none, none, false⟩
  have : regroup e flags l = .ok (Groups.cut x) := by
    simp only [regroup, h1, bind, Except.bind]; rfl
  exact ⟨_, this, regroup_flatten this⟩

end RangeList
end Bibleref
