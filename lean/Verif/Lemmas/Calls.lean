import Verif.Model.Calls
import Verif.Lemmas.Shape
import Verif.Lemmas.Regroup
import Verif.Lemmas.ListOps

namespace Bibleref
open Spec

/-- One verse further than the last verse of a chapter that is not the last of its book. -/
theorem add_next_chap {e : Env} (h : e.data.WF) {b : BibleBook} {c : Int} (hb : b ∈ e.data.bookOrder)
    (h1 : 1 ≤ c) (h2 : c + 1 ≤ nChaps e.data b)
    {f : BibleFlag} (hf : e.eff (some f) = f) :
    BibleVerse.add e ⟨b, c, lastNum e.data b c⟩ 1 (some f) = .ok (some ⟨b, c + 1, firstNum e.data f.verse0 b (c + 1)⟩) := by
  have hl := h.lastNum_pos h1 (by omega : c ≤ nChaps e.data b)
  have hl' := h.lastNum_pos (by omega : 1 ≤ c + 1) h2
  have hfo := firstNum_le_one e.data f.verse0 b c
  have hfo' := firstNum_le_one e.data f.verse0 b (c + 1)
  have hh : BibleVerse.honourFlags ⟨b, c, lastNum e.data b c⟩ f = f := by
    unfold BibleVerse.honourFlags
    rw [if_neg]
    simp only; omega
  unfold BibleVerse.add
  simp only [hf, hh]
  rw [h.maxVerseNum, if_pos ⟨h1, by omega⟩]
  simp only [bind, Except.bind]
  have := addLoop_spec h hf (e.data.totalChaps + 1) b c (lastNum e.data b c + 1 - firstNum e.data f.verse0 b c).toNat
    (fun _ => hb) h1 (by omega) (length_after_le h (x := (b, c)) (fun _ => hb) h1 (by simp only; omega))
  rw [show firstNum e.data f.verse0 b c + ((lastNum e.data b c + 1 - firstNum e.data f.verse0 b c).toNat : Int) =
    lastNum e.data b c + 1 by omega] at this
  rw [this, List.flatMap_cons, List.getElem?_append_right (by rw [length_cv]; simp only; omega), length_cv, after_eq h,
    if_neg (by omega), List.flatMap_cons, List.getElem?_append_left (by rw [length_cv]; simp only; omega), getElem?_cv,
    if_pos (by simp only; omega)]
  simp only [Except.ok.injEq, Option.some.injEq, BibleVerse.mk.injEq, true_and]
  omega

/-- The whole chapter as a range. -/
def chapPiece (d : BibleData) (v0 : Bool) (b : BibleBook) (c : Int) : BibleRange :=
  ⟨⟨b, c, firstNum d v0 b c⟩, ⟨b, c, lastNum d b c⟩⟩

theorem chop_chaps {e : Env} (h : e.data.WF) {b : BibleBook} (hb : b ∈ e.data.bookOrder) {f : BibleFlag}
    (hf : e.eff (some f) = f) (fuel : Nat) :
    ∀ (c : Int), 1 ≤ c → c ≤ nChaps e.data b → (nChaps e.data b - c).toNat < fuel →
    BibleRange.chop e f (fun v => v.lastVerse e none) fuel ⟨b, c, firstNum e.data f.verse0 b c⟩
      ⟨b, nChaps e.data b, lastNum e.data b (nChaps e.data b)⟩ =
      .ok ((intRange c (nChaps e.data b)).map (chapPiece e.data f.verse0 b)) := by
  induction fuel with
  | zero => intro c _ _ hk; omega
  | succ fuel ih =>
    intro c h1 h2 hk
    have hnew : BibleRange.new e (some ⟨b, c, firstNum e.data f.verse0 b c⟩) (some ⟨b, c, lastNum e.data b c⟩) (some f) =
        .ok (chapPiece e.data f.verse0 b c) := by
      have hv := firstNum_valid h (v0 := f.verse0) hb h1 h2
      exact new_range_ok h hv (lastNum_valid h (v0 := true) hb h1 h2)
        ((blocks_chap h f.verse0).le (v := ⟨b, c, _⟩) (w := ⟨b, c, _⟩) hv.mono hv.mono (Nat.le_refl _)) (.inr rfl)
    unfold BibleRange.chop
    have hlast : BibleVerse.lastVerse e ⟨b, c, firstNum e.data f.verse0 b c⟩ none = .ok ⟨b, c, lastNum e.data b c⟩ :=
      lastVerse_ok h h1 h2
    simp only [hlast, bind, Except.bind]
    by_cases hc : c + 1 ≤ nChaps e.data b
    · have hlt : BibleVerse.lt e.data ⟨b, c, lastNum e.data b c⟩ ⟨b, nChaps e.data b, lastNum e.data b (nChaps e.data b)⟩ = true := by
        rw [h.lt_iff]; exact .inr ⟨rfl, .inl (by simp only; omega)⟩
      have hless : BibleVerse.less e.data ⟨b, c, lastNum e.data b c⟩ ⟨b, nChaps e.data b, lastNum e.data b (nChaps e.data b)⟩ = .ok true := by
        rw [BibleVerse.less_eq (comparable_book (by rfl)), hlt]
      simp only [hless, if_true]
      rw [hnew]
      simp only [add_next_chap h hb h1 hc hf, ih (c + 1) (by omega) hc (by omega), pure, Except.pure]
      rw [intRange_cons h2, List.map_cons]
    · have hcc : c = nChaps e.data b := by omega
      subst hcc
      rw [BibleVerse.less_eq (comparable_book rfl)]
      simp only [h.lt_irrefl _, if_false, Bool.false_eq_true]
      rw [hnew, intRange_cons (Int.le_refl _), intRange_nil (by omega)]
      rfl

/-- The verses of a whole chapter. -/
theorem versesOf_chapPiece {d : BibleData} (h : d.WF) {v0 : Bool} {b : BibleBook} {c : Int} (hl : b ∈ d.bookOrder)
    (h1 : 1 ≤ c) (h2 : c ≤ nChaps d b) :
    versesOf d v0 (chapPiece d v0 b c) = chapVerses d v0 b c := by
  have hs := firstNum_valid h (v0 := v0) hl h1 h2
  have ht := lastNum_valid h (v0 := v0) hl h1 h2
  have hmem : ∀ v, v ∈ versesOf d v0 (chapPiece d v0 b c) ↔ v ∈ chapVerses d v0 b c := by
    intro v
    rw [versesOf, List.mem_filter, mem_canon h, decide_eq_true_iff, InRange, mem_chapVerses]
    constructor
    · rintro ⟨hv, ha, hb⟩
      have ha' := (h.le_pos hs hv).mpr ha
      have hb' := (h.le_pos hv ht).mpr hb
      rw [h.le_iff] at ha' hb'
      simp only at ha' hb'
      rcases ha' with ha' | ⟨ha', ha''⟩
      · rcases hb' with hb' | ⟨hb', _⟩
        · omega
        · rw [hb'] at ha'; omega
      · rcases hb' with hb' | ⟨hb', hb''⟩
        · rw [ha'] at hb'; omega
        · have : v.chap = c := by omega
          refine ⟨hb', this, ?_, ?_⟩
          · rcases ha'' with x | ⟨_, x⟩ <;> omega
          · rcases hb'' with x | ⟨_, x⟩ <;> omega
    · rintro ⟨rfl, rfl, ha, hb⟩
      have hv : Valid d v0 v := ⟨h1, h2, ha, hb, hl⟩
      refine ⟨hv, (h.le_pos hs hv).mp ?_, (h.le_pos hv ht).mp ?_⟩
      · rw [h.le_iff]; exact .inr ⟨rfl, .inr ⟨rfl, ha⟩⟩
      · rw [h.le_iff]; exact .inr ⟨rfl, .inr ⟨rfl, hb⟩⟩
  have p1 : (versesOf d v0 (chapPiece d v0 b c)).Pairwise (fun v w => v.lt d w = true) := (h.pairwise_canon v0).filter _
  have p2 : (chapVerses d v0 b c).Pairwise (fun v w => v.lt d w = true) := by
    have := h.pairwise_bookVerses v0 b
    rw [bookVerses, List.pairwise_flatMap] at this
    exact this.1 c (mem_chapters.mpr ⟨h1, h2⟩)
  have n1 : (versesOf d v0 (chapPiece d v0 b c)).Nodup := (h.nodup_canon v0).filter _
  have n2 : (chapVerses d v0 b c).Nodup := p2.imp fun {a b} hab hne => by subst hne; exact h.lt_irrefl _ hab
  refine List.Perm.eq_of_pairwise ?_ p1 p2 ((List.perm_ext_iff_of_nodup n1 n2).mpr hmem)
  intro a b _ _ hab hba
  exact absurd hba (h.lt_asymm hab)

/-! ## Groups of one range each -/

/-- After one range the current chapter is none or one of the range's two. -/
theorem regroupStep_apart {e : Env} (h : e.data.WF) {r : BibleRange} (hr : ROK e.data true r) (hc : r.start.chap = r.stop.chap)
    {s : RangeList.GroupState} (hs : s.chap ≠ some r.start.chap) :
    ∃ s', RangeList.regroupStep e none s r = .ok (true, s') ∧ (s'.chap = none ∨ s'.chap = some r.start.chap) := by
  have hg : (e.eff none).verse0 = true → e.flags.verse0 = true := fun hh => hh
  obtain ⟨dual, h2⟩ := RangeList.isDual_ok h (flags := none) hg hr
  have hstart : ∃ c v w, RangeList.regroupStart e none s r = .ok (true, c, v, w) ∧ (c = none ∨ c = some r.start.chap) := by
    unfold RangeList.regroupStart
    rw [spansStartBook_eq h (flags := none) hg hr, spansStartChap_eq h (flags := none) hg hr]
    simp only [bind, Except.bind, pure, Except.pure]
    split
    · exact ⟨_, _, _, rfl, .inl rfl⟩
    · split
      · exact ⟨_, _, _, rfl, .inr rfl⟩
      · split
        · rw [if_pos (.inr hs)]; exact ⟨_, _, _, rfl, .inr rfl⟩
        · exact ⟨_, _, _, rfl, .inr rfl⟩
  obtain ⟨c, v, w, h1, hcc⟩ := hstart
  have hstop : ∀ b, ∃ y, RangeList.regroupStop e none b r = .ok y ∧ (y.chap = none ∨ y.chap = some r.start.chap) := by
    intro b
    unfold RangeList.regroupStop
    rw [spansEndBook_eq h (flags := none) hg hr, spansEndChap_eq h (flags := none) hg hr]
    simp only [bind, Except.bind, pure, Except.pure]
    split
    · exact ⟨_, rfl, .inl rfl⟩
    · generalize (if r.stop.book ≠ r.start.book then false else b) = b'
      cases b' <;> exact ⟨_, rfl, .inr (by rw [hc])⟩
  unfold RangeList.regroupStep
  rw [h1, h2, spansEndChap_eq h (flags := none) hg hr]
  simp only [bind, Except.bind, pure, Except.pure]
  cases w <;> cases dual <;> simp only [Bool.false_eq_true, if_false, if_true]
  · exact ⟨_, rfl, hcc⟩
  · obtain ⟨y, h3, h4⟩ := hstop (if decide (r.stop = enChap e.data r.stop ∧
      pos e.data r.start ≤ pos e.data (stChap e.data (e.eff none).verse0 r.stop)) = true then v else true)
    rw [h3]; exact ⟨_, rfl, h4⟩
  · exact ⟨_, rfl, hcc⟩
  · obtain ⟨y, h3, h4⟩ := hstop v
    rw [h3]; exact ⟨_, rfl, h4⟩

/-- Ranges in strictly ascending chapters begin a group each. -/
theorem regroupHeads_apart {e : Env} (h : e.data.WF) (l : List BibleRange) (hl : ∀ r ∈ l, ROK e.data true r ∧ r.start.chap = r.stop.chap)
    (hp : l.Pairwise fun a b => a.start.chap < b.start.chap) (s : RangeList.GroupState)
    (hs : ∀ c, s.chap = some c → ∀ r ∈ l, c < r.start.chap) :
    RangeList.regroupHeads e none s l = .ok (l.map fun r => (true, r)) := by
  induction l generalizing s with
  | nil => rfl
  | cons r l ih =>
    rw [List.pairwise_cons] at hp
    obtain ⟨s', h1, h2⟩ := regroupStep_apart h (hl r List.mem_cons_self).1 (hl r List.mem_cons_self).2 (s := s)
      (fun hh => Int.lt_irrefl _ (hs _ hh r List.mem_cons_self))
    have := ih (fun x hx => hl x (List.mem_cons_of_mem _ hx)) hp.2 s' (by
      intro c hc x hx
      rcases h2 with h2 | h2
      · rw [h2] at hc; cases hc
      · rw [h2] at hc; cases hc; exact hp.1 x hx)
    simp only [RangeList.regroupHeads, h1, this, bind, Except.bind]
    rfl

theorem cut_singles {α : Type} (l : List α) : Groups.cut (l.map fun r => (true, r)) = l.map fun r => [r] := by
  induction l with
  | nil => rfl
  | cons a l ih =>
    cases l with
    | nil => rfl
    | cons b l =>
      rw [List.map_cons, List.map_cons, Groups.cut]
      rw [List.map_cons, List.map_cons] at ih
      rw [ih]; rfl

theorem regroup_apart {e : Env} (h : e.data.WF) (l : List BibleRange) (hl : ∀ r ∈ l, ROK e.data true r ∧ r.start.chap = r.stop.chap)
    (hp : l.Pairwise fun a b => a.start.chap < b.start.chap) :
    RangeList.regroup e none l = .ok (l.map fun r => [r]) := by
  unfold RangeList.regroup
  rw [regroupHeads_apart h l hl hp _ (by intro c hc; cases hc)]
  simp only [bind, Except.bind, pure, Except.pure]
  rw [cut_singles]

end Bibleref
