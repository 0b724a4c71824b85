import Verif.Lemmas.Calls
import Verif.Props.RangeLists2

/-!
# The chapters of a book (C59)
-/

namespace Bibleref
open Spec

/-- C59: `chap_ranges` returns one range for every chapter of the book, in order, each with exactly the verses of its chapter
and equal to what `chap_range` returns; with `regroup` every chapter is a group of its own, without it there is one group. The
one exception is a call that allows verse 0s which are not allowed globally, for a book whose first chapter has a verse 0:
there `InvalidReferenceError` is raised. -/
theorem C59_chap_ranges_partial (e : Env) (h : e.data.WF) (b : BibleBook) (hb : b ∈ e.data.bookOrder) (regroup : Bool)
    (flags : Option BibleFlag) (fuel : Nat) (hfuel : nChaps e.data b ≤ fuel)
    (hok : (inForce e flags).verse0 = true → e.flags.verse0 = true ∨ 1 ∉ e.data.verse0s b) :
    ∃ pieces : List BibleRange,
      b.chapRanges e regroup flags fuel = .ok (if regroup then pieces.map fun r => [r] else [pieces]) ∧
      pieces.map (versesOf e.data (inForce e flags).verse0) = (chapters e.data b).map (chapVerses e.data (inForce e flags).verse0 b) ∧
      (∀ r ∈ pieces, RangeOK e.data (inForce e flags).verse0 r) ∧
      (((inForce e flags).verse0 = true → e.flags.verse0 = true) →
        (chapters e.data b).mapM (fun c => b.chapRange e c flags) = .ok pieces) := by
  rw [← eff_eq] at *
  have hn := h.nChaps_pos b
  have hfirst : b.firstVerse e none flags = .ok ⟨b, 1, firstNum e.data (e.eff flags).verse0 b 1⟩ := by
    rw [firstVerse_none h, firstVerse_eq h, if_pos]
    refine ⟨by omega, by omega, (firstNum_le_iff ..).mpr ?_⟩
    rintro ⟨h1, h2, h3⟩
    rcases hok h1 with h4 | h4
    · rw [h4] at h2; cases h2
    · exact h4 h3
  have hv := firstNum_valid h (v0 := (e.eff flags).verse0) hb (c := 1) (by omega) (by omega)
  have hlp := h.lastNum_pos (b := b) (c := nChaps e.data b) (by omega) (by omega)
  have hrange : b.range e flags = .ok ⟨⟨b, 1, firstNum e.data (e.eff flags).verse0 b 1⟩,
      ⟨b, nChaps e.data b, lastNum e.data b (nChaps e.data b)⟩⟩ := by
    unfold BibleBook.range
    rw [hfirst, lastVerse_none h]
    simp only [bind, Except.bind]
    exact new_range_ok h hv (enBook_valid h true (v := ⟨b, 1, firstNum e.data (e.eff flags).verse0 b 1⟩) hb)
      ((blocks_book h (e.eff flags).verse0).le (v := ⟨b, 1, _⟩) (w := ⟨b, 1, firstNum e.data (e.eff flags).verse0 b 1⟩)
        hv.mono hv.mono (Nat.le_refl _)) (.inr rfl)
  have hokp : ∀ c ∈ chapters e.data b, ROK e.data (e.eff flags).verse0 (chapPiece e.data (e.eff flags).verse0 b c) := by
    intro c hc
    obtain ⟨h1, h2⟩ := mem_chapters.mp hc
    have hv' := firstNum_valid h (v0 := (e.eff flags).verse0) hb (c := c) h1 h2
    exact ⟨hv', lastNum_valid h hb h1 h2,
      (blocks_chap h (e.eff flags).verse0).le (v := ⟨b, c, _⟩) (w := ⟨b, c, _⟩) hv'.mono hv'.mono (Nat.le_refl _)⟩
  have hsplit : BibleRange.splitRaw e ⟨⟨b, 1, firstNum e.data (e.eff flags).verse0 b 1⟩,
      ⟨b, nChaps e.data b, lastNum e.data b (nChaps e.data b)⟩⟩ false true none flags fuel =
      .ok ((chapters e.data b).map (chapPiece e.data (e.eff flags).verse0 b)) := by
    have hf := splitFlags_eff e ⟨⟨b, 1, firstNum e.data (e.eff flags).verse0 b 1⟩,
      ⟨b, nChaps e.data b, lastNum e.data b (nChaps e.data b)⟩⟩ flags
    have hv0 : (BibleRange.splitFlags e ⟨⟨b, 1, firstNum e.data (e.eff flags).verse0 b 1⟩,
      ⟨b, nChaps e.data b, lastNum e.data b (nChaps e.data b)⟩⟩ flags).verse0 = (e.eff flags).verse0 := by
      rw [splitFlags_verse0]
      simp only
      cases hx : (e.eff flags).verse0 with
      | true => rfl
      | false =>
        have : firstNum e.data false b 1 = 1 := by simp [firstNum]
        rw [this]
        simp only [Bool.false_or, Bool.or_eq_false_iff, beq_eq_false_iff_ne, ne_eq]
        omega
    unfold BibleRange.splitRaw
    simp only
    generalize BibleRange.splitFlags e ⟨⟨b, 1, firstNum e.data (e.eff flags).verse0 b 1⟩,
      ⟨b, nChaps e.data b, lastNum e.data b (nChaps e.data b)⟩⟩ flags = f at hf hv0
    have := chop_chaps h hb hf fuel 1 (by omega) (by omega) (by omega)
    rw [hv0] at this
    simp only [Bool.false_eq_true, if_false, if_true, BibleRange.splitEach, List.mapM_cons, List.mapM_nil, this, bind, Except.bind,
      pure, Except.pure, List.flatten_cons, List.flatten_nil, List.append_nil]
    rfl
  refine ⟨(chapters e.data b).map (chapPiece e.data (e.eff flags).verse0 b), ?_, ?_, ?_, ?_⟩
  · unfold BibleBook.chapRanges
    rw [hrange]
    simp only [bind, Except.bind]
    unfold BibleRange.split
    rw [hsplit]
    simp only [bind, Except.bind, pure, Except.pure]
    cases regroup with
    | true =>
      simp only [if_true]
      refine regroup_apart h _ ?_ ?_
      · intro r hr
        obtain ⟨c, hc, rfl⟩ := List.mem_map.mp hr
        exact ⟨⟨(hokp c hc).s.mono, (hokp c hc).t.mono, (hokp c hc).le⟩, rfl⟩
      · rw [List.pairwise_map]
        simp only [chapPiece, chapters, intRange]
        rw [List.pairwise_map]
        exact (List.pairwise_lt_range).imp fun hab => by omega
    | false =>
      have hne : (chapters e.data b).map (chapPiece e.data (e.eff flags).verse0 b) ≠ [] := by
        rw [chapters, intRange_cons (by omega)]; simp
      have := Groups.extend_nil ((chapters e.data b).map (chapPiece e.data (e.eff flags).verse0 b))
      rw [if_neg hne] at this
      simp only [Bool.false_eq_true, if_false]
      exact congrArg Except.ok this
  · rw [List.map_map]
    exact List.map_congr_left fun c hc => versesOf_chapPiece h hb (mem_chapters.mp hc).1 (mem_chapters.mp hc).2
  · intro r hr
    obtain ⟨c, hc, rfl⟩ := List.mem_map.mp hr
    exact (rangeOK_iff h).mpr (hokp c hc)
  · intro hg
    have : ∀ l : List Int, (∀ c ∈ l, c ∈ chapters e.data b) →
        l.mapM (fun c => b.chapRange e c flags) = .ok (l.map (chapPiece e.data (e.eff flags).verse0 b)) := by
      intro l hl
      induction l with
      | nil => rfl
      | cons c l ih =>
        have hc := mem_chapters.mp (hl c List.mem_cons_self)
        rw [List.mapM_cons, book_chapRange_eq h hg hc.1 hc.2, ih fun x hx => hl x (List.mem_cons_of_mem _ hx)]
        rfl
    exact this _ fun _ hc => hc

example : BibleBook.chapRanges dflt .Hag false none 5 = .ok [[⟨⟨.Hag, 1, 1⟩, ⟨.Hag, 1, 15⟩⟩, ⟨⟨.Hag, 2, 1⟩, ⟨.Hag, 2, 23⟩⟩]] ∧
    BibleBook.chapRanges dflt .Hag true none 5 = .ok [[⟨⟨.Hag, 1, 1⟩, ⟨.Hag, 1, 15⟩⟩], [⟨⟨.Hag, 2, 1⟩, ⟨.Hag, 2, 23⟩⟩]] := by decide +kernel

/-- C59, what is missing: for a book whose first chapter has a verse 0, `chap_ranges(flags=VERSE_0)` raises unless the global
flags also allow verse 0s. -/
theorem C59_chap_ranges_defect (e : Env) (h : e.data.WF) (b : BibleBook) (regroup : Bool) (flags : Option BibleFlag) (fuel : Nat)
    (h1 : (inForce e flags).verse0 = true) (h2 : e.flags.verse0 = false) (h3 : 1 ∈ e.data.verse0s b) :
    b.chapRanges e regroup flags fuel = .error .invalidReference := by
  rw [← eff_eq] at *
  have hfirst : b.firstVerse e none flags = .error .invalidReference := by
    rw [firstVerse_none h, firstVerse_eq h, if_neg]
    rintro ⟨_, _, h4⟩
    exact (firstNum_le_iff ..).mp h4 ⟨h1, h2, h3⟩
  unfold BibleBook.chapRanges BibleBook.range
  rw [hfirst]
  rfl

example : (inForce dflt (some .VERSE_0)).verse0 = true ∧ dflt.flags.verse0 = false ∧
    1 ∈ ({ defaultData with verse0s := fun _ => [1] } : BibleData).verse0s .Hab := by decide +kernel

/-- C59 fails as stated: a witness. -/
theorem C59_counterexample : ∃ e : Env, e.data.WF ∧ ∃ b fuel, nChaps e.data b ≤ fuel ∧
    b.chapRanges e true (some .VERSE_0) fuel = .error .invalidReference :=
  ⟨{ dflt with data := { defaultData with verse0s := fun _ => [1] } },
    ⟨defaultData_wf.nodup, defaultData_wf.chaps⟩, .Hab, 3, by decide +kernel, by decide +kernel⟩

end Bibleref
