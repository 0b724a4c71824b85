import Verif.Props.FlagLaws
import Verif.Props.SplitUnique

/-!
# Ranges over several books when `MULTIBOOK` is not set (C81)
-/

namespace Bibleref

open Spec

section
variable {d : BibleData} {f f' : BibleFlag} (hg : f.verse0 = f'.verse0)

section
variable {fl fl' : Option BibleFlag} (hf : (Env.eff ⟨d, f⟩ fl).verse0 = (Env.eff ⟨d, f'⟩ fl').verse0)

include hf in
theorem minVerseNum_v0 (b : BibleBook) (c : Int) : b.minVerseNum ⟨d, f⟩ c fl = b.minVerseNum ⟨d, f'⟩ c fl' := by
  simp only [BibleBook.minVerseNum, hf]

include hf in
theorem verse_new_v0 (b : BibleBook) (c n : Int) : BibleVerse.new ⟨d, f⟩ b c n fl = BibleVerse.new ⟨d, f'⟩ b c n fl' := by
  simp only [BibleVerse.new, minVerseNum_v0 hf]

include hg in
theorem lastVerse_v0 (b : BibleBook) (c : Option Int) : b.lastVerse ⟨d, f⟩ c = b.lastVerse ⟨d, f'⟩ c := by
  simp only [BibleBook.lastVerse, verse_new_v0 (fl := none) (fl' := none) (f := f) (f' := f') hg]

include hg hf in
theorem firstVerse_v0 (b : BibleBook) (c : Option Int) : b.firstVerse ⟨d, f⟩ c fl = b.firstVerse ⟨d, f'⟩ c fl' := by
  simp only [BibleBook.firstVerse, verse_new_v0 (fl := none) (fl' := none) (f := f) (f' := f') hg, minVerseNum_v0 hf]

include hg hf

theorem isWholeChap_v0 (r : BibleRange) : r.isWholeChap ⟨d, f⟩ fl = r.isWholeChap ⟨d, f'⟩ fl' := by
  simp only [BibleRange.isWholeChap, firstVerse_v0 hg hf, lastVerse_v0 hg]

theorem spansStartChap_v0 (r : BibleRange) : r.spansStartChap ⟨d, f⟩ fl = r.spansStartChap ⟨d, f'⟩ fl' := by
  simp only [BibleRange.spansStartChap, firstVerse_v0 hg hf, lastVerse_v0 hg]

theorem spansEndChap_v0 (r : BibleRange) : r.spansEndChap ⟨d, f⟩ fl = r.spansEndChap ⟨d, f'⟩ fl' := by
  simp only [BibleRange.spansEndChap, firstVerse_v0 hg hf, lastVerse_v0 hg]

theorem isWholeBook_v0 (r : BibleRange) : r.isWholeBook ⟨d, f⟩ fl = r.isWholeBook ⟨d, f'⟩ fl' := by
  simp only [BibleRange.isWholeBook, firstVerse_v0 hg hf, lastVerse_v0 hg]

theorem spansStartBook_v0 (r : BibleRange) : r.spansStartBook ⟨d, f⟩ fl = r.spansStartBook ⟨d, f'⟩ fl' := by
  simp only [BibleRange.spansStartBook, firstVerse_v0 hg hf, lastVerse_v0 hg]

theorem spansEndBook_v0 (r : BibleRange) : r.spansEndBook ⟨d, f⟩ fl = r.spansEndBook ⟨d, f'⟩ fl' := by
  simp only [BibleRange.spansEndBook, firstVerse_v0 hg hf, lastVerse_v0 hg]

omit hg in
theorem union_multibook : (Env.eff ⟨d, f⟩ fl).union .MULTIBOOK = (Env.eff ⟨d, f'⟩ fl').union .MULTIBOOK := by
  unfold BibleFlag.union
  rw [hf]
  simp [BibleFlag.MULTIBOOK]

omit hg hf in
theorem eff_multibook (g : BibleFlag) : Env.eff ⟨d, f⟩ (some (g.union .MULTIBOOK)) = g.union .MULTIBOOK := by
  apply Env.eff_some_of_ne
  intro hh
  have := congrArg BibleFlag.multibook hh
  simp [BibleFlag.union, BibleFlag.MULTIBOOK, BibleFlag.none] at this

omit hg hf in
theorem range_new_multibook (g : BibleFlag) (s t : Option BibleVerse) :
    BibleRange.new ⟨d, f⟩ s t (some (g.union .MULTIBOOK)) = BibleRange.new ⟨d, f'⟩ s t (some (g.union .MULTIBOOK)) :=
  range_new_congr (e := ⟨d, f⟩) (e' := ⟨d, f'⟩) rfl ((eff_multibook g).trans (eff_multibook g).symm) s t

theorem chapRange_v0 (r : BibleRange) : r.chapRange ⟨d, f⟩ fl = r.chapRange ⟨d, f'⟩ fl' := by
  simp only [BibleRange.chapRange, BibleVerse.firstVerse, BibleVerse.lastVerse, union_multibook hf, lastVerse_v0 hg, range_new_multibook (f := f) (f' := f'),
    firstVerse_v0 (d := d) (f := f) (f' := f') hg (fl := some ((Env.eff ⟨d, f'⟩ fl').union .MULTIBOOK)) (fl' := some ((Env.eff ⟨d, f'⟩ fl').union .MULTIBOOK))
      (by rw [eff_multibook, eff_multibook])]

theorem bookRange_v0 (r : BibleRange) : r.bookRange ⟨d, f⟩ fl = r.bookRange ⟨d, f'⟩ fl' := by
  simp only [BibleRange.bookRange, union_multibook hf, lastVerse_v0 hg, range_new_multibook (f := f) (f' := f'),
    firstVerse_v0 (d := d) (f := f) (f' := f') hg (fl := some ((Env.eff ⟨d, f'⟩ fl').union .MULTIBOOK)) (fl' := some ((Env.eff ⟨d, f'⟩ fl').union .MULTIBOOK))
      (by rw [eff_multibook, eff_multibook])]

theorem list_chapRange_v0 (l : RangeList) : RangeList.chapRange ⟨d, f⟩ l fl = RangeList.chapRange ⟨d, f'⟩ l fl' := by
  simp only [RangeList.chapRange, BibleVerse.firstVerse, BibleVerse.lastVerse, union_multibook hf, lastVerse_v0 hg, range_new_multibook (f := f) (f' := f'),
    firstVerse_v0 (d := d) (f := f) (f' := f') hg (fl := some ((Env.eff ⟨d, f'⟩ fl').union .MULTIBOOK)) (fl' := some ((Env.eff ⟨d, f'⟩ fl').union .MULTIBOOK))
      (by rw [eff_multibook, eff_multibook])]

theorem list_bookRange_v0 (l : RangeList) : RangeList.bookRange ⟨d, f⟩ l fl = RangeList.bookRange ⟨d, f'⟩ l fl' := by
  simp only [RangeList.bookRange, union_multibook hf, lastVerse_v0 hg, range_new_multibook (f := f) (f' := f'),
    firstVerse_v0 (d := d) (f := f) (f' := f') hg (fl := some ((Env.eff ⟨d, f'⟩ fl').union .MULTIBOOK)) (fl' := some ((Env.eff ⟨d, f'⟩ fl').union .MULTIBOOK))
      (by rw [eff_multibook, eff_multibook])]

theorem regroupStep_v0 (s : RangeList.GroupState) (r : BibleRange) (hc : r.chapCount ⟨d, f⟩ false = r.chapCount ⟨d, f'⟩ false) :
    RangeList.regroupStep ⟨d, f⟩ fl s r = RangeList.regroupStep ⟨d, f'⟩ fl' s r := by
  have h0 : (Env.eff ⟨d, f⟩ none).verse0 = (Env.eff ⟨d, f'⟩ none).verse0 := hg
  unfold RangeList.regroupStep RangeList.regroupStart RangeList.isDual RangeList.regroupStop
  simp only [spansStartBook_v0 hg hf, spansStartChap_v0 hg hf, isWholeBook_v0 hg hf, isWholeChap_v0 hg hf, spansEndBook_v0 hg hf,
    spansEndChap_v0 hg hf, spansEndChap_v0 hg h0, hc]

theorem regroup_v0 (l : List BibleRange) (hc : ∀ r ∈ l, r.chapCount ⟨d, f⟩ false = r.chapCount ⟨d, f'⟩ false) : RangeList.regroup ⟨d, f⟩ fl l = RangeList.regroup ⟨d, f'⟩ fl' l := by
  have : ∀ s, RangeList.regroupHeads ⟨d, f⟩ fl s l = RangeList.regroupHeads ⟨d, f'⟩ fl' s l := by
    induction l with
    | nil => intro s; rfl
    | cons r l ih =>
      intro s
      simp only [RangeList.regroupHeads, regroupStep_v0 hg hf s r (hc r (.head _)), ih fun x hx => hc x (.tail _ hx)]
  unfold RangeList.regroup; rw [this]

theorem range_str_v0 (u : Uni) (o : StrOpts) (r : BibleRange) : r.str u ⟨d, f⟩ o fl = r.str u ⟨d, f'⟩ o fl' := by
  have h0 : (Env.eff ⟨d, f⟩ none).verse0 = (Env.eff ⟨d, f'⟩ none).verse0 := hg
  unfold BibleRange.str BibleRange.strStart BibleRange.strStop RangeList.isDual
  simp only [isWholeBook_v0 hg hf, isWholeChap_v0 hg hf, spansEndBook_v0 hg hf, spansEndChap_v0 hg hf,
    spansStartBook_v0 hg h0, spansStartChap_v0 hg h0, spansEndChap_v0 hg h0]

theorem strStep_v0 (u : Uni) (o : StrOpts) (s : RangeList.StrState) (r : BibleRange)
    (hc : r.chapCount ⟨d, f⟩ false = r.chapCount ⟨d, f'⟩ false) :
    RangeList.strStep u ⟨d, f⟩ o fl s r = RangeList.strStep u ⟨d, f'⟩ o fl' s r := by
  have h0 : (Env.eff ⟨d, f⟩ none).verse0 = (Env.eff ⟨d, f'⟩ none).verse0 := hg
  unfold RangeList.strStep RangeList.strStart RangeList.strStop
  simp only [spansStartBook_v0 hg hf, spansStartChap_v0 hg hf, isWholeBook_v0 hg hf, isWholeChap_v0 hg hf, spansEndBook_v0 hg hf,
    spansEndChap_v0 hg hf, spansEndChap_v0 hg h0, RangeList.isDual, hc]

theorem list_str_v0 (u : Uni) (o : StrOpts) (l : RangeList)
    (hc : ∀ r ∈ l.flatten, r.chapCount ⟨d, f⟩ false = r.chapCount ⟨d, f'⟩ false) : RangeList.str u ⟨d, f⟩ o fl l = RangeList.str u ⟨d, f'⟩ o fl' l := by
  have h1 : ∀ g, (∀ r ∈ g, r.chapCount ⟨d, f⟩ false = r.chapCount ⟨d, f'⟩ false) →
      ∀ s, RangeList.strGroup u ⟨d, f⟩ o fl s g = RangeList.strGroup u ⟨d, f'⟩ o fl' s g := by
    intro g
    induction g with
    | nil => intro _ s; rfl
    | cons r g ih =>
      intro hc s
      simp only [RangeList.strGroup, strStep_v0 hg hf u o s r (hc r (.head _)), ih fun x hx => hc x (.tail _ hx)]
  have h2 : ∀ l : RangeList, (∀ r ∈ l.flatten, r.chapCount ⟨d, f⟩ false = r.chapCount ⟨d, f'⟩ false) →
      ∀ s, RangeList.strGroups u ⟨d, f⟩ o fl s l = RangeList.strGroups u ⟨d, f'⟩ o fl' s l := by
    intro l
    induction l with
    | nil => intro _ s; rfl
    | cons g l ih =>
      intro hc s
      simp only [RangeList.strGroups, h1 g fun x hx => hc x (List.mem_flatten.mpr ⟨g, .head _, hx⟩),
        ih fun x hx => hc x (by rw [List.flatten_cons]; exact List.mem_append_right _ hx)]
      rfl
  unfold RangeList.str; rw [h2 l hc]

end

include hg

theorem verse0to1_v0 (v : BibleVerse) : v.verse0to1 ⟨d, f⟩ = v.verse0to1 ⟨d, f'⟩ := by
  simp only [BibleVerse.verse0to1, verse_new_v0 (fl := none) (fl' := none) (f := f) (f' := f') hg]

omit hg in
theorem verse1to0_v0 (v : BibleVerse) : v.verse1to0 ⟨d, f⟩ = v.verse1to0 ⟨d, f'⟩ := by
  have h0 : (Env.eff ⟨d, f⟩ (some .VERSE_0)).verse0 = (Env.eff ⟨d, f'⟩ (some .VERSE_0)).verse0 := rfl
  simp only [BibleVerse.verse1to0, verse_new_v0 h0, minVerseNum_v0 h0]

theorem range_verse0to1_v0 (r : BibleRange) : r.verse0to1 ⟨d, f⟩ = r.verse0to1 ⟨d, f'⟩ := by
  unfold BibleRange.verse0to1
  rw [verse0to1_v0 hg, verse0to1_v0 hg]
  rfl

omit hg in
theorem range_verse1to0_v0 (r : BibleRange) : r.verse1to0 ⟨d, f⟩ = r.verse1to0 ⟨d, f'⟩ := by
  unfold BibleRange.verse1to0
  rw [verse1to0_v0 (f := f) (f' := f'), verse1to0_v0 (f := f) (f' := f')]
  rfl

end

theorem splitRaw_v0 {d : BibleData} (h : d.WF) {f f' : BibleFlag} {fl fl' : Option BibleFlag}
    (hf : (inForce ⟨d, f⟩ fl).verse0 = (inForce ⟨d, f'⟩ fl').verse0) (r : BibleRange) (hr : RangeOK d true r) (byBook byChap : Bool)
    (num : Option Int) (hn : ∀ n, num = some n → 1 ≤ n) (fuel : Nat) (hfuel : d.totalVerses < fuel) :
    r.splitRaw ⟨d, f⟩ byBook byChap num fl fuel = r.splitRaw ⟨d, f'⟩ byBook byChap num fl' fuel := by
  obtain ⟨l, h1, _⟩ := C19_split ⟨d, f⟩ h r hr byBook byChap num hn fl _ rfl fuel hfuel
  have h2 := (C19_exact ⟨d, f⟩ h r hr byBook byChap num hn fl _ rfl fuel hfuel l).mp h1
  rw [h1, (C19_exact ⟨d, f'⟩ h r hr byBook byChap num hn fl' _ rfl fuel hfuel l).mpr (by rw [← hf]; exact h2)]

theorem chapCount_v0 {d : BibleData} (h : d.WF) {f f' : BibleFlag} (hg : f.verse0 = f'.verse0) (r : BibleRange) (hr : RangeOK d true r)
    (whole : Bool) : r.chapCount ⟨d, f⟩ whole = r.chapCount ⟨d, f'⟩ whole := by
  have h0 : (Env.eff ⟨d, f⟩ none).verse0 = (Env.eff ⟨d, f'⟩ none).verse0 := hg
  unfold BibleRange.chapCount
  simp only [splitRaw_v0 h (fl := none) (fl' := none) hg r hr false true none (by simp) _ (Nat.lt_succ_self _), isWholeChap_v0 hg h0]

/-- C81 for single ranges: setting or clearing `MULTIBOOK`, globally or in the call, changes nothing. -/
theorem C81_ranges (d : BibleData) (h : d.WF) (f f' : BibleFlag) (hg : f.verse0 = f'.verse0) (fl fl' : Option BibleFlag)
    (hf : (inForce ⟨d, f⟩ fl).verse0 = (inForce ⟨d, f'⟩ fl').verse0) (r : BibleRange) (hr : RangeOK d true r) :
    r.iter ⟨d, f⟩ = r.iter ⟨d, f'⟩ ∧
    r.verseCount ⟨d, f⟩ = r.verseCount ⟨d, f'⟩ ∧
    (∀ whole, r.chapCount ⟨d, f⟩ whole = r.chapCount ⟨d, f'⟩ whole) ∧
    (∀ whole, r.bookCount ⟨d, f⟩ whole = r.bookCount ⟨d, f'⟩ whole) ∧
    r.isWholeChap ⟨d, f⟩ fl = r.isWholeChap ⟨d, f'⟩ fl' ∧
    r.isWholeBook ⟨d, f⟩ fl = r.isWholeBook ⟨d, f'⟩ fl' ∧
    r.spansStartChap ⟨d, f⟩ fl = r.spansStartChap ⟨d, f'⟩ fl' ∧
    r.spansEndChap ⟨d, f⟩ fl = r.spansEndChap ⟨d, f'⟩ fl' ∧
    r.spansStartBook ⟨d, f⟩ fl = r.spansStartBook ⟨d, f'⟩ fl' ∧
    r.spansEndBook ⟨d, f⟩ fl = r.spansEndBook ⟨d, f'⟩ fl' ∧
    r.chapRange ⟨d, f⟩ fl = r.chapRange ⟨d, f'⟩ fl' ∧
    r.bookRange ⟨d, f⟩ fl = r.bookRange ⟨d, f'⟩ fl' ∧
    r.verse0to1 ⟨d, f⟩ = r.verse0to1 ⟨d, f'⟩ ∧
    r.verse1to0 ⟨d, f⟩ = r.verse1to0 ⟨d, f'⟩ ∧
    (∀ byBook byChap num regroup, (∀ n, num = some n → 1 ≤ n) → ∀ fuel, d.totalVerses < fuel →
      r.split ⟨d, f⟩ byBook byChap num regroup fl fuel = r.split ⟨d, f'⟩ byBook byChap num regroup fl' fuel) ∧
    (∀ u o, r.str u ⟨d, f⟩ o fl = r.str u ⟨d, f'⟩ o fl') := by
  have hf' : (Env.eff ⟨d, f⟩ fl).verse0 = (Env.eff ⟨d, f'⟩ fl').verse0 := by rw [eff_eq, eff_eq]; exact hf
  have h0 : (Env.eff ⟨d, f⟩ none).verse0 = (Env.eff ⟨d, f'⟩ none).verse0 := hg
  have hs : ∀ byBook byChap, r.splitRaw ⟨d, f⟩ byBook byChap none none (d.totalVerses + 1) =
      r.splitRaw ⟨d, f'⟩ byBook byChap none none (d.totalVerses + 1) := fun byBook byChap =>
    splitRaw_v0 h (fl := none) (fl' := none) hg r hr byBook byChap none (by simp) _ (Nat.lt_succ_self _)
  refine ⟨?_, ?_, ?_, ?_, isWholeChap_v0 hg hf' r, isWholeBook_v0 hg hf' r, spansStartChap_v0 hg hf' r, spansEndChap_v0 hg hf' r,
    spansStartBook_v0 hg hf' r, spansEndBook_v0 hg hf' r, chapRange_v0 hg hf' r, bookRange_v0 hg hf' r, range_verse0to1_v0 hg r,
    range_verse1to0_v0 r, ?_, fun u o => range_str_v0 hg hf' u o r⟩
  · rw [C14_iteration ⟨d, f⟩ h r hr, C14_iteration ⟨d, f'⟩ h r hr]
  · unfold BibleRange.verseCount
    simp only [hs]
  · exact chapCount_v0 h hg r hr
  · intro whole
    unfold BibleRange.bookCount
    simp only [hs, isWholeBook_v0 hg h0]
  · intro byBook byChap num regroup hn fuel hfuel
    obtain ⟨l, h1, _, h2, _⟩ := C19_split ⟨d, f⟩ h r hr byBook byChap num hn fl _ rfl fuel hfuel
    unfold BibleRange.split
    rw [← splitRaw_v0 h hf r hr byBook byChap num hn fuel hfuel, h1]
    have := regroup_v0 hg h0 l fun x hx => chapCount_v0 h hg x (by
      have := (rangeOK_iff (show (⟨d, f⟩ : Env).data.WF from h)).mp (h2 x hx)
      exact (rangeOK_iff h).mpr ⟨this.s.mono, this.t.mono, this.le⟩) false
    simp only [bind, Except.bind, this]

/-- C81 for lists: the methods that do not join or cut ranges. -/
theorem C81_lists (d : BibleData) (h : d.WF) (f f' : BibleFlag) (hg : f.verse0 = f'.verse0) (fl fl' : Option BibleFlag)
    (hf : (inForce ⟨d, f⟩ fl).verse0 = (inForce ⟨d, f'⟩ fl').verse0) (l : RangeList) (hl : ∀ r ∈ l.flatten, RangeOK d true r) :
    RangeList.verseCount ⟨d, f⟩ l = RangeList.verseCount ⟨d, f'⟩ l ∧
    (∀ whole, RangeList.chapCount ⟨d, f⟩ l whole = RangeList.chapCount ⟨d, f'⟩ l whole) ∧
    (∀ whole, RangeList.bookCount ⟨d, f⟩ l whole = RangeList.bookCount ⟨d, f'⟩ l whole) ∧
    RangeList.range ⟨d, f⟩ l = RangeList.range ⟨d, f'⟩ l ∧
    RangeList.chapRange ⟨d, f⟩ l fl = RangeList.chapRange ⟨d, f'⟩ l fl' ∧
    RangeList.bookRange ⟨d, f⟩ l fl = RangeList.bookRange ⟨d, f'⟩ l fl' ∧
    RangeList.verse0to1 ⟨d, f⟩ l = RangeList.verse0to1 ⟨d, f'⟩ l ∧
    RangeList.verse1to0 ⟨d, f⟩ l = RangeList.verse1to0 ⟨d, f'⟩ l ∧
    RangeList.regroup ⟨d, f⟩ fl l.flatten = RangeList.regroup ⟨d, f'⟩ fl' l.flatten ∧
    (∀ regroup, RangeList.sort ⟨d, f⟩ l regroup = RangeList.sort ⟨d, f'⟩ l regroup) ∧
    (∀ u o, RangeList.str u ⟨d, f⟩ o fl l = RangeList.str u ⟨d, f'⟩ o fl' l) := by
  have hf' : (Env.eff ⟨d, f⟩ fl).verse0 = (Env.eff ⟨d, f'⟩ fl').verse0 := by rw [eff_eq, eff_eq]; exact hf
  have h0 : (Env.eff ⟨d, f⟩ none).verse0 = (Env.eff ⟨d, f'⟩ none).verse0 := hg
  have hm : ∀ {β : Type} (g g' : BibleRange → Except PyErr β), (∀ r ∈ l.flatten, g r = g' r) → l.flatten.mapM g = l.flatten.mapM g' := by
    intro β g g'
    generalize l.flatten = m
    induction m with
    | nil => intro _; rfl
    | cons r m ih =>
      intro hh
      rw [List.mapM_cons, List.mapM_cons, hh r (.head _), ih fun x hx => hh x (.tail _ hx)]
  have hc := fun r hrl => chapCount_v0 h hg r (hl r hrl) false
  have hr := fun r hrl => C81_ranges d h f f' hg fl fl' hf r (hl r hrl)
  refine ⟨?_, ?_, ?_, rfl, list_chapRange_v0 hg hf' l, list_bookRange_v0 hg hf' l, ?_, ?_, regroup_v0 hg hf' _ hc, ?_,
    fun u o => list_str_v0 hg hf' u o l hc⟩
  · unfold RangeList.verseCount
    rw [hm _ _ fun r hrl => (hr r hrl).2.1]
  · intro whole
    unfold RangeList.chapCount
    rw [hm _ _ fun r hrl => (hr r hrl).2.2.1 whole]
  · intro whole
    unfold RangeList.bookCount
    rw [hm _ _ fun r hrl => (hr r hrl).2.2.2.1 whole]
  · unfold RangeList.verse0to1
    simp only [range_verse0to1_v0 hg]
  · unfold RangeList.verse1to0
    simp only [range_verse1to0_v0 (f := f) (f' := f')]
  · intro b
    unfold RangeList.sort
    rw [RangeList.sortItems_eq fun a ha b hb => ((rangeOK_iff h).mp (hl a ha)).alike ((rangeOK_iff h).mp (hl b hb))]
    have := regroup_v0 hg h0 (RangeList.sortT d l.flatten) fun x hx => hc x ((RangeList.sortT_perm _).mem_iff.mp hx)
    simp only [bind, Except.bind, this]

theorem new_without {e : Env} (h : e.data.WF) {v0 w0} {s t : BibleVerse} (hs : Valid e.data v0 s) (ht : Valid e.data w0 t)
    (hle : pos e.data s ≤ pos e.data t) {flags : Option BibleFlag} (hm : (e.eff flags).multibook = false) :
    BibleRange.new e (some s) (some t) flags = if s.book = t.book then .ok ⟨s, t⟩ else .error .multibookRange := by
  by_cases hb : s.book = t.book
  · rw [if_pos hb, new_range_ok h hs ht hle (.inr hb)]
  · rw [if_neg hb]
    unfold BibleRange.new
    simp only [hm]
    rw [if_pos ⟨trivial, hb⟩]

/-- C81 for intersections: without `MULTIBOOK` the code raises exactly when the common part lies in several books. -/
theorem C81_intersection (d : BibleData) (h : d.WF) (f f' : BibleFlag) (fl fl' : Option BibleFlag) (v0 : Bool)
    (hf : inForce ⟨d, f⟩ fl = ⟨true, v0⟩) (hf' : inForce ⟨d, f'⟩ fl' = ⟨false, v0⟩) (a b : BibleRange) (ha : RangeOK d v0 a)
    (hb : RangeOK d v0 b) :
    ∃ l, a.intersection ⟨d, f⟩ b fl = .ok l ∧ a.intersection ⟨d, f'⟩ b fl' =
      if ∀ x ∈ l, x.start.book = x.stop.book then .ok l else .error .multibookRange := by
  rw [← eff_eq] at hf hf'
  have ha' := (rangeOK_iff h).mp ha
  have hb' := (rangeOK_iff h).mp hb
  have hdis := isDisjoint_iff h ha' hb'
  have hla := ha'.le
  have hlb := hb'.le
  refine ⟨_, intersection_spec (e := ⟨d, f⟩) h (flags := fl) ⟨by rw [hf]; exact ha', .inl (by rw [hf])⟩
    ⟨by rw [hf]; exact hb', .inl (by rw [hf])⟩, ?_⟩
  rw [BibleRange.intersection_eq (e := ⟨d, f'⟩) (ha'.alike hb')]
  by_cases ho : pos d a.start ≤ pos d b.stop ∧ pos d b.start ≤ pos d a.stop
  · obtain ⟨h1, h2, h3, h4⟩ := meet_pos h ha' hb'
    have hnew := new_without (e := ⟨d, f'⟩) h h3 h4 (by show pos d _ ≤ pos d _; omega) (flags := fl') (by rw [hf'])
    simp only [meet] at hnew
    rw [if_neg (by show ¬ a.disjointT d b = true; rw [hdis]; omega), if_pos ho]
    simp only [bind, Except.bind, hnew, meet, List.mem_singleton, forall_eq]
    by_cases hbk : (BibleRange.maxVerse d a.start b.start).book = (BibleRange.minVerse d a.stop b.stop).book
    · rw [if_pos hbk]
      erw [if_pos hbk]
      rfl
    · rw [if_neg hbk]
      erw [if_neg hbk]
  · rw [if_pos (by show a.disjointT d b = true; rw [hdis]; omega), if_neg ho]
    simp
    rfl

/-- C81 for unions: without `MULTIBOOK` two ranges that meet where a book ends are not joined; apart from that the code raises
exactly when the union is one range over several books. -/
theorem C81_union (d : BibleData) (h : d.WF) (f f' : BibleFlag) (fl fl' : Option BibleFlag) (v0 : Bool)
    (hf : inForce ⟨d, f⟩ fl = ⟨true, v0⟩) (hf' : inForce ⟨d, f'⟩ fl' = ⟨false, v0⟩) (a b : BibleRange) (ha : RangeOK d v0 a)
    (hb : RangeOK d v0 b) :
    ∃ l, a.union ⟨d, f⟩ b fl = .ok l ∧ a.union ⟨d, f'⟩ b fl' =
      if pos d a.stop < pos d b.start ∧ a.stop.book ≠ b.start.book then .ok [a, b]
      else if pos d b.stop < pos d a.start ∧ b.stop.book ≠ a.start.book then .ok [b, a]
      else if l.length = 2 ∨ ∀ x ∈ l, x.start.book = x.stop.book then .ok l else .error .multibookRange := by
  rw [← eff_eq] at hf hf'
  have ha' := (rangeOK_iff h).mp ha
  have hb' := (rangeOK_iff h).mp hb
  have hdis := isDisjoint_iff h ha' hb'
  have hla := ha'.le
  have hlb := hb'.le
  have hadj := isAdjacent_spec (e := ⟨d, f'⟩) h (flags := fl') (a := a) (b := b) (by rw [hf']; exact ha') (by rw [hf']; exact hb')
  refine ⟨_, union_spec (e := ⟨d, f⟩) h (flags := fl) ⟨by rw [hf]; exact ha', .inl (by rw [hf])⟩
    ⟨by rw [hf]; exact hb', .inl (by rw [hf])⟩, ?_⟩
  rw [BibleRange.union_eq (e := ⟨d, f'⟩) (ha'.alike hb'), hadj, hf, hf']
  have hok := hull_ok h ha' hb'
  have hnew := new_without (e := ⟨d, f'⟩) h hok.s hok.t hok.le (flags := fl') (by rw [hf'])
  simp only [hull] at hnew
  have ixs : ∀ {x y : BibleRange}, ROK d v0 x → ROK d v0 y → pos d x.stop < pos d y.start →
      ¬ ix d v0 y.stop + 1 = ix d v0 x.start := by
    intro x y hx hy hlt
    have h1 := (pos_lt_ix h hx.t hy.s).mp hlt
    have h2 := (pos_le_ix h hx.s hx.t).mp hx.le
    have h3 := (pos_le_ix h hy.s hy.t).mp hy.le
    omega
  by_cases ho : pos d a.start ≤ pos d b.stop ∧ pos d b.start ≤ pos d a.stop
  · rw [if_neg (by show ¬ a.disjointT d b = true; rw [hdis]; omega), if_neg (by omega), if_neg (by omega),
      if_pos (show Joins d ⟨true, v0⟩ a b from .inl ho)]
    simp only [bind, Except.bind, pure, Except.pure, Bool.false_eq_true, if_false, hnew, hull, List.length_singleton, List.mem_singleton, forall_eq]
    by_cases hbk : (BibleRange.minVerse d a.start b.start).book = (BibleRange.maxVerse d a.stop b.stop).book <;> simp [hbk]
  · rw [if_pos (by show a.disjointT d b = true; rw [hdis]; omega)]
    by_cases hab : pos d a.stop < pos d b.start
    · have hno := ixs ha' hb' hab
      have hlow : BibleRange.lowerHigher d a b = (a, b) := by
        rcases lowerHigher_cases h ha' hb' with ⟨h1, h2⟩ | ⟨h1, h2⟩
        · exact h1
        · omega
      simp only [Adj, hno, false_and, or_false, Joins, ho, false_or, Bool.false_eq_true, bind, Except.bind, pure, Except.pure, hlow, hnew, hull]
      by_cases hbk : a.stop.book = b.start.book
      · have hn2 : ¬ pos d b.stop < pos d a.start := by omega
        by_cases hix : ix d v0 a.stop + 1 = ix d v0 b.start
        · simp [hab, hbk, hn2, hix]
          by_cases hbk : (BibleRange.minVerse d a.start b.start).book = (BibleRange.maxVerse d a.stop b.stop).book <;> simp [hbk]
        · simp [hab, hbk, hn2, hix]
      · simp [hab, hbk]
    · have hba : pos d b.stop < pos d a.start := by omega
      have hno := ixs hb' ha' hba
      have hlow : BibleRange.lowerHigher d a b = (b, a) := by
        rcases lowerHigher_cases h ha' hb' with ⟨h1, h2⟩ | ⟨h1, h2⟩
        · omega
        · exact h1
      simp only [Adj, hno, false_and, false_or, Joins, ho, Bool.false_eq_true, bind, Except.bind, pure, Except.pure, hlow, hnew, hull]
      by_cases hbk : b.stop.book = a.start.book
      · by_cases hix : ix d v0 b.stop + 1 = ix d v0 a.start
        · simp [hab, hbk, hba, hix]
          by_cases hbk : (BibleRange.minVerse d a.start b.start).book = (BibleRange.maxVerse d a.stop b.stop).book <;> simp [hbk]
        · simp [hab, hbk, hba, hix]
      · simp [hab, hbk, hba]

/-- C81 fails for the operations that make new ranges: with no flags set, Mark 16:1-Luke 2:52 and Mark 16:5-Luke 3:1 have neither
a union nor an intersection, Mark 16:1-Luke 2:52 without Luke 2:1-52 is refused, and so is the merging of a list. Ranges that meet
at the end of a book are not adjacent. A list of Mark 16:1-20 and Luke 1:1-80 does not contain Mark 16:20-Luke 1:1. -/
theorem C81_counterexample :
    BibleRange.union dflt ⟨⟨.Mark, 16, 1⟩, ⟨.Luke, 2, 52⟩⟩ ⟨⟨.Mark, 16, 5⟩, ⟨.Luke, 3, 1⟩⟩ none = .error .multibookRange ∧
    BibleRange.intersection dflt ⟨⟨.Mark, 16, 1⟩, ⟨.Luke, 2, 52⟩⟩ ⟨⟨.Mark, 16, 5⟩, ⟨.Luke, 3, 1⟩⟩ none = .error .multibookRange ∧
    BibleRange.difference dflt ⟨⟨.Mark, 16, 1⟩, ⟨.Luke, 2, 52⟩⟩ ⟨⟨.Luke, 2, 1⟩, ⟨.Luke, 2, 52⟩⟩ none = .error .multibookRange ∧
    BibleRange.isAdjacent dflt ⟨⟨.Mark, 16, 1⟩, ⟨.Mark, 16, 20⟩⟩ ⟨⟨.Luke, 1, 1⟩, ⟨.Luke, 1, 80⟩⟩ none = .ok false ∧
    RangeList.merge dflt [[⟨⟨.Mark, 16, 1⟩, ⟨.Luke, 2, 52⟩⟩, ⟨⟨.Mark, 16, 5⟩, ⟨.Luke, 3, 1⟩⟩]] none = .error .multibookRange ∧
    RangeList.contains dflt [[⟨⟨.Mark, 16, 1⟩, ⟨.Mark, 16, 20⟩⟩, ⟨⟨.Luke, 1, 1⟩, ⟨.Luke, 1, 80⟩⟩]] [[⟨⟨.Mark, 16, 20⟩, ⟨.Luke, 1, 1⟩⟩]] none = .ok false ∧
    RangeList.contains dfltAll [[⟨⟨.Mark, 16, 1⟩, ⟨.Mark, 16, 20⟩⟩, ⟨⟨.Luke, 1, 1⟩, ⟨.Luke, 1, 80⟩⟩]] [[⟨⟨.Mark, 16, 20⟩, ⟨.Luke, 1, 1⟩⟩]] none = .ok true := by
  decide +kernel

example : RangeOK defaultData true ⟨⟨.Mark, 16, 1⟩, ⟨.Luke, 2, 52⟩⟩ := by
  refine ⟨?_, ?_, ?_⟩ <;> decide +kernel

example : BibleFlag.none.verse0 = BibleFlag.MULTIBOOK.verse0 ∧
    (inForce ⟨defaultData, .none⟩ none).verse0 = (inForce ⟨defaultData, .none⟩ (some .MULTIBOOK)).verse0 := by decide

example : inForce ⟨defaultData, .none⟩ (some .MULTIBOOK) = ⟨true, false⟩ ∧ inForce ⟨defaultData, .none⟩ none = ⟨false, false⟩ := by decide

example : BibleRange.split dflt ⟨⟨.Mark, 16, 19⟩, ⟨.Luke, 1, 2⟩⟩ false false (some 3) false none 100 =
    .ok [[⟨⟨.Mark, 16, 19⟩, ⟨.Luke, 1, 1⟩⟩, ⟨⟨.Luke, 1, 2⟩, ⟨.Luke, 1, 2⟩⟩]] := by decide +kernel

end Bibleref
