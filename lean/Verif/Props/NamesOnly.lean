import Verif.Model.Calls
import Verif.Model.ListValues
import Verif.Model.Order
import Verif.Model.Parser
import Verif.Model.RangeHeap
import Verif.Model.Repr
import Verif.Model.VerseIterators
import Verif.Lemmas.Basic
import Verif.Props.Names
import Verif.SpecData

/-!
# Property C83: names and separators matter only to strings

In the first part equality is equality of functions: of all arguments, with the result or exception.
-/

namespace Bibleref

variable {d d' : BibleData}

section
set_option smartUnfolding false
set_option maxRecDepth 20000
set_option maxHeartbeats 1000000

/-- C83: the methods of books. -/
theorem C83_books (h : SameVerses d d') (f : BibleFlag) :
    BibleBook.order d = BibleBook.order d' ∧ BibleBook.less d = BibleBook.less d' ∧
    BibleBook.lessEq d = BibleBook.lessEq d' ∧ BibleBook.cmp d = BibleBook.cmp d' ∧
    BibleBook.minChapNum d = BibleBook.minChapNum d' ∧ BibleBook.maxChapNum d = BibleBook.maxChapNum d' ∧
    BibleBook.chapCount d = BibleBook.chapCount d' ∧ BibleBook.minVerseNum ⟨d, f⟩ = BibleBook.minVerseNum ⟨d', f⟩ ∧
    BibleBook.maxVerseNum d = BibleBook.maxVerseNum d' ∧ BibleBook.verseCount ⟨d, f⟩ = BibleBook.verseCount ⟨d', f⟩ ∧
    BibleBook.next d = BibleBook.next d' ∧ BibleBook.prev d = BibleBook.prev d' ∧
    BibleBook.firstVerse ⟨d, f⟩ = BibleBook.firstVerse ⟨d', f⟩ ∧ BibleBook.lastVerse ⟨d, f⟩ = BibleBook.lastVerse ⟨d', f⟩ ∧
    BibleBook.range ⟨d, f⟩ = BibleBook.range ⟨d', f⟩ ∧ BibleBook.chapRange ⟨d, f⟩ = BibleBook.chapRange ⟨d', f⟩ ∧
    BibleBook.chapRanges ⟨d, f⟩ = BibleBook.chapRanges ⟨d', f⟩ := by
  obtain ⟨_, _, _, _, _, _, _, _, _⟩ := d
  obtain ⟨_, _, _, _, _, _, _, _, _⟩ := d'
  obtain ⟨rfl, rfl, rfl⟩ := h
  exact ⟨rfl, rfl, rfl, rfl, rfl, rfl, rfl, rfl, rfl, rfl, rfl, rfl, rfl, rfl, rfl, rfl, rfl⟩

/-- Other names and separators for the same verses. -/
example : SameVerses defaultData { defaultData with nameData := fun _ => none, rangeSep := '~', verseSepStd := ',' } :=
  ⟨rfl, rfl, rfl⟩

/-- C83: the methods of verses, with operands of every type for `+` and `-`. -/
theorem C83_verses (h : SameVerses d d') (f : BibleFlag) :
    BibleVerse.less d = BibleVerse.less d' ∧ BibleVerse.lessEq d = BibleVerse.lessEq d' ∧
    BibleVerse.cmp d = BibleVerse.cmp d' ∧ BibleVerse.new ⟨d, f⟩ = BibleVerse.new ⟨d', f⟩ ∧
    BibleVerse.verse0to1 ⟨d, f⟩ = BibleVerse.verse0to1 ⟨d', f⟩ ∧
    BibleVerse.verse1to0 ⟨d, f⟩ = BibleVerse.verse1to0 ⟨d', f⟩ ∧
    BibleVerse.firstVerse ⟨d, f⟩ = BibleVerse.firstVerse ⟨d', f⟩ ∧
    BibleVerse.lastVerse ⟨d, f⟩ = BibleVerse.lastVerse ⟨d', f⟩ ∧
    BibleVerse.isFirstInChap ⟨d, f⟩ = BibleVerse.isFirstInChap ⟨d', f⟩ ∧
    BibleVerse.isLastInChap ⟨d, f⟩ = BibleVerse.isLastInChap ⟨d', f⟩ ∧
    BibleVerse.isFirstInBook ⟨d, f⟩ = BibleVerse.isFirstInBook ⟨d', f⟩ ∧
    BibleVerse.isLastInBook ⟨d, f⟩ = BibleVerse.isLastInBook ⟨d', f⟩ ∧ BibleVerse.add ⟨d, f⟩ = BibleVerse.add ⟨d', f⟩ ∧
    BibleVerse.sub ⟨d, f⟩ = BibleVerse.sub ⟨d', f⟩ ∧ BibleVerse.subVerse ⟨d, f⟩ = BibleVerse.subVerse ⟨d', f⟩ ∧
    BibleVerse.plus ⟨d, f⟩ = BibleVerse.plus ⟨d', f⟩ ∧ BibleVerse.subtractV ⟨d, f⟩ = BibleVerse.subtractV ⟨d', f⟩ ∧
    BibleVerse.chapRange ⟨d, f⟩ = BibleVerse.chapRange ⟨d', f⟩ ∧ BibleVerse.bookRange ⟨d, f⟩ = BibleVerse.bookRange ⟨d', f⟩ := by
  obtain ⟨_, _, _, _, _, _, _, _, _⟩ := d
  obtain ⟨_, _, _, _, _, _, _, _, _⟩ := d'
  obtain ⟨rfl, rfl, rfl⟩ := h
  exact ⟨rfl, rfl, rfl, rfl, rfl, rfl, rfl, rfl, rfl, rfl, rfl, rfl, rfl, rfl, rfl, rfl, rfl, rfl, rfl⟩

/-- C83: the constructors, conversions, questions, counts, `split` and iteration of ranges. -/
theorem C83_ranges (h : SameVerses d d') (f : BibleFlag) :
    BibleRange.less d = BibleRange.less d' ∧ BibleRange.lessEq d = BibleRange.lessEq d' ∧
    BibleRange.cmp d = BibleRange.cmp d' ∧ BibleRange.new ⟨d, f⟩ = BibleRange.new ⟨d', f⟩ ∧
    BibleRange.ofArgs ⟨d, f⟩ = BibleRange.ofArgs ⟨d', f⟩ ∧ BibleRange.wholeBible ⟨d, f⟩ = BibleRange.wholeBible ⟨d', f⟩ ∧
    BibleRange.verse0to1 ⟨d, f⟩ = BibleRange.verse0to1 ⟨d', f⟩ ∧
    BibleRange.verse1to0 ⟨d, f⟩ = BibleRange.verse1to0 ⟨d', f⟩ ∧
    BibleRange.isWholeChap ⟨d, f⟩ = BibleRange.isWholeChap ⟨d', f⟩ ∧
    BibleRange.spansStartChap ⟨d, f⟩ = BibleRange.spansStartChap ⟨d', f⟩ ∧
    BibleRange.spansEndChap ⟨d, f⟩ = BibleRange.spansEndChap ⟨d', f⟩ ∧
    BibleRange.isWholeBook ⟨d, f⟩ = BibleRange.isWholeBook ⟨d', f⟩ ∧
    BibleRange.spansStartBook ⟨d, f⟩ = BibleRange.spansStartBook ⟨d', f⟩ ∧
    BibleRange.spansEndBook ⟨d, f⟩ = BibleRange.spansEndBook ⟨d', f⟩ ∧
    BibleRange.chapRange ⟨d, f⟩ = BibleRange.chapRange ⟨d', f⟩ ∧
    BibleRange.bookRange ⟨d, f⟩ = BibleRange.bookRange ⟨d', f⟩ ∧ BibleRange.split ⟨d, f⟩ = BibleRange.split ⟨d', f⟩ ∧
    BibleRange.verseCount ⟨d, f⟩ = BibleRange.verseCount ⟨d', f⟩ ∧
    BibleRange.chapCount ⟨d, f⟩ = BibleRange.chapCount ⟨d', f⟩ ∧
    BibleRange.bookCount ⟨d, f⟩ = BibleRange.bookCount ⟨d', f⟩ ∧ BibleRange.iter ⟨d, f⟩ = BibleRange.iter ⟨d', f⟩ := by
  obtain ⟨_, _, _, _, _, _, _, _, _⟩ := d
  obtain ⟨_, _, _, _, _, _, _, _, _⟩ := d'
  obtain ⟨rfl, rfl, rfl⟩ := h
  exact ⟨rfl, rfl, rfl, rfl, rfl, rfl, rfl, rfl, rfl, rfl, rfl, rfl, rfl, rfl, rfl, rfl, rfl, rfl, rfl, rfl, rfl⟩

/-- C83: the set operations of ranges, with operands of every type. -/
theorem C83_operations (h : SameVerses d d') (f : BibleFlag) :
    BibleRange.isDisjointV ⟨d, f⟩ = BibleRange.isDisjointV ⟨d', f⟩ ∧
    BibleRange.isAdjacentV ⟨d, f⟩ = BibleRange.isAdjacentV ⟨d', f⟩ ∧
    BibleRange.containsV ⟨d, f⟩ = BibleRange.containsV ⟨d', f⟩ ∧
    BibleRange.surroundsV ⟨d, f⟩ = BibleRange.surroundsV ⟨d', f⟩ ∧ BibleRange.unionV ⟨d, f⟩ = BibleRange.unionV ⟨d', f⟩ ∧
    BibleRange.intersectionV ⟨d, f⟩ = BibleRange.intersectionV ⟨d', f⟩ ∧
    BibleRange.differenceV ⟨d, f⟩ = BibleRange.differenceV ⟨d', f⟩ ∧
    BibleRange.symDifferenceV ⟨d, f⟩ = BibleRange.symDifferenceV ⟨d', f⟩ := by
  obtain ⟨_, _, _, _, _, _, _, _, _⟩ := d
  obtain ⟨_, _, _, _, _, _, _, _, _⟩ := d'
  obtain ⟨rfl, rfl, rfl⟩ := h
  exact ⟨rfl, rfl, rfl, rfl, rfl, rfl, rfl, rfl⟩

/-- C83: the methods of lists of ranges. -/
theorem C83_lists (h : SameVerses d d') (f : BibleFlag) :
    RangeList.verse0to1 ⟨d, f⟩ = RangeList.verse0to1 ⟨d', f⟩ ∧ RangeList.verse1to0 ⟨d, f⟩ = RangeList.verse1to0 ⟨d', f⟩ ∧
    RangeList.verseCount ⟨d, f⟩ = RangeList.verseCount ⟨d', f⟩ ∧ RangeList.chapCount ⟨d, f⟩ = RangeList.chapCount ⟨d', f⟩ ∧
    RangeList.bookCount ⟨d, f⟩ = RangeList.bookCount ⟨d', f⟩ ∧ RangeList.range ⟨d, f⟩ = RangeList.range ⟨d', f⟩ ∧
    RangeList.chapRange ⟨d, f⟩ = RangeList.chapRange ⟨d', f⟩ ∧ RangeList.bookRange ⟨d, f⟩ = RangeList.bookRange ⟨d', f⟩ ∧
    RangeList.isDisjointV ⟨d, f⟩ = RangeList.isDisjointV ⟨d', f⟩ ∧
    RangeList.containsV ⟨d, f⟩ = RangeList.containsV ⟨d', f⟩ ∧ RangeList.unionV ⟨d, f⟩ = RangeList.unionV ⟨d', f⟩ ∧
    RangeList.intersectionV ⟨d, f⟩ = RangeList.intersectionV ⟨d', f⟩ ∧
    RangeList.differenceV ⟨d, f⟩ = RangeList.differenceV ⟨d', f⟩ ∧
    RangeList.symDifferenceV ⟨d, f⟩ = RangeList.symDifferenceV ⟨d', f⟩ ∧ RangeList.ior ⟨d, f⟩ = RangeList.ior ⟨d', f⟩ ∧
    RangeList.iand ⟨d, f⟩ = RangeList.iand ⟨d', f⟩ ∧ RangeList.isub ⟨d, f⟩ = RangeList.isub ⟨d', f⟩ ∧
    RangeList.ixor ⟨d, f⟩ = RangeList.ixor ⟨d', f⟩ := by
  obtain ⟨_, _, _, _, _, _, _, _, _⟩ := d
  obtain ⟨_, _, _, _, _, _, _, _, _⟩ := d'
  obtain ⟨rfl, rfl, rfl⟩ := h
  exact ⟨rfl, rfl, rfl, rfl, rfl, rfl, rfl, rfl, rfl, rfl, rfl, rfl, rfl, rfl, rfl, rfl, rfl, rfl⟩

/-- C83: the methods of list objects, that is, the same in what they do to the lists. -/
theorem C83_list_objects (h : SameVerses d d') (f : BibleFlag) :
    RangeHeap.verse0to1 ⟨d, f⟩ = RangeHeap.verse0to1 ⟨d', f⟩ ∧ RangeHeap.verse1to0 ⟨d, f⟩ = RangeHeap.verse1to0 ⟨d', f⟩ ∧
    RangeHeap.regroup ⟨d, f⟩ = RangeHeap.regroup ⟨d', f⟩ ∧ RangeHeap.sort ⟨d, f⟩ = RangeHeap.sort ⟨d', f⟩ ∧
    RangeHeap.merge ⟨d, f⟩ = RangeHeap.merge ⟨d', f⟩ ∧ RangeHeap.isDisjoint ⟨d, f⟩ = RangeHeap.isDisjoint ⟨d', f⟩ ∧
    RangeHeap.contains ⟨d, f⟩ = RangeHeap.contains ⟨d', f⟩ ∧ RangeHeap.unionUpdate ⟨d, f⟩ = RangeHeap.unionUpdate ⟨d', f⟩ ∧
    RangeHeap.union ⟨d, f⟩ = RangeHeap.union ⟨d', f⟩ ∧ RangeHeap.intersection ⟨d, f⟩ = RangeHeap.intersection ⟨d', f⟩ ∧
    RangeHeap.intersectionUpdate ⟨d, f⟩ = RangeHeap.intersectionUpdate ⟨d', f⟩ ∧
    RangeHeap.differenceUpdate ⟨d, f⟩ = RangeHeap.differenceUpdate ⟨d', f⟩ ∧
    RangeHeap.difference ⟨d, f⟩ = RangeHeap.difference ⟨d', f⟩ ∧
    RangeHeap.symDifference ⟨d, f⟩ = RangeHeap.symDifference ⟨d', f⟩ ∧
    RangeHeap.symDifferenceUpdate ⟨d, f⟩ = RangeHeap.symDifferenceUpdate ⟨d', f⟩ ∧
    RangeHeap.extendV d = RangeHeap.extendV d' ∧ RangeHeap.appendGroupV d = RangeHeap.appendGroupV d' ∧
    RangeHeap.indexV ⟨d, f⟩ = RangeHeap.indexV ⟨d', f⟩ ∧ RangeHeap.equalsV d = RangeHeap.equalsV d' := by
  obtain ⟨_, _, _, _, _, _, _, _, _⟩ := d
  obtain ⟨_, _, _, _, _, _, _, _, _⟩ := d'
  obtain ⟨rfl, rfl, rfl⟩ := h
  exact ⟨rfl, rfl, rfl, rfl, rfl, rfl, rfl, rfl, rfl, rfl, rfl, rfl, rfl, rfl, rfl, rfl, rfl, rfl, rfl⟩

/-- Other list separators and the alternative separator as the only one. -/
example : SameVerses defaultData { defaultData with majorListSep := '|', minorListSep := '+', verseSepStd := '.' } :=
  ⟨rfl, rfl, rfl⟩

/-- C83: iterators over verses, stepped while the flags change. -/
theorem C83_iterators (h : SameVerses d d') (f : BibleFlag) :
    VerseIter.next ⟨d, f⟩ = VerseIter.next ⟨d', f⟩ ∧ runIters d = runIters d' := by
  obtain ⟨_, _, _, _, _, _, _, _, _⟩ := d
  obtain ⟨_, _, _, _, _, _, _, _, _⟩ := d'
  obtain ⟨rfl, rfl, rfl⟩ := h
  exact ⟨rfl, rfl⟩

private theorem range_parts (h : SameVerses d d') (f : BibleFlag) :
    BibleRange.strStart ⟨d, f⟩ = BibleRange.strStart ⟨d', f⟩ ∧ BibleRange.strStop ⟨d, f⟩ = BibleRange.strStop ⟨d', f⟩ ∧
      RangeList.isDual ⟨d, f⟩ = RangeList.isDual ⟨d', f⟩ ∧ RangeList.strStop ⟨d, f⟩ = RangeList.strStop ⟨d', f⟩ ∧
      BibleRange.spansEndChap ⟨d, f⟩ = BibleRange.spansEndChap ⟨d', f⟩ := by
  obtain ⟨_, _, _, _, _, _, _, _, _⟩ := d
  obtain ⟨_, _, _, _, _, _, _, _, _⟩ := d'
  obtain ⟨rfl, rfl, rfl⟩ := h
  exact ⟨rfl, rfl, rfl, rfl, rfl⟩

private theorem strStart_eq (h : SameVerses d d') (hm : d.majorListSep = d'.majorListSep) (f : BibleFlag) :
    RangeList.strStart ⟨d, f⟩ = RangeList.strStart ⟨d', f⟩ := by
  obtain ⟨_, _, _, _, _, _, _, _, _⟩ := d
  obtain ⟨_, _, _, _, _, _, _, _, _⟩ := d'
  obtain ⟨rfl, rfl, rfl⟩ := h
  simp only at hm
  subst hm
  rfl

private theorem parse_parts (h : SameVerses d d') (hs : SameSeps d d') (u : Uni) (f : BibleFlag) :
    parseTree u d = parseTree u d' ∧ oneRange ⟨d, f⟩ = oneRange ⟨d', f⟩ ∧ BibleBook.chapCount d = BibleBook.chapCount d' ∧
      BibleBook.minChapNum d = BibleBook.minChapNum d' ∧ BibleRange.ofArgs ⟨d, f⟩ = BibleRange.ofArgs ⟨d', f⟩ := by
  obtain ⟨_, _, _, _, _, _, _, _, _⟩ := d
  obtain ⟨_, _, _, _, _, _, _, _, _⟩ := d'
  obtain ⟨rfl, rfl, rfl⟩ := h
  obtain ⟨h1, h2, h3, h4, h5⟩ := hs
  simp only at h1 h2 h3 h4 h5
  subst h1 h2 h3 h4 h5
  exact ⟨rfl, rfl, rfl, rfl, rfl⟩

end

/-! ## What is shown -/

private theorem shownName_eq {o : StrOpts} {b : BibleBook} (h : SameShown d d' o.short b) :
    b.shownName d o = b.shownName d' o := by
  simp only [SameShown] at h
  simp only [BibleBook.shownName]
  cases hd : d.nameData b <;> cases hd' : d'.nameData b <;> simp_all

/-- C83: the string of a verse depends only on the title, or the abbreviation, of its book and on the separator between
chapter and verse. -/
theorem C83_verse_shown (h : SameVerses d d') (u : Uni) (o : StrOpts) (v : BibleVerse)
    (hn : SameShown d d' o.short v.book) (hs : verseSepShown d o.altSep = verseSepShown d' o.altSep) (p : Parts) :
    v.str u d o p = v.str u d' o p := by
  have h1 := shownName_eq (o := o) hn
  simp only [verseSepShown] at hs
  have h2 : v.book.chapCount d = v.book.chapCount d' := by rw [(C83_books h .none).2.2.2.2.2.2.1]
  simp only [BibleVerse.str, h1, h2, hs]

/-- Without abbreviations and with another alternative separator, strings of verses are the same if neither is asked for. -/
example (b : BibleBook) :
    let d := { defaultData with
      verseSepAlt := '/', rangeSep := '~', nameData := fun b => (defaultData.nameData b).map fun n => { n with abbr := [] } }
    SameVerses defaultData d ∧ SameShown defaultData d StrOpts.default.short b ∧
      verseSepShown defaultData StrOpts.default.altSep = verseSepShown d StrOpts.default.altSep := by
  refine ⟨⟨rfl, rfl, rfl⟩, ?_, rfl⟩
  simp only [SameShown, Option.map_map]
  rfl

/-- C83: the string of a range depends only on the names of its two books, on the separator between chapter and verse and on
the one between the two ends. -/
theorem C83_range_shown (h : SameVerses d d') (u : Uni) (o : StrOpts) (r : BibleRange)
    (hn : SameShown d d' o.short r.start.book) (hn' : SameShown d d' o.short r.stop.book)
    (hs : verseSepShown d o.altSep = verseSepShown d' o.altSep) (hr : d.rangeSep = d'.rangeSep) (f : BibleFlag)
    (flags : Option BibleFlag) : r.str u ⟨d, f⟩ o flags = r.str u ⟨d', f⟩ o flags := by
  obtain ⟨h1, h2, h3, -, -⟩ := range_parts h f
  simp only [BibleRange.str, h1, h2, h3, hr, C83_verse_shown h u o _ hn hs, C83_verse_shown h u o _ hn' hs]

/-- The list separators and the names of other books do not matter. -/
example :
    let d := { defaultData with
      majorListSep := '|', minorListSep := '+', nameData := fun b => if b = .Mark then defaultData.nameData .Mark else none }
    SameVerses defaultData d ∧ SameShown defaultData d false .Mark ∧ defaultData.rangeSep = d.rangeSep :=
  ⟨⟨rfl, rfl, rfl⟩, rfl, rfl⟩

private theorem strStep_eq (h : SameVerses d d') (u : Uni) (o : StrOpts) (r : BibleRange)
    (hn : SameShown d d' o.short r.start.book) (hn' : SameShown d d' o.short r.stop.book)
    (hs : verseSepShown d o.altSep = verseSepShown d' o.altSep) (hr : d.rangeSep = d'.rangeSep)
    (hm : d.majorListSep = d'.majorListSep) (hm' : d.minorListSep = d'.minorListSep) (f : BibleFlag)
    (flags : Option BibleFlag) (s : RangeList.StrState) :
    RangeList.strStep u ⟨d, f⟩ o flags s r = RangeList.strStep u ⟨d', f⟩ o flags s r := by
  obtain ⟨-, -, h3, h4, h5⟩ := range_parts h f
  simp only [RangeList.strStep, strStart_eq h hm, h3, h4, h5, hr, hm', C83_verse_shown h u o _ hn hs,
    C83_verse_shown h u o _ hn' hs]

private theorem strGroup_eq (h : SameVerses d d') (u : Uni) (o : StrOpts)
    (hs : verseSepShown d o.altSep = verseSepShown d' o.altSep) (hr : d.rangeSep = d'.rangeSep)
    (hm : d.majorListSep = d'.majorListSep) (hm' : d.minorListSep = d'.minorListSep) (f : BibleFlag)
    (flags : Option BibleFlag) (g : List BibleRange)
    (hn : ∀ r ∈ g, SameShown d d' o.short r.start.book ∧ SameShown d d' o.short r.stop.book) (s : RangeList.StrState) :
    RangeList.strGroup u ⟨d, f⟩ o flags s g = RangeList.strGroup u ⟨d', f⟩ o flags s g := by
  induction g generalizing s with
  | nil => rfl
  | cons r g ih =>
    have hr' := hn r List.mem_cons_self
    have ih := ih fun r hr => hn r (List.mem_cons_of_mem _ hr)
    simp only [RangeList.strGroup, strStep_eq h u o r hr'.1 hr'.2 hs hr hm hm', ih]

private theorem strGroups_eq (h : SameVerses d d') (u : Uni) (o : StrOpts)
    (hs : verseSepShown d o.altSep = verseSepShown d' o.altSep) (hr : d.rangeSep = d'.rangeSep)
    (hm : d.majorListSep = d'.majorListSep) (hm' : d.minorListSep = d'.minorListSep) (f : BibleFlag)
    (flags : Option BibleFlag) (l : RangeList)
    (hn : ∀ r ∈ l.flatten, SameShown d d' o.short r.start.book ∧ SameShown d d' o.short r.stop.book)
    (s : RangeList.StrState) : RangeList.strGroups u ⟨d, f⟩ o flags s l = RangeList.strGroups u ⟨d', f⟩ o flags s l := by
  induction l generalizing s with
  | nil => rfl
  | cons g l ih =>
    have h1 := strGroup_eq h u o hs hr hm hm' f flags g fun r hr => hn r (by simp [hr])
    have h2 := ih fun r hr => hn r (by
      rw [List.flatten_cons]
      exact List.mem_append_right _ hr)
    simp only [RangeList.strGroups, RangeList.strEndGroup, h1, h2, hm]

/-- C83: the string of a list depends only on the names of the books in it, on the separator between chapter and verse, and on
the separators of ranges and lists. -/
theorem C83_list_shown (h : SameVerses d d') (u : Uni) (o : StrOpts) (l : RangeList)
    (hn : ∀ r ∈ l.flatten, SameShown d d' o.short r.start.book ∧ SameShown d d' o.short r.stop.book)
    (hs : verseSepShown d o.altSep = verseSepShown d' o.altSep) (hr : d.rangeSep = d'.rangeSep)
    (hm : d.majorListSep = d'.majorListSep) (hm' : d.minorListSep = d'.minorListSep) (f : BibleFlag)
    (flags : Option BibleFlag) : RangeList.str u ⟨d, f⟩ o flags l = RangeList.str u ⟨d', f⟩ o flags l :=
  strGroups_eq h u o hs hr hm hm' f flags l hn _

/-- Further names that are recognised do not matter. -/
example (b : BibleBook) :
    let d := { defaultData with nameData := fun b => (defaultData.nameData b).map fun n => { n with extra := [['x']] } }
    SameVerses defaultData d ∧ SameShown defaultData d true b ∧ defaultData.minorListSep = d.minorListSep := by
  refine ⟨⟨rfl, rfl, rfl⟩, ?_, rfl⟩
  simp only [SameShown, Option.map_map]
  rfl

/-! ## What is read -/

/-- C83: names are recognised without looking at abbreviations, separators, chapters or verses. -/
theorem C83_names_read (h : SameReadNames d d') (u : Uni) : BibleBook.fromStr u d = BibleBook.fromStr u d' := by
  funext s
  have h1 : ∀ b s, BibleBook.matchesName u d b s = BibleBook.matchesName u d' b s := by
    intro b s
    have hb := h b
    simp only [BibleBook.matchesName]
    cases hd : d.nameData b <;> cases hd' : d'.nameData b <;> simp_all [nameRx]
  simp only [BibleBook.fromStr, h1]

/-- Other abbreviations are the same names for reading. -/
example (s : List Char) :
    SameReadNames defaultData
      { defaultData with nameData := fun b => (defaultData.nameData b).map fun n => { n with abbr := s } } := by
  intro b
  simp only [Option.map_map]
  rfl

/-- An abbreviation that is not among the other names is not recognised. -/
example :
    BibleBook.fromStr exampleUni { defaultData with nameData := fun b => (defaultData.nameData b).map fun n =>
      { n with abbr := "Xyz".toList } } "Xyz".toList = none := by
  decide +kernel

private theorem evalTree_eq (h : SameVerses d d') (hs : SameSeps d d') (hn : SameReadNames d d') (u : Uni) (f : BibleFlag)
    (g : BibleFlag) : evalTree u ⟨d, f⟩ g = evalTree u ⟨d', f⟩ g := by
  obtain ⟨-, h2, h3, h4, h5⟩ := parse_parts h hs u f
  have h6 : evalSingle u ⟨d, f⟩ g = evalSingle u ⟨d', f⟩ g := by
    funext a
    cases a <;> simp only [evalSingle, nameCallback, C83_names_read hn u, h2, h3, h4]
  have h7 : evalRef u ⟨d, f⟩ g = evalRef u ⟨d', f⟩ g := by
    funext a
    cases a <;> simp only [evalRef, h6, h5]
  have h8 : ∀ l, evalRest u ⟨d, f⟩ g l = evalRest u ⟨d', f⟩ g l := by
    intro l
    induction l with
    | nil => rfl
    | cons x l ih => simp only [evalRest, h7, ih]
  funext t
  simp only [evalTree, h7, h8]

/-- C83: what is read, by each of the three classes and whatever has been read before, does not depend on the abbreviations. -/
theorem C83_read (h : SameVerses d d') (hs : SameSeps d d') (hn : SameReadNames d d') (u : Uni) (f : BibleFlag) :
    BibleVerse.ofStr u ⟨d, f⟩ = BibleVerse.ofStr u ⟨d', f⟩ ∧ BibleRange.ofStr u ⟨d, f⟩ = BibleRange.ofStr u ⟨d', f⟩ ∧
      RangeList.ofStr u ⟨d, f⟩ = RangeList.ofStr u ⟨d', f⟩ := by
  have h1 : parse u ⟨d, f⟩ = parse u ⟨d', f⟩ := by
    funext flags s
    simp only [parse, (parse_parts h hs u f).1]
    cases parseTree u d' s with
    | none => rfl
    | some t => exact congrFun (evalTree_eq h hs hn u f _) t
  have h2 : RangeList.ofStr u ⟨d, f⟩ = RangeList.ofStr u ⟨d', f⟩ := by
    funext flags s
    simp only [RangeList.ofStr, h1]
    rfl
  refine ⟨?_, ?_, h2⟩
  · funext flags s
    simp only [BibleVerse.ofStr, h2]
  · funext flags s
    simp only [BibleRange.ofStr, h2]
    rfl

/-- The conditions hold for other abbreviations of the default data. -/
example (s : List Char) :
    let d := { defaultData with nameData := fun b => (defaultData.nameData b).map fun n => { n with abbr := s } }
    SameVerses defaultData d ∧ SameSeps defaultData d ∧ SameReadNames defaultData d := by
  refine ⟨⟨rfl, rfl, rfl⟩, ⟨rfl, rfl, rfl, rfl, rfl⟩, ?_⟩
  intro b
  simp only [Option.map_map]
  rfl

end Bibleref
