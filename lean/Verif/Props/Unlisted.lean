import Verif.Lemmas.UnlistedText
import Verif.Props.Verses
import Verif.Props.Ranges
import Verif.Props.Parsing

/-!
# Books left out of the book order (C65)

`only e b` is `e` with `b` as the only book in the order. There the other theorems speak of `b`: it is in the order, and the
Bible consists of the verses of `b`.
-/

namespace Bibleref
open Spec

/-- C65: with `b` as the only book in the order the data is well-formed, `b` is in the order and the verses of the Bible are those
of `b`, which do not depend on the order. -/
theorem C65_only (e : Env) (h : e.data.WF) (b : BibleBook) (v0 : Bool) :
    (only e b).data.WF ∧ b ∈ (only e b).data.bookOrder ∧ canon (only e b).data v0 = bookVerses e.data v0 b := by
  refine ⟨⟨by simp [only], h.chaps⟩, by simp [only], ?_⟩
  show List.flatMap _ [b] = _
  rw [List.flatMap_cons, List.flatMap_nil, List.append_nil]
  rfl

/-- C65: a book that is not in the order has no next and no previous book, and all that can be done with its verses is as if it were
the only book. -/
theorem C65_verses (e : Env) (b : BibleBook) (hb : b ∉ e.data.bookOrder) (fl : Option BibleFlag) :
    b.next e.data = none ∧ b.prev e.data = none ∧
    (∀ c n, BibleVerse.new e b c n fl = BibleVerse.new (only e b) b c n fl) ∧
    (∀ c, b.firstVerse e c fl = b.firstVerse (only e b) c fl ∧ b.lastVerse e c = b.lastVerse (only e b) c) ∧
    b.verseCount e fl = b.verseCount (only e b) fl ∧
    b.range e fl = b.range (only e b) fl ∧ (∀ c, b.chapRange e c fl = b.chapRange (only e b) c fl) ∧
    (∀ v : BibleVerse, v.book = b → ∀ n : Int, v.add e n fl = v.add (only e b) n fl ∧ v.sub e n fl = v.sub (only e b) n fl) ∧
    (∀ v w : BibleVerse, v.book = b → w.book = b →
      v.less e.data w = v.less (only e b).data w ∧ v.lessEq e.data w = v.lessEq (only e b).data w ∧ v.subVerse e w = v.subVerse (only e b) w ∧
      BibleRange.new e (some v) (some w) fl = BibleRange.new (only e b) (some v) (some w) fl) :=
  ⟨next_unlisted hb, prev_unlisted hb, fun _ _ => rfl, fun _ => ⟨rfl, rfl⟩, rfl, (bookRange_only fl).symm,
    fun c => (bookChapRange_only c fl).symm, fun v hv n => ⟨(add_only hb hv n fl).1.symm, (sub_only hb hv n fl).1.symm⟩,
    fun v w hv hw => ⟨(verse_less_only hv hw).symm, (verse_lessEq_only hv hw).symm, (subVerse_only hb hv hw).symm, (new_only' hv hw fl).symm⟩⟩

/-- C65: so `v + n` is the verse `n` places further in the book or `None`, whether `MULTIBOOK` is in force or not. -/
theorem C65_add (e : Env) (h : e.data.WF) (v : BibleVerse) (hb : v.book ∉ e.data.bookOrder) (fl : Option BibleFlag) (v0 : Bool)
    (hv0 : v0 = ((inForce e fl).verse0 || v.verse == 0)) (i n : Nat) (hi : (bookVerses e.data v0 v.book)[i]? = some v) :
    v.add e n fl = .ok (bookVerses e.data v0 v.book)[i + n]? := by
  have hc := C65_only e h v.book v0
  rw [← (add_only hb rfl n fl).1]
  cases hm : (inForce e fl).multibook with
  | false => exact C04_add_in_book (only e v.book) hc.1 fl hm v v0 hv0 i n hi
  | true =>
    rw [← hc.2.2] at hi ⊢
    exact C03_add_multibook (only e v.book) hc.1 fl hm v v0 hv0 i n hi

/-- C65: all that can be done with a range of verses of a book that is not in the order is as if it were the only book. -/
theorem C65_ranges (e : Env) (b : BibleBook) (hb : b ∉ e.data.bookOrder) (r : BibleRange) (hs : r.start.book = b)
    (ht : r.stop.book = b) (fl : Option BibleFlag) :
    r.isWholeChap e fl = r.isWholeChap (only e b) fl ∧ r.isWholeBook e fl = r.isWholeBook (only e b) fl ∧
    r.spansStartChap e fl = r.spansStartChap (only e b) fl ∧ r.spansEndChap e fl = r.spansEndChap (only e b) fl ∧
    r.spansStartBook e fl = r.spansStartBook (only e b) fl ∧ r.spansEndBook e fl = r.spansEndBook (only e b) fl ∧
    r.chapRange e fl = r.chapRange (only e b) fl ∧ r.bookRange e fl = r.bookRange (only e b) fl ∧
    (∀ byBook byChap n fuel, r.splitRaw e byBook byChap n fl fuel = r.splitRaw (only e b) byBook byChap n fl fuel) ∧
    r.verseCount e = r.verseCount (only e b) ∧
    (∀ whole, r.chapCount e whole = r.chapCount (only e b) whole ∧ r.bookCount e whole = r.bookCount (only e b) whole) ∧
    r.iter e = r.iter (only e b) ∧ (∀ u o, r.str u e o fl = r.str u (only e b) o fl) := by
  have hr : Inside b r := ⟨hs, ht⟩
  have h1 := spans_only (e := e) hr fl
  have h2 := outer_only (e := e) hr fl
  exact ⟨rfl, rfl, h1.1.symm, h1.2.1.symm, h1.2.2.1.symm, h1.2.2.2.symm, h2.1.symm, h2.2.symm,
    fun _ _ _ _ => (splitRaw_only hb hr _ _ _ _ _).1.symm, (counts_only hb hr true).1.symm,
    fun w => ⟨(counts_only hb hr w).2.1.symm, (counts_only hb hr w).2.2.symm⟩, (iter_only hb hr).symm,
    fun _ o => (strOfRange_only hr o fl).symm⟩

/-- C65: the same for two ranges, and for the string of a list. -/
theorem C65_range_pairs (e : Env) (b : BibleBook) (hb : b ∉ e.data.bookOrder) (r q : BibleRange) (hr : Inside b r) (hq : Inside b q)
    (fl : Option BibleFlag) :
    r.isDisjoint e.data q = r.isDisjoint (only e b).data q ∧ r.contains e.data q = r.contains (only e b).data q ∧
    r.surrounds e.data q = r.surrounds (only e b).data q ∧ r.isAdjacent e q fl = r.isAdjacent (only e b) q fl ∧
    r.union e q fl = r.union (only e b) q fl ∧ r.intersection e q fl = r.intersection (only e b) q fl ∧
    r.difference e q fl = r.difference (only e b) q fl ∧ r.symDifference e q fl = r.symDifference (only e b) q fl ∧
    r.less e.data q = r.less (only e b).data q ∧ r.lessEq e.data q = r.lessEq (only e b).data q := by
  have h1 := tests_only (e := e) hr hq
  rw [BibleRange.isDisjoint_eq (inside_alike hr hq), BibleRange.isDisjoint_eq (inside_alike hr hq), BibleRange.contains_eq (inside_alike hr hq),
    BibleRange.contains_eq (inside_alike hr hq), BibleRange.surrounds_eq (inside_alike hr hq), BibleRange.surrounds_eq (inside_alike hr hq),
    BibleRange.less_eq (inside_alike hr hq), BibleRange.less_eq (inside_alike hr hq), h1.1, h1.2.1, h1.2.2.1, range_lt_only hr hq]
  exact ⟨rfl, rfl, rfl, (isAdjacent_only hb hr hq fl).symm, (union_only hb hr hq fl).1.symm,
    (intersection_only hr hq fl).1.symm, (difference_only hb hr hq fl).symm, (symDifference_only hb hr hq fl).symm,
    rfl, by simp only [BibleRange.lessEq, verse_lessEq_only hr.1 hq.1, verse_lessEq_only hr.2 hq.2]⟩

/-- C65: the string of a list of ranges of the book. -/
theorem C65_list_str (u : Uni) (e : Env) (b : BibleBook) (hb : b ∉ e.data.bookOrder) (l : RangeList)
    (hl : ∀ g ∈ l, ∀ r ∈ g, Inside b r) (o : StrOpts) (fl : Option BibleFlag) :
    RangeList.str u e o fl l = RangeList.str u (only e b) o fl l := (strOfList_only hb o fl hl).symm

/-- C65: a string without a range separator means the same for every book order. Missing: strings with a range separator, which are
refused for books that are not in the order, see `C65_counterexample`. -/
theorem C65_strings_partial (u : Uni) (e : Env) (o : List BibleBook) (flags : Option BibleFlag) (s : List Char)
    (hs : e.data.rangeSep ∉ s) :
    RangeList.ofStr u e flags s = RangeList.ofStr u (reordered e o) flags s ∧
    BibleVerse.ofStr u e flags s = BibleVerse.ofStr u (reordered e o) flags s ∧
    BibleRange.ofStr u e flags s = BibleRange.ofStr u (reordered e o) flags s := by
  have h1 : ∀ fl, RangeList.ofStr u e fl s = RangeList.ofStr u (reordered e o) fl s := by
    intro fl
    unfold RangeList.ofStr
    rw [parse_reordered _ hs]; rfl
  refine ⟨h1 flags, ?_, ?_⟩
  · unfold BibleVerse.ofStr; rw [h1]
  · unfold BibleRange.ofStr; rw [h1]; rfl

/-- C65: a range from positional arguments without an end book is the same for every book order. Missing: calls with an end book,
which are refused for books that are not in the order, see `C65_end_book`. -/
theorem C65_positional_partial (e : Env) (o : List BibleBook) (b : Option BibleBook) (sc sv ec ev : Option Int)
    (flags : Option BibleFlag) :
    BibleRange.ofArgs e b sc sv none ec ev flags = BibleRange.ofArgs (reordered e o) b sc sv none ec ev flags := rfl

/-- C65: with an end book, `TypeError` if one of the books is not in the order, even if both are the same. -/
theorem C65_end_book (e : Env) (sb eb : BibleBook) (hb : sb ∉ e.data.bookOrder ∨ eb ∉ e.data.bookOrder) (sc sv ec ev : Option Int)
    (flags : Option BibleFlag) : BibleRange.ofArgs e (some sb) sc sv (some eb) ec ev flags = .error .typeError := by
  have hc : sb.comparable e.data eb = false := by
    rw [← Bool.not_eq_true, book_comparable]
    rintro ⟨h1, h2⟩
    rcases hb with hb | hb
    · exact hb h1
    · exact hb h2
  simp only [BibleRange.ofArgs, BibleRange.earlierBook_bind, BibleRange.compareBooks, hc, Bool.false_eq_true, if_false]
  rfl

/-- C65: a range between verses of two books of which one is not in the order is refused. -/
theorem C65_two_books (e : Env) (v w : BibleVerse) (hne : v.book ≠ w.book) (hb : v.book ∉ e.data.bookOrder ∨ w.book ∉ e.data.bookOrder)
    (flags : Option BibleFlag) :
    BibleRange.new e (some v) (some w) flags =
      .error (if (inForce e flags).multibook = true then .typeError else .multibookRange) := by
  have hc : v.comparable e.data w = false := by
    rw [← Bool.not_eq_true, BibleVerse.comparable, Bool.or_eq_true, book_comparable]
    rintro (h1 | ⟨h1, h2⟩)
    · exact hne (by simpa using h1)
    · rcases hb with hb | hb
      · exact hb h1
      · exact hb h2
  rw [← eff_eq]
  simp only [BibleRange.new_eq, hc]
  cases (e.eff flags).multibook
  · rw [if_pos ⟨rfl, hne⟩]; rfl
  · rw [if_neg (by simp)]; rfl

theorem not_comparable {d : BibleData} {v w : BibleVerse} (hne : v.book ≠ w.book) (hb : v.book ∉ d.bookOrder ∨ w.book ∉ d.bookOrder) :
    v.comparable d w = false := by
  rw [← Bool.not_eq_true, BibleVerse.comparable, Bool.or_eq_true, book_comparable]
  rintro (h1 | ⟨h1, h2⟩)
  · exact hne (by simpa using h1)
  · rcases hb with hb | hb
    · exact hb h1
    · exact hb h2

/-- C65: verses of two books of which one is not in the order cannot be compared, and no distance between them is given. -/
theorem C65_verses_incomparable (e : Env) (v w : BibleVerse) (hne : v.book ≠ w.book)
    (hb : v.book ∉ e.data.bookOrder ∨ w.book ∉ e.data.bookOrder) :
    v.less e.data w = .error .typeError ∧ v.lessEq e.data w = .error .typeError ∧
    v.subVerse e w = .error (if e.flags.multibook = true then .typeError else .multibookRange) := by
  have hc := not_comparable hne hb
  refine ⟨BibleVerse.less_error hc, BibleVerse.lessEq_error hc, ?_⟩
  have h1 := C65_two_books e v w hne hb none
  simp only [BibleVerse.subVerse, h1]
  rfl

/-- C65: nor can ranges that begin in two such books, or be combined: every operation of the two raises `TypeError`, with every
flags. -/
theorem C65_ranges_incomparable (e : Env) (r q : BibleRange) (hne : r.start.book ≠ q.start.book)
    (hb : r.start.book ∉ e.data.bookOrder ∨ q.start.book ∉ e.data.bookOrder) (fl : Option BibleFlag) :
    r.less e.data q = .error .typeError ∧ r.lessEq e.data q = .error .typeError ∧ r.isDisjoint e.data q = .error .typeError ∧
    r.contains e.data q = .error .typeError ∧ r.surrounds e.data q = .error .typeError ∧
    r.isAdjacent e q fl = .error .typeError ∧ r.union e q fl = .error .typeError ∧ r.intersection e q fl = .error .typeError ∧
    r.difference e q fl = .error .typeError ∧ r.symDifference e q fl = .error .typeError := by
  have hc := not_comparable hne hb
  have hs : r.start ≠ q.start := fun h => hne (by rw [h])
  have hl := BibleVerse.less_error hc
  have hle := BibleVerse.lessEq_error hc
  have h1 : r.less e.data q = .error .typeError := by simp only [BibleRange.less, if_pos hs, hl]
  have ho : BibleRange.inOrder e.data r q = .error .typeError := by simp only [BibleRange.inOrder, h1]; rfl
  have hd : r.isDisjoint e.data q = .error .typeError := by simp only [BibleRange.isDisjoint, ho]; rfl
  have hu : r.union e q fl = .error .typeError := by simp only [BibleRange.union, hd]; rfl
  refine ⟨h1, by simp only [BibleRange.lessEq, if_pos hs, hle], hd, by simp only [BibleRange.contains, hle]; rfl,
    by simp only [BibleRange.surrounds, hl]; rfl, by simp only [BibleRange.isAdjacent, ho]; rfl, hu,
    by simp only [BibleRange.intersection, hd]; rfl, by simp only [BibleRange.difference, hd]; rfl, ?_⟩
  simp only [BibleRange.symDifference, if_neg (fun h : r = q => hs (by rw [h])), hu]
  rfl

example : (BibleBook.Mal ∉ ntData.bookOrder) ∧
    BibleRange.union ⟨ntData, .ALL⟩ ⟨⟨.Mal, 3, 1⟩, ⟨.Mal, 3, 5⟩⟩ ⟨⟨.Matt, 1, 1⟩, ⟨.Matt, 1, 2⟩⟩ none = .error .typeError := by decide +kernel

/-- With the books of the New Testament only in the order, `BibleRange("Mal 3:1-5")` raises `BibleRefParsingError` and
`BibleRange(Mal, 3, 1, Mal, 3, 5)` raises `TypeError`, while `BibleRange(Mal, 3, 1, None, 3, 5)`, `BibleRange("Mal 3:1")` and
`BibleRange("Mal 3")` are right. -/
theorem C65_counterexample :
    (BibleRange.ofStr exampleUni ⟨ntData, .none⟩ none "Mal 3:1-5".toList PState.init).1 = .error .parsing ∧
    BibleRange.ofArgs ⟨ntData, .none⟩ (some .Mal) (some 3) (some 1) (some .Mal) (some 3) (some 5) none = .error .typeError ∧
    BibleRange.ofArgs ⟨ntData, .none⟩ (some .Mal) (some 3) (some 1) none (some 3) (some 5) none = .ok ⟨⟨.Mal, 3, 1⟩, ⟨.Mal, 3, 5⟩⟩ ∧
    (BibleRange.ofStr exampleUni ⟨ntData, .none⟩ none "Mal 3:1".toList PState.init).1 = .ok ⟨⟨.Mal, 3, 1⟩, ⟨.Mal, 3, 1⟩⟩ ∧
    (BibleRange.ofStr exampleUni ⟨ntData, .none⟩ none "Mal 3".toList PState.init).1 = .ok ⟨⟨.Mal, 3, 1⟩, ⟨.Mal, 3, 18⟩⟩ := by
  decide +kernel

example : BibleBook.Mal ∉ ntData.bookOrder ∧ Inside .Mal ⟨⟨.Mal, 3, 1⟩, ⟨.Mal, 3, 5⟩⟩ ∧ ntData.rangeSep ∉ "Mal 3:1, 5; 4".toList := by
  refine ⟨by decide +kernel, ⟨rfl, rfl⟩, by decide⟩

end Bibleref
