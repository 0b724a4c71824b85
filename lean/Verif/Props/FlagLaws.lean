import Verif.Lemmas.DiffTotal
import Verif.Props.Flags
import Verif.Props.Defects
import Verif.Props.Strings3

/-!
# The flags argument (C47) and regrouping (C43)

Every call depends on its flags argument only through the flags in force.
-/

namespace Bibleref
open Spec

section
variable {e : Env} {fl fl' : Option BibleFlag} (hf : e.eff fl = e.eff fl')
include hf

theorem verseCount_same (b : BibleBook) : b.verseCount e fl = b.verseCount e fl' := by
  unfold BibleBook.verseCount; simp only [minVerseNum_congr rfl hf]

theorem firstVerse_same (b : BibleBook) (c : Option Int) : b.firstVerse e c fl = b.firstVerse e c fl' := by
  unfold BibleBook.firstVerse; simp only [minVerseNum_congr rfl hf]

theorem verse_firstVerse_same (v : BibleVerse) (c : Option Int) : v.firstVerse e c fl = v.firstVerse e c fl' := by
  unfold BibleVerse.firstVerse; rw [firstVerse_same hf]

theorem isFirstInChap_same (v : BibleVerse) (c : Option Int) : v.isFirstInChap e c fl = v.isFirstInChap e c fl' := by
  unfold BibleVerse.isFirstInChap; rw [verse_firstVerse_same hf]

theorem isFirstInBook_same (v : BibleVerse) (b : Option BibleBook) : v.isFirstInBook e b fl = v.isFirstInBook e b fl' := by
  unfold BibleVerse.isFirstInBook; rw [firstVerse_same hf]

theorem sub_same (v : BibleVerse) (n : Int) : v.sub e n fl = v.sub e n fl' := by unfold BibleVerse.sub; rw [hf]

theorem ofArgs_same (sb : Option BibleBook) (sc sv : Option Int) (eb : Option BibleBook) (ec ev : Option Int) :
    BibleRange.ofArgs e sb sc sv eb ec ev fl = BibleRange.ofArgs e sb sc sv eb ec ev fl' := by unfold BibleRange.ofArgs; rw [hf]

theorem book_range_same (b : BibleBook) : b.range e fl = b.range e fl' := by
  unfold BibleBook.range; simp only [firstVerse_same hf, range_new_congr rfl hf]

theorem book_chapRange_same (b : BibleBook) (c : Int) : b.chapRange e c fl = b.chapRange e c fl' := by
  unfold BibleBook.chapRange; simp only [firstVerse_same hf, range_new_congr rfl hf]

theorem verse_chapRange_same (v : BibleVerse) : v.chapRange e fl = v.chapRange e fl' := by
  unfold BibleVerse.chapRange; simp only [verse_firstVerse_same hf, range_new_congr rfl hf]

theorem verse_bookRange_same (v : BibleVerse) : v.bookRange e fl = v.bookRange e fl' := book_range_same hf _

theorem wholeBible_same : BibleRange.wholeBible e fl = BibleRange.wholeBible e fl' := by unfold BibleRange.wholeBible; rw [hf]

theorem isWholeChap_same (r : BibleRange) : r.isWholeChap e fl = r.isWholeChap e fl' := by
  unfold BibleRange.isWholeChap; simp only [firstVerse_same hf]

theorem spansStartChap_same (r : BibleRange) : r.spansStartChap e fl = r.spansStartChap e fl' := by
  unfold BibleRange.spansStartChap; simp only [firstVerse_same hf]

theorem spansEndChap_same (r : BibleRange) : r.spansEndChap e fl = r.spansEndChap e fl' := by
  unfold BibleRange.spansEndChap; simp only [firstVerse_same hf]

theorem isWholeBook_same (r : BibleRange) : r.isWholeBook e fl = r.isWholeBook e fl' := by
  unfold BibleRange.isWholeBook; simp only [firstVerse_same hf]

theorem spansStartBook_same (r : BibleRange) : r.spansStartBook e fl = r.spansStartBook e fl' := by
  unfold BibleRange.spansStartBook; simp only [firstVerse_same hf]

theorem spansEndBook_same (r : BibleRange) : r.spansEndBook e fl = r.spansEndBook e fl' := by
  unfold BibleRange.spansEndBook; simp only [firstVerse_same hf]

theorem chapRange_same (r : BibleRange) : r.chapRange e fl = r.chapRange e fl' := by unfold BibleRange.chapRange; rw [hf]

theorem bookRange_same (r : BibleRange) : r.bookRange e fl = r.bookRange e fl' := by unfold BibleRange.bookRange; rw [hf]

theorem split_same (r : BibleRange) (byBook byChap : Bool) (n : Option Int) (g : Bool) (fuel : Nat) :
    r.split e byBook byChap n g fl fuel = r.split e byBook byChap n g fl' fuel := by
  unfold BibleRange.split BibleRange.splitRaw BibleRange.splitFlags; rw [hf]

theorem difference_same (a b : BibleRange) : a.difference e b fl = a.difference e b fl' := by
  unfold BibleRange.difference; simp only [sub_same hf, add_congr rfl hf]

theorem symDifference_same (a b : BibleRange) : a.symDifference e b fl = a.symDifference e b fl' := by
  unfold BibleRange.symDifference; simp only [union_congr rfl hf, intersection_congr rfl hf]

theorem list_chapRange_same (l : RangeList) : RangeList.chapRange e l fl = RangeList.chapRange e l fl' := by
  unfold RangeList.chapRange; rw [hf]

theorem list_bookRange_same (l : RangeList) : RangeList.bookRange e l fl = RangeList.bookRange e l fl' := by
  unfold RangeList.bookRange; rw [hf]

theorem regroupStep_same (s : RangeList.GroupState) (r : BibleRange) :
    RangeList.regroupStep e fl s r = RangeList.regroupStep e fl' s r := by
  unfold RangeList.regroupStep RangeList.regroupStart RangeList.isDual RangeList.regroupStop
  simp only [spansStartBook_same hf, spansStartChap_same hf, isWholeBook_same hf, isWholeChap_same hf, spansEndBook_same hf,
    spansEndChap_same hf]

theorem regroup_same (l : List BibleRange) : RangeList.regroup e fl l = RangeList.regroup e fl' l := by
  have : ∀ s, RangeList.regroupHeads e fl s l = RangeList.regroupHeads e fl' s l := by
    induction l with
    | nil => intro s; rfl
    | cons r l ih => intro s; simp only [RangeList.regroupHeads, regroupStep_same hf, ih]
  unfold RangeList.regroup; rw [this]

end

section
variable {e e' : Env} (hd : e.data = e'.data) {fl fl' : Option BibleFlag} (hf : e.eff fl = e'.eff fl')
include hd hf

theorem mergeItems_congr (l : List BibleRange) : RangeList.mergeItems e fl l = RangeList.mergeItems e' fl' l := by
  have : ∀ l cur, RangeList.mergeLoop e fl cur l = RangeList.mergeLoop e' fl' cur l := by
    intro l
    induction l with
    | nil => intro cur; rfl
    | cons r l ih => intro cur; simp only [RangeList.mergeLoop, union_congr hd hf, ih]
  unfold RangeList.mergeItems; rw [hd]; simp only [this]

theorem intersectionItems_congr (l m : List BibleRange) :
    RangeList.intersectionItems e fl l m = RangeList.intersectionItems e' fl' l m := by
  unfold RangeList.intersectionItems; simp only [intersection_congr hd hf]

end

section
variable {e : Env} {fl fl' : Option BibleFlag} (hf : e.eff fl = e.eff fl')
include hf

theorem merge_same (l : RangeList) : RangeList.merge e l fl = RangeList.merge e l fl' := by
  unfold RangeList.merge; rw [mergeItems_congr rfl hf]

theorem list_contains_same (l m : RangeList) : RangeList.contains e l m fl = RangeList.contains e l m fl' := by
  unfold RangeList.contains; rw [merge_same hf]

theorem list_unionUpdate_same (l m : RangeList) : RangeList.unionUpdate e l m fl = RangeList.unionUpdate e l m fl' := merge_same hf _

theorem list_union_same (l m : RangeList) : RangeList.union e l m fl = RangeList.union e l m fl' := list_unionUpdate_same hf _ _

theorem list_intersection_same (l m : RangeList) : RangeList.intersection e l m fl = RangeList.intersection e l m fl' := by
  unfold RangeList.intersection; rw [intersectionItems_congr rfl hf]; simp only [merge_same hf]

theorem list_intersectionUpdate_same (l m : RangeList) :
    RangeList.intersectionUpdate e l m fl = RangeList.intersectionUpdate e l m fl' := by
  unfold RangeList.intersectionUpdate; rw [list_intersection_same hf]

theorem list_differenceUpdate_same (l m : RangeList) (fuel : Nat) :
    RangeList.differenceUpdate e l m fl fuel = RangeList.differenceUpdate e l m fl' fuel := by
  have h1 : ∀ bs cur rest, RangeList.diffInner e fl cur rest bs = RangeList.diffInner e fl' cur rest bs := by
    intro bs
    induction bs with
    | nil => intros; rfl
    | cons b bs ih => intro cur rest; simp only [RangeList.diffInner, difference_same hf, ih]
  have h2 : ∀ fuel l, RangeList.diffOuter e fl m.flatten fuel l = RangeList.diffOuter e fl' m.flatten fuel l := by
    intro fuel
    induction fuel with
    | zero => intro l; cases l <;> rfl
    | succ fuel ih => intro l; cases l with
      | nil => rfl
      | cons a l => simp only [RangeList.diffOuter, h1, ih]
  unfold RangeList.differenceUpdate; rw [h2]

theorem list_difference_same (l m : RangeList) (fuel : Nat) :
    RangeList.difference e l m fl fuel = RangeList.difference e l m fl' fuel := list_differenceUpdate_same hf _ _ _

theorem list_symDifference_same (l m : RangeList) (fuel : Nat) :
    RangeList.symDifference e l m fl fuel = RangeList.symDifference e l m fl' fuel := by
  unfold RangeList.symDifference; rw [list_union_same hf, list_intersection_same hf]; simp only [list_difference_same hf]

theorem list_symDifferenceUpdate_same (l m : RangeList) (fuel : Nat) :
    RangeList.symDifferenceUpdate e l m fl fuel = RangeList.symDifferenceUpdate e l m fl' fuel := by
  unfold RangeList.symDifferenceUpdate; rw [list_symDifference_same hf]

theorem range_str_same (u : Uni) (o : StrOpts) (r : BibleRange) : r.str u e o fl = r.str u e o fl' := by
  unfold BibleRange.str BibleRange.strStop RangeList.isDual
  simp only [isWholeBook_same hf, isWholeChap_same hf, spansEndBook_same hf, spansEndChap_same hf]

theorem strStep_same (u : Uni) (o : StrOpts) (s : RangeList.StrState) (r : BibleRange) :
    RangeList.strStep u e o fl s r = RangeList.strStep u e o fl' s r := by
  unfold RangeList.strStep RangeList.strStart RangeList.strStop
  simp only [spansStartBook_same hf, spansStartChap_same hf, isWholeBook_same hf, isWholeChap_same hf, spansEndBook_same hf,
    spansEndChap_same hf, RangeList.isDual]

theorem list_str_same (u : Uni) (o : StrOpts) (l : RangeList) : RangeList.str u e o fl l = RangeList.str u e o fl' l := by
  have h1 : ∀ g s, RangeList.strGroup u e o fl s g = RangeList.strGroup u e o fl' s g := by
    intro g
    induction g with
    | nil => intro s; rfl
    | cons r g ih => intro s; simp only [RangeList.strGroup, strStep_same hf, ih]
  have h2 : ∀ l s, RangeList.strGroups u e o fl s l = RangeList.strGroups u e o fl' s l := by
    intro l
    induction l with
    | nil => intro s; rfl
    | cons g l ih => intro s; simp only [RangeList.strGroups, h1, ih]
  unfold RangeList.str; simp only [h2]

theorem list_ofStr_same (u : Uni) (s : List Char) : RangeList.ofStr u e fl s = RangeList.ofStr u e fl' s := by
  unfold RangeList.ofStr; rw [hf]

theorem range_ofStr_same (u : Uni) (s : List Char) : BibleRange.ofStr u e fl s = BibleRange.ofStr u e fl' s := by
  unfold BibleRange.ofStr; rw [hf]

theorem verse_ofStr_same (u : Uni) (s : List Char) : BibleVerse.ofStr u e fl s = BibleVerse.ofStr u e fl' s := by
  unfold BibleVerse.ofStr; rw [list_ofStr_same hf]

end

/-- C47: a call on a book or verse depends on the flags passed only through the flags in force. So passing the global flags, passing
`BibleFlag.NONE` and passing nothing come to the same. -/
theorem C47_only_in_force_verses (e : Env) (fl fl' : Option BibleFlag) (hf : inForce e fl = inForce e fl') :
    (∀ (b : BibleBook) c, b.minVerseNum e c fl = b.minVerseNum e c fl') ∧
    (∀ b : BibleBook, b.verseCount e fl = b.verseCount e fl') ∧
    (∀ (b : BibleBook) c, b.firstVerse e c fl = b.firstVerse e c fl') ∧
    (∀ b : BibleBook, b.range e fl = b.range e fl') ∧
    (∀ (b : BibleBook) c, b.chapRange e c fl = b.chapRange e c fl') ∧
    (∀ b c n, BibleVerse.new e b c n fl = BibleVerse.new e b c n fl') ∧
    (∀ u s, BibleVerse.ofStr u e fl s = BibleVerse.ofStr u e fl' s) ∧
    (∀ (v : BibleVerse) c, v.firstVerse e c fl = v.firstVerse e c fl') ∧
    (∀ (v : BibleVerse) c, v.isFirstInChap e c fl = v.isFirstInChap e c fl') ∧
    (∀ (v : BibleVerse) b, v.isFirstInBook e b fl = v.isFirstInBook e b fl') ∧
    (∀ v : BibleVerse, v.chapRange e fl = v.chapRange e fl') ∧
    (∀ v : BibleVerse, v.bookRange e fl = v.bookRange e fl') ∧
    (∀ (v : BibleVerse) n, v.add e n fl = v.add e n fl') ∧
    (∀ (v : BibleVerse) n, v.sub e n fl = v.sub e n fl') := by
  rw [← eff_eq, ← eff_eq] at hf
  exact ⟨minVerseNum_congr rfl hf, verseCount_same hf, firstVerse_same hf, book_range_same hf, book_chapRange_same hf,
    new_congr rfl hf, verse_ofStr_same hf, verse_firstVerse_same hf, isFirstInChap_same hf, isFirstInBook_same hf,
    verse_chapRange_same hf, verse_bookRange_same hf, add_congr rfl hf, sub_same hf⟩

/-- C47: the same for ranges. -/
theorem C47_only_in_force_ranges (e : Env) (fl fl' : Option BibleFlag) (hf : inForce e fl = inForce e fl') :
    (∀ s t, BibleRange.new e s t fl = BibleRange.new e s t fl') ∧
    (∀ sb sc sv eb ec ev, BibleRange.ofArgs e sb sc sv eb ec ev fl = BibleRange.ofArgs e sb sc sv eb ec ev fl') ∧
    (∀ u s, BibleRange.ofStr u e fl s = BibleRange.ofStr u e fl' s) ∧
    BibleRange.wholeBible e fl = BibleRange.wholeBible e fl' ∧
    (∀ r : BibleRange, r.isWholeChap e fl = r.isWholeChap e fl') ∧ (∀ r : BibleRange, r.spansStartChap e fl = r.spansStartChap e fl') ∧
    (∀ r : BibleRange, r.spansEndChap e fl = r.spansEndChap e fl') ∧ (∀ r : BibleRange, r.isWholeBook e fl = r.isWholeBook e fl') ∧
    (∀ r : BibleRange, r.spansStartBook e fl = r.spansStartBook e fl') ∧ (∀ r : BibleRange, r.spansEndBook e fl = r.spansEndBook e fl') ∧
    (∀ r : BibleRange, r.chapRange e fl = r.chapRange e fl') ∧ (∀ r : BibleRange, r.bookRange e fl = r.bookRange e fl') ∧
    (∀ (r : BibleRange) byBook byChap n g fuel, r.split e byBook byChap n g fl fuel = r.split e byBook byChap n g fl' fuel) ∧
    (∀ a b : BibleRange, a.isAdjacent e b fl = a.isAdjacent e b fl') ∧ (∀ a b : BibleRange, a.union e b fl = a.union e b fl') ∧
    (∀ a b : BibleRange, a.intersection e b fl = a.intersection e b fl') ∧
    (∀ a b : BibleRange, a.difference e b fl = a.difference e b fl') ∧
    (∀ a b : BibleRange, a.symDifference e b fl = a.symDifference e b fl') ∧
    (∀ u o (r : BibleRange), r.str u e o fl = r.str u e o fl') := by
  rw [← eff_eq, ← eff_eq] at hf
  exact ⟨range_new_congr rfl hf, ofArgs_same hf, range_ofStr_same hf, wholeBible_same hf, isWholeChap_same hf, spansStartChap_same hf,
    spansEndChap_same hf, isWholeBook_same hf, spansStartBook_same hf, spansEndBook_same hf, chapRange_same hf, bookRange_same hf,
    split_same hf, isAdjacent_congr rfl hf, union_congr rfl hf, intersection_congr rfl hf, difference_same hf, symDifference_same hf,
    range_str_same hf⟩

/-- C47: the same for lists. -/
theorem C47_only_in_force_lists (e : Env) (fl fl' : Option BibleFlag) (hf : inForce e fl = inForce e fl') :
    (∀ u s, RangeList.ofStr u e fl s = RangeList.ofStr u e fl' s) ∧
    (∀ l, RangeList.chapRange e l fl = RangeList.chapRange e l fl') ∧ (∀ l, RangeList.bookRange e l fl = RangeList.bookRange e l fl') ∧
    (∀ l, RangeList.regroup e fl l = RangeList.regroup e fl' l) ∧ (∀ l, RangeList.merge e l fl = RangeList.merge e l fl') ∧
    (∀ l m, RangeList.contains e l m fl = RangeList.contains e l m fl') ∧
    (∀ l m, RangeList.union e l m fl = RangeList.union e l m fl') ∧
    (∀ l m, RangeList.unionUpdate e l m fl = RangeList.unionUpdate e l m fl') ∧
    (∀ l m, RangeList.intersection e l m fl = RangeList.intersection e l m fl') ∧
    (∀ l m, RangeList.intersectionUpdate e l m fl = RangeList.intersectionUpdate e l m fl') ∧
    (∀ l m k, RangeList.difference e l m fl k = RangeList.difference e l m fl' k) ∧
    (∀ l m k, RangeList.differenceUpdate e l m fl k = RangeList.differenceUpdate e l m fl' k) ∧
    (∀ l m k, RangeList.symDifference e l m fl k = RangeList.symDifference e l m fl' k) ∧
    (∀ l m k, RangeList.symDifferenceUpdate e l m fl k = RangeList.symDifferenceUpdate e l m fl' k) ∧
    (∀ u o l, RangeList.str u e o fl l = RangeList.str u e o fl' l) := by
  rw [← eff_eq, ← eff_eq] at hf
  exact ⟨list_ofStr_same hf, list_chapRange_same hf, list_bookRange_same hf, regroup_same hf, merge_same hf, list_contains_same hf,
    list_union_same hf, list_unionUpdate_same hf, list_intersection_same hf, list_intersectionUpdate_same hf, list_difference_same hf,
    list_differenceUpdate_same hf, list_symDifference_same hf, list_symDifferenceUpdate_same hf, list_str_same hf⟩

example : inForce dflt none = inForce dflt (some .none) ∧ inForce dfltAll none = inForce dfltAll (some .none) ∧
    inForce dfltAll none = inForce dfltAll (some .ALL) := by decide

/-- C47 for `first_verse` with all flags: it raises if the chapter has a verse 0 which the call allows and the global flags do not.
Otherwise it is as if the flags of the call were the global ones. -/
theorem C47_first_verse_exact (e : Env) (h : e.data.WF) (flags : Option BibleFlag) (b : BibleBook) (c : Int) :
    b.firstVerse e (some c) flags = (if Unfit e flags b c then .error .invalidReference
      else b.firstVerse ⟨e.data, inForce e flags⟩ (some c) none) ∧
    b.firstVerse e none flags = (if Unfit e flags b 1 then .error .invalidReference
      else b.firstVerse ⟨e.data, inForce e flags⟩ none none) := by
  have hu : e.under flags = ⟨e.data, inForce e flags⟩ := by unfold Env.under; rw [eff_eq]
  rw [← hu]
  constructor
  · by_cases hx : Unfit e flags b c
    · rw [if_pos hx, first_unfit h hx]
    · rw [if_neg hx, first_under h hx]
  · by_cases hx : Unfit e flags b 1
    · rw [if_pos hx, first_unfit_none h hx]
    · rw [if_neg hx, first_under_none h hx]

theorem mergeItems_any {e : Env} (h : e.data.WF) {flags : Option BibleFlag} {l : List BibleRange} (hl : ∀ r ∈ l, ROK e.data true r) :
    RangeList.mergeItems e flags l = .error .multibookRange ∨
    ∃ m, RangeList.mergeItems e flags l = .ok m ∧ ∀ r ∈ m, ROK e.data true r := by
  have hok : ∀ r ∈ RangeList.sortT e.data l, ROK e.data true r := fun r hr => hl r ((RangeList.sortT_perm (d := e.data) l).mem_iff.mp hr)
  rw [RangeList.mergeItems_eq fun a ha b hb => (hl a ha).alike (hl b hb)]
  generalize RangeList.sortT e.data l = s at hok
  cases s with
  | nil => exact .inr ⟨[], rfl, fun r hr => by cases hr⟩
  | cons a s =>
    exact mergeLoop_any h (hok a List.mem_cons_self) (fun r hr => hok r (List.mem_cons_of_mem _ hr))

/-- What the ranges of a merged list are, or which exception is raised, is decided before regrouping. -/
theorem merge_ranges {e : Env} (h : e.data.WF) {flags : Option BibleFlag} {l : RangeList} (hl : ∀ r ∈ l.flatten, ROK e.data true r) :
    (RangeList.merge e l flags).map List.flatten = RangeList.mergeItems e flags l.flatten := by
  unfold RangeList.merge
  rcases mergeItems_any h (flags := flags) hl with hm | ⟨m, hm, hok⟩
  · rw [hm]; rfl
  · rw [hm]
    obtain ⟨x, hx, hx', _⟩ := RangeList.regroup_ok h (flags := none) (fun hh => hh) hok
    simp only [bind, Except.bind, hx, Except.map, hx']

theorem mapM_mem {α β : Type} {f : α → Except PyErr β} {l : List α} {ys : List β} (hl : l.mapM f = .ok ys) :
    ∀ y ∈ ys, ∃ a ∈ l, f a = .ok y := by
  induction l generalizing ys with
  | nil => cases hl; intro y hy; cases hy
  | cons a l ih =>
    rw [List.mapM_cons] at hl
    cases ha : f a with
    | error x => rw [ha] at hl; cases hl
    | ok b =>
      rw [ha] at hl
      cases hm : l.mapM f with
      | error x => simp only [bind, Except.bind, hm] at hl; cases hl
      | ok bs =>
        simp only [bind, Except.bind, hm] at hl
        cases hl
        intro y hy
        rcases List.mem_cons.mp hy with rfl | hy
        · exact ⟨a, List.mem_cons_self, ha⟩
        · obtain ⟨x, hx, hf⟩ := ih hm y hy
          exact ⟨x, List.mem_cons_of_mem _ hx, hf⟩

theorem new_rok {e : Env} (h : e.data.WF) {flags : Option BibleFlag} {s t : BibleVerse} (hs : Valid e.data true s)
    (ht : Valid e.data true t) {r : BibleRange} (hn : BibleRange.new e (some s) (some t) flags = .ok r) : ROK e.data true r := by
  rw [new_comparable (comparable_listed (d := e.data) hs ht)] at hn
  split at hn
  · cases hn
  · split at hn <;> cases hn
    · rename_i hlt
      rw [h.lt_pos ht hs] at hlt
      exact ⟨ht, hs, by show pos e.data t ≤ pos e.data s; omega⟩
    · rename_i hlt
      rw [h.lt_pos ht hs] at hlt
      exact ⟨hs, ht, by show pos e.data s ≤ pos e.data t; omega⟩

theorem intersectionItems_rok {e : Env} (h : e.data.WF) {flags : Option BibleFlag} {l m items : List BibleRange}
    (hl : ∀ r ∈ l, ROK e.data true r) (hm : ∀ r ∈ m, ROK e.data true r)
    (hi : RangeList.intersectionItems e flags l m = .ok items) : ∀ r ∈ items, ROK e.data true r := by
  intro r hr
  unfold RangeList.intersectionItems at hi
  cases hls : l.mapM (fun a => do
    let l' ← m.mapM fun b => a.intersection e b flags
    return l'.flatMap fun i => i.head?.toList : BibleRange → Except PyErr (List BibleRange)) with
  | error x => rw [hls] at hi; cases hi
  | ok ls =>
    rw [hls] at hi
    cases hi
    obtain ⟨k, hk, hrk⟩ := List.mem_flatten.mp hr
    obtain ⟨a, ha, hfa⟩ := mapM_mem hls k hk
    cases hms : m.mapM (fun b => a.intersection e b flags) with
    | error x => rw [hms] at hfa; cases hfa
    | ok l' =>
      rw [hms] at hfa
      cases hfa
      obtain ⟨i, hi, hri⟩ := List.mem_flatMap.mp hrk
      obtain ⟨b, hb, hfb⟩ := mapM_mem hms i hi
      rw [BibleRange.intersection_eq ((hl a ha).alike (hm b hb))] at hfb
      split at hfb
      · cases hfb; cases hri
      · cases hn : BibleRange.new e (some (BibleRange.maxVerse e.data a.start b.start)) (some (BibleRange.minVerse e.data a.stop b.stop)) flags with
        | error x => rw [hn] at hfb; cases hfb
        | ok q =>
          rw [hn] at hfb
          cases hfb
          have : r = q := by simpa using hri
          subst this
          refine new_rok h ?_ ?_ hn
          · unfold BibleRange.maxVerse; split
            · exact (hm b hb).s
            · exact (hl a ha).s
          · unfold BibleRange.minVerse; split
            · exact (hm b hb).t
            · exact (hl a ha).t

/-- C43 without any assumption on the data, flags and ranges: if `regroup` returns, it has kept the ranges and their order, no group is
empty, and doing it again changes nothing. -/
theorem C43_keeps_if_ok (e : Env) (flags : Option BibleFlag) (l m : RangeList) (hm : RangeList.regroup e flags l.flatten = .ok m) :
    m.flatten = l.flatten ∧ (∀ g ∈ m, g ≠ []) ∧ RangeList.regroup e flags m.flatten = .ok m := by
  obtain ⟨h1, h2⟩ := RangeList.regroup_flatten hm
  exact ⟨h1, h2, by rw [h1]; exact hm⟩

example : RangeList.regroup dfltAll (some .VERSE_0) [⟨⟨.Jude, 1, 1⟩, ⟨.Jude, 1, 3⟩⟩, ⟨⟨.Mark, 2, 2⟩, ⟨.Mark, 3, 3⟩⟩, ⟨⟨.Mark, 3, 2⟩, ⟨.Mark, 3, 9⟩⟩] =
    .ok [[⟨⟨.Jude, 1, 1⟩, ⟨.Jude, 1, 3⟩⟩], [⟨⟨.Mark, 2, 2⟩, ⟨.Mark, 3, 3⟩⟩, ⟨⟨.Mark, 3, 2⟩, ⟨.Mark, 3, 9⟩⟩]] := by decide +kernel

end Bibleref
