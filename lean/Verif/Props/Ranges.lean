import Verif.Lemmas.Iter
import Verif.Props.Verses

/-!
# Properties of ranges: construction, iteration, counting, splitting (C07, C09, C12, C14-C16, C19)

Statements use the vocabulary of `Verif/Spec.lean` and the modelled methods only.
-/

namespace Bibleref
open Spec

/-- Matt 5:10-7:2, used in the examples. -/
abbrev exMatt : BibleRange := ⟨⟨.Matt, 5, 10⟩, ⟨.Matt, 7, 2⟩⟩
/-- Mal 4:5 - Matt 1:3, used in the examples. -/
abbrev exMulti : BibleRange := ⟨⟨.Mal, 4, 5⟩, ⟨.Matt, 1, 3⟩⟩
/-- Ps 3:0 - 4:0, used in the examples. -/
abbrev exPsa : BibleRange := ⟨⟨.Psa, 3, 0⟩, ⟨.Psa, 4, 0⟩⟩

theorem defaultData_rangeOK {v0 : Bool} {r : BibleRange} (hs : Valid defaultData v0 r.start) (ht : Valid defaultData v0 r.stop)
    (hle : r.start.le defaultData r.stop = true) : RangeOK defaultData v0 r :=
  (rangeOK_iff defaultData_wf).mpr ⟨hs, ht, (defaultData_wf.le_pos hs ht).mp hle⟩

theorem exMatt_ok (v0 : Bool) : RangeOK defaultData v0 exMatt := by
  cases v0 <;> exact defaultData_rangeOK (by decide +kernel) (by decide +kernel) (by decide +kernel)
theorem exMulti_ok (v0 : Bool) : RangeOK defaultData v0 exMulti := by
  cases v0 <;> exact defaultData_rangeOK (by decide +kernel) (by decide +kernel) (by decide +kernel)
theorem exPsa_ok : RangeOK defaultData true exPsa :=
  defaultData_rangeOK (by decide +kernel) (by decide +kernel) (by decide +kernel)

/-! ## C12 -/

/-- C12: the endpoints of the range are the given verses in reading order; different books are refused unless
`MULTIBOOK` is in force. -/
theorem C12_range_constructor (e : Env) (h : e.data.WF) (v w : BibleVerse) (hv : v ∈ canon e.data true)
    (hw : w ∈ canon e.data true) (flags : Option BibleFlag) :
    BibleRange.new e (some v) (some w) flags =
      if (inForce e flags).multibook = true ∨ v.book = w.book then
        .ok (if pos e.data v ≤ pos e.data w then ⟨v, w⟩ else ⟨w, v⟩)
      else .error .multibookRange := by
  rw [mem_canon h] at hv hw
  rw [← eff_eq]
  by_cases hb : (e.eff flags).multibook = true ∨ v.book = w.book
  · rw [if_pos hb]
    rw [new_comparable (comparable_listed hv hw)]
    rw [if_neg (by rintro ⟨h1, h2⟩; rw [h1] at hb; simp [h2] at hb)]
    by_cases hlt : w.lt e.data v = true
    · rw [if_pos hlt]
      rw [h.lt_pos hw hv] at hlt
      rw [if_neg (by omega)]
    · rw [if_neg hlt]
      rw [h.lt_pos hw hv] at hlt
      rw [if_pos (by omega)]
  · rw [if_neg hb]
    rw [not_or] at hb
    exact new_range_multi (by simpa using hb.1) hb.2

/-- C12: whenever construction from existing verses succeeds, the range is in order, holds exactly the given verses, and
crosses books only with `MULTIBOOK`; swapping the arguments changes nothing. -/
theorem C12_range_ordered (e : Env) (h : e.data.WF) (v w : BibleVerse) (v0 : Bool) (hv : v ∈ canon e.data v0)
    (hw : w ∈ canon e.data v0) (flags : Option BibleFlag) :
    (∀ r, BibleRange.new e (some v) (some w) flags = .ok r →
      RangeOK e.data v0 r ∧ ((r.start = v ∧ r.stop = w) ∨ (r.start = w ∧ r.stop = v)) ∧
      ((inForce e flags).multibook = true ∨ r.start.book = r.stop.book)) ∧
    BibleRange.new e (some v) (some w) flags = BibleRange.new e (some w) (some v) flags := by
  have hv' : v ∈ canon e.data true := (mem_canon h).mpr ((mem_canon h).mp hv).mono
  have hw' : w ∈ canon e.data true := (mem_canon h).mpr ((mem_canon h).mp hw).mono
  rw [C12_range_constructor e h v w hv' hw', C12_range_constructor e h w v hw' hv']
  constructor
  · intro r hr
    by_cases hb : (inForce e flags).multibook = true ∨ v.book = w.book
    · rw [if_pos hb] at hr
      by_cases hp : pos e.data v ≤ pos e.data w
      · rw [if_pos hp] at hr; cases hr
        exact ⟨⟨hv, hw, hp⟩, .inl ⟨rfl, rfl⟩, hb⟩
      · rw [if_neg hp] at hr; cases hr
        exact ⟨⟨hw, hv, by simp only; omega⟩, .inr ⟨rfl, rfl⟩, hb.imp id Eq.symm⟩
    · rw [if_neg hb] at hr; cases hr
  · have : ((inForce e flags).multibook = true ∨ v.book = w.book) ↔ ((inForce e flags).multibook = true ∨ w.book = v.book) :=
      ⟨Or.imp id Eq.symm, Or.imp id Eq.symm⟩
    simp only [this]
    split
    · congr 1
      by_cases h1 : pos e.data v ≤ pos e.data w <;> by_cases h2 : pos e.data w ≤ pos e.data v
      · have : v = w := (h.pos_inj ((mem_canon h).mp hv') ((mem_canon h).mp hw')).mp (by omega)
        subst this; rfl
      · rw [if_pos h1, if_neg h2]
      · rw [if_neg h1, if_pos h2]
      · omega
    · rfl

example : BibleRange.new dflt (some ⟨.Matt, 7, 2⟩) (some ⟨.Matt, 5, 10⟩) none = .ok exMatt ∧
    BibleRange.new dflt (some ⟨.Mal, 4, 5⟩) (some ⟨.Matt, 1, 3⟩) none = .error .multibookRange ∧
    BibleRange.new dflt (some ⟨.Mal, 4, 5⟩) (some ⟨.Matt, 1, 3⟩) (some .MULTIBOOK) = .ok exMulti := by decide +kernel
example : exMatt.start ∈ canon dflt.data true ∧ exMatt.stop ∈ canon dflt.data true := ⟨(exMatt_ok true).1, (exMatt_ok true).2⟩

/-! ## C14 -/

/-- C14, exactly what iteration yields: the verses of the range in reading order, except that of the verse 0s only the
one the range starts with is among them. -/
theorem C14_iteration (e : Env) (h : e.data.WF) (r : BibleRange) (hr : RangeOK e.data true r) :
    r.iter e = .ok ((if r.start.verse = 0 then [r.start] else []) ++ versesOf e.data false r) :=
  iter_eq h ((rangeOK_iff h).mp hr)

/-- C14 for ranges without verse 0s: iteration yields exactly the verses of the range in reading order. Missing: the full
property says so for the verses allowed by the flags also when these include verse 0s, which is false (below). -/
theorem C14_iteration_partial (e : Env) (h : e.data.WF) (r : BibleRange) (hr : RangeOK e.data false r) :
    r.iter e = .ok (versesOf e.data false r) ∧ (versesOf e.data false r).Nodup ∧
    (∀ v, v ∈ versesOf e.data false r ↔ v ∈ canon e.data false ∧ InRange e.data r v) ∧
    (versesOf e.data false r).head? = some r.start ∧ (versesOf e.data false r).getLast? = some r.stop := by
  have hr' := (rangeOK_iff h).mp hr
  have h0 : r.start.verse ≠ 0 := by
    have := hr'.s.2.2.1
    rw [firstNum_false] at this; omega
  refine ⟨?_, (h.nodup_canon false).filter _, ?_, ?_, ?_⟩
  · rw [iter_eq h ⟨hr'.s.mono, hr'.t.mono, hr'.le⟩, if_neg h0, List.nil_append]
  · intro v; rw [versesOf, List.mem_filter, decide_eq_true_iff]
  · have hg := ix_get h hr'.s
    have hle := (pos_le_ix h hr'.s hr'.t).mp hr'.le
    rw [versesOf_slice h hr'.s hr'.t, List.head?_take, if_neg (by omega), List.head?_drop, hg]
  · have hg := ix_get h hr'.t
    have hlen := (List.getElem?_eq_some_iff.mp hg).1
    have hle := (pos_le_ix h hr'.s hr'.t).mp hr'.le
    rw [versesOf_slice h hr'.s hr'.t, List.getLast?_eq_getElem?, List.length_take, List.length_drop, List.getElem?_take,
      if_pos (by omega), List.getElem?_drop, show ix e.data false r.start + (min (ix e.data false r.stop + 1 - ix e.data false r.start)
        ((canon e.data false).length - ix e.data false r.start) - 1) = ix e.data false r.stop by omega, hg]

/-- The full C14 is false: with `VERSE_0` set globally, iterating Ps 3:0-4:0 leaves out 4:0. -/
theorem C14_counterexample : RangeOK dfltAll.data true exPsa ∧ exPsa.stop ∈ versesOf dfltAll.data true exPsa ∧
    (∀ l, exPsa.iter dfltAll = .ok l → exPsa.stop ∉ l) := by
  refine ⟨exPsa_ok, ?_, ?_⟩
  · rw [versesOf, List.mem_filter, decide_eq_true_iff]
    exact ⟨exPsa_ok.2, exPsa_ok.3, Nat.le_refl _⟩
  · intro l hl
    rw [C14_iteration dfltAll defaultData_wf exPsa exPsa_ok] at hl
    cases hl
    rw [List.mem_append]
    rintro (hh | hh)
    · revert hh; decide
    · rw [versesOf, List.mem_filter] at hh
      have := hh.1
      revert this
      rw [mem_canon (show dfltAll.data.WF from defaultData_wf)]
      decide +kernel

example : RangeOK dflt.data false exMatt ∧ RangeOK dflt.data false exMulti := ⟨exMatt_ok false, exMulti_ok false⟩

/-! ## C15 -/

/-- C15: `verse_count()` is the number of verses between the endpoints; verse 0s are counted when allowed globally or
when an endpoint is one. -/
theorem C15_verse_count (e : Env) (h : e.data.WF) (r : BibleRange) (hr : RangeOK e.data true r) (v0 : Bool)
    (hv0 : v0 = (e.flags.verse0 || r.start.verse == 0 || r.stop.verse == 0)) :
    r.verseCount e = .ok (versesOf e.data v0 r).length :=
  verseCount_eq h ((rangeOK_iff h).mp hr) hv0

/-- C15: the count agrees with iteration when no verse 0s are involved. Missing: with verse 0s it does not (below). -/
theorem C15_count_is_iteration_partial (e : Env) (h : e.data.WF) (hg : e.flags.verse0 = false) (r : BibleRange)
    (hr : RangeOK e.data false r) : ∃ l, r.iter e = .ok l ∧ r.verseCount e = .ok l.length := by
  have hr' := (rangeOK_iff h).mp hr
  refine ⟨_, (C14_iteration_partial e h r hr).1, ?_⟩
  apply C15_verse_count e h r ((rangeOK_iff h).mpr ⟨hr'.s.mono, hr'.t.mono, hr'.le⟩)
  rw [hg, hr'.s.or_self, hr'.t.or_self]

theorem C15_counterexample : exPsa.verseCount dflt = .ok 10 ∧ (∃ l, exPsa.iter dflt = .ok l ∧ l.length = 9) := by
  refine ⟨by decide +kernel, ?_⟩
  have h1 : exPsa.iter dflt = .ok (exPsa.start :: (intRange 1 8).map fun n => ⟨.Psa, 3, n⟩) := by decide +kernel
  exact ⟨_, h1, by decide⟩

example : exMatt.verseCount dflt = .ok 75 ∧ exMulti.verseCount dflt = .ok 5 := by decide +kernel

/-! ## C16 -/

/-- C16: `chap_count()` and `book_count()` count the chapters and books with a verse in the range. -/
theorem C16_touched (e : Env) (h : e.data.WF) (r : BibleRange) (hr : RangeOK e.data true r) (v0 : Bool)
    (hv0 : v0 = (e.flags.verse0 || r.start.verse == 0 || r.stop.verse == 0)) :
    (∃ n : Nat, r.chapCount e false = .ok n ∧
      HasCard (fun k : BibleBook × Int => ∃ v ∈ versesOf e.data v0 r, (v.book, v.chap) = k) n) ∧
    (∃ n : Nat, r.bookCount e false = .ok n ∧
      HasCard (fun k : BibleBook => ∃ v ∈ versesOf e.data v0 r, v.book = k) n) :=
  ⟨chapCount_eq h ((rangeOK_iff h).mp hr) hv0, bookCount_eq h ((rangeOK_iff h).mp hr) hv0⟩

/-- C16: with `whole=True` they count the chapters and books lying entirely in the range, for ranges allowed by the global
flags. Missing: ranges with a verse 0 at an end when the global flags do not have `VERSE_0` (below). -/
theorem C16_whole_partial (e : Env) (h : e.data.WF) (r : BibleRange) (hr : RangeOK e.data e.flags.verse0 r) :
    (∃ n : Nat, r.chapCount e true = .ok n ∧
      HasCard (fun k : BibleBook × Int => (∃ v ∈ canon e.data e.flags.verse0, (v.book, v.chap) = k) ∧
        ∀ v ∈ canon e.data e.flags.verse0, (v.book, v.chap) = k → InRange e.data r v) n) ∧
    (∃ n : Nat, r.bookCount e true = .ok n ∧
      HasCard (fun k : BibleBook => (∃ v ∈ canon e.data e.flags.verse0, v.book = k) ∧
        ∀ v ∈ canon e.data e.flags.verse0, v.book = k → InRange e.data r v) n) :=
  ⟨chapCount_whole h ((rangeOK_iff h).mp hr), bookCount_whole h ((rangeOK_iff h).mp hr)⟩

/-- Ps 3:0-8 is the whole of Psalm 3, but the code counts no whole chapter unless `VERSE_0` is set globally. -/
theorem C16_counterexample : BibleRange.chapCount dflt ⟨⟨.Psa, 3, 0⟩, ⟨.Psa, 3, 8⟩⟩ true = .ok 0 ∧
    BibleRange.chapCount dfltAll ⟨⟨.Psa, 3, 0⟩, ⟨.Psa, 3, 8⟩⟩ true = .ok 1 := by decide +kernel

example : exMatt.chapCount dflt false = .ok 3 ∧ exMatt.chapCount dflt true = .ok 1 ∧ exMulti.bookCount dflt false = .ok 2 ∧
    exMulti.bookCount dflt true = .ok 0 := by decide +kernel
example : RangeOK dflt.data dflt.flags.verse0 exMatt ∧ RangeOK dfltAll.data dfltAll.flags.verse0 exPsa := ⟨exMatt_ok _, exPsa_ok⟩

/-! ## C19 -/

/-- C19: `split` terminates and partitions the range. The pieces are ranges in order, each starting right after the
previous one ends; together their verses are those of the range; each piece keeps to one book, one chapter, `n` verses, as
asked for; and two neighbouring pieces are apart only because they had to be. Verse 0s count when the flags in force
have `VERSE_0` or an endpoint is a verse 0. -/
theorem C19_split (e : Env) (h : e.data.WF) (r : BibleRange) (hr : RangeOK e.data true r) (byBook byChap : Bool)
    (num : Option Int) (hn : ∀ n, num = some n → 1 ≤ n) (flags : Option BibleFlag) (v0 : Bool)
    (hv0 : v0 = ((inForce e flags).verse0 || r.start.verse == 0 || r.stop.verse == 0)) (fuel : Nat)
    (hfuel : e.data.totalVerses < fuel) :
    ∃ l, r.splitRaw e byBook byChap num flags fuel = .ok l ∧ l ≠ [] ∧ (∀ x ∈ l, RangeOK e.data v0 x) ∧
      l.flatMap (versesOf e.data v0) = versesOf e.data v0 r ∧
      Neighbours (fun p q => ∃ j : Nat, (canon e.data v0)[j]? = some p.stop ∧ (canon e.data v0)[j + 1]? = some q.start) l ∧
      (byBook = true → ∀ x ∈ l, x.start.book = x.stop.book) ∧
      (byChap = true → ∀ x ∈ l, x.start.book = x.stop.book ∧ x.start.chap = x.stop.chap) ∧
      (∀ n, num = some n → ∀ x ∈ l, ((versesOf e.data v0 x).length : Int) ≤ n) ∧
      Neighbours (fun p q => (byBook = true ∧ p.stop.book ≠ q.start.book) ∨
        (byChap = true ∧ ¬ (p.stop.book = q.start.book ∧ p.stop.chap = q.start.chap)) ∨
        num = some ((versesOf e.data v0 p).length : Int)) l := by
  have hr' := (rangeOK_iff h).mp hr
  have hv0' : v0 = (r.splitFlags e flags).verse0 := by rw [splitFlags_verse0, eff_eq]; exact hv0
  obtain ⟨l, h1, h2, h3, h4⟩ := splitRaw_spec h hr' byBook byChap num hn flags hfuel hv0'
  have hrv : ROK e.data v0 r := by rw [hv0']; exact hr'.splitFlags flags
  refine ⟨l, h1, h2.ne_nil, fun x hx => (rangeOK_iff h).mpr (h2.pieces h hx).1, ?_, h2.consecutive,
    fun hb x hx => (h3 x hx).1 hb, fun hb x hx => (h3 x hx).2.1 hb, ?_, ?_⟩
  · rw [h2.flatMap h, versesOf_slice h hrv.s hrv.t]
  · intro n hnn x hx
    have hx' := (h2.pieces h hx).1
    rw [length_versesOf h hx'.s hx'.t]
    exact (h3 x hx).2.2 n hnn
  · refine neighbours_imp ?_ (neighbours_mem h4)
    rintro p q ⟨hh, hp, hq⟩
    have hp' := (h2.pieces h hp).1
    rcases hh with (hh | hh) | ⟨n, hh, hl⟩
    · exact .inl hh
    · exact .inr (.inl hh)
    · refine .inr (.inr ?_)
      rw [hh, length_versesOf h hp'.s hp'.t, hl]

/-- Outside the property: `num_verses=0` sends the code into an endless loop; no amount of fuel is enough for splitting
Matt 5:10-11 into pieces of no verses. -/
theorem C19_zero_diverges (fuel : Nat) :
    BibleRange.splitRaw dflt ⟨⟨.Matt, 5, 10⟩, ⟨.Matt, 5, 11⟩⟩ false false (some 0) none fuel = .error .diverges := by
  have step : ∀ fuel, BibleRange.chopNum dflt .none 0 ⟨.Matt, 5, 11⟩ fuel (some ⟨.Matt, 5, 10⟩) (some ⟨.Matt, 5, 9⟩) =
      .error .diverges := by
    intro fuel
    induction fuel with
    | zero => rfl
    | succ fuel ih =>
      rw [chopNum_succ]
      have h1 : (⟨.Matt, 5, 9⟩ : BibleVerse).less dflt.data ⟨.Matt, 5, 11⟩ = .ok true := by decide +kernel
      have h2 : BibleRange.new dflt (some ⟨.Matt, 5, 10⟩) (some ⟨.Matt, 5, 9⟩) (some .none) = .ok ⟨⟨.Matt, 5, 9⟩, ⟨.Matt, 5, 10⟩⟩ := by
        decide +kernel
      have h3 : BibleVerse.add dflt ⟨.Matt, 5, 9⟩ 1 (some .none) = .ok (some ⟨.Matt, 5, 10⟩) := by decide +kernel
      have h4 : BibleVerse.add dflt ⟨.Matt, 5, 9⟩ 0 (some .none) = .ok (some ⟨.Matt, 5, 9⟩) := by decide +kernel
      simp only [h1, if_true, h2, h3, h4, bind, Except.bind, ih]
  have h0 : BibleVerse.add dflt ⟨.Matt, 5, 10⟩ (0 - 1) (some .none) = .ok (some ⟨.Matt, 5, 9⟩) := by decide +kernel
  have hf : BibleRange.splitFlags dflt ⟨⟨.Matt, 5, 10⟩, ⟨.Matt, 5, 11⟩⟩ none = .none := by decide +kernel
  simp only [BibleRange.splitRaw, hf, BibleRange.splitEach, List.mapM_cons, List.mapM_nil, bind, Except.bind, pure, Except.pure,
    Bool.false_eq_true, if_false, h0, step]

example : exMatt.splitRaw dflt false true none none 5 =
    .ok [⟨⟨.Matt, 5, 10⟩, ⟨.Matt, 5, 48⟩⟩, ⟨⟨.Matt, 6, 1⟩, ⟨.Matt, 6, 34⟩⟩, ⟨⟨.Matt, 7, 1⟩, ⟨.Matt, 7, 2⟩⟩] ∧
  exMulti.splitRaw dflt true false (some 2) none 5 =
    .ok [⟨⟨.Mal, 4, 5⟩, ⟨.Mal, 4, 6⟩⟩, ⟨⟨.Matt, 1, 1⟩, ⟨.Matt, 1, 2⟩⟩, ⟨⟨.Matt, 1, 3⟩, ⟨.Matt, 1, 3⟩⟩] := by decide +kernel

/-! ## C07 -/

/-- C07: the difference of two verses is the signed number of places between them in the list of verses allowed by the
global flags (and by the verses themselves, if one is a verse 0); without `MULTIBOOK` in the global flags verses of
different books are refused. -/
theorem C07_verse_difference (e : Env) (h : e.data.WF) (v w : BibleVerse) (v0 : Bool)
    (hv0 : v0 = (e.flags.verse0 || v.verse == 0 || w.verse == 0)) (i j : Nat)
    (hi : (canon e.data v0)[i]? = some v) (hj : (canon e.data v0)[j]? = some w) :
    v.subVerse e w = if e.flags.multibook = true ∨ v.book = w.book then .ok ((i : Int) - (j : Int))
      else .error .multibookRange := by
  have hv := valid_of_get h hi
  have hw := valid_of_get h hj
  have ei := ix_of_get h hi
  have ej := ix_of_get h hj
  have hnew := C12_range_constructor e h v w ((mem_canon h).mpr hv.mono) ((mem_canon h).mpr hw.mono) none
  rw [show inForce e none = e.flags from rfl] at hnew
  unfold BibleVerse.subVerse
  rw [hnew]
  by_cases hb : e.flags.multibook = true ∨ v.book = w.book
  · rw [if_pos hb, if_pos hb]
    simp only [bind, Except.bind]
    by_cases hp : pos e.data v ≤ pos e.data w
    · rw [if_pos hp]
      have hix := (pos_le_ix h hv hw).mp hp
      rw [verseCount_eq h ⟨hv.mono, hw.mono, hp⟩ hv0, length_versesOf h hv hw, BibleVerse.less_eq (comparable_listed hv hw)]
      simp only [ei, ej, pure, Except.pure]
      congr 1
      by_cases hlt : v.lt e.data w = true
      · rw [if_pos hlt]; omega
      · rw [if_neg hlt]
        rw [lt_ix h hv hw] at hlt; omega
    · rw [if_neg hp]
      have hix := (pos_lt_ix h hw hv).mp (by omega)
      have hv0' : v0 = (e.flags.verse0 || w.verse == 0 || v.verse == 0) := by
        rw [hv0, Bool.or_assoc, Bool.or_comm (v.verse == 0), ← Bool.or_assoc]
      rw [verseCount_eq h (r := ⟨w, v⟩) ⟨hw.mono, hv.mono, by simp only; omega⟩ hv0', length_versesOf h hw hv,
        BibleVerse.less_eq (comparable_listed hv hw)]
      simp only [ei, ej, pure, Except.pure]
      congr 1
      rw [if_neg (by rw [lt_ix h hv hw]; omega)]
      omega
  · rw [if_neg hb, if_neg hb]; rfl

/-- C07: antisymmetric, and 0 only for equal verses. -/
theorem C07_antisymmetric (e : Env) (h : e.data.WF) (v w : BibleVerse) (hv : v ∈ canon e.data true)
    (hw : w ∈ canon e.data true) (hb : e.flags.multibook = true ∨ v.book = w.book) :
    ∃ n : Int, v.subVerse e w = .ok n ∧ w.subVerse e v = .ok (-n) ∧ (n = 0 ↔ v = w) := by
  rw [mem_canon h] at hv hw
  have hr : ∀ b c : Bool, Valid e.data (b || v.verse == 0 || c) v := by
    intro b c
    by_cases h0 : v.verse = 0
    · simpa [h0] using hv
    · exact hv.of_ne_zero h0
  have hr' : ∀ b : Bool, Valid e.data (b || w.verse == 0) w := fun b => hw.honour
  have gv := ix_get h (hr e.flags.verse0 (w.verse == 0))
  have gw := ix_get h (hr' (e.flags.verse0 || v.verse == 0))
  have h1 := C07_verse_difference e h v w _ rfl _ _ gv gw
  have h2 := C07_verse_difference e h w v _ (by rw [Bool.or_assoc, Bool.or_comm (v.verse == 0), ← Bool.or_assoc]) _ _ gw gv
  rw [if_pos hb] at h1
  rw [if_pos (hb.imp id Eq.symm)] at h2
  refine ⟨_, h1, ?_, ?_⟩
  · rw [h2]; congr 1; omega
  · rw [← ix_inj h (hr e.flags.verse0 (w.verse == 0)) (hr' (e.flags.verse0 || v.verse == 0))]; omega

/-- C07: adding the difference back, when `v` is not a verse 0 that only itself allows. Missing: that case, in which it is
false (below). -/
theorem C07_add_back_partial (e : Env) (h : e.data.WF) (v w : BibleVerse) (hv : v ∈ canon e.data true)
    (hw : w ∈ canon e.data true) (hb : e.flags.multibook = true ∨ v.book = w.book) (hle : pos e.data w ≤ pos e.data v)
    (h0 : v.verse = 0 → e.flags.verse0 = true ∨ w.verse = 0) :
    ∃ n : Int, v.subVerse e w = .ok n ∧ w.add e n none = .ok (some v) := by
  rw [mem_canon h] at hv hw
  let v0 := (e.flags.verse0 || w.verse == 0)
  have hv0 : v0 = (e.flags.verse0 || v.verse == 0 || w.verse == 0) := by
    by_cases hz : v.verse = 0
    · rcases h0 hz with h1 | h1 <;> simp [v0, h1]
    · simp [v0, beq_eq_false_iff_ne.mpr hz]
  have hw' : Valid e.data v0 w := hw.honour
  have hv' : Valid e.data v0 v := by
    by_cases hz : v.verse = 0
    · have : v0 = true := by rcases h0 hz with h1 | h1 <;> simp [v0, h1]
      rw [this]; exact hv
    · exact hv.of_ne_zero hz
  have gv := ix_get h hv'
  have gw := ix_get h hw'
  have hix := (pos_le_ix h hw' hv').mp hle
  refine ⟨_, by rw [C07_verse_difference e h v w v0 hv0 _ _ gv gw, if_pos hb], ?_⟩
  have := add_canon h (v := w) (flags := none) (v0 := v0) (by rw [eff_eq]; rfl) gw (ix e.data v0 v - ix e.data v0 w)
  rw [show ix e.data v0 w + (ix e.data v0 v - ix e.data v0 w) = ix e.data v0 v by omega, gv, Option.filter_some, if_pos (by
    rw [eff_eq]; simp only [inForce, Bool.or_eq_true, decide_eq_true_eq]; exact hb)] at this
  rw [← this]; congr 1; omega

/-- Ps 3:0 - Ps 2:12 is 1, but Ps 2:12 + 1 is Ps 3:1 when `VERSE_0` is not set globally. -/
theorem C07_counterexample : BibleVerse.subVerse dflt ⟨.Psa, 3, 0⟩ ⟨.Psa, 2, 12⟩ = .ok 1 ∧
    BibleVerse.add dflt ⟨.Psa, 2, 12⟩ 1 none = .ok (some ⟨.Psa, 3, 1⟩) := by decide +kernel

example : BibleVerse.subVerse dflt ⟨.Matt, 7, 2⟩ ⟨.Matt, 5, 10⟩ = .ok 74 ∧
    BibleVerse.subVerse dflt ⟨.Mal, 4, 6⟩ ⟨.Matt, 1, 1⟩ = .error .multibookRange ∧
    BibleVerse.subVerse dfltAll ⟨.Mal, 4, 6⟩ ⟨.Matt, 1, 1⟩ = .ok (-1) := by decide +kernel
example : pos dflt.data exMatt.start ≤ pos dflt.data exMatt.stop := (exMatt_ok true).3

/-! ## C09 for ranges -/

/-- C09 for ranges: both conversions act on the endpoints, never raise, and give existing ranges in order. -/
theorem C09_range_conversions (e : Env) (h : e.data.WF) (r : BibleRange) (hr : RangeOK e.data true r) :
    (∃ s t, r.start.verse0to1 e = .ok s ∧ r.stop.verse0to1 e = .ok t ∧ r.verse0to1 e = .ok ⟨s, t⟩ ∧ RangeOK e.data true ⟨s, t⟩) ∧
    (∃ s t, r.start.verse1to0 e = .ok s ∧ r.stop.verse1to0 e = .ok t ∧ r.verse1to0 e = .ok ⟨s, t⟩ ∧ RangeOK e.data true ⟨s, t⟩) := by
  obtain ⟨hs, ht, hp⟩ := hr
  have hle : r.start.le e.data r.stop = true := (h.le_pos ((mem_canon h).mp hs) ((mem_canon h).mp ht)).mpr hp
  have ks := C09_verse_conversions e h r.start hs
  have kt := C09_verse_conversions e h r.stop ht
  have is := C09_conversions_inverse e h r.start hs
  have it := C09_conversions_inverse e h r.stop ht
  have mono := conversions_monotone_le e h r.start r.stop hs ht hle
  have hall : (e.eff (some .ALL)).multibook = true := rfl
  have fin : ∀ s t : BibleVerse, s ∈ canon e.data true → t ∈ canon e.data true → s.le e.data t = true →
      BibleRange.new e (some s) (some t) (some .ALL) = .ok ⟨s, t⟩ ∧ RangeOK e.data true ⟨s, t⟩ := by
    intro s t a b c
    have a' := (mem_canon h).mp a
    have b' := (mem_canon h).mp b
    rw [h.le_pos a' b'] at c
    exact ⟨new_range_ok h a' b' c (.inl hall), a, b, c⟩
  constructor
  · refine ⟨_, _, ks.1, kt.1, ?_⟩
    have up : ∀ v, v ∈ canon e.data false → v ∈ canon e.data true := fun v hv => (mem_canon h).mpr ((mem_canon h).mp hv).mono
    obtain ⟨f1, f2⟩ := fin _ _ (up _ (is.1 _ ks.1).1) (up _ (it.1 _ kt.1).1) (mono.1 _ _ ks.1 kt.1)
    refine ⟨?_, f2⟩
    simp only [BibleRange.verse0to1, ks.1, kt.1, bind, Except.bind, f1]
  · refine ⟨_, _, ks.2, kt.2, ?_⟩
    obtain ⟨f1, f2⟩ := fin _ _ (is.2 _ ks.2).1 (it.2 _ kt.2).1 (mono.2 _ _ ks.2 kt.2)
    refine ⟨?_, f2⟩
    simp only [BibleRange.verse1to0, ks.2, kt.2, bind, Except.bind, f1]

example : exPsa.verse0to1 dflt = .ok ⟨⟨.Psa, 3, 1⟩, ⟨.Psa, 4, 1⟩⟩ ∧
    BibleRange.verse1to0 dflt ⟨⟨.Psa, 3, 1⟩, ⟨.Psa, 4, 1⟩⟩ = .ok exPsa := by decide +kernel

end Bibleref
