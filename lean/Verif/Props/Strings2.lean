import Verif.Lemmas.StrRegroup
import Verif.Props.Strings

/-!
# Strings of lists
-/

namespace Bibleref
open Spec

/-- **C42, every list is read back from its string**: the same ranges in the same order, and if the groups are preserved the same
groups. This is for lists as the library makes them, that is without empty groups, and for every option and anything parsed
before. The names of books must be recognisable as such. Verses 0 may be allowed by the flags given only if they are allowed
globally, and if start verses are forced the two must agree and no range may begin in a book that has several chapters and
begins with a verse 0 (see
`C42_counterexample_flags` and `C42_counterexample_force`). -/
theorem C42_list_partial (u : Uni) (e : Env) (h : e.data.WF) (hd : PlainSeps u e.data) (flags : Option BibleFlag) (o : StrOpts)
    (l : RangeList) (hl : l ≠ []) (hne : ∀ g ∈ l, g ≠ []) (hr : ∀ r ∈ l.flatten, Allowed e.data (inForce e flags) r)
    (hn : ∀ r ∈ l.flatten, NameReads u e.data o r.start.book ∧ NameReads u e.data o r.stop.book)
    (hg : (inForce e flags).verse0 = true → e.flags.verse0 = true)
    (hf : o.forceStartVerses = true → (inForce e flags).verse0 = e.flags.verse0 ∧
      ∀ r ∈ l.flatten, nChaps e.data r.start.book = 1 ∨ firstNum e.data (inForce e flags).verse0 r.start.book 1 = 1) (st : PState) :
    ∃ s l', RangeList.str u e o flags l = .ok s ∧ (RangeList.ofStr u e flags s st).1 = .ok l' ∧
      l'.flatten = l.flatten ∧ (o.preserveGroups = true → l' = l) := by
  rw [← eff_eq] at hg hf
  have hall : ∀ r ∈ l.flatten, Showable u e flags o r := by
    intro r hx
    have := hr r hx
    rw [allowed_iff h, ← eff_eq] at this
    exact ⟨this.1, this.2, (hn r hx).1, (hn r hx).2, fun hh => ⟨(hf hh).1, (hf hh).2 r hx⟩⟩
  obtain ⟨s, l', ps', h1, h2, h3, h4⟩ := list_reads h hd hg hl hne hall st
  exact ⟨s, l', h1, by rw [h2], h3, h4⟩

/-- No book of the default Bible begins with a verse 0. -/
theorem default_firstNum (v0 : Bool) (b : BibleBook) : firstNum defaultData v0 b 1 = 1 := by
  cases v0 <;> cases b <;> decide +kernel

/-- **C42 for the default Bible.** What is missing: the full title of Song of Songs without spaces (`C40_counterexample`), and
flags that disagree with the global ones on verses 0. -/
theorem C42_default_partial (u : Uni) (f : BibleFlag) (flags : Option BibleFlag) (o : StrOpts) (l : RangeList) (hl : l ≠ [])
    (hne : ∀ g ∈ l, g ≠ []) (hr : ∀ r ∈ l.flatten, Allowed defaultData (inForce ⟨defaultData, f⟩ flags) r)
    (ho : ¬ (o.nospace = true ∧ o.short = false ∧ ∃ r ∈ l.flatten, r.start.book = .Song ∨ r.stop.book = .Song))
    (hg : (inForce ⟨defaultData, f⟩ flags).verse0 = true → f.verse0 = true)
    (hf : o.forceStartVerses = true → (inForce ⟨defaultData, f⟩ flags).verse0 = f.verse0) (st : PState) :
    ∃ s l', RangeList.str u ⟨defaultData, f⟩ o flags l = .ok s ∧ (RangeList.ofStr u ⟨defaultData, f⟩ flags s st).1 = .ok l' ∧
      l'.flatten = l.flatten ∧ (o.preserveGroups = true → l' = l) :=
  C42_list_partial u ⟨defaultData, f⟩ defaultData_wf (default_plainSeps u) flags o l hl hne hr
    (fun r hx => ⟨default_nameReads u o _ fun ⟨h1, h2, h3⟩ => ho ⟨h1, h2, r, hx, .inl h3⟩,
      default_nameReads u o _ fun ⟨h1, h2, h3⟩ => ho ⟨h1, h2, r, hx, .inr h3⟩⟩) hg
    (fun hh => ⟨hf hh, fun r _ => .inr (default_firstNum _ r.start.book)⟩) st

/-- With `VERSE_0` set globally but not in the flags given, and start verses forced, all of Psalm 3 without the superscription
is shown as "Psalms 3:1", which is read as that verse only. With `flags=VERSE_0` given but not set globally, showing the whole
of Psalm 3 raises. -/
theorem C42_counterexample_flags :
    (Allowed defaultData (inForce ⟨defaultData, .VERSE_0⟩ (some .MULTIBOOK)) ⟨⟨.Psa, 3, 1⟩, ⟨.Psa, 3, 8⟩⟩ ∧
    RangeList.str exampleUni ⟨defaultData, .VERSE_0⟩ { StrOpts.default with forceStartVerses := true } (some .MULTIBOOK)
      [[⟨⟨.Psa, 3, 1⟩, ⟨.Psa, 3, 8⟩⟩]] = .ok "Psalms 3:1".toList ∧
    (RangeList.ofStr exampleUni ⟨defaultData, .VERSE_0⟩ (some .MULTIBOOK) "Psalms 3:1".toList PState.init).1 =
      .ok [[⟨⟨.Psa, 3, 1⟩, ⟨.Psa, 3, 1⟩⟩]]) ∧
    Allowed defaultData (inForce dflt (some .VERSE_0)) ⟨⟨.Psa, 3, 0⟩, ⟨.Psa, 3, 8⟩⟩ ∧
    RangeList.str exampleUni dflt .default (some .VERSE_0) [[⟨⟨.Psa, 3, 0⟩, ⟨.Psa, 3, 8⟩⟩]] = .error .invalidReference := by
  refine ⟨⟨allowedBy defaultData_wf (by decide +kernel) (by decide +kernel) (by decide +kernel) (.inr rfl),
    by decide +kernel, by decide +kernel⟩,
    allowedBy defaultData_wf (by decide +kernel) (by decide +kernel) (by decide +kernel) (.inr rfl), by decide +kernel⟩

/-- The default Bible with a verse 0 before Mark 1. -/
def markZero : BibleData := { defaultData with verse0s := fun b => if b = .Mark then [1] else [] }

/-- If Mark began with a verse 0, then with start verses forced the range from there to Luke 1:5 would be shown as
"Mark 0-Luke 1:5", which cannot be read. -/
theorem C42_counterexample_force : markZero.WF ∧
    Allowed markZero (inForce ⟨markZero, .ALL⟩ none) ⟨⟨.Mark, 1, 0⟩, ⟨.Luke, 1, 5⟩⟩ ∧
    RangeList.str exampleUni ⟨markZero, .ALL⟩ { StrOpts.default with forceStartVerses := true } none
      [[⟨⟨.Mark, 1, 0⟩, ⟨.Luke, 1, 5⟩⟩]] = .ok "Mark 0-Luke 1:5".toList ∧
    (RangeList.ofStr exampleUni ⟨markZero, .ALL⟩ none "Mark 0-Luke 1:5".toList PState.init).1 = .error .parsing := by
  have hw : markZero.WF := ⟨defaultData_wf.nodup, defaultData_wf.chaps⟩
  exact ⟨hw, allowedBy hw (by decide +kernel) (by decide +kernel) (by decide +kernel) (.inl rfl), by decide +kernel, by decide +kernel⟩

/-! ## Regrouping -/

/-- **C43, regrouping** keeps the ranges and their order and is idempotent. -/
theorem C43_keeps (e : Env) (h : e.data.WF) (flags : Option BibleFlag) (l : RangeList)
    (hr : ∀ r ∈ l.flatten, Allowed e.data (inForce e flags) r) (hg : (inForce e flags).verse0 = true → e.flags.verse0 = true) :
    ∃ m, RangeList.regroup e flags l.flatten = .ok m ∧ m.flatten = l.flatten ∧ (∀ g ∈ m, g ≠ []) ∧
      RangeList.regroup e flags m.flatten = .ok m := by
  rw [← eff_eq] at hg
  have hall : ∀ r ∈ l.flatten, ROK e.data true r := by
    intro r hx
    have := ((allowed_iff h).1 (hr r hx)).1
    exact ⟨this.s.mono, this.t.mono, this.le⟩
  obtain ⟨m, h1, h2, h3⟩ := RangeList.regroup_ok h hg hall
  exact ⟨m, h1, h2, h3, by rw [h2]; exact h1⟩

/-- **C43, regrouping agrees with the grouping done by `str`**: after it, the string that preserves the groups is the string of
the list, grouped in any way, that does not. What is missing: flags that disagree with the global ones on verses 0, where it is
false (`C43_counterexample_flags`). -/
theorem C43_strings_partial (u : Uni) (e : Env) (h : e.data.WF) (flags : Option BibleFlag) (l m : RangeList)
    (hr : ∀ r ∈ l.flatten, Allowed e.data (inForce e flags) r) (hg : (inForce e flags).verse0 = e.flags.verse0)
    (hm : RangeList.regroup e flags l.flatten = .ok m) (o : StrOpts) :
    ∃ s, RangeList.str u e { o with preserveGroups := true } flags m = .ok s ∧
      RangeList.str u e { o with preserveGroups := false } flags m = .ok s ∧
      RangeList.str u e { o with preserveGroups := false } flags l = .ok s := by
  rw [← eff_eq] at hg
  have hall : ∀ r ∈ l.flatten, ROK e.data (e.eff flags).verse0 r := by
    intro r hx
    have := ((allowed_iff h).1 (hr r hx)).1
    rw [← eff_eq] at this
    exact this
  obtain ⟨s, h1, h2⟩ := regroup_str (u := u) (o := { o with preserveGroups := true }) (o' := { o with preserveGroups := false })
    h hg rfl rfl hall hm
  have hf := (RangeList.regroup_flatten hm).1
  refine ⟨s, h1, ?_, h2⟩
  have h3 : ∀ x : RangeList, RangeList.str u e { o with preserveGroups := false } flags x =
    (RangeList.strGroup u e { o with preserveGroups := false } flags RangeList.StrState.init x.flatten).map (·.1) :=
      fun x => strGroups_flat rfl x _
  rw [h3, hf, ← h3]
  exact h2

/-- With `VERSE_0` set globally but not in the flags given, regrouping leaves Psalm 5 and Psalm 5:3 in one group, but `str` does
not. -/
theorem C43_counterexample_flags :
    let l : RangeList := [[⟨⟨.Psa, 5, 1⟩, ⟨.Psa, 5, 12⟩⟩, ⟨⟨.Psa, 5, 3⟩, ⟨.Psa, 5, 3⟩⟩]]
    (∀ r ∈ l.flatten, Allowed defaultData (inForce ⟨defaultData, .VERSE_0⟩ (some .MULTIBOOK)) r) ∧
    RangeList.regroup ⟨defaultData, .VERSE_0⟩ (some .MULTIBOOK) l.flatten = .ok l ∧
    RangeList.str exampleUni ⟨defaultData, .VERSE_0⟩ .default (some .MULTIBOOK) l = .ok "Psalms 5, 5:3".toList ∧
    RangeList.str exampleUni ⟨defaultData, .VERSE_0⟩ { StrOpts.default with preserveGroups := false } (some .MULTIBOOK) l =
      .ok "Psalms 5; 5:3".toList := by
  refine ⟨?_, by decide +kernel, by decide +kernel, by decide +kernel⟩
  intro r hr
  refine allowedBy defaultData_wf ?_ ?_ ?_ ?_ <;> revert r <;> decide +kernel

/-- Groups and options of a non-trivial list meet the conditions. -/
def exampleList : RangeList := [[⟨⟨.Mark, 2, 1⟩, ⟨.Mark, 2, 28⟩⟩, ⟨⟨.Mark, 3, 1⟩, ⟨.Mark, 4, 2⟩⟩],
  [⟨⟨.Mark, 4, 5⟩, ⟨.Mark, 4, 5⟩⟩, ⟨⟨.Mark, 4, 7⟩, ⟨.Mark, 4, 9⟩⟩, ⟨⟨.IIIJn, 1, 8⟩, ⟨.IIIJn, 1, 8⟩⟩],
  [⟨⟨.Gen, 1, 1⟩, ⟨.Gen, 50, 26⟩⟩]]

theorem exampleList_allowed : ∀ r ∈ exampleList.flatten, Allowed defaultData (inForce dflt none) r := by
  intro r hr
  refine allowedBy defaultData_wf ?_ ?_ ?_ ?_ <;> revert r <;> decide +kernel

example : exampleList ≠ [] ∧ (∀ g ∈ exampleList, g ≠ []) ∧
    RangeList.str exampleUni dflt .default none exampleList =
      .ok "Mark 2, 3:1-4:2; 4:5-5, 7-9, 3 John 8-8; Genesis-Genesis".toList ∧
    RangeList.str exampleUni dflt ⟨false, false, false, false, true⟩ none exampleList =
      .ok "Mark 2; 3:1-4:2, 5, 7-9; 3 John 8; Genesis".toList := by
  refine ⟨by decide, by decide, by decide +kernel, by decide +kernel⟩

example : RangeList.regroup dflt none exampleList.flatten = .ok [[⟨⟨.Mark, 2, 1⟩, ⟨.Mark, 2, 28⟩⟩],
    [⟨⟨.Mark, 3, 1⟩, ⟨.Mark, 4, 2⟩⟩, ⟨⟨.Mark, 4, 5⟩, ⟨.Mark, 4, 5⟩⟩, ⟨⟨.Mark, 4, 7⟩, ⟨.Mark, 4, 9⟩⟩],
    [⟨⟨.IIIJn, 1, 8⟩, ⟨.IIIJn, 1, 8⟩⟩], [⟨⟨.Gen, 1, 1⟩, ⟨.Gen, 50, 26⟩⟩]] := by decide +kernel

end Bibleref
