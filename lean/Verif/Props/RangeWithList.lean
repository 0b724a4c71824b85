import Verif.Props.RangeLists2

/-!
# Ranges compared with lists of ranges (C52)
-/

namespace Bibleref
open Spec

theorem covered_one {d : BibleData} {r : BibleRange} {v : BibleVerse} : Covered d ([[r]] : RangeList).flatten v ↔ InRange d r v := by
  simp [Covered]

theorem mem_one {r x : BibleRange} : x ∈ ([[r]] : RangeList).flatten ↔ x = r := by simp

/-- C52: a range is disjoint from a list exactly when it shares no verse with it. -/
theorem C52_is_disjoint (d : BibleData) (h : d.WF) (v0 : Bool) (r : BibleRange) (l : RangeList) (hr : RangeOK d v0 r)
    (hl : ∀ x ∈ l.flatten, RangeOK d v0 x) :
    Answers (r.isDisjointList d l) (¬ ∃ v ∈ canon d v0, InRange d r v ∧ Covered d l.flatten v) := by
  refine (C31_is_disjoint d h v0 l [[r]] hl (fun x hx => by rw [mem_one] at hx; subst hx; exact hr)).congr ?_
  simp only [covered_one]
  constructor <;> rintro hh ⟨v, hv, h1, h2⟩ <;> exact hh ⟨v, hv, h2, h1⟩

/-- C52: a range contains a list exactly when it has every verse of the list, under the global flags. -/
theorem C52_contains (e : Env) (h : e.data.WF) (r : BibleRange) (l : RangeList) (hr : Allowed e.data e.flags r)
    (hl : ∀ x ∈ l.flatten, Allowed e.data e.flags x) :
    ∃ b, r.containsList e l = .ok b ∧
      (b = true ↔ ∀ v ∈ canon e.data e.flags.verse0, Covered e.data l.flatten v → InRange e.data r v) := by
  obtain ⟨b, h1, h2⟩ := C31_contains e h none [[r]] l (fun x hx => by rw [mem_one] at hx; subst hx; exact hr) hl
  refine ⟨b, h1, h2.trans ?_⟩
  simp only [covered_one]
  rfl

/-- C52: a range surrounds a list exactly when every verse of the list is strictly inside it. -/
theorem C52_surrounds (d : BibleData) (h : d.WF) (v0 : Bool) (r : BibleRange) (l : RangeList) (hr : RangeOK d v0 r)
    (hl : ∀ x ∈ l.flatten, RangeOK d v0 x) :
    Answers (r.surroundsList d l)
      (∀ v ∈ canon d v0, Covered d l.flatten v → pos d r.start < pos d v ∧ pos d v < pos d r.stop) := by
  simp only [rangeOK_iff h] at hr hl
  refine ⟨l.flatten.all fun x => r.surroundsT d x, allM_ok _ _ _ fun x hx => BibleRange.surrounds_eq (hr.alike (hl x hx)), ?_⟩
  simp only [List.all_eq_true]
  constructor
  · rintro hh v _ ⟨x, hx, h1⟩
    have h2 := (surrounds_iff h hr (hl x hx)).mp (hh x hx)
    have := h1.1; have := h1.2
    omega
  · intro hh x hx
    have hxo := hl x hx
    have h1 := hh x.start ((mem_canon h).mpr hxo.s) ⟨x, hx, Nat.le_refl _, hxo.le⟩
    have h2 := hh x.stop ((mem_canon h).mpr hxo.t) ⟨x, hx, hxo.le, Nat.le_refl _⟩
    exact (surrounds_iff h hr hxo).mpr ⟨h1.1, h2.2⟩

/-- C52: a range is adjacent to a list exactly when it is disjoint from it and adjacent to one of its ranges, always under
the global flags. Missing: the flags passed by the caller, which are not used (`C52_adjacent_flags_counterexample`). -/
theorem C52_is_adjacent_partial (e : Env) (h : e.data.WF) (r : BibleRange) (l : RangeList) (hr : RangeOK e.data e.flags.verse0 r)
    (hl : ∀ x ∈ l.flatten, RangeOK e.data e.flags.verse0 x) :
    ∃ b, r.isAdjacentList e l = .ok b ∧
      (b = true ↔ (¬ ∃ v ∈ canon e.data e.flags.verse0, InRange e.data r v ∧ Covered e.data l.flatten v) ∧
        ∃ x ∈ l.flatten, r.isAdjacent e x none = .ok true) := by
  have key : ∀ L : List BibleRange, (∀ x ∈ L, RangeOK e.data e.flags.verse0 x) →
      ∃ b, L.anyM (fun x => r.isAdjacent e x none) = .ok b ∧ (b = true ↔ ∃ x ∈ L, r.isAdjacent e x none = .ok true) := by
    intro L
    induction L with
    | nil => intro _; exact ⟨false, rfl, by simp⟩
    | cons a L ih =>
      intro hL
      obtain ⟨b, h1, h2⟩ := ih (fun x hx => hL x (List.mem_cons_of_mem _ hx))
      obtain ⟨c, h3, _⟩ := C21_is_adjacent e h none e.flags.verse0 rfl r a hr (hL a List.mem_cons_self)
      rw [List.anyM_cons, h3]
      cases c with
      | true => exact ⟨true, rfl, by simp [h3]⟩
      | false =>
        refine ⟨b, h1, h2.trans ?_⟩
        simp [h3]
  unfold BibleRange.isAdjacentList
  have hd := C52_is_disjoint e.data h _ r l hr hl
  unfold BibleRange.isDisjointList at hd
  rcases hd.cases with ⟨hx, this⟩ | ⟨hx, hh⟩
  · rw [hx]
    obtain ⟨b, h1, h2⟩ := key l.flatten hl
    refine ⟨b, h1, h2.trans ?_⟩
    constructor
    · intro h3; exact ⟨this, h3⟩
    · intro h3; exact h3.2
  · rw [hx]
    refine ⟨false, rfl, ?_⟩
    constructor
    · intro h3; cases h3
    · intro h3; exact absurd h3.1 hh

/-- C52: the union of a range and a list has the verses of both. -/
theorem C52_union (e : Env) (h : e.data.WF) (flags : Option BibleFlag) (r : BibleRange) (l : RangeList)
    (hr : Allowed e.data (inForce e flags) r) (hl : ∀ x ∈ l.flatten, Allowed e.data (inForce e flags) x) :
    ∃ m, r.unionList e l flags = .ok m ∧ (∀ x ∈ m.flatten, Allowed e.data (inForce e flags) x) ∧
      Canonical e.data (inForce e flags) m.flatten ∧
      (∀ v ∈ canon e.data (inForce e flags).verse0, Covered e.data m.flatten v ↔ (InRange e.data r v ∨ Covered e.data l.flatten v)) := by
  obtain ⟨m, h1, h2, h3, h4, _⟩ := C27_union e h flags l [[r]] hl (fun x hx => by rw [mem_one] at hx; subst hx; exact hr)
  refine ⟨m, h1, h2, h4, fun v hv => ?_⟩
  rw [h3 v hv, covered_one]
  exact or_comm

/-- C52: the intersection of a range and a list has the verses they share. -/
theorem C52_intersection (e : Env) (h : e.data.WF) (flags : Option BibleFlag) (r : BibleRange) (l : RangeList)
    (hr : Allowed e.data (inForce e flags) r) (hl : ∀ x ∈ l.flatten, Allowed e.data (inForce e flags) x) :
    ∃ m, r.intersectionList e l flags = .ok m ∧ (∀ x ∈ m.flatten, Allowed e.data (inForce e flags) x) ∧
      Canonical e.data (inForce e flags) m.flatten ∧
      (∀ v ∈ canon e.data (inForce e flags).verse0, Covered e.data m.flatten v ↔ (InRange e.data r v ∧ Covered e.data l.flatten v)) := by
  obtain ⟨m, h1, h2, h3, h4, _⟩ := C28_intersection e h flags l [[r]] hl (fun x hx => by rw [mem_one] at hx; subst hx; exact hr)
  refine ⟨m, h1, h2, h4, fun v hv => ?_⟩
  rw [h3 v hv, covered_one]
  exact and_comm

/-- C52: the difference of a range and a list is right whenever it does not raise. Missing: it raises for every list that
overlaps the range without covering it (`C52_difference_counterexample`). -/
theorem C52_difference_partial (e : Env) (h : e.data.WF) (r : BibleRange) (l : RangeList) (hr : Allowed e.data e.flags r)
    (hl : ∀ x ∈ l.flatten, Allowed e.data e.flags x) (m : RangeList) (hm : r.differenceList e l = .ok m) :
    (∀ x ∈ m.flatten, x = r) ∧
    (∀ v ∈ canon e.data e.flags.verse0, Covered e.data m.flatten v ↔ (InRange e.data r v ∧ ¬ Covered e.data l.flatten v)) := by
  have hd := C52_is_disjoint e.data h e.flags.verse0 r l hr.1 (fun x hx => (hl x hx).1)
  obtain ⟨b, h1, h2⟩ := C31_contains e h none l [[r]] hl (fun x hx => by rw [mem_one] at hx; subst hx; exact hr)
  unfold BibleRange.differenceList at hm
  rcases hd.cases with ⟨hx, this⟩ | ⟨hx, hh⟩
  · rw [hx] at hm
    cases hm
    refine ⟨fun x hx => by simpa using hx, fun v hv => ?_⟩
    rw [covered_one]
    constructor
    · intro h3; exact ⟨h3, fun h4 => this ⟨v, hv, h3, h4⟩⟩
    · intro h3; exact h3.1
  · rw [hx] at hm
    simp only [bind, Except.bind, h1] at hm
    cases b with
    | false => cases hm
    | true =>
      cases hm
      refine ⟨fun x hx => by simp at hx, fun v hv => ?_⟩
      have h3 := h2.mp rfl v hv
      rw [covered_one] at h3
      constructor
      · rintro ⟨x, hx, _⟩; simp at hx
      · rintro ⟨h4, h5⟩; exact absurd (h3 h4) h5

/-- C52, exactly what happens: the range alone if the list has none of its verses, nothing if the list has all of them, and
`AttributeError` in between. -/
theorem C52_difference_exact (e : Env) (h : e.data.WF) (r : BibleRange) (l : RangeList) (hr : Allowed e.data e.flags r)
    (hl : ∀ x ∈ l.flatten, Allowed e.data e.flags x) :
    ((¬ ∃ v ∈ canon e.data e.flags.verse0, InRange e.data r v ∧ Covered e.data l.flatten v) → r.differenceList e l = .ok [[r]]) ∧
    ((∀ v ∈ canon e.data e.flags.verse0, InRange e.data r v → Covered e.data l.flatten v) → r.differenceList e l = .ok []) ∧
    ((∃ v ∈ canon e.data e.flags.verse0, InRange e.data r v ∧ Covered e.data l.flatten v) →
      (∃ v ∈ canon e.data e.flags.verse0, InRange e.data r v ∧ ¬ Covered e.data l.flatten v) →
      r.differenceList e l = .error .attributeError) := by
  have hd := C52_is_disjoint e.data h e.flags.verse0 r l hr.1 (fun x hx => (hl x hx).1)
  obtain ⟨b, h1, h2⟩ := C31_contains e h none l [[r]] hl (fun x hx => by rw [mem_one] at hx; subst hx; exact hr)
  simp only [covered_one] at h2
  unfold BibleRange.differenceList
  refine ⟨fun h3 => by rw [hd.yes.mpr h3]; rfl, fun h3 => ?_, fun h3 h4 => ?_⟩
  · have hne : r.isDisjointList e.data l = .ok false := by
      rw [hd.no]
      intro h4
      exact h4 ⟨r.start, hr.1.1, ⟨Nat.le_refl _, hr.1.ordered⟩, h3 r.start hr.1.1 ⟨Nat.le_refl _, hr.1.ordered⟩⟩
    simp only [bind, Except.bind, hne, h1]
    cases b with
    | true => rfl
    | false => exact absurd (h2.mpr h3) (by decide)
  · have hne : r.isDisjointList e.data l = .ok false := hd.no.mpr fun h5 => h5 h3
    simp only [bind, Except.bind, hne, h1]
    cases b with
    | false => rfl
    | true =>
      obtain ⟨v, hv, h5, h6⟩ := h4
      exact absurd (h2.mp rfl v hv h5) h6

/-- The full C52 is false: the flags of `is_adjacent` are not used for a list. -/
theorem C52_adjacent_flags_counterexample :
    (⟨⟨.Mal, 4, 5⟩, ⟨.Mal, 4, 6⟩⟩ : BibleRange).isAdjacent dflt ⟨⟨.Matt, 1, 1⟩, ⟨.Matt, 1, 3⟩⟩ (some .MULTIBOOK) = .ok true ∧
    (⟨⟨.Mal, 4, 5⟩, ⟨.Mal, 4, 6⟩⟩ : BibleRange).isAdjacentList dflt [[⟨⟨.Matt, 1, 1⟩, ⟨.Matt, 1, 3⟩⟩]] = .ok false := by decide +kernel

/-- The full C52 is false: the difference with an overlapping list raises. -/
theorem C52_difference_counterexample : exMatt.differenceList dflt [[⟨⟨.Matt, 6, 1⟩, ⟨.Matt, 6, 3⟩⟩]] = .error .attributeError := by
  decide +kernel

/-- The full C52 is false: the symmetric difference of a range with a list always raises. -/
theorem C52_sym_difference_counterexample (r : BibleRange) (l : RangeList) : r.symDifferenceList l = .error .typeError := rfl

example : exMatt.isDisjointList defaultData exList = .ok true ∧ exMatt.containsList dflt [[⟨⟨.Matt, 6, 1⟩, ⟨.Matt, 6, 3⟩⟩]] = .ok true ∧
    exMatt.surroundsList defaultData [[⟨⟨.Matt, 6, 1⟩, ⟨.Matt, 6, 3⟩⟩]] = .ok true ∧ exMatt.surroundsList defaultData [[exMatt]] = .ok false ∧
    exMatt.isAdjacentList dflt [[⟨⟨.Matt, 7, 3⟩, ⟨.Matt, 7, 3⟩⟩, ⟨⟨.Matt, 6, 1⟩, ⟨.Matt, 6, 3⟩⟩]] = .ok false ∧
    exMatt.isAdjacentList dflt [[⟨⟨.Matt, 8, 3⟩, ⟨.Matt, 8, 3⟩⟩, ⟨⟨.Matt, 7, 3⟩, ⟨.Matt, 7, 3⟩⟩]] = .ok true ∧
    exMatt.unionList dflt [[⟨⟨.Matt, 7, 3⟩, ⟨.Matt, 7, 4⟩⟩]] none = .ok [[⟨exMatt.start, ⟨.Matt, 7, 4⟩⟩]] ∧
    exMatt.intersectionList dflt [[⟨⟨.Matt, 7, 1⟩, ⟨.Matt, 7, 4⟩⟩]] none = .ok [[⟨⟨.Matt, 7, 1⟩, ⟨.Matt, 7, 2⟩⟩]] ∧
    exMatt.differenceList dflt exList = .ok [[exMatt]] ∧ exMatt.differenceList dflt [[⟨⟨.Matt, 1, 1⟩, ⟨.Matt, 10, 4⟩⟩]] = .ok [] := by
  decide +kernel

end Bibleref
