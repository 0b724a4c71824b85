import Verif.Props.Arguments
import Verif.Props.DifferenceBounds
import Verif.Props.Steps

/-!
# Arguments of any type (C60): adjacency, differences, updates and subtraction
-/

namespace Bibleref
open Spec

theorem operand_single {e : Env} {x : PyVal} {y : BibleRange} (hx : refRanges x = some [y]) (hl : ∀ l, x ≠ .list l) :
    BibleRange.operand e x = .ok y := by
  rcases operand_range e x _ hx with ⟨l, rfl, _⟩ | ⟨z, hz, h, _⟩
  · exact absurd rfl (hl l)
  · rw [h, show y = z by simpa using hz]

/-- C60: `is_adjacent` of a range with a verse or a range says whether they have no verse in common and none is between them, and
they are in the same book unless `MULTIBOOK` is in force. -/
theorem C60_range_adjacent (e : Env) (h : e.data.WF) (flags : Option BibleFlag) (r y : BibleRange) (x : PyVal)
    (hx : refRanges x = some [y]) (hl : ∀ l, x ≠ .list l) (hr : RangeOK e.data (inForce e flags).verse0 r)
    (hy : RangeOK e.data (inForce e flags).verse0 y) :
    ∃ b, r.isAdjacentV e x flags = .ok b ∧
      (b = true ↔ (¬ ∃ v ∈ canon e.data (inForce e flags).verse0, InRange e.data r v ∧ InRange e.data y v) ∧
        (¬ ∃ v ∈ canon e.data (inForce e flags).verse0, (pos e.data r.stop < pos e.data v ∧ pos e.data v < pos e.data y.start) ∨
          (pos e.data y.stop < pos e.data v ∧ pos e.data v < pos e.data r.start)) ∧
        ((inForce e flags).multibook = true ∨ (pos e.data r.stop < pos e.data y.start ∧ r.stop.book = y.start.book) ∨
          (pos e.data y.stop < pos e.data r.start ∧ y.stop.book = r.start.book))) := by
  obtain ⟨b, h1, _, h2⟩ := C21_is_adjacent e h flags _ rfl r y hr hy
  refine ⟨b, ?_, h2⟩
  rw [← h1]
  cases x <;> first | exact absurd rfl (hl _) | simp only [BibleRange.isAdjacentV, operand_single hx hl, bind, Except.bind]

/-- C60: the difference of a range and a verse or range, unless it raises, is in order and has the verses of the range that are not
in the argument; it does not raise if there is room (see `C24_difference_partial`). Missing: lists (C52). -/
theorem C60_range_difference_partial (e : Env) (h : e.data.WF) (flags : Option BibleFlag) (r y : BibleRange) (x : PyVal)
    (hx : refRanges x = some [y]) (hl : ∀ l, x ≠ .list l) (hr : Allowed e.data (inForce e flags) r)
    (hy : Allowed e.data (inForce e flags) y) :
    (∀ m, r.differenceV e x flags = .ok m → (∀ z ∈ m.flatten, Allowed e.data (inForce e flags) z) ∧
      Neighbours (fun p q => pos e.data p.stop < pos e.data q.start) m.flatten ∧
      ∀ v ∈ canon e.data (inForce e flags).verse0, Covered e.data m.flatten v ↔ InRange e.data r v ∧ ¬ InRange e.data y v) ∧
    (((inForce e flags).multibook = true → e.flags.multibook = true) →
      ((∃ v ∈ canon e.data (inForce e flags).verse0, InRange e.data r v ∧ InRange e.data y v) →
        (∃ v ∈ canon e.data (inForce e flags).verse0, InRange e.data r v ∧ ¬ InRange e.data y v) →
        HasRoom e.data (inForce e flags) y.start y.stop) → ∃ m, r.differenceV e x flags = .ok m) := by
  have hV : r.differenceV e x flags = (r.difference e y flags).map RangeList.ofRanges := by
    cases x <;> first
      | exact absurd rfl (hl _)
      | (simp only [BibleRange.differenceV, operand_single hx hl, bind, Except.bind]
         cases r.difference e y flags <;> rfl)
  rw [hV]
  constructor
  · intro m hm
    cases hd : r.difference e y flags with
    | error _ => rw [hd] at hm; cases hm
    | ok l =>
      rw [hd] at hm
      cases hm
      obtain ⟨h1, _, h2, h3⟩ := C24_right_if_ok e h flags r y hr hy l hd
      rw [RangeList.ofRanges_flatten]
      exact ⟨h1, h2, h3⟩
  · intro hm hroom
    obtain ⟨l, hd, _⟩ := C24_difference_partial e h flags r y hr hy hm hroom
    exact ⟨_, by rw [hd]; rfl⟩

/-- C60: the symmetric difference of a range and a verse or range, when the flags in force are the global ones and there is room
around the common part, has the verses in exactly one of them. Missing: as for C25; lists (C52). -/
theorem C60_range_sym_difference_partial (e : Env) (h : e.data.WF) (flags : Option BibleFlag) (hf : inForce e flags = e.flags)
    (r y : BibleRange) (x : PyVal) (hx : refRanges x = some [y]) (hl : ∀ l, x ≠ .list l) (hr : Allowed e.data e.flags r)
    (hy : Allowed e.data e.flags y)
    (hroom : (∃ v ∈ canon e.data e.flags.verse0, InRange e.data r v ∧ InRange e.data y v) → r ≠ y →
      ∀ s t, (s = r.start ∨ s = y.start) → pos e.data r.start ≤ pos e.data s → pos e.data y.start ≤ pos e.data s →
        (t = r.stop ∨ t = y.stop) → pos e.data t ≤ pos e.data r.stop → pos e.data t ≤ pos e.data y.stop →
        HasRoom e.data e.flags s t) :
    ∃ m, r.symDifferenceV e x flags = .ok m ∧ (∀ z ∈ m.flatten, Allowed e.data e.flags z) ∧
      Neighbours (fun p q => pos e.data p.stop < pos e.data q.start) m.flatten ∧
      (∀ v ∈ canon e.data e.flags.verse0, Covered e.data m.flatten v ↔
        (InRange e.data r v ∧ ¬ InRange e.data y v) ∨ (InRange e.data y v ∧ ¬ InRange e.data r v)) := by
  obtain ⟨l, h1, h2, _, h3, h4⟩ := C25_sym_difference_partial e h flags hf r y hr hy hroom
  refine ⟨RangeList.ofRanges l, ?_, ?_⟩
  · cases x <;> first | exact absurd rfl (hl _) | (simp only [BibleRange.symDifferenceV, operand_single hx hl, bind, Except.bind, h1]; rfl)
  · rw [RangeList.ofRanges_flatten]; exact ⟨h2, h3, h4⟩

/-- C60: `union_update` with any Bible reference makes the list the consolidated list of the verses in either. -/
theorem C60_union_update (e : Env) (h : e.data.WF) (flags : Option BibleFlag) (l : RangeList) (x : PyVal) (rs : List BibleRange)
    (hx : refRanges x = some rs) (hl : ∀ y ∈ l.flatten, Allowed e.data (inForce e flags) y)
    (hrs : ∀ y ∈ rs, Allowed e.data (inForce e flags) y) :
    ∃ m, RangeList.unionUpdateV e l x flags = .ok m ∧ Canonical e.data (inForce e flags) m.flatten ∧
      ∀ v ∈ canon e.data (inForce e flags).verse0, Covered e.data m.flatten v ↔ Covered e.data l.flatten v ∨ Covered e.data rs v := by
  obtain ⟨m, hm, rfl, _⟩ := operand_list e x rs hx
  obtain ⟨k, h1, _, h3, h4, _⟩ := C26_merge e h flags (Groups.extend l m.flatten) (by
    rw [unionUpdate_flatten]
    intro y hy
    rcases List.mem_append.mp hy with hy | hy
    · exact hl y hy
    · exact hrs y hy)
  refine ⟨k, by simp only [RangeList.unionUpdateV, hm, bind, Except.bind]; exact h1, h4, fun v hv => ?_⟩
  rw [h3 v hv, unionUpdate_flatten, covered_append]

/-- C60: the difference of a list and any Bible reference that is consolidated, under the conditions of C29. -/
theorem C60_list_difference_partial (e : Env) (h : e.data.WF) (flags : Option BibleFlag)
    (hm : (inForce e flags).multibook = true → e.flags.multibook = true)
    (hg : (inForce e flags).verse0 = true → e.flags.verse0 = true) (l : RangeList) (x : PyVal) (rs : List BibleRange)
    (hx : refRanges x = some rs) (hl : ∀ r ∈ l.flatten, Allowed e.data (inForce e flags) r)
    (hrs : ∀ r ∈ rs, Allowed e.data (inForce e flags) r) (fuel : Nat) (m : RangeList)
    (hok : RangeList.differenceV e l x flags fuel = .ok m) :
    (∀ v ∈ canon e.data (inForce e flags).verse0, Covered e.data l.flatten v → ¬ Covered e.data rs v → Covered e.data m.flatten v) ∧
    (∀ v ∈ canon e.data (inForce e flags).verse0, Covered e.data m.flatten v → Covered e.data l.flatten v) ∧
    (Canonical e.data (inForce e flags) rs →
      (∀ r ∈ l.flatten, ∀ y ∈ rs, ∃ v ∈ canon e.data (inForce e flags).verse0, InRange e.data r v ∧ ¬ InRange e.data y v) →
      ∀ v ∈ canon e.data (inForce e flags).verse0, Covered e.data m.flatten v ↔ Covered e.data l.flatten v ∧ ¬ Covered e.data rs v) := by
  obtain ⟨k, hk, rfl, _⟩ := operand_list e x rs hx
  simp only [RangeList.differenceV, hk, bind, Except.bind] at hok
  have hb := ((C29_bounds e h flags hm hg l k hl hrs).2 fuel m hok).2.2
  refine ⟨fun v hv a b => (hb v hv).1 a b, fun v hv a => (hb v hv).2.1 a, fun cb hout v hv => ?_⟩
  rw [C29_exact_if_ok e h flags hm hg l k hl hrs cb fuel m hok v hv]
  constructor
  · rintro ⟨r, hr, h1, h2⟩
    refine ⟨⟨r, hr, h1⟩, h2.resolve_right ?_⟩
    rintro ⟨y, hy, hw⟩
    obtain ⟨w, hw1, hw2, hw3⟩ := hout r hr y hy
    exact hw3 (hw w hw1 hw2)
  · rintro ⟨⟨r, hr, h1⟩, h2⟩
    exact ⟨r, hr, h1, .inl h2⟩

/-- C60: the symmetric difference of a list and any Bible reference, unless it raises, has the verses in exactly one of them if no
range of their union lies wholly in both. -/
theorem C60_list_sym_difference_partial (e : Env) (h : e.data.WF) (flags : Option BibleFlag)
    (hm : (inForce e flags).multibook = true → e.flags.multibook = true)
    (hg : (inForce e flags).verse0 = true → e.flags.verse0 = true) (l : RangeList) (x : PyVal) (rs : List BibleRange)
    (hx : refRanges x = some rs) (hl : ∀ r ∈ l.flatten, Allowed e.data (inForce e flags) r)
    (hrs : ∀ r ∈ rs, Allowed e.data (inForce e flags) r) (fuel : Nat) (m : RangeList)
    (hok : RangeList.symDifferenceV e l x flags fuel = .ok m) :
    Canonical e.data e.flags m.flatten ∧
    (∀ v ∈ canon e.data (inForce e flags).verse0, Covered e.data m.flatten v → Covered e.data l.flatten v ∨ Covered e.data rs v) ∧
    (∀ v ∈ canon e.data (inForce e flags).verse0, (Covered e.data l.flatten v ∧ ¬ Covered e.data rs v) ∨
      (Covered e.data rs v ∧ ¬ Covered e.data l.flatten v) → Covered e.data m.flatten v) ∧
    ((∀ u, RangeList.unionV e l x flags = .ok u → ∀ r ∈ u.flatten, ∃ v ∈ canon e.data (inForce e flags).verse0,
        InRange e.data r v ∧ ¬ (Covered e.data l.flatten v ∧ Covered e.data rs v)) →
      ∀ v ∈ canon e.data (inForce e flags).verse0, Covered e.data m.flatten v →
        (Covered e.data l.flatten v ∧ ¬ Covered e.data rs v) ∨ (Covered e.data rs v ∧ ¬ Covered e.data l.flatten v)) := by
  obtain ⟨k, hk, rfl, _⟩ := operand_list e x rs hx
  simp only [RangeList.symDifferenceV, hk, bind, Except.bind] at hok
  obtain ⟨_, u, hu, hall⟩ := C30_exact_if_ok e h flags hm hg l k hl hrs
  obtain ⟨_, h2, h3⟩ := hall fuel m hok
  obtain ⟨u', hu', _, hcov, _⟩ := C27_union e h flags l k hl hrs
  rw [hu] at hu'; cases hu'
  refine ⟨h2, fun v hv hc => ?_, fun v hv hc => (h3 v hv).mpr (.inl hc), fun hout v hv hc => ?_⟩
  · rcases (h3 v hv).mp hc with (⟨a, _⟩ | ⟨a, _⟩) | ⟨r, hr, a, _⟩
    · exact .inl a
    · exact .inr a
    · exact (hcov v hv).mp ⟨r, hr, a⟩
  · rcases (h3 v hv).mp hc with a | ⟨r, hr, _, a⟩
    · exact a
    · obtain ⟨w, hw, b, c⟩ := hout u (by simp only [RangeList.unionV, hk, bind, Except.bind, hu]) r hr
      exact absurd (a w hw b) c

/-- C60: what is subtracted from a verse: an integer moves it back among the verses counted (see `C05_subtract_exact`), a verse
gives the distance. -/
theorem C60_verse_subtract (e : Env) (h : e.data.WF) (flags : Option BibleFlag) (v : BibleVerse) :
    (∀ i n : Nat, (counted e flags v)[i]? = some v → v.subtractV e (.int n) flags =
      if n ≤ i then
        (match (counted e flags v)[i - n]? with
          | some w => if w.verse = 0 ∧ (inForce e flags).verse0 = false ∧ v.verse ≠ 0 then .error .invalidReference
            else .ok (.verse (some w))
          | none => .ok (.verse none))
      else .ok (.verse none)) ∧
    (∀ (w : BibleVerse) (v0 : Bool), v0 = (e.flags.verse0 || v.verse == 0 || w.verse == 0) → ∀ i j : Nat,
      (canon e.data v0)[i]? = some v → (canon e.data v0)[j]? = some w →
      v.subtractV e (.verse w) flags = if e.flags.multibook = true ∨ v.book = w.book then .ok (.number ((i : Int) - (j : Int)))
        else .error .multibookRange) := by
  constructor
  · intro i n hi
    simp only [BibleVerse.subtractV, C05_subtract_exact e h flags v i n hi, bind, Except.bind]
    by_cases hn : n ≤ i
    · rw [if_pos hn, if_pos hn]
      cases (counted e flags v)[i - n]? with
      | none => rfl
      | some w =>
        simp only
        by_cases hw : w.verse = 0 ∧ (inForce e flags).verse0 = false ∧ v.verse ≠ 0
        · rw [if_pos hw, if_pos hw]
        · rw [if_neg hw, if_neg hw]; rfl
    · rw [if_neg hn, if_neg hn]; rfl
  · intro w v0 hv0 i j hi hj
    simp only [BibleVerse.subtractV, C07_verse_difference e h v w v0 hv0 i j hi hj, bind, Except.bind]
    by_cases hc : e.flags.multibook = true ∨ v.book = w.book
    · rw [if_pos hc, if_pos hc]; rfl
    · rw [if_neg hc, if_neg hc]

example : refRanges (.verse ⟨.Matt, 6, 5⟩) = some [⟨⟨.Matt, 6, 5⟩, ⟨.Matt, 6, 5⟩⟩] ∧
    (⟨⟨.Matt, 6, 3⟩, ⟨.Matt, 6, 7⟩⟩ : BibleRange).differenceV dflt (.verse ⟨.Matt, 6, 5⟩) none =
      .ok [[⟨⟨.Matt, 6, 3⟩, ⟨.Matt, 6, 4⟩⟩, ⟨⟨.Matt, 6, 6⟩, ⟨.Matt, 6, 7⟩⟩]] ∧
    (⟨⟨.Matt, 6, 3⟩, ⟨.Matt, 6, 7⟩⟩ : BibleRange).symDifferenceV dflt (.range ⟨⟨.Matt, 6, 5⟩, ⟨.Matt, 6, 9⟩⟩) none =
      .ok [[⟨⟨.Matt, 6, 3⟩, ⟨.Matt, 6, 4⟩⟩, ⟨⟨.Matt, 6, 8⟩, ⟨.Matt, 6, 9⟩⟩]] ∧
    (⟨⟨.Matt, 6, 3⟩, ⟨.Matt, 6, 7⟩⟩ : BibleRange).isAdjacentV dflt (.verse ⟨.Matt, 6, 8⟩) none = .ok true ∧
    RangeList.unionUpdateV dflt [[⟨⟨.Matt, 6, 3⟩, ⟨.Matt, 6, 7⟩⟩]] (.verse ⟨.Matt, 6, 8⟩) none =
      .ok [[⟨⟨.Matt, 6, 3⟩, ⟨.Matt, 6, 8⟩⟩]] ∧
    RangeList.differenceV dflt [[⟨⟨.Matt, 6, 3⟩, ⟨.Matt, 6, 7⟩⟩]] (.verse ⟨.Matt, 6, 5⟩) none 10 =
      .ok [[⟨⟨.Matt, 6, 3⟩, ⟨.Matt, 6, 4⟩⟩, ⟨⟨.Matt, 6, 6⟩, ⟨.Matt, 6, 7⟩⟩]] ∧
    RangeList.symDifferenceV dflt [[⟨⟨.Matt, 6, 3⟩, ⟨.Matt, 6, 7⟩⟩]] (.range ⟨⟨.Matt, 6, 5⟩, ⟨.Matt, 6, 9⟩⟩) none 10 =
      .ok [[⟨⟨.Matt, 6, 3⟩, ⟨.Matt, 6, 4⟩⟩, ⟨⟨.Matt, 6, 8⟩, ⟨.Matt, 6, 9⟩⟩]] := by
  refine ⟨rfl, ?_⟩
  decide +kernel

end Bibleref
