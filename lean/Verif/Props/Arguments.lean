import Verif.SpecValues
import Verif.Props.RangeWithList
import Verif.Props.Parsing
import Verif.Lemmas.Groups

/-!
# Arguments of any type (C60)
-/

namespace Bibleref
open Spec

theorem new_same (e : Env) (v : BibleVerse) : BibleRange.new e (some v) (some v) (some .ALL) = .ok ⟨v, v⟩ := by
  rw [new_comparable (comparable_book rfl)]
  simp only [ne_eq, not_true_eq_false, and_false, if_false]
  split <;> rfl

/-- C60: every method of a range that takes a Bible reference, and every operator, raises `ValueError` for anything else. -/
theorem C60_range_rejects (e : Env) (r : BibleRange) (x : PyVal) (flags : Option BibleFlag) (hx : refRanges x = none) :
    r.isDisjointV e x = .error .valueError ∧ r.isAdjacentV e x flags = .error .valueError ∧
    r.containsV e x = .error .valueError ∧ r.surroundsV e x = .error .valueError ∧
    r.unionV e x flags = .error .valueError ∧ r.intersectionV e x flags = .error .valueError ∧
    r.differenceV e x flags = .error .valueError ∧ r.symDifferenceV e x flags = .error .valueError := by
  cases x <;> first | exact ⟨rfl, rfl, rfl, rfl, rfl, rfl, rfl, rfl⟩ | exact absurd hx (by simp [refRanges])

/-- C60: so do the set operations of a list, before anything is changed. -/
theorem C60_list_rejects (e : Env) (l : RangeList) (x : PyVal) (flags : Option BibleFlag) (fuel : Nat) (hx : refRanges x = none) :
    RangeList.unionV e l x flags = .error .valueError ∧ RangeList.unionUpdateV e l x flags = .error .valueError ∧
    RangeList.intersectionV e l x flags = .error .valueError ∧ RangeList.differenceV e l x flags fuel = .error .valueError ∧
    RangeList.symDifferenceV e l x flags fuel = .error .valueError := by
  cases x <;> first | exact ⟨rfl, rfl, rfl, rfl, rfl⟩ | exact absurd hx (by simp [refRanges])

/-- C60: a verse is treated like the range of that verse. -/
theorem C60_verse_as_range (e : Env) (r : BibleRange) (v : BibleVerse) (flags : Option BibleFlag) :
    r.isDisjointV e (.verse v) = r.isDisjointV e (.range ⟨v, v⟩) ∧
    r.isAdjacentV e (.verse v) flags = r.isAdjacentV e (.range ⟨v, v⟩) flags ∧
    r.containsV e (.verse v) = r.containsV e (.range ⟨v, v⟩) ∧ r.surroundsV e (.verse v) = r.surroundsV e (.range ⟨v, v⟩) ∧
    r.unionV e (.verse v) flags = r.unionV e (.range ⟨v, v⟩) flags ∧
    r.intersectionV e (.verse v) flags = r.intersectionV e (.range ⟨v, v⟩) flags ∧
    r.differenceV e (.verse v) flags = r.differenceV e (.range ⟨v, v⟩) flags ∧
    r.symDifferenceV e (.verse v) flags = r.symDifferenceV e (.range ⟨v, v⟩) flags := by
  simp only [BibleRange.isDisjointV, BibleRange.isAdjacentV, BibleRange.containsV, BibleRange.surroundsV, BibleRange.unionV,
    BibleRange.intersectionV, BibleRange.differenceV, BibleRange.symDifferenceV, BibleRange.operand, new_same, and_self]

theorem operand_list (e : Env) (x : PyVal) (rs : List BibleRange) (hx : refRanges x = some rs) :
    ∃ m, RangeList.operand e x = .ok m ∧ m.flatten = rs ∧ (m = [rs] ∨ x = .list m) := by
  cases x <;> simp only [refRanges, reduceCtorEq, Option.some.injEq] at hx <;> subst hx
  · exact ⟨_, by simp only [RangeList.operand, new_same, bind, Except.bind]; rfl, rfl, .inl rfl⟩
  · exact ⟨_, rfl, rfl, .inl rfl⟩
  · exact ⟨_, rfl, rfl, .inr rfl⟩

theorem operandItems_ok (e : Env) (x : PyVal) (rs : List BibleRange) (hx : refRanges x = some rs) :
    RangeList.operandItems e x = .ok (rs.map .range) := by
  cases x <;> simp only [refRanges, reduceCtorEq, Option.some.injEq] at hx <;> subst hx
  · simp only [RangeList.operandItems, RangeList.operand, new_same, bind, Except.bind]; rfl
  · rfl
  · rfl

theorem isDisjointV_eq (e : Env) (l : RangeList) (x : PyVal) (rs : List BibleRange) (hx : refRanges x = some rs) :
    RangeList.isDisjointV e l x = RangeList.isDisjoint e.data l [rs] := by
  unfold RangeList.isDisjointV RangeList.isDisjoint
  by_cases hl : l.flatten = []
  · rw [if_pos hl, hl]; rfl
  · rw [if_neg hl, operandItems_ok e x rs hx]
    simp only [bind, Except.bind, allM_map, List.flatten_cons, List.flatten_nil, List.append_nil]
    rfl

theorem containsV_eq (e : Env) (l : RangeList) (x : PyVal) (flags : Option BibleFlag) (rs : List BibleRange)
    (hx : refRanges x = some rs) : RangeList.containsV e l x flags = RangeList.contains e l [rs] flags := by
  unfold RangeList.containsV RangeList.contains
  rw [operandItems_ok e x rs hx]
  cases RangeList.merge e (RangeList.copy l) flags with
  | error _ => rfl
  | ok m =>
    simp only [bind, Except.bind, allM_map, List.flatten_cons, List.flatten_nil, List.append_nil]
    rfl

theorem operand_range (e : Env) (x : PyVal) (rs : List BibleRange) (hx : refRanges x = some rs) :
    (∃ l, x = .list l ∧ l.flatten = rs) ∨ ∃ y, rs = [y] ∧ BibleRange.operand e x = .ok y ∧ ∀ l, x ≠ .list l := by
  cases x <;> simp only [refRanges, reduceCtorEq, Option.some.injEq] at hx <;> subst hx
  · exact .inr ⟨_, rfl, new_same e _, by simp⟩
  · exact .inr ⟨_, rfl, rfl, by simp⟩
  · exact .inl ⟨_, rfl, rfl⟩

theorem covered_single_list (d : BibleData) (y : BibleRange) (v : BibleVerse) : Covered d [y] v ↔ InRange d y v := by
  simp [Covered]

/-- C60: with any Bible reference, `|` and `&` of a range give the verses in either, and in both. -/
theorem C60_range_operators (e : Env) (h : e.data.WF) (flags : Option BibleFlag) (r : BibleRange) (x : PyVal) (rs : List BibleRange)
    (hx : refRanges x = some rs) (hr : Allowed e.data (inForce e flags) r) (hrs : ∀ y ∈ rs, Allowed e.data (inForce e flags) y) :
    (∃ m, r.unionV e x flags = .ok m ∧ (∀ y ∈ m.flatten, Allowed e.data (inForce e flags) y) ∧
      ∀ v ∈ canon e.data (inForce e flags).verse0, Covered e.data m.flatten v ↔ InRange e.data r v ∨ Covered e.data rs v) ∧
    (∃ m, r.intersectionV e x flags = .ok m ∧ (∀ y ∈ m.flatten, Allowed e.data (inForce e flags) y) ∧
      ∀ v ∈ canon e.data (inForce e flags).verse0, Covered e.data m.flatten v ↔ InRange e.data r v ∧ Covered e.data rs v) := by
  rcases operand_range e x rs hx with ⟨l, rfl, rfl⟩ | ⟨y, rfl, hop, hne⟩
  · obtain ⟨m, a1, a2, _, a3⟩ := C52_union e h flags r l hr hrs
    obtain ⟨k, b1, b2, _, b3⟩ := C52_intersection e h flags r l hr hrs
    exact ⟨⟨m, a1, a2, a3⟩, k, b1, b2, b3⟩
  · obtain ⟨m, a1, _, a2, a3, _⟩ := C22_union e h flags r y hr (hrs y (by simp))
    obtain ⟨k, b1, _, b2, b3, _⟩ := C23_intersection e h flags r y hr (hrs y (by simp))
    simp only [covered_single_list]
    refine ⟨⟨RangeList.ofRanges m, ?_, ?_⟩, RangeList.ofRanges k, ?_, ?_⟩
    · cases x <;> first | exact absurd rfl (hne _) | (simp only [BibleRange.unionV, hop, bind, Except.bind, a1]; rfl)
    · rw [RangeList.ofRanges_flatten]; exact ⟨a2, a3⟩
    · cases x <;> first | exact absurd rfl (hne _) | (simp only [BibleRange.intersectionV, hop, bind, Except.bind, b1]; rfl)
    · rw [RangeList.ofRanges_flatten]; exact ⟨b2, b3⟩

/-- C60: with any Bible reference, `is_disjoint`, `contains` (and `in`) and `surrounds` of a range say whether no verse, every
verse, or every verse strictly inside, of the reference is one of the range's, under the global flags. -/
theorem C60_range_relations (e : Env) (h : e.data.WF) (r : BibleRange) (x : PyVal) (rs : List BibleRange)
    (hx : refRanges x = some rs) (hr : Allowed e.data e.flags r) (hrs : ∀ y ∈ rs, Allowed e.data e.flags y) :
    (∃ b, r.isDisjointV e x = .ok b ∧
      (b = true ↔ ¬ ∃ v ∈ canon e.data e.flags.verse0, InRange e.data r v ∧ Covered e.data rs v)) ∧
    (∃ b, r.containsV e x = .ok b ∧
      (b = true ↔ ∀ v ∈ canon e.data e.flags.verse0, Covered e.data rs v → InRange e.data r v)) ∧
    (∃ b, r.surroundsV e x = .ok b ∧ (b = true ↔ ∀ v ∈ canon e.data e.flags.verse0, Covered e.data rs v →
      pos e.data r.start < pos e.data v ∧ pos e.data v < pos e.data r.stop)) := by
  rcases operand_range e x rs hx with ⟨l, rfl, rfl⟩ | ⟨y, rfl, hop, hne⟩
  · exact ⟨C52_is_disjoint _ h _ r l hr.1 fun y hy => (hrs y hy).1, C52_contains e h r l hr hrs,
      C52_surrounds _ h _ r l hr.1 fun y hy => (hrs y hy).1⟩
  · have hy := hrs y (by simp)
    obtain ⟨h1, h2, h3⟩ := C20_contains_surrounds_disjoint e.data h e.flags.verse0 r y hr.1 hy.1
    have hs := C52_surrounds e.data h e.flags.verse0 r [[y]] hr.1 (by simpa using hy.1)
    have e1 : r.isDisjointV e x = r.isDisjoint e.data y := by
      cases x <;> first | exact absurd rfl (hne _) | simp only [BibleRange.isDisjointV, hop, bind, Except.bind]
    have e2 : r.containsV e x = r.contains e.data y := by
      cases x <;> first | exact absurd rfl (hne _) | simp only [BibleRange.containsV, hop, bind, Except.bind]
    have e3 : r.surroundsV e x = r.surroundsList e.data [[y]] := by
      have : r.surroundsList e.data [[y]] = r.surrounds e.data y := by
        simp only [BibleRange.surroundsList, List.flatten_cons, List.flatten_nil, List.append_nil, List.allM]
        rcases r.surrounds e.data y with _ | _ | _ <;> rfl
      rw [this]
      cases x <;> first | exact absurd rfl (hne _) | simp only [BibleRange.surroundsV, hop, bind, Except.bind]
    rw [e1, e2, e3]
    simp only [covered_single_list]
    simp only [List.flatten_cons, List.flatten_nil, List.append_nil, covered_single_list] at hs
    exact ⟨h3, h1, hs⟩

/-- C60: with any Bible reference, `|` and `&` of a list give the verses in either, and in both, as a consolidated list. -/
theorem C60_list_operators (e : Env) (h : e.data.WF) (flags : Option BibleFlag) (l : RangeList) (x : PyVal) (rs : List BibleRange)
    (hx : refRanges x = some rs) (hl : ∀ y ∈ l.flatten, Allowed e.data (inForce e flags) y)
    (hrs : ∀ y ∈ rs, Allowed e.data (inForce e flags) y) :
    (∃ m, RangeList.unionV e l x flags = .ok m ∧ Canonical e.data (inForce e flags) m.flatten ∧
      ∀ v ∈ canon e.data (inForce e flags).verse0, Covered e.data m.flatten v ↔ Covered e.data l.flatten v ∨ Covered e.data rs v) ∧
    (∃ m, RangeList.intersectionV e l x flags = .ok m ∧ Canonical e.data (inForce e flags) m.flatten ∧
      ∀ v ∈ canon e.data (inForce e flags).verse0, Covered e.data m.flatten v ↔ Covered e.data l.flatten v ∧ Covered e.data rs v) := by
  obtain ⟨m, hm, rfl, _⟩ := operand_list e x rs hx
  obtain ⟨a, a1, _, a2, a3, _⟩ := C27_union e h flags l m hl hrs
  obtain ⟨b, b1, _, b2, b3, _⟩ := C28_intersection e h flags l m hl hrs
  refine ⟨⟨a, ?_, a3, a2⟩, b, ?_, b3, b2⟩
  · simp only [RangeList.unionV, hm, bind, Except.bind, a1]
  · simp only [RangeList.intersectionV, hm, bind, Except.bind, b1]

/-- C60: with any Bible reference, `is_disjoint` and `contains` (and `in`) of a list say whether no verse, or every verse, of the
reference is covered by the list. -/
theorem C60_list_relations_partial (e : Env) (h : e.data.WF) (flags : Option BibleFlag) (l : RangeList) (x : PyVal)
    (rs : List BibleRange) (hx : refRanges x = some rs) (hl : ∀ y ∈ l.flatten, Allowed e.data (inForce e flags) y)
    (hrs : ∀ y ∈ rs, Allowed e.data (inForce e flags) y) :
    (∃ b, RangeList.isDisjointV e l x = .ok b ∧
      (b = true ↔ ¬ ∃ v ∈ canon e.data (inForce e flags).verse0, Covered e.data l.flatten v ∧ Covered e.data rs v)) ∧
    (∃ b, RangeList.containsV e l x flags = .ok b ∧
      (b = true ↔ ∀ v ∈ canon e.data (inForce e flags).verse0, Covered e.data rs v → Covered e.data l.flatten v)) := by
  rw [isDisjointV_eq e l x rs hx, containsV_eq e l x flags rs hx]
  have hf : ([rs] : RangeList).flatten = rs := by simp
  have h1 := C31_is_disjoint e.data h (inForce e flags).verse0 l [rs] (fun y hy => (hl y hy).1) (by rw [hf]; exact fun y hy => (hrs y hy).1)
  have h2 := C31_contains e h flags l [rs] hl (by rw [hf]; exact hrs)
  rw [hf] at h1 h2
  exact ⟨h1, h2⟩

/-- C60: with something that is no Bible reference, the two methods of a list that do not check their argument never change
anything but do not always raise `ValueError`: a string is taken as its characters, which a non-empty list refuses. -/
theorem C60_list_relations_strings (e : Env) (l : RangeList) (s : List Char) (flags : Option BibleFlag) (hs : s ≠ []) :
    RangeList.isDisjointV e l (.str s) = (if l.flatten = [] then .ok true else .error .valueError) ∧
    (∀ m, RangeList.merge e (RangeList.copy l) flags = .ok m →
      RangeList.containsV e l (.str s) flags = if m.flatten = [] then .ok false else .error .valueError) := by
  obtain ⟨c, s, rfl⟩ := List.exists_cons_of_ne_nil hs
  refine ⟨?_, fun m hm => ?_⟩
  · unfold RangeList.isDisjointV
    cases hl : l.flatten with
    | nil => rfl
    | cons a t => rfl
  · unfold RangeList.containsV
    rw [hm]
    cases hl : m.flatten with
    | nil => simp only [bind, Except.bind, RangeList.operandItems, PyVal.items, List.map_cons, List.allM, hl, List.anyM]; rfl
    | cons a t => simp only [bind, Except.bind, RangeList.operandItems, PyVal.items, List.map_cons, List.allM, hl, List.anyM]; rfl

/-- The full C60 is false: what is no Bible reference need not be refused, and need not be refused with `ValueError`. -/
theorem C60_counterexample : RangeList.containsV dflt [] (.str "abc".toList) none = .ok false ∧
    RangeList.containsV dflt [[exMatt]] (.str []) none = .ok true ∧ RangeList.isDisjointV dflt [] .other = .ok true ∧
    RangeList.containsV dflt [[exMatt]] (.int 5) none = .error .typeError ∧
    RangeList.isDisjointV dflt [[exMatt]] (.int 5) = .error .typeError := by
  decide +kernel

/-- C60: a verse can be moved by an integer only, and only an integer or a verse can be subtracted from it; anything else
raises `TypeError`. -/
theorem C60_verse_rejects (e : Env) (v : BibleVerse) (x : PyVal) (flags : Option BibleFlag) (hi : ∀ n, x ≠ .int n) :
    v.plus e x = .error .typeError ∧ ((∀ w, x ≠ .verse w) → v.subtractV e x flags = .error .typeError) := by
  cases x <;> first | exact absurd rfl (hi _) | exact ⟨rfl, fun _ => rfl⟩ | exact ⟨rfl, fun hw => absurd rfl (hw _)⟩

example : refRanges (.str "Mark 3".toList) = none ∧ refRanges .none = none ∧ refRanges (.seq true [.range exMatt]) = none ∧
    refRanges (.list [[exMatt], [exIn]]) = some [exMatt, exIn] := ⟨rfl, rfl, rfl, rfl⟩

example : exMatt.containsV dflt (.verse exMatt.start) = .ok true ∧
    exMatt.containsV dflt (.str "Matt 6:1".toList) = .error .valueError ∧
    exMatt.unionV dflt (.verse ⟨.Matt, 7, 3⟩) none = .ok [[⟨exMatt.start, ⟨.Matt, 7, 3⟩⟩]] ∧
    RangeList.containsV dflt [[exMatt]] (.verse exMatt.start) none = .ok true ∧
    BibleVerse.plus dflt exMatt.start (.verse exMatt.stop) = .error .typeError := by
  decide +kernel

end Bibleref
