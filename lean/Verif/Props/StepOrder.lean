import Verif.Props.StepLaws

/-!
# Steps keep the order of verses (C87)
-/

namespace Bibleref

open Spec

section
variable {e : Env} (h : e.data.WF) {flags : Option BibleFlag} {v w x y : BibleVerse} {n : Nat}
include h

/-- A step from the later verse leads further, in the list on which the step from the earlier one is made. -/
theorem ix_step_lt (hv : Valid e.data true v) (hw : Valid e.data true w) (hlt : pos e.data v < pos e.data w)
    (hy : w.add e n flags = .ok (some y)) (hc : w.verse = 0 → v.verse = 0 ∨ (e.eff flags).verse0 = true) :
    Valid e.data ((e.eff flags).verse0 || v.verse == 0) y ∧
      ix e.data ((e.eff flags).verse0 || v.verse == 0) v + n < ix e.data ((e.eff flags).verse0 || v.verse == 0) y := by
  have hvv : Valid e.data ((e.eff flags).verse0 || v.verse == 0) v := hv.honour
  have hww : Valid e.data ((e.eff flags).verse0 || w.verse == 0) w := hw.honour
  rw [add_ix h hww] at hy
  obtain ⟨y1, y2, _⟩ := hy
  by_cases hab : ((e.eff flags).verse0 || w.verse == 0) = ((e.eff flags).verse0 || v.verse == 0)
  · rw [hab] at y1 y2 hww
    have := (pos_lt_ix h hvv hww).mp hlt
    exact ⟨y1, by omega⟩
  · cases hf : (e.eff flags).verse0
    · rw [hf] at hab hc hvv hww y1 y2
      have hw0 : w.verse ≠ 0 := by
        intro q
        rcases hc q with q' | q'
        · simp [q, q'] at hab
        · cases q'
      rw [beq_eq_false_iff_ne.mpr hw0] at hab hww y1 y2
      have hv0 : (v.verse == 0) = true := by
        cases hq : v.verse == 0
        · rw [hq] at hab; exact absurd rfl hab
        · rfl
      rw [hv0]
      simp only [Bool.or_false, Bool.false_or, Bool.or_true] at *
      have k1 := (pos_lt_ix h hv hw).mp hlt
      have hle : pos e.data w ≤ pos e.data y := (pos_le_ix h hww y1).mpr (by omega)
      have k2 := ix_gap_le h hww y1 hle
      have k3 := (pos_le_ix h hw y1.mono).mp hle
      exact ⟨y1.mono, by omega⟩
    · rw [hf] at hab; simp at hab

end

/-- C87: the verse `n` verses after the earlier of two verses is before the one `n` verses after the later of them. Missing: a later
verse that is a verse 0 while neither the earlier one nor the flags in force allow verse 0s, see `C87_order_exact`. -/
theorem C87_order_partial (e : Env) (h : e.data.WF) (flags : Option BibleFlag) (v w x y : BibleVerse) (n : Nat)
    (hv : v ∈ canon e.data true) (hw : w ∈ canon e.data true) (hlt : v.less e.data w = .ok true)
    (hc : w.verse = 0 → v.verse = 0 ∨ (inForce e flags).verse0 = true)
    (hx : v.add e n flags = .ok (some x)) (hy : w.add e n flags = .ok (some y)) : x.less e.data y = .ok true := by
  rw [mem_canon h] at hv hw
  rw [← eff_eq] at hc
  rw [less_listed hv hw, h.lt_pos hv hw] at hlt
  obtain ⟨h1, h2⟩ := ix_step_lt h hv hw hlt hy hc
  have hvv : Valid e.data ((e.eff flags).verse0 || v.verse == 0) v := hv.honour
  rw [add_ix h hvv] at hx
  rw [less_listed hx.1 h1, lt_ix h hx.1 h1, hx.2.1]
  exact h2

/-- C87: if there is a verse `n` verses after the later verse, there is one `n` verses after the earlier one, with `MULTIBOOK` or when both
are in one book. -/
theorem C87_end_partial (e : Env) (h : e.data.WF) (flags : Option BibleFlag) (v w y : BibleVerse) (n : Nat)
    (hv : v ∈ canon e.data true) (hw : w ∈ canon e.data true) (hlt : v.less e.data w = .ok true)
    (hc : w.verse = 0 → v.verse = 0 ∨ (inForce e flags).verse0 = true)
    (hb : (inForce e flags).multibook = true ∨ v.book = w.book)
    (hy : w.add e n flags = .ok (some y)) : ∃ x, v.add e n flags = .ok (some x) := by
  rw [mem_canon h] at hv hw
  rw [← eff_eq] at hc hb
  rw [less_listed hv hw, h.lt_pos hv hw] at hlt
  obtain ⟨h1, h2⟩ := ix_step_lt h hv hw hlt hy hc
  have hvv : Valid e.data ((e.eff flags).verse0 || v.verse == 0) v := hv.honour
  have hg := ix_get h h1
  obtain ⟨x, hx⟩ : ∃ x, (canon e.data ((e.eff flags).verse0 || v.verse == 0))[ix e.data ((e.eff flags).verse0 || v.verse == 0) v + n]? = some x :=
    ⟨_, List.getElem?_eq_getElem (Nat.lt_trans h2 (List.getElem?_eq_some_iff.mp hg).1)⟩
  refine ⟨x, (add_ix h hvv n x).mpr ⟨valid_of_get h hx, ix_of_get h hx, ?_⟩⟩
  rcases hb with hb | hb
  · exact .inl hb
  · rw [add_ix h hw.honour] at hy
    rcases hy.2.2 with hm | hm
    · exact .inl hm
    · right
      have hxv := valid_of_get h hx
      have hxi := ix_of_get h hx
      have b1 := book_le_of_pos h hvv hxv ((pos_le_ix h hvv hxv).mpr (by omega))
      have b2 := book_le_of_pos h hxv h1 ((pos_le_ix h hxv h1).mpr (by omega))
      rw [hm, ← hb] at b2
      exact h.bidx_inj.mp (by omega)

/-- C87 in the remaining case, where the later verse is a verse 0 that is not allowed otherwise: the order is kept exactly if on the way
of the first step there are fewer verse 0s than verses from the one verse to the other. -/
theorem C87_order_exact (e : Env) (h : e.data.WF) (flags : Option BibleFlag) (v w x y : BibleVerse) (n : Nat)
    (hv : v ∈ canon e.data true) (hw : w ∈ canon e.data true) (hlt : v.less e.data w = .ok true)
    (hw0 : w.verse = 0) (hv0 : v.verse ≠ 0) (hf : (inForce e flags).verse0 = false)
    (hx : v.add e n flags = .ok (some x)) (hy : w.add e n flags = .ok (some y)) :
    x.less e.data y = .ok true ↔
      (canon e.data true).countP (fun u => decide (u.verse = 0 ∧ v.lessEq e.data u = .ok true ∧ u.less e.data x = .ok true)) <
        (canon e.data true).countP (fun u => decide (v.lessEq e.data u = .ok true ∧ u.less e.data w = .ok true)) := by
  rw [mem_canon h] at hv hw
  rw [← eff_eq] at hf
  rw [less_listed hv hw, h.lt_pos hv hw] at hlt
  rw [add_ix h hv.honour] at hx
  rw [add_ix h hw.honour] at hy
  rw [hf, beq_eq_false_iff_ne.mpr hv0] at hx
  rw [hf, hw0] at hy
  simp only [Bool.or_false, beq_self_eq_true, Bool.or_true] at hx hy
  obtain ⟨x1, x2, _⟩ := hx
  obtain ⟨y1, y2, _⟩ := hy
  have hvf : Valid e.data false v := hv.of_ne_zero hv0
  have hle : pos e.data v ≤ pos e.data x := (pos_le_ix h hvf x1).mpr (by omega)
  have k1 := ix_between h hvf x1 hle
  have k2 := ix_between h hv x1.mono hle
  have k3 := ix_between h hv hw (Nat.le_of_lt hlt)
  rw [less_listed x1 y1, lt_ix h x1.mono y1]
  have c1 : (canon e.data true).countP (fun u => decide (u.verse = 0 ∧ v.lessEq e.data u = .ok true ∧ u.less e.data x = .ok true)) =
      between e.data true v.book (fun u => decide (u.verse = 0)) v x := by
    unfold between
    apply List.countP_congr
    intro u hu
    have hu := (mem_canon h).mp hu
    simp only [lessEq_listed hv hu, less_listed hu x1, decide_eq_true_eq, Bool.and_eq_true]
  have c2 : (canon e.data true).countP (fun u => decide (v.lessEq e.data u = .ok true ∧ u.less e.data w = .ok true)) =
      between e.data true v.book (fun u => u.verse ≠ 0 || true) v w := by
    unfold between
    apply List.countP_congr
    intro u hu
    have hu := (mem_canon h).mp hu
    simp [lessEq_listed hv hu, less_listed hu hw]
  have c3 : between e.data true v.book (fun u => u.verse ≠ 0 || true) v x =
      between e.data true v.book (fun u => u.verse ≠ 0 || false) v x + between e.data true v.book (fun u => decide (u.verse = 0)) v x := by
    unfold between
    generalize walk e.data true true v.book = l
    induction l with
    | nil => rfl
    | cons a l ih =>
      simp only [List.countP_cons, ih]
      by_cases q : a.verse = 0 <;> cases v.le e.data a <;> cases a.lt e.data x <;> simp [q] <;> omega
  rw [c1, c2]
  omega

/-- C87 for steps back, when the call allows verse 0s exactly if the global flags do and none of the two verses is a verse 0 that these
do not allow. -/
theorem C87_back_partial (e : Env) (h : e.data.WF) (flags : Option BibleFlag) (v w x y : BibleVerse) (n : Nat)
    (hv : v ∈ canon e.data e.flags.verse0) (hw : w ∈ canon e.data e.flags.verse0) (hf : (inForce e flags).verse0 = e.flags.verse0)
    (hlt : v.less e.data w = .ok true) (hx : v.sub e n flags = .ok (some x)) (hy : w.sub e n flags = .ok (some y)) :
    x.less e.data y = .ok true := by
  have hz : ∀ u ∈ canon e.data e.flags.verse0, u.verse = 0 → e.flags.verse0 = true := by
    intro u hu q
    rw [mem_canon h] at hu
    have h1 := hu.2.2.1
    rw [q] at h1
    cases hg : e.flags.verse0
    · rw [hg] at h1; simp [firstNum] at h1
    · rfl
  have htrue : ∀ u ∈ canon e.data e.flags.verse0, u ∈ canon e.data true := fun u hu => (mem_canon h).mpr ((mem_canon h).mp hu).mono
  have hkey : ∀ a ∈ canon e.data e.flags.verse0, ∀ b, a.sub e n flags = .ok (some b) →
      b ∈ canon e.data e.flags.verse0 ∧ b.add e n flags = .ok (some a) := by
    intro a ha b hb
    have hob : b ∈ canon e.data e.flags.verse0 := by
      rcases (C08_outcomes e h flags a (htrue a ha) n _ rfl).2 with hh | ⟨u, hu, hh⟩ | hh
      · rw [hb] at hh; cases hh
      · rw [hb] at hh; cases hh
        rw [hf] at hu
        by_cases q : a.verse = 0
        · rw [hz a ha q] at hu ⊢; exact hu
        · rw [beq_eq_false_iff_ne.mpr q, Bool.or_false] at hu; exact hu
      · rw [hb] at hh; cases hh
    refine ⟨hob, (C06_add_undoes_subtract e h flags b a n (htrue b hob) (htrue a ha) hb).mpr ⟨?_, fun q => .inl (hf ▸ hz a ha q)⟩⟩
    intro u _ _ _ _
    rw [hf]
    cases hg : e.flags.verse0
    · have q1 : a.verse ≠ 0 := fun q => by simp [hz a ha q] at hg
      have q2 : b.verse ≠ 0 := fun q => by simp [hz b hob q] at hg
      simp [beq_eq_false_iff_ne.mpr q1, beq_eq_false_iff_ne.mpr q2]
    · simp
  obtain ⟨x1, x2⟩ := hkey v hv x hx
  obtain ⟨y1, y2⟩ := hkey w hw y hy
  obtain ⟨t, _⟩ := C02_total_order e.data h x y x (htrue x x1) (htrue y y1) (htrue x x1)
  obtain ⟨_, t1, t2, _⟩ := C02_total_order e.data h v w v (htrue v hv) (htrue w hw) (htrue v hv)
  rcases t with t | t | t
  · exact t
  · subst t
    rw [x2] at y2
    cases y2
    exact absurd ⟨hlt, rfl⟩ t1
  · have := C87_order_partial e h flags y x w v n (htrue y y1) (htrue x x1) t (fun q => .inr (hf ▸ hz x x1 q)) y2 x2
    exact absurd ⟨hlt, this⟩ t2

/-- The full C87 is false: Psalm 3:8 is before Psalm 4:0, but 9 verses after it is Psalm 5:1, and 9 verses after Psalm 4:0 is Psalm
5:0. -/
theorem C87_counterexample : (⟨.Psa, 3, 8⟩ : BibleVerse).less dflt.data ⟨.Psa, 4, 0⟩ = .ok true ∧
    BibleVerse.add dflt ⟨.Psa, 3, 8⟩ 9 none = .ok (some ⟨.Psa, 5, 1⟩) ∧ BibleVerse.add dflt ⟨.Psa, 4, 0⟩ 9 none = .ok (some ⟨.Psa, 5, 0⟩) ∧
    (⟨.Psa, 5, 1⟩ : BibleVerse).less dflt.data ⟨.Psa, 5, 0⟩ = .ok false := by decide +kernel

example : (⟨.Mal, 4, 5⟩ : BibleVerse) ∈ canon dflt.data true ∧ (⟨.Mal, 4, 6⟩ : BibleVerse) ∈ canon dflt.data true ∧
    (⟨.Mal, 4, 5⟩ : BibleVerse).less dflt.data ⟨.Mal, 4, 6⟩ = .ok true ∧
    BibleVerse.add dflt ⟨.Mal, 4, 5⟩ 30 (some .MULTIBOOK) = .ok (some ⟨.Matt, 2, 4⟩) ∧
    BibleVerse.add dflt ⟨.Mal, 4, 6⟩ 30 (some .MULTIBOOK) = .ok (some ⟨.Matt, 2, 5⟩) ∧
    BibleVerse.sub dflt ⟨.Matt, 2, 4⟩ 30 (some .MULTIBOOK) = .ok (some ⟨.Mal, 4, 5⟩) ∧
    (⟨.Matt, 2, 4⟩ : BibleVerse) ∈ canon dflt.data dflt.flags.verse0 := by
  simp only [dflt, mem_canon defaultData_wf]; decide +kernel

/-- Psalm 3:8 and Psalm 4:0 lead to the same verse, one verse 0 being on the way; Psalm 3:7 leads to an earlier one. -/
example : BibleVerse.add dflt ⟨.Psa, 3, 8⟩ 8 none = .ok (some ⟨.Psa, 4, 8⟩) ∧ BibleVerse.add dflt ⟨.Psa, 4, 0⟩ 8 none = .ok (some ⟨.Psa, 4, 8⟩) ∧
    BibleVerse.add dflt ⟨.Psa, 3, 7⟩ 8 none = .ok (some ⟨.Psa, 4, 7⟩) ∧
    (⟨.Psa, 3, 7⟩ : BibleVerse) ∈ canon dflt.data true ∧ (⟨.Psa, 4, 0⟩ : BibleVerse) ∈ canon dflt.data true := by
  simp only [dflt, mem_canon defaultData_wf]; decide +kernel

end Bibleref
