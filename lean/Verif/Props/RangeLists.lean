import Verif.Lemmas.ListOps
import Verif.Props.RangeShapes

/-!
# Lists of ranges (C26-C33, C49)

`l.flatten` are the ranges of a list `l`, whatever their groups.
-/

namespace Bibleref
open Spec

/-! ## C26 -/

theorem gap_iff_apart {d : BibleData} (h : d.WF) {f : BibleFlag} {p q : BibleRange} (hp : ROK d f.verse0 p)
    (hq : ROK d f.verse0 q) : Gap d f p q ↔ Apart d f p q := by
  rw [Gap, Apart, adj_iff h hp hq]
  refine and_congr_right (fun h1 => ?_)
  constructor
  · intro h2
    by_cases h3 : ∃ v ∈ canon d f.verse0, pos d p.stop < pos d v ∧ pos d v < pos d q.start
    · exact .inl h3
    · right
      by_cases h4 : f.multibook = true
      · exact absurd ⟨h1, h3, .inl h4⟩ h2
      · by_cases h5 : p.stop.book = q.start.book
        · exact absurd ⟨h1, h3, .inr h5⟩ h2
        · exact ⟨by simpa using h4, h5⟩
  · rintro (h2 | ⟨h2, h3⟩) ⟨_, h4, h5⟩
    · exact h4 h2
    · rcases h5 with h5 | h5
      · rw [h2] at h5; cases h5
      · exact h3 h5

theorem gaps_iff_canonical_rok {d : BibleData} (h : d.WF) {f : BibleFlag} {l : List BibleRange} (hl : ∀ r ∈ l, ROK d f.verse0 r) :
    Neighbours (Gap d f) l ↔ Canonical d f l := by
  unfold Canonical
  induction l with
  | nil => simp [Neighbours]
  | cons p l ih =>
    rw [neighbours_cons, neighbours_cons, ih (fun r hr => hl r (List.mem_cons_of_mem _ hr))]
    refine and_congr_left (fun _ => ?_)
    cases l with
    | nil => simp
    | cons q l =>
      simp only [List.head?_cons, Option.mem_some_iff, forall_eq']
      exact gap_iff_apart h (hl p (by simp)) (hl q (by simp))

theorem gaps_iff_canonical {d : BibleData} (h : d.WF) {f : BibleFlag} {l : List BibleRange} (hl : ∀ r ∈ l, AOK d f r) :
    Neighbours (Gap d f) l ↔ Canonical d f l :=
  gaps_iff_canonical_rok h fun r hr => (hl r hr).toROK

/-- C26: `merge` never raises; afterwards the list has the same verses as before and is in reading order with pairwise
disjoint and non-adjacent ranges. -/
theorem C26_merge (e : Env) (h : e.data.WF) (flags : Option BibleFlag) (l : RangeList)
    (hl : ∀ r ∈ l.flatten, Allowed e.data (inForce e flags) r) :
    ∃ m, RangeList.merge e l flags = .ok m ∧ (∀ r ∈ m.flatten, Allowed e.data (inForce e flags) r) ∧
      (∀ v ∈ canon e.data (inForce e flags).verse0, Covered e.data m.flatten v ↔ Covered e.data l.flatten v) ∧
      Canonical e.data (inForce e flags) m.flatten ∧ (∀ g ∈ m, g ≠ []) := by
  rw [← eff_eq] at *
  simp only [allowed_iff h] at *
  obtain ⟨m, h1, h2, h3, h4, h5, _⟩ := RangeList.merge_spec h hl
  exact ⟨m, h1, h3, fun v hv => h5 v ((mem_canon h).mp hv), (gaps_iff_canonical h h3).mp h4, h2⟩

/-- C26: two lists of allowed ranges in canonical form with the same verses have the same ranges. -/
theorem C26_canonical_unique (d : BibleData) (h : d.WF) (f : BibleFlag) (l m : List BibleRange) (hl : ∀ r ∈ l, Allowed d f r)
    (hm : ∀ r ∈ m, Allowed d f r) (cl : Canonical d f l) (cm : Canonical d f m)
    (hc : ∀ v ∈ canon d f.verse0, Covered d l v ↔ Covered d m v) : l = m := by
  simp only [allowed_iff h] at *
  exact gap_unique h hl hm ((gaps_iff_canonical h hl).mpr cl) ((gaps_iff_canonical h hm).mpr cm)
    (fun v hv => hc v ((mem_canon h).mpr hv))

theorem merge_congr {e : Env} (h : e.data.WF) {flags : Option BibleFlag} {l m : RangeList}
    (hl : ∀ r ∈ l.flatten, AOK e.data (e.eff flags) r) (hm : ∀ r ∈ m.flatten, AOK e.data (e.eff flags) r)
    (hc : ∀ v, Valid e.data (e.eff flags).verse0 v → (Covered e.data l.flatten v ↔ Covered e.data m.flatten v)) :
    RangeList.merge e l flags = RangeList.merge e m flags := by
  obtain ⟨l', a1, a2, a3, a4, _⟩ := RangeList.mergeItems_spec h hl
  obtain ⟨m', b1, b2, b3, b4, _⟩ := RangeList.mergeItems_spec h hm
  have : l' = m' := gap_unique h a2 b2 a3 b3 (fun v hv => (a4 v hv).trans ((hc v hv).trans (b4 v hv).symm))
  unfold RangeList.merge
  rw [a1, b1, this]

/-- C26: merging lists with the same verses gives equal lists, groups included. -/
theorem C26_merge_eq (e : Env) (h : e.data.WF) (flags : Option BibleFlag) (l m : RangeList)
    (hl : ∀ r ∈ l.flatten, Allowed e.data (inForce e flags) r) (hm : ∀ r ∈ m.flatten, Allowed e.data (inForce e flags) r) :
    RangeList.merge e l flags = RangeList.merge e m flags ↔
      ∀ v ∈ canon e.data (inForce e flags).verse0, Covered e.data l.flatten v ↔ Covered e.data m.flatten v := by
  obtain ⟨l', a1, _, a2, _⟩ := C26_merge e h flags l hl
  obtain ⟨m', b1, _, b2, _⟩ := C26_merge e h flags m hm
  constructor
  · intro hh v hv
    rw [a1, b1] at hh
    cases hh
    exact (a2 v hv).symm.trans (b2 v hv)
  · rw [← eff_eq] at *
    simp only [allowed_iff h] at *
    exact fun hc => merge_congr h hl hm (fun v hv => hc v ((mem_canon h).mpr hv))

/-- C26: merging again changes nothing. -/
theorem C26_merge_idempotent (e : Env) (h : e.data.WF) (flags : Option BibleFlag) (l m : RangeList)
    (hl : ∀ r ∈ l.flatten, Allowed e.data (inForce e flags) r) (hm : RangeList.merge e l flags = .ok m) :
    RangeList.merge e m flags = .ok m := by
  obtain ⟨m', h1, h2, h3, _⟩ := C26_merge e h flags l hl
  rw [hm] at h1; cases h1
  rw [← hm, C26_merge_eq e h flags m l h2 hl]
  exact h3

/-- C26: the merged list is the shortest list of allowed ranges with its verses. -/
theorem C26_merge_shortest (e : Env) (h : e.data.WF) (flags : Option BibleFlag) (l m : RangeList)
    (hl : ∀ r ∈ l.flatten, Allowed e.data (inForce e flags) r) (hm : RangeList.merge e l flags = .ok m)
    (k : List BibleRange) (hk : ∀ r ∈ k, Allowed e.data (inForce e flags) r)
    (hc : ∀ v ∈ canon e.data (inForce e flags).verse0, Covered e.data k v ↔ Covered e.data l.flatten v) :
    m.flatten.length ≤ k.length := by
  have h1 := C26_merge_eq e h flags [k] l (by simpa using hk) hl
  rw [show ([k] : RangeList).flatten = k by simp] at h1
  have h2 := h1.mpr hc
  rw [← eff_eq] at hk
  simp only [allowed_iff h] at hk
  obtain ⟨m', g1, _, _, _, _, g2⟩ := RangeList.merge_spec h (l := [k]) (flags := flags) (by simpa using hk)
  rw [h2, hm] at g1; cases g1
  simpa using g2

/-- Matt 1, Matt 2:1-10, Mark 1:1-3 and Matt 1:20-2:5, in two groups, used in the examples. -/
abbrev exList : RangeList := [[⟨⟨.Mark, 1, 1⟩, ⟨.Mark, 1, 3⟩⟩, ⟨⟨.Matt, 2, 1⟩, ⟨.Matt, 2, 10⟩⟩], [⟨⟨.Matt, 1, 1⟩, ⟨.Matt, 1, 20⟩⟩,
  ⟨⟨.Matt, 1, 18⟩, ⟨.Matt, 1, 25⟩⟩]]
theorem exList_allowed (f : BibleFlag) : ∀ r ∈ exList.flatten, Allowed defaultData f r := by
  intro r hr
  simp only [exList, List.flatten_cons, List.flatten_nil, List.append_nil, List.cons_append, List.nil_append, List.mem_cons,
    List.not_mem_nil, or_false] at hr
  rcases hr with rfl | rfl | rfl | rfl <;>
  exact ⟨defaultData_rangeOK (by cases f.verse0 <;> decide +kernel) (by cases f.verse0 <;> decide +kernel) (by decide +kernel), .inr rfl⟩

example : RangeList.merge dflt exList none =
    .ok [[⟨⟨.Matt, 1, 1⟩, ⟨.Matt, 2, 10⟩⟩], [⟨⟨.Mark, 1, 1⟩, ⟨.Mark, 1, 3⟩⟩]] := by decide +kernel
example : ∀ r ∈ exList.flatten, Allowed dflt.data (inForce dflt none) r := exList_allowed _

/-- Why the ranges must be allowed by the flags: without `MULTIBOOK`, merging overlapping ranges across books raises. -/
theorem C26_not_allowed_counterexample : RangeList.merge dflt [[⟨⟨.Mal, 4, 5⟩, ⟨.Matt, 1, 2⟩⟩, ⟨⟨.Mal, 4, 6⟩, ⟨.Matt, 1, 3⟩⟩]] none =
    .error .multibookRange := by decide +kernel

/-! ## C27 -/

theorem unionUpdate_flatten (l m : RangeList) : (Groups.extend l m.flatten).flatten = l.flatten ++ m.flatten :=
  Groups.flatten_extend l m.flatten

theorem covered_append {d : BibleData} {l m : List BibleRange} {v : BibleVerse} :
    Covered d (l ++ m) v ↔ Covered d l v ∨ Covered d m v := by simp [Covered, or_and_right, exists_or]

/-- C27: the union of two lists is in canonical form and covers exactly the verses of either. -/
theorem C27_union (e : Env) (h : e.data.WF) (flags : Option BibleFlag) (a b : RangeList)
    (ha : ∀ r ∈ a.flatten, Allowed e.data (inForce e flags) r) (hb : ∀ r ∈ b.flatten, Allowed e.data (inForce e flags) r) :
    ∃ u, RangeList.union e a b flags = .ok u ∧ (∀ r ∈ u.flatten, Allowed e.data (inForce e flags) r) ∧
      (∀ v ∈ canon e.data (inForce e flags).verse0, Covered e.data u.flatten v ↔
        Covered e.data a.flatten v ∨ Covered e.data b.flatten v) ∧
      Canonical e.data (inForce e flags) u.flatten ∧ (∀ g ∈ u, g ≠ []) := by
  have hfl : (Groups.extend (RangeList.copy a) b.flatten).flatten = a.flatten ++ b.flatten := by
    rw [unionUpdate_flatten, RangeList.copy_flatten]
  obtain ⟨u, h1, h2, h3, h4, h5⟩ := C26_merge e h flags (Groups.extend (RangeList.copy a) b.flatten) (by
    rw [hfl]
    intro r hr
    rcases List.mem_append.mp hr with hr | hr
    · exact ha r hr
    · exact hb r hr)
  refine ⟨u, h1, h2, ?_, h4, h5⟩
  intro v hv
  rw [h3 v hv, hfl, covered_append]

/-- C27: union is commutative, associative and idempotent (up to merging). -/
theorem C27_union_laws (e : Env) (h : e.data.WF) (flags : Option BibleFlag) (a b c : RangeList)
    (ha : ∀ r ∈ a.flatten, Allowed e.data (inForce e flags) r) (hb : ∀ r ∈ b.flatten, Allowed e.data (inForce e flags) r)
    (hc : ∀ r ∈ c.flatten, Allowed e.data (inForce e flags) r) :
    RangeList.union e a b flags = RangeList.union e b a flags ∧ RangeList.union e a a flags = RangeList.merge e a flags ∧
    (∀ ab bc, RangeList.union e a b flags = .ok ab → RangeList.union e b c flags = .ok bc →
      RangeList.union e ab c flags = RangeList.union e a bc flags) := by
  have key : ∀ x y : RangeList, RangeList.union e x y flags = RangeList.merge e (Groups.extend (RangeList.copy x) y.flatten) flags :=
    fun _ _ => rfl
  have hfl : ∀ x y : RangeList, (Groups.extend (RangeList.copy x) y.flatten).flatten = x.flatten ++ y.flatten := fun x y => by
    rw [unionUpdate_flatten, RangeList.copy_flatten]
  have hal : ∀ x y : RangeList, (∀ r ∈ x.flatten, Allowed e.data (inForce e flags) r) →
      (∀ r ∈ y.flatten, Allowed e.data (inForce e flags) r) →
      ∀ r ∈ (Groups.extend (RangeList.copy x) y.flatten).flatten, Allowed e.data (inForce e flags) r := by
    intro x y hx hy r hr
    rw [hfl] at hr
    rcases List.mem_append.mp hr with hr | hr
    · exact hx r hr
    · exact hy r hr
  refine ⟨?_, ?_, ?_⟩
  · rw [key, key, C26_merge_eq e h flags _ _ (hal a b ha hb) (hal b a hb ha)]
    intro v _
    rw [hfl, hfl, covered_append, covered_append, or_comm]
  · rw [key, C26_merge_eq e h flags _ _ (hal a a ha ha) ha]
    intro v _
    rw [hfl, covered_append, or_self]
  · intro ab bc hab hbc
    obtain ⟨_, g1, g2, g3, _⟩ := C27_union e h flags a b ha hb
    rw [hab] at g1; cases g1
    obtain ⟨_, k1, k2, k3, _⟩ := C27_union e h flags b c hb hc
    rw [hbc] at k1; cases k1
    rw [key, key, C26_merge_eq e h flags _ _ (hal _ c g2 hc) (hal a _ ha k2)]
    intro v hv
    rw [hfl, hfl, covered_append, covered_append, g3 v hv, k3 v hv, or_assoc]

example : RangeList.union dflt [[exMatt]] exList none =
    .ok [[⟨⟨.Matt, 1, 1⟩, ⟨.Matt, 2, 10⟩⟩], [exMatt], [⟨⟨.Mark, 1, 1⟩, ⟨.Mark, 1, 3⟩⟩]] := by decide +kernel

/-! ## C28 -/

/-- C28: the intersection of two lists is in canonical form and covers exactly the verses of both. -/
theorem C28_intersection (e : Env) (h : e.data.WF) (flags : Option BibleFlag) (a b : RangeList)
    (ha : ∀ r ∈ a.flatten, Allowed e.data (inForce e flags) r) (hb : ∀ r ∈ b.flatten, Allowed e.data (inForce e flags) r) :
    ∃ i, RangeList.intersection e a b flags = .ok i ∧ (∀ r ∈ i.flatten, Allowed e.data (inForce e flags) r) ∧
      (∀ v ∈ canon e.data (inForce e flags).verse0, Covered e.data i.flatten v ↔
        Covered e.data a.flatten v ∧ Covered e.data b.flatten v) ∧
      Canonical e.data (inForce e flags) i.flatten ∧ (∀ g ∈ i, g ≠ []) := by
  have hi : RangeList.intersection e a b flags =
      RangeList.merge e (RangeList.ofRanges (RangeList.meets e.data a.flatten b.flatten)) flags := by
    unfold RangeList.intersection
    rw [RangeList.intersectionItems_spec h]
    · rfl
    · intro r hr; rw [eff_eq]; exact (allowed_iff h).mp (ha r hr)
    · intro r hr; rw [eff_eq]; exact (allowed_iff h).mp (hb r hr)
  have hok := RangeList.meets_aok (flags := flags) h (l := a.flatten) (m := b.flatten)
    (fun r hr => by rw [eff_eq]; exact (allowed_iff h).mp (ha r hr))
    (fun r hr => by rw [eff_eq]; exact (allowed_iff h).mp (hb r hr))
  have hcov := RangeList.covered_meets (flags := flags) h (l := a.flatten) (m := b.flatten)
    (fun r hr => by rw [eff_eq]; exact (allowed_iff h).mp (ha r hr))
    (fun r hr => by rw [eff_eq]; exact (allowed_iff h).mp (hb r hr))
  obtain ⟨i, h1, h2, h3, h4, h5⟩ := C26_merge e h flags (RangeList.ofRanges (RangeList.meets e.data a.flatten b.flatten)) (by
    rw [RangeList.ofRanges_flatten]
    intro r hr
    have := hok r hr
    rw [eff_eq] at this
    exact (allowed_iff h).mpr this)
  refine ⟨i, by rw [hi]; exact h1, h2, ?_, h4, h5⟩
  intro v hv
  rw [h3 v hv, RangeList.ofRanges_flatten, hcov v]

/-- C28: intersection is commutative and associative, the intersection of a list with itself is its merged form, and it
distributes over union. -/
theorem C28_intersection_laws (e : Env) (h : e.data.WF) (flags : Option BibleFlag) (a b c : RangeList)
    (ha : ∀ r ∈ a.flatten, Allowed e.data (inForce e flags) r) (hb : ∀ r ∈ b.flatten, Allowed e.data (inForce e flags) r)
    (hc : ∀ r ∈ c.flatten, Allowed e.data (inForce e flags) r) :
    RangeList.intersection e a b flags = RangeList.intersection e b a flags ∧
    RangeList.intersection e a a flags = RangeList.merge e a flags ∧
    (∀ ab bc, RangeList.intersection e a b flags = .ok ab → RangeList.intersection e b c flags = .ok bc →
      RangeList.intersection e ab c flags = RangeList.intersection e a bc flags) ∧
    (∀ bc ab ac, RangeList.union e b c flags = .ok bc → RangeList.intersection e a b flags = .ok ab →
      RangeList.intersection e a c flags = .ok ac → RangeList.intersection e a bc flags = RangeList.union e ab ac flags) := by
  -- every result is the merged form of its ranges
  have fixed : ∀ {x y : RangeList} {r : Except PyErr RangeList}, (∀ q ∈ x.flatten, Allowed e.data (inForce e flags) q) →
      RangeList.merge e x flags = .ok x → (∀ q ∈ y.flatten, Allowed e.data (inForce e flags) q) →
      RangeList.merge e y flags = .ok y → r = .ok y →
      (∀ v ∈ canon e.data (inForce e flags).verse0, Covered e.data x.flatten v ↔ Covered e.data y.flatten v) → .ok x = r := by
    intro x y r hx hmx hy hmy hr hcov
    rw [← hmx, hr, ← hmy]
    exact (C26_merge_eq e h flags x y hx hy).mpr hcov
  have mi : ∀ {x y i : RangeList}, (∀ q ∈ x.flatten, Allowed e.data (inForce e flags) q) →
      (∀ q ∈ y.flatten, Allowed e.data (inForce e flags) q) → RangeList.intersection e x y flags = .ok i →
      RangeList.merge e i flags = .ok i := by
    intro x y i hx hy hi
    have hm : ∃ its, RangeList.merge e (RangeList.ofRanges its) flags = .ok i ∧
        (∀ q ∈ its, Allowed e.data (inForce e flags) q) := by
      refine ⟨RangeList.meets e.data x.flatten y.flatten, ?_, ?_⟩
      · rw [← hi]; unfold RangeList.intersection
        rw [RangeList.intersectionItems_spec h]
        · rfl
        · intro r hr; rw [eff_eq]; exact (allowed_iff h).mp (hx r hr)
        · intro r hr; rw [eff_eq]; exact (allowed_iff h).mp (hy r hr)
      · intro q hq
        have := RangeList.meets_aok (flags := flags) h (l := x.flatten) (m := y.flatten)
          (fun r hr => by rw [eff_eq]; exact (allowed_iff h).mp (hx r hr))
          (fun r hr => by rw [eff_eq]; exact (allowed_iff h).mp (hy r hr)) q hq
        rw [eff_eq] at this
        exact (allowed_iff h).mpr this
    obtain ⟨its, g1, g2⟩ := hm
    exact C26_merge_idempotent e h flags _ i (by rw [RangeList.ofRanges_flatten]; exact g2) g1
  have mu : ∀ {x y u : RangeList}, (∀ q ∈ x.flatten, Allowed e.data (inForce e flags) q) →
      (∀ q ∈ y.flatten, Allowed e.data (inForce e flags) q) → RangeList.union e x y flags = .ok u →
      RangeList.merge e u flags = .ok u := by
    intro x y u hx hy hu
    refine C26_merge_idempotent e h flags (Groups.extend (RangeList.copy x) y.flatten) u ?_ hu
    rw [unionUpdate_flatten, RangeList.copy_flatten]
    intro r hr
    rcases List.mem_append.mp hr with hr | hr
    · exact hx r hr
    · exact hy r hr
  obtain ⟨ab, p1, p2, p3, _⟩ := C28_intersection e h flags a b ha hb
  obtain ⟨ba, q1, q2, q3, _⟩ := C28_intersection e h flags b a hb ha
  obtain ⟨aa, r1, r2, r3, _⟩ := C28_intersection e h flags a a ha ha
  obtain ⟨bc, s1, s2, s3, _⟩ := C28_intersection e h flags b c hb hc
  obtain ⟨am, m1, m2, m3, _⟩ := C26_merge e h flags a ha
  refine ⟨?_, ?_, ?_, ?_⟩
  · rw [p1]
    exact fixed p2 (mi ha hb p1) q2 (mi hb ha q1) q1 (fun v hv => by rw [p3 v hv, q3 v hv, and_comm])
  · rw [r1]
    exact fixed r2 (mi ha ha r1) m2 (C26_merge_idempotent e h flags a am ha m1) m1
      (fun v hv => by rw [r3 v hv, m3 v hv, and_self])
  · intro x y hx hy
    rw [p1] at hx; cases hx
    rw [s1] at hy; cases hy
    obtain ⟨t, t1, t2, t3, _⟩ := C28_intersection e h flags ab c p2 hc
    obtain ⟨w, w1, w2, w3, _⟩ := C28_intersection e h flags a bc ha s2
    rw [t1]
    exact fixed t2 (mi p2 hc t1) w2 (mi ha s2 w1) w1 (fun v hv => by rw [t3 v hv, w3 v hv, p3 v hv, s3 v hv, and_assoc])
  · intro u x y hu hx hy
    rw [p1] at hx; cases hx
    obtain ⟨u', u1, u2, u3, _⟩ := C27_union e h flags b c hb hc
    rw [hu] at u1; cases u1
    obtain ⟨y', y1, y2, y3, _⟩ := C28_intersection e h flags a c ha hc
    rw [hy] at y1; cases y1
    obtain ⟨t, t1, t2, t3, _⟩ := C28_intersection e h flags a u ha u2
    obtain ⟨w, w1, w2, w3, _⟩ := C27_union e h flags ab y p2 y2
    rw [t1]
    exact fixed t2 (mi ha u2 t1) w2 (mu p2 y2 w1) w1 (fun v hv => by
      rw [t3 v hv, w3 v hv, u3 v hv, p3 v hv, y3 v hv]
      constructor
      · rintro ⟨k1, k2 | k2⟩
        · exact .inl ⟨k1, k2⟩
        · exact .inr ⟨k1, k2⟩
      · rintro (⟨k1, k2⟩ | ⟨k1, k2⟩)
        · exact ⟨k1, .inl k2⟩
        · exact ⟨k1, .inr k2⟩)

example : RangeList.intersection dflt [[⟨⟨.Matt, 1, 10⟩, ⟨.Matt, 2, 3⟩⟩], [⟨⟨.Matt, 2, 4⟩, ⟨.Matt, 2, 20⟩⟩]] exList none =
    .ok [[⟨⟨.Matt, 1, 10⟩, ⟨.Matt, 2, 10⟩⟩]] := by decide +kernel

/-! ## C29 -/

theorem diffOuter_mono {e : Env} {flags : Option BibleFlag} {B : List BibleRange} {n : Nat} {L R : List BibleRange}
    (hR : RangeList.diffOuter e flags B n L = .ok R) {k : Nat} (hk : n ≤ k) : RangeList.diffOuter e flags B k L = .ok R := by
  induction n generalizing L R k with
  | zero =>
    cases L with
    | nil => cases k <;> exact hR
    | cons p L => cases hR
  | succ n ih =>
    cases L with
    | nil => cases k <;> exact hR
    | cons p L =>
      cases k with
      | zero => omega
      | succ k =>
        simp only [RangeList.diffOuter, bind, Except.bind] at hR ⊢
        cases h1 : RangeList.diffInner e flags p L B with
        | error x => rw [h1] at hR; cases hR
        | ok pr =>
          obtain ⟨cur, rest⟩ := pr
          rw [h1] at hR
          simp only at hR ⊢
          cases h2 : RangeList.diffOuter e flags B n rest with
          | error x => rw [h2] at hR; cases hR
          | ok done =>
            rw [h2] at hR
            rw [ih h2 (by omega)]
            exact hR

theorem within_iff {d : BibleData} {f : BibleFlag} {r x : BibleRange} (hr : Allowed d f r) :
    RangeList.Within d r x ↔ ∀ v ∈ canon d f.verse0, InRange d r v → InRange d x v := by
  constructor
  · intro hw v _ hv
    have := hw.1; have := hw.2; have := hv.1; have := hv.2
    exact ⟨by omega, by omega⟩
  · intro hh
    exact ⟨(hh _ hr.ok.start_mem ⟨Nat.le_refl _, hr.ok.ordered⟩).1, (hh _ hr.ok.stop_mem ⟨hr.ok.ordered, Nat.le_refl _⟩).2⟩

theorem meets_iff {d : BibleData} (h : d.WF) {f : BibleFlag} {r x : BibleRange} (hr : Allowed d f r) (hx : Allowed d f x) :
    RangeList.Meets d r x ↔ ∃ v ∈ canon d f.verse0, InRange d r v ∧ InRange d x v := by
  have h1 := (C20_contains_surrounds_disjoint d h f.verse0 r x hr.ok hx.ok).2.2
  have hr' := (rangeOK_iff h).mp hr.ok
  have hx' := (rangeOK_iff h).mp hx.ok
  rw [BibleRange.isDisjoint_eq (hr'.alike hx')] at h1
  obtain ⟨_, ⟨⟩, h1⟩ := h1
  rw [isDisjoint_iff h hr' hx'] at h1
  rw [RangeList.Meets, ← Classical.not_not (a := ∃ v ∈ canon d f.verse0, _), ← h1]
  omega

theorem aok_mono {d : BibleData} {f g : BibleFlag} (h1 : f.multibook = true → g.multibook = true)
    (h2 : f.verse0 = true → g.verse0 = true) {r : BibleRange} (hr : AOK d f r) : AOK d g r := by
  have hv : ∀ {v}, Valid d f.verse0 v → Valid d g.verse0 v := by
    intro v hv
    cases hf : f.verse0 with
    | true => rw [h2 hf]; rw [hf] at hv; exact hv
    | false =>
      cases hg : g.verse0 with
      | true => exact hv.mono
      | false => rw [hf] at hv; exact hv
  exact ⟨⟨hv hr.s, hv hr.t, hr.le⟩, hr.b.imp h1 id⟩

/-- What the list difference really computes when the second list is in canonical form, there is room around those of its
ranges that partly overlap a range of the first list, and the flags in force are among the global ones: it terminates
without raising, and the result has the verses of the first list that are not in the second, *and also* all verses of
those ranges of the first list that lie wholly inside a range of the second. -/
theorem C29_difference_exact_partial (e : Env) (h : e.data.WF) (flags : Option BibleFlag)
    (hm : (inForce e flags).multibook = true → e.flags.multibook = true)
    (hg : (inForce e flags).verse0 = true → e.flags.verse0 = true) (a b : RangeList)
    (ha : ∀ r ∈ a.flatten, Allowed e.data (inForce e flags) r) (hb : ∀ r ∈ b.flatten, Allowed e.data (inForce e flags) r)
    (cb : Canonical e.data (inForce e flags) b.flatten)
    (hroom : ∀ r ∈ a.flatten, ∀ x ∈ b.flatten, (∃ v ∈ canon e.data (inForce e flags).verse0, InRange e.data r v ∧ InRange e.data x v) →
      (∃ v ∈ canon e.data (inForce e flags).verse0, InRange e.data r v ∧ ¬ InRange e.data x v) →
      HasRoom e.data (inForce e flags) x.start x.stop) :
    ∃ n m, (∀ fuel ≥ n, RangeList.difference e a b flags fuel = .ok m) ∧ (∀ r ∈ m.flatten, Allowed e.data e.flags r) ∧
      Canonical e.data e.flags m.flatten ∧
      (∀ v ∈ canon e.data (inForce e flags).verse0, Covered e.data m.flatten v ↔ ∃ r ∈ a.flatten, InRange e.data r v ∧
        (¬ Covered e.data b.flatten v ∨
          ∃ x ∈ b.flatten, ∀ w ∈ canon e.data (inForce e flags).verse0, InRange e.data r w → InRange e.data x w)) := by
  have ha0 := ha
  have hb0 := hb
  rw [← eff_eq] at *
  simp only [allowed_iff h] at ha hb
  have hroom' : ∀ r ∈ a.flatten, ∀ x ∈ b.flatten, RangeList.Meets e.data r x → ¬ RangeList.Within e.data r x →
      HasRoom e.data (e.eff flags) x.start x.stop := by
    intro r hr x hx h1 h2
    refine hroom r hr x hx ((meets_iff h (ha0 r hr) (hb0 x hx)).mp h1) ?_
    rw [within_iff (ha0 r hr)] at h2
    apply Classical.byContradiction
    intro h3
    apply h2
    intro v hv hin
    apply Classical.byContradiction
    intro h4
    exact h3 ⟨v, hv, hin, h4⟩
  obtain ⟨R, h1, h2, h3⟩ := RangeList.diffOuter_spec h hb ((gaps_iff_canonical h hb).mpr cb) hm ha hroom' (Nat.le_refl _)
  obtain ⟨m, g1, g2, g3, g4, g5, _⟩ := RangeList.merge_spec h (flags := none) (l := RangeList.ofRanges R) (by
    rw [RangeList.ofRanges_flatten]
    exact fun r hr => aok_mono hm hg (h2 r hr))
  have hnone : e.eff none = e.flags := rfl
  rw [hnone] at g3 g4 g5
  refine ⟨RangeList.total e.data (e.eff flags).verse0 a.flatten, m, ?_, fun r hr => (allowed_iff h).mpr (g3 r hr), (gaps_iff_canonical h g3).mp g4, ?_⟩
  · intro fuel hf
    unfold RangeList.difference RangeList.differenceUpdate
    rw [RangeList.copy_flatten, diffOuter_mono h1 hf]
    exact g1
  · intro v hv
    rw [mem_canon h] at hv
    have hv' : Valid e.data e.flags.verse0 v := by
      cases hf : (e.eff flags).verse0 with
      | true => rw [hg hf]; exact hv.mono
      | false =>
        rw [hf] at hv
        cases e.flags.verse0 with
        | true => exact hv.mono
        | false => exact hv
    rw [g5 v hv', RangeList.ofRanges_flatten, h3 v hv]
    simp only [RangeList.Remains]
    constructor
    · rintro ⟨p, hp, k1, k2⟩
      exact ⟨p, hp, k1, k2.imp id (fun ⟨x, hx, hw⟩ => ⟨x, hx, (within_iff (ha0 p hp)).mp hw⟩)⟩
    · rintro ⟨p, hp, k1, k2⟩
      exact ⟨p, hp, k1, k2.imp id (fun ⟨x, hx, hw⟩ => ⟨x, hx, (within_iff (ha0 p hp)).mpr hw⟩)⟩

/-- C29 under the further condition that no range of the first list lies inside a range of the second: the difference has
exactly the verses of the first list that are not in the second. -/
theorem C29_difference_partial (e : Env) (h : e.data.WF) (flags : Option BibleFlag)
    (hm : (inForce e flags).multibook = true → e.flags.multibook = true)
    (hg : (inForce e flags).verse0 = true → e.flags.verse0 = true) (a b : RangeList)
    (ha : ∀ r ∈ a.flatten, Allowed e.data (inForce e flags) r) (hb : ∀ r ∈ b.flatten, Allowed e.data (inForce e flags) r)
    (cb : Canonical e.data (inForce e flags) b.flatten)
    (hroom : ∀ r ∈ a.flatten, ∀ x ∈ b.flatten, (∃ v ∈ canon e.data (inForce e flags).verse0, InRange e.data r v ∧ InRange e.data x v) →
      HasRoom e.data (inForce e flags) x.start x.stop)
    (hout : ∀ r ∈ a.flatten, ∀ x ∈ b.flatten, ∃ v ∈ canon e.data (inForce e flags).verse0, InRange e.data r v ∧ ¬ InRange e.data x v) :
    ∃ n m, (∀ fuel ≥ n, RangeList.difference e a b flags fuel = .ok m) ∧ (∀ r ∈ m.flatten, Allowed e.data e.flags r) ∧
      Canonical e.data e.flags m.flatten ∧
      (∀ v ∈ canon e.data (inForce e flags).verse0, Covered e.data m.flatten v ↔
        Covered e.data a.flatten v ∧ ¬ Covered e.data b.flatten v) := by
  obtain ⟨n, m, h1, h2, h3, h4⟩ := C29_difference_exact_partial e h flags hm hg a b ha hb cb
    (fun r hr x hx k1 _ => hroom r hr x hx k1)
  refine ⟨n, m, h1, h2, h3, fun v hv => ?_⟩
  rw [h4 v hv]
  constructor
  · rintro ⟨r, hr, k1, k2⟩
    refine ⟨⟨r, hr, k1⟩, k2.resolve_right ?_⟩
    rintro ⟨x, hx, hw⟩
    obtain ⟨w, hw1, hw2, hw3⟩ := hout r hr x hx
    exact hw3 (hw w hw1 hw2)
  · rintro ⟨⟨r, hr, k1⟩, k2⟩
    exact ⟨r, hr, k1, .inl k2⟩

/-- The full C29 is false: removing a list from itself leaves it as it was. -/
theorem C29_counterexample : ∀ fuel, RangeList.difference dflt [[exMatt]] [[exMatt]] none (fuel + 1) = .ok [[exMatt]] := by
  intro fuel
  have h1 : RangeList.diffOuter dflt none [exMatt] 1 [exMatt] = .ok [exMatt] := by decide +kernel
  have h2 : RangeList.merge dflt (RangeList.ofRanges [exMatt]) none = .ok [[exMatt]] := by decide +kernel
  unfold RangeList.difference RangeList.differenceUpdate
  rw [RangeList.copy_flatten]
  rw [show ([[exMatt]] : RangeList).flatten = [exMatt] from rfl, diffOuter_mono h1 (by omega)]
  exact h2

/-- Without canonical form the difference is wrong even if nothing of it should remain: Matt 5:10-7:2 without Matt
5:20-7:2 and Matt 5:1-19 is left with Matt 5:10-19. -/
theorem C29_not_canonical_counterexample : RangeList.difference dflt [[exMatt]]
    [[⟨⟨.Matt, 5, 20⟩, ⟨.Matt, 7, 2⟩⟩, ⟨⟨.Matt, 5, 1⟩, ⟨.Matt, 5, 19⟩⟩]] none 10 = .ok [[⟨⟨.Matt, 5, 10⟩, ⟨.Matt, 5, 19⟩⟩]] := by
  decide +kernel

/-- The final merge is not given the flags: ranges that are adjacent across a book boundary are left apart. -/
theorem C29_flags_counterexample : RangeList.difference dflt [[⟨⟨.Mal, 4, 5⟩, ⟨.Mal, 4, 6⟩⟩, ⟨⟨.Matt, 1, 1⟩, ⟨.Matt, 1, 3⟩⟩]] []
    (some .MULTIBOOK) 10 = .ok [[⟨⟨.Mal, 4, 5⟩, ⟨.Mal, 4, 6⟩⟩], [⟨⟨.Matt, 1, 1⟩, ⟨.Matt, 1, 3⟩⟩]] := by decide +kernel

example : RangeList.difference dflt exList [[⟨⟨.Matt, 1, 10⟩, ⟨.Matt, 1, 12⟩⟩, ⟨⟨.Matt, 1, 22⟩, ⟨.Matt, 2, 2⟩⟩]] none 20 =
    .ok [[⟨⟨.Matt, 1, 1⟩, ⟨.Matt, 1, 9⟩⟩, ⟨⟨.Matt, 1, 13⟩, ⟨.Matt, 1, 21⟩⟩], [⟨⟨.Matt, 2, 3⟩, ⟨.Matt, 2, 10⟩⟩], [⟨⟨.Mark, 1, 1⟩, ⟨.Mark, 1, 3⟩⟩]] := by
  decide +kernel

theorem exMatt_not_exIn : InRange defaultData exMatt exMatt.start ∧ ¬ InRange defaultData exIn exMatt.start := by
  have hw := defaultData_wf
  have h1 := (rangeOK_iff hw).mp (exMatt_ok true)
  have h3 : pos defaultData exMatt.start < pos defaultData exIn.start :=
    (hw.lt_pos (v0 := true) (w0 := true) (by decide +kernel) (by decide +kernel)).mp (by decide +kernel)
  have := h1.le
  exact ⟨⟨Nat.le_refl _, this⟩, fun hh => by have := hh.1; omega⟩

example : ∃ n m, (∀ fuel ≥ n, RangeList.difference dflt [[exMatt]] [[exIn]] none fuel = .ok m) ∧
    (∀ r ∈ m.flatten, Allowed defaultData dflt.flags r) ∧ Canonical defaultData dflt.flags m.flatten ∧
    (∀ v ∈ canon defaultData false, Covered defaultData m.flatten v ↔
      Covered defaultData ([[exMatt]] : RangeList).flatten v ∧ ¬ Covered defaultData ([[exIn]] : RangeList).flatten v) :=
  C29_difference_partial dflt defaultData_wf none id id [[exMatt]] [[exIn]]
    (fun r hr => by rw [show r = exMatt from by simpa using hr]; exact exMatt_allowed _)
    (fun r hr => by rw [show r = exIn from by simpa using hr]; exact exIn_allowed _) trivial
    (fun r _ x hx _ => by rw [show x = exIn from by simpa using hx]; exact exIn_room)
    (fun r hr x hx => by
      rw [show r = exMatt from by simpa using hr, show x = exIn from by simpa using hx]
      exact ⟨exMatt.start, (exMatt_ok _).1, exMatt_not_exIn⟩)

end Bibleref
