import Verif.Props.RangeLists2

/-!
# How union, intersection, difference, containment and counting fit together (C29, C70)

Every law is an equation between calls; `merge` gives a list's simplest form, so that two lists have the same verses just if
their simplest forms are equal (`C26_merge_eq`).
-/

namespace Bibleref
open Spec

/-- The outcome is a list in simplest form with just the given verses. -/
def HasVerses (e : Env) (flags : Option BibleFlag) (x : Except PyErr RangeList) (p : BibleVerse → Prop) : Prop :=
  ∃ m, x = .ok m ∧ (∀ r ∈ m.flatten, Allowed e.data (inForce e flags) r) ∧ RangeList.merge e m flags = .ok m ∧
    ∀ v ∈ canon e.data (inForce e flags).verse0, Covered e.data m.flatten v ↔ p v

section
variable {e : Env} (h : e.data.WF) {flags : Option BibleFlag}
include h

theorem HasVerses.eq {x y : Except PyErr RangeList} {p q : BibleVerse → Prop} (hx : HasVerses e flags x p) (hy : HasVerses e flags y q)
    (hpq : ∀ v ∈ canon e.data (inForce e flags).verse0, p v ↔ q v) : x = y := by
  obtain ⟨m, rfl, h1, h2, h3⟩ := hx
  obtain ⟨k, rfl, k1, k2, k3⟩ := hy
  rw [← h2, ← k2]
  exact (C26_merge_eq e h flags m k h1 k1).mpr fun v hv => by rw [h3 v hv, k3 v hv, hpq v hv]

theorem HasVerses.iff {x y : Except PyErr RangeList} {p q : BibleVerse → Prop} (hx : HasVerses e flags x p) (hy : HasVerses e flags y q) :
    x = y ↔ ∀ v ∈ canon e.data (inForce e flags).verse0, p v ↔ q v := by
  refine ⟨?_, hx.eq h hy⟩
  rintro rfl v hv
  obtain ⟨m, rfl, h1, h2, h3⟩ := hx
  obtain ⟨k, hk, k1, k2, k3⟩ := hy
  cases hk
  rw [← h3 v hv, k3 v hv]

variable {a b : RangeList} (ha : ∀ r ∈ a.flatten, Allowed e.data (inForce e flags) r)
  (hb : ∀ r ∈ b.flatten, Allowed e.data (inForce e flags) r)
include ha

theorem hasVerses_merge : HasVerses e flags (RangeList.merge e a flags) (Covered e.data a.flatten) := by
  obtain ⟨m, h1, h2, h3, _⟩ := C26_merge e h flags a ha
  exact ⟨m, h1, h2, C26_merge_idempotent e h flags a m ha h1, h3⟩

include hb

theorem hasVerses_union : HasVerses e flags (RangeList.union e a b flags) (fun v => Covered e.data a.flatten v ∨ Covered e.data b.flatten v) := by
  obtain ⟨m, h1, h2, h3, _⟩ := C27_union e h flags a b ha hb
  refine ⟨m, h1, h2, C26_merge_idempotent e h flags (Groups.extend (RangeList.copy a) b.flatten) m ?_ h1, h3⟩
  rw [unionUpdate_flatten, RangeList.copy_flatten]
  exact fun r hr => (List.mem_append.mp hr).elim (ha r) (hb r)

theorem hasVerses_intersection :
    HasVerses e flags (RangeList.intersection e a b flags) (fun v => Covered e.data a.flatten v ∧ Covered e.data b.flatten v) := by
  obtain ⟨m, h1, h2, h3, _⟩ := C28_intersection e h flags a b ha hb
  refine ⟨m, h1, h2, ?_, h3⟩
  refine C26_merge_idempotent e h flags (RangeList.ofRanges (RangeList.meets e.data a.flatten b.flatten)) m ?_ ?_
  · rw [RangeList.ofRanges_flatten]
    intro q hq
    have := RangeList.meets_aok (flags := flags) h (l := a.flatten) (m := b.flatten)
      (fun r hr => by rw [eff_eq]; exact (allowed_iff h).mp (ha r hr))
      (fun r hr => by rw [eff_eq]; exact (allowed_iff h).mp (hb r hr)) q hq
    rw [eff_eq] at this
    exact (allowed_iff h).mpr this
  · rw [← h1]; unfold RangeList.intersection
    rw [RangeList.intersectionItems_spec h]
    · rfl
    · intro r hr; rw [eff_eq]; exact (allowed_iff h).mp (ha r hr)
    · intro r hr; rw [eff_eq]; exact (allowed_iff h).mp (hb r hr)

end

theorem hasCard_countP {α : Type} {l : List α} (hl : l.Nodup) {p : α → Prop} {n : Nat} (hn : HasCard (fun a => a ∈ l ∧ p a) n) :
    n = l.countP fun a => @decide (p a) (Classical.propDecidable _) := by
  obtain ⟨k, k1, k2, k3⟩ := hn
  rw [List.countP_eq_length_filter, ← k3]
  refine List.Perm.length_eq ((List.perm_ext_iff_of_nodup k1 (hl.filter _)).mpr fun x => ?_)
  rw [k2, List.mem_filter]
  simp

theorem countP_inclusion {α : Type} (l : List α) (p q : α → Prop) :
    (l.countP fun a => @decide (p a ∨ q a) (Classical.propDecidable _)) + (l.countP fun a => @decide (p a ∧ q a) (Classical.propDecidable _)) =
      (l.countP fun a => @decide (p a) (Classical.propDecidable _)) + (l.countP fun a => @decide (q a) (Classical.propDecidable _)) := by
  induction l with
  | nil => rfl
  | cons x l ih =>
    simp only [List.countP_cons]
    by_cases hp : p x <;> by_cases hq : q x <;> simp [hp, hq] <;> omega

theorem countP_or_eq {α : Type} (l : List α) (p q : α → Prop) :
    ((l.countP fun a => @decide (p a ∨ q a) (Classical.propDecidable _)) = l.countP fun a => @decide (p a) (Classical.propDecidable _)) ↔
      ∀ a ∈ l, q a → p a := by
  have le : ∀ l : List α, (l.countP fun a => @decide (p a) (Classical.propDecidable _)) ≤
      l.countP fun a => @decide (p a ∨ q a) (Classical.propDecidable _) := fun l =>
    List.countP_mono_left fun a _ k => by simp only [decide_eq_true_eq] at k ⊢; exact .inl k
  induction l with
  | nil => simp
  | cons x l ih =>
    have := le l
    simp only [List.countP_cons, List.forall_mem_cons, ← ih]
    by_cases hp : p x <;> by_cases hq : q x <;> simp [hp, hq]
    omega

/-- The number of verses of a list in simplest form. -/
theorem HasVerses.count {e : Env} (h : e.data.WF) {x : Except PyErr RangeList} {p : BibleVerse → Prop} (hx : HasVerses e none x p) {m : RangeList}
    (hm : x = .ok m) : RangeList.verseCount e m =
      .ok ((canon e.data e.flags.verse0).countP fun v => @decide (p v) (Classical.propDecidable _) : Nat) := by
  obtain ⟨_, h1, h2, h3, h4⟩ := hx
  rw [hm] at h1; cases h1
  obtain ⟨n, g1, g2⟩ := C33_merged_verse_count e h m m h2 h3
  rw [g1, hasCard_countP (h.nodup_canon _) g2]
  congr 2
  refine List.countP_congr fun v hv => ?_
  simp only [decide_eq_true_eq]
  exact h4 v hv

/-- C70, the lattice laws (commutativity, associativity and idempotence are `C27_union_laws`, `C28_intersection_laws`): union
and intersection with the empty list, absorption, and distributivity of union over intersection. -/
theorem C70_lattice (e : Env) (h : e.data.WF) (flags : Option BibleFlag) (a b c : RangeList)
    (ha : ∀ r ∈ a.flatten, Allowed e.data (inForce e flags) r) (hb : ∀ r ∈ b.flatten, Allowed e.data (inForce e flags) r)
    (hc : ∀ r ∈ c.flatten, Allowed e.data (inForce e flags) r) :
    RangeList.union e a [] flags = RangeList.merge e a flags ∧ RangeList.intersection e a [] flags = .ok [] ∧
    (∀ ab, RangeList.intersection e a b flags = .ok ab → RangeList.union e a ab flags = RangeList.merge e a flags) ∧
    (∀ ab, RangeList.union e a b flags = .ok ab → RangeList.intersection e a ab flags = RangeList.merge e a flags) ∧
    (∀ bc ab ac, RangeList.intersection e b c flags = .ok bc → RangeList.union e a b flags = .ok ab →
      RangeList.union e a c flags = .ok ac → RangeList.union e a bc flags = RangeList.intersection e ab ac flags) := by
  have hn : ∀ r ∈ ([] : RangeList).flatten, Allowed e.data (inForce e flags) r := fun r hr => by simp at hr
  have hne : ∀ v, ¬ Covered e.data ([] : RangeList).flatten v := fun v ⟨r, hr, _⟩ => by simp at hr
  have hem : RangeList.merge e [] flags = .ok [] := rfl
  refine ⟨?_, ?_, ?_, ?_, ?_⟩
  · exact (hasVerses_union h ha hn).eq h (hasVerses_merge h ha) fun v _ => by simp only [hne, or_false]
  · rw [← hem]
    exact (hasVerses_intersection h ha hn).eq h (hasVerses_merge h hn) fun v _ => by simp only [hne, and_false]
  · intro ab hab
    obtain ⟨_, h1, h2, _, h4⟩ := hasVerses_intersection h ha hb
    rw [hab] at h1; cases h1
    exact (hasVerses_union h ha h2).eq h (hasVerses_merge h ha) fun v hv => by
      rw [h4 v hv]; exact ⟨fun k => k.elim id And.left, .inl⟩
  · intro ab hab
    obtain ⟨_, h1, h2, _, h4⟩ := hasVerses_union h ha hb
    rw [hab] at h1; cases h1
    exact (hasVerses_intersection h ha h2).eq h (hasVerses_merge h ha) fun v hv => by
      rw [h4 v hv]; exact ⟨And.left, fun k => ⟨k, .inl k⟩⟩
  · intro bc ab ac hbc hab hac
    obtain ⟨_, h1, h2, _, h4⟩ := hasVerses_intersection h hb hc
    rw [hbc] at h1; cases h1
    obtain ⟨_, k1, k2, _, k4⟩ := hasVerses_union h ha hb
    rw [hab] at k1; cases k1
    obtain ⟨_, j1, j2, _, j4⟩ := hasVerses_union h ha hc
    rw [hac] at j1; cases j1
    exact (hasVerses_union h ha h2).eq h (hasVerses_intersection h k2 j2) fun v hv => by
      rw [h4 v hv, k4 v hv, j4 v hv]; exact or_and_left

/-- C70: `contains` is the order that belongs to union and intersection: a list contains another just if their union has the
first one's simplest form, just if their intersection has the second one's. It is reflexive and transitive, and two lists
contain each other just if their simplest forms are equal. -/
theorem C70_contains (e : Env) (h : e.data.WF) (flags : Option BibleFlag) (a b c : RangeList)
    (ha : ∀ r ∈ a.flatten, Allowed e.data (inForce e flags) r) (hb : ∀ r ∈ b.flatten, Allowed e.data (inForce e flags) r)
    (hc : ∀ r ∈ c.flatten, Allowed e.data (inForce e flags) r) :
    (RangeList.contains e a b flags = .ok true ↔ RangeList.union e a b flags = RangeList.merge e a flags) ∧
    (RangeList.contains e a b flags = .ok true ↔ RangeList.intersection e a b flags = RangeList.merge e b flags) ∧
    RangeList.contains e a a flags = .ok true ∧
    (RangeList.contains e a b flags = .ok true → RangeList.contains e b c flags = .ok true → RangeList.contains e a c flags = .ok true) ∧
    (RangeList.contains e a b flags = .ok true ∧ RangeList.contains e b a flags = .ok true ↔
      RangeList.merge e a flags = RangeList.merge e b flags) := by
  have key : ∀ {x y : RangeList}, (∀ r ∈ x.flatten, Allowed e.data (inForce e flags) r) →
      (∀ r ∈ y.flatten, Allowed e.data (inForce e flags) r) → (RangeList.contains e x y flags = .ok true ↔
        ∀ v ∈ canon e.data (inForce e flags).verse0, Covered e.data y.flatten v → Covered e.data x.flatten v) := by
    intro x y hx hy
    obtain ⟨r, h1, h2⟩ := C31_contains e h flags x y hx hy
    rw [h1, ← h2]
    exact ⟨fun k => by cases k; rfl, fun k => by rw [k]⟩
  rw [key ha hb, key hb ha, key ha ha, key hb hc, key ha hc, (hasVerses_union h ha hb).iff h (hasVerses_merge h ha),
    (hasVerses_intersection h ha hb).iff h (hasVerses_merge h hb), (hasVerses_merge h ha).iff h (hasVerses_merge h hb)]
  refine ⟨⟨fun k v hv => ⟨fun j => j.elim id (k v hv), .inl⟩, fun k v hv j => (k v hv).mp (.inr j)⟩,
    ⟨fun k v hv => ⟨And.right, fun j => ⟨k v hv j, j⟩⟩, fun k v hv j => ((k v hv).mpr j).1⟩, fun _ _ => id,
    fun k j v hv i => k v hv (j v hv i), ⟨fun k v hv => ⟨k.2 v hv, k.1 v hv⟩, fun k => ⟨fun v hv => (k v hv).mpr, fun v hv => (k v hv).mp⟩⟩⟩

/-- C70: lists are disjoint just if their intersection is empty. -/
theorem C70_disjoint (e : Env) (h : e.data.WF) (flags : Option BibleFlag) (a b : RangeList)
    (ha : ∀ r ∈ a.flatten, Allowed e.data (inForce e flags) r) (hb : ∀ r ∈ b.flatten, Allowed e.data (inForce e flags) r) :
    RangeList.isDisjoint e.data a b = .ok true ↔ RangeList.intersection e a b flags = .ok [] := by
  have hn : ∀ r ∈ ([] : RangeList).flatten, Allowed e.data (inForce e flags) r := fun r hr => by simp at hr
  have hne : ∀ v, ¬ Covered e.data ([] : RangeList).flatten v := fun v ⟨r, hr, _⟩ => by simp at hr
  have hem : RangeList.merge e [] flags = .ok [] := rfl
  rw [(C31_is_disjoint e.data h _ a b (fun r hr => (ha r hr).ok) (fun r hr => (hb r hr).ok)).yes, ← hem,
    (hasVerses_intersection h ha hb).iff h (hasVerses_merge h hn)]
  simp only [hne, iff_false, not_exists, not_and]

/-- C70: the verses of the union and of the intersection are together as many as those of the two lists (inclusion and
exclusion), where `merge` counts each verse once. -/
theorem C70_counts (e : Env) (h : e.data.WF) (a b : RangeList)
    (ha : ∀ r ∈ a.flatten, Allowed e.data e.flags r) (hb : ∀ r ∈ b.flatten, Allowed e.data e.flags r) :
    ∃ u i a' b' nu ni na nb, RangeList.union e a b none = .ok u ∧ RangeList.intersection e a b none = .ok i ∧
      RangeList.merge e a none = .ok a' ∧ RangeList.merge e b none = .ok b' ∧
      RangeList.verseCount e u = .ok nu ∧ RangeList.verseCount e i = .ok ni ∧ RangeList.verseCount e a' = .ok na ∧
      RangeList.verseCount e b' = .ok nb ∧ nu + ni = na + nb ∧ (RangeList.isDisjoint e.data a b = .ok true ↔ ni = 0) ∧
      (RangeList.contains e a b none = .ok true ↔ nu = na) := by
  have hu := hasVerses_union (flags := none) h ha hb
  have hi := hasVerses_intersection (flags := none) h ha hb
  have hA := hasVerses_merge (flags := none) h ha
  have hB := hasVerses_merge (flags := none) h hb
  have ⟨u, u1, _⟩ := hu
  have ⟨i, i1, _⟩ := hi
  have ⟨a', a1, _⟩ := hA
  have ⟨b', b1, _⟩ := hB
  refine ⟨u, i, a', b', _, _, _, _, u1, i1, a1, b1, hu.count h u1, hi.count h i1, hA.count h a1, hB.count h b1, ?_, ?_, ?_⟩
  · have := countP_inclusion (canon e.data e.flags.verse0) (Covered e.data a.flatten) (Covered e.data b.flatten)
    omega
  · rw [(C31_is_disjoint e.data h e.flags.verse0 a b (fun r hr => (ha r hr).ok) (fun r hr => (hb r hr).ok)).yes]
    have := List.countP_eq_zero (l := canon e.data e.flags.verse0)
      (p := fun v => @decide (Covered e.data a.flatten v ∧ Covered e.data b.flatten v) (Classical.propDecidable _))
    simp only [decide_eq_true_eq] at this
    rw [Int.natCast_eq_zero, this]
    simp only [not_exists, not_and]
  · obtain ⟨r, h1, h2⟩ := C31_contains e h none a b ha hb
    have := countP_or_eq (canon e.data e.flags.verse0) (Covered e.data a.flatten) (Covered e.data b.flatten)
    rw [Int.ofNat_inj, this, h1]
    exact ⟨fun k => by cases k; exact h2.mp rfl, fun k => by rw [h2.mpr k]⟩

/-- C29 and counting, when `C29_difference_partial` applies: what is left and what was removed are together the whole list, have
nothing in common, and their numbers of verses add up. Missing: see `C29_counterexample`. -/
theorem C29_laws_partial (e : Env) (h : e.data.WF) (a b : RangeList)
    (ha : ∀ r ∈ a.flatten, Allowed e.data e.flags r) (hb : ∀ r ∈ b.flatten, Allowed e.data e.flags r)
    (cb : Canonical e.data e.flags b.flatten)
    (hroom : ∀ r ∈ a.flatten, ∀ x ∈ b.flatten, (∃ v ∈ canon e.data e.flags.verse0, InRange e.data r v ∧ InRange e.data x v) →
      HasRoom e.data e.flags x.start x.stop)
    (hout : ∀ r ∈ a.flatten, ∀ x ∈ b.flatten, ∃ v ∈ canon e.data e.flags.verse0, InRange e.data r v ∧ ¬ InRange e.data x v) :
    ∃ n m i a' nm ni, (∀ fuel ≥ n, RangeList.difference e a b none fuel = .ok m) ∧ RangeList.intersection e a b none = .ok i ∧
      RangeList.merge e a none = .ok a' ∧
      RangeList.union e m i none = .ok a' ∧ RangeList.intersection e m b none = .ok [] ∧ RangeList.isDisjoint e.data m i = .ok true ∧
      RangeList.verseCount e m = .ok nm ∧ RangeList.verseCount e i = .ok ni ∧ RangeList.verseCount e a' = .ok (nm + ni) := by
  obtain ⟨n, m, h1, h2, h3, h4⟩ := C29_difference_partial e h none id id a b ha hb cb hroom hout
  have h2 : ∀ r ∈ m.flatten, Allowed e.data (inForce e none) r := h2
  have hi := hasVerses_intersection (flags := none) h ha hb
  have hA := hasVerses_merge (flags := none) h ha
  have hM := hasVerses_merge (flags := none) h h2
  have ⟨i, i1, i2, i3, i4⟩ := hi
  have ⟨a', a1, _⟩ := hA
  obtain ⟨m', m1, m2, m3, m4, _⟩ := C26_merge e h none m h2
  have hfl : m'.flatten = m.flatten := C26_canonical_unique e.data h e.flags _ _ m2 h2 m4 h3 m3
  have hok : ∀ r ∈ m.flatten, RangeOK e.data true r := fun r hr => by
    have := (allowed_iff h).mp (h2 r hr)
    exact (rangeOK_iff h).mpr ⟨this.s.mono, this.t.mono, this.le⟩
  have hc : RangeList.verseCount e m = RangeList.verseCount e m' := by
    rw [C33_verse_count e h m hok, C33_verse_count e h m' (by rw [hfl]; exact hok), hfl]
  have hn : ∀ r ∈ ([] : RangeList).flatten, Allowed e.data (inForce e none) r := fun r hr => by simp at hr
  have hne : ∀ v, ¬ Covered e.data ([] : RangeList).flatten v := fun v ⟨r, hr, _⟩ => by simp at hr
  have hem : RangeList.merge e [] none = .ok [] := rfl
  have hdis : ∀ v ∈ canon e.data e.flags.verse0, ¬ (Covered e.data m.flatten v ∧ Covered e.data i.flatten v) := by
    intro v hv
    rw [h4 v hv, i4 v hv]
    exact fun k => k.1.2 k.2.2
  have huni : ∀ v ∈ canon e.data e.flags.verse0, Covered e.data m.flatten v ∨ Covered e.data i.flatten v ↔ Covered e.data a.flatten v := by
    intro v hv
    rw [h4 v hv, i4 v hv]
    refine ⟨fun k => k.elim And.left And.left, fun k => ?_⟩
    by_cases kb : Covered e.data b.flatten v
    · exact .inr ⟨k, kb⟩
    · exact .inl ⟨k, kb⟩
  have hU := hasVerses_union (flags := none) h h2 i2
  have hd : RangeList.isDisjoint e.data m i = .ok true :=
    (C31_is_disjoint e.data h e.flags.verse0 m i (fun r hr => (h2 r hr).ok) (fun r hr => (i2 r hr).ok)).yes.mpr
      fun ⟨v, hv, k⟩ => hdis v hv k
  have hun : RangeList.union e m i none = .ok a' := by rw [← a1]; exact hU.eq h hA huni
  refine ⟨n, m, i, a', _, _, h1, i1, a1, hun, ?_, hd, hc.trans (hM.count h m1), hi.count h i1, ?_⟩
  · rw [← hem]
    refine (hasVerses_intersection (flags := none) h h2 hb).eq h (hasVerses_merge h hn) fun v hv => ?_
    rw [h4 v hv]
    exact ⟨fun k => absurd k.2 k.1.2, fun k => absurd k (hne v)⟩
  · obtain ⟨u, j, m'', i'', nu, nj, nm, ni, g1, g2, g3, g4, g5, g6, g7, g8, g9, g10, _⟩ := C70_counts e h m i h2 i2
    have hj : nj = 0 := g10.mp hd
    rw [hun] at g1; cases g1
    rw [m1] at g3; cases g3
    rw [i3] at g4; cases g4
    rw [hM.count h m1] at g7
    rw [hi.count h i1] at g8
    cases g7; cases g8
    rw [g5]
    congr 1
    omega

/-- A case: two overlapping lists, their union and intersection, and the counts. -/
example : RangeList.union dflt exList [[⟨⟨.Matt, 2, 5⟩, ⟨.Matt, 2, 15⟩⟩]] none =
    .ok [[⟨⟨.Matt, 1, 1⟩, ⟨.Matt, 2, 15⟩⟩], [⟨⟨.Mark, 1, 1⟩, ⟨.Mark, 1, 3⟩⟩]] ∧
    RangeList.intersection dflt exList [[⟨⟨.Matt, 2, 5⟩, ⟨.Matt, 2, 15⟩⟩]] none = .ok [[⟨⟨.Matt, 2, 5⟩, ⟨.Matt, 2, 10⟩⟩]] ∧
    RangeList.verseCount dflt [[⟨⟨.Matt, 1, 1⟩, ⟨.Matt, 2, 15⟩⟩], [⟨⟨.Mark, 1, 1⟩, ⟨.Mark, 1, 3⟩⟩]] = .ok 43 ∧
    RangeList.verseCount dflt [[⟨⟨.Matt, 2, 5⟩, ⟨.Matt, 2, 10⟩⟩]] = .ok 6 ∧
    (RangeList.merge dflt exList none >>= RangeList.verseCount dflt) = .ok 38 ∧
    RangeList.verseCount dflt [[⟨⟨.Matt, 2, 5⟩, ⟨.Matt, 2, 15⟩⟩]] = .ok 11 := by decide +kernel
example : (∀ r ∈ exList.flatten, Allowed dflt.data (inForce dflt none) r) ∧
    ∀ r ∈ ([[exMatt]] : RangeList).flatten, Allowed dflt.data (inForce dflt none) r :=
  ⟨exList_allowed _, fun r hr => by rw [show r = exMatt from by simpa using hr]; exact exMatt_allowed _⟩
/-- A case of the difference law. -/
example := C29_laws_partial dflt defaultData_wf [[exMatt]] [[exIn]]
    (fun r hr => by rw [show r = exMatt from by simpa using hr]; exact exMatt_allowed _)
    (fun r hr => by rw [show r = exIn from by simpa using hr]; exact exIn_allowed _) trivial
    (fun r _ x hx _ => by rw [show x = exIn from by simpa using hx]; exact exIn_room)
    (fun r hr x hx => by
      rw [show r = exMatt from by simpa using hr, show x = exIn from by simpa using hx]
      exact ⟨exMatt.start, (exMatt_ok _).1, exMatt_not_exIn⟩)

end Bibleref
