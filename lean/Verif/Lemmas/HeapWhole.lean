import Verif.Lemmas.HeapPop

set_option linter.unusedSimpArgs false

/-!
# Linked lists in the heap: clearing, clearing groups, reversing
-/

namespace Bibleref
open HM

variable {α : Type} {h h' : Heap α} {L : Nat} {gs gs' : List Grp}

/-- All nodes in one group. -/
def oneGroup : List Nat → List Grp
  | [] => []
  | a :: l => [(a, l)]

@[simp] theorem nodesOf_oneGroup (l : List Nat) : nodesOf (oneGroup l) = l := by
  cases l <;> simp [oneGroup]

/-! ## `clear` -/

theorem clear_step (h : Heap α) (L : Nat) : ∃ h', Heap.clear L h = (.ok (), h') ∧ Rep h' L [] ∧ Frame L h h' ∧ h'.value = h.value ∧
    h'.nodes = h.nodes ∧ h'.parent = h.parent := by
  refine ⟨_, rfl, ⟨⟨.nil, by simp, by simp, trivial, upd_same _ _ _, upd_same _ _ _, upd_same _ _ _⟩,
    ⟨trivial, upd_same _ _ _, upd_same _ _ _, upd_same _ _ _, by simp, by simp⟩⟩, ⟨?_, ?_, Nat.le_refl _, rfl⟩, rfl, rfl, rfl⟩
  · intro x _ _
    exact ⟨rfl, rfl, rfl, rfl, rfl, rfl, rfl⟩
  · intro M hM
    exact ⟨upd_ne _ _ hM, upd_ne _ _ hM, upd_ne _ _ hM, upd_ne _ _ hM, upd_ne _ _ hM, upd_ne _ _ hM⟩

/-! ## `_setup_single_group` -/

/-- The heap after `_setup_single_group`. -/
def setUp (h : Heap α) (L a : Nat) : Heap α := { h with
  isHead := upd h.isHead a true
  prevHead := upd h.prevHead a none
  nextHead := upd h.nextHead a none
  firstHead := upd h.firstHead L (some a)
  lastHead := upd h.lastHead L (some a)
  groupCount := upd h.groupCount L 1 }

theorem setUp_run {a : Nat} {l : List Nat} (hl : Links h L (a :: l)) : Heap.setupSingleGroup L h = (.ok (), setUp h L a) := by
  have hc : h.nodeCount L > 0 := by rw [hl.cnt]; simp
  have hf : h.first L = some a := hl.fst
  unfold Heap.setupSingleGroup Heap.setIsHead Heap.setPrevHead Heap.setNextHead Heap.setFirstHead Heap.setLastHead setUp
  simp [bind_run, read_run, hc, hf, deref_some, modify_run]

theorem setUp_rep {a : Nat} {l : List Nat} (hl : Links h L (a :: l)) (ht : ∀ x ∈ l, h.isHead x = false) :
    Rep (setUp h L a) L [(a, l)] := by
  refine ⟨?_, ⟨⟨upd_same _ _ _, upd_same _ _ _, trivial⟩, upd_same _ _ _, upd_same _ _ _, upd_same _ _ _, ?_, ?_⟩⟩
  · exact Links.same (h := h) (by simpa using hl) rfl rfl rfl rfl rfl rfl rfl
  · intro g hg
    simp only [List.mem_singleton] at hg
    rw [hg]; exact upd_same _ _ _
  · intro g hg x hx
    simp only [List.mem_singleton] at hg
    rw [hg] at hx
    have hx : x ∈ l := hx
    have : x ≠ a := fun hh => (List.nodup_cons.mp hl.nodup).1 (hh ▸ hx)
    exact (upd_ne _ _ this).trans (ht x hx)

theorem setUp_frame {a : Nat} (ha : h.parent a = some L) : Frame L h (setUp h L a) := by
  refine ⟨fun x _ hx => ?_, fun M hM => ⟨rfl, rfl, rfl, upd_ne _ _ hM, upd_ne _ _ hM, upd_ne _ _ hM⟩, Nat.le_refl _, rfl⟩
  have : x ≠ a := fun hh => hx (hh ▸ ha)
  exact ⟨rfl, rfl, rfl, rfl, upd_ne _ _ this, upd_ne _ _ this, upd_ne _ _ this⟩

/-! ## `clear_groups` -/

/-- The heap after `clear_group_head()` has been called for the given nodes. -/
def clearedHeads (h : Heap α) (xs : List Nat) : Heap α := { h with
  isHead := fun x => if x ∈ xs then false else h.isHead x
  prevHead := fun x => if x ∈ xs then none else h.prevHead x
  nextHead := fun x => if x ∈ xs then none else h.nextHead x }

theorem clearHeads_run (h : Heap α) (xs : List Nat) : Heap.clearHeads xs h = (.ok (), clearedHeads h xs) := by
  induction xs generalizing h with
  | nil => simp [Heap.clearHeads, pure_run, clearedHeads]
  | cons a xs ih =>
    rw [Heap.clearHeads, Heap.clearGroupHead, bind_ok (modify_run _ _), ih]
    congr 1
    unfold clearedHeads
    congr 1 <;>
    · funext x
      by_cases h1 : x ∈ xs
      · simp [h1]
      · by_cases h2 : x = a <;> simp [h1, h2, upd_apply]

theorem clearedHeads_frame {xs : List Nat} (hx : ∀ x ∈ xs, h.parent x = some L) : Frame L h (clearedHeads h xs) := by
  refine ⟨fun x _ hx' => ?_, fun M hM => ⟨rfl, rfl, rfl, rfl, rfl, rfl⟩, Nat.le_refl _, rfl⟩
  have : x ∉ xs := fun hh => hx' (hx x hh)
  simp [clearedHeads, this]

theorem own_same (hn : ∀ x, x ∈ nodesOf gs → x ∈ nodesOf gs') (hp : h'.parent = h.parent) :
    (∀ x, h'.parent x = some L → x ∈ nodesOf gs' ∨ (h.parent x = some L ∧ x ∉ nodesOf gs)) ∧
    ∀ x M, M ≠ L → h'.parent x = some M → h.parent x = some M := by
  rw [hp]
  exact ⟨fun x hx => (Classical.em (x ∈ nodesOf gs)).imp (hn x) (fun hh => ⟨hx, hh⟩), fun _ _ _ hx => hx⟩

theorem setup_nil (hr : Rep h L []) : Heap.setupSingleGroup L h = (.ok (), h) := by
  have hc : h.nodeCount L = 0 := hr.links.cnt
  unfold Heap.setupSingleGroup
  simp [bind_run, read_run, hc, pure_run]

theorem clearGroups_step (hr : Rep h L gs) : ∃ h', Heap.clearGroups L h = (.ok (), h') ∧ Step L h h' gs (oneGroup (nodesOf gs)) ∧
    h'.value = h.value ∧ h'.nodes = h.nodes := by
  have hrun : Heap.clearGroups L h = Heap.setupSingleGroup L (clearedHeads h (nodesOf gs)) := by
    unfold Heap.clearGroups
    rw [bind_run, readE_run, hr.ids]
    simp only
    rw [bind_ok (clearHeads_run h (nodesOf gs))]
  have hsub : ∀ x ∈ nodesOf gs, h.parent x = some L := hr.links.par
  cases hx : nodesOf gs with
  | nil =>
    have : gs = [] := by
      cases gs with
      | nil => rfl
      | cons g gs => simp at hx
    subst this
    have hcl : clearedHeads h (nodesOf []) = h := by simp [clearedHeads]
    rw [hcl] at hrun
    exact ⟨h, by rw [hrun, setup_nil hr], Step.refl hr, rfl, rfl⟩
  | cons a l =>
    have hl : Links (clearedHeads h (nodesOf gs)) L (a :: l) := by
      rw [← hx]; exact Links.same (h := h) hr.links rfl rfl rfl rfl rfl rfl rfl
    have hown := own_same (L := L) (h := h) (h' := setUp (clearedHeads h (nodesOf gs)) L a) (gs := gs) (gs' := oneGroup (a :: l))
      (by intro x hxx; rw [nodesOf_oneGroup, ← hx]; exact hxx) rfl
    refine ⟨_, by rw [hrun, setUp_run hl], ⟨setUp_rep hl ?_, ?_, hown.1, hown.2⟩, rfl, rfl⟩
    · intro x hxl
      simp [clearedHeads, hx, hxl]
    · exact (clearedHeads_frame hsub).trans (setUp_frame (hsub a (by rw [hx]; simp)))

/-! ## `reverse` -/

/-- The heap after the loop of `reverse` has passed the given nodes. -/
def swapped (h : Heap α) (xs : List Nat) : Heap α := { h with
  prev := fun x => if x ∈ xs then h.next x else h.prev x
  next := fun x => if x ∈ xs then h.prev x else h.next x
  isHead := fun x => if x ∈ xs then false else h.isHead x
  prevHead := fun x => if x ∈ xs then none else h.prevHead x
  nextHead := fun x => if x ∈ xs then none else h.nextHead x }

theorem reverseFrom_run {l : List Nat} {n : Option Nat} {k : Nat} (hs : Seg h.prev h.next none l n) (hN : l.Nodup) (hk : l.length ≤ k) :
    Heap.reverseFrom k l.getLast? h = (.ok (), swapped h l) := by
  induction k generalizing h l n with
  | zero =>
    have : l = [] := List.eq_nil_of_length_eq_zero (by omega)
    subst this
    simp [Heap.reverseFrom, pure_run, swapped]
  | succ k ih =>
    rcases List.eq_nil_or_concat l with rfl | ⟨l, a, rfl⟩
    · simp [Heap.reverseFrom, pure_run, swapped]
    · rw [List.concat_eq_append] at *
      obtain ⟨h1, h2⟩ := seg_getLast hs
      have ha : a ∉ l := by
        rw [List.nodup_append] at hN
        intro hh; exact hN.2.2 a hh a (by simp) rfl
      have hl : l.Nodup := (List.nodup_append.mp hN).1
      rw [Option.or_none] at h1
      rw [List.getLast?_concat, Heap.reverseFrom]
      unfold Heap.setNext Heap.setPrev Heap.clearGroupHead
      simp only [bind_run, read_run, modify_run, upd_same, h1]
      rw [ih (n := some a) ?_ hl (by simp at hk; omega)]
      · congr 1
        unfold swapped
        congr 1 <;>
        · funext x
          by_cases hx : x = a
          · simp [hx, ha, h1]
          · simp [hx, upd_ne]
      · exact seg_congr h2 (fun x hx => upd_ne _ _ (ne_of_mem_of_not hx ha)) (fun x hx => upd_ne _ _ (ne_of_mem_of_not hx ha))

theorem seg_reverse {pr nx : Nat → Option Nat} {l : List Nat} {p n : Option Nat} (hs : Seg pr nx p l n) : Seg nx pr n l.reverse p := by
  induction l generalizing p with
  | nil => trivial
  | cons a l ih =>
    obtain ⟨h1, h2, h3⟩ := hs
    rw [List.reverse_cons, seg_append]
    refine ⟨by simpa using ih h3, ?_, ?_, trivial⟩
    · rw [h2, List.getLast?_reverse]
    · rw [h1]; rfl

theorem swapped_frame {xs : List Nat} (hx : ∀ x ∈ xs, h.parent x = some L) : Frame L h (swapped h xs) := by
  refine ⟨fun x _ hx' => ?_, fun M hM => ⟨rfl, rfl, rfl, rfl, rfl, rfl⟩, Nat.le_refl _, rfl⟩
  have : x ∉ xs := fun hh => hx' (hx x hh)
  simp [swapped, this]

theorem firstLast_frame (h : Heap α) (L : Nat) (f l : Option Nat) :
    Frame L h { h with first := upd h.first L f, last := upd h.last L l } :=
  ⟨fun _ _ _ => ⟨rfl, rfl, rfl, rfl, rfl, rfl, rfl⟩,
    fun _ hM => ⟨upd_ne _ _ hM, upd_ne _ _ hM, rfl, rfl, rfl, rfl⟩, Nat.le_refl _, rfl⟩

theorem nodesOf_eq_nil {gs : List Grp} (hx : nodesOf gs = []) : gs = [] := by
  cases gs with
  | nil => rfl
  | cons g gs => simp at hx

theorem reverse_step (hr : Rep h L gs) : ∃ h', Heap.reverse L h = (.ok (), h') ∧ Step L h h' gs (oneGroup (nodesOf gs).reverse) ∧
    h'.value = h.value ∧ h'.nodes = h.nodes := by
  have hsub : ∀ x ∈ nodesOf gs, h.parent x = some L := hr.links.par
  cases hx : (nodesOf gs).reverse with
  | nil =>
    have : gs = [] := nodesOf_eq_nil (by simpa using hx)
    subst this
    refine ⟨h, ?_, Step.refl hr, rfl, rfl⟩
    unfold Heap.reverse
    rw [bind_ok hr.len]
    rfl
  | cons a l =>
    have hc : h.nodeCount L ≠ 0 := by
      rw [hr.links.cnt, ← List.length_reverse, hx]; simp; omega
    have hrun : Heap.reverse L h = Heap.setupSingleGroup L { swapped h (nodesOf gs) with
        first := upd h.first L (h.last L), last := upd h.last L (h.first L) } := by
      unfold Heap.reverse Heap.len Heap.setFirst Heap.setLast
      simp only [bind_run, read_run, if_neg hc]
      rw [show h.last L = (nodesOf gs).getLast? from hr.links.lst,
        reverseFrom_run hr.links.seg hr.links.nodup (Nat.le_succ_of_le hr.length_le)]
      simp only [modify_run]
      rfl
    have hl : Links { swapped h (nodesOf gs) with first := upd h.first L (h.last L), last := upd h.last L (h.first L) } L (a :: l) := by
      rw [← hx]
      refine ⟨List.pairwise_reverse.mpr (hr.links.nodup.imp Ne.symm), ?_, ?_, ?_, ?_, ?_, ?_⟩
      · intro x hxx; exact hr.links.lt x (by simpa using hxx)
      · intro x hxx; exact hr.links.par x (by simpa using hxx)
      · refine seg_congr (seg_reverse hr.links.seg) ?_ ?_
        · intro x hxx
          have : x ∈ nodesOf gs := by simpa using hxx
          simp [swapped, this]
        · intro x hxx
          have : x ∈ nodesOf gs := by simpa using hxx
          simp [swapped, this]
      · show upd h.first L (h.last L) L = _
        rw [upd_same, hr.links.lst, List.head?_reverse]
      · show upd h.last L (h.first L) L = _
        rw [upd_same, hr.links.fst, List.getLast?_reverse]
      · show h.nodeCount L = _
        rw [hr.links.cnt, List.length_reverse]
    have hmem : ∀ x, x ∈ a :: l ↔ x ∈ nodesOf gs := by intro x; rw [← hx]; simp
    have hown := own_same (L := L) (h := h) (gs := gs) (gs' := oneGroup (a :: l))
      (h' := setUp { swapped h (nodesOf gs) with first := upd h.first L (h.last L), last := upd h.last L (h.first L) } L a)
      (by intro x hxx; rw [nodesOf_oneGroup]; exact (hmem x).mpr hxx) rfl
    refine ⟨_, by rw [hrun, setUp_run hl], ⟨setUp_rep hl ?_, ?_, hown.1, hown.2⟩, rfl, rfl⟩
    · intro x hxl
      have : x ∈ nodesOf gs := (hmem x).mp (by simp [hxl])
      simp [swapped, this]
    · refine ((swapped_frame hsub).trans (firstLast_frame _ L _ _)).trans (setUp_frame ?_)
      exact hsub a ((hmem a).mp (by simp))

end Bibleref
