import Verif.Lemmas.HeapOps

set_option linter.unusedSimpArgs false

/-!
# Linked lists in the heap: removing a node
-/

namespace Bibleref
open HM

variable {α : Type} {h h' : Heap α} {L : Nat} {gs gs' : List Grp}

/-- The heap after the first half of `_pop_node`. -/
def unlinked (h : Heap α) (L n : Nat) : Heap α := { h with
  prev := updOpt h.prev (h.next n) (h.prev n)
  next := updOpt h.next (h.prev n) (h.next n)
  first := if h.first L = some n then upd h.first L (h.next n) else h.first
  last := if h.last L = some n then upd h.last L (h.prev n) else h.last
  parent := upd h.parent n none
  nodeCount := upd h.nodeCount L (h.nodeCount L + -1)
  firstHead := if h.nodeCount L = 1 then upd h.firstHead L none else h.firstHead
  lastHead := if h.nodeCount L = 1 then upd h.lastHead L none else h.lastHead }

theorem unlink_run {xs ys : List Nat} {n : Nat} (hl : Links h L (xs ++ n :: ys)) :
    Heap.unlink L n h = (.ok (), unlinked h L n) := by
  obtain ⟨hA, hB, h1, h2, h3⟩ := nodup_mid hl.nodup
  obtain ⟨hpr, hnx⟩ := seg_mid hl.seg
  have hf := hl.fst
  have hla := hl.lst
  have hc := hl.cnt
  unfold Heap.unlink Heap.setFirst Heap.setLast Heap.setFirstHead Heap.setLastHead Heap.setPrev Heap.setNext Heap.clearParent
    Heap.addNodeCount unlinked
  cases xs with
  | nil =>
    cases ys with
    | nil =>
      simp only [List.nil_append, List.head?_cons, List.getLast?_singleton, List.length_singleton] at hf hla hc
      simp only [List.getLast?_nil, List.head?_nil] at hpr hnx
      simp [bind_run, read_run, modify_run, pure_run, hf, hla, hc, hpr, hnx]
    | cons y ys =>
      have hc1 : h.nodeCount L ≠ 1 := by rw [hc]; simp; omega
      have hla' : h.last L ≠ some n := by
        rw [hla]; intro hh
        have hh : (n :: y :: ys).getLast? = some n := hh
        rw [show (n :: y :: ys).getLast? = (y :: ys).getLast? from by simp [List.getLast?_cons]] at hh
        exact h2 (List.mem_of_getLast? hh)
      simp only [List.nil_append, List.head?_cons] at hf
      simp only [List.getLast?_nil, List.head?_cons] at hpr hnx
      simp [bind_run, read_run, modify_run, pure_run, hf, hla', hc1, hpr, hnx, deref_some, updOpt_some]
  | cons x xs =>
    have hc1 : h.nodeCount L ≠ 1 := by rw [hc]; simp; omega
    have hf' : h.first L ≠ some n := by
      rw [hf]; intro hh
      simp only [List.cons_append, List.head?_cons, Option.some.injEq] at hh
      exact h1 (by simp [hh])
    obtain ⟨p, hp⟩ : ∃ p, (x :: xs).getLast? = some p := ⟨_, List.getLast?_cons⟩
    rw [hp] at hpr
    have hpn : p ≠ n := fun hh => h1 (hh ▸ List.mem_of_getLast? hp)
    cases ys with
    | nil =>
      have hla' : h.last L = some n := by rw [hla, List.getLast?_append]; rfl
      simp only [List.head?_nil] at hnx
      simp [bind_run, read_run, modify_run, pure_run, hf', hla', hc1, hpr, hnx, deref_some, updOpt_some]
    | cons y ys =>
      have hla' : h.last L ≠ some n := by
        rw [hla]; intro hh
        rw [show (x :: xs ++ n :: y :: ys).getLast? = (y :: ys).getLast? from by simp [List.getLast?_append, List.getLast?_cons]] at hh
        exact h2 (List.mem_of_getLast? hh)
      simp only [List.head?_cons] at hnx
      simp [bind_run, read_run, modify_run, pure_run, hf', hla', hc1, hpr, hnx, deref_some, updOpt_some, upd_ne _ _ (Ne.symm hpn)]

theorem unlinked_links {xs ys : List Nat} {n : Nat} (hl : Links h L (xs ++ n :: ys)) : Links (unlinked h L n) L (xs ++ ys) := by
  obtain ⟨hA, hB, h1, h2, h3⟩ := nodup_mid hl.nodup
  obtain ⟨hpr, hnx⟩ := seg_mid hl.seg
  have hn : n ∉ xs ++ ys := by simp [h1, h2]
  refine ⟨?_, ?_, ?_, ?_, ?_, ?_, ?_⟩
  · rw [List.nodup_append]
    exact ⟨hA, hB, fun a ha b hb hh => h3 a ha (hh ▸ hb)⟩
  · intro x hx; exact hl.lt x (by simp at hx ⊢; grind)
  · intro x hx
    show upd h.parent n none x = _
    rw [upd_ne _ _ (ne_of_mem_of_not hx hn)]
    exact hl.par x (by simp at hx ⊢; grind)
  · rw [show xs ++ ys = xs ++ [] ++ ys from by simp]
    refine seg_replace (M := [n]) (by simpa using hl.seg) hA hB ?_ ?_ ?_ ?_ ?_ ?_ trivial
    · intro x hx
      show updOpt h.prev (h.next n) (h.prev n) x = _
      rw [hnx, updOpt_apply, if_neg]
      intro hh; exact h3 x hx (List.mem_of_head? hh.symm)
    · intro x hx hxl
      show updOpt h.next (h.prev n) (h.next n) x = _
      rw [hpr, updOpt_apply, if_neg hxl]
    · intro z hz
      show updOpt h.next (h.prev n) (h.next n) z = _
      rw [hpr, updOpt_apply, if_pos hz.symm, hnx]; rfl
    · intro x hx
      show updOpt h.next (h.prev n) (h.next n) x = _
      rw [hpr, updOpt_apply, if_neg]
      intro hh; exact h3 x (List.mem_of_getLast? hh.symm) hx
    · intro x hx hxh
      show updOpt h.prev (h.next n) (h.prev n) x = _
      rw [hnx, updOpt_apply, if_neg hxh]
    · intro z hz
      show updOpt h.prev (h.next n) (h.prev n) z = _
      rw [hnx, updOpt_apply, if_pos hz.symm, hpr]; rfl
  · show (if h.first L = some n then upd h.first L (h.next n) else h.first) L = _
    cases xs with
    | nil =>
      have hf : h.first L = some n := hl.fst
      rw [if_pos hf, upd_same, hnx]; rfl
    | cons x xs =>
      rw [if_neg, hl.fst]
      · rfl
      · rw [hl.fst]; intro hh
        simp only [List.cons_append, List.head?_cons, Option.some.injEq] at hh
        exact h1 (by simp [hh])
  · show (if h.last L = some n then upd h.last L (h.prev n) else h.last) L = _
    cases ys with
    | nil =>
      rw [if_pos (by rw [hl.lst]; simp), upd_same, hpr]; simp
    | cons y ys =>
      have : (xs ++ n :: y :: ys).getLast? = (y :: ys).getLast? := by simp [List.getLast?_append, List.getLast?_cons]
      rw [if_neg, hl.lst, this]
      · simp [List.getLast?_append, List.getLast?_cons]
      · rw [hl.lst, this]; intro hh
        exact h2 (List.mem_of_getLast? hh)
  · show upd h.nodeCount L (h.nodeCount L + -1) L = _
    rw [upd_same, hl.cnt]
    simp
    omega

theorem unlinked_frame {xs : List Nat} {n : Nat} (hl : Links h L xs) (hn : n ∈ xs) : Frame L h (unlinked h L n) := by
  refine ⟨fun x hx hx' => ?_, fun M hM => ?_, Nat.le_refl _, rfl⟩
  · have h1 : x ≠ n := fun hh => hx' (hh ▸ hl.par n hn)
    have h2 : some x ≠ h.prev n := fun hh => hx' (hl.par x ((hl.nb hn).1 x hh.symm))
    have h3 : some x ≠ h.next n := fun hh => hx' (hl.par x ((hl.nb hn).2 x hh.symm))
    simp [unlinked, upd_ne, h1, updOpt_apply, h2, h3]
  · refine ⟨?_, ?_, upd_ne _ _ hM, ?_, ?_, rfl⟩ <;> simp only [unlinked] <;> split <;> first | exact upd_ne _ _ hM | rfl

theorem unlinked_own {n : Nat} {gs gs' : List Grp} (hs : ∀ x, x ∈ nodesOf gs → x ≠ n → x ∈ nodesOf gs')
    (hp : h'.parent = upd h.parent n none) :
    (∀ x, h'.parent x = some L → x ∈ nodesOf gs' ∨ (h.parent x = some L ∧ x ∉ nodesOf gs)) ∧
    ∀ x M, M ≠ L → h'.parent x = some M → h.parent x = some M := by
  refine ⟨fun x hx => ?_, fun x M hM hx => ?_⟩
  · by_cases hxn : x = n
    · rw [hp, hxn, upd_same] at hx; cases hx
    · rw [hp, upd_ne _ _ hxn] at hx
      by_cases hg : x ∈ nodesOf gs
      · exact .inl (hs x hg hxn)
      · exact .inr ⟨hx, hg⟩
  · by_cases hxn : x = n
    · rw [hp, hxn, upd_same] at hx; cases hx
    · rwa [hp, upd_ne _ _ hxn] at hx

theorem popNode_run {n : Nat} {xs ys : List Nat} (hl : Links h L (xs ++ n :: ys)) :
    Heap.popNode L (some n) h = (do
      if h.isHead n then Heap.unlinkHead L n
      HM.read fun h => h.value n : HM α α) (unlinked h L n) := by
  unfold Heap.popNode Heap.checkIsChild
  simp only [bind_run, read_run, hl.par n (by simp), if_true, pure_run, unlink_run hl]
  show _ = (if h.isHead n = true then Heap.unlinkHead L n >>= fun _ => HM.read fun h => h.value n else HM.read fun h => h.value n) _
  rw [show (unlinked h L n).isHead n = h.isHead n from rfl]

/-- Removing a node that does not begin a group. -/
theorem popNode_tail {A B : List Grp} {g n : Nat} {t1 t2 : List Nat} (hr : Rep h L (A ++ (g, t1 ++ n :: t2) :: B)) :
    ∃ h', Heap.popNode L (some n) h = (.ok (h.value n), h') ∧
      Step L h h' (A ++ (g, t1 ++ n :: t2) :: B) (A ++ (g, t1 ++ t2) :: B) ∧ h'.value = h.value ∧ h'.nodes = h.nodes := by
  have hnm : n ∈ nodesOf (A ++ (g, t1 ++ n :: t2) :: B) := by simp
  have hhd : h.isHead n = false := hr.heads.tl (g, t1 ++ n :: t2) (by simp) n (by simp)
  have hl : Links h L ((nodesOf A ++ g :: t1) ++ n :: (t2 ++ nodesOf B)) := by simpa using hr.links
  have hc : h.nodeCount L ≠ 1 := by rw [hl.cnt]; simp; omega
  have hown := unlinked_own (h := h) (L := L) (h' := unlinked h L n) (n := n) (gs := A ++ (g, t1 ++ n :: t2) :: B)
    (gs' := A ++ (g, t1 ++ t2) :: B) (by intro x hx hxn; simp at hx ⊢; grind) rfl
  refine ⟨unlinked h L n, ?_, ⟨⟨?_, ?_⟩, unlinked_frame hr.links hnm, hown.1, hown.2⟩, rfl, rfl⟩
  · rw [popNode_run hl]
    simp only [hhd]; rfl
  · simpa using unlinked_links hl
  · refine ⟨?_, ?_, ?_, ?_, ?_, ?_⟩
    · show Seg h.prevHead h.nextHead _ _ _
      simpa using hr.heads.seg
    · show (if h.nodeCount L = 1 then upd h.firstHead L none else h.firstHead) L = _
      rw [if_neg hc, hr.heads.fst]; simp
    · show (if h.nodeCount L = 1 then upd h.lastHead L none else h.lastHead) L = _
      rw [if_neg hc, hr.heads.lst]; simp
    · exact (hr.heads.cnt).trans (by simp)
    · intro g' hg'
      simp only [List.mem_append, List.mem_cons] at hg'
      rcases hg' with hg' | rfl | hg'
      · exact hr.heads.hd g' (by simp [hg'])
      · exact hr.heads.hd (g, t1 ++ n :: t2) (by simp)
      · exact hr.heads.hd g' (by simp [hg'])
    · intro g' hg' x hx
      simp only [List.mem_append, List.mem_cons] at hg'
      rcases hg' with hg' | rfl | hg'
      · exact hr.heads.tl g' (by simp [hg']) x hx
      · exact hr.heads.tl (g, t1 ++ n :: t2) (by simp) x (by simp at hx ⊢; grind)
      · exact hr.heads.tl g' (by simp [hg']) x hx

/-- The heap after `_pop_node` when the group goes on with the node `y`. -/
def passHead (h : Heap α) (L n y : Nat) : Heap α := { h with
  isHead := upd (upd h.isHead y true) n false
  prevHead := upd (updOpt (upd h.prevHead y (h.prevHead n)) (h.nextHead n) (some y)) n none
  nextHead := upd (updOpt (upd h.nextHead y (h.nextHead n)) (h.prevHead n) (some y)) n none
  firstHead := if h.firstHead L = some n then upd h.firstHead L (some y) else h.firstHead
  lastHead := if h.lastHead L = some n then upd h.lastHead L (some y) else h.lastHead }

theorem passHead_run {n y : Nat} (h1 : h.next n = some y) (h2 : h.isHead y = false) :
    Heap.unlinkHead L n h = (.ok (), passHead h L n y) := by
  unfold Heap.unlinkHead Heap.setIsHead Heap.setPrevHead Heap.setNextHead Heap.setFirstHead Heap.setLastHead Heap.clearGroupHead
    passHead
  cases hp : h.prevHead n <;> cases hq : h.nextHead n <;> by_cases hf : h.firstHead L = some n <;>
    by_cases hl : h.lastHead L = some n <;>
    simp [bind_run, read_run, modify_run, pure_run, h1, h2, hp, hq, hf, hl, updOpt_some]

theorem passHead_heads {A B : List Grp} {n y : Nat} {t : List Nat} (hg : Heads h L (A ++ (n, y :: t) :: B))
    (hN : (nodesOf (A ++ (n, y :: t) :: B)).Nodup) : Heads (passHead h L n y) L (A ++ (y, t) :: B) := by
  have hH : (headsOf (A ++ (n, y :: t) :: B)).Nodup := hN.sublist (headsOf_sublist _)
  have hseg := hg.seg
  rw [headsOf_append, headsOf_cons] at hH hseg
  obtain ⟨hA, hB, k1, k2, k3⟩ := nodup_mid hH
  obtain ⟨hpr, hnx⟩ := seg_mid hseg
  simp only at hpr hnx k1 k2
  have hyh : h.isHead y = false := hg.tl (n, y :: t) (by simp) y (by simp)
  have hne : ∀ g' ∈ A ++ (n, y :: t) :: B, g'.1 ≠ y := by
    intro g' hg' hh
    have := hg.hd g' hg'
    rw [hh, hyh] at this; cases this
  have hny : n ≠ y := hne (n, y :: t) (by simp)
  have mA : ∀ x ∈ headsOf A, x ≠ y := by
    intro x hx
    obtain ⟨c, hc, rfl⟩ := List.mem_map.mp hx
    exact hne c (by simp [hc])
  have mB : ∀ x ∈ headsOf B, x ≠ y := by
    intro x hx
    obtain ⟨c, hc, rfl⟩ := List.mem_map.mp hx
    exact hne c (by simp [hc])
  have hyt : y ∉ t ∧ y ∉ nodesOf A ∧ y ∉ nodesOf B := by
    rw [nodesOf_append, nodesOf_cons,
      show nodesOf A ++ ((n, y :: t).1 :: (n, y :: t).2 ++ nodesOf B) = (nodesOf A ++ [n]) ++ (y :: (t ++ nodesOf B)) from by simp] at hN
    obtain ⟨_, _, j3, j4, _⟩ := nodup_mid hN
    exact ⟨fun hh => j4 (by simp [hh]), fun hh => j3 (by simp [hh]), fun hh => j4 (by simp [hh])⟩
  have htail : ∀ g ∈ A ++ (n, y :: t) :: B, ∀ x ∈ g.2, x ≠ n := by
    intro g hgm x hx hxo
    have h1 := hg.tl g hgm x hx
    have h2 := hg.hd (n, y :: t) (by simp)
    rw [hxo] at h1
    simp only at h2
    rw [h1] at h2; cases h2
  refine ⟨?_, ?_, ?_, ?_, ?_, ?_⟩
  · rw [headsOf_append, headsOf_cons, show headsOf A ++ (y, t).1 :: headsOf B = headsOf A ++ [y] ++ headsOf B from by simp]
    refine seg_replace (M := [n]) (by simpa using hseg) hA hB ?_ ?_ ?_ ?_ ?_ ?_ ?_
    · intro x hx
      show upd (updOpt (upd h.prevHead y (h.prevHead n)) (h.nextHead n) (some y)) n none x = _
      rw [upd_ne _ _ (ne_of_mem_of_not hx k1), updOpt_apply, if_neg, upd_ne _ _ (mA x hx)]
      rw [hnx]; intro hh; exact k3 x hx (List.mem_of_head? hh.symm)
    · intro x hx hxl
      show upd (updOpt (upd h.nextHead y (h.nextHead n)) (h.prevHead n) (some y)) n none x = _
      rw [upd_ne _ _ (ne_of_mem_of_not hx k1), updOpt_apply, if_neg (by rw [hpr]; exact hxl), upd_ne _ _ (mA x hx)]
    · intro z hz
      have hzA := List.mem_of_getLast? hz
      show upd (updOpt (upd h.nextHead y (h.nextHead n)) (h.prevHead n) (some y)) n none z = _
      rw [upd_ne _ _ (ne_of_mem_of_not hzA k1), updOpt_apply, if_pos (by rw [hpr, hz])]; rfl
    · intro x hx
      show upd (updOpt (upd h.nextHead y (h.nextHead n)) (h.prevHead n) (some y)) n none x = _
      rw [upd_ne _ _ (ne_of_mem_of_not hx k2), updOpt_apply, if_neg, upd_ne _ _ (mB x hx)]
      rw [hpr]; intro hh; exact k3 x (List.mem_of_getLast? hh.symm) hx
    · intro x hx hxh
      show upd (updOpt (upd h.prevHead y (h.prevHead n)) (h.nextHead n) (some y)) n none x = _
      rw [upd_ne _ _ (ne_of_mem_of_not hx k2), updOpt_apply, if_neg (by rw [hnx]; exact hxh), upd_ne _ _ (mB x hx)]
    · intro z hz
      have hzB := List.mem_of_head? hz
      show upd (updOpt (upd h.prevHead y (h.prevHead n)) (h.nextHead n) (some y)) n none z = _
      rw [upd_ne _ _ (ne_of_mem_of_not hzB k2), updOpt_apply, if_pos (by rw [hnx, hz])]; rfl
    · refine ⟨?_, ?_, trivial⟩
      · show upd (updOpt (upd h.prevHead y (h.prevHead n)) (h.nextHead n) (some y)) n none y = _
        rw [upd_ne _ _ (Ne.symm hny), updOpt_apply, if_neg, upd_same, hpr]
        rw [hnx]; intro hh; exact mB y (List.mem_of_head? hh.symm) rfl
      · show upd (updOpt (upd h.nextHead y (h.nextHead n)) (h.prevHead n) (some y)) n none y = _
        rw [upd_ne _ _ (Ne.symm hny), updOpt_apply, if_neg, upd_same, hnx]
        · simp
        · rw [hpr]; intro hh; exact mA y (List.mem_of_getLast? hh.symm) rfl
  · show (if h.firstHead L = some n then upd h.firstHead L (some y) else h.firstHead) L = _
    cases A with
    | nil => rw [if_pos (by rw [hg.fst]; rfl), upd_same]; rfl
    | cons a A =>
      rw [if_neg, hg.fst]
      · rfl
      · rw [hg.fst]
        intro hh
        simp only [List.cons_append, headsOf_cons, List.head?_cons, Option.some.injEq] at hh
        exact k1 (by simp [hh])
  · show (if h.lastHead L = some n then upd h.lastHead L (some y) else h.lastHead) L = _
    cases B with
    | nil => rw [if_pos (by rw [hg.lst]; simp), upd_same]; simp
    | cons b B =>
      have : (headsOf (A ++ (n, y :: t) :: b :: B)).getLast? = (headsOf (b :: B)).getLast? := by
        simp [List.getLast?_append, List.getLast?_cons]
      rw [if_neg, hg.lst, this]
      · simp [List.getLast?_append, List.getLast?_cons]
      · rw [hg.lst, this]; intro hh
        exact k2 (List.mem_of_getLast? hh)
  · show h.groupCount L = _
    rw [hg.cnt]; simp
  · intro g hgm
    show upd (upd h.isHead y true) n false g.1 = true
    simp only [List.mem_append, List.mem_cons] at hgm
    rcases hgm with hgm | rfl | hgm
    · rw [upd_ne _ _ (ne_of_mem_of_not (List.mem_map_of_mem hgm) k1), upd_ne _ _ (mA _ (List.mem_map_of_mem hgm))]
      exact hg.hd g (by simp [hgm])
    · rw [upd_ne _ _ (Ne.symm hny), upd_same]
    · rw [upd_ne _ _ (ne_of_mem_of_not (List.mem_map_of_mem hgm) k2), upd_ne _ _ (mB _ (List.mem_map_of_mem hgm))]
      exact hg.hd g (by simp [hgm])
  · intro g hgm x hx
    show upd (upd h.isHead y true) n false x = false
    have hx' : x ≠ y ∧ ∃ c ∈ A ++ (n, y :: t) :: B, x ∈ c.2 := by
      simp only [List.mem_append, List.mem_cons] at hgm
      rcases hgm with hgm | rfl | hgm
      · exact ⟨fun hh => hyt.2.1 (hh ▸ mem_nodesOf.mpr ⟨g, hgm, .inr hx⟩), g, by simp [hgm], hx⟩
      · exact ⟨fun hh => hyt.1 (hh ▸ hx), (n, y :: t), by simp, by simp at hx ⊢; exact .inr hx⟩
      · exact ⟨fun hh => hyt.2.2 (hh ▸ mem_nodesOf.mpr ⟨g, hgm, .inr hx⟩), g, by simp [hgm], hx⟩
    obtain ⟨h1, c, hc, hxc⟩ := hx'
    rw [upd_ne _ _ (htail c hc x hxc), upd_ne _ _ h1]
    exact hg.tl c hc x hxc

theorem head_frame {n : Nat} (hr : Rep h L gs) (hn : n ∈ headsOf gs) {x : Nat} (hx : h.parent x ≠ some L) :
    x ≠ n ∧ some x ≠ h.prevHead n ∧ some x ≠ h.nextHead n := by
  obtain ⟨h1, h2⟩ := hr.head_nb hn
  exact ⟨fun hh => hx (hh ▸ hr.links.par n (mem_headsOf hn)), fun hh => hx (hr.links.par x (mem_headsOf (h1 x hh.symm))),
    fun hh => hx (hr.links.par x (mem_headsOf (h2 x hh.symm)))⟩

/-- Removing the first of several nodes of a group. -/
theorem popNode_head {A B : List Grp} {n y : Nat} {t : List Nat} (hr : Rep h L (A ++ (n, y :: t) :: B)) :
    ∃ h', Heap.popNode L (some n) h = (.ok (h.value n), h') ∧
      Step L h h' (A ++ (n, y :: t) :: B) (A ++ (y, t) :: B) ∧ h'.value = h.value ∧ h'.nodes = h.nodes := by
  have hnm : n ∈ nodesOf (A ++ (n, y :: t) :: B) := by simp
  have hym : y ∈ nodesOf (A ++ (n, y :: t) :: B) := by simp
  have hhd : h.isHead n = true := hr.heads.hd (n, y :: t) (by simp)
  have hyh : h.isHead y = false := hr.heads.tl (n, y :: t) (by simp) y (by simp)
  have hl : Links h L (nodesOf A ++ n :: (y :: t ++ nodesOf B)) := by simpa using hr.links
  have hc : h.nodeCount L ≠ 1 := by rw [hl.cnt]; simp; omega
  have hnx : h.next n = some y := (seg_mid hl.seg).2
  have hpn : h.prev n ≠ some n := by
    rw [(seg_mid hl.seg).1]; intro hh
    exact (nodup_mid hl.nodup).2.2.1 (List.mem_of_getLast? hh)
  have hnx' : (unlinked h L n).next n = some y := by
    show updOpt h.next (h.prev n) (h.next n) n = _
    rw [updOpt_apply, if_neg (Ne.symm hpn), hnx]
  have g1 : Heads (unlinked h L n) L (A ++ (n, y :: t) :: B) := by
    refine ⟨hr.heads.seg, ?_, ?_, hr.heads.cnt, hr.heads.hd, hr.heads.tl⟩
    · show (if h.nodeCount L = 1 then upd h.firstHead L none else h.firstHead) L = _
      rw [if_neg hc, hr.heads.fst]
    · show (if h.nodeCount L = 1 then upd h.lastHead L none else h.lastHead) L = _
      rw [if_neg hc, hr.heads.lst]
  have hown := unlinked_own (h := h) (L := L) (h' := passHead (unlinked h L n) L n y) (n := n) (gs := A ++ (n, y :: t) :: B)
    (gs' := A ++ (y, t) :: B) (by intro x hx hxn; simp at hx ⊢; grind) rfl
  refine ⟨passHead (unlinked h L n) L n y, ?_, ⟨⟨?_, passHead_heads g1 hr.links.nodup⟩, ?_, hown.1, hown.2⟩, rfl, rfl⟩
  · rw [popNode_run hl]
    simp only [hhd, if_true]
    rw [bind_ok (passHead_run hnx' hyh)]
    rfl
  · have := unlinked_links hl
    exact Links.same (h := unlinked h L n) (by simpa using this) rfl rfl rfl rfl rfl rfl rfl
  · refine ⟨fun x hx hx' => ?_, fun M hM => ?_, Nat.le_refl _, rfl⟩
    · obtain ⟨a1, a2, a3, a4, a5, a6, a7⟩ := (unlinked_frame hr.links hnm).node x hx hx'
      obtain ⟨e1, e2, e3⟩ := head_frame hr (n := n) (by simp) hx'
      have e4 : x ≠ y := fun hh => hx' (hh ▸ hr.links.par y hym)
      refine ⟨a1, a2, a3, a4, ?_, ?_, ?_⟩
      · show upd (upd h.isHead y true) n false x = _
        rw [upd_ne _ _ e1, upd_ne _ _ e4]
      · show upd (updOpt (upd h.prevHead y (h.prevHead n)) (h.nextHead n) (some y)) n none x = _
        rw [upd_ne _ _ e1, updOpt_apply, if_neg e3, upd_ne _ _ e4]
      · show upd (updOpt (upd h.nextHead y (h.nextHead n)) (h.prevHead n) (some y)) n none x = _
        rw [upd_ne _ _ e1, updOpt_apply, if_neg e2, upd_ne _ _ e4]
    · obtain ⟨b1, b2, b3, b4, b5, b6⟩ := (unlinked_frame hr.links hnm).list M hM
      refine ⟨b1, b2, b3, ?_, ?_, b6⟩
      · rw [← b4]
        simp only [passHead]
        split
        · exact upd_ne _ _ hM
        · rfl
      · rw [← b5]
        simp only [passHead]
        split
        · exact upd_ne _ _ hM
        · rfl

/-- The heap after `_pop_node` when the group is lost. -/
def loseHead (h : Heap α) (L n : Nat) : Heap α := { h with
  isHead := upd h.isHead n false
  prevHead := upd (updOpt h.prevHead (h.nextHead n) (h.prevHead n)) n none
  nextHead := upd (updOpt h.nextHead (h.prevHead n) (h.nextHead n)) n none
  groupCount := upd h.groupCount L (h.groupCount L + -1)
  firstHead := if h.firstHead L = some n then upd h.firstHead L (h.nextHead n) else h.firstHead
  lastHead := if h.lastHead L = some n then upd h.lastHead L (h.prevHead n) else h.lastHead }

theorem loseHead_run {n : Nat} (h1 : ∀ y, h.next n = some y → h.isHead y = true) :
    Heap.unlinkHead L n h = (.ok (), loseHead h L n) := by
  unfold Heap.unlinkHead Heap.addGroupCount Heap.setPrevHead Heap.setNextHead Heap.setFirstHead Heap.setLastHead
    Heap.clearGroupHead loseHead
  cases hn : h.next n with
  | none =>
    cases hp : h.prevHead n <;> cases hq : h.nextHead n <;> by_cases hf : h.firstHead L = some n <;>
      by_cases hl : h.lastHead L = some n <;>
      simp [bind_run, read_run, modify_run, pure_run, hn, hp, hq, hf, hl, updOpt_some]
  | some y =>
    have hy := h1 y hn
    cases hp : h.prevHead n <;> cases hq : h.nextHead n <;> by_cases hf : h.firstHead L = some n <;>
      by_cases hl : h.lastHead L = some n <;>
      simp [bind_run, read_run, modify_run, pure_run, hn, hy, hp, hq, hf, hl, updOpt_some]

/-- Removing the only node of a group. -/
theorem popNode_only {A B : List Grp} {n : Nat} (hr : Rep h L (A ++ (n, []) :: B)) :
    ∃ h', Heap.popNode L (some n) h = (.ok (h.value n), h') ∧
      Step L h h' (A ++ (n, []) :: B) (A ++ B) ∧ h'.value = h.value ∧ h'.nodes = h.nodes := by
  have hnm : n ∈ nodesOf (A ++ (n, []) :: B) := by simp
  have hhd : h.isHead n = true := hr.heads.hd (n, []) (by simp)
  have hl : Links h L (nodesOf A ++ n :: nodesOf B) := by simpa using hr.links
  have hc : h.nodeCount L = 1 ↔ A = [] ∧ B = [] := by
    rw [hl.cnt]
    constructor
    · intro hh
      have h1 : (nodesOf A).length = 0 ∧ (nodesOf B).length = 0 := by simp at hh; omega
      constructor
      · cases A with
        | nil => rfl
        | cons a A => simp at h1
      · cases B with
        | nil => rfl
        | cons a A => simp at h1
    · rintro ⟨rfl, rfl⟩; rfl
  have hpn : h.prev n ≠ some n := by
    rw [(seg_mid hl.seg).1]; intro hh
    exact (nodup_mid hl.nodup).2.2.1 (List.mem_of_getLast? hh)
  have hnx' : ∀ y, (unlinked h L n).next n = some y → (unlinked h L n).isHead y = true := by
    intro y hy
    have hy : updOpt h.next (h.prev n) (h.next n) n = some y := hy
    rw [updOpt_apply, if_neg (Ne.symm hpn), (seg_mid hl.seg).2, head?_nodesOf] at hy
    obtain ⟨g, hg, rfl⟩ := List.mem_map.mp (List.mem_of_head? hy)
    exact hr.heads.hd g (by simp [hg])
  have hown := unlinked_own (h := h) (L := L) (h' := loseHead (unlinked h L n) L n) (n := n) (gs := A ++ (n, []) :: B)
    (gs' := A ++ B) (by intro x hx hxn; simp at hx ⊢; grind) rfl
  have hH : (headsOf (A ++ (n, []) :: B)).Nodup := hr.links.nodup.sublist (headsOf_sublist _)
  have hseg := hr.heads.seg
  rw [headsOf_append, headsOf_cons] at hH hseg
  obtain ⟨hA, hB, k1, k2, k3⟩ := nodup_mid hH
  obtain ⟨hpr, hnx⟩ := seg_mid hseg
  simp only at hpr hnx k1 k2
  have hfh : (unlinked h L n).firstHead L = if A = [] ∧ B = [] then none else (headsOf (A ++ (n, []) :: B)).head? := by
    show (if h.nodeCount L = 1 then upd h.firstHead L none else h.firstHead) L = _
    by_cases hh : A = [] ∧ B = []
    · rw [if_pos hh, if_pos (hc.mpr hh), upd_same]
    · rw [if_neg hh, if_neg (fun h1 => hh (hc.mp h1)), hr.heads.fst]
  have hlh : (unlinked h L n).lastHead L = if A = [] ∧ B = [] then none else (headsOf (A ++ (n, []) :: B)).getLast? := by
    show (if h.nodeCount L = 1 then upd h.lastHead L none else h.lastHead) L = _
    by_cases hh : A = [] ∧ B = []
    · rw [if_pos hh, if_pos (hc.mpr hh), upd_same]
    · rw [if_neg hh, if_neg (fun h1 => hh (hc.mp h1)), hr.heads.lst]
  refine ⟨loseHead (unlinked h L n) L n, ?_, ⟨⟨?_, ?_⟩, ?_, hown.1, hown.2⟩, rfl, rfl⟩
  · rw [popNode_run hl]
    simp only [hhd, if_true]
    rw [bind_ok (loseHead_run hnx')]
    rfl
  · have := unlinked_links hl
    exact Links.same (h := unlinked h L n) (by simpa using this) rfl rfl rfl rfl rfl rfl rfl
  · refine ⟨?_, ?_, ?_, ?_, ?_, ?_⟩
    · rw [headsOf_append, show headsOf A ++ headsOf B = headsOf A ++ [] ++ headsOf B from by simp]
      refine seg_replace (M := [n]) (by simpa using hseg) hA hB ?_ ?_ ?_ ?_ ?_ ?_ trivial
      · intro x hx
        show upd (updOpt h.prevHead (h.nextHead n) (h.prevHead n)) n none x = _
        rw [upd_ne _ _ (ne_of_mem_of_not hx k1), updOpt_apply, if_neg]
        rw [hnx]; intro hh; exact k3 x hx (List.mem_of_head? hh.symm)
      · intro x hx hxl
        show upd (updOpt h.nextHead (h.prevHead n) (h.nextHead n)) n none x = _
        rw [upd_ne _ _ (ne_of_mem_of_not hx k1), updOpt_apply, if_neg (by rw [hpr]; exact hxl)]
      · intro z hz
        show upd (updOpt h.nextHead (h.prevHead n) (h.nextHead n)) n none z = _
        rw [upd_ne _ _ (ne_of_mem_of_not (List.mem_of_getLast? hz) k1), updOpt_apply, if_pos (by rw [hpr, hz]), hnx]; rfl
      · intro x hx
        show upd (updOpt h.nextHead (h.prevHead n) (h.nextHead n)) n none x = _
        rw [upd_ne _ _ (ne_of_mem_of_not hx k2), updOpt_apply, if_neg]
        rw [hpr]; intro hh; exact k3 x (List.mem_of_getLast? hh.symm) hx
      · intro x hx hxh
        show upd (updOpt h.prevHead (h.nextHead n) (h.prevHead n)) n none x = _
        rw [upd_ne _ _ (ne_of_mem_of_not hx k2), updOpt_apply, if_neg (by rw [hnx]; exact hxh)]
      · intro z hz
        show upd (updOpt h.prevHead (h.nextHead n) (h.prevHead n)) n none z = _
        rw [upd_ne _ _ (ne_of_mem_of_not (List.mem_of_head? hz) k2), updOpt_apply, if_pos (by rw [hnx, hz]), hpr]; rfl
    · show (if (unlinked h L n).firstHead L = some n then upd (unlinked h L n).firstHead L (h.nextHead n)
        else (unlinked h L n).firstHead) L = _
      cases A with
      | nil =>
        cases B with
        | nil =>
          rw [if_pos ⟨rfl, rfl⟩] at hfh
          rw [if_neg (by rw [hfh]; simp), hfh]; rfl
        | cons b B =>
          rw [if_neg (by simp)] at hfh
          rw [if_pos (by rw [hfh]; simp), upd_same, hnx]; rfl
      | cons a A =>
        rw [if_neg (by simp)] at hfh
        rw [if_neg, hfh]
        · rfl
        · rw [hfh]; intro hh
          simp only [List.cons_append, headsOf_cons, List.head?_cons, Option.some.injEq] at hh
          exact k1 (by simp [hh])
    · show (if (unlinked h L n).lastHead L = some n then upd (unlinked h L n).lastHead L (h.prevHead n)
        else (unlinked h L n).lastHead) L = _
      cases B with
      | nil =>
        cases A with
        | nil =>
          rw [if_pos ⟨rfl, rfl⟩] at hlh
          rw [if_neg (by rw [hlh]; simp), hlh]; rfl
        | cons a A =>
          rw [if_neg (by simp)] at hlh
          rw [if_pos (by rw [hlh]; simp [List.getLast?_cons]), upd_same, hpr]; simp
      | cons b B =>
        have hh : (headsOf (A ++ (n, []) :: b :: B)).getLast? = (headsOf (b :: B)).getLast? := by
          simp [List.getLast?_append, List.getLast?_cons]
        rw [if_neg (by simp), hh] at hlh
        rw [if_neg, hlh]
        · simp [List.getLast?_append, List.getLast?_cons]
        · rw [hlh]; intro h1
          exact k2 (List.mem_of_getLast? h1)
    · show upd h.groupCount L (h.groupCount L + -1) L = _
      rw [upd_same, hr.heads.cnt]; simp; omega
    · intro g hgm
      show upd h.isHead n false g.1 = true
      simp only [List.mem_append] at hgm
      rcases hgm with hgm | hgm
      · rw [upd_ne _ _ (ne_of_mem_of_not (List.mem_map_of_mem hgm) k1)]
        exact hr.heads.hd g (by simp [hgm])
      · rw [upd_ne _ _ (ne_of_mem_of_not (List.mem_map_of_mem hgm) k2)]
        exact hr.heads.hd g (by simp [hgm])
    · intro g hgm x hx
      show upd h.isHead n false x = false
      rw [upd_apply]
      split
      · rfl
      · exact hr.heads.tl g (by simp at hgm ⊢; grind) x hx
  · refine ⟨fun x hx hx' => ?_, fun M hM => ?_, Nat.le_refl _, rfl⟩
    · obtain ⟨a1, a2, a3, a4, a5, a6, a7⟩ := (unlinked_frame hr.links hnm).node x hx hx'
      obtain ⟨e1, e2, e3⟩ := head_frame hr (n := n) (by simp) hx'
      refine ⟨a1, a2, a3, a4, upd_ne _ _ e1, ?_, ?_⟩
      · show upd (updOpt h.prevHead (h.nextHead n) (h.prevHead n)) n none x = _
        rw [upd_ne _ _ e1, updOpt_apply, if_neg e3]
      · show upd (updOpt h.nextHead (h.prevHead n) (h.nextHead n)) n none x = _
        rw [upd_ne _ _ e1, updOpt_apply, if_neg e2]
    · obtain ⟨b1, b2, b3, b4, b5, b6⟩ := (unlinked_frame hr.links hnm).list M hM
      refine ⟨b1, b2, b3, ?_, ?_, ?_⟩
      · rw [← b4]
        simp only [loseHead]
        split
        · exact upd_ne _ _ hM
        · rfl
      · rw [← b5]
        simp only [loseHead]
        split
        · exact upd_ne _ _ hM
        · rfl
      · exact upd_ne _ _ hM

end Bibleref
