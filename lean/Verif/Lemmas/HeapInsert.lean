import Verif.Lemmas.Heap

set_option linter.unusedSimpArgs false

/-!
# Linked lists in the heap: inserting
-/

namespace Bibleref
open HM

variable {α : Type} {h : Heap α} {L : Nat}

theorem seg_mid {pr nx : Nat → Option Nat} {A B : List Nat} {a : Nat} (hs : Seg pr nx none (A ++ a :: B) none) :
    pr a = A.getLast? ∧ nx a = B.head? := by
  rw [seg_append] at hs
  obtain ⟨_, h1, h2, _⟩ := hs
  exact ⟨by simpa using h1, by simpa using h2⟩

theorem nodup_mid {A B : List Nat} {a : Nat} (hN : (A ++ a :: B).Nodup) :
    A.Nodup ∧ B.Nodup ∧ a ∉ A ∧ a ∉ B ∧ ∀ x ∈ A, x ∉ B := by
  rw [List.nodup_append, List.nodup_cons] at hN
  obtain ⟨h1, ⟨h2, h3⟩, h4⟩ := hN
  exact ⟨h1, h3, fun hh => h4 a hh a List.mem_cons_self rfl, h2, fun x hx hb => h4 x hx x (List.mem_cons_of_mem _ hb) rfl⟩

theorem ne_of_mem_of_not {A : List Nat} {x a : Nat} (hx : x ∈ A) (ha : a ∉ A) : x ≠ a := fun hh => ha (hh ▸ hx)

/-! ## The chain of nodes -/

theorem newNode_run (v : α) (p n : Option Nat) : Heap.newNode v p n L h = (.ok h.nodes, { h with
    value := upd h.value h.nodes v, parent := upd h.parent h.nodes (some L), prev := upd h.prev h.nodes p,
    next := upd h.next h.nodes n, isHead := upd h.isHead h.nodes false, prevHead := upd h.prevHead h.nodes none,
    nextHead := upd h.nextHead h.nodes none, nodes := h.nodes + 1 }) := rfl

/-- The heap after the first half of `_insert_before`. -/
def linkBefore (h : Heap α) (L n : Nat) (v : α) : Heap α := { h with
  value := upd h.value h.nodes v
  parent := upd h.parent h.nodes (some L)
  prev := upd (upd h.prev h.nodes (h.prev n)) n (some h.nodes)
  next := updOpt (upd h.next h.nodes (some n)) (h.prev n) (some h.nodes)
  isHead := upd h.isHead h.nodes false
  prevHead := upd h.prevHead h.nodes none
  nextHead := upd h.nextHead h.nodes none
  first := if h.first L = some n then upd h.first L (some h.nodes) else h.first
  nodeCount := upd h.nodeCount L (h.nodeCount L + 1)
  nodes := h.nodes + 1 }

theorem insertBefore_run {n : Nat} (v : α) (ng : Bool) (hp : h.parent n = some L) (hne : n ≠ h.nodes) :
    Heap.insertBefore L (some n) v ng h =
      (if ng = true then (if h.first L = some n then Heap.insertNewGroupBeforeHead L h.nodes true
          else Heap.insertNewGroupAtNode L h.nodes)
        else if h.isHead n = true then Heap.insertNewGroupBeforeHead L h.nodes false else pure ()) (linkBefore h L n v) := by
  unfold Heap.insertBefore Heap.checkIsChild
  simp only [bind_run, read_run, hp, if_true, pure_run]
  unfold Heap.newNode Heap.setPrev Heap.setNext Heap.setFirst Heap.addNodeCount linkBefore
  cases hpr : h.prev n with
  | none =>
    by_cases hf : h.first L = some n <;>
    · cases ng <;> by_cases hh : h.isHead n = true <;>
      simp [bind_run, read_run, modify_run, pure_run, hf, hh, upd_ne, hne]
  | some p =>
    by_cases hf : h.first L = some n <;>
    · cases ng <;> by_cases hh : h.isHead n = true <;>
      simp [bind_run, read_run, modify_run, pure_run, hf, hh, upd_ne, hne, updOpt_some]

theorem linkBefore_links {xs ys : List Nat} {n : Nat} (v : α) (hl : Links h L (xs ++ n :: ys)) :
    Links (linkBefore h L n v) L (xs ++ h.nodes :: n :: ys) := by
  have hfresh : ∀ x ∈ xs ++ n :: ys, x ≠ h.nodes := fun x hx => Nat.ne_of_lt (hl.lt x hx)
  obtain ⟨hA, hB, h1, h2, h3⟩ := nodup_mid hl.nodup
  obtain ⟨hpr, hnx⟩ := seg_mid hl.seg
  have hnew : h.nodes ∉ xs ++ n :: ys := fun hh => hfresh _ hh rfl
  have hn : n ≠ h.nodes := hfresh n (by simp)
  refine ⟨?_, ?_, ?_, ?_, ?_, ?_, ?_⟩
  · rw [List.nodup_append, List.nodup_cons]
    have hN := hl.nodup
    rw [List.nodup_append] at hN
    refine ⟨hN.1, ⟨fun hh => hnew (by simp at hh ⊢; exact .inr hh), hN.2.1⟩, ?_⟩
    intro a ha b hb
    rcases List.mem_cons.mp hb with rfl | hb
    · exact hfresh a (by simp [ha])
    · exact hN.2.2 a ha b hb
  · intro x hx
    show x < h.nodes + 1
    simp only [List.mem_append, List.mem_cons] at hx
    by_cases hxx : x = h.nodes
    · omega
    · have := hl.lt x (by simp; grind)
      omega
  · intro x hx
    show upd h.parent h.nodes (some L) x = some L
    rw [upd_apply]
    split
    · rfl
    · rename_i hxx
      exact hl.par x (by simp at hx ⊢; grind)
  · rw [show xs ++ h.nodes :: n :: ys = xs ++ [h.nodes] ++ (n :: ys) from by simp]
    refine seg_replace (M := []) (by simpa using hl.seg) hA (by rw [List.nodup_cons]; exact ⟨h2, hB⟩) ?_ ?_ ?_ ?_ ?_ ?_ ?_
    · intro x hx
      show upd (upd h.prev h.nodes (h.prev n)) n (some h.nodes) x = h.prev x
      rw [upd_ne _ _ (ne_of_mem_of_not hx h1), upd_ne _ _ (hfresh x (by simp [hx]))]
    · intro x hx hne
      show updOpt (upd h.next h.nodes (some n)) (h.prev n) (some h.nodes) x = h.next x
      rw [hpr, updOpt_apply, if_neg hne, upd_ne _ _ (hfresh x (by simp [hx]))]
    · intro z hz
      show updOpt (upd h.next h.nodes (some n)) (h.prev n) (some h.nodes) z = _
      rw [hpr, updOpt_apply, if_pos hz.symm]; rfl
    · intro x hx
      show updOpt (upd h.next h.nodes (some n)) (h.prev n) (some h.nodes) x = h.next x
      rw [hpr, updOpt_apply, if_neg, upd_ne _ _ (hfresh x (by simp at hx ⊢; grind))]
      intro hh
      have hxs := List.mem_of_getLast? hh.symm
      rcases List.mem_cons.mp hx with rfl | hx
      · exact h1 hxs
      · exact h3 x hxs hx
    · intro x hx hne
      show upd (upd h.prev h.nodes (h.prev n)) n (some h.nodes) x = h.prev x
      rw [upd_ne _ _ (fun hh => hne (by rw [hh]; rfl)), upd_ne _ _ (hfresh x (by simp at hx ⊢; grind))]
    · intro z hz
      simp only [List.head?_cons, Option.some.injEq] at hz
      subst hz
      show upd (upd h.prev h.nodes (h.prev n)) n (some h.nodes) n = _
      rw [upd_same]; rfl
    · refine ⟨?_, ?_, trivial⟩
      · show upd (upd h.prev h.nodes (h.prev n)) n (some h.nodes) h.nodes = _
        rw [upd_ne _ _ (Ne.symm hn), upd_same, hpr]
      · show updOpt (upd h.next h.nodes (some n)) (h.prev n) (some h.nodes) h.nodes = _
        rw [hpr, updOpt_apply, if_neg, upd_same]
        · rfl
        · intro hh
          exact hnew (by simp [List.mem_of_getLast? hh.symm])
  · show (if h.first L = some n then upd h.first L (some h.nodes) else h.first) L = _
    cases xs with
    | nil =>
      have hf : h.first L = some n := hl.fst
      rw [if_pos hf, upd_same]; rfl
    | cons a xs =>
      rw [if_neg, hl.fst]
      · rfl
      · rw [hl.fst]
        intro hh
        simp only [List.cons_append, List.head?_cons, Option.some.injEq] at hh
        exact h1 (by simp [hh])
  · show h.last L = _
    rw [hl.lst]
    simp [List.getLast?_append, List.getLast?_cons]
  · show upd h.nodeCount L (h.nodeCount L + 1) L = _
    rw [upd_same, hl.cnt]
    simp
    omega

theorem linkBefore_frame {n : Nat} {v : α} (hn : h.parent n = some L) (hp : ∀ p, h.prev n = some p → h.parent p = some L)
    : Frame L h (linkBefore h L n v) := by
  refine ⟨fun x hx hx' => ?_, fun M hM => ?_, Nat.le_succ _, rfl⟩
  · have h1 : x ≠ h.nodes := by omega
    have h2 : x ≠ n := fun hh => hx' (hh ▸ hn)
    have h3 : some x ≠ h.prev n := fun hh => hx' (hp x hh.symm)
    simp [linkBefore, upd_ne, h1, h2, updOpt_apply, h3]
  · simp only [linkBefore, upd_ne _ _ hM, and_true]
    split
    · exact upd_ne _ _ hM
    · rfl

/-- The heap after the first half of `_insert_after` at the end of the list. -/
def linkLast (h : Heap α) (L n : Nat) (v : α) : Heap α := { h with
  value := upd h.value h.nodes v
  parent := upd h.parent h.nodes (some L)
  prev := upd h.prev h.nodes (some n)
  next := upd (upd h.next h.nodes none) n (some h.nodes)
  isHead := upd h.isHead h.nodes false
  prevHead := upd h.prevHead h.nodes none
  nextHead := upd h.nextHead h.nodes none
  last := upd h.last L (some h.nodes)
  nodeCount := upd h.nodeCount L (h.nodeCount L + 1)
  nodes := h.nodes + 1 }

theorem insertAfter_run {n : Nat} (v : α) (ng : Bool) (hp : h.parent n = some L) (hq : h.next n = none) (hl : h.last L = some n) :
    Heap.insertAfter L (some n) v ng h =
      (if ng = true then Heap.insertNewGroupAtNode L h.nodes else pure ()) (linkLast h L n v) := by
  unfold Heap.insertAfter Heap.checkIsChild Heap.setPrev Heap.setNext Heap.setLast Heap.addNodeCount linkLast
  cases ng <;> simp [bind_run, read_run, hp, pure_run, hq, modify_run, hl, newNode_run]

theorem linkLast_links {xs : List Nat} {n : Nat} (v : α) (hl : Links h L (xs ++ [n])) :
    Links (linkLast h L n v) L (xs ++ [n, h.nodes]) := by
  have hfresh : ∀ x ∈ xs ++ [n], x ≠ h.nodes := fun x hx => Nat.ne_of_lt (hl.lt x hx)
  have hn : n ≠ h.nodes := hfresh n (by simp)
  refine ⟨?_, ?_, ?_, ?_, ?_, ?_, ?_⟩
  · rw [show xs ++ [n, h.nodes] = (xs ++ [n]) ++ [h.nodes] from by simp, List.nodup_append]
    refine ⟨hl.nodup, by simp, ?_⟩
    intro a ha b hb
    simp only [List.mem_singleton] at hb
    rw [hb]; exact hfresh a ha
  · intro x hx
    show x < h.nodes + 1
    by_cases hxx : x = h.nodes
    · omega
    · have := hl.lt x (by simp at hx ⊢; grind)
      omega
  · intro x hx
    show upd h.parent h.nodes (some L) x = some L
    rw [upd_apply]
    split
    · rfl
    · rename_i hxx
      exact hl.par x (by simp at hx ⊢; grind)
  · rw [show xs ++ [n, h.nodes] = (xs ++ [n]) ++ [h.nodes] ++ [] from by simp]
    refine seg_replace (M := []) (by simpa using hl.seg) hl.nodup .nil ?_ ?_ ?_ (by simp) (by simp) (by simp) ?_
    · intro x hx
      exact upd_ne _ _ (hfresh x hx)
    · intro x hx hne
      show upd (upd h.next h.nodes none) n (some h.nodes) x = _
      rw [upd_ne _ _ (fun hh => hne (by rw [hh]; simp)), upd_ne _ _ (hfresh x hx)]
    · intro z hz
      simp only [List.getLast?_concat, Option.some.injEq] at hz
      subst hz
      show upd (upd h.next h.nodes none) n (some h.nodes) n = _
      rw [upd_same]; rfl
    · refine ⟨?_, ?_, trivial⟩
      · show upd h.prev h.nodes (some n) h.nodes = _
        rw [upd_same]; simp
      · show upd (upd h.next h.nodes none) n (some h.nodes) h.nodes = _
        rw [upd_ne _ _ (Ne.symm hn), upd_same]; rfl
  · show h.first L = _
    rw [hl.fst]
    cases xs <;> rfl
  · show upd h.last L (some h.nodes) L = _
    rw [upd_same]
    simp [List.getLast?_append]
  · show upd h.nodeCount L (h.nodeCount L + 1) L = _
    rw [upd_same, hl.cnt]
    simp
    omega

theorem linkLast_frame {n : Nat} {v : α} (hn : h.parent n = some L) : Frame L h (linkLast h L n v) := by
  refine ⟨fun x hx hx' => ?_, fun M hM => ?_, Nat.le_succ _, rfl⟩
  · have h1 : x ≠ h.nodes := by omega
    have h2 : x ≠ n := fun hh => hx' (hh ▸ hn)
    simp [linkLast, upd_ne, h1, h2]
  · simp only [linkLast, upd_ne _ _ hM, and_true]

/-! ## The chain of group heads -/

/-- A change that leaves the chain of nodes alone. -/
theorem Links.same {h h' : Heap α} {xs : List Nat} (hl : Links h L xs) (h1 : h'.nodes = h.nodes) (h2 : h'.parent = h.parent)
    (h3 : h'.prev = h.prev) (h4 : h'.next = h.next) (h5 : h'.first L = h.first L) (h6 : h'.last L = h.last L)
    (h7 : h'.nodeCount L = h.nodeCount L) : Links h' L xs :=
  ⟨hl.nodup, by rw [h1]; exact hl.lt, by rw [h2]; exact hl.par, by rw [h3, h4]; exact hl.seg, h5.trans hl.fst, h6.trans hl.lst,
    h7.trans hl.cnt⟩

/-- Adding a node that is not a head (as far as the heads are concerned). -/
theorem Heads.addNode {h h' : Heap α} {gs gs' : List Grp} (hg : Heads h L gs) (hh : headsOf gs' = headsOf gs) (hlt : ∀ x ∈ nodesOf gs, x < h.nodes)
    (h1 : h'.isHead = upd h.isHead h.nodes false) (h2 : h'.prevHead = upd h.prevHead h.nodes none)
    (h3 : h'.nextHead = upd h.nextHead h.nodes none) (h4 : h'.firstHead L = h.firstHead L) (h5 : h'.lastHead L = h.lastHead L)
    (h6 : h'.groupCount L = h.groupCount L) (htl : ∀ g ∈ gs', ∀ x ∈ g.2, x = h.nodes ∨ ∃ g' ∈ gs, x ∈ g'.2) : Heads h' L gs' := by
  have hne : ∀ x ∈ headsOf gs, x ≠ h.nodes := fun x hx => Nat.ne_of_lt (hlt x (mem_headsOf hx))
  refine ⟨?_, by rw [h4, hh, hg.fst], by rw [h5, hh, hg.lst], ?_, ?_, ?_⟩
  · rw [hh, h2, h3]
    exact seg_congr hg.seg (fun x hx => upd_ne _ _ (hne x hx)) (fun x hx => upd_ne _ _ (hne x hx))
  · rw [h6, hg.cnt, ← length_headsOf gs, ← hh, length_headsOf]
  · intro g hgm
    have : g.1 ∈ headsOf gs := by rw [← hh]; exact List.mem_map_of_mem hgm
    rw [h1, upd_ne _ _ (hne _ this)]
    obtain ⟨g', hg', hgg⟩ := List.mem_map.mp this
    rw [← hgg]; exact hg.hd g' hg'
  · intro g hgm x hx
    rw [h1, upd_apply]
    split
    · rfl
    · rename_i hxn
      rcases htl g hgm x hx with hh | ⟨g', hg', hx'⟩
      · exact absurd hh hxn
      · exact hg.tl g' hg' x hx'

/-- The heap after `_insert_new_group_before_head` when the old head stays a head. -/
def keepHead (h : Heap α) (L n old : Nat) : Heap α := { h with
  isHead := upd h.isHead n true
  prevHead := upd (upd h.prevHead n none) old (some n)
  nextHead := upd h.nextHead n (some old)
  groupCount := upd h.groupCount L (h.groupCount L + 1)
  firstHead := upd h.firstHead L (some n) }

theorem keepHead_run {n old : Nat} (h1 : h.next n = some old) (h2 : h.prevHead old = none) (h3 : h.firstHead L = some old) :
    Heap.insertNewGroupBeforeHead L n true h = (.ok (), keepHead h L n old) := by
  unfold Heap.insertNewGroupBeforeHead Heap.setIsHead Heap.setPrevHead Heap.setNextHead Heap.addGroupCount Heap.setFirstHead keepHead
  simp [bind_run, read_run, h1, deref_some, modify_run, pure_run, h2, h3]

theorem keepHead_heads {n old : Nat} {t : List Nat} {B : List Grp} (hg : Heads h L ((old, t) :: B))
    (hN : (nodesOf ((old, t) :: B)).Nodup) (hn : n ∉ nodesOf ((old, t) :: B)) :
    Heads (keepHead h L n old) L ((n, []) :: (old, t) :: B) := by
  have hne : ∀ x ∈ nodesOf ((old, t) :: B), x ≠ n := fun x hx => ne_of_mem_of_not hx hn
  have hH : (headsOf ((old, t) :: B)).Nodup := hN.sublist (headsOf_sublist _)
  rw [headsOf_cons, List.nodup_cons] at hH
  refine ⟨?_, upd_same _ _ _, ?_, ?_, ?_, ?_⟩
  · rw [show headsOf ((n, []) :: (old, t) :: B) = [] ++ [n] ++ headsOf ((old, t) :: B) from rfl]
    refine seg_replace (M := []) (by simpa using hg.seg) .nil (by rw [headsOf_cons, List.nodup_cons]; exact hH) (by simp) (by simp)
      (by simp) ?_ ?_ ?_ ?_
    · intro x hx
      exact upd_ne _ _ (hne x (mem_headsOf hx))
    · intro x hx hxh
      show upd (upd h.prevHead n none) old (some n) x = _
      rw [upd_ne _ _ (fun hh => hxh (by rw [hh]; rfl)), upd_ne _ _ (hne x (mem_headsOf hx))]
    · intro z hz
      simp only [headsOf_cons, List.head?_cons, Option.some.injEq] at hz
      subst hz
      exact upd_same _ _ _
    · refine ⟨?_, ?_, trivial⟩
      · show upd (upd h.prevHead n none) old (some n) n = _
        rw [upd_ne _ _ (Ne.symm (hne old (by simp))), upd_same]; rfl
      · show upd h.nextHead n (some old) n = _
        rw [upd_same]; rfl
  · show h.lastHead L = _
    rw [hg.lst]
    simp [List.getLast?_cons]
  · show upd h.groupCount L (h.groupCount L + 1) L = _
    rw [upd_same, hg.cnt]; simp
  · intro g hgm
    show upd h.isHead n true g.1 = true
    rcases List.mem_cons.mp hgm with rfl | hgm
    · exact upd_same _ _ _
    · rw [upd_ne _ _ (hne g.1 (mem_nodesOf.mpr ⟨g, hgm, .inl rfl⟩))]
      exact hg.hd g hgm
  · intro g hgm x hx
    show upd h.isHead n true x = false
    rcases List.mem_cons.mp hgm with rfl | hgm
    · cases hx
    · rw [upd_ne _ _ (hne x (mem_nodesOf.mpr ⟨g, hgm, .inr hx⟩))]
      exact hg.tl g hgm x hx

theorem keepHead_frame {n old : Nat} (hn : h.parent n = some L) (ho : h.parent old = some L) : Frame L h (keepHead h L n old) := by
  refine ⟨fun x hx hx' => ?_, fun M hM => ?_, Nat.le_refl _, rfl⟩
  · have h1 : x ≠ n := fun hh => hx' (hh ▸ hn)
    have h2 : x ≠ old := fun hh => hx' (hh ▸ ho)
    simp [keepHead, upd_ne, h1, h2]
  · simp only [keepHead, upd_ne _ _ hM, and_true]

/-- The heap after `_insert_new_group_before_head` when the old head is no longer one. -/
def displace (h : Heap α) (L n old : Nat) : Heap α := { h with
  isHead := upd (upd h.isHead n true) old false
  prevHead := upd (updOpt (upd h.prevHead n (h.prevHead old)) (h.nextHead old) (some n)) old none
  nextHead := upd (upd (updOpt h.nextHead (h.prevHead old) (some n)) n (h.nextHead old)) old none
  lastHead := if h.nextHead old = none ∧ h.lastHead L = some old then upd h.lastHead L (some n) else h.lastHead
  firstHead := if h.firstHead L = some old then upd h.firstHead L (some n) else h.firstHead }

theorem displace_run {n old : Nat} (h1 : h.next n = some old) (h2 : h.prevHead old ≠ some old) :
    Heap.insertNewGroupBeforeHead L n false h = (.ok (), displace h L n old) := by
  unfold Heap.insertNewGroupBeforeHead Heap.setIsHead Heap.setPrevHead Heap.setNextHead Heap.clearGroupHead Heap.setFirstHead
    Heap.setLastHead displace
  cases hp : h.prevHead old with
  | none =>
    cases hq : h.nextHead old with
    | none =>
      by_cases hf : h.firstHead L = some old <;> by_cases hl : h.lastHead L = some old <;>
      simp [bind_run, read_run, h1, deref_some, modify_run, pure_run, hp, hq, hf, hl]
    | some q =>
      by_cases hf : h.firstHead L = some old <;>
      simp [bind_run, read_run, h1, deref_some, modify_run, pure_run, hp, hq, hf, updOpt_some]
  | some p =>
    have hpo : old ≠ p := fun hh => h2 (by rw [hp, hh])
    cases hq : h.nextHead old with
    | none =>
      by_cases hf : h.firstHead L = some old <;> by_cases hl : h.lastHead L = some old <;>
      simp [bind_run, read_run, h1, deref_some, modify_run, pure_run, hp, hq, hf, hl, updOpt_some, upd_ne _ _ hpo]
    | some q =>
      by_cases hf : h.firstHead L = some old <;>
      simp [bind_run, read_run, h1, deref_some, modify_run, pure_run, hp, hq, hf, updOpt_some, upd_ne _ _ hpo]

theorem displace_heads {n old : Nat} {t : List Nat} {A B : List Grp} (hg : Heads h L (A ++ (old, t) :: B))
    (hN : (nodesOf (A ++ (old, t) :: B)).Nodup) (hn : n ∉ nodesOf (A ++ (old, t) :: B)) :
    Heads (displace h L n old) L (A ++ (n, old :: t) :: B) := by
  have hne : ∀ x ∈ nodesOf (A ++ (old, t) :: B), x ≠ n := fun x hx => ne_of_mem_of_not hx hn
  have hneh : ∀ x ∈ headsOf (A ++ (old, t) :: B), x ≠ n := fun x hx => hne x (mem_headsOf hx)
  have hH : (headsOf (A ++ (old, t) :: B)).Nodup := hN.sublist (headsOf_sublist _)
  have hseg := hg.seg
  rw [headsOf_append, headsOf_cons] at hH hseg
  obtain ⟨hA, hB, k1, k2, k3⟩ := nodup_mid hH
  obtain ⟨hpr, hnx⟩ := seg_mid hseg
  simp only at hpr hnx k1 k2
  have hold : old ≠ n := hne old (by simp)
  have mA : ∀ x ∈ headsOf A, x ≠ n := fun x hx => hneh x (by simp [hx])
  have mB : ∀ x ∈ headsOf B, x ≠ n := fun x hx => hneh x (by simp [hx])
  have htail : ∀ g ∈ A ++ (old, t) :: B, ∀ x ∈ g.2, x ≠ old := by
    intro g hgm x hx hxo
    have h1 := hg.tl g hgm x hx
    have h2 := hg.hd (old, t) (by simp)
    rw [hxo] at h1
    simp only at h2
    rw [h1] at h2; cases h2
  refine ⟨?_, ?_, ?_, ?_, ?_, ?_⟩
  · rw [headsOf_append, headsOf_cons, show headsOf A ++ (n, old :: t).1 :: headsOf B = headsOf A ++ [n] ++ headsOf B from by simp]
    refine seg_replace (M := [old]) (by simpa using hseg) hA hB ?_ ?_ ?_ ?_ ?_ ?_ ?_
    · intro x hx
      show upd (updOpt (upd h.prevHead n (h.prevHead old)) (h.nextHead old) (some n)) old none x = _
      rw [upd_ne _ _ (ne_of_mem_of_not hx k1), updOpt_apply, if_neg, upd_ne _ _ (mA x hx)]
      rw [hnx]; intro hh; exact k3 x hx (List.mem_of_head? hh.symm)
    · intro x hx hxl
      show upd (upd (updOpt h.nextHead (h.prevHead old) (some n)) n (h.nextHead old)) old none x = _
      rw [upd_ne _ _ (ne_of_mem_of_not hx k1), upd_ne _ _ (mA x hx), updOpt_apply, if_neg]
      rw [hpr]; exact hxl
    · intro z hz
      have hzA := List.mem_of_getLast? hz
      show upd (upd (updOpt h.nextHead (h.prevHead old) (some n)) n (h.nextHead old)) old none z = _
      rw [upd_ne _ _ (ne_of_mem_of_not hzA k1), upd_ne _ _ (mA z hzA), updOpt_apply, if_pos (by rw [hpr, hz])]; rfl
    · intro x hx
      show upd (upd (updOpt h.nextHead (h.prevHead old) (some n)) n (h.nextHead old)) old none x = _
      rw [upd_ne _ _ (ne_of_mem_of_not hx k2), upd_ne _ _ (mB x hx), updOpt_apply, if_neg]
      rw [hpr]; intro hh; exact k3 x (List.mem_of_getLast? hh.symm) hx
    · intro x hx hxh
      show upd (updOpt (upd h.prevHead n (h.prevHead old)) (h.nextHead old) (some n)) old none x = _
      rw [upd_ne _ _ (ne_of_mem_of_not hx k2), updOpt_apply, if_neg (by rw [hnx]; exact hxh), upd_ne _ _ (mB x hx)]
    · intro z hz
      have hzB := List.mem_of_head? hz
      show upd (updOpt (upd h.prevHead n (h.prevHead old)) (h.nextHead old) (some n)) old none z = _
      rw [upd_ne _ _ (ne_of_mem_of_not hzB k2), updOpt_apply, if_pos (by rw [hnx, hz])]; rfl
    · refine ⟨?_, ?_, trivial⟩
      · show upd (updOpt (upd h.prevHead n (h.prevHead old)) (h.nextHead old) (some n)) old none n = _
        rw [upd_ne _ _ (Ne.symm hold), updOpt_apply, if_neg, upd_same, hpr]
        rw [hnx]; intro hh; exact mB n (List.mem_of_head? hh.symm) rfl
      · show upd (upd (updOpt h.nextHead (h.prevHead old) (some n)) n (h.nextHead old)) old none n = _
        rw [upd_ne _ _ (Ne.symm hold), upd_same, hnx]; simp
  · show (if h.firstHead L = some old then upd h.firstHead L (some n) else h.firstHead) L = _
    cases A with
    | nil => rw [if_pos (by rw [hg.fst]; rfl), upd_same]; rfl
    | cons a A =>
      rw [if_neg, hg.fst]
      · rfl
      · rw [hg.fst]
        intro hh
        simp only [List.cons_append, headsOf_cons, List.head?_cons, Option.some.injEq] at hh
        exact k1 (by simp [hh])
  · show (if h.nextHead old = none ∧ h.lastHead L = some old then upd h.lastHead L (some n) else h.lastHead) L = _
    rw [hnx]
    cases B with
    | nil =>
      rw [if_pos ⟨rfl, by rw [hg.lst]; simp⟩, upd_same]; simp
    | cons b B =>
      rw [if_neg (by simp), hg.lst]
      simp [List.getLast?_append, List.getLast?_cons]
  · show h.groupCount L = _
    rw [hg.cnt]; simp
  · intro g hgm
    show upd (upd h.isHead n true) old false g.1 = true
    have hcase : g = (n, old :: t) ∨ (g ∈ A ∨ g ∈ B) := by simp at hgm; grind
    rcases hcase with rfl | hgm
    · rw [upd_ne _ _ (Ne.symm hold), upd_same]
    · have hgm' : g ∈ A ++ (old, t) :: B := by simp; grind
      rw [upd_ne, upd_ne _ _ (hne g.1 (mem_nodesOf.mpr ⟨g, hgm', .inl rfl⟩))]
      · exact hg.hd g hgm'
      · rcases hgm with hgm | hgm
        · exact ne_of_mem_of_not (List.mem_map_of_mem hgm) k1
        · exact ne_of_mem_of_not (List.mem_map_of_mem hgm) k2
  · intro g hgm x hx
    show upd (upd h.isHead n true) old false x = false
    by_cases hxo : x = old
    · rw [hxo, upd_same]
    · rw [upd_ne _ _ hxo]
      have hcase : ∃ g' ∈ A ++ (old, t) :: B, x ∈ g'.2 := by
        simp only [List.mem_append, List.mem_cons] at hgm
        rcases hgm with hgm | rfl | hgm
        · exact ⟨g, by simp [hgm], hx⟩
        · rcases List.mem_cons.mp hx with hx | hx
          · exact absurd hx hxo
          · exact ⟨(old, t), by simp, hx⟩
        · exact ⟨g, by simp [hgm], hx⟩
      obtain ⟨g', hg', hx'⟩ := hcase
      rw [upd_ne _ _ (hne x (mem_nodesOf.mpr ⟨g', hg', .inr hx'⟩))]
      exact hg.tl g' hg' x hx'

theorem displace_frame {n old : Nat} (hn : h.parent n = some L) (ho : h.parent old = some L)
    (hp : ∀ p, h.prevHead old = some p → h.parent p = some L) (hq : ∀ p, h.nextHead old = some p → h.parent p = some L) :
    Frame L h (displace h L n old) := by
  refine ⟨fun x hx hx' => ?_, fun M hM => ?_, Nat.le_refl _, rfl⟩
  · have h1 : x ≠ n := fun hh => hx' (hh ▸ hn)
    have h2 : x ≠ old := fun hh => hx' (hh ▸ ho)
    have h3 : some x ≠ h.prevHead old := fun hh => hx' (hp x hh.symm)
    have h4 : some x ≠ h.nextHead old := fun hh => hx' (hq x hh.symm)
    simp [displace, upd_ne, h1, h2, updOpt_apply, h3, h4]
  · simp only [displace, and_true, true_and]
    constructor
    · split
      · exact upd_ne _ _ hM
      · rfl
    · split
      · exact upd_ne _ _ hM
      · rfl

/-- The heap after `_insert_new_group_at_node` in the group with head `g`. -/
def newGroupAt (h : Heap α) (L n g : Nat) : Heap α := { h with
  isHead := upd h.isHead n true
  prevHead := updOpt (upd h.prevHead n (some g)) (h.nextHead g) (some n)
  nextHead := upd (upd h.nextHead n (h.nextHead g)) g (some n)
  lastHead := if h.lastHead L = some g then upd h.lastHead L (some n) else h.lastHead
  groupCount := upd h.groupCount L (h.groupCount L + 1) }

theorem findHead_spec {h : Heap α} {g : Nat} {t : List Nat} {p n : Option Nat} {k : Nat} (hs : Seg h.prev h.next p (g :: t) n)
    (hg : h.isHead g = true) (ht : ∀ x ∈ t, h.isHead x = false) (hk : t.length < k) :
    Heap.findHeadFrom h k (g :: t).getLast? = .ok (some g) := by
  induction k generalizing t n with
  | zero => omega
  | succ k ih =>
    rcases List.eq_nil_or_concat t with rfl | ⟨t, a, rfl⟩
    · rw [show [g].getLast? = some g from rfl, Heap.findHeadFrom, if_pos hg]
    · rw [List.concat_eq_append] at *
      rw [← List.cons_append] at hs ⊢
      obtain ⟨h1, h2⟩ := seg_getLast hs
      rw [List.getLast?_concat, Heap.findHeadFrom, if_neg (by rw [ht a (by simp)]; simp), h1]
      rw [show (g :: t).getLast?.or p = (g :: t).getLast? from by simp [List.getLast?_cons]]
      exact ih h2 (fun x hx => ht x (by simp [hx])) (by simp at hk; omega)

theorem newGroupAt_run {n g : Nat} {t1 t2 : List Nat} {A B : List Grp} (hl : Links h L (nodesOf (A ++ (g, t1 ++ n :: t2) :: B)))
    (hg : Heads h L (A ++ (g, t1 ++ n :: t2) :: B)) :
    Heap.insertNewGroupAtNode L n h = (.ok (), newGroupAt h L n g) := by
  have hN := hl.nodup
  have hseg := hl.seg
  have hlen := nodup_length_le hl.nodup hl.lt
  rw [nodesOf_append, nodesOf_cons,
    show nodesOf A ++ ((g, t1 ++ n :: t2).1 :: (g, t1 ++ n :: t2).2 ++ nodesOf B) = nodesOf A ++ ((g :: t1) ++ (n :: (t2 ++ nodesOf B))) from by simp]
    at hN hseg hlen
  have hN2 := hN
  rw [← List.append_assoc] at hN2
  obtain ⟨_, _, k1, _, _⟩ := nodup_mid hN2
  have hng : n ≠ g := fun hh => k1 (by simp [hh])
  have hgn : g ≠ n := Ne.symm hng
  rw [seg_append, seg_append] at hseg
  obtain ⟨_, s1, s2, _⟩ := hseg
  have hfirst : h.first L ≠ some n := by
    rw [hl.fst, nodesOf_append]
    intro hh
    cases A with
    | nil => simp at hh; exact hgn hh
    | cons a A => simp at hh; exact k1 (by simp [hh])
  unfold Heap.insertNewGroupAtNode Heap.findGroupHead
  simp only [bind_run, read_run, if_neg hfirst]
  unfold Heap.setIsHead
  rw [modify_run]
  simp only [readE_run]
  have hfind : Heap.findHeadFrom { h with isHead := upd h.isHead n true } (h.nodes + 1) (h.prev n) = .ok (some g) := by
    rw [s2]
    rw [show (g :: t1).getLast?.or ((nodesOf A).getLast?.or none) = (g :: t1).getLast? from by simp [List.getLast?_cons]]
    refine findHead_spec (h := { h with isHead := upd h.isHead n true }) s1 ?_ ?_ ?_
    · show upd h.isHead n true g = true
      rw [upd_ne _ _ hgn]; exact hg.hd (g, t1 ++ n :: t2) (by simp)
    · intro x hx
      show upd h.isHead n true x = false
      rw [upd_ne _ _ (fun hh => k1 (by simp [← hh, hx]))]
      exact hg.tl (g, t1 ++ n :: t2) (by simp) x (by simp [hx])
    · simp at hlen ⊢; omega
  rw [hfind]
  unfold Heap.setPrevHead Heap.setNextHead Heap.setLastHead Heap.addGroupCount newGroupAt
  cases hq : h.nextHead g with
  | none =>
    by_cases hlh : h.lastHead L = some g <;>
    simp [bind_run, read_run, deref_some, modify_run, pure_run, hq, hlh]
  | some q =>
    by_cases hlh : h.lastHead L = some g <;>
    simp [bind_run, read_run, deref_some, modify_run, pure_run, hq, hlh, updOpt_some]

theorem newGroupAt_heads {n g : Nat} {t1 t2 : List Nat} {A B : List Grp} (hN : (nodesOf (A ++ (g, t1 ++ n :: t2) :: B)).Nodup)
    (hg : Heads h L (A ++ (g, t1 ++ n :: t2) :: B)) :
    Heads (newGroupAt h L n g) L (A ++ (g, t1) :: (n, t2) :: B) := by
  have hH : (headsOf (A ++ (g, t1 ++ n :: t2) :: B)).Nodup := hN.sublist (headsOf_sublist _)
  have hseg := hg.seg
  rw [headsOf_append, headsOf_cons] at hH hseg
  obtain ⟨hA, hB, k1, k2, k3⟩ := nodup_mid hH
  obtain ⟨hpr, hnx⟩ := seg_mid hseg
  simp only at hpr hnx k1 k2
  have hnh : h.isHead n = false := hg.tl (g, t1 ++ n :: t2) (by simp) n (by simp)
  have hneh : ∀ g' ∈ A ++ (g, t1 ++ n :: t2) :: B, g'.1 ≠ n := by
    intro g' hg' hh
    have := hg.hd g' hg'
    rw [hh, hnh] at this; cases this
  have hgn : g ≠ n := hneh (g, t1 ++ n :: t2) (by simp)
  have mh : ∀ C : List Grp, (∀ c ∈ C, c ∈ A ++ (g, t1 ++ n :: t2) :: B) → ∀ x ∈ headsOf C, x ≠ n := by
    intro C hC x hx
    obtain ⟨c, hc, rfl⟩ := List.mem_map.mp hx
    exact hneh c (hC c hc)
  have mA := mh A (fun c hc => by simp [hc])
  have mB := mh B (fun c hc => by simp [hc])
  have hNg : (n :: t2).Nodup ∧ n ∉ t1 ∧ n ∉ nodesOf A ∧ n ∉ nodesOf B := by
    rw [nodesOf_append, nodesOf_cons,
      show nodesOf A ++ ((g, t1 ++ n :: t2).1 :: (g, t1 ++ n :: t2).2 ++ nodesOf B) = (nodesOf A ++ (g :: t1)) ++ (n :: (t2 ++ nodesOf B)) from by simp] at hN
    obtain ⟨_, j2, j3, j4, _⟩ := nodup_mid hN
    refine ⟨List.nodup_cons.mpr ⟨fun hh => j4 (by simp [hh]), (List.nodup_append.mp j2).1⟩, fun hh => j3 (by simp [hh]),
      fun hh => j3 (by simp [hh]), fun hh => j4 (by simp [hh])⟩
  refine ⟨?_, ?_, ?_, ?_, ?_, ?_⟩
  · rw [show headsOf (A ++ (g, t1) :: (n, t2) :: B) = (headsOf A ++ [g]) ++ [n] ++ headsOf B from by simp]
    have hAg : (headsOf A ++ [g]).Nodup := by
      rw [List.nodup_append]
      exact ⟨hA, by simp, fun a ha b hb => by simp at hb; rw [hb]; exact ne_of_mem_of_not ha k1⟩
    refine seg_replace (M := []) (by simpa using hseg) hAg hB ?_ ?_ ?_ ?_ ?_ ?_ ?_
    · intro x hx
      show updOpt (upd h.prevHead n (some g)) (h.nextHead g) (some n) x = _
      have hxn : x ≠ n := by
        simp at hx
        rcases hx with hx | rfl
        · exact mA x hx
        · exact hgn
      rw [updOpt_apply, if_neg, upd_ne _ _ hxn]
      rw [hnx]; intro hh
      have := List.mem_of_head? hh.symm
      simp at hx
      rcases hx with hx | rfl
      · exact k3 x hx this
      · exact k2 this
    · intro x hx hxl
      show upd (upd h.nextHead n (h.nextHead g)) g (some n) x = _
      have hxg : x ≠ g := fun hh => hxl (by rw [hh]; simp)
      rw [upd_ne _ _ hxg, upd_ne]
      simp at hx
      exact mA x (hx.resolve_right hxg)
    · intro z hz
      simp only [List.getLast?_concat, Option.some.injEq] at hz
      subst hz
      exact upd_same _ _ _
    · intro x hx
      show upd (upd h.nextHead n (h.nextHead g)) g (some n) x = _
      rw [upd_ne _ _ (ne_of_mem_of_not hx k2), upd_ne _ _ (mB x hx)]
    · intro x hx hxh
      show updOpt (upd h.prevHead n (some g)) (h.nextHead g) (some n) x = _
      rw [updOpt_apply, if_neg (by rw [hnx]; exact hxh), upd_ne _ _ (mB x hx)]
    · intro z hz
      show updOpt (upd h.prevHead n (some g)) (h.nextHead g) (some n) z = _
      rw [updOpt_apply, if_pos (by rw [hnx, hz])]; rfl
    · refine ⟨?_, ?_, trivial⟩
      · show updOpt (upd h.prevHead n (some g)) (h.nextHead g) (some n) n = _
        rw [updOpt_apply, if_neg, upd_same]
        · simp
        · rw [hnx]; intro hh; exact mB n (List.mem_of_head? hh.symm) rfl
      · show upd (upd h.nextHead n (h.nextHead g)) g (some n) n = _
        rw [upd_ne _ _ (Ne.symm hgn), upd_same, hnx]; simp
  · show h.firstHead L = _
    rw [hg.fst]
    cases A <;> simp
  · show (if h.lastHead L = some g then upd h.lastHead L (some n) else h.lastHead) L = _
    cases B with
    | nil =>
      rw [if_pos (by rw [hg.lst]; simp), upd_same]; simp [List.getLast?_append]
    | cons b B =>
      rw [if_neg, hg.lst]
      · simp [List.getLast?_append, List.getLast?_cons]
      · rw [hg.lst]
        intro hh
        have : (headsOf (b :: B)).getLast? = some g := by
          simpa [List.getLast?_append, List.getLast?_cons] using hh
        exact k2 (List.mem_of_getLast? this)
  · show upd h.groupCount L (h.groupCount L + 1) L = _
    rw [upd_same, hg.cnt]; simp; omega
  · intro g' hgm
    show upd h.isHead n true g'.1 = true
    by_cases hh : g'.1 = n
    · rw [hh, upd_same]
    · rw [upd_ne _ _ hh]
      simp only [List.mem_append, List.mem_cons] at hgm
      rcases hgm with hgm | rfl | rfl | hgm
      · exact hg.hd g' (by simp [hgm])
      · exact hg.hd (g, t1 ++ n :: t2) (by simp)
      · exact absurd rfl hh
      · exact hg.hd g' (by simp [hgm])
  · intro g' hgm x hx
    show upd h.isHead n true x = false
    have hxn : x ≠ n ∧ ∃ c ∈ A ++ (g, t1 ++ n :: t2) :: B, x ∈ c.2 := by
      simp only [List.mem_append, List.mem_cons] at hgm
      rcases hgm with hgm | rfl | rfl | hgm
      · exact ⟨fun hh => hNg.2.2.1 (hh ▸ mem_nodesOf.mpr ⟨g', hgm, .inr hx⟩), g', by simp [hgm], hx⟩
      · exact ⟨fun hh => hNg.2.1 (hh ▸ hx), (g, t1 ++ n :: t2), by simp, by simp at hx ⊢; grind⟩
      · exact ⟨fun hh => (List.nodup_cons.mp hNg.1).1 (hh ▸ hx), (g, t1 ++ n :: t2), by simp, by simp at hx ⊢; grind⟩
      · exact ⟨fun hh => hNg.2.2.2 (hh ▸ mem_nodesOf.mpr ⟨g', hgm, .inr hx⟩), g', by simp [hgm], hx⟩
    obtain ⟨h1, c, hc, hxc⟩ := hxn
    rw [upd_ne _ _ h1]
    exact hg.tl c hc x hxc

theorem newGroupAt_frame {n g : Nat} (hn : h.parent n = some L) (ho : h.parent g = some L)
    (hq : ∀ p, h.nextHead g = some p → h.parent p = some L) : Frame L h (newGroupAt h L n g) := by
  refine ⟨fun x hx hx' => ?_, fun M hM => ?_, Nat.le_refl _, rfl⟩
  · have h1 : x ≠ n := fun hh => hx' (hh ▸ hn)
    have h2 : x ≠ g := fun hh => hx' (hh ▸ ho)
    have h4 : some x ≠ h.nextHead g := fun hh => hx' (hq x hh.symm)
    simp [newGroupAt, upd_ne, h1, h2, updOpt_apply, h4]
  · simp only [newGroupAt, upd_ne _ _ hM, and_true, true_and]
    split
    · exact upd_ne _ _ hM
    · rfl

end Bibleref
