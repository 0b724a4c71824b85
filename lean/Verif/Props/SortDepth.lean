import Verif.Props.GroupedLists
import Verif.Lemmas.SortCalls

/-!
# How much stack sorting needs (C35)
-/

namespace Bibleref

open Spec HM

variable {α : Type} [DecidableEq α] {le : α → α → Bool} {depth : Nat} {ops : List (WorldOp α)} {h : Heap α}
  {ws : List (List (List α))} {L : Nat} {xs : List (List α)}

/-- C35: `sort` succeeds exactly when `d`, the number of nested calls that are possible, is not less than `sortCalls`; otherwise it raises
`RecursionError`. When it succeeds it does what it should. -/
theorem C35_sort_exact {lx : α → α → Except PyErr Bool} (hx : ∀ a ∈ xs.flatten, ∀ b ∈ xs.flatten, lx a b = .ok (le a b))
    (ha : After le depth ops h ws) (hL : ws[L]? = some xs) (htrans : ∀ a b c, le a b = true → le b c = true → le a c = true)
    (htotal : ∀ a b, le a b = true ∨ le b a = true) (d : Nat) :
    (d < sortCalls le xs.flatten → (Heap.sort lx d L h).1 = .error .recursionError) ∧
    (sortCalls le xs.flatten ≤ d → ∃ l h', Heap.sort lx d L h = (.ok (), h') ∧
      Heap.toNested L h' = (.ok (if l = [] then [] else [l]), h') ∧
      Heap.toList L h' = (.ok l, h') ∧ Heap.toListReversed L h' = (.ok l.reverse, h') ∧
      l.Perm xs.flatten ∧ l.Pairwise (fun a b => le a b = true) ∧
      ∀ m : List α, m.Pairwise (fun a b => le a b = true) → m.Sublist xs.flatten → m.Sublist l) := by
  obtain ⟨gs, hr, rfl⟩ := ha.rep hL
  have htot : ∀ a b, (le a b || le b a) = true := fun a b => by simpa using htotal a b
  have hx' : Compares lx le h (nodesOf gs) (nodesOf gs) := by
    intro a h1 b h2
    exact hx _ (by rw [← map_nodesOf]; exact List.mem_map_of_mem h1) _ (by rw [← map_nodesOf]; exact List.mem_map_of_mem h2)
  have hc : sortCalls le (valuesOf h gs).flatten = sortCalls (nodeLe le h) (nodesOf gs) := by
    rw [← map_nodesOf, sortCalls_map]; rfl
  rw [hc]
  refine ⟨(sort_calls d hx' hr).1, fun hd => ?_⟩
  obtain ⟨h', hrun, hst, hv, _⟩ := (sort_calls d hx' hr).2 hd
  have hvals : valuesOf h' (oneGroup ((nodesOf gs).mergeSort (nodeLe le h))) = Nested.single ((valuesOf h gs).flatten.mergeSort le) := by
    rw [valuesOf_oneGroup hv, mergeSort_map, map_nodesOf]
  have hfl : (Nested.single ((valuesOf h gs).flatten.mergeSort le)).flatten = (valuesOf h gs).flatten.mergeSort le := by
    unfold Nested.single; split <;> simp_all
  refine ⟨(valuesOf h gs).flatten.mergeSort le, h', hrun, ?_, ?_, ?_, List.mergeSort_perm _ _, List.pairwise_mergeSort htrans htot _,
    fun m hm hsub => List.sublist_mergeSort htrans htot hm hsub⟩
  · rw [hst.rep.toNested, hvals]; rfl
  · rw [hst.rep.toList, hvals, hfl]
  · rw [hst.rep.toListReversed, hvals, hfl]

omit [DecidableEq α] in
/-- C35: the room needed lies between half the length of the list and its length. -/
theorem C35_calls (le : α → α → Bool) (l : List α) (hl : 2 ≤ l.length) :
    l.length / 2 + 2 ≤ sortCalls le l ∧ sortCalls le l ≤ l.length + 1 := sortCalls_bounds le l hl

/-- Both bounds are met: the list [1, 3, 2, 4] needs the most room, [1, 2, 3, 4] the least. -/
example : sortCalls natLe [1, 3, 2, 4] = 5 ∧ sortCalls natLe [1, 2, 3, 4] = 4 := by
  simp [sortCalls, mergeCalls, natLe, List.mergeSort, List.MergeSort.Internal.splitInTwo]

/-- Three elements in order need room for four calls. -/
example : (Heap.sort (fun a b => .ok (natLe a b)) 3 0 (calls natLe 100 exampleOps (Heap.empty 0)).2).1 = .error .recursionError ∧
    ∃ l h', Heap.sort (fun a b => .ok (natLe a b)) 4 0 (calls natLe 100 exampleOps (Heap.empty 0)).2 = (.ok (), h') ∧
      Heap.toList 0 h' = (.ok l, h') := by
  have hc : sortCalls natLe [1, 2, 3] = 4 := by
    simp [sortCalls, mergeCalls, natLe, List.mergeSort, List.MergeSort.Internal.splitInTwo]
  have key := fun d => C35_sort_exact (L := 0) (lx := fun a b => .ok (natLe a b)) (fun _ _ _ _ => rfl) exampleOps_after rfl
    (fun a b c => by simp only [decide_eq_true_eq]; omega) (fun a b => by simp only [decide_eq_true_eq]; omega) d
  refine ⟨(key 3).1 ?_, ?_⟩
  · show 3 < sortCalls natLe [1, 2, 3]
    omega
  · obtain ⟨l, h', h1, _, h2, _⟩ := (key 4).2 (by show sortCalls natLe [1, 2, 3] ≤ 4; omega)
    exact ⟨l, h', h1, h2⟩

end Bibleref
