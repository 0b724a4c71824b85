import Verif.Lemmas.HeapQuery

/-!
# Properties C34–C39, C50 and C51: grouped lists

`After le depth ops h ws` says that `h` is the memory after the history `ops` of operations on any number of lists, starting
with no list at all, and that `ws` are these lists as nested lists, as the specification (`Verif.SpecLists`) has it.
-/

namespace Bibleref
open HM

variable {α : Type} [DecidableEq α] {le : α → α → Bool} {depth : Nat} {ops : List (WorldOp α)} {h : Heap α}
  {ws : List (List (List α))} {L M : Nat} {xs ys : List (List α)}

theorem After.world (ha : After le depth ops h ws) : World h ws := by
  obtain ⟨v, rfl⟩ := ha.run
  rw [ha.meant]
  exact (calls_sim le ops (world_empty v) ha.sensible).2.1

theorem After.rep (ha : After le depth ops h ws) (hL : ws[L]? = some xs) : ∃ gs, Rep h L gs ∧ valuesOf h gs = xs := ha.world.rep L xs hL

/-- Numbers in their usual order, for the examples. -/
abbrev natLe (a b : Nat) : Bool := decide (a ≤ b)

/-- A history for the examples: lists `[[1, 2], [3]]`, `[]` and a copy of the first. -/
abbrev exampleOps : List (WorldOp Nat) :=
  [.new, .on 0 (.append 2 false), .on 0 (.append 3 true), .on 0 (.prepend 1 false), .new, .copy 0]

theorem exampleOps_after : After natLe 100 exampleOps (calls natLe 100 exampleOps (Heap.empty 0)).2 [[[1, 2], [3]], [], [[1, 2], [3]]] :=
  ⟨⟨trivial, ⟨by decide, trivial⟩, ⟨by decide, trivial⟩, ⟨by decide, trivial⟩, trivial, by show 0 < 2; decide, trivial⟩, ⟨0, rfl⟩,
    by decide +kernel⟩

/-! ## C34: a sequence of non-empty groups -/

/-- Every operation of a history returns or raises what it is meant to, and afterwards iterating forwards, iterating
backwards, iterating group by group, the length and the number of groups of every list are as meant; no group is empty.

Missing from the full property: the conditions on the arguments (`SensibleRun`), without which it is false; see the
counterexamples below and under C35–C37. -/
theorem C34_grouped_list_partial (v : α) (hs : SensibleRun le depth ops []) :
    (calls le depth ops (Heap.empty v)).1 = (meanings le ops []).1 ∧
    ∀ L xs, (meanings le ops []).2[L]? = some xs →
      Heap.toNested L (calls le depth ops (Heap.empty v)).2 = (.ok xs, (calls le depth ops (Heap.empty v)).2) ∧
      Heap.toList L (calls le depth ops (Heap.empty v)).2 = (.ok xs.flatten, (calls le depth ops (Heap.empty v)).2) ∧
      Heap.toListReversed L (calls le depth ops (Heap.empty v)).2 = (.ok xs.flatten.reverse, (calls le depth ops (Heap.empty v)).2) ∧
      Heap.len L (calls le depth ops (Heap.empty v)).2 = (.ok xs.flatten.length, (calls le depth ops (Heap.empty v)).2) ∧
      Heap.groupsLen L (calls le depth ops (Heap.empty v)).2 = (.ok xs.length, (calls le depth ops (Heap.empty v)).2) ∧
      ∀ g ∈ xs, g ≠ [] := by
  have hsim := calls_sim le ops (world_empty v) hs
  refine ⟨hsim.1, fun L xs hL => ?_⟩
  obtain ⟨gs, hr, rfl⟩ := hsim.2.1.rep L xs hL
  exact ⟨hr.toNested, hr.toList, hr.toListReversed, hr.len, hr.groupsLen, valuesOf_ne _ _⟩

example : SensibleRun natLe 100 exampleOps [] := exampleOps_after.sensible

example : (meanings natLe [.new, .on 0 (.extend [5, 6, 7]), .on 0 (.insertGroupAt 1), .on 0 (.insert (-1) 9), .on 0 (.pop (some 3)),
    .on 0 (.pop (some 7)), .on 0 .reverse] []) =
    ([.ok none, .ok none, .ok none, .ok none, .ok (some 7), .error .indexError, .ok none], [[[9, 6, 5]]]) := by
  decide +kernel

/-- Starting a group where one begins already leaves a list that claims to have three groups and cannot be iterated group by
group. -/
theorem C34_grouped_list_counterexample :
    let h := (calls natLe 100 [.new, .on 0 (.append 1 false), .on 0 (.append 2 true), .on 0 (.insertGroupAt 1)] (Heap.empty 0)).2
    (Heap.groupsLen 0 h).1 = .ok 3 ∧ (Heap.toNested 0 h).1 = .error .diverges := by
  decide +kernel

/-! ## C35: sorting -/

/-- With enough room for nested calls, `sort` leaves one group with the same elements in ascending order, equal elements in
their previous order; more generally, whatever was in ascending order still comes in that order.

The elements are compared with `lx`, which must not raise an exception.

Missing from the full property: lists of every length; see the counterexample. -/
theorem C35_sort_partial {lx : α → α → Except PyErr Bool} (hx : ∀ a ∈ xs.flatten, ∀ b ∈ xs.flatten, lx a b = .ok (le a b))
    (ha : After le depth ops h ws) (hL : ws[L]? = some xs) (htrans : ∀ a b c, le a b = true → le b c = true → le a c = true)
    (htotal : ∀ a b, le a b = true ∨ le b a = true) (hd : xs.flatten.length < depth) :
    ∃ l h', Heap.sort lx depth L h = (.ok (), h') ∧ Heap.toNested L h' = (.ok (if l = [] then [] else [l]), h') ∧
      Heap.toList L h' = (.ok l, h') ∧ Heap.toListReversed L h' = (.ok l.reverse, h') ∧
      l.Perm xs.flatten ∧ l.Pairwise (fun a b => le a b = true) ∧
      ∀ m : List α, m.Pairwise (fun a b => le a b = true) → m.Sublist xs.flatten → m.Sublist l := by
  obtain ⟨gs, hr, rfl⟩ := ha.rep hL
  have htot : ∀ a b, (le a b || le b a) = true := fun a b => by simpa using htotal a b
  have hx' : Compares lx le h (nodesOf gs) (nodesOf gs) := by
    intro a h1 b h2
    exact hx _ (by rw [← map_nodesOf]; exact List.mem_map_of_mem h1) _ (by rw [← map_nodesOf]; exact List.mem_map_of_mem h2)
  obtain ⟨h', hrun, hst, hv, _⟩ := sort_step depth hx' hr (by rw [← map_nodesOf, List.length_map] at hd; exact hd)
  have hvals : valuesOf h' (oneGroup ((nodesOf gs).mergeSort (nodeLe le h))) = Nested.single ((valuesOf h gs).flatten.mergeSort le) := by
    rw [valuesOf_oneGroup hv, mergeSort_map, map_nodesOf]
  have hfl : (Nested.single ((valuesOf h gs).flatten.mergeSort le)).flatten = (valuesOf h gs).flatten.mergeSort le := by
    unfold Nested.single; split <;> simp_all
  refine ⟨(valuesOf h gs).flatten.mergeSort le, h', hrun, ?_, ?_, ?_, List.mergeSort_perm _ _, List.pairwise_mergeSort htrans htot _,
    fun m hm hsub => List.sublist_mergeSort htrans htot hm hsub⟩
  · rw [hst.rep.toNested, hvals]; rfl
  · rw [hst.rep.toList, hvals, hfl]
  · rw [hst.rep.toListReversed, hvals, hfl]

example : ∃ l h', Heap.sort (fun a b => .ok (natLe a b)) 100 0 (calls natLe 100 exampleOps (Heap.empty 0)).2 = (.ok (), h') ∧
    Heap.toNested 0 h' = (.ok (if l = [] then [] else [l]), h') ∧ l.Perm [1, 2, 3] := by
  obtain ⟨l, h', h1, h2, _, _, h3, _⟩ := C35_sort_partial (L := 0) (fun _ _ _ _ => rfl) exampleOps_after rfl
    (fun a b c => by simp only [decide_eq_true_eq]; omega) (fun a b => by simp only [decide_eq_true_eq]; omega) (by decide)
  exact ⟨l, h', h1, h2, h3⟩

/-- However many nested calls are possible, a long enough list cannot be sorted: `RecursionError`. -/
theorem C35_sort_counterexample {lx : α → α → Except PyErr Bool} (hx : ∀ a ∈ xs.flatten, ∀ b ∈ xs.flatten, lx a b = .ok (le a b))
    (ha : After le depth ops h ws) (hL : ws[L]? = some xs) (h2 : 2 ≤ xs.flatten.length)
    (hd : 2 * depth ≤ xs.flatten.length) : (Heap.sort lx depth L h).1 = .error .recursionError := by
  obtain ⟨gs, hr, rfl⟩ := ha.rep hL
  have hx' : Compares lx le h (nodesOf gs) (nodesOf gs) := by
    intro a h1 b h2
    exact hx _ (by rw [← map_nodesOf]; exact List.mem_map_of_mem h1) _ (by rw [← map_nodesOf]; exact List.mem_map_of_mem h2)
  rw [← map_nodesOf, List.length_map] at h2 hd
  obtain ⟨h', hrun⟩ := mergeSort_overflow depth true hx' hr.links.seg hr.links.nodup hr.links.lt hd h2
  unfold Heap.sort
  simp only [bind_run (HM.read _), read_run, hr.links.fst]
  rw [bind_error hrun]

/-- Such lists exist for every number of possible nested calls. -/
theorem C35_sort_counterexample_exists (le : α → α → Bool) (depth : Nat) (v : α) : ∃ h ws xs, After le depth
    [.new, .on 0 (.extend (List.replicate (2 * depth + 2) v))] h ws ∧ ws[0]? = some xs ∧ 2 ≤ xs.flatten.length ∧
    2 * depth ≤ xs.flatten.length := by
  refine ⟨_, _, Nested.extend [] (List.replicate (2 * depth + 2) v), ⟨⟨trivial, ⟨by show 0 < 1; decide, trivial⟩, trivial⟩, ⟨v, rfl⟩, rfl⟩, rfl, ?_⟩
  have : (Nested.extend [] (List.replicate (2 * depth + 2) v)).flatten.length = 2 * depth + 2 := by
    rw [Nested.extend_nil_left, Nested.single, if_neg (by simp)]
    simp
  omega

/-- After the exception the list has lost elements: its length is 4 and iterating over it gives three of them. -/
theorem C35_sort_damage_counterexample :
    let h := (calls natLe 3 [.new, .on 0 (.extend [1, 2, 3, 4]), .on 0 .sort] (Heap.empty 0)).2
    (calls natLe 3 [.new, .on 0 (.extend [1, 2, 3, 4]), .on 0 .sort] (Heap.empty 0)).1[2]? = some (.error .recursionError) ∧
    (Heap.len 0 h).1 = .ok 4 ∧ (Heap.toList 0 h).1 ≠ .ok [1, 2, 3, 4] := by
  decide +kernel

/-- Comparing numbers, where 9 stands for something that cannot be compared with them. -/
def natLess (a b : Nat) : Except PyErr Bool := if a = 9 ∨ b = 9 then .error .typeError else .ok (a ≤ b)

/-- The same happens when two elements cannot be compared: `sort` raises the exception of the comparison and the list has lost
elements. -/
theorem C35_sort_incomparable_counterexample :
    let r := Heap.sort natLess 100 0 (calls natLe 100 [.new, .on 0 (.extend [1, 2, 3, 9])] (Heap.empty 0)).2
    r.1 = .error .typeError ∧ (Heap.len 0 r.2).1 = .ok 4 ∧ (Heap.toList 0 r.2).1 = .ok [1, 2] := by
  decide +kernel

/-! ## C36: starting a group -/

/-- `insert_group_at` at a position where no group begins makes a group begin there, and nothing else.

Missing from the full property: positions where a group other than the first begins already; see `C34_grouped_list_counterexample`. -/
theorem C36_insert_group_at_partial (ha : After le depth ops h ws) (hL : ws[L]? = some xs) (k : Nat) (hk : k < xs.flatten.length)
    (hb : k = 0 ∨ k ∉ Nested.begins xs) : ∃ ys h', Heap.insertGroupAt L k h = (.ok (), h') ∧ Heap.toNested L h' = (.ok ys, h') ∧
      ys.flatten = xs.flatten ∧ (∀ g ∈ ys, g ≠ []) ∧ (∀ j, j ∈ Nested.begins ys ↔ j = k ∨ j ∈ Nested.begins xs) := by
  obtain ⟨gs, hr, rfl⟩ := ha.rep hL
  rw [← map_nodesOf, List.length_map] at hk
  obtain ⟨h', gs', hrun, hst, hval⟩ := insertGroupAt_step hr (pos_nat hk)
    (fun hB => hb.elim (fun h0 => hB.1 h0) (fun h0 => h0 hB.2))
  refine ⟨_, h', hrun, hst.rep.toNested, ?_, valuesOf_ne _ _, fun j => ?_⟩
  · rw [hval, Nested.splitAt_flatten]
  · rw [hval, Nested.splitAt_begins (by rw [size_valuesOf]; exact hk)]

example : ∃ ys h', Heap.insertGroupAt 0 1 (calls natLe 100 exampleOps (Heap.empty 0)).2 = (.ok (), h') ∧
    Heap.toNested 0 h' = (.ok ys, h') ∧ ys.flatten = [1, 2, 3] := by
  obtain ⟨ys, h', h1, h2, h3, _⟩ := C36_insert_group_at_partial (L := 0) exampleOps_after rfl 1 (by decide) (.inr (by decide))
  exact ⟨ys, h', h1, h2, h3⟩

/-- An index equal to the length or larger is refused. -/
theorem C36_insert_group_at_error (ha : After le depth ops h ws) (hL : ws[L]? = some xs) (i : Int) (hi : (xs.flatten.length : Int) ≤ i) :
    Heap.insertGroupAt L i h = (.error .indexError, h) := by
  obtain ⟨gs, hr, rfl⟩ := ha.rep hL
  rw [← map_nodesOf, List.length_map] at hi
  exact insertGroupAt_error hr hi

/-- At a position where a group other than the first begins already, the number of groups becomes wrong and iterating
group by group goes on for ever. -/
theorem C36_insert_group_at_counterexample :
    let h := (calls natLe 100 [.new, .on 0 (.append 1 false), .on 0 (.append 2 true), .on 0 (.append 3 true)] (Heap.empty 0)).2
    (Heap.toNested 0 h).1 = .ok [[1], [2], [3]] ∧
    (Heap.groupsLen 0 (Heap.insertGroupAt 0 1 h).2).1 = .ok 4 ∧ (Heap.toNested 0 (Heap.insertGroupAt 0 1 h).2).1 = .error .diverges := by
  decide +kernel

/-! ## C37: positions -/

/-- `lst[i]` is the element a plain list would give, and `pop(i)` returns it and removes just it.

Missing from the full property: indices below minus the length, which should be refused; see the counterexample. -/
theorem C37_getitem_partial (ha : After le depth ops h ws) (hL : ws[L]? = some xs) (i : Int) (hi : -(xs.flatten.length : Int) ≤ i) :
    (∀ h1 : i < xs.flatten.length, ∃ v h', xs.flatten[(i % xs.flatten.length).toNat]? = some v ∧
      Heap.getItem L i h = (.ok v, h) ∧ Heap.pop L (some i) h = (.ok v, h') ∧
      Heap.toList L h' = (.ok (xs.flatten.eraseIdx (i % xs.flatten.length).toNat), h')) ∧
    (xs.flatten.length ≤ i → Heap.getItem L i h = (.error .indexError, h) ∧ Heap.pop L (some i) h = (.error .indexError, h)) := by
  obtain ⟨gs, hr, rfl⟩ := ha.rep hL
  have hlen : (valuesOf h gs).flatten.length = (nodesOf gs).length := by rw [← map_nodesOf, List.length_map]
  rw [hlen] at hi ⊢
  constructor
  · intro h1
    have hk : Nested.pos (nodesOf gs).length i = some (i % (nodesOf gs).length).toNat := by
      unfold Nested.pos
      by_cases h0 : 0 ≤ i
      · rw [if_pos (by omega), Int.emod_eq_of_lt h0 h1]
      · rw [if_neg (by omega), if_pos (by omega), ← Int.add_emod_right, Int.emod_eq_of_lt (by omega) (by omega)]
    obtain ⟨v, hv, hget⟩ := getItem_ok hr hk
    obtain ⟨v', h', gs', hpop, hv', hst, hval⟩ := pop_step (o := some i) hr hk rfl
    rw [hv] at hv'
    cases hv'
    refine ⟨v, h', hv, hget, hpop, ?_⟩
    rw [hst.rep.toList, hval, Nested.removeAt_flatten]
  · intro h1
    exact ⟨getItem_error hr h1, pop_error hr h1⟩

example : (Heap.getItem 0 (-1) (calls natLe 100 exampleOps (Heap.empty 0)).2).1 = .ok 3 ∧ -(([[1, 2], [3]].flatten.length : Nat) : Int) ≤ -1 := by
  decide +kernel

/-- Indices below minus the length are not refused: `lst[-100]` is the first element and `pop(-5)` removes the second. -/
theorem C37_getitem_counterexample :
    let h := (calls natLe 100 [.new, .on 0 (.extend [7, 8, 9])] (Heap.empty 0)).2
    (Heap.getItem 0 (-100) h).1 = .ok 7 ∧ (Heap.pop 0 (some (-5)) h).1 = .ok 8 ∧
    (Heap.toList 0 (Heap.pop 0 (some (-5)) h).2).1 = .ok [7, 9] := by
  decide +kernel

/-- On an empty list `lst[-1]` raises `AttributeError` and `pop()` raises `ValueError`, not `IndexError`. -/
theorem C37_empty_counterexample :
    let h := (calls natLe 100 [.new] (Heap.empty 0)).2
    (Heap.getItem 0 (-1) h).1 = .error .attributeError ∧ (Heap.pop 0 none h).1 = .error .valueError := by
  decide +kernel

/-- `index(x, lo, hi)` is the least position from `lo` on and before `hi` that holds `x`, and raises `ValueError` when there is
none; `index(x)` looks at all positions.

Missing from the full property: the empty list, on which `index` raises `IndexError`, and `hi = 0`; see the counterexamples. -/
theorem C37_index_partial (ha : After le depth ops h ws) (hL : ws[L]? = some xs) (x : α) (hne : xs ≠ []) :
    Heap.index L x none none h = Heap.index L x (some 0) (some xs.flatten.length) h ∧
    ∀ lo hi : Nat, lo < xs.flatten.length → 0 < hi → lo ≤ hi → hi ≤ xs.flatten.length →
      (∃ k : Nat, lo ≤ k ∧ k < hi ∧ xs.flatten[k]? = some x ∧ (∀ j : Nat, lo ≤ j → j < k → xs.flatten[j]? ≠ some x) ∧
        Heap.index L x (some lo) (some hi) h = (.ok (k : Int), h)) ∨
      ((∀ j : Nat, lo ≤ j → j < hi → xs.flatten[j]? ≠ some x) ∧ Heap.index L x (some lo) (some hi) h = (.error .valueError, h)) := by
  obtain ⟨gs, hr, rfl⟩ := ha.rep hL
  have hlen : (valuesOf h gs).flatten.length = (nodesOf gs).length := by rw [← map_nodesOf, List.length_map]
  rw [hlen]
  constructor
  · unfold Heap.index Heap.len
    simp only [bind_run (HM.read _), read_run, hr.links.cnt, Option.getD_none, Option.getD_some]
  · intro lo hi h1 h2 h3 h4
    have hrun : Heap.index L x (some lo) (some hi) h = (Heap.indexFrom h x lo hi 0 (nodesOf gs).head?, h) := by
      unfold Heap.index Heap.len
      simp only [bind_run (HM.read _), read_run, Option.getD_some]
      rw [bind_ok (hr.conform_ok (by omega)), if_neg (by omega), bind_ok (hr.conform_ok (by omega)), if_neg (by omega)]
      simp only
      rw [if_neg (by omega)]
      simp only [readE_run, hr.links.fst]
      rw [show ((hi : Int) - 1 + 1).toNat = hi from by omega]
    rw [hrun]
    have hsp := indexFrom_spec (h := h) x lo (zs := []) (k := hi) hr.links.seg (by omega)
    rw [map_nodesOf] at hsp
    simp only [List.length_nil, Nat.zero_add] at hsp
    rcases hsp with ⟨j, k1, k2, k3, k4, k5⟩ | ⟨k1, k2⟩
    · exact .inl ⟨j, k2, k1, k3, fun j' hlo hj' => k4 j' hj' hlo, congrArg (·, h) k5⟩
    · exact .inr ⟨fun j hlo hj => k1 j hj hlo, congrArg (·, h) k2⟩

example : (Heap.index 0 3 none none (calls natLe 100 exampleOps (Heap.empty 0)).2).1 = .ok 2 ∧
    (Heap.index 0 3 (some 0) (some 2) (calls natLe 100 exampleOps (Heap.empty 0)).2).1 = .error .valueError := by
  decide +kernel

/-- On an empty list `index` raises `IndexError` instead of `ValueError`, and with `limit_index=0` it looks at all positions
instead of none. -/
theorem C37_index_counterexample :
    (Heap.index 0 7 none none (calls natLe 100 [.new] (Heap.empty 0)).2).1 = .error .indexError ∧
    (Heap.index 0 7 (some 0) (some 0) (calls natLe 100 [.new, .on 0 (.extend [7, 8, 9])] (Heap.empty 0)).2).1 = .ok 0 := by
  decide +kernel

/-- `count(x)` counts occurrences and `x in lst` agrees with it. -/
theorem C37_count_contains (ha : After le depth ops h ws) (hL : ws[L]? = some xs) (x : α) :
    Heap.count L x h = (.ok (xs.flatten.count x : Int), h) ∧ Heap.contains L x h = (.ok (decide (0 < xs.flatten.count x)), h) := by
  obtain ⟨gs, hr, rfl⟩ := ha.rep hL
  refine ⟨count_run hr x, ?_⟩
  rw [contains_run hr x]
  congr 2
  rw [decide_eq_decide, List.count_pos_iff]

example : Heap.count 0 3 (calls natLe 100 exampleOps (Heap.empty 0)).2 = (.ok 1, (calls natLe 100 exampleOps (Heap.empty 0)).2) :=
  (C37_count_contains (L := 0) (xs := [[1, 2], [3]]) exampleOps_after rfl 3).1

/-! ## C38: group views -/

/-- A view taken of `groups[k]` and used after any further history without `clear`. If the group still begins at the element
where the view was taken, so that it is `groups[k']` now, the view has the length and the elements of that group, gives its
elements by position, and assigning or deleting through it is the same as through `groups[k']`, which changes only that group
(`C34_grouped_list_partial`). Otherwise every use of the view raises `GroupViewError` and changes nothing.

Missing from the full property: histories with `clear`; see the counterexample. -/
theorem C38_views_partial {ops' : List (WorldOp α)} {h' : Heap α} {ws' : List (List (List α))} {k g : Nat} (v₀ : α)
    (hs : SensibleRun le depth (ops ++ ops') [])
    (hh : h = (calls le depth ops (Heap.empty v₀)).2) (hh' : h' = (calls le depth ops' h).2) (hw' : ws' = (meanings le (ops ++ ops') []).2)
    (hL : L < (meanings le ops []).2.length)
    (hclear : ∀ op ∈ ops ++ ops', ∀ M, op ≠ .on M .clear) (hg : Heap.groupAt L k h = (.ok g, h)) :
    (∀ k' : Nat, Heap.groupAt L k' h' = (.ok g, h') → ∃ grp, (ws'[L]?.bind fun xs => xs[k']?) = some grp ∧
      Heap.viewToList g h' = (.ok grp, h') ∧ Heap.viewLen g h' = (.ok (grp.length : Int), h') ∧
      (∀ i : Int, Heap.viewGet g i h' = (match (if 0 ≤ i then grp[i.toNat]? else none) with
        | some v => .ok v
        | none => .error .indexError, h')) ∧
      ∀ (i : Nat) (v : α), (do Heap.viewSet g i v; return none : HM α (Option α)) h' = (ListOp.groupSet k' i v).call le depth L h' ∧
        (do Heap.viewDel g i; return none : HM α (Option α)) h' = (ListOp.groupDel k' i).call le depth L h') ∧
    ((∀ k' : Nat, Heap.groupAt L k' h' ≠ (.ok g, h')) → ∀ (i : Int) (v : α),
      Heap.viewToList g h' = (.error .groupView, h') ∧ Heap.viewLen g h' = (.error .groupView, h') ∧
      Heap.viewGet g i h' = (.error .groupView, h') ∧ Heap.viewSet g i v h' = (.error .groupView, h') ∧
      Heap.viewDel g i h' = (.error .groupView, h')) := by
  obtain ⟨hs1, hs2⟩ := sensibleRun_append.mp hs
  have s1 := calls_sim le ops (world_empty v₀) hs1
  rw [← hh] at s1
  have ht : Tidy h := s1.2.2.2 (fun op ho => hclear op (by simp [ho])) (tidy_empty v₀)
  have s2 := calls_sim le ops' s1.2.1 hs2
  rw [← hh', ← meanings_append, ← hw'] at s2
  have ht' : Tidy h' := s2.2.2.2 (fun op ho => hclear op (by simp [ho])) ht
  have hev : Evolve h h' := s2.2.2.1
  obtain ⟨gs, hr, -⟩ := s1.2.1.rep L _ (List.getElem?_eq_getElem hL)
  have hgm : ∃ t, gs[k]? = some (g, t) := by
    cases hk : gs[k]? with
    | none =>
      rw [groupAt_error hr (List.getElem?_eq_none_iff.mp hk)] at hg
      cases hg
    | some g' =>
      rw [groupAt_ok hr hk] at hg
      obtain ⟨g1, t⟩ := g'
      have hg1 : g1 = g := by cases hg; rfl
      exact ⟨t, by rw [← hg1]⟩
  obtain ⟨t, hgk⟩ := hgm
  have hgn : g ∈ nodesOf gs := mem_nodesOf.mpr ⟨(g, t), List.mem_of_getElem? hgk, .inl rfl⟩
  have hglt : g < h.nodes := hr.links.lt g hgn
  have hgp : h.parent g = some L := hr.links.par g hgn
  have hlen : (meanings le ops []).2.length ≤ ws'.length := by
    rw [hw', meanings_append]; exact meanings_length_le le ops' _
  obtain ⟨gs', hr', hv'⟩ := s2.2.1.rep L _ (List.getElem?_eq_getElem (Nat.lt_of_lt_of_le hL hlen))
  constructor
  · intro k' hk'
    cases hgk' : gs'[k']? with
    | none =>
      rw [groupAt_error hr' (List.getElem?_eq_none_iff.mp hgk')] at hk'
      cases hk'
    | some g' =>
      have hk0 := hk'
      rw [groupAt_ok hr' hgk'] at hk'
      obtain ⟨g1, t'⟩ := g'
      have hg1 : g1 = g := by cases hk'; rfl
      subst hg1
      have hmem := List.mem_of_getElem? hgk'
      refine ⟨(g1 :: t').map h'.value, ?_, (view_read hr' hmem).1, (view_read hr' hmem).2, view_get hr' hmem, fun i v => ⟨?_, ?_⟩⟩
      · rw [List.getElem?_eq_getElem (Nat.lt_of_lt_of_le hL hlen), Option.bind_some, ← hv', valuesOf, List.getElem?_map, hgk']
        rfl
      · simp only [ListOp.call]; rw [bind_ok hk0]
      · simp only [ListOp.call]; rw [bind_ok hk0]
  · intro hno i v
    refine view_error ?_ i v
    by_cases hp : h'.parent g = none
    · exact .inr hp
    · left
      obtain ⟨M, hM⟩ : ∃ M, h'.parent g = some M := by
        cases hq : h'.parent g with
        | none => exact absurd hq hp
        | some M => exact ⟨M, rfl⟩
      have hML := hev.par g M hglt hM
      rw [hgp] at hML
      cases hML
      cases hb : h'.isHead g with
      | false => rfl
      | true =>
        obtain ⟨gs2, k2, t2, hr2, hk2⟩ := ht'.head hM hb
        exact absurd (groupAt_ok hr2 hk2) (hno k2)

/-- A view of the second group: still good after an element has been appended to the first; no longer after the element where
the group begins has been removed. -/
example :
    let h := (calls natLe 100 exampleOps (Heap.empty 0)).2
    let g := 1
    let h1 := (calls natLe 100 [.on 0 (.insert 1 9), .on 0 (.append 4 false)] h).2
    let h2 := (calls natLe 100 [.on 0 (.remove 3)] h).2
    (Heap.groupAt 0 1 h).1 = .ok g ∧ (Heap.viewToList g h1).1 = .ok [3, 4] ∧ (Heap.viewToList g h2).1 = .error .groupView := by
  decide +kernel

/-- After `clear` a view of a group that is no longer there still gives its old elements, and deleting through it changes the
length of the list. -/
theorem C38_views_counterexample :
    let h := (calls natLe 100 [.new, .on 0 (.extend [1, 2, 3])] (Heap.empty 0)).2
    let g := 0
    let h' := (calls natLe 100 [.on 0 .clear, .on 0 (.extend [7, 8, 9])] h).2
    (Heap.groupAt 0 0 h).1 = .ok g ∧ (Heap.toNested 0 h').1 = .ok [[7, 8, 9]] ∧ (Heap.viewToList g h').1 = .ok [1, 2, 3] ∧
    (Heap.viewDel g 1 h').1 = .ok () ∧ (Heap.len 0 (Heap.viewDel g 1 h').2).1 = .ok 2 ∧
    (Heap.toList 0 (Heap.viewDel g 1 h').2).1 = .ok [7, 8, 9] := by
  decide +kernel

/-! ## C39: equality -/

/-- `a == b` exactly when both have the same groups, `a.equals(b, compare_groups=False)` exactly when they have the same elements
in the same order. -/
theorem C39_equals (ha : After le depth ops h ws) (hL : ws[L]? = some xs) (hM : ws[M]? = some ys) :
    Heap.equals L M true h = (.ok (decide (xs = ys)), h) ∧ Heap.equals L M false h = (.ok (decide (xs.flatten = ys.flatten)), h) := by
  obtain ⟨gs, hr, rfl⟩ := ha.rep hL
  obtain ⟨gm, hm, rfl⟩ := ha.rep hM
  exact ⟨equals_run hr hm true, equals_run hr hm false⟩

/-- Both are equivalence relations. -/
theorem C39_equivalence (ha : After le depth ops h ws) (cg : Bool) {N : Nat} {zs : List (List α)} (hL : ws[L]? = some xs) (hM : ws[M]? = some ys)
    (hN : ws[N]? = some zs) : (Heap.equals L L cg h).1 = .ok true ∧ (Heap.equals L M cg h).1 = (Heap.equals M L cg h).1 ∧
      ((Heap.equals L M cg h).1 = .ok true → (Heap.equals M N cg h).1 = .ok true → (Heap.equals L N cg h).1 = .ok true) := by
  cases cg with
  | true =>
    rw [(C39_equals ha hL hL).1, (C39_equals ha hL hM).1, (C39_equals ha hM hL).1, (C39_equals ha hM hN).1, (C39_equals ha hL hN).1]
    simp only [Except.ok.injEq, decide_eq_true_eq, decide_eq_decide, true_and]
    exact ⟨eq_comm, Eq.trans⟩
  | false =>
    rw [(C39_equals ha hL hL).2, (C39_equals ha hL hM).2, (C39_equals ha hM hL).2, (C39_equals ha hM hN).2, (C39_equals ha hL hN).2]
    simp only [Except.ok.injEq, decide_eq_true_eq, decide_eq_decide, true_and]
    exact ⟨eq_comm, Eq.trans⟩

example : Heap.equals 0 2 true (calls natLe 100 exampleOps (Heap.empty 0)).2 = (.ok true, (calls natLe 100 exampleOps (Heap.empty 0)).2) ∧
    Heap.equals 0 1 false (calls natLe 100 exampleOps (Heap.empty 0)).2 = (.ok false, (calls natLe 100 exampleOps (Heap.empty 0)).2) :=
  ⟨(C39_equals (L := 0) (M := 2) exampleOps_after rfl rfl).1, (C39_equals (L := 0) (M := 1) exampleOps_after rfl rfl).2⟩

/-! ## C50: extending a list -/

/-- Extending a list with another one ends, once there is fuel for every element of the other one, and does what is meant.

Missing from the full property: extending a list with itself; see the counterexample. The other updating operations are covered
by `C50` theorems about range lists. -/
theorem C50_extend_partial (ha : After le depth ops h ws) (hL : ws[L]? = some xs) (hM : ws[M]? = some ys) (hLM : L ≠ M) (fuel : Nat)
    (hf : ys.flatten.length ≤ fuel) : ∃ h', Heap.extendList L M fuel h = (.ok (), h') ∧
      Heap.toList L h' = (.ok (xs.flatten ++ ys.flatten), h') ∧ Heap.toNested M h' = (.ok ys, h') := by
  obtain ⟨gs, hr, rfl⟩ := ha.rep hL
  obtain ⟨gm, hm, rfl⟩ := ha.rep hM
  rw [← map_nodesOf, List.length_map] at hf
  obtain ⟨h', gs', hrun, hst, hval⟩ := extendList_step (Ne.symm hLM) hr hm hf
  obtain ⟨hm', hv'⟩ := hm.frame (Ne.symm hLM) hst.frame
  refine ⟨h', hrun, ?_, by rw [hm'.toNested, hv']⟩
  rw [hst.rep.toList, hval, Nested.extend_flatten]

example : ∃ h', Heap.extendList 1 0 3 (calls natLe 100 exampleOps (Heap.empty 0)).2 = (.ok (), h') ∧
    Heap.toList 1 h' = (.ok [1, 2, 3], h') := by
  obtain ⟨h', h1, h2, _⟩ := C50_extend_partial exampleOps_after (L := 1) (M := 0) rfl rfl (by decide) 3 (by decide)
  exact ⟨h', h1, h2⟩

/-- Extending a list with itself, unless it is empty, does not end however long it goes on. -/
theorem C50_extend_self_counterexample (ha : After le depth ops h ws) (hL : ws[L]? = some xs) (hne : xs ≠ []) (fuel : Nat) :
    (Heap.extendList L L fuel h).1 = .error .diverges := by
  obtain ⟨gs, hr, rfl⟩ := ha.rep hL
  have : nodesOf gs ≠ [] := fun hh => hne (by rw [nodesOf_eq_nil hh]; rfl)
  obtain ⟨h', hrun⟩ := extendSelf_diverges fuel (zs := []) hr rfl this
  unfold Heap.extendList
  simp only [bind_run (HM.read _), read_run, hr.links.fst]
  exact congrArg Prod.fst hrun

example : (Heap.extendList 0 0 1000 (calls natLe 100 exampleOps (Heap.empty 0)).2).1 = .error .diverges :=
  C50_extend_self_counterexample exampleOps_after rfl (by decide) 1000

/-! ## C51: copies -/

/-- A list made from another one has its groups, and whatever is done afterwards to the one leaves the other as it was: the
groups of a list depend only on the operations on it. -/
theorem C51_copy (ha : After le depth ops h ws) (hM : ws[M]? = some ys) : ∃ h', Heap.copy M h = (.ok ws.length, h') ∧
    Heap.toNested ws.length h' = (.ok ys, h') ∧ (∀ L xs, ws[L]? = some xs → Heap.toNested L h' = (.ok xs, h')) ∧
    ∀ (L : Nat) (op : ListOp α), L < ws.length + 1 → op.Sensible depth ((ws ++ [ys])[L]?.getD []) → ∀ N zs, N ≠ L → (ws ++ [ys])[N]? = some zs →
      Heap.toNested N (op.call le depth L h').2 = (.ok zs, (op.call le depth L h').2) := by
  obtain ⟨h', hrun, hw, _⟩ := copy_world ha.world hM
  rw [ha.world.lists] at hrun
  refine ⟨h', hrun, ?_, ?_, ?_⟩
  · obtain ⟨gs, hr, hv⟩ := hw.rep ws.length ys (by simp)
    rw [hr.toNested, hv]
  · intro L xs hL
    have hlt := (List.getElem?_eq_some_iff.mp hL).1
    obtain ⟨gs, hr, hv⟩ := hw.rep L xs (by rw [List.getElem?_append_left hlt]; exact hL)
    rw [hr.toNested, hv]
  · intro L op hL hs N zs hNL hN
    obtain ⟨h'', hcall, hw'', _⟩ := world_sim le (.on L op) hw ⟨by simpa using hL, hs⟩
    have hcall' : (op.call le depth L h').2 = h'' := congrArg Prod.snd hcall
    rw [hcall']
    have hN' : (match (WorldOp.on L op).meaning le (ws ++ [ys]) with | .ok (_, ws') => ws' | .error _ => ws ++ [ys])[N]? = some zs := by
      simp only [WorldOp.meaning]
      cases op.meaning le ((ws ++ [ys])[L]?.getD []) with
      | error e => exact hN
      | ok r =>
        show ((ws ++ [ys]).set L r.2)[N]? = _
        rw [List.getElem?_set_ne (Ne.symm hNL)]
        exact hN
    obtain ⟨gs, hr, hv⟩ := hw''.rep N zs hN'
    rw [hr.toNested, hv]

example : ∃ h', Heap.copy 0 (calls natLe 100 exampleOps (Heap.empty 0)).2 = (.ok 3, h') ∧ Heap.toNested 3 h' = (.ok [[1, 2], [3]], h') := by
  obtain ⟨h', h1, h2, _⟩ := C51_copy (M := 0) exampleOps_after rfl
  exact ⟨h', h1, h2⟩

end Bibleref
