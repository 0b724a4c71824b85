import Verif.Lemmas.LoopSpec
import Verif.Lemmas.GroupLoops
import Verif.Props.GroupedLists

/-!
# C66: changing a list while looping over it

`After le depth ops h ws` as in `Props/GroupedLists.lean`.
-/

namespace Bibleref
open HM

variable {α : Type} [DecidableEq α] {le : α → α → Bool} {depth : Nat} {ops : List (WorldOp α)} {h : Heap α}
  {ws : List (List (List α))} {L : Nat} {xs : List (List α)}

/-- A loop forwards or backwards whose body makes one change at most, chosen by looking at the elements so far and the list as it
is, goes on with the element that follows the current one in the changed list, or followed it if it has been removed
(`loopMeaning`); no other list is affected. Missing: `clear` and `sort` in the body and bodies that make several changes, see
`C66_counterexample`. -/
theorem C66_loop_partial (ha : After le depth ops h ws) (hL : ws[L]? = some xs) (back : Bool)
    (choose : List α → List (List α) → Option (ListOp α)) (hch : GoodChoice depth choose) (fuel : Nat) :
    ∃ h', Heap.forEach back L (loopBody le depth L choose) fuel h =
        ((loopMeaning le back choose fuel [] (if back then Nested.size xs else 0) xs).1, h') ∧
      Heap.toNested L h' = (.ok (loopMeaning le back choose fuel [] (if back then Nested.size xs else 0) xs).2, h') ∧
      ∀ M ys, M ≠ L → ws[M]? = some ys → Heap.toNested M h' = (.ok ys, h') := by
  obtain ⟨gs, hr, rfl⟩ := ha.rep hL
  obtain ⟨h', gs', h1, h2, h3⟩ := forEach_sim le back hch fuel hr
  refine ⟨h', h1, by rw [← h3]; exact h2.rep.toNested, fun M ys hM hy => ?_⟩
  obtain ⟨gm, hm, rfl⟩ := ha.rep hy
  obtain ⟨a, b⟩ := hm.frame hM h2.frame
  rw [← b]; exact a.toNested

/-- The loop as a program over `loopMeaning`, for the corollaries below. -/
theorem After.loop (ha : After le depth ops h ws) (hL : ws[L]? = some xs) {choose : List α → List (List α) → Option (ListOp α)}
    (hch : GoodChoice depth choose) {fuel : Nat} {r ys} (hm : loopMeaning le false choose fuel [] 0 xs = (r, ys)) :
    ∃ h', Heap.forEach false L (loopBody le depth L choose) fuel h = (r, h') ∧ Heap.toNested L h' = (.ok ys, h') := by
  obtain ⟨h', h1, h2, _⟩ := C66_loop_partial ha hL false choose hch fuel
  simp only [Bool.false_eq_true, if_false, hm] at h1 h2
  exact ⟨h', h1, h2⟩

theorem After.ne (ha : After le depth ops h ws) (hL : ws[L]? = some xs) : ∀ g ∈ xs, g ≠ [] := by
  obtain ⟨gs, hr, rfl⟩ := ha.rep hL
  exact valuesOf_ne _ _

omit [DecidableEq α] in
theorem good_of_remove [DecidableEq α] (p : α → Bool) : GoodChoice depth (removing p) := by
  intro seen xs op ho
  unfold removing at ho
  split at ho
  · split at ho
    · cases ho; exact ⟨trivial, nofun, nofun⟩
    · cases ho
  · cases ho

/-- `for v in list: if p(v): list.remove(v)` yields every element once, in order, and leaves exactly those that do not meet `p`, in
their order and groups. -/
theorem C66_removing (ha : After le depth ops h ws) (hL : ws[L]? = some xs) (p : α → Bool) (fuel : Nat) (hf : xs.flatten.length ≤ fuel) :
    ∃ h', Heap.forEach false L (loopBody le depth L (removing p)) fuel h = (.ok xs.flatten, h') ∧
      Heap.toNested L h' = (.ok ((xs.map fun g => g.filter fun v => !p v).filter fun g => !g.isEmpty), h') :=
  ha.loop hL (good_of_remove p) (removing_loop le p (done := []) (seen := []) (ha.ne hL) (by simp) (by simp) hf)

/-- `for i, v in enumerate(list): list[i] = f(v)` yields the elements as they were, and replaces each. -/
theorem C66_replacing (ha : After le depth ops h ws) (hL : ws[L]? = some xs) (f : α → α) (fuel : Nat) (hf : xs.flatten.length ≤ fuel) :
    ∃ h', Heap.forEach false L (loopBody le depth L (replacing f)) fuel h = (.ok xs.flatten, h') ∧
      Heap.toNested L h' = (.ok (xs.map fun g => g.map f), h') := by
  obtain ⟨ys, h1, h2, h3⟩ := replacing_loop le f (seen := []) (xs := xs) (todo := xs.flatten) (by simp) hf
  have : ys = xs.map fun g => g.map f := by
    apply Nested.eq_of_lengths
    · rw [h3, List.map_map]
      exact List.map_congr_left (by simp)
    · rw [h2, List.nil_append]; exact List.map_flatten
  subst this
  refine ha.loop hL ?_ h1
  intro seen xs op ho
  unfold replacing at ho
  split at ho
  · rename_i v hv
    split at ho
    · cases ho
      refine ⟨?_, nofun, nofun⟩
      have : seen ≠ [] := by intro h0; rw [h0] at hv; cases hv
      have := List.length_pos_iff.mpr this
      show -(Nested.size xs : Int) ≤ _
      omega
    · cases ho
  · cases ho

/-- `for v in list: if p(v): list.append(f(v))` yields also the elements appended, if they do not lead to further ones. -/
theorem C66_appending (ha : After le depth ops h ws) (hL : ws[L]? = some xs) (p : α → Bool) (f : α → α)
    (hpf : ∀ v, p v = true → p (f v) = false) (fuel : Nat) (hf : xs.flatten.length + (xs.flatten.filter p).length ≤ fuel) :
    ∃ h', Heap.forEach false L (loopBody le depth L (appending p f)) fuel h = (.ok (xs.flatten ++ (xs.flatten.filter p).map f), h') ∧
      Heap.toNested L h' = (.ok (Nested.extend xs ((xs.flatten.filter p).map f)), h') := by
  refine ha.loop hL ?_ (by simpa using appending_loop le p f hpf (seen := []) (xs := xs) (todo := xs.flatten) (ha.ne hL) (by simp) hf)
  intro seen xs op ho
  unfold appending at ho
  split at ho
  · split at ho
    · cases ho; exact ⟨trivial, nofun, nofun⟩
    · cases ho
  · cases ho

/-- A loop that appends an element for every element never ends. -/
theorem C66_appending_forever (ha : After le depth ops h ws) (hL : ws[L]? = some xs) (hne : xs ≠ []) (f : α → α) (fuel : Nat) :
    (Heap.forEach false L (loopBody le depth L (appending (fun _ => true) f)) fuel h).1 = .error .diverges := by
  have hx := ha.ne hL
  have h1 := appending_forever le f (fuel := fuel) (seen := []) hx (by
    cases xs with
    | nil => exact absurd rfl hne
    | cons g gs =>
      have := hx g (List.mem_cons_self ..)
      cases g with
      | nil => exact absurd rfl this
      | cons => simp)
  obtain ⟨h', h2, _⟩ := ha.loop hL (choose := appending (fun _ => true) f) (fuel := fuel) (by
    intro seen xs op ho
    unfold appending at ho
    split at ho
    · cases ho; exact ⟨trivial, nofun, nofun⟩
    · cases ho) rfl
  rw [h2]; exact h1

/-- A loop over the groups whose body makes one change at most, chosen by looking at the group and the list as it is, goes on with
the group that follows the current one in the changed list, as long as the current one still begins with the same element, and ends
otherwise (`groupLoopMeaning`); no other list is affected. Missing: `clear` and `sort` in the body and bodies that make several
changes. That the loop ends early is a violation, see `C66_groups_counterexample`. -/
theorem C66_groups_partial (ha : After le depth ops h ws) (hL : ws[L]? = some xs)
    (choose : List α → List (List α) → Option (ListOp α)) (hch : GoodChoice depth choose) (fuel : Nat) :
    ∃ h', Heap.forGroups L (groupBody le depth L choose) fuel h = ((groupLoopMeaning le choose fuel 0 0 xs).1, h') ∧
      Heap.toNested L h' = (.ok (groupLoopMeaning le choose fuel 0 0 xs).2, h') ∧
      ∀ M ys, M ≠ L → ws[M]? = some ys → Heap.toNested M h' = (.ok ys, h') := by
  obtain ⟨gs, hr, rfl⟩ := ha.rep hL
  obtain ⟨h', gs', h1, h2, h3⟩ := forGroups_sim le hch fuel hr
  refine ⟨h', h1, by rw [← h3]; exact h2.rep.toNested, fun M ys hM hy => ?_⟩
  obtain ⟨gm, hm, rfl⟩ := ha.rep hy
  obtain ⟨a, b⟩ := hm.frame hM h2.frame
  rw [← b]; exact a.toNested

/-- `for group in list.groups: if p(group): list.append_group(f(group))`, where no group appended meets `p`, yields every group of
the list once and every group appended, and the list consists of these. -/
theorem C66_groups_appended (ha : After le depth ops h ws) (hL : ws[L]? = some xs) (p : List α → Bool) (f : List α → List α)
    (hpf : ∀ g, p g = true → f g ≠ [] ∧ p (f g) = false) (fuel : Nat) (hf : xs.length + (xs.filter p).length ≤ fuel) :
    ∃ h', Heap.forGroups L (groupBody le depth L (appendingGroups p f)) fuel h = (.ok (xs.length + (xs.filter p).length), h') ∧
      Heap.toNested L h' = (.ok (xs ++ (xs.filter p).map f), h') := by
  obtain ⟨h', h1, h2, _⟩ := C66_groups_partial ha hL (appendingGroups p f) (by
    intro g xs op ho
    unfold appendingGroups at ho
    split at ho
    · cases ho; exact ⟨trivial, nofun, nofun⟩
    · cases ho) fuel
  have := appendingGroups_spec (le := le) hpf (c := 0) (pre := []) (by simp) (ha.ne hL) hf
  simp only [List.flatten_nil, List.length_nil, List.nil_append, Nat.zero_add] at this
  rw [this] at h1 h2
  exact ⟨h', h1, h2⟩

/-- A violation, for every list with several groups: a loop over the groups whose body deletes the first element of the group, say,
ends after the first group. -/
theorem C66_groups_counterexample (ha : After le depth ops h ws) {v : α} {g : List α} (hL : ws[L]? = some ((v :: g) :: xs)) (fuel : Nat) :
    ∃ h', Heap.forGroups L (groupBody le depth L fun _ _ => some (.groupDel 0 0)) (fuel + 1) h = (.ok 1, h') ∧
      Heap.toNested L h' = (.ok (if g = [] then xs else g :: xs), h') := by
  obtain ⟨h', h1, h2, _⟩ := C66_groups_partial ha hL (fun _ _ => some (.groupDel 0 0)) (by
    intro g xs op ho
    cases ho; exact ⟨trivial, nofun, nofun⟩) (fuel + 1)
  have : groupLoopMeaning le (fun _ _ => some (.groupDel 0 0)) (fuel + 1) 0 0 ((v :: g) :: xs) = (.ok 1, if g = [] then xs else g :: xs) := by
    rw [groupLoopMeaning.eq_def]
    cases g <;> simp [Nested.groupFrom, ListOp.meaning, ListOp.place, ListOp.place.without]
  rw [this] at h1 h2
  exact ⟨h', h1, h2⟩

/-- A loop over a group whose body makes one change at most, chosen by looking at the elements so far and the list as it is, goes on
with the element that follows the current one in the changed list, or followed it if it has been removed, and ends if that element
begins a group (`viewLoopMeaning`); no other list is affected. Missing: `clear` and `sort` in the body and bodies that make several
changes. That the loop ends early if the first element of the group is removed is a violation, see `C66_view_counterexample`. -/
theorem C66_view_partial (ha : After le depth ops h ws) (hL : ws[L]? = some xs) {k : Nat} (hk : k < xs.length)
    (choose : List α → List (List α) → Option (ListOp α)) (hch : GoodChoice depth choose) (fuel : Nat) :
    ∃ view h', Heap.groupAt L k h = (.ok view, h) ∧
      Heap.forView view (loopBody le depth L choose) fuel h =
        ((viewLoopMeaning le choose fuel [] (xs.take k).flatten.length xs).1, h') ∧
      Heap.toNested L h' = (.ok (viewLoopMeaning le choose fuel [] (xs.take k).flatten.length xs).2, h') ∧
      ∀ M ys, M ≠ L → ws[M]? = some ys → Heap.toNested M h' = (.ok ys, h') := by
  obtain ⟨gs, hr, rfl⟩ := ha.rep hL
  have hk' : k < gs.length := by simpa [valuesOf] using hk
  have hg : gs[k]? = some gs[k] := List.getElem?_eq_getElem hk'
  have hn : (nodesOf gs)[((valuesOf h gs).take k).flatten.length]? = some gs[k].1 := by
    rw [show (valuesOf h gs).take k = valuesOf h (gs.take k) from by simp [valuesOf, List.map_take], ← map_nodesOf, List.length_map]
    have e1 : nodesOf gs = nodesOf (gs.take k) ++ nodesOf (gs.drop k) := by rw [← nodesOf_append, List.take_append_drop]
    rw [e1, List.getElem?_append_right (Nat.le_refl _), Nat.sub_self, List.drop_eq_getElem_cons hk']
    rfl
  obtain ⟨h', gs', h1, h2, h3⟩ := forView_sim le hch fuel (seen := []) hr hn
  refine ⟨gs[k].1, h', groupAt_ok hr hg, ?_, by rw [← h3]; exact h2.rep.toNested, fun M ys hM hy => ?_⟩
  · unfold Heap.forView
    rw [bind_run, readE_run, viewCheck_ok hr (List.mem_of_getElem? hg)]
    exact h1
  · obtain ⟨gm, hm, rfl⟩ := ha.rep hy
    obtain ⟨a, b⟩ := hm.frame hM h2.frame
    rw [← b]; exact a.toNested

/-- `for v in group: if p(v): list.append(f(v))` with a group that is not the last one yields exactly the elements of the group. -/
theorem C66_view_appending (ha : After le depth ops h ws) {pre : List (List α)} {g w : List α} {post : List (List α)}
    (hL : ws[L]? = some (pre ++ g :: w :: post)) (p : α → Bool) (f : α → α) (fuel : Nat) (hf : g.length ≤ fuel) :
    ∃ view h', Heap.groupAt L pre.length h = (.ok view, h) ∧
      Heap.forView view (loopBody le depth L (appending p f)) fuel h = (.ok g, h') ∧
      Heap.toNested L h' = (.ok (pre ++ g :: Nested.extend (w :: post) ((g.filter p).map f)), h') := by
  have hne := ha.ne hL
  obtain ⟨view, h', h0, h1, h2, _⟩ := C66_view_partial ha hL (k := pre.length) (by simp) (appending p f) (by
    intro seen xs op ho
    unfold appending at ho
    split at ho
    · split at ho
      · cases ho; exact ⟨trivial, nofun, nofun⟩
      · cases ho
    · cases ho) fuel
  cases g with
  | nil => exact absurd rfl (hne [] (by simp))
  | cons v g =>
    have := viewAppending_spec (le := le) (p := p) (f := f) (fuel := fuel) (seen := []) (pre := pre) (done := []) (v := v) (todo := g)
      (fun g hg => hne g (by simp [hg])) (w := w) (post := post) (fun g hg => hne g (by
        rcases List.mem_cons.mp hg with rfl | hg <;> simp_all)) (by simp only [List.length_cons] at hf; omega)
    simp only [List.nil_append, List.length_nil, Nat.add_zero] at this
    rw [List.take_left, this] at h1 h2
    exact ⟨view, h', h0, h1, h2⟩

/-- A violation, for every group of several elements: a loop over the group whose body removes the element yielded ends after the
first element. -/
theorem C66_view_counterexample (ha : After le depth ops h ws) {k : Nat} {v w : α} {g : List α} (hL : ws[L]? = some xs)
    (hk : xs[k]? = some (v :: w :: g)) (fuel : Nat) :
    ∃ view h', Heap.groupAt L k h = (.ok view, h) ∧
      Heap.forView view (loopBody le depth L fun _ _ => some (.groupDel k 0)) (fuel + 1) h = (.ok [v], h') ∧
      Heap.toNested L h' = (.ok (xs.set k (w :: g)), h') := by
  have hlt : k < xs.length := (List.getElem?_eq_some_iff.mp hk).1
  obtain ⟨view, h', h0, h1, h2, _⟩ := C66_view_partial ha hL hlt (fun _ _ => some (.groupDel k 0)) (by
    intro g xs op ho
    cases ho; exact ⟨trivial, nofun, nofun⟩) (fuel + 1)
  have hne := ha.ne hL
  have hsplit : xs = xs.take k ++ (v :: w :: g) :: xs.drop (k + 1) := by
    conv => lhs; rw [← List.take_append_drop k xs]
    rw [List.drop_eq_getElem_cons hlt, (List.getElem?_eq_some_iff.mp hk).2]
  have hset : xs.set k (w :: g) = xs.take k ++ (w :: g) :: xs.drop (k + 1) := by
    rw [List.set_eq_take_append_cons_drop, if_pos hlt]
  have hat : xs.flatten[(xs.take k).flatten.length]? = some v := by
    conv => lhs; arg 1; rw [hsplit]
    simp
  have : viewLoopMeaning le (fun _ _ => some (.groupDel k 0)) (fuel + 1) [] (xs.take k).flatten.length xs =
      (.ok [v], xs.set k (w :: g)) := by
    rw [viewLoopMeaning.eq_def]
    simp only [hat, ListOp.meaning, hk, ListOp.place, ListOp.place.without]
    have hgf := groupFrom_pre (pre := xs.take k) (fun g hg => hne g (List.mem_of_mem_take hg)) ((w :: g) :: xs.drop (k + 1))
    rw [← hset] at hgf
    simp only [List.length_flatten, List.map_take, List.head?_cons] at hgf
    simp [hgf]
  rw [this] at h1 h2
  exact ⟨view, h', h0, h1, h2⟩

/-- The list `[[1, 2], [3]]` of the examples. -/
example : After natLe 100 exampleOps (calls natLe 100 exampleOps (Heap.empty 0)).2 [[[1, 2], [3]], [], [[1, 2], [3]]] ∧
    loopMeaning natLe false (removing fun v => v != 2) 3 [] 0 [[1, 2], [3]] = (.ok [1, 2, 3], [[2]]) ∧
    loopMeaning natLe true (fun seen _ => if seen = [3] then some (.prepend 7 true) else some (.pop (some 0))) 5 [] 3 [[1, 2], [3]] =
      (.ok [3, 2, 1], [[2], [3]]) ∧
    groupLoopMeaning natLe (fun g _ => if g = [3] then some (.appendGroup [4, 5]) else none) 3 0 0 [[1, 2], [3]] =
      (.ok 3, [[1, 2], [3], [4, 5]]) ∧
    viewLoopMeaning natLe (fun seen _ => if seen = [1] then some (.insert 1 5) else some (.pop (some 0))) 4 [] 0 [[1, 2], [3]] =
      (.ok [1, 5, 2], [[2], [3]]) :=
  ⟨exampleOps_after, by decide +kernel, by decide +kernel, by decide +kernel, by decide +kernel⟩

/-- Three violations. A loop over `[[1, 2], [3]]` whose body removes the first two elements when it gets the first one yields the
second one all the same. A loop whose body clears the list goes on with all elements. A loop over the groups of `[[1, 2], [3]]`
whose body deletes the first element of the group ends after the first group. -/
theorem C66_counterexample :
    let h := (calls natLe 100 exampleOps (Heap.empty 0)).2
    (Heap.forEach false 0 (fun seen => if seen = [1] then (do let _ ← Heap.pop 0 (some 0); let _ ← Heap.pop 0 (some 0)) else Pure.pure ())
      10 h).1 = .ok [1, 2, 3] ∧
    (Heap.forEach false 0 (fun _ => Heap.clear 0) 10 h).1 = .ok [1, 2, 3] ∧
    ((do let c ← Heap.forGroups 0 (fun g => Heap.viewDel g 0) 10
         let l ← Heap.toNested 0
         Pure.pure (c, l) : HM Nat (Nat × List (List Nat))) h).1 = .ok (1, [[2], [3]]) := by
  decide +kernel

end Bibleref
