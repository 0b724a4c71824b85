import Verif.Lemmas.Iterators
import Verif.Props.GroupedLists

/-!
# C71: iterators advanced one element at a time

`Action.runs` performs a program of calls on lists and of `iter`, `reversed` and `next`, for lists, groups and `list.groups`; `Action.meanings` says what it is meant to
do. `After le depth ops h ws` as in `Props/GroupedLists.lean`.
-/

namespace Bibleref
open HM

variable {α : Type} [DecidableEq α] {le : α → α → Bool} {depth : Nat} {ops : List (WorldOp α)} {h : Heap α}
  {ws : List (List (List α))} {L : Nat} {xs : List (List α)}

/-- Any number of iterators over any lists and groups are advanced in any order, with any calls in between: every `next()` and every
call gives what it is meant to give, and all lists are in the end what they are meant to be. Missing: iterators that have begun when
their list is cleared (`Action.Sensible`); and that elements which have been removed may be yielded is a violation, see
`C71_counterexample`. -/
theorem C71_iterators_partial (v : α) (acts : List (Action α)) (hs : Action.SensibleRun le depth acts [] []) :
    (Action.runs le depth acts (Heap.empty v) []).1 = (Action.meanings le acts [] []).1 ∧
      ∀ L xs, (Action.meanings le acts [] []).2.1[L]? = some xs →
        Heap.toNested L (Action.runs le depth acts (Heap.empty v) []).2.1 =
          (.ok xs, (Action.runs le depth acts (Heap.empty v) []).2.1) := by
  obtain ⟨h1, h2⟩ := runs_sim le acts (tracks_empty v) hs
  refine ⟨h1, fun L xs hL => ?_⟩
  obtain ⟨gs, hr, rfl⟩ := h2.world.rep L xs hL
  exact hr.toNested

/-- A program for the examples: three iterators over `[[1, 2], [3]]`; the first and the second are advanced, `1` is removed, and then
each is advanced. -/
abbrev exampleActions : List (Action Nat) :=
  [.call .new, .call (.on 0 (.append 1 false)), .call (.on 0 (.append 2 false)), .call (.on 0 (.append 3 true)),
   .iter 0 false, .iter 0 true, .iterGroup 0 0, .next 0, .next 1, .call (.on 0 (.remove 1)), .next 0, .next 1, .next 2, .next 0, .next 0]

/-- What they give. -/
example : (Action.runs natLe 100 exampleActions (Heap.empty 0) []).1 =
    [.ok none, .ok none, .ok none, .ok none, .ok none, .ok none, .ok none, .ok (some 1), .ok (some 3), .ok none,
     .ok (some 2), .ok (some 2), .error .groupView, .ok (some 3), .ok none] := by decide +kernel

/-- The condition of the theorem is met. -/
example : Action.SensibleRun natLe 100 exampleActions [] [] := by
  refine ⟨trivial, ⟨by decide, trivial⟩, ⟨by decide, trivial⟩, ⟨by decide, trivial⟩, by show 0 < 1; decide, by show 0 < 1; decide,
    ⟨[[1, 2], [3]], rfl, by decide⟩,
    ?_, ?_, ⟨by decide, trivial⟩, ?_, ?_, ?_, ?_, ?_, trivial⟩ <;> (intro c hc; cases hc; exact nofun)

/-- Iterators over the groups of `[[1, 2], [3]]`, and over the views that they give: the first group gets one more element, the second
one disappears. -/
example : (Action.runs natLe 100 (exampleActions.take 4 ++ [.iterGroups 0, .next 0, .iterView 0, .call (.on 0 (.append 4 true)), .next 0, .iterView 0,
      .call (.on 0 (.insert 1 5)), .call (.on 0 (.remove 3)), .next 1, .next 1, .next 1, .next 1, .next 2, .next 0]) (Heap.empty 0) []).1 =
    [.ok none, .ok none, .ok none, .ok none, .ok none, .ok (some 1), .ok none, .ok none, .ok (some 3), .ok none, .ok none, .ok none,
     .ok (some 1), .ok (some 5), .ok (some 2), .ok none, .error .groupView, .ok none] := by decide +kernel

/-- Whatever `next()` gives is in the list at that time, unless the element the iterator is at has been removed and the one that came
next after it too. -/
theorem C71_gives_elements (v : α) (acts : List (Action α)) (k : Nat) (hs : Action.SensibleRun le depth (acts ++ [.next k]) [] [])
    {c : Cursor α} (hc : (Action.meanings le acts [] []).2.2[k]? = some c) (hn : ∀ u a, c.place ≠ .off (.removed u a)) {x : α}
    (hx : (Action.runs le depth (acts ++ [.next k]) (Heap.empty v) []).1.getLast? = some (.ok (some x))) :
    ∃ xs, (Action.meanings le acts [] []).2.1[c.list]? = some xs ∧ x ∈ xs.flatten := by
  rw [(C71_iterators_partial v _ hs).1, Action.meanings_append] at hx
  simp only [Action.meanings, Action.meaning, hc, List.getLast?_append, List.getLast?_singleton, Option.some_or, Option.some.injEq] at hx
  have hm := next_mem hn hx
  cases hg : (Action.meanings le acts [] []).2.1[c.list]? with
  | none => rw [hg] at hm; simp at hm
  | some xs => rw [hg] at hm; exact ⟨xs, rfl, hm⟩

/-- The condition is met by the first `next()` after the removal in the example above, when the iterator's element has been removed
but not the one after it. -/
example : let acts := exampleActions.take 10
    (Action.meanings natLe acts [] []).2.2[0]? = some ⟨0, .forward, .off (.element 0)⟩ ∧
    (Action.runs natLe 100 (acts ++ [.next 0]) (Heap.empty 0) []).1.getLast? = some (.ok (some 2)) := ⟨rfl, by decide +kernel⟩

/-- The elements an iterator made by this action is to give if nothing changes; for each group, its first element. -/
def Action.elements (ws : List (List (List α))) : Action α → List α
  | .iter L back => if back then (ws[L]?.getD []).flatten.reverse else (ws[L]?.getD []).flatten
  | .iterGroup L k => ((ws[L]?.getD [])[k]?).getD []
  | .iterGroups L => (ws[L]?.getD []).filterMap List.head?
  | _ => []

/-- This action makes an iterator. -/
def Action.Opens (ws : List (List (List α))) : Action α → Prop
  | .iter L _ => L < ws.length
  | .iterGroup L k => ∃ xs, ws[L]? = some xs ∧ k < xs.length
  | .iterGroups L => L < ws.length
  | _ => False

/-- The iterator it makes. -/
def Action.cursor (ws : List (List (List α))) : Action α → Cursor α
  | .iter L back => ⟨L, if back then .backward else .forward, .start⟩
  | .iterGroup L k => ⟨L, .group, .first (((ws[L]?.getD []).take k).flatten.length)⟩
  | .iterGroups L => ⟨L, .groups, .start⟩
  | _ => ⟨0, .forward, .over⟩

theorem opens_meanings (opens : List (Action α)) (ho : ∀ a ∈ opens, a.Opens ws) (cs : List (Cursor α)) :
    Action.SensibleRun le depth opens ws cs ∧
      Action.meanings le opens ws cs = (opens.map fun _ => .ok none, ws, cs ++ opens.map (Action.cursor ws)) := by
  induction opens generalizing cs with
  | nil => exact ⟨trivial, by simp [Action.meanings]⟩
  | cons a as ih =>
    have ha := ho a (by simp)
    obtain ⟨h1, h2⟩ := ih (fun a h => ho a (by simp [h])) (cs ++ [a.cursor ws])
    have hm : a.meaning le ws cs = (.ok none, ws, cs ++ [a.cursor ws]) := by
      cases a with
      | call op => exact absurd ha id
      | next k | iterView k => exact absurd ha id
      | iter L back | iterGroup L k | iterGroups L => rfl
    refine ⟨⟨?_, by rw [hm]; exact h1⟩, ?_⟩
    · cases a with
      | call op => exact absurd ha id
      | next k | iterView k => exact absurd ha id
      | iter L back | iterGroup L k | iterGroups L => exact ha
    · simp only [Action.meanings, hm, h2, List.map_cons, List.append_assoc, List.singleton_append]

theorem opens_gives (hne : ∀ (L : Nat) xs, ws[L]? = some xs → ∀ g ∈ xs, g ≠ []) {a : Action α} (ho : a.Opens ws) :
    Dispenses (a.cursor ws).walk (ws[(a.cursor ws).list]?.getD []) (a.cursor ws).place (a.elements ws) := by
  cases a with
  | call op => exact absurd ho id
  | next k | iterView k => exact absurd ho id
  | iterGroups L =>
    refine gives_groups (pre := []) (rest := ws[L]?.getD []) ?_ rfl
    intro g hg
    cases hx : ws[L]? with
    | none => rw [hx] at hg; simp at hg
    | some xs => rw [hx] at hg; exact hne L xs hx g (by simpa using hg)
  | iter L back =>
    cases back with
    | false => exact gives_forward (i := 0) (by simp [Action.elements, Action.cursor]) rfl
    | true =>
      have := gives_backward (xs := ws[L]?.getD []) (p := .start) (Nat.le_refl _) rfl
      rw [List.take_length] at this
      exact this
  | iterGroup L k =>
    obtain ⟨xs, hx, hk⟩ := ho
    simp only [Action.cursor, Action.elements, hx, Option.getD_some, List.getElem?_eq_getElem hk]
    have hs : xs = xs.take k ++ xs[k] :: xs.drop (k + 1) := by rw [← List.drop_eq_getElem_cons hk, List.take_append_drop]
    have := gives_first (A := xs.take k) (g := xs[k]) (B := xs.drop (k + 1)) (by rw [← hs]; exact hne L xs hx)
    rwa [← hs] at this

/-- Iterators over any lists and groups, made by `opens` and advanced in any order `ks`, do not disturb each other: the `j`-th
`next()` of each gives the `j`-th of its elements, and `StopIteration` when there are no more. -/
theorem C71_unchanged (ha : After le depth ops h ws) (opens : List (Action α)) (ho : ∀ a ∈ opens, a.Opens ws) (ks : List Nat) {i k : Nat}
    (hi : ks[i]? = some k) {a : Action α} (hk : opens[k]? = some a) :
    (Action.runs le depth (opens ++ ks.map .next) h []).1[opens.length + i]? = some (.ok (a.elements ws)[(ks.take i).count k]?) := by
  have ht : Tracks h ws [] [] := ⟨ha.world, rfl, fun k w g c h1 => by simp at h1⟩
  obtain ⟨h1, h2⟩ := opens_meanings (le := le) (depth := depth) opens ho []
  have hne : ∀ L xs, ws[L]? = some xs → ∀ g ∈ xs, g ≠ [] := fun L xs hL => by
    obtain ⟨gs, hr, rfl⟩ := ha.rep hL
    exact valuesOf_ne _ _
  rw [List.nil_append] at h2
  obtain ⟨h3, h4⟩ := nexts_give (le := le) (depth := depth) (ws := ws) ks (cs := opens.map (Action.cursor ws))
    (l := fun k => (opens[k]?.map (Action.elements ws)).getD []) (by
      intro k c hc
      rw [List.getElem?_map] at hc
      cases hk : opens[k]? with
      | none => rw [hk] at hc; cases hc
      | some a =>
        rw [hk] at hc
        cases hc
        exact opens_gives hne (ho a (List.mem_of_getElem? hk)))
  have hs : Action.SensibleRun le depth (opens ++ ks.map .next) ws [] := by
    rw [Action.sensibleRun_append, h2]
    exact ⟨h1, h3⟩
  rw [(runs_sim le _ ht hs).1, Action.meanings_append, h2]
  rw [List.getElem?_append_right (by simp), List.length_map, Nat.add_sub_cancel_left]
  rw [h4 i k (a.cursor ws) hi (by rw [List.getElem?_map, hk]; rfl)]
  simp only [hk, Option.map_some, Option.getD_some]

/-- Two iterators over `[[1, 2], [3]]`, one over its first group and one over its groups. -/
example : ∀ a ∈ [Action.iter 0 false, .iter 0 true, .iterGroup 0 0, .iterGroups 0], a.Opens [[[1, 2], [3]], [], [[1, 2], [3]]] := by
  intro a ha
  simp only [List.mem_cons, List.not_mem_nil, or_false] at ha
  rcases ha with rfl | rfl | rfl | rfl
  · show 0 < 3; decide
  · show 0 < 3; decide
  · exact ⟨_, rfl, by decide⟩
  · show 0 < 3; decide

theorem groups_nexts (hne : ∀ g ∈ xs, g ≠ []) (hL : ws[L]? = some xs) {j : Nat} (hj : j ≤ xs.length) :
    (Action.meanings le ([.iterGroups L] ++ List.replicate j (.next 0)) ws []).2 =
      (ws, [⟨L, .groups, if j = 0 then .start else .on (xs.take (j - 1)).flatten.length⟩]) ∧
    Action.SensibleRun le depth ([.iterGroups L] ++ List.replicate j (.next 0)) ws [] := by
  induction j with
  | zero => exact ⟨rfl, (List.getElem?_eq_some_iff.mp hL).1, trivial⟩
  | succ j ih =>
    obtain ⟨h1, h2⟩ := ih (by omega)
    rw [List.replicate_succ', ← List.append_assoc, Action.meanings_append, Action.sensibleRun_append, h1]
    show (Action.meanings le [.next 0] (Action.meanings le ([.iterGroups L] ++ List.replicate j (.next 0)) ws []).2.1
      (Action.meanings le ([.iterGroups L] ++ List.replicate j (.next 0)) ws []).2.2).2 = _ ∧ _
    rw [h1]
    obtain ⟨v, hv⟩ := groups_at hne (j := j) (by omega) rfl
    simp only [Action.meanings, Action.meaning, List.getElem?_cons_zero, hL, Option.getD_some, hv, List.set_cons_zero]
    refine ⟨by rw [if_neg (by omega), Nat.add_sub_cancel], h2, fun c hc => ?_, trivial⟩
    cases hc
    show (if j = 0 then Spot.start else .on _ : Spot α) ≠ .unknown
    split <;> nofun

/-- `for group in list.groups: for x in group: …`: an iterator over the groups, advanced `j + 1` times, gives a view of the group
with the number `j`; an iterator over this view gives the elements of the group, and then `StopIteration`. -/
theorem C71_views (ha : After le depth ops h ws) (hL : ws[L]? = some xs) {j : Nat} {g : List α} (hj : xs[j]? = some g) (m i : Nat) (hi : i < m) :
    (Action.runs le depth ([.iterGroups L] ++ List.replicate (j + 1) (.next 0) ++ [.iterView 0] ++ List.replicate m (.next 1)) h []).1[j + 3 + i]? =
      some (.ok g[i]?) := by
  have ht : Tracks h ws [] [] := ⟨ha.world, rfl, fun k w g c h1 => by simp at h1⟩
  have hne : ∀ L xs, ws[L]? = some xs → ∀ g ∈ xs, g ≠ [] := fun L xs hL => by
    obtain ⟨gs, hr, rfl⟩ := ha.rep hL
    exact valuesOf_ne _ _
  have hlt := (List.getElem?_eq_some_iff.mp hj).1
  have hat := (List.getElem?_eq_some_iff.mp hj).2
  obtain ⟨h1, h2⟩ := groups_nexts (le := le) (depth := depth) (hne L xs hL) hL (j := j + 1) hlt
  rw [if_neg (by omega), Nat.add_sub_cancel] at h1
  have hs : xs = xs.take j ++ g :: xs.drop (j + 1) := by rw [← hat, ← List.drop_eq_getElem_cons hlt, List.take_append_drop]
  have hgive := gives_first (A := xs.take j) (g := g) (B := xs.drop (j + 1)) (by rw [← hs]; exact hne L xs hL)
  rw [← hs] at hgive
  have hnext : (Spot.on (xs.take j).flatten.length : Spot α).next .groups xs = Spot.arrive xs (some (xs.take (j + 1)).flatten.length) := by
    have := groupFrom_pre (pre := xs.take j) (fun a ha => hne L xs hL a (List.mem_of_mem_take ha)) (g :: xs.drop (j + 1))
    rw [← hs] at this
    simp only [Spot.next, this, List.head?_cons, Option.map_some]
    rw [List.take_succ_eq_append_getElem hlt, hat]
    simp
  have hwalk := gives_groups (pre := xs.take (j + 1)) (rest := xs.drop (j + 1)) (p := .on (xs.take j).flatten.length)
    (by rw [List.take_append_drop]; exact hne L xs hL) (by rw [List.take_append_drop]; exact hnext)
  rw [List.take_append_drop] at hwalk
  have h3 : Action.meanings le [.iterView 0] ws [⟨L, .groups, .on (xs.take j).flatten.length⟩] =
      ([.ok none], ws, [⟨L, .groups, .on (xs.take j).flatten.length⟩, ⟨L, .group, .first (xs.take j).flatten.length⟩]) := rfl
  obtain ⟨h4, h5⟩ := nexts_give (le := le) (depth := depth) (ws := ws) (List.replicate m 1)
    (cs := [⟨L, .groups, .on (xs.take j).flatten.length⟩, ⟨L, .group, .first (xs.take j).flatten.length⟩])
    (l := fun k => if k = 0 then (xs.drop (j + 1)).filterMap List.head? else g) (by
      intro k c hc
      match k with
      | 0 => cases hc; rw [hL]; exact hwalk
      | 1 => cases hc; rw [hL]; exact hgive
      | k + 2 => cases hc)
  have h6 := h5 i 1 _ (by rw [List.getElem?_replicate, if_pos hi]) rfl
  rw [List.map_replicate] at h4 h6
  have h7 : (Action.meanings le ([.iterGroups L] ++ List.replicate (j + 1) (.next 0) ++ [.iterView 0]) ws []).2 =
      (ws, [⟨L, .groups, .on (xs.take j).flatten.length⟩, ⟨L, .group, .first (xs.take j).flatten.length⟩]) := by
    rw [Action.meanings_append]
    show (Action.meanings le [.iterView 0] (Action.meanings le ([.iterGroups L] ++ List.replicate (j + 1) (.next 0)) ws []).2.1
      (Action.meanings le ([.iterGroups L] ++ List.replicate (j + 1) (.next 0)) ws []).2.2).2 = _
    rw [h1, h3]
  have hsens : Action.SensibleRun le depth ([.iterGroups L] ++ List.replicate (j + 1) (.next 0) ++ [.iterView 0] ++ List.replicate m (.next 1)) ws [] := by
    rw [Action.sensibleRun_append, h7, Action.sensibleRun_append, h1]
    refine ⟨⟨h2, fun c hc => ?_, trivial⟩, h4⟩
    cases hc
    nofun
  have hlen : (Action.meanings le ([.iterGroups L] ++ List.replicate (j + 1) (.next 0) ++ [.iterView 0]) ws []).1.length = j + 3 := by
    rw [Action.meanings_length]
    simp
  rw [(runs_sim le _ ht hsens).1, Action.meanings_append, List.getElem?_append_right (by rw [hlen]; omega), hlen, Nat.add_sub_cancel_left, h7]
  rw [h6, if_neg (by decide)]
  simp only [List.take_replicate, List.count_replicate_self]
  rw [Nat.min_eq_left (Nat.le_of_lt hi)]

/-- The second group of `[[1, 2], [3]]`, which is the list with the number 0. -/
example : ([[[1, 2], [3]], [], [[1, 2], [3]]] : List (List (List Nat)))[0]? = some [[1, 2], [3]] ∧ [[1, 2], [3]][1]? = some [3] := ⟨rfl, rfl⟩

/-- Three violations. An iterator over `[[1, 2], [3]]` that has given the first element gives the second one after both have been
removed; and it goes on when the list has been cleared. An iterator over the groups of `[[1, 2], [3]]` that has given the first group ends after the
first element of that group has been removed, although two groups are left. -/
theorem C71_counterexample :
    let acts : List (Action Nat) := exampleActions.take 5 ++ [.next 0]
    (Action.runs natLe 100 (acts ++ [.call (.on 0 (.pop (some 0))), .call (.on 0 (.pop (some 0))), .next 0]) (Heap.empty 0) []).1.getLast? =
      some (.ok (some 2)) ∧
    (Action.runs natLe 100 (acts ++ [.call (.on 0 .clear), .next 0]) (Heap.empty 0) []).1.getLast? = some (.ok (some 2)) ∧
    let run := Action.runs natLe 100 (exampleActions.take 4 ++ [.iterGroups 0, .next 0, .call (.on 0 (.remove 1)), .next 0]) (Heap.empty 0) []
    run.1.getLast? = some (.ok none) ∧ (Heap.toNested 0 run.2.1).1 = .ok [[2], [3]] := by
  decide +kernel

end Bibleref
