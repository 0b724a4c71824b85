import Verif.Lemmas.History
import Verif.Lemmas.Ends
import Verif.Props.RangeLists2

/-!
# Properties C26–C31, C50, C51 and C58: lists of ranges as objects

`Reachable h` says that `h` is the memory of a program that has made any number of lists and called any methods on them, where
operands may be the same object and calls may have raised exceptions. `depth` is the number of nested calls that are still
possible, `fuel` the number of iterations of a loop that are waited for.
-/

namespace Bibleref
open HM Spec

variable {h h' : Heap BibleRange} {L M : Nat} {e : Env} {flags : Option BibleFlag} {xs ys : RangeList}

theorem World.holds {ws : List RangeList} (hw : World h ws) : Holds h L xs ↔ ws[L]? = some xs := by
  constructor
  · rintro ⟨h1, h2⟩
    rw [hw.lists] at h1
    obtain ⟨gs, hr, hv⟩ := hw.rep L _ (List.getElem?_eq_getElem h1)
    rw [hr.toNested, hv] at h2
    cases h2
    exact List.getElem?_eq_getElem h1
  · intro hL
    obtain ⟨gs, hr, hv⟩ := hw.rep L xs hL
    exact ⟨by rw [hw.lists]; exact (List.getElem?_eq_some_iff.mp hL).1, by rw [hr.toNested, hv]⟩

theorem Reachable.get (hr : Reachable h) (hL : Holds h L xs) : (contents h)[L]? = some xs := hr.world.holds.mp hL

theorem World.unchanged_set {ws ts : List RangeList} (hw : World h ws) (hw' : World h' ((ws ++ ts).set L xs)) : Unchanged h h' (some L) := by
  intro K zs hK hz
  rw [hw'.holds, List.getElem?_set_ne (fun hh => hK (by rw [hh]))]
  exact RangeHeap.get_append_left (hw.holds.mp hz)

theorem World.unchanged_append {ws ts : List RangeList} (hw : World h ws) (hw' : World h' (ws ++ ts)) : Unchanged h h' none := by
  intro K zs hK hz
  rw [hw'.holds]
  exact RangeHeap.get_append_left (hw.holds.mp hz)

/-! ## Programs for the examples -/

abbrev exSermon : BibleRange := ⟨⟨.Matt, 5, 1⟩, ⟨.Matt, 7, 29⟩⟩
abbrev exGenesis : BibleRange := ⟨⟨.Gen, 1, 1⟩, ⟨.Gen, 1, 31⟩⟩

/-- `a = BibleRangeList()`, `a.append(r)`, …, `b = BibleRangeList()`, `b.append(r)`. -/
abbrev exHeap : Heap BibleRange :=
  ((((((((RangeOp.basic .new).call dflt 1000 0 (Heap.empty exMatt)).2 |>
    ((RangeOp.basic (.on 0 (.append exSermon false))).call dflt 1000 0)).2 |>
    ((RangeOp.basic (.on 0 (.append exGenesis true))).call dflt 1000 0)).2 |>
    ((RangeOp.basic .new).call dflt 1000 0)).2 |>
    ((RangeOp.basic (.on 1 (.append exMatt false))).call dflt 1000 0)).2 |>
    ((RangeOp.basic .new).call dflt 1000 0)).2 |>
    ((RangeOp.basic (.on 2 (.append exIn false))).call dflt 1000 0)).2

theorem exHeap_contents : contents exHeap = [[[exSermon], [exGenesis]], [[exMatt]], [[exIn]]] := by decide +kernel

theorem exHeap_reachable : Reachable exHeap := by
  refine .call dflt 1000 0 _ (.call dflt 1000 0 _ (.call dflt 1000 0 _ (.call dflt 1000 0 _ (.call dflt 1000 0 _ (.call dflt 1000 0 _
    (.call dflt 1000 0 _ (.start exMatt) ?_ ?_) ?_ ?_) ?_ ?_) ?_ ?_) ?_ ?_) ?_ ?_) ?_ ?_
  all_goals first
    | exact trivial
    | exact ⟨by decide +kernel, trivial⟩
    | exact ⟨by decide +kernel, by decide +kernel⟩

theorem exHeap_first : Holds exHeap 0 [[exSermon], [exGenesis]] := exHeap_reachable.world.holds.mpr (by rw [exHeap_contents]; rfl)
theorem exHeap_second : Holds exHeap 1 [[exMatt]] := exHeap_reachable.world.holds.mpr (by rw [exHeap_contents]; rfl)
theorem exHeap_third : Holds exHeap 2 [[exIn]] := exHeap_reachable.world.holds.mpr (by rw [exHeap_contents]; rfl)

/-! ## C58: lists stay intact -/

/-- Whatever a program has done, every list is a sequence of non-empty groups: iterating forwards, backwards and group by
group, the length and the number of groups agree.

Missing from the full property: calls for which nested calls run out, and the arguments excluded by `RangeOp.Sensible`; see
`C34_grouped_list_counterexample` and `C58_recursion_counterexample`. -/
theorem C58_intact_partial (hr : Reachable h) (L : Nat) (hL : L < h.lists) : ∃ xs, Heap.toNested L h = (.ok xs, h) ∧
    Heap.toList L h = (.ok xs.flatten, h) ∧ Heap.toListReversed L h = (.ok xs.flatten.reverse, h) ∧
    Heap.len L h = (.ok xs.flatten.length, h) ∧ Heap.groupsLen L h = (.ok xs.length, h) ∧ ∀ g ∈ xs, g ≠ [] := by
  have hw := hr.world
  rw [hw.lists] at hL
  obtain ⟨gs, hg, hv⟩ := hw.rep L _ (List.getElem?_eq_getElem hL)
  exact ⟨valuesOf h gs, hg.toNested, hg.toList, hg.toListReversed, hg.len, hg.groupsLen, valuesOf_ne _ _⟩

example : ∃ xs, Heap.toNested 0 exHeap = (.ok xs, exHeap) ∧ Heap.toList 0 exHeap = (.ok xs.flatten, exHeap) := by
  obtain ⟨xs, h1, h2, _⟩ := C58_intact_partial exHeap_reachable 0 exHeap_first.1
  exact ⟨xs, h1, h2⟩

/-- When nested calls run out while `merge` sorts the list, the list is left damaged: it claims to have two ranges but iterating
gives one of them forwards and the other one backwards. -/
theorem C58_recursion_counterexample : (RangeHeap.merge dflt 1 0 none exHeap).1 = .error .recursionError ∧
    (Heap.len 0 (RangeHeap.merge dflt 1 0 none exHeap).2).1 = .ok 2 ∧
    (Heap.toList 0 (RangeHeap.merge dflt 1 0 none exHeap).2).1 = .ok [exSermon] ∧
    (Heap.toListReversed 0 (RangeHeap.merge dflt 1 0 none exHeap).2).1 = .ok [exGenesis] := by
  decide +kernel

/-- The same happens with enough room for nested calls if the list mentions a book that has been left out of the book order. -/
theorem C58_incomparable_counterexample : (RangeHeap.merge ⟨ntData, .none⟩ 1000 0 none exHeap).1 = .error .typeError ∧
    (Heap.len 0 (RangeHeap.merge ⟨ntData, .none⟩ 1000 0 none exHeap).2).1 = .ok 2 ∧
    (Heap.toList 0 (RangeHeap.merge ⟨ntData, .none⟩ 1000 0 none exHeap).2).1 = .ok [exSermon] ∧
    (Heap.toListReversed 0 (RangeHeap.merge ⟨ntData, .none⟩ 1000 0 none exHeap).2).1 = .ok [exGenesis] := by
  decide +kernel

/-! ## C51: only the updated list changes -/

/-- A call changes no list except the one it updates; calls that return a new list change none. This includes calls that
raise exceptions and calls with twice the same list. -/
theorem C51_only_target (hr : Reachable h) (depth fuel : Nat) (op : RangeOp) (hs : op.Sensible e.data depth (contents h))
    (he : Ended (op.call e depth fuel h)) : Unchanged h (op.call e depth fuel h).2 op.target := by
  obtain ⟨ws', hw', _, hf⟩ := call_sound depth fuel op hr.world hs he
  intro K xs hK hx
  exact hw'.holds.mpr (hf K xs hK (hr.get hx))

example : Holds ((RangeOp.unionUpdate 0 1 none).call dflt 1000 1000 exHeap).2 1 [[exMatt]] :=
  C51_only_target exHeap_reachable 1000 1000 (.unionUpdate 0 1 none) ⟨⟨by decide +kernel, by decide +kernel⟩, .inl (by decide +kernel)⟩
    ⟨by decide +kernel, by decide +kernel⟩ 1 _ (by decide) exHeap_second

/-- Ranges that are allowed can be compared with each other. -/
theorem allowed_listed {fl : BibleFlag} {l : List BibleRange} (hW : e.data.WF) (hl : ∀ r ∈ l, Allowed e.data fl r) :
    ∀ r ∈ l, OfKind (· ∈ e.data.bookOrder) r := by
  intro r hr
  have := (allowed_iff hW).mp (hl r hr)
  exact ⟨this.s.listed, this.t.listed⟩

/-! ## C26: merge, in place -/

theorem C26_merge_in_place (hr : Reachable h) (hW : e.data.WF) (depth : Nat) (hL : Holds h L xs) (hd : xs.flatten.length < depth)
    (hok : ∀ r ∈ xs.flatten, Allowed e.data (inForce e flags) r) :
    ∃ m h', RangeHeap.merge e depth L flags h = (.ok (), h') ∧ Holds h' L m ∧ Unchanged h h' (some L) ∧
      (∀ v ∈ canon e.data (inForce e flags).verse0, Covered e.data m.flatten v ↔ Covered e.data xs.flatten v) ∧
      Canonical e.data (inForce e flags) m.flatten := by
  obtain ⟨m, h1, _, h3, h4, _⟩ := C26_merge e hW flags xs hok
  rcases RangeHeap.merge_world (e := e) (flags := flags) depth hr.world (hr.get hL) kind_listed (allowed_listed hW hok) with ⟨h', _, hle⟩ | hu
  · omega
  · rw [h1] at hu
    obtain ⟨h', hrun, hw⟩ := hu
    refine ⟨m, h', hrun, ?_, World.unchanged_set (ts := []) hr.world (by rw [List.append_nil]; exact hw), h3, h4⟩
    rw [hw.holds, List.getElem?_set_self (List.getElem?_eq_some_iff.mp (hr.get hL)).1]

theorem exSermon_ok (v0 : Bool) : RangeOK defaultData v0 exSermon := by
  cases v0 <;> exact defaultData_rangeOK (by decide +kernel) (by decide +kernel) (by decide +kernel)
theorem exGenesis_ok (v0 : Bool) : RangeOK defaultData v0 exGenesis := by
  cases v0 <;> exact defaultData_rangeOK (by decide +kernel) (by decide +kernel) (by decide +kernel)

theorem exHeap_allowed : ∀ r ∈ ([[exSermon], [exGenesis]] : RangeList).flatten, Allowed defaultData (inForce dflt none) r := by
  intro r hr
  simp at hr
  rcases hr with rfl | rfl
  · exact ⟨exSermon_ok _, .inr rfl⟩
  · exact ⟨exGenesis_ok _, .inr rfl⟩

theorem exSecond_allowed : ∀ r ∈ ([[exMatt]] : RangeList).flatten, Allowed defaultData (inForce dflt none) r := by
  intro r hr
  simp at hr
  rcases hr with rfl
  exact exMatt_allowed _

theorem exThird_allowed : ∀ r ∈ ([[exIn]] : RangeList).flatten, Allowed defaultData (inForce dflt none) r := by
  intro r hr
  simp at hr
  rcases hr with rfl
  exact exIn_allowed _

example : ∃ m h', RangeHeap.merge dflt 1000 0 none exHeap = (.ok (), h') ∧ Holds h' 0 m ∧ Unchanged exHeap h' (some 0) := by
  obtain ⟨m, h', h1, h2, h3, _⟩ := C26_merge_in_place (e := dflt) exHeap_reachable defaultData_wf 1000 exHeap_first (by decide) exHeap_allowed
  exact ⟨m, h', h1, h2, h3⟩

/-! ## C27 and C28: union and intersection -/

/-- `a.union(b)` is a new list with the verses of `a` and of `b`, in canonical form, and no list changes; `a` and `b` may be the
same object. -/
theorem C27_union_objects (hr : Reachable h) (hW : e.data.WF) (depth fuel : Nat) (hL : Holds h L xs) (hM : Holds h M ys)
    (hd : xs.flatten.length + ys.flatten.length < depth) (hf : ys.flatten.length ≤ fuel)
    (hx : ∀ r ∈ xs.flatten, Allowed e.data (inForce e flags) r) (hy : ∀ r ∈ ys.flatten, Allowed e.data (inForce e flags) r) :
    ∃ u h', RangeHeap.union e depth fuel L M flags h = (.ok h.lists, h') ∧ Holds h' h.lists u ∧ Unchanged h h' none ∧
      (∀ v ∈ canon e.data (inForce e flags).verse0, Covered e.data u.flatten v ↔ Covered e.data xs.flatten v ∨ Covered e.data ys.flatten v) ∧
      Canonical e.data (inForce e flags) u.flatten := by
  obtain ⟨u, h1, _, h3, h4, _⟩ := C27_union e hW flags xs ys hx hy
  rcases RangeHeap.union_world (e := e) (flags := flags) depth hr.world (hr.get hL) (hr.get hM) hf kind_listed (allowed_listed hW hx) (allowed_listed hW hy) with ⟨h', _, hle⟩ | hu
  · omega
  · rw [h1] at hu
    obtain ⟨h', hrun, hw⟩ := hu
    rw [← hr.world.lists] at hrun
    refine ⟨u, h', hrun, ?_, World.unchanged_append hr.world hw, h3, h4⟩
    rw [hw.holds, hr.world.lists]
    exact RangeHeap.get_length _ _ _

example : ∃ u h', RangeHeap.union dflt 1000 1000 0 1 none exHeap = (.ok 3, h') ∧ Holds h' 3 u ∧ Unchanged exHeap h' none := by
  obtain ⟨m, h', h1, h2, h3, _⟩ := C27_union_objects (e := dflt) exHeap_reachable defaultData_wf 1000 1000 exHeap_first exHeap_second
    (by decide) (by decide) exHeap_allowed exSecond_allowed
  exact ⟨m, h', h1, h2, h3⟩

theorem mapM_length {γ δ : Type} {f : γ → Except PyErr δ} {l : List γ} {r : List δ} (hr : l.mapM f = .ok r) : r.length = l.length := by
  induction l generalizing r with
  | nil => cases hr; rfl
  | cons a l ih =>
    rw [List.mapM_cons] at hr
    cases ha : f a with
    | error y => simp only [bind, Except.bind, ha] at hr; cases hr
    | ok b =>
      cases hl : l.mapM f with
      | error y => simp only [bind, Except.bind, ha, hl] at hr; cases hr
      | ok bs =>
        simp only [bind, Except.bind, ha, hl] at hr
        cases hr
        simp [ih hl]

theorem mapM_all {γ δ : Type} {f : γ → Except PyErr δ} {l : List γ} {r : List δ} (hr : l.mapM f = .ok r) : ∀ b ∈ r, ∃ a ∈ l, f a = .ok b := by
  induction l generalizing r with
  | nil => cases hr; simp
  | cons a l ih =>
    rw [List.mapM_cons] at hr
    cases ha : f a with
    | error y => simp only [bind, Except.bind, ha] at hr; cases hr
    | ok b =>
      cases hl : l.mapM f with
      | error y => simp only [bind, Except.bind, ha, hl] at hr; cases hr
      | ok bs =>
        simp only [bind, Except.bind, ha, hl] at hr
        cases hr
        intro c hc
        rcases List.mem_cons.mp hc with rfl | hc
        · exact ⟨a, by simp, ha⟩
        · obtain ⟨a', h1, h2⟩ := ih hl c hc
          exact ⟨a', by simp [h1], h2⟩

theorem flatten_length_le {γ : Type} {l : List (List γ)} {n : Nat} (hl : ∀ x ∈ l, x.length ≤ n) : l.flatten.length ≤ l.length * n := by
  induction l with
  | nil => simp
  | cons x l ih =>
    have h1 := hl x (by simp)
    have h2 := ih fun y hy => hl y (by simp [hy])
    rw [List.flatten_cons, List.length_append, List.length_cons, Nat.succ_mul]
    omega

theorem items_length {l m items : List BibleRange} (hi : RangeList.intersectionItems e flags l m = .ok items) :
    items.length ≤ l.length * m.length := by
  unfold RangeList.intersectionItems at hi
  generalize hg : (fun a : BibleRange => (do
    let l' ← m.mapM fun b => a.intersection e b flags
    return l'.flatMap fun i => i.head?.toList : Except PyErr (List BibleRange))) = g at hi
  cases hl : l.mapM g with
  | error y => simp only [bind, Except.bind, hl] at hi; cases hi
  | ok ls =>
    simp only [bind, Except.bind, hl] at hi
    cases hi
    rw [← mapM_length hl]
    refine flatten_length_le fun x hx => ?_
    obtain ⟨a, _, ha⟩ := mapM_all hl x hx
    rw [← hg] at ha
    simp only at ha
    cases hm : m.mapM fun b => a.intersection e b flags with
    | error y => simp only [bind, Except.bind, hm] at ha; cases ha
    | ok l' =>
      simp only [bind, Except.bind, hm] at ha
      cases ha
      rw [← mapM_length hm, List.flatMap_def]
      refine Nat.le_trans (flatten_length_le (n := 1) ?_) (by simp)
      intro x hx
      obtain ⟨i, _, rfl⟩ := List.mem_map.mp hx
      cases i <;> simp

/-- `a.intersection(b)` is a new list with the verses in both, in canonical form, and no list changes; `a` and `b` may be the
same object. -/
theorem C28_intersection_objects (hr : Reachable h) (hW : e.data.WF) (depth : Nat) (hL : Holds h L xs) (hM : Holds h M ys)
    (hd : xs.flatten.length * ys.flatten.length < depth)
    (hx : ∀ r ∈ xs.flatten, Allowed e.data (inForce e flags) r) (hy : ∀ r ∈ ys.flatten, Allowed e.data (inForce e flags) r) :
    ∃ i h', RangeHeap.intersection e depth L M flags h = (.ok h.lists, h') ∧ Holds h' h.lists i ∧ Unchanged h h' none ∧
      (∀ v ∈ canon e.data (inForce e flags).verse0, Covered e.data i.flatten v ↔ Covered e.data xs.flatten v ∧ Covered e.data ys.flatten v) ∧
      Canonical e.data (inForce e flags) i.flatten := by
  obtain ⟨u, h1, _, h3, h4, _⟩ := C28_intersection e hW flags xs ys hx hy
  rcases RangeHeap.intersection_world (e := e) (flags := flags) depth hr.world (hr.get hL) (hr.get hM) kind_listed (allowed_listed hW hx) (allowed_listed hW hy) with ⟨h', items, _, hi, hle⟩ | hu
  · have := items_length hi
    omega
  · rw [h1] at hu
    obtain ⟨h', hrun, hw⟩ := hu
    rw [← hr.world.lists] at hrun
    refine ⟨u, h', hrun, ?_, World.unchanged_append hr.world hw, h3, h4⟩
    rw [hw.holds, hr.world.lists]
    exact RangeHeap.get_length _ _ _

example : ∃ u h', RangeHeap.intersection dflt 1000 0 0 none exHeap = (.ok 3, h') ∧ Holds h' 3 u ∧ Unchanged exHeap h' none := by
  obtain ⟨m, h', h1, h2, h3, _⟩ := C28_intersection_objects (e := dflt) exHeap_reachable defaultData_wf 1000 exHeap_first exHeap_first
    (by decide) exHeap_allowed exHeap_allowed
  exact ⟨m, h', h1, h2, h3⟩

/-! ## C31: membership -/

/-- `a.contains(b)` says whether every verse of `b` is covered by `a` and changes no list. -/
theorem C31_contains_objects (hr : Reachable h) (hW : e.data.WF) (depth : Nat) (hL : Holds h L xs) (hM : Holds h M ys)
    (hd : xs.flatten.length < depth)
    (hx : ∀ r ∈ xs.flatten, Allowed e.data (inForce e flags) r) (hy : ∀ r ∈ ys.flatten, Allowed e.data (inForce e flags) r) :
    ∃ b h', RangeHeap.contains e depth L M flags h = (.ok b, h') ∧ Unchanged h h' none ∧
      (b = true ↔ ∀ v ∈ canon e.data (inForce e flags).verse0, Covered e.data ys.flatten v → Covered e.data xs.flatten v) := by
  obtain ⟨b, h1, h2⟩ := C31_contains e hW flags xs ys hx hy
  rcases RangeHeap.contains_world (e := e) (flags := flags) depth hr.world (hr.get hL) (hr.get hM) kind_listed (allowed_listed hW hx) with ⟨h', _, hle⟩ | ⟨h', ts, hrun, hw⟩
  · omega
  · rw [h1] at hrun
    exact ⟨b, h', hrun, World.unchanged_append hr.world hw, h2⟩

example : ∃ b h', RangeHeap.contains dflt 1000 0 1 none exHeap = (.ok b, h') ∧ Unchanged exHeap h' none := by
  obtain ⟨b, h', h1, h2, _⟩ := C31_contains_objects (e := dflt) exHeap_reachable defaultData_wf 1000 exHeap_first exHeap_second
    (by decide) exHeap_allowed exSecond_allowed
  exact ⟨b, h', h1, h2⟩

/-! ## C29 and C30: difference and symmetric difference -/

/-- The number of verses in the ranges of a list, counted once per range. -/
def verseTotal (d : BibleData) (v0 : Bool) (l : List BibleRange) : Nat := (l.map fun r => (versesOf d v0 r).length).sum

theorem verseTotal_eq (hW : e.data.WF) {l : List BibleRange} (hl : ∀ r ∈ l, Allowed e.data (inForce e flags) r) :
    RangeList.total e.data (e.eff flags).verse0 l = verseTotal e.data (inForce e flags).verse0 l := by
  unfold RangeList.total verseTotal
  refine congrArg List.sum (List.map_congr_left fun r hr => ?_)
  have := (allowed_iff hW).mp (hl r hr)
  rw [length_versesOf hW this.s this.t, eff_eq]
  rfl

theorem aok (hW : e.data.WF) {l : List BibleRange} (hl : ∀ r ∈ l, Allowed e.data (inForce e flags) r) : ∀ r ∈ l, AOK e.data (e.eff flags) r := by
  intro r hr
  rw [eff_eq]
  exact (allowed_iff hW).mp (hl r hr)

/-- `a.difference(b)` under the conditions of `C29_difference_partial` is a new list with the verses of `a` that are not in `b`,
in canonical form, and no list changes. Missing: the cases of the counterexamples to C29. -/
theorem C29_difference_objects_partial (hr : Reachable h) (hW : e.data.WF) (depth : Nat) (hL : Holds h L xs) (hM : Holds h M ys)
    (hm : (inForce e flags).multibook = true → e.flags.multibook = true) (hg : (inForce e flags).verse0 = true → e.flags.verse0 = true)
    (hd : verseTotal e.data (inForce e flags).verse0 xs.flatten < depth)
    (hx : ∀ r ∈ xs.flatten, Allowed e.data (inForce e flags) r) (hy : ∀ r ∈ ys.flatten, Allowed e.data (inForce e flags) r)
    (cb : Canonical e.data (inForce e flags) ys.flatten)
    (hroom : ∀ r ∈ xs.flatten, ∀ x ∈ ys.flatten, (∃ v ∈ canon e.data (inForce e flags).verse0, InRange e.data r v ∧ InRange e.data x v) →
      HasRoom e.data (inForce e flags) x.start x.stop)
    (hout : ∀ r ∈ xs.flatten, ∀ x ∈ ys.flatten, ∃ v ∈ canon e.data (inForce e flags).verse0, InRange e.data r v ∧ ¬ InRange e.data x v) :
    ∃ m n, ∀ fuel ≥ n, ∃ h', RangeHeap.difference e depth fuel L M flags h = (.ok h.lists, h') ∧ Holds h' h.lists m ∧ Unchanged h h' none ∧
      (∀ v ∈ canon e.data (inForce e flags).verse0, Covered e.data m.flatten v ↔ Covered e.data xs.flatten v ∧ ¬ Covered e.data ys.flatten v) ∧
      Canonical e.data e.flags m.flatten := by
  obtain ⟨n, m, h1, h2, h3, h4⟩ := C29_difference_partial e hW flags hm hg xs ys hx hy cb hroom hout
  refine ⟨m, n + ys.flatten.length + verseTotal e.data (inForce e flags).verse0 xs.flatten, fun fuel hf => ?_⟩
  rcases RangeHeap.difference_world (e := e) (flags := flags) (fuel := fuel) depth hr.world (hr.get hL) (hr.get hM) (by omega) kind_listed (allowed_listed hW hx) (allowed_listed hW hy) with
    ⟨h', items, _, hi, hle⟩ | hu
  · rcases diffOuter_total hW (aok hW hy) (aok hW hx) (fuel := fuel) (by rw [verseTotal_eq hW hx]; omega) with
      ⟨y, hh, _⟩ | ⟨R, hh, hR, ht⟩
    · rw [hi] at hh; cases hh
    · rw [hi] at hh
      cases hh
      have := length_le_total hW hR
      rw [verseTotal_eq hW hx] at ht
      omega
  · rw [h1 fuel (by omega)] at hu
    obtain ⟨h', hrun, hw⟩ := hu
    rw [← hr.world.lists] at hrun
    refine ⟨h', hrun, ?_, World.unchanged_append hr.world hw, h4, h3⟩
    rw [hw.holds, hr.world.lists]
    exact RangeHeap.get_length _ _ _

example (depth : Nat) (hd : verseTotal dflt.data (inForce dflt none).verse0 ([[exMatt]] : RangeList).flatten < depth) :
    ∃ m n, ∀ fuel ≥ n, ∃ h', RangeHeap.difference dflt depth fuel 1 2 none exHeap = (.ok 3, h') ∧ Holds h' 3 m ∧ Unchanged exHeap h' none := by
  obtain ⟨m, n, hn⟩ := C29_difference_objects_partial (e := dflt) (flags := none) exHeap_reachable defaultData_wf
    depth exHeap_second exHeap_third id id hd exSecond_allowed exThird_allowed trivial
    (fun r _ x hx _ => by rw [show x = exIn from by simpa using hx]; exact exIn_room)
    (fun r hr x hx => by
      rw [show r = exMatt from by simpa using hr, show x = exIn from by simpa using hx]
      exact ⟨exMatt.start, (exMatt_ok _).1, exMatt_not_exIn⟩)
  refine ⟨m, n, fun fuel hf => ?_⟩
  obtain ⟨h', h1, h2, h3, _⟩ := hn fuel hf
  exact ⟨h', h1, h2, h3⟩

/-! ## C50: ending -/

theorem upd_ends {ws : List RangeList} {run : Except PyErr Unit × Heap BibleRange} {spec : Except PyErr RangeList}
    (hu : RangeHeap.Upd ws L run spec) (hs : spec ≠ .error .diverges) : run.1 ≠ .error .diverges := by
  cases spec with
  | ok xs => obtain ⟨h', rfl, _⟩ := hu; simp
  | error y =>
    obtain ⟨h', ys, rfl, _⟩ := hu
    intro hh
    cases hh
    exact hs rfl

theorem silent_result {β : Type} {x : HM BibleRange β} (hx : (x h).1 ≠ .error .diverges) : (x.silent h).1 ≠ .error .diverges := by
  rcases hr : x h with ⟨r, h'⟩
  rw [hr] at hx
  unfold HM.silent
  cases r with
  | error y => rw [bind_error hr]; exact fun hh => hx (by cases hh; rfl)
  | ok b => rw [bind_ok hr]; exact fun hh => by cases hh

theorem news_ends {ws : List RangeList} {run : Except PyErr Nat × Heap BibleRange} {spec : Except PyErr RangeList}
    (hu : RangeHeap.News ws run spec) (hs : spec ≠ .error .diverges) : run.1 ≠ .error .diverges := by
  cases spec with
  | ok xs => obtain ⟨h', N, ts, rfl, _⟩ := hu; simp
  | error y =>
    obtain ⟨h', ys, rfl, _⟩ := hu
    intro hh
    cases hh
    exact hs rfl

theorem posE_ends (n : Nat) (i : Int) : (∃ k, Nested.posE n i = .ok k) ∨ Nested.posE n i = .error .indexError := by
  unfold Nested.posE
  cases Nested.pos n i with
  | none => exact .inr rfl
  | some k => exact .inl ⟨k, rfl⟩

theorem listOp_ends {α : Type} [DecidableEq α] (le : α → α → Bool) (op : ListOp α) (xs : List (List α)) : op.meaning le xs ≠ .error .diverges := by
  cases op <;> simp only [ListOp.meaning] <;> try (intro hh; cases hh; done)
  case insert i v =>
    split
    · intro hh; cases hh
    · rcases posE_ends (Nested.size xs) i with ⟨k, hk⟩ | hk <;> rw [hk] <;> intro hh <;> cases hh
  case remove v => split <;> intro hh <;> cases hh
  case groupSet k i v =>
    split
    · intro hh; cases hh
    · split <;> intro hh <;> cases hh
  case groupDel k i =>
    split
    · intro hh; cases hh
    · split <;> intro hh <;> cases hh
  all_goals
    rename_i i
    first
    | (rcases posE_ends (Nested.size xs) i with ⟨k, hk⟩ | hk <;> rw [hk] <;> intro hh <;> cases hh; done)
    | (rcases posE_ends (Nested.size xs) (i.getD (-1)) with ⟨k, hk⟩ | hk <;> rw [hk] <;> intro hh <;> cases hh; done)
    | (rename_i v; rcases posE_ends (Nested.size xs) v with ⟨k, hk⟩ | hk <;> rw [hk] <;> intro hh <;> cases hh; done)

theorem worldOp_ends {α : Type} [DecidableEq α] (le : α → α → Bool) (op : WorldOp α) (ws : List (List (List α))) : op.meaning le ws ≠ .error .diverges := by
  cases op with
  | on L op =>
    have := listOp_ends le op (ws[L]?.getD [])
    simp only [WorldOp.meaning]
    cases hm : op.meaning le (ws[L]?.getD []) with
    | error y => rw [hm] at this; intro hh; cases hh; exact this rfl
    | ok r => intro hh; cases hh
  | _ => intro hh; cases hh

/-- With ranges that the flags allow, every method ends, whatever the operands: it returns or raises once enough iterations are
waited for.

Missing from the full property: `extend` and `union_update` of a list with itself (the former is excluded by `RangeOp.Sensible`,
the latter by `hself`); see `C50_extend_self_counterexample` and `C50_union_update_self_counterexample`. -/
theorem C50_ends_partial (hr : Reachable h) (hW : e.data.WF) (depth : Nat) (op : RangeOp) (hs : op.Sensible e.data depth (contents h))
    (hok : ∀ K xs, Holds h K xs → ∀ r ∈ xs.flatten, Allowed e.data (inForce e op.flags) r)
    (hself : ∀ K flags, op ≠ .unionUpdate K K flags) : ∃ n, ∀ fuel ≥ n, (op.call e depth fuel h).1 ≠ .error .diverges := by
  have hw := hr.world
  have get : ∀ {K}, K < (contents h).length → ∃ xs, (contents h)[K]? = some xs ∧ ∀ r ∈ xs.flatten, Allowed e.data (inForce e op.flags) r :=
    fun hK => ⟨_, List.getElem?_eq_getElem hK, hok _ _ (hw.holds.mpr (List.getElem?_eq_getElem hK))⟩
  have wide : ∀ {l : List BibleRange} {fl}, (∀ r ∈ l, Allowed e.data (inForce e fl) r) → ∀ r ∈ l, ROK e.data true r := by
    intro l fl hl r hr
    have := (allowed_iff hW).mp (hl r hr)
    exact ⟨this.s.mono, this.t.mono, this.le⟩
  have sorts : ∀ L xs regroupToo, (contents h)[L]? = some xs → (∀ r ∈ xs.flatten, Allowed e.data (inForce e op.flags) r) →
      ∃ n : Nat, ∀ fuel ≥ n, (RangeHeap.sort e depth L regroupToo h).1 ≠ .error .diverges := by
    intro L xs regroupToo hL ha
    have hal : ∀ a ∈ xs.flatten, ∀ b ∈ xs.flatten, Alike e.data a b := fun a h1 b h2 => (wide ha a h1).alike (wide ha b h2)
    obtain ⟨m, h1, _⟩ := RangeList.regroup_ok hW (flags := none) (fun hh => hh) (l := RangeList.sortT e.data xs.flatten) fun r hr =>
      wide ha r ((RangeList.sortT_perm _).mem_iff.mp hr)
    refine ⟨0, fun fuel _ => ?_⟩
    rcases RangeHeap.sort_world (e := e) depth regroupToo hw hL kind_listed (allowed_listed hW ha) with ⟨h', hrun, _⟩ | hu
    · rw [hrun]; simp
    · refine upd_ends hu ?_
      unfold RangeList.sort
      rw [RangeList.sortItems_eq hal]
      cases regroupToo <;> simp [bind, Except.bind, pure, Except.pure, h1]
  cases op with
  | basic op =>
    by_cases hsort : ∃ L, op = .on L .sort
    · obtain ⟨L, rfl⟩ := hsort
      obtain ⟨xs, hL, ha⟩ := get hs.1
      exact sorts L xs true hL ha
    · have hs' : op.Sensible depth (contents h) := RangeOp.sensible_basic hsort hs
      obtain ⟨h', hrun, _⟩ := world_sim (fun _ _ => true) op hw hs'
      refine ⟨0, fun fuel _ => ?_⟩
      rw [RangeOp.call_basic hsort]
      refine silent_result ?_
      rw [hrun]
      have := worldOp_ends (fun _ _ => true) op (contents h)
      cases hm : WorldOp.meaning (fun _ _ => true) (contents h) op with
      | error y => rw [hm] at this; intro hh; cases hh; exact this rfl
      | ok r => intro hh; cases hh
  | verse0to1 L =>
    obtain ⟨xs, hL, ha⟩ := get hs
    obtain ⟨⟨f, h1, _⟩, _⟩ := C09_list_conversions e hW xs fun r hr => (rangeOK_iff hW).mpr (wide ha r hr)
    exact ⟨0, fun fuel _ => upd_ends (RangeHeap.verse0to1_world hw hL) (by rw [h1]; simp)⟩
  | verse1to0 L =>
    obtain ⟨xs, hL, ha⟩ := get hs
    obtain ⟨_, f, h1, _⟩ := C09_list_conversions e hW xs fun r hr => (rangeOK_iff hW).mpr (wide ha r hr)
    exact ⟨0, fun fuel _ => upd_ends (RangeHeap.verse1to0_world hw hL) (by rw [h1]; simp)⟩
  | regroup L flags =>
    obtain ⟨xs, hL, ha⟩ := get hs
    exact ⟨0, fun fuel _ => upd_ends (RangeHeap.regroup_world hw hL) (RangeList.regroup_ends hW flags (wide ha)).ne⟩
  | sort L regroupToo =>
    obtain ⟨xs, hL, ha⟩ := get hs.1
    exact sorts L xs regroupToo hL ha
  | merge L flags =>
    obtain ⟨xs, hL, ha⟩ := get hs.1
    refine ⟨0, fun fuel _ => ?_⟩
    rcases RangeHeap.merge_world (e := e) (flags := flags) depth hw hL kind_listed (allowed_listed hW ha) with ⟨h', hrun, _⟩ | hu
    · simp only [RangeOp.call]; rw [hrun]; simp
    · obtain ⟨m, h1, _⟩ := C26_merge e hW flags xs ha
      exact upd_ends hu (by rw [h1]; simp)
  | isDisjoint L M =>
    obtain ⟨xs, hL, ha⟩ := get hs.1
    obtain ⟨ys, hM, hb⟩ := get hs.2
    have hW' : ∀ {l : List BibleRange}, (∀ r ∈ l, Allowed e.data (inForce e none) r) → ∀ r ∈ l, RangeOK e.data (inForce e none).verse0 r :=
      fun hl r hr => (hl r hr).ok
    obtain ⟨b, h1, _⟩ := C31_is_disjoint e.data hW _ xs ys (hW' ha) (hW' hb)
    exact ⟨0, fun fuel _ => silent_result (by rw [RangeHeap.isDisjoint_world hw hL hM, h1]; simp)⟩
  | contains L M flags =>
    obtain ⟨xs, hL, ha⟩ := get hs.1.1
    obtain ⟨ys, hM, hb⟩ := get hs.1.2
    refine ⟨0, fun fuel _ => silent_result ?_⟩
    rcases RangeHeap.contains_world (e := e) (flags := flags) depth hw hL hM kind_listed (allowed_listed hW ha) with ⟨h', hrun, _⟩ | ⟨h', ts, hrun, _⟩
    · rw [hrun]; simp
    · obtain ⟨b, h1, _⟩ := C31_contains e hW flags xs ys ha hb
      rw [hrun, h1]; simp
  | union L M flags =>
    obtain ⟨xs, hL, ha⟩ := get hs.1.1
    obtain ⟨ys, hM, hb⟩ := get hs.1.2
    refine ⟨ys.flatten.length, fun fuel hf => silent_result ?_⟩
    rcases RangeHeap.union_world (e := e) (flags := flags) depth hw hL hM hf kind_listed (allowed_listed hW ha) (allowed_listed hW hb) with ⟨h', hrun, _⟩ | hu
    · rw [hrun]; simp
    · obtain ⟨m, h1, _⟩ := C27_union e hW flags xs ys ha hb
      exact news_ends hu.news (by rw [h1]; simp)
  | unionUpdate L M flags =>
    obtain ⟨xs, hL, ha⟩ := get hs.1.1
    obtain ⟨ys, hM, hb⟩ := get hs.1.2
    have hLM : M ≠ L := fun hh => hself L flags (by rw [hh])
    refine ⟨ys.flatten.length, fun fuel hf => ?_⟩
    rcases RangeHeap.unionUpdate_world (e := e) (flags := flags) depth hw hL hM hLM hf kind_listed (allowed_listed hW ha) (allowed_listed hW hb) with ⟨h', hrun, _⟩ | hu
    · simp only [RangeOp.call]; rw [hrun]; simp
    · refine upd_ends hu ?_
      obtain ⟨m, h1, _⟩ := C26_merge e hW flags (Groups.extend xs ys.flatten) (by
        rw [unionUpdate_flatten]
        intro r hr
        exact (List.mem_append.mp hr).elim (ha r) (hb r))
      unfold RangeList.unionUpdate
      rw [h1]; simp
  | intersection L M flags =>
    obtain ⟨xs, hL, ha⟩ := get hs.1.1
    obtain ⟨ys, hM, hb⟩ := get hs.1.2
    refine ⟨0, fun fuel hf => silent_result ?_⟩
    rcases RangeHeap.intersection_world (e := e) (flags := flags) depth hw hL hM kind_listed (allowed_listed hW ha) (allowed_listed hW hb) with ⟨h', items, hrun, _⟩ | hu
    · rw [hrun]; simp
    · obtain ⟨m, h1, _⟩ := C28_intersection e hW flags xs ys ha hb
      exact news_ends hu.news (by rw [h1]; simp)
  | intersectionUpdate L M flags =>
    obtain ⟨xs, hL, ha⟩ := get hs.1.1
    obtain ⟨ys, hM, hb⟩ := get hs.1.2
    obtain ⟨m, h1, _⟩ := C28_intersection e hW flags xs ys ha hb
    refine ⟨m.flatten.length, fun fuel hf => ?_⟩
    rcases RangeHeap.intersectionUpdate_world (e := e) (flags := flags) (fuel := fuel) depth hw hL hM (by
      intro zs hz; rw [h1] at hz; cases hz; exact hf) kind_listed (allowed_listed hW ha) (allowed_listed hW hb) with ⟨h', items, hrun, _⟩ | ⟨ts, hu⟩
    · simp only [RangeOp.call]; rw [hrun]; simp
    · refine upd_ends hu ?_
      unfold RangeList.intersectionUpdate
      rw [h1]
      intro hh; cases hh
  | difference L M flags =>
    obtain ⟨xs, hL, ha⟩ := get hs.1.1
    obtain ⟨ys, hM, hb⟩ := get hs.1.2
    refine ⟨ys.flatten.length + RangeList.total e.data (e.eff flags).verse0 xs.flatten, fun fuel hf => silent_result ?_⟩
    rcases RangeHeap.difference_world (e := e) (flags := flags) (fuel := fuel) depth hw hL hM (by omega) kind_listed (allowed_listed hW ha) (allowed_listed hW hb) with ⟨h', items, hrun, _⟩ | hu
    · rw [hrun]; simp
    · refine news_ends hu.news (differenceUpdate_ends hW (flags := flags) ?_ (aok hW hb) ?_)
      · rw [RangeList.copy_flatten]; exact aok hW ha
      · rw [RangeList.copy_flatten]; omega
  | differenceUpdate L M flags =>
    obtain ⟨xs, hL, ha⟩ := get hs.1.1
    obtain ⟨ys, hM, hb⟩ := get hs.1.2
    refine ⟨ys.flatten.length + RangeList.total e.data (e.eff flags).verse0 xs.flatten, fun fuel hf => ?_⟩
    by_cases hLM : M = L
    · subst hLM
      obtain ⟨gs, hg, hv⟩ := hw.rep M xs hL
      exact RangeHeap.differenceUpdate_alias_ends hW depth hg (by rw [hv]; exact aok hW ha) (by rw [hv]; omega)
    · rcases RangeHeap.differenceUpdate_world (e := e) (flags := flags) (fuel := fuel) depth hw hL hM hLM (by omega) kind_listed (allowed_listed hW ha) (allowed_listed hW hb) with ⟨h', items, hrun, _⟩ | hu
      · simp only [RangeOp.call]; rw [hrun]; simp
      · exact upd_ends hu (differenceUpdate_ends hW (flags := flags) (aok hW ha) (aok hW hb) (by omega))
  | symDifference L M flags =>
    obtain ⟨xs, hL, ha⟩ := get hs.1.1
    obtain ⟨ys, hM, hb⟩ := get hs.1.2
    obtain ⟨u, u1, u2, _⟩ := C27_union e hW flags xs ys ha hb
    obtain ⟨i, i1, i2, _⟩ := C28_intersection e hW flags xs ys ha hb
    refine ⟨ys.flatten.length + i.flatten.length + RangeList.total e.data (e.eff flags).verse0 u.flatten, fun fuel hf => silent_result ?_⟩
    rcases RangeHeap.symDifference_world (e := e) (flags := flags) (fuel := fuel) depth hw hL hM (by omega) (by
      intro zs hz; rw [i1] at hz; cases hz; omega) kind_listed (allowed_listed hW ha) (allowed_listed hW hb) with ⟨⟨h', hrun⟩, _⟩ | hu
    · rw [hrun]; simp
    · refine news_ends hu ?_
      unfold RangeList.symDifference
      rw [u1, i1]
      exact differenceUpdate_ends hW (flags := flags) (by rw [RangeList.copy_flatten]; exact aok hW u2) (aok hW i2) (by rw [RangeList.copy_flatten]; omega)
  | symDifferenceUpdate L M flags =>
    obtain ⟨xs, hL, ha⟩ := get hs.1.1
    obtain ⟨ys, hM, hb⟩ := get hs.1.2
    obtain ⟨u, u1, u2, _⟩ := C27_union e hW flags xs ys ha hb
    obtain ⟨i, i1, i2, _⟩ := C28_intersection e hW flags xs ys ha hb
    have ends : ∀ fuel ≥ RangeList.total e.data (e.eff flags).verse0 u.flatten, RangeList.symDifference e xs ys flags fuel ≠ .error .diverges := by
      intro fuel hf
      unfold RangeList.symDifference
      rw [u1, i1]
      exact differenceUpdate_ends hW (flags := flags) (by rw [RangeList.copy_flatten]; exact aok hW u2) (aok hW i2) (by rw [RangeList.copy_flatten]; omega)
    obtain ⟨j, hj⟩ : ∃ j, ∀ fuel ≥ j, ∀ zs, RangeList.symDifference e xs ys flags fuel = .ok zs → zs.flatten.length ≤ fuel := by
      by_cases hex : ∃ j z, RangeList.symDifference e xs ys flags j = .ok z
      · obtain ⟨j, z, hz⟩ := hex
        refine ⟨j + z.flatten.length, fun fuel hf zs hzs => ?_⟩
        rw [symDifference_mono hz (by omega)] at hzs
        cases hzs
        omega
      · exact ⟨0, fun fuel _ zs hzs => absurd ⟨fuel, zs, hzs⟩ hex⟩
    refine ⟨j + ys.flatten.length + i.flatten.length + RangeList.total e.data (e.eff flags).verse0 u.flatten, fun fuel hf => ?_⟩
    rcases RangeHeap.symDifferenceUpdate_world (e := e) (flags := flags) (fuel := fuel) depth hw hL hM (by omega) (by
      intro zs hz; rw [i1] at hz; cases hz; omega) (hj fuel (by omega)) kind_listed (allowed_listed hW ha) (allowed_listed hW hb) with ⟨⟨h', hrun⟩, _⟩ | ⟨ts, hu⟩
    · simp only [RangeOp.call]; rw [hrun]; simp
    · refine upd_ends hu ?_
      unfold RangeList.symDifferenceUpdate
      have := ends fuel (by omega)
      cases hz : RangeList.symDifference e xs ys flags fuel with
      | error y => rw [hz] at this; intro hh; cases hh; exact this rfl
      | ok z => intro hh; cases hh

theorem exHeap_all (K : Nat) (xs : RangeList) (hK : Holds exHeap K xs) : ∀ r ∈ xs.flatten, Allowed dflt.data (inForce dflt none) r := by
  have := exHeap_reachable.get hK
  rw [exHeap_contents] at this
  match K, this with
  | 0, hh => cases hh; exact exHeap_allowed
  | 1, hh => cases hh; exact exSecond_allowed
  | 2, hh => cases hh; exact exThird_allowed
  | K + 3, hh => simp at hh

example : ∃ n, ∀ fuel ≥ n, ((RangeOp.differenceUpdate 0 0 none).call dflt 1000 fuel exHeap).1 ≠ .error .diverges :=
  C50_ends_partial exHeap_reachable defaultData_wf 1000 (.differenceUpdate 0 0 none) ⟨⟨by decide +kernel, by decide +kernel⟩, .inl (by decide +kernel)⟩ exHeap_all
    (by intro _ _ hh; cases hh)

/-- `a.union_update(a)`, and so `a |= a`, does not end unless `a` is empty. -/
theorem C50_union_update_self_counterexample (hr : Reachable h) (depth fuel : Nat) (hL : Holds h L xs) (hne : xs ≠ []) :
    (RangeHeap.unionUpdate e depth fuel L L flags h).1 = .error .diverges := by
  obtain ⟨gs, hg, rfl⟩ := hr.world.rep L xs (hr.get hL)
  have : nodesOf gs ≠ [] := fun hh => hne (by rw [nodesOf_eq_nil hh]; rfl)
  obtain ⟨h', hrun⟩ := extendSelf_diverges fuel (zs := []) hg rfl this
  have hx : Heap.extendList L L fuel h = (.error .diverges, h') := by
    unfold Heap.extendList
    simp only [bind_run (HM.read _), read_run, hg.links.fst]
    exact hrun
  exact congrArg Prod.fst (bind_error hx)

example (fuel : Nat) : (RangeHeap.unionUpdate dflt 1000 fuel 0 0 none exHeap).1 = .error .diverges :=
  C50_union_update_self_counterexample exHeap_reachable 1000 fuel exHeap_first (by decide)

end Bibleref
