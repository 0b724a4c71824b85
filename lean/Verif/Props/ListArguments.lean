import Verif.SpecValues
import Verif.SpecListValues
import Verif.Lemmas.Items
import Verif.Props.Histories

/-!
# C67: methods of lists with arguments of any type

`Reachable h` and `Holds h L xs` as in `Props/Histories.lean`.
-/

namespace Bibleref
open HM

variable {h : Heap BibleRange} {L : Nat} {xs : RangeList}

/-- C67: a call that changes a list, given arguments of any type, is the call with arguments of the intended types, or raises
`TypeError` and changes nothing at all. Missing: `del list[None]`, see `C67_counterexample`. -/
theorem C67_call_partial (le : BibleRange → BibleRange → Bool) (depth : Nat) (op : ValueOp) (hd : op ≠ .delItem .none)
    (h : Heap BibleRange) :
    op.call L h = match op.plain with
      | some p => p.call le depth L h
      | none => (.error .typeError, h) := by
  cases op with
  | prepend x b => cases x <;> rfl
  | append x b => cases x <;> rfl
  | insert i x => cases x <;> cases i <;> rfl
  | insertGroupAt i => cases i <;> rfl
  | pop i => cases i <;> rfl
  | remove x => cases x <;> rfl
  | setItem i x => cases x <;> cases i <;> rfl
  | delItem i =>
    cases i
    case none => exact absurd rfl hd
    all_goals rfl

/-- C67: a call that raises an exception, because of the type of an argument or for any other reason, leaves all lists as they were;
otherwise the list is as it should be and no other list is changed. -/
theorem C67_atomic_partial (hr : Reachable h) (hL : Holds h L xs) (op : ValueOp) (hd : op ≠ .delItem .none)
    (hs : ∀ p, op.plain = some p → p.Sensible 0 xs) :
    ∃ r h', op.call L h = (r, h') ∧
      (∀ err, r = .error err → Unchanged h h' none) ∧
      (∀ v, r = .ok v → ∃ p ys, op.plain = some p ∧ p.meaning (fun _ _ => true) xs = .ok (v, ys) ∧ Holds h' L ys ∧
        Unchanged h h' (some L)) := by
  rw [C67_call_partial (fun _ _ => true) 0 op hd h]
  cases hp : op.plain with
  | none => exact ⟨_, _, rfl, fun _ _ _ _ _ hK => hK, fun _ hv => by cases hv⟩
  | some p =>
    have hg := hr.get hL
    have hl := (List.getElem?_eq_some_iff.mp hg).1
    obtain ⟨h', h1, h2, _⟩ := world_sim (fun _ _ => true) (depth := 0) (.on L p) hr.world
      ⟨hl, by rw [hg]; exact hs p hp⟩
    simp only [WorldOp.call, WorldOp.meaning, hg, Option.getD_some] at h1 h2
    refine ⟨_, h', h1, ?_, ?_⟩
    · intro err he
      cases hm : p.meaning (fun _ _ => true) xs with
      | ok q => rw [hm] at he; cases he
      | error _ =>
        rw [hm] at h2
        have := hr.world.unchanged_append (ts := []) (by rw [List.append_nil]; exact h2)
        exact this
    · intro v hv
      cases hm : p.meaning (fun _ _ => true) xs with
      | error _ => rw [hm] at hv; cases hv
      | ok q =>
        obtain ⟨w, ys⟩ := q
        rw [hm] at h2 hv
        cases hv
        refine ⟨p, ys, rfl, hm, h2.holds.mpr ?_, hr.world.unchanged_set (ts := []) (by rw [List.append_nil]; exact h2)⟩
        show ((contents h).set L ys)[L]? = some ys
        rw [List.getElem?_set_self hl]

theorem extendItems_run (L : Nat) (items : List PyVal) (h : Heap BibleRange) :
    RangeHeap.extendItems L false items h =
      (Heap.extend L (leadingRanges items) >>= fun _ => if onlyRanges items then Pure.pure () else HM.throw .typeError) h := by
  induction items generalizing h with
  | nil => rfl
  | cons x items ih =>
    cases x
    case range r =>
      show (Heap.append L r false >>= fun _ => RangeHeap.extendItems L false items) h = ((Heap.append L r false >>= fun _ => Heap.extend L (leadingRanges items)) >>= _) h
      simp only [bind_run]
      cases Heap.append L r false h with
      | mk a b => cases a with
        | error => rfl
        | ok a =>
          simp only
          rw [ih, bind_run]
          rfl
    all_goals rfl

theorem extendItems_group_run (L : Nat) (items : List PyVal) (h : Heap BibleRange) :
    RangeHeap.extendItems L true items h =
      (Heap.appendGroup L (leadingRanges items) >>= fun _ => if onlyRanges items then Pure.pure () else HM.throw .typeError) h := by
  cases items with
  | nil => rfl
  | cons x items =>
    cases x
    case range r =>
      show (Heap.append L r true >>= fun _ => RangeHeap.extendItems L false items) h = ((Heap.append L r true >>= fun _ => Heap.extend L (leadingRanges items)) >>= _) h
      simp only [bind_run]
      cases Heap.append L r true h with
      | mk a b => cases a with
        | error => rfl
        | ok a =>
          simp only
          rw [extendItems_run, bind_run]
          rfl
    all_goals rfl

/-- C67: `extend`, `+=` and `append_group` with an object of any type: `TypeError` and nothing is changed if it cannot be iterated
over; otherwise the ranges with which it begins are added, and `TypeError` is raised if that is not all. -/
theorem C67_extend_partial (hr : Reachable h) (hL : Holds h L xs) (d : BibleData) (x : PyVal) :
    (∀ err, x.items d = .error err → RangeHeap.extendV d L x h = (.error .typeError, h) ∧
      RangeHeap.appendGroupV d L x h = (.error .typeError, h)) ∧
    (∀ items, x.items d = .ok items →
      (∃ h', RangeHeap.extendV d L x h = (if onlyRanges items then .ok () else .error .typeError, h') ∧
        Holds h' L (Nested.extend xs (leadingRanges items)) ∧ Unchanged h h' (some L)) ∧
      (∃ h', RangeHeap.appendGroupV d L x h = (if onlyRanges items then .ok () else .error .typeError, h') ∧
        Holds h' L (Nested.addGroup xs (leadingRanges items)) ∧ Unchanged h h' (some L))) := by
  constructor
  · intro err he
    have : err = .typeError := PyVal.items_error he
    subst this
    constructor
    · unfold RangeHeap.extendV; rw [bind_run, readE_run, he]
    · unfold RangeHeap.appendGroupV; rw [bind_run, readE_run, he]
  · intro items hi
    have hg := hr.get hL
    have hl := (List.getElem?_eq_some_iff.mp hg).1
    constructor
    · obtain ⟨h', h1, h2, _⟩ := world_sim (fun _ _ => true) (depth := 0) (.on L (.extend (leadingRanges items))) hr.world ⟨hl, trivial⟩
      simp only [WorldOp.call, WorldOp.meaning, hg, Option.getD_some, ListOp.meaning, ListOp.call] at h1 h2
      refine ⟨h', ?_, h2.holds.mpr ?_, hr.world.unchanged_set (ts := []) (by rw [List.append_nil]; exact h2)⟩
      · unfold RangeHeap.extendV
        rw [bind_run, readE_run, hi]
        simp only
        rw [extendItems_run, bind_run]
        rw [bind_run] at h1
        revert h1
        cases Heap.extend L (leadingRanges items) h with
        | mk a b => cases a with
          | error => intro h1; cases h1
          | ok a =>
            intro h1
            cases h1
            simp only
            split <;> rfl
      · show ((contents h).set L _)[L]? = some _
        rw [List.getElem?_set_self hl]
    · obtain ⟨h', h1, h2, _⟩ := world_sim (fun _ _ => true) (depth := 0) (.on L (.appendGroup (leadingRanges items))) hr.world ⟨hl, trivial⟩
      simp only [WorldOp.call, WorldOp.meaning, hg, Option.getD_some, ListOp.meaning, ListOp.call] at h1 h2
      refine ⟨h', ?_, h2.holds.mpr ?_, hr.world.unchanged_set (ts := []) (by rw [List.append_nil]; exact h2)⟩
      · unfold RangeHeap.appendGroupV
        rw [bind_run, readE_run, hi]
        simp only
        rw [extendItems_group_run, bind_run]
        rw [bind_run] at h1
        revert h1
        cases Heap.appendGroup L (leadingRanges items) h with
        | mk a b => cases a with
          | error => intro h1; cases h1
          | ok a =>
            intro h1
            cases h1
            simp only
            split <;> rfl
      · show ((contents h).set L _)[L]? = some _
        rw [List.getElem?_set_self hl]

/-- C67: reading calls do not change anything, and raise `TypeError` for an index that is no integer and an item that is no
range; views raise `GroupViewError` first if they are no longer valid. -/
theorem C67_read (h : Heap BibleRange) (L g : Nat) (i x : PyVal) :
    ((∀ n, i ≠ .int n) → RangeHeap.getItemV L i h = (.error .typeError, h) ∧ RangeHeap.groupAtV L i h = (.error .typeError, h) ∧
      (∀ q, Heap.viewCheck g h = .ok q → RangeHeap.viewGetV g i h = (.error .typeError, h) ∧
        RangeHeap.viewDelV g i h = (.error .typeError, h) ∧ RangeHeap.viewSetV g i x h = (.error .typeError, h))) ∧
    ((∀ r, x ≠ .range r) → RangeHeap.countV L x h = (.error .typeError, h) ∧
      ∀ q, Heap.viewCheck g h = .ok q → RangeHeap.viewSetV g i x h = (.error .typeError, h)) ∧
    (∀ err, Heap.viewCheck g h = .error err → RangeHeap.viewGetV g i h = (.error .groupView, h) ∧
      RangeHeap.viewDelV g i h = (.error .groupView, h) ∧ RangeHeap.viewSetV g i x h = (.error .groupView, h)) ∧
    (∀ n, RangeHeap.getItemV L (.int n) h = Heap.getItem L n h ∧ RangeHeap.groupAtV L (.int n) h = Heap.groupAt L n h ∧
      RangeHeap.viewGetV g (.int n) h = Heap.viewGet g n h ∧ RangeHeap.viewDelV g (.int n) h = Heap.viewDel g n h ∧
      ∀ r, RangeHeap.viewSetV g (.int n) (.range r) h = Heap.viewSet g n r h) ∧
    ∀ r, RangeHeap.countV L (.range r) h = Heap.count L r h := by
  have hc : Heap.viewCheck g h = .ok () ∨ Heap.viewCheck g h = .error .groupView := by
    unfold Heap.viewCheck; split
    · exact .inr rfl
    · exact .inl rfl
  refine ⟨fun hi => ⟨?_, ?_, fun q hq => ⟨?_, ?_, ?_⟩⟩, fun hx => ⟨?_, fun q hq => ?_⟩, fun err he => ?_, fun n => ⟨rfl, rfl, ?_, ?_, fun r => ?_⟩,
    fun r => rfl⟩
  · cases i <;> first | rfl | exact absurd rfl (hi _)
  · cases i <;> first | rfl | exact absurd rfl (hi _)
  · unfold RangeHeap.viewGetV; rw [bind_run, readE_run, hq]
    cases i <;> first | rfl | exact absurd rfl (hi _)
  · unfold RangeHeap.viewDelV; rw [bind_run, readE_run, hq]
    cases i <;> first | rfl | exact absurd rfl (hi _)
  · unfold RangeHeap.viewSetV; rw [bind_run, readE_run, hq]
    cases x <;> cases i <;> first | rfl | exact absurd rfl (hi _)
  · cases x <;> first | rfl | exact absurd rfl (hx _)
  · unfold RangeHeap.viewSetV; rw [bind_run, readE_run, hq]
    cases x <;> first | rfl | exact absurd rfl (hx _)
  · have he : Heap.viewCheck g h = .error .groupView := hc.resolve_left (by rw [he]; nofun)
    refine ⟨?_, ?_, ?_⟩
    · unfold RangeHeap.viewGetV; rw [bind_run, readE_run, he]
    · unfold RangeHeap.viewDelV; rw [bind_run, readE_run, he]
    · unfold RangeHeap.viewSetV; rw [bind_run, readE_run, he]
  · unfold RangeHeap.viewGetV; rw [bind_run, readE_run]
    rcases hc with hc | hc
    · rw [hc]; rfl
    · rw [hc]; simp only [Heap.viewGet, readE_run, Heap.viewNodeAt, hc]; rfl
  · unfold RangeHeap.viewDelV; rw [bind_run, readE_run]
    rcases hc with hc | hc
    · rw [hc]; rfl
    · rw [hc]; unfold Heap.viewDel; rw [bind_run, readE_run]; simp only [Heap.viewNodeAt, hc]; rfl
  · unfold RangeHeap.viewSetV; rw [bind_run, readE_run]
    rcases hc with hc | hc
    · rw [hc]; rfl
    · rw [hc]; unfold Heap.viewSet; rw [bind_run, readE_run]; simp only [Heap.viewNodeAt, hc]; rfl

theorem itemsEq_run (l : List BibleRange) (m : List PyVal) (hl : l.length = m.length) (hm : ∀ k, .list k ∉ m) :
    ∃ b, RangeHeap.itemsEq l m = .ok b ∧ (b = true ↔ m = l.map .range) := by
  induction l generalizing m with
  | nil => cases m with
    | nil => exact ⟨true, rfl, by simp⟩
    | cons => cases hl
  | cons a l ih => cases m with
    | nil => cases hl
    | cons x m =>
      cases x
      case range r =>
        simp only [RangeHeap.itemsEq]
        obtain ⟨b, h1, h2⟩ := ih m (by simpa using hl) fun k hk => hm k (List.mem_cons_of_mem _ hk)
        by_cases har : a = r
        · subst har; rw [if_pos rfl]; exact ⟨b, h1, by rw [h2]; simp⟩
        · rw [if_neg har]
          refine ⟨false, rfl, ?_⟩
          simp only [Bool.false_eq_true, List.map_cons, List.cons.injEq, PyVal.range.injEq, false_iff, not_and]
          exact fun hh => absurd hh.symm har
      case list k => exact absurd (List.mem_cons_self ..) (hm k)
      all_goals exact ⟨false, rfl, by simp⟩

/-- C67: a list is equal (`==`) to a list with the same groups and to nothing else; for what has no length (`None`, numbers, books,
verses, ranges) `TypeError` is raised. `equals` without comparing groups compares the items with those of a list, a string or a
sequence (that does not contain lists). -/
theorem C67_equals_partial (hr : Reachable h) (hL : Holds h L xs) (d : BibleData) :
    (∀ ys, RangeHeap.equalsV d L (.list ys) true h = (.ok (decide (xs = ys)), h) ∧
      RangeHeap.equalsV d L (.list ys) false h = (.ok (decide (xs.flatten = ys.flatten)), h)) ∧
    (∀ b items, RangeHeap.equalsV d L (.seq b items) true h = (.ok false, h)) ∧
    (∀ b items, (∀ k, .list k ∉ items) →
      ∃ r, RangeHeap.equalsV d L (.seq b items) false h = (.ok r, h) ∧ (r = true ↔ items = xs.flatten.map .range)) ∧
    (∀ s, RangeHeap.equalsV d L (.str s) true h = (.ok false, h) ∧
      ∃ r, RangeHeap.equalsV d L (.str s) false h = (.ok r, h) ∧ (r = true ↔ s = [] ∧ xs = [])) ∧
    (∀ x cg, (∀ ys, x ≠ .list ys) → (∀ b items, x ≠ .seq b items) → (∀ s, x ≠ .str s) →
      RangeHeap.equalsV d L x cg h = (.error .typeError, h)) := by
  obtain ⟨gs, hrep, hv⟩ := hr.world.rep L xs (hr.get hL)
  have hlen := hrep.len; have hgl := hrep.groupsLen; have hn := hrep.toNested; have hto := hrep.toList
  rw [hv] at hlen hgl hn hto
  have hne : ∀ g ∈ xs, g ≠ [] := hv ▸ valuesOf_ne _ _
  have hseq : ∀ x n (items : List PyVal), RangeHeap.lenV x = .ok n → n = items.length → x.items d = .ok items →
      (∀ k, .list k ∉ items) → ∃ r, RangeHeap.equalsV d L x false h = (.ok r, h) ∧ (r = true ↔ items = xs.flatten.map .range) := by
    intro x n items h1 h2 h3 h4
    subst h2
    unfold RangeHeap.equalsV
    rw [bind_ok hlen, bind_run, readE_run, h1]
    simp only
    by_cases hc : (xs.flatten.length : Int) = items.length
    · rw [if_neg (by omega)]
      simp only [Bool.false_eq_true, if_false]
      rw [bind_ok hto, bind_run, readE_run, h3]
      simp only
      obtain ⟨b, b1, b2⟩ := itemsEq_run xs.flatten items (by omega) h4
      exact ⟨b, by rw [readE_run, b1], b2⟩
    · rw [if_pos hc]
      refine ⟨false, rfl, ?_⟩
      simp only [Bool.false_eq_true, false_iff]
      rintro rfl
      exact hc (by rw [List.length_map])
  refine ⟨fun ys => ⟨?_, ?_⟩, fun b items => ?_, fun b items hi => hseq _ _ items rfl rfl rfl hi, fun s => ⟨?_, ?_⟩, fun x cg h1 h2 h3 => ?_⟩
  · unfold RangeHeap.equalsV
    rw [bind_ok hlen, bind_run, readE_run]
    simp only [RangeHeap.lenV]
    by_cases hc : xs.flatten.length = ys.flatten.length
    · rw [if_neg (by omega)]
      simp only [if_true]
      rw [bind_ok hgl]
      by_cases hg : xs.length = ys.length
      · rw [if_neg (by omega), bind_ok hn]
        simp only [pure_run]
        congr 2
        rw [Bool.eq_iff_iff, zip_all_iff hg]
        simp
      · rw [if_pos (by omega)]
        simp only [pure_run]
        congr 2
        symm
        rw [decide_eq_false_iff_not]
        exact fun hh => hg (by rw [hh])
    · rw [if_pos (by omega)]
      simp only [pure_run]
      congr 2
      symm
      rw [decide_eq_false_iff_not]
      exact fun hh => hc (by rw [hh])
  · obtain ⟨r, r1, r2⟩ := hseq (.list ys) _ (ys.flatten.map .range) rfl (by rw [List.length_map]) rfl (by simp)
    rw [r1]
    congr 2
    rw [Bool.eq_iff_iff, r2, decide_eq_true_eq]
    constructor
    · intro hh
      exact (List.map_inj_right (fun _ _ hab => by cases hab; rfl) |>.mp hh).symm
    · intro hh; rw [hh]
  · unfold RangeHeap.equalsV
    rw [bind_ok hlen, bind_run, readE_run]
    simp only [RangeHeap.lenV, if_true]
    split <;> rfl
  · unfold RangeHeap.equalsV
    rw [bind_ok hlen, bind_run, readE_run]
    simp only [RangeHeap.lenV, if_true]
    split <;> rfl
  · obtain ⟨r, r1, r2⟩ := hseq (.str s) _ (s.map fun c => .str [c]) rfl (by simp) rfl (by simp)
    refine ⟨r, r1, r2.trans ?_⟩
    constructor
    · intro hh
      have hl := congrArg List.length hh
      cases s with
      | nil =>
        refine ⟨rfl, ?_⟩
        cases xs with
        | nil => rfl
        | cons g gs =>
          have := hne g (List.mem_cons_self ..)
          cases g with
          | nil => exact absurd rfl this
          | cons => simp at hl
      | cons c s =>
        cases hx : xs.flatten with
        | nil => rw [hx] at hl; simp at hl
        | cons a l => rw [hx] at hh; simp at hh
    · rintro ⟨rfl, rfl⟩; rfl
  · unfold RangeHeap.equalsV
    rw [bind_ok hlen, bind_run, readE_run]
    cases x <;> first | rfl | exact absurd rfl (h1 _) | exact absurd rfl (h2 _ _) | exact absurd rfl (h3 _)

/-- What decides a comparison of items is the first value that is not the range in its place. -/
theorem itemsEq_first (pre l : List BibleRange) (m : List PyVal) (a : BibleRange) (x : PyVal) (hx : x ≠ .range a) :
    RangeHeap.itemsEq (pre ++ a :: l) (pre.map .range ++ x :: m) = match x with
      | .list _ => .error .typeError
      | _ => .ok false := by
  induction pre with
  | nil =>
    cases x
    case range r =>
      have : a ≠ r := fun hh => hx (by rw [hh])
      simp [RangeHeap.itemsEq, this]
    all_goals rfl
  | cons p pre ih => simpa [RangeHeap.itemsEq] using ih

/-- C67: `equals` without comparing groups, for any sequence. A sequence of another length is different. Otherwise the first
value that is not the range in its place decides: if it is a list `TypeError` is raised, else the two are different. -/
theorem C67_equals_first (hr : Reachable h) (hL : Holds h L xs) (d : BibleData) (b : Bool) :
    (∀ items, items.length ≠ xs.flatten.length → RangeHeap.equalsV d L (.seq b items) false h = (.ok false, h)) ∧
    ∀ pre a l x m, xs.flatten = pre ++ a :: l → x ≠ .range a → m.length = l.length →
      RangeHeap.equalsV d L (.seq b (pre.map .range ++ x :: m)) false h = (match x with
        | .list _ => .error .typeError
        | _ => .ok false, h) := by
  obtain ⟨gs, hrep, hv⟩ := hr.world.rep L xs (hr.get hL)
  have hlen := hrep.len; have hto := hrep.toList
  rw [hv] at hlen hto
  refine ⟨fun items hi => ?_, fun pre a l x m hxs hx hm => ?_⟩
  · unfold RangeHeap.equalsV
    rw [bind_ok hlen, bind_run, readE_run]
    simp only [RangeHeap.lenV]
    rw [if_pos (by omega)]
    rfl
  · have hc : (xs.flatten.length : Int) = ((pre.map PyVal.range ++ x :: m).length : Nat) := by
      rw [hxs]; simp [hm]
    unfold RangeHeap.equalsV
    rw [bind_ok hlen, bind_run, readE_run]
    simp only [RangeHeap.lenV]
    rw [if_neg (by omega)]
    simp only [Bool.false_eq_true, if_false]
    rw [bind_ok hto, bind_run, readE_run]
    simp only [PyVal.items]
    rw [readE_run, hxs, itemsEq_first pre l m a x hx]
    cases x <;> rfl

example : Holds exHeap 0 [[exSermon], [exGenesis]] ∧ ([[exSermon], [exGenesis]] : RangeList).flatten = [exSermon] ++ exGenesis :: [] ∧
    (RangeHeap.equalsV dflt.data 0 (.seq true [.range exSermon, .list []]) false exHeap).1 = .error .typeError ∧
    (RangeHeap.equalsV dflt.data 0 (.seq true [.int 3, .list []]) false exHeap).1 = .ok false :=
  ⟨exHeap_first, rfl, by decide +kernel, by decide +kernel⟩

theorem conformIndex_same (L : Nat) (i : Int) (h : Heap BibleRange) :
    Heap.conformIndex L i h = (if (if i < 0 then i + h.nodeCount L else i) ≥ h.nodeCount L then .error .indexError
      else .ok (if i < 0 then i + h.nodeCount L else i), h) := by
  unfold Heap.conformIndex
  rw [bind_run, read_run]
  simp only
  generalize (if i < 0 then i + h.nodeCount L else i) = j
  by_cases hj : j ≥ h.nodeCount L
  · rw [if_pos hj, if_pos hj]; rfl
  · rw [if_neg hj, if_neg hj]; rfl

theorem index_same (L : Nat) (r : BibleRange) (lo hi : Option Int) (h : Heap BibleRange) : (Heap.index L r lo hi h).2 = h := by
  unfold Heap.index Heap.len
  rw [bind_run, read_run]
  simp only
  rw [bind_run, conformIndex_same]
  split
  · rename_i b h' hb
    cases congrArg Prod.snd hb
    rw [bind_run, conformIndex_same]
    split
    · rename_i b h' hb
      cases congrArg Prod.snd hb
      rfl
    · rename_i hb
      cases congrArg Prod.snd hb
      rfl
  · rename_i hb
    cases congrArg Prod.snd hb
    rfl

/-- C67: `index` changes nothing. With a range and indices that are integers or left out it is the call with these; otherwise it
raises an exception. This is `TypeError` if the item is no range or the first index is of a wrong type, and, when the first index
exists, if the second one is of a wrong type and no Bible reference. What is missing: `TypeError` for a Bible reference as
`limit_index`, where it is false (`C67_index_counterexample`). -/
theorem C67_index_partial (e : Env) (h : Heap BibleRange) (L : Nat) (x lo hi : PyVal) :
    (RangeHeap.indexV e L x lo hi h).2 = h ∧
    (∀ r a b, x = .range r → optIndex lo = some a → optIndex hi = some b →
      RangeHeap.indexV e L x lo hi h = Heap.index L r a b h) ∧
    ((∀ r, x ≠ .range r) ∨ optIndex lo = none → (RangeHeap.indexV e L x lo hi h).1 = .error .typeError) ∧
    (optIndex hi = none → ∃ err, (RangeHeap.indexV e L x lo hi h).1 = .error err) ∧
    ∀ a k, optIndex lo = some a → (Heap.conformIndex L (a.getD 0) h).1 = .ok k → optIndex hi = none → Spec.refRanges hi = none →
      (RangeHeap.indexV e L x lo hi h).1 = .error .typeError := by
  by_cases hx : ∃ r, x = .range r
  · obtain ⟨r, rfl⟩ := hx
    have hlo : ∀ a, optIndex lo = some a → RangeHeap.indexV e L (.range r) lo hi h = (match hi with
        | .none => Heap.index L r (some (a.getD 0)) none h
        | hi => (do
          let _ ← Heap.conformIndex L (a.getD 0)
          let m ← HM.readE fun _ => RangeHeap.minusOne e hi
          let i ← RangeHeap.checkIndex m
          Heap.index L r (some (a.getD 0)) (some (i + 1)) : HM BibleRange Int) h) := by
      intro a ha
      cases lo <;> cases ha <;> cases hi <;> rfl
    have hgood : ∀ a b, optIndex lo = some a → optIndex hi = some b →
        RangeHeap.indexV e L (.range r) lo hi h = Heap.index L r a b h := by
      intro a b ha hb
      rw [hlo a ha]
      cases hi <;> cases hb
      · rfl
      · rename_i n
        simp only
        have e1 : Heap.index L r (some (a.getD 0)) (some (n - 1 + 1)) = Heap.index L r a (some n) := by
          rw [Int.sub_add_cancel]; rfl
        rw [bind_run]
        cases hc : Heap.conformIndex L (a.getD 0) h with
        | mk q h' =>
          have hh : h' = h := by rw [conformIndex_same] at hc; exact (congrArg Prod.snd hc).symm
          subst hh
          cases q with
          | ok k => exact congrFun e1 h'
          | error err =>
            unfold Heap.index Heap.len
            rw [bind_run, read_run]
            simp only
            rw [bind_error hc]
    have hbad : optIndex lo = none → RangeHeap.indexV e L (.range r) lo hi h = (.error .typeError, h) := by
      intro hl
      cases lo <;> first | rfl | cases hl
    -- A second index that is no integer.
    have hlimit : ∀ a, optIndex lo = some a → optIndex hi = none → ∃ err, RangeHeap.indexV e L (.range r) lo hi h = (.error err, h) ∧
        ((∃ k, (Heap.conformIndex L (a.getD 0) h).1 = .ok k) → Spec.refRanges hi = none → err = .typeError) := by
      intro a ha hb
      rw [hlo a ha]
      have key : ∀ y : PyVal, optIndex y = none → ∃ err, (do
          let _ ← Heap.conformIndex L (a.getD 0)
          let m ← HM.readE fun _ => RangeHeap.minusOne e y
          let i ← RangeHeap.checkIndex m
          Heap.index L r (some (a.getD 0)) (some (i + 1)) : HM BibleRange Int) h = (.error err, h) ∧
          ((∃ k, (Heap.conformIndex L (a.getD 0) h).1 = .ok k) → Spec.refRanges y = none → err = .typeError) := by
        intro y hy
        rw [bind_run]
        cases hc : Heap.conformIndex L (a.getD 0) h with
        | mk q h' =>
          have hh : h' = h := by rw [conformIndex_same] at hc; exact (congrArg Prod.snd hc).symm
          subst hh
          cases q with
          | error err => exact ⟨err, rfl, fun ⟨_, hk⟩ => by cases hk⟩
          | ok k =>
            simp only
            rw [bind_run, HM.readE_run]
            cases y
            case none => cases hy
            case int => cases hy
            case verse v =>
              simp only [RangeHeap.minusOne]
              cases v.sub e 1 none with
              | error err => exact ⟨err, rfl, fun _ hh => by cases hh⟩
              | ok w => cases w <;> exact ⟨.typeError, rfl, fun _ _ => rfl⟩
            case range => exact ⟨.valueError, rfl, fun _ hh => by cases hh⟩
            case list => exact ⟨.valueError, rfl, fun _ hh => by cases hh⟩
            all_goals exact ⟨.typeError, rfl, fun _ _ => rfl⟩
      cases hi
      case none => cases hb
      all_goals exact key _ hb
    refine ⟨?_, fun r' a b hr => by cases hr; exact hgood a b, fun hh => ?_, fun hb => ?_, fun a k ha hk hb hn => ?_⟩
    · cases ha : optIndex lo with
      | none => rw [hbad ha]
      | some a => cases hb : optIndex hi with
        | none => obtain ⟨err, h1, _⟩ := hlimit a ha hb; rw [h1]
        | some b => rw [hgood a b ha hb]; exact index_same ..
    · rcases hh with hh | hh
      · exact absurd rfl (hh r)
      · rw [hbad hh]
    · cases ha : optIndex lo with
      | none => exact ⟨_, by rw [hbad ha]⟩
      | some a => obtain ⟨err, h1, _⟩ := hlimit a ha hb; exact ⟨err, by rw [h1]⟩
    · obtain ⟨err, h1, h2⟩ := hlimit a ha hb
      rw [h1, h2 ⟨k, hk⟩ hn]
  · have : RangeHeap.indexV e L x lo hi h = (.error .typeError, h) := by
      cases x <;> first | rfl | exact absurd ⟨_, rfl⟩ hx
    rw [this]
    exact ⟨rfl, fun r _ _ hr => absurd ⟨r, hr⟩ hx, fun _ => rfl, fun _ => ⟨_, rfl⟩, fun _ _ _ _ _ _ => rfl⟩

/-- With a range as `limit_index`, `index` raises `ValueError`, as if the item were not in the list. -/
theorem C67_index_counterexample :
    (RangeHeap.indexV dflt 0 (.range exSermon) .none (.range exMatt) exHeap).1 = .error .valueError ∧
    (RangeHeap.indexV dflt 0 (.range exSermon) .none .none exHeap).1 = .ok 0 := by
  decide +kernel

example : optIndex (.int 0) = some (some 0) ∧ (Heap.conformIndex 0 0 exHeap).1 = .ok 0 ∧ optIndex (.str ['2']) = none ∧
    Spec.refRanges (.str ['2']) = none ∧
    (RangeHeap.indexV dflt 0 (.range exSermon) (.int 0) (.str ['2']) exHeap).1 = .error .typeError := by
  refine ⟨rfl, ?_, rfl, rfl, ?_⟩ <;> decide +kernel

/-- Violations of C67: `extend` with a wrong item at the end raises `TypeError` but has added the items before it; `del list[None]`
removes the last item; `insert_group_at()` raises `TypeError` although its argument is optional; `==` with `None` or a range
raises `TypeError`. -/
theorem C67_counterexample :
    ((RangeHeap.extendV dflt.data 1 (.seq true [.range exIn, .int 5]) exHeap).1 = .error .typeError ∧
      (Heap.toNested 1 (RangeHeap.extendV dflt.data 1 (.seq true [.range exIn, .int 5]) exHeap).2).1 = .ok [[exMatt, exIn]]) ∧
    (Heap.toNested 0 (RangeHeap.delItemV 0 .none exHeap).2).1 = .ok [[exSermon]] ∧
    (RangeHeap.insertGroupAtV 0 .none exHeap).1 = .error .typeError ∧
    (RangeHeap.equalsV dflt.data 0 .none true exHeap).1 = .error .typeError ∧
    (RangeHeap.equalsV dflt.data 1 (.range exMatt) true exHeap).1 = .error .typeError := by
  decide +kernel

example : ∃ r h', (ValueOp.setItem (.str "0".toList) (.range exIn)).call 0 exHeap = (r, h') ∧
    (∀ err, r = .error err → Unchanged exHeap h' none) := by
  obtain ⟨r, h', h1, h2, _⟩ := C67_atomic_partial exHeap_reachable exHeap_first (.setItem (.str "0".toList) (.range exIn)) (by simp)
    (fun p hp => by cases hp)
  exact ⟨r, h', h1, h2⟩

example : (ValueOp.insert (.int 1) (.range exIn)).plain = some (.insert 1 exIn) ∧
    (ListOp.insert 1 exIn).Sensible 0 [[exSermon], [exGenesis]] ∧
    ((ValueOp.insert (.int 1) (.range exIn)).call 0 exHeap).1 = .ok none ∧
    ((ValueOp.insert (.int 1) (.verse exIn.start)).call 0 exHeap).1 = .error .typeError :=
  ⟨rfl, by show (-2 : Int) ≤ 1; decide, by decide +kernel, by decide +kernel⟩

example : (PyVal.seq true [.range exIn, .range exMatt]).items dflt.data = .ok [.range exIn, .range exMatt] ∧
    onlyRanges [.range exIn, .range exMatt] = true ∧ leadingRanges [.range exIn, .none, .range exMatt] = [exIn] := ⟨rfl, rfl, rfl⟩

end Bibleref
