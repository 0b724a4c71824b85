import Verif.Model.RangeHeap
import Verif.Lemmas.HeapQuery
import Verif.Lemmas.Groups

set_option linter.unusedSimpArgs false

/-!
# Lists of ranges in memory: one list

The operations of `Verif.Model.RangeHeap` on one list do what the functions of `Verif.Model.RangeList` do.
-/

namespace Bibleref
open HM

section
variable {α : Type} {h h' : Heap α} {L : Nat} {gs gs' : List Grp}

theorem nodup_split {xs ys xs' ys' : List Nat} {n : Nat} (he : xs ++ n :: ys = xs' ++ n :: ys') (hN : (xs ++ n :: ys).Nodup) :
    xs = xs' ∧ ys = ys' := by
  induction xs generalizing xs' with
  | nil =>
    cases xs' with
    | nil => simpa using he
    | cons b xs' =>
      simp only [List.nil_append, List.cons_append, List.cons.injEq] at he
      obtain ⟨rfl, rfl⟩ := he
      simp at hN
  | cons a xs ih =>
    cases xs' with
    | nil =>
      simp only [List.nil_append, List.cons_append, List.cons.injEq] at he
      obtain ⟨rfl, rfl⟩ := he
      simp at hN
    | cons b xs' =>
      simp only [List.cons_append, List.cons.injEq] at he
      obtain ⟨rfl, he⟩ := he
      obtain ⟨rfl, rfl⟩ := ih he (List.nodup_cons.mp hN).2
      exact ⟨rfl, rfl⟩

/-- Where a node lies. -/
theorem locate_node {n : Nat} (hn : n ∈ nodesOf gs) : (∃ A t B, gs = A ++ (n, t) :: B) ∨
    ∃ A g t1 t2 B, gs = A ++ (g, t1 ++ n :: t2) :: B := by
  obtain ⟨g, hg, hx⟩ := mem_nodesOf.mp hn
  obtain ⟨A, B, rfl⟩ := List.append_of_mem hg
  rcases hx with rfl | hx
  · exact .inl ⟨A, g.2, B, rfl⟩
  · obtain ⟨t1, t2, ht⟩ := List.append_of_mem hx
    exact .inr ⟨A, g.1, t1, t2, B, by rw [← ht]⟩

theorem popNode_nodes {xs ys : List Nat} {n : Nat} (hr : Rep h L gs) (hx : nodesOf gs = xs ++ n :: ys) :
    ∃ h' gs', Heap.popNode L (some n) h = (.ok (h.value n), h') ∧ Step L h h' gs gs' ∧ h'.value = h.value ∧ h'.nodes = h.nodes ∧
      nodesOf gs' = xs ++ ys := by
  have hN := hr.links.nodup
  rcases locate_node (gs := gs) (n := n) (by rw [hx]; simp) with ⟨A, t, B, rfl⟩ | ⟨A, g, t1, t2, B, rfl⟩
  · have hs := nodup_split (xs := nodesOf A) (ys := t ++ nodesOf B) (xs' := xs) (ys' := ys) (n := n) (by simpa using hx) (by simpa using hN)
    cases t with
    | nil =>
      obtain ⟨h', a, b, c, d⟩ := popNode_only hr
      exact ⟨h', _, a, b, c, d, by simp [← hs.1, ← hs.2]⟩
    | cons y t =>
      obtain ⟨h', a, b, c, d⟩ := popNode_head hr
      exact ⟨h', _, a, b, c, d, by simp [← hs.1, ← hs.2]⟩
  · have hs := nodup_split (xs := nodesOf A ++ g :: t1) (ys := t2 ++ nodesOf B) (xs' := xs) (ys' := ys) (n := n)
      (by simpa using hx) (by simpa using hN)
    obtain ⟨h', a, b, c, d⟩ := popNode_tail hr
    exact ⟨h', _, a, b, c, d, by simp [← hs.1, ← hs.2]⟩

theorem insertBefore_nodes {xs ys : List Nat} {n : Nat} (v : α) (hr : Rep h L gs) (hx : nodesOf gs = xs ++ n :: ys) :
    ∃ h' gs', Heap.insertBefore L (some n) v false h = (.ok (), h') ∧ Step L h h' gs gs' ∧ h'.value = upd h.value h.nodes v ∧
      h'.nodes = h.nodes + 1 ∧ nodesOf gs' = xs ++ h.nodes :: n :: ys := by
  have hN := hr.links.nodup
  rcases locate_node (gs := gs) (n := n) (by rw [hx]; simp) with ⟨A, t, B, rfl⟩ | ⟨A, g, t1, t2, B, rfl⟩
  · have hs := nodup_split (xs := nodesOf A) (ys := t ++ nodesOf B) (xs' := xs) (ys' := ys) (n := n) (by simpa using hx) (by simpa using hN)
    obtain ⟨h', a, b, c, d⟩ := insertBefore_head v hr
    exact ⟨h', _, a, b, c, d, by simp [← hs.1, ← hs.2]⟩
  · have hs := nodup_split (xs := nodesOf A ++ g :: t1) (ys := t2 ++ nodesOf B) (xs' := xs) (ys' := ys) (n := n)
      (by simpa using hx) (by simpa using hN)
    obtain ⟨h', a, b, c, d⟩ := insertBefore_tail v hr
    exact ⟨h', _, a, b, c, d, by simp [← hs.1, ← hs.2]⟩

theorem popAfter_nodes {xs ys : List Nat} {n m : Nat} (hr : Rep h L gs) (hx : nodesOf gs = xs ++ n :: m :: ys) :
    ∃ h' gs', Heap.popAfter L (some n) h = (.ok (h.value m), h') ∧ Step L h h' gs gs' ∧ h'.value = h.value ∧ h'.nodes = h.nodes ∧
      nodesOf gs' = xs ++ n :: ys := by
  obtain ⟨h', gs', a, b, c, d, e⟩ := popNode_nodes (xs := xs ++ [n]) (ys := ys) (n := m) hr (by simp [hx])
  refine ⟨h', gs', ?_, b, c, d, by simp [e]⟩
  have hp := hr.links.par n (by simp [hx])
  have hs := hr.links.seg
  have hN := hr.links.nodup
  have hl := hr.links.lst
  rw [hx] at hs hN hl
  have hnext : h.next n = some m := (seg_mid hs).2
  have hlast : h.last L ≠ some n := by
    rw [hl]
    intro hh
    have h1 : (xs ++ n :: m :: ys).getLast? = (m :: ys).getLast? := by simp [List.getLast?_append, List.getLast?_cons]
    rw [h1] at hh
    have := List.mem_of_getLast? hh
    have := (nodup_mid hN).2.2.2.1
    contradiction
  unfold Heap.popAfter Heap.checkIsChild
  simp only [bind_run (HM.read _), read_run, hp, if_true, bind_run]
  rw [pure_run]
  simp only [if_neg hlast, bind_run, read_run, hnext]
  exact a

end

/-! ## Outcomes -/

section
variable {h h' : Heap BibleRange} {L : Nat} {gs gs' : List Grp}

/-- What an operation on the list `L` did, compared with the groups it is meant to leave. After an exception the list still is
a list. -/
def Out (L : Nat) (h : Heap BibleRange) (gs : List Grp) (run : Except PyErr Unit × Heap BibleRange) : Except PyErr RangeList → Prop
  | .ok xs => ∃ h' gs', run = (.ok (), h') ∧ Step L h h' gs gs' ∧ valuesOf h' gs' = xs
  | .error x => ∃ h' gs', run = (.error x, h') ∧ Step L h h' gs gs'

theorem Out.after {x : HM BibleRange Unit} {y : HM BibleRange Unit} {spec : Except PyErr RangeList} (hx : x h = (.ok (), h'))
    (hst : Step L h h' gs gs') (hy : Out L h' gs' (y h') spec) : Out L h gs ((x >>= fun _ => y) h) spec := by
  rw [bind_ok hx]
  cases spec with
  | ok xs =>
    obtain ⟨h2, gs2, a, b, c⟩ := hy
    exact ⟨h2, gs2, a, hst.trans b, c⟩
  | error x =>
    obtain ⟨h2, gs2, a, b⟩ := hy
    exact ⟨h2, gs2, a, hst.trans b⟩

theorem Out.before {run : Except PyErr Unit × Heap BibleRange} {spec : Except PyErr RangeList}
    (hst : Step L h h' gs gs') (hy : Out L h' gs' run spec) : Out L h gs run spec := by
  cases spec with
  | ok xs =>
    obtain ⟨h2, gs2, a, b, c⟩ := hy
    exact ⟨h2, gs2, a, hst.trans b, c⟩
  | error x =>
    obtain ⟨h2, gs2, a, b⟩ := hy
    exact ⟨h2, gs2, a, hst.trans b⟩

end

namespace RangeHeap

theorem lift_run {β : Type} (x : Except PyErr β) (h : Heap BibleRange) : lift x h = (x, h) := rfl

theorem lift_ok {β γ : Type} {x : Except PyErr β} {b : β} {f : β → HM BibleRange γ} (h : Heap BibleRange) (hx : x = .ok b) :
    (lift x >>= f) h = f b h := bind_ok (by rw [lift_run, hx])

theorem lift_error {β γ : Type} {x : Except PyErr β} {z : PyErr} {f : β → HM BibleRange γ} (h : Heap BibleRange) (hx : x = .error z) :
    (lift x >>= f) h = (.error z, h) := bind_error (by rw [lift_run, hx])

variable {h h' : Heap BibleRange} {L M : Nat} {gs gs' gm : List Grp} {e : Env} {flags : Option BibleFlag}

/-! ## Regrouping -/

theorem regroupStep_eq (s : RangeList.GroupState) (r : BibleRange) : RangeList.regroupStep e flags s r = (do
    let (head, chap, atVerse, showStart) ← RangeList.regroupStart e flags s r
    let s' ← regroupEnd e flags r chap atVerse showStart
    return (head, s')) := by
  unfold RangeList.regroupStep regroupEnd
  cases RangeList.regroupStart e flags s r with
  | error x => rfl
  | ok p =>
    obtain ⟨head, chap, atVerse, showStart⟩ := p
    cases showStart with
    | true =>
      simp only [bind, Except.bind, if_true, pure, Except.pure]
      cases RangeList.isDual e flags r with
      | error x => rfl
      | ok d => cases d <;> rfl
    | false =>
      simp only [bind, Except.bind, Bool.false_eq_true, if_false]
      cases r.spansEndChap e none with
      | error x => rfl
      | ok ec =>
        simp only [pure, Except.pure]
        cases RangeList.isDual e flags r with
        | error x => rfl
        | ok d => cases d <;> rfl

/-- The groups made of the current group and the marked items that follow. -/
def cutFrom {α : Type} : List α → List (Bool × α) → List (List α)
  | cur, [] => [cur]
  | cur, (true, b) :: l => cur :: cutFrom [b] l
  | cur, (false, b) :: l => cutFrom (cur ++ [b]) l

theorem cutFrom_append {α : Type} (p c : List α) (l : List (Bool × α)) : ∃ g gs, cutFrom c l = g :: gs ∧ cutFrom (p ++ c) l = (p ++ g) :: gs := by
  induction l generalizing c with
  | nil => exact ⟨c, [], rfl, rfl⟩
  | cons x l ih =>
    obtain ⟨b, x⟩ := x
    cases b with
    | true => exact ⟨c, _, rfl, rfl⟩
    | false =>
      obtain ⟨g, gs, h1, h2⟩ := ih (c ++ [x])
      exact ⟨g, gs, h1, by rw [← h2]; simp [cutFrom]⟩

theorem cut_eq {α : Type} (x : Bool) (a : α) (l : List (Bool × α)) : Groups.cut ((x, a) :: l) = cutFrom [a] l := by
  induction l generalizing x a with
  | nil => simp [Groups.cut, cutFrom]
  | cons y l ih =>
    obtain ⟨b, y⟩ := y
    cases b with
    | true => rw [Groups.cut, ih]; rfl
    | false =>
      rw [Groups.cut, ih]
      obtain ⟨g, gs, h1, h2⟩ := cutFrom_append [a] [y] l
      rw [h1]
      exact h2.symm

theorem regroupLoop_spec {A : List Grp} {g : Nat} {t1 l : List Nat} (s : RangeList.GroupState) (hr : Rep h L (A ++ [(g, t1 ++ l)])) :
    match RangeList.regroupHeads e flags s (l.map h.value) with
    | .ok marked => ∃ h' gs', regroupLoop e flags L s l h = (.ok (), h') ∧ Step L h h' (A ++ [(g, t1 ++ l)]) gs' ∧
        valuesOf h' gs' = valuesOf h A ++ cutFrom ((g :: t1).map h.value) marked
    | .error x => ∃ h' gs', regroupLoop e flags L s l h = (.error x, h') ∧ Step L h h' (A ++ [(g, t1 ++ l)]) gs' := by
  induction l generalizing h A g t1 s with
  | nil => exact ⟨h, _, rfl, Step.refl hr, by simp [cutFrom, valuesOf]⟩
  | cons n l ih =>
    rw [List.map_cons, RangeList.regroupHeads, regroupStep_eq, regroupLoop]
    simp only [bind_run (HM.read _), read_run]
    cases hstart : RangeList.regroupStart e flags s (h.value n) with
    | error x =>
      simp only [bind, Except.bind]
      exact ⟨h, _, lift_error _ rfl, Step.refl hr⟩
    | ok p =>
      obtain ⟨head, chap, av, ss⟩ := p
      rw [lift_ok _ rfl]
      simp only
      -- the state after making the group
      obtain ⟨h1, A1, g1, t11, hrun1, hst1, hval1, hv1⟩ : ∃ (h1 : Heap BibleRange) (A1 : List Grp) (g1 : Nat) (t11 : List Nat),
          (if head = true then Heap.insertNewGroupAtNode L n else pure () : HM BibleRange Unit) h = (.ok (), h1) ∧
          Step L h h1 (A ++ [(g, t1 ++ n :: l)]) (A1 ++ [(g1, t11 ++ l)]) ∧ h1.value = h.value ∧
          (∀ m, valuesOf h A ++ cutFrom ((g :: t1).map h.value) ((head, h.value n) :: m) = valuesOf h A1 ++ cutFrom ((g1 :: t11).map h.value) m) := by
        cases head with
        | false =>
          refine ⟨h, A, g, t1 ++ [n], rfl, by simpa using Step.refl hr, rfl, fun m => ?_⟩
          simp [cutFrom]
        | true =>
          obtain ⟨a, b⟩ := newGroupAt_step (B := []) hr
          refine ⟨newGroupAt h L n g, A ++ [(g, t1)], n, [], a, by simpa using b, rfl, fun m => ?_⟩
          simp [cutFrom, valuesOf]
      have hcont : ∀ {k : HM BibleRange Unit}, ((if head = true then Heap.insertNewGroupAtNode L n else pure ()) >>= fun _ => k) h = k h1 :=
        fun {k} => bind_ok hrun1
      have hform : ∀ k : HM BibleRange Unit, (if head = true then (Heap.insertNewGroupAtNode L n >>= fun _ => k) else k) h = k h1 := by
        intro k
        rw [← hcont (k := k)]
        cases head <;> rfl
      rw [hform]
      cases hend : regroupEnd e flags (h.value n) chap av ss with
      | error x =>
        simp only [bind, Except.bind, hend]
        exact ⟨h1, _, lift_error _ rfl, hst1⟩
      | ok s' =>
        have hi := ih s' hst1.rep
        rw [hval1] at hi
        rw [lift_ok _ rfl]
        simp only [bind, Except.bind, pure, Except.pure, hend]
        cases hheads : RangeList.regroupHeads e flags s' (l.map h.value) with
        | error x =>
          rw [hheads] at hi
          obtain ⟨h2, gs2, a, b⟩ := hi
          exact ⟨h2, gs2, a, hst1.trans b⟩
        | ok m =>
          rw [hheads] at hi
          obtain ⟨h2, gs2, a, b, c⟩ := hi
          refine ⟨h2, gs2, a, hst1.trans b, ?_⟩
          rw [c, hv1, valuesOf_congr (h := h) (h' := h1) (fun x _ => by rw [hval1])]

theorem regroup_out (hr : Rep h L gs) : Out L h gs (regroup e flags L h) (RangeList.regroup e flags (valuesOf h gs).flatten) := by
  obtain ⟨h1, hrun, hst, hval, hn⟩ := clearGroups_step hr
  unfold regroup
  refine Out.after hrun hst ?_
  have hids : Heap.ids L h1 = .ok (nodesOf gs) := by rw [hst.rep.ids, nodesOf_oneGroup]
  have hgo : (do let l ← HM.readE (Heap.ids L); regroupLoop e flags L ⟨none, none, false⟩ l : HM BibleRange Unit) h1 =
      regroupLoop e flags L ⟨none, none, false⟩ (nodesOf gs) h1 := bind_ok (by rw [readE_run, hids])
  rw [hgo, ← map_nodesOf, ← hval]
  have hr1 := hst.rep
  generalize nodesOf gs = xs at hr1
  cases xs with
  | nil => exact ⟨h1, _, rfl, Step.refl hr1, rfl⟩
  | cons n l =>
    have hnop : ∀ k : HM BibleRange Unit, (Heap.insertNewGroupAtNode L n >>= fun _ => k) h1 = k h1 := by
      intro k
      refine bind_ok (b := ()) ?_
      unfold Heap.insertNewGroupAtNode
      simp only [bind_run (HM.read _), read_run]
      rw [if_pos (by rw [hr1.links.fst]; simp [oneGroup])]
      rfl
    unfold RangeList.regroup
    rw [List.map_cons, RangeList.regroupHeads, regroupStep_eq, regroupLoop]
    simp only [bind_run (HM.read _), read_run]
    cases hstart : RangeList.regroupStart e flags ⟨none, none, false⟩ (h1.value n) with
    | error x =>
      simp only [bind, Except.bind]
      exact ⟨h1, _, lift_error _ rfl, Step.refl hr1⟩
    | ok p =>
      obtain ⟨head, chap, av, ss⟩ := p
      rw [lift_ok _ rfl]
      have hform : ∀ k : HM BibleRange Unit, (if head = true then (Heap.insertNewGroupAtNode L n >>= fun _ => k) else k) h1 = k h1 := by
        intro k
        cases head
        · rfl
        · exact hnop k
      simp only
      rw [hform]
      cases hend : regroupEnd e flags (h1.value n) chap av ss with
      | error x =>
        simp only [bind, Except.bind, hend]
        exact ⟨h1, _, lift_error _ rfl, Step.refl hr1⟩
      | ok s' =>
        have hi := regroupLoop_spec (e := e) (flags := flags) (A := []) (g := n) (t1 := []) (l := l) s' hr1
        rw [lift_ok _ rfl]
        simp only [bind, Except.bind, pure, Except.pure, hend]
        cases hheads : RangeList.regroupHeads e flags s' (l.map h1.value) with
        | error x =>
          rw [hheads] at hi
          exact hi
        | ok m =>
          rw [hheads] at hi
          obtain ⟨h2, gs2, a, b, c⟩ := hi
          refine ⟨h2, gs2, a, b, ?_⟩
          rw [c, cut_eq]
          rfl

/-! ## Sorting and merging -/

theorem sort_out (depth : Nat) (hr : Rep h L gs)
    (hc : ∀ a ∈ (valuesOf h gs).flatten, ∀ b ∈ (valuesOf h gs).flatten, Alike e.data a b) (rg : Bool) :
    (∃ h', sort e depth L rg h = (.error .recursionError, h') ∧ depth ≤ (valuesOf h gs).flatten.length) ∨
    Out L h gs (sort e depth L rg h) (RangeList.sort e (valuesOf h gs) rg) := by
  have hlen : (valuesOf h gs).flatten.length = (nodesOf gs).length := by rw [← map_nodesOf, List.length_map]
  rw [hlen]
  unfold sort
  have hx : Compares (fun a b => a.lessEq e.data b) (fun a b => a.le e.data b) h (nodesOf gs) (nodesOf gs) := by
    intro a ha b hb
    rw [← map_nodesOf] at hc
    exact BibleRange.lessEq_eq (hc _ (List.mem_map_of_mem ha) _ (List.mem_map_of_mem hb))
  rcases sort_or depth hx hr with ⟨h1, hrun, hd⟩ | ⟨h1, hrun, hst, hval, hn⟩
  · exact .inl ⟨h1, bind_error hrun, hd⟩
  refine .inr (Out.after hrun hst ?_)
  have hfl : (nodesOf (oneGroup ((nodesOf gs).mergeSort (nodeLe (fun a b => a.le e.data b) h)))).map h1.value =
      RangeList.sortT e.data (valuesOf h gs).flatten := by
    rw [nodesOf_oneGroup, hval, mergeSort_map, map_nodesOf, RangeList.sortT]
  rw [map_nodesOf] at hfl
  unfold RangeList.sort
  rw [RangeList.sortItems_eq hc]
  simp only [bind, Except.bind]
  cases rg with
  | true =>
    simp only [if_true]
    rw [← hfl]
    exact regroup_out hst.rep
  | false =>
    simp only [Bool.false_eq_true, if_false]
    refine ⟨h1, _, rfl, Step.refl hst.rep, ?_⟩
    rw [valuesOf_oneGroup hval, mergeSort_map, map_nodesOf, RangeList.sortT, Nested.single]

theorem mergeLoop_spec {zs ys : List Nat} {n k : Nat} (hr : Rep h L gs) (hx : nodesOf gs = zs ++ n :: ys) (hk : ys.length < k) :
    match RangeList.mergeLoop e flags (h.value n) (ys.map h.value) with
    | .ok items => ∃ h' gs', mergeLoop e flags L k (some n) h = (.ok (), h') ∧ Step L h h' gs gs' ∧
        (valuesOf h' gs').flatten = zs.map h.value ++ items
    | .error x => ∃ h' gs', mergeLoop e flags L k (some n) h = (.error x, h') ∧ Step L h h' gs gs' := by
  induction k generalizing h gs zs n ys with
  | zero => omega
  | succ k ih =>
    have hN := hr.links.nodup
    have hnext : h.next n = ys.head? := by
      have hs := hr.links.seg
      rw [hx] at hs
      exact (seg_mid hs).2
    cases ys with
    | nil =>
      refine ⟨h, gs, ?_, Step.refl hr, by rw [← map_nodesOf, hx]; simp⟩
      rw [mergeLoop]
      simp only [bind_run (HM.read _), read_run, hnext]
      rfl
    | cons m ys =>
      rw [List.map_cons, RangeList.mergeLoop, mergeLoop]
      simp only [bind_run (HM.read _), read_run, hnext, List.head?_cons]
      cases hu : (h.value n).union e (h.value m) flags with
      | error x =>
        simp only [bind, Except.bind]
        exact ⟨h, gs, lift_error _ rfl, Step.refl hr⟩
      | ok u =>
        rw [lift_ok _ rfl]
        simp only [bind, Except.bind]
        have hmove : ∀ (r : Except PyErr (List BibleRange)), r = (match RangeList.mergeLoop e flags (h.value m) (ys.map h.value) with
              | .error err => .error err
              | .ok v => pure (h.value n :: v)) → match r with
            | .ok items => ∃ h' gs', mergeLoop e flags L k (some m) h = (.ok (), h') ∧ Step L h h' gs gs' ∧
                (valuesOf h' gs').flatten = zs.map h.value ++ items
            | .error x => ∃ h' gs', mergeLoop e flags L k (some m) h = (.error x, h') ∧ Step L h h' gs gs' := by
          intro r hrr
          subst hrr
          have hi := ih (zs := zs ++ [n]) (n := m) (ys := ys) hr (by simp [hx]) (by simpa using hk)
          cases hml : RangeList.mergeLoop e flags (h.value m) (ys.map h.value) with
          | error x => rw [hml] at hi; exact hi
          | ok items =>
            rw [hml] at hi
            obtain ⟨h2, gs2, a, b, c⟩ := hi
            exact ⟨h2, gs2, a, b, by rw [c]; simp⟩
        match u with
        | [] => exact hmove _ (by simp only; cases RangeList.mergeLoop e flags (h.value m) (ys.map h.value) <;> rfl)
        | _ :: _ :: _ => exact hmove _ (by simp only; cases RangeList.mergeLoop e flags (h.value m) (ys.map h.value) <;> rfl)
        | [x] =>
          simp only
          have hst1 := setValue_step hr x (n := n) (by simp [hx])
          obtain ⟨h2, gs2, hrun2, hst2, hval2, _, hx2⟩ := popAfter_nodes hst1.rep hx
          have hi := ih (zs := zs) (n := n) (ys := ys) hst2.rep hx2 (by simp at hk; omega)
          have hnn : n ∉ zs ∧ n ∉ m :: ys := by
            rw [hx] at hN
            have := nodup_mid hN
            exact ⟨this.2.2.1, this.2.2.2.1⟩
          have e1 : h2.value n = x := by rw [hval2]; exact upd_same _ _ _
          have e2 : ys.map h2.value = ys.map h.value := by
            rw [hval2]; exact map_upd_same (fun hh => hnn.2 (by simp [hh]))
          have e3 : zs.map h2.value = zs.map h.value := by
            rw [hval2]; exact map_upd_same hnn.1
          rw [e1, e2, e3] at hi
          have hgo : (Heap.setValue n x).bind (fun _ => (Heap.popAfter L (some n)).bind fun _ => mergeLoop e flags L k (some n)) h =
              mergeLoop e flags L k (some n) h2 := by
            refine (bind_ok (setValue_run _ _ _)).trans ?_
            exact bind_ok hrun2
          rw [hgo]
          cases hml : RangeList.mergeLoop e flags x (ys.map h.value) with
          | error x =>
            rw [hml] at hi
            obtain ⟨h3, gs3, a, b⟩ := hi
            exact ⟨h3, gs3, a, (hst1.trans hst2).trans b⟩
          | ok items =>
            rw [hml] at hi
            obtain ⟨h3, gs3, a, b, c⟩ := hi
            exact ⟨h3, gs3, a, (hst1.trans hst2).trans b, c⟩

theorem merge_out (depth : Nat) (hr : Rep h L gs)
    (hc : ∀ a ∈ (valuesOf h gs).flatten, ∀ b ∈ (valuesOf h gs).flatten, Alike e.data a b) :
    (∃ h', merge e depth L flags h = (.error .recursionError, h') ∧ depth ≤ (valuesOf h gs).flatten.length) ∨
    Out L h gs (merge e depth L flags h) (RangeList.merge e (valuesOf h gs) flags) := by
  unfold merge
  have hso := sort_out (e := e) depth hr hc false
  simp only [RangeList.sort, RangeList.sortItems_eq hc, bind, Except.bind, Bool.false_eq_true, if_false] at hso
  rcases hso with ⟨h1, hrun, hd⟩ | ⟨h1, gs1, hrun, hst, hval⟩
  · exact .inl ⟨h1, bind_error hrun, hd⟩
  refine .inr (Out.after hrun hst ?_)
  simp only [bind_run (HM.read _), read_run]
  have hitems : (valuesOf h1 gs1).flatten = RangeList.sortT e.data (valuesOf h gs).flatten := by
    rw [hval]
    split
    · next hh => rw [hh]; rfl
    · simp
  unfold RangeList.merge
  rw [RangeList.mergeItems_eq hc, ← hitems]
  cases hxs : nodesOf gs1 with
  | nil =>
    have : (valuesOf h1 gs1).flatten = [] := by rw [← map_nodesOf, hxs]; rfl
    rw [this]
    have hf : h1.first L = none := by rw [hst.rep.links.fst, hxs]; rfl
    rw [hf]
    have := regroup_out (e := e) (flags := none) hst.rep
    refine Out.after (h' := h1) rfl (Step.refl hst.rep) ?_
    rw [‹(valuesOf h1 gs1).flatten = []›] at this
    exact this
  | cons n ys =>
    have hfl : (valuesOf h1 gs1).flatten = h1.value n :: ys.map h1.value := by rw [← map_nodesOf, hxs]; rfl
    rw [hfl]
    have hf : h1.first L = some n := by rw [hst.rep.links.fst, hxs]; rfl
    rw [hf]
    have hle := hst.rep.length_le
    rw [hxs] at hle
    have hm := mergeLoop_spec (e := e) (flags := flags) (zs := []) (k := h1.nodes + 1) hst.rep hxs (by simp at hle; omega)
    rw [show (do
        let items ← (match h1.value n :: ys.map h1.value with
          | [] => Except.ok []
          | a :: rest => RangeList.mergeLoop e flags a rest : Except PyErr (List BibleRange))
        RangeList.regroup e none items) = (RangeList.mergeLoop e flags (h1.value n) (ys.map h1.value) >>= fun items =>
          RangeList.regroup e none items) from rfl]
    cases hml : RangeList.mergeLoop e flags (h1.value n) (ys.map h1.value) with
    | error x =>
      rw [hml] at hm
      obtain ⟨h2, gs2, a, b⟩ := hm
      exact ⟨h2, gs2, bind_error a, b⟩
    | ok items =>
      rw [hml] at hm
      obtain ⟨h2, gs2, a, b, c⟩ := hm
      refine Out.after a b ?_
      have := regroup_out (e := e) (flags := none) b.rep
      rw [c] at this
      exact this

end RangeHeap
end Bibleref
