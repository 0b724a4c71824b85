import Verif.Lemmas.HeapWorld

set_option linter.unusedSimpArgs false

/-!
# Linked lists in the heap: questions, views, and extending a list with itself
-/

namespace Bibleref
open HM

variable {α : Type} {h h' h'' : Heap α} {L M : Nat} {gs gs' gm : List Grp}

/-! ## `index`, `count`, `in` -/

/-- The least position in `[lo, hi)` holding `v`. -/
theorem indexFrom_spec [DecidableEq α] (v : α) (lo : Nat) {zs ys : List Nat} {p : Option Nat} {k : Nat}
    (hs : Seg h.prev h.next p ys none) (hk : k ≤ ys.length) :
    (∃ j : Nat, j < k ∧ lo ≤ zs.length + j ∧ (ys.map h.value)[j]? = some v ∧
      (∀ j' : Nat, j' < j → lo ≤ zs.length + j' → (ys.map h.value)[j']? ≠ some v) ∧
      Heap.indexFrom h v lo k zs.length ys.head? = .ok ((zs.length + j : Nat) : Int)) ∨
    ((∀ j : Nat, j < k → lo ≤ zs.length + j → (ys.map h.value)[j]? ≠ some v) ∧
      Heap.indexFrom h v lo k zs.length ys.head? = .error .valueError) := by
  induction k generalizing zs ys p with
  | zero => exact .inr ⟨fun j hj => by omega, by cases ys <;> rfl⟩
  | succ k ih =>
    cases ys with
    | nil => simp at hk
    | cons a ys =>
      have hnx : h.next a = ys.head? := by rw [hs.2.1, Option.or_none]
      rw [List.head?_cons, Heap.indexFrom]
      by_cases hc : h.value a = v ∧ (zs.length : Int) ≥ lo
      · rw [if_pos hc]
        exact .inl ⟨0, by omega, by omega, by simp [hc.1], fun j' hj' => by omega, rfl⟩
      · rw [if_neg hc, hnx]
        have hlen : ((zs.length : Int) + 1) = ((zs ++ [a]).length : Int) := by simp
        rw [hlen]
        have h0 : lo ≤ zs.length → h.value a ≠ v := fun hl hv => hc ⟨hv, by omega⟩
        rcases ih (zs := zs ++ [a]) hs.2.2 (by simpa using hk) with ⟨j, h1, h2, h3, h4, h5⟩ | ⟨h1, h2⟩
        · refine .inl ⟨j + 1, by omega, by simp at h2; omega, by simpa using h3, ?_, ?_⟩
          · intro j' hj' hlo
            cases j' with
            | zero => simpa using h0 (by omega)
            | succ j' => simpa using h4 j' (by omega) (by simp; omega)
          · rw [h5]; congr 1; simp; omega
        · refine .inr ⟨?_, h2⟩
          intro j' hj' hlo
          cases j' with
          | zero => simpa using h0 (by omega)
          | succ j' => simpa using h1 j' (by omega) (by simp; omega)

theorem count_run [DecidableEq α] (hr : Rep h L gs) (v : α) : Heap.count L v h = (.ok ((valuesOf h gs).flatten.count v : Int), h) := by
  unfold Heap.count
  rw [bind_ok hr.toList]
  simp only [pure_run]
  rw [List.count_eq_countP, List.countP_eq_length_filter]
  rfl

theorem contains_run [DecidableEq α] (hr : Rep h L gs) (v : α) : Heap.contains L v h = (.ok (decide (v ∈ (valuesOf h gs).flatten)), h) := by
  unfold Heap.contains
  rw [bind_ok hr.toList]
  simp only [pure_run]
  congr 2
  rw [Bool.eq_iff_iff, List.any_eq_true]
  simp

/-! ## `equals` -/

theorem zipEq_iff [DecidableEq α] (l m : List α) : Heap.zipEq l m = true ↔ l = m := by
  induction l generalizing m with
  | nil => cases m <;> simp [Heap.zipEq]
  | cons a l ih =>
    cases m with
    | nil => simp [Heap.zipEq]
    | cons b m =>
      rw [Heap.zipEq]
      by_cases hab : a = b
      · simp [hab, ih]
      · simp [hab]

theorem zipEqShort_iff [DecidableEq α] {l m : List α} (hl : l.length = m.length) : Heap.zipEqShort l m = true ↔ l = m := by
  induction l generalizing m with
  | nil => cases m <;> simp_all [Heap.zipEqShort]
  | cons a l ih =>
    cases m with
    | nil => simp at hl
    | cons b m =>
      rw [Heap.zipEqShort]
      by_cases hab : a = b
      · simp [hab, ih (by simpa using hl)]
      · simp [hab]

theorem zip_all_iff [DecidableEq α] {l m : List (List α)} (hl : l.length = m.length) :
    ((l.zip m).all fun p => Heap.zipEq p.1 p.2) = true ↔ l = m := by
  induction l generalizing m with
  | nil => cases m <;> simp_all
  | cons a l ih =>
    cases m with
    | nil => simp at hl
    | cons b m =>
      rw [List.zip_cons_cons, List.all_cons, Bool.and_eq_true, zipEq_iff, ih (by simpa using hl)]
      simp

theorem equals_run [DecidableEq α] (hr : Rep h L gs) (hm : Rep h M gm) (cg : Bool) : Heap.equals L M cg h =
    (.ok (if cg then decide (valuesOf h gs = valuesOf h gm) else decide ((valuesOf h gs).flatten = (valuesOf h gm).flatten)), h) := by
  unfold Heap.equals
  rw [bind_ok hr.len, bind_ok hm.len]
  by_cases hl : (valuesOf h gs).flatten.length = (valuesOf h gm).flatten.length
  · rw [if_neg (by simp [hl])]
    cases cg with
    | true =>
      simp only [if_true]
      rw [bind_ok hr.groupsLen, bind_ok hm.groupsLen]
      by_cases hg : (valuesOf h gs).length = (valuesOf h gm).length
      · rw [if_neg (by simp [hg]), bind_ok hr.toNested, bind_ok hm.toNested]
        simp only [pure_run]
        congr 2
        rw [Bool.eq_iff_iff, zip_all_iff hg]
        simp
      · rw [if_pos (by omega)]
        simp only [pure_run]
        congr 2
        symm
        rw [decide_eq_false_iff_not]
        exact fun hh => hg (by rw [hh])
    | false =>
      simp only [Bool.false_eq_true, if_false]
      rw [bind_ok hr.toList, bind_ok hm.toList]
      simp only [pure_run]
      congr 2
      rw [Bool.eq_iff_iff, zipEqShort_iff hl]
      simp
  · rw [if_pos (by omega)]
    simp only [pure_run]
    congr 2
    symm
    cases cg with
    | true =>
      simp only [if_true, decide_eq_false_iff_not]
      exact fun hh => hl (by rw [hh])
    | false =>
      simp only [Bool.false_eq_true, if_false, decide_eq_false_iff_not]
      exact fun hh => hl (by rw [hh])

/-! ## Views -/

/-- A node of a tidy heap that says it beginsFrom a group does. -/
theorem Tidy.head (ht : Tidy h) {g : Nat} (hp : h.parent g = some L) (hh : h.isHead g = true) :
    ∃ (gs : List Grp) (k : Nat) (t : List Nat), Rep h L gs ∧ gs[k]? = some (g, t) := by
  obtain ⟨_, gs, hr, hm⟩ := ht g L hp
  obtain ⟨g', hg', hx⟩ := mem_nodesOf.mp hm
  rcases hx with rfl | hx
  · obtain ⟨k, hk⟩ := List.getElem?_of_mem hg'
    exact ⟨gs, k, g'.2, hr, hk⟩
  · rw [hr.heads.tl g' hg' g hx] at hh
    cases hh

theorem viewCheck_error {g : Nat} (hc : h.isHead g = false ∨ h.parent g = none) : Heap.viewCheck g h = .error .groupView := if_pos hc

theorem view_error {g : Nat} (hc : h.isHead g = false ∨ h.parent g = none) (i : Int) (v : α) :
    Heap.viewToList g h = (.error .groupView, h) ∧ Heap.viewLen g h = (.error .groupView, h) ∧
    Heap.viewGet g i h = (.error .groupView, h) ∧ Heap.viewSet g i v h = (.error .groupView, h) ∧
    Heap.viewDel g i h = (.error .groupView, h) := by
  have hi : Heap.viewIds g h = .error .groupView := by unfold Heap.viewIds; rw [viewCheck_error hc]; rfl
  have hn : Heap.viewNodeAt g i h = .error .groupView := by unfold Heap.viewNodeAt; rw [viewCheck_error hc]; rfl
  refine ⟨?_, ?_, ?_, ?_, ?_⟩
  · unfold Heap.viewToList; rw [readE_run, hi]; rfl
  · unfold Heap.viewLen; rw [readE_run, hi]; rfl
  · unfold Heap.viewGet; rw [readE_run, hn]; rfl
  · unfold Heap.viewSet; rw [bind_run, readE_run, hn]
  · unfold Heap.viewDel; rw [bind_run, readE_run, hn]

theorem view_read (hr : Rep h L gs) {g : Grp} (hg : g ∈ gs) :
    Heap.viewToList g.1 h = (.ok ((g.1 :: g.2).map h.value), h) ∧ Heap.viewLen g.1 h = (.ok ((g.1 :: g.2).map h.value).length, h) := by
  constructor
  · unfold Heap.viewToList; rw [readE_run, hr.viewIds hg]; rfl
  · unfold Heap.viewLen; rw [readE_run, hr.viewIds hg]; simp [bind, Except.bind, pure, Except.pure]

theorem view_get (hr : Rep h L gs) {g : Grp} (hg : g ∈ gs) (i : Int) :
    Heap.viewGet g.1 i h = (match (if 0 ≤ i then ((g.1 :: g.2).map h.value)[i.toNat]? else none) with
      | some v => .ok v
      | none => .error .indexError, h) := by
  unfold Heap.viewGet
  rw [readE_run]
  congr 1
  by_cases hi : 0 ≤ i
  · obtain ⟨i, rfl⟩ := Int.eq_ofNat_of_zero_le hi
    rw [viewNodeAt_spec hr hg, if_pos hi, Int.toNat_natCast, List.getElem?_map]
    cases hx : (g.1 :: g.2)[i]? with
    | none => rfl
    | some x => rfl
  · rw [if_neg hi]
    unfold Heap.viewNodeAt
    rw [viewCheck_ok hr hg]
    simp only [bind, Except.bind]
    rw [if_pos (by omega)]

/-! ## Extending a list with itself -/

theorem extendSelf_diverges (k : Nat) {zs ys : List Nat} (hr : Rep h L gs) (hys : nodesOf gs = zs ++ ys) (hne : ys ≠ []) :
    ∃ h', Heap.extendFrom L k ys.head? h = (.error .diverges, h') := by
  induction k generalizing h gs zs ys with
  | zero =>
    cases ys with
    | nil => exact absurd rfl hne
    | cons n ys => exact ⟨h, rfl⟩
  | succ k ih =>
    cases ys with
    | nil => exact absurd rfl hne
    | cons n ys =>
      obtain ⟨h1, gs1, hrun, hst, _, hnodes, _⟩ := append_step hr (h.value n) false
      have hys1 : nodesOf gs1 = (zs ++ [n]) ++ (ys ++ [h.nodes]) := by rw [hnodes, hys]; simp
      obtain ⟨h2, hrun2⟩ := ih hst.rep hys1 (by simp)
      have hnx : h1.next n = (ys ++ [h.nodes]).head? := by
        have := hst.rep.links.seg
        rw [hys1, List.append_assoc, List.singleton_append] at this
        exact (seg_mid this).2
      refine ⟨h2, ?_⟩
      rw [List.head?_cons, Heap.extendFrom]
      simp only [bind_run (HM.read _), read_run]
      rw [bind_ok hrun]
      simp only [bind_run (HM.read _), read_run]
      rw [hnx, hrun2]

/-! ## Where groups begin -/

namespace Nested

/-- The positions where groups begin, when the first one beginsFrom at `n`. -/
def beginsFrom : Nat → List (List α) → List Nat
  | _, [] => []
  | n, g :: gs => n :: beginsFrom (n + g.length) gs

theorem beginsFrom_ge {n : Nat} {gs : List (List α)} {j : Nat} (hj : j ∈ beginsFrom n gs) : n ≤ j := by
  induction gs generalizing n with
  | nil => simp [beginsFrom] at hj
  | cons g gs ih =>
    rw [beginsFrom, List.mem_cons] at hj
    rcases hj with rfl | hj
    · exact Nat.le_refl _
    · have := ih hj; omega

theorem mem_beginsFrom_iff {n : Nat} {gs : List (List α)} {j : Nat} : j ∈ beginsFrom n gs ↔
    ∃ i : Nat, i < gs.length ∧ j = n + ((gs.take i).flatten).length := by
  induction gs generalizing n with
  | nil => simp [beginsFrom]
  | cons g gs ih =>
    rw [beginsFrom, List.mem_cons, ih]
    constructor
    · rintro (rfl | ⟨i, h1, h2⟩)
      · exact ⟨0, by simp, by simp⟩
      · exact ⟨i + 1, by simp; omega, by simp [h2]; omega⟩
    · rintro ⟨i, h1, h2⟩
      cases i with
      | zero => left; simpa using h2
      | succ i => right; exact ⟨i, by simpa using h1, by rw [h2, List.take_succ_cons, List.flatten_cons, List.length_append]; omega⟩

theorem splitAt_flatten (gs : List (List α)) (k : Nat) : (splitAt gs k).flatten = gs.flatten := by
  induction gs generalizing k with
  | nil => rfl
  | cons g gs ih =>
    rw [splitAt]
    split
    · rfl
    · split
      · simp only [List.flatten_cons, ← List.append_assoc, List.take_append_drop]
      · simp [ih]

theorem splitAt_beginsFrom {n : Nat} {gs : List (List α)} {k j : Nat} (hk : k < size gs) :
    j ∈ beginsFrom n (splitAt gs k) ↔ j = n + k ∨ j ∈ beginsFrom n gs := by
  induction gs generalizing n k with
  | nil => simp [size] at hk
  | cons g gs ih =>
    rw [size_cons] at hk
    rw [splitAt]
    split
    · rename_i h0
      subst h0
      simp [beginsFrom]
    · rename_i h0
      split
      · rename_i h1
        simp only [beginsFrom, List.mem_cons, List.length_take, List.length_drop]
        rw [show n + min k g.length = n + k from by omega, show n + k + (g.length - k) = n + g.length from by omega]
        grind
      · rename_i h1
        simp only [beginsFrom, List.mem_cons]
        rw [ih (by omega), show n + g.length + (k - g.length) = n + k from by omega]
        grind

theorem mem_begins {gs : List (List α)} {j : Nat} : j ∈ begins gs ↔ j ∈ beginsFrom 0 gs := by
  rw [mem_beginsFrom_iff, begins, List.mem_map]
  constructor
  · rintro ⟨i, h1, h2⟩; exact ⟨i, by simpa using h1, by omega⟩
  · rintro ⟨i, h1, h2⟩; exact ⟨i, by simpa using h1, by omega⟩

theorem splitAt_begins {gs : List (List α)} {k j : Nat} (hk : k < size gs) : j ∈ begins (splitAt gs k) ↔ j = k ∨ j ∈ begins gs := by
  rw [mem_begins, mem_begins, splitAt_beginsFrom hk, Nat.zero_add]

theorem splitAt_ne {gs : List (List α)} {k : Nat} (hne : ∀ g ∈ gs, g ≠ []) : ∀ g ∈ splitAt gs k, g ≠ [] := by
  induction gs generalizing k with
  | nil => simp [splitAt]
  | cons g gs ih =>
    rw [splitAt]
    split
    · exact hne
    · rename_i h0
      split
      · rename_i h1
        intro x hx
        simp only [List.mem_cons] at hx
        rcases hx with rfl | rfl | hx
        · intro hh; have := congrArg List.length hh; rw [List.length_take, List.length_nil] at this; omega
        · intro hh; have := congrArg List.length hh; rw [List.length_drop, List.length_nil] at this; omega
        · exact hne x (by simp [hx])
      · intro x hx
        simp only [List.mem_cons] at hx
        rcases hx with rfl | hx
        · exact hne x (by simp)
        · exact ih (fun g hg => hne g (by simp [hg])) x hx

theorem removeAt_flatten (gs : List (List α)) (k : Nat) : (removeAt gs k).flatten = gs.flatten.eraseIdx k := by
  induction gs generalizing k with
  | nil => simp [removeAt]
  | cons g gs ih =>
    rw [removeAt]
    split
    · rename_i h1
      rw [List.flatten_cons, List.eraseIdx_append_of_lt_length h1]
      split
      · rename_i h2
        obtain ⟨a, rfl⟩ := List.length_eq_one_iff.mp h2
        have : k = 0 := by simp at h1; omega
        subst this
        simp
      · simp
    · rename_i h1
      rw [List.flatten_cons, List.flatten_cons, List.eraseIdx_append_of_length_le (by omega), ih]

theorem extend_flatten (gs : List (List α)) (l : List α) : (extend gs l).flatten = gs.flatten ++ l := by
  rcases List.eq_nil_or_concat gs with rfl | ⟨A, g, rfl⟩
  · rw [extend_nil_left]; unfold single; split <;> simp_all
  · rw [List.concat_eq_append, extend_concat]; simp

end Nested

/-! ## Histories one after the other -/

section
variable [DecidableEq α] (le : α → α → Bool)

theorem meanings_append (ops ops' : List (WorldOp α)) (ws : List (List (List α))) :
    (meanings le (ops ++ ops') ws).2 = (meanings le ops' (meanings le ops ws).2).2 := by
  induction ops generalizing ws with
  | nil => rfl
  | cons op ops ih =>
    rw [List.cons_append, meanings, meanings]
    cases op.meaning le ws with
    | error e => exact ih ws
    | ok r => exact ih r.2

theorem meaning_length_le (op : WorldOp α) (ws : List (List (List α))) :
    ws.length ≤ (match op.meaning le ws with | .ok (_, ws') => ws' | .error _ => ws).length := by
  cases op with
  | new => simp [WorldOp.meaning]
  | copy M => simp [WorldOp.meaning]
  | extendList L M => simp [WorldOp.meaning]
  | on L op =>
    simp only [WorldOp.meaning]
    cases op.meaning le (ws[L]?.getD []) with
    | error e => exact Nat.le_refl _
    | ok r => exact Nat.le_of_eq (List.length_set ..).symm

theorem meanings_length_le (ops : List (WorldOp α)) (ws : List (List (List α))) : ws.length ≤ (meanings le ops ws).2.length := by
  induction ops generalizing ws with
  | nil => exact Nat.le_refl _
  | cons op ops ih =>
    have h1 := meaning_length_le le op ws
    rw [meanings]
    cases hm : op.meaning le ws with
    | error e => exact ih ws
    | ok r => rw [hm] at h1; exact Nat.le_trans h1 (ih r.2)

variable {le}

theorem sensibleRun_append {depth : Nat} {ops ops' : List (WorldOp α)} {ws : List (List (List α))} :
    SensibleRun le depth (ops ++ ops') ws ↔ SensibleRun le depth ops ws ∧ SensibleRun le depth ops' (meanings le ops ws).2 := by
  induction ops generalizing ws with
  | nil => exact ⟨fun hh => ⟨trivial, hh⟩, fun hh => hh.2⟩
  | cons op ops ih =>
    rw [List.cons_append, SensibleRun, SensibleRun, ih, and_assoc]
    rw [meanings]
    cases op.meaning le ws <;> rfl

end

end Bibleref
