import Verif.Lemmas.HeapSort
import Verif.SpecLists

set_option linter.unusedSimpArgs false

/-!
# Linked lists in the heap: positions, and the operations that use them
-/

namespace Bibleref
open HM

variable {α : Type} {h h' h'' : Heap α} {L : Nat} {gs gs' : List Grp}

/-! ## Nested lists -/

namespace Nested

theorem size_append (A B : List (List α)) : size (A ++ B) = size A + size B := by simp [size]
theorem size_cons (g : List α) (B : List (List α)) : size (g :: B) = g.length + size B := by simp [size]
theorem size_nil : size ([] : List (List α)) = 0 := rfl

theorem insertAt_append (v : α) {A B : List (List α)} {i : Nat} (hi : size A ≤ i) (hB : B ≠ []) :
    insertAt v (A ++ B) i = A ++ insertAt v B (i - size A) := by
  induction A generalizing i with
  | nil => simp [size]
  | cons g A ih =>
    rw [size_cons] at hi ⊢
    have hne : A ++ B ≠ [] := by simp [hB]
    rw [List.cons_append]
    match hAB : A ++ B with
    | [] => exact absurd hAB hne
    | b :: C =>
      rw [insertAt, if_neg (by omega), ← hAB, ih (by omega), List.cons_append, Nat.sub_add_eq]
      simp

theorem insertAt_cons (v : α) {g : List α} {B : List (List α)} {i : Nat} (hi : i < g.length) :
    insertAt v (g :: B) i = (g.take i ++ v :: g.drop i) :: B := by
  cases B with
  | nil => rfl
  | cons b B => rw [insertAt, if_pos hi]; simp

theorem removeAt_append {A B : List (List α)} {i : Nat} (hi : size A ≤ i) : removeAt (A ++ B) i = A ++ removeAt B (i - size A) := by
  induction A generalizing i with
  | nil => simp [size]
  | cons g A ih =>
    rw [size_cons] at hi ⊢
    rw [List.cons_append, removeAt, if_neg (by omega), ih (by omega), List.cons_append, Nat.sub_add_eq]

theorem setAt_append (v : α) {A B : List (List α)} {i : Nat} (hi : size A ≤ i) : setAt v (A ++ B) i = A ++ setAt v B (i - size A) := by
  induction A generalizing i with
  | nil => simp [size]
  | cons g A ih =>
    rw [size_cons] at hi ⊢
    rw [List.cons_append, setAt, if_neg (by omega), ih (by omega), List.cons_append, Nat.sub_add_eq]

theorem splitAt_append {A B : List (List α)} {i : Nat} (hi : size A < i) : splitAt (A ++ B) i = A ++ splitAt B (i - size A) := by
  induction A generalizing i with
  | nil => simp [size]
  | cons g A ih =>
    rw [size_cons] at hi ⊢
    rw [List.cons_append, splitAt, if_neg (by omega), if_neg (by omega), ih (by omega), List.cons_append, Nat.sub_add_eq]

theorem extend_nil {gs : List (List α)} : extend gs [] = gs := by
  induction gs with
  | nil => rfl
  | cons g gs ih =>
    cases gs with
    | nil => simp [extend]
    | cons g' gs => rw [extend, ih]; simp

theorem extend_concat (A : List (List α)) (g l : List α) : extend (A ++ [g]) l = A ++ [g ++ l] := by
  induction A with
  | nil => rfl
  | cons a A ih =>
    rw [List.cons_append]
    match hA : A ++ [g] with
    | [] => simp at hA
    | b :: B => rw [extend, ← hA, ih]; rfl; simp

theorem extend_nil_left (l : List α) : extend [] l = single l := by
  cases l <;> rfl

theorem insertAt_end (v : α) {gs : List (List α)} (_hne : ∀ g ∈ gs, g ≠ []) : insertAt v gs (size gs) = extend gs [v] := by
  induction gs with
  | nil => rfl
  | cons g gs ih =>
    cases gs with
    | nil => simp [insertAt, extend, size]
    | cons g' gs =>
      rw [insertAt, size_cons, if_neg (by omega), extend, Nat.add_sub_cancel_left, ih (fun g hg => _hne g (by simp [hg]))]
      · simp
      · simp

theorem extend_extend (gs : List (List α)) (l m : List α) (hl : gs ≠ [] ∨ l ≠ []) : extend (extend gs l) m = extend gs (l ++ m) := by
  rcases List.eq_nil_or_concat gs with rfl | ⟨A, g, rfl⟩
  · cases l with
    | nil => simp at hl
    | cons a l => rfl
  · rw [List.concat_eq_append, extend_concat, extend_concat, extend_concat, List.append_assoc]

theorem extend_addGroup (gs : List (List α)) (a : α) (l : List α) : extend (gs ++ [[a]]) l = addGroup gs (a :: l) := by
  rw [extend_concat]; rfl

end Nested

/-! ## Values -/

theorem valuesOf_append (h : Heap α) (A B : List Grp) : valuesOf h (A ++ B) = valuesOf h A ++ valuesOf h B := by simp [valuesOf]
theorem valuesOf_cons (h : Heap α) (g : Grp) (B : List Grp) : valuesOf h (g :: B) = (g.1 :: g.2).map h.value :: valuesOf h B := rfl
theorem valuesOf_nil (h : Heap α) : valuesOf h [] = [] := rfl

theorem size_valuesOf (h : Heap α) (gs : List Grp) : Nested.size (valuesOf h gs) = (nodesOf gs).length := by
  rw [Nested.size, ← map_nodesOf, List.length_map]

theorem valuesOf_congr (hx : ∀ x ∈ nodesOf gs, h'.value x = h.value x) : valuesOf h' gs = valuesOf h gs := by
  unfold valuesOf
  apply List.map_congr_left
  intro g hg
  apply List.map_congr_left
  intro x hx'
  exact hx x (mem_nodesOf.mpr ⟨g, hg, by simpa using hx'⟩)

theorem map_upd_same {v : α} {n : Nat} {f : Nat → α} {l : List Nat} (hn : n ∉ l) : l.map (upd f n v) = l.map f :=
  List.map_congr_left fun _ hx => upd_ne _ _ (ne_of_mem_of_not hx hn)

theorem map_upd_set {v : α} {n : Nat} {f : Nat → α} {l : List Nat} {i : Nat} (hN : l.Nodup) (hi : l[i]? = some n) :
    l.map (upd f n v) = (l.map f).set i v := by
  induction l generalizing i with
  | nil => simp at hi
  | cons a l ih =>
    rw [List.nodup_cons] at hN
    cases i with
    | zero =>
      simp only [List.getElem?_cons_zero, Option.some.injEq] at hi
      subst hi
      rw [List.map_cons, map_upd_same hN.1, upd_same]; rfl
    | succ i =>
      rw [List.getElem?_cons_succ] at hi
      have hm := List.mem_of_getElem? hi
      rw [List.map_cons, ih hN.2 hi, upd_ne _ _ (fun hh => hN.1 (by rw [hh]; exact hm))]; rfl

/-! ## Positions -/

theorem walkNext_run {xs : List Nat} {p : Option Nat} {k : Nat} (hs : Seg h.prev h.next p xs none) (hk : k ≤ xs.length) :
    Heap.walkNext k xs.head? h = (.ok xs[k]?, h) := by
  induction k generalizing xs p with
  | zero => rw [Heap.walkNext, pure_run]; cases xs <;> rfl
  | succ k ih =>
    cases xs with
    | nil => simp at hk
    | cons a xs =>
      rw [List.head?_cons, Heap.walkNext, bind_ok (deref_some _ _)]
      simp only [bind_run (HM.read _), read_run, hs.2.1, Option.or_none]
      rw [ih hs.2.2 (by simpa using hk)]
      rfl

theorem walkPrev_run {xs : List Nat} {n : Option Nat} {k : Nat} (hs : Seg h.prev h.next none xs n) (hk : k < xs.length) :
    Heap.walkPrev k xs.getLast? h = (.ok xs[xs.length - 1 - k]?, h) := by
  induction k generalizing xs n with
  | zero => rw [Heap.walkPrev, pure_run, List.getLast?_eq_getElem?]; rfl
  | succ k ih =>
    rcases List.eq_nil_or_concat xs with rfl | ⟨ys, a, rfl⟩
    · simp at hk
    · rw [List.concat_eq_append] at hs hk ⊢
      obtain ⟨h1, h2⟩ := seg_getLast hs
      rw [List.getLast?_concat, Heap.walkPrev, bind_ok (deref_some _ _)]
      simp only [bind_run (HM.read _), read_run, h1, Option.or_none]
      rw [ih h2 (by simp at hk; omega)]
      congr 2
      rw [List.length_append, List.length_singleton, List.getElem?_append_left (by simp at hk; omega)]
      congr 1
      omega

variable (hr : Rep h L gs)
include hr

theorem Rep.conform_ok {i : Int} (hi : i < (nodesOf gs).length) :
    Heap.conformIndex L i h = (.ok (if i < 0 then i + (nodesOf gs).length else i), h) := by
  unfold Heap.conformIndex
  simp only [bind_run (HM.read _), read_run, hr.links.cnt]
  rw [if_neg (by split <;> omega)]
  rfl

theorem Rep.conform_error {i : Int} (hi : ((nodesOf gs).length : Int) ≤ i) : Heap.conformIndex L i h = (.error .indexError, h) := by
  unfold Heap.conformIndex
  simp only [bind_run (HM.read _), read_run, hr.links.cnt]
  rw [if_pos (by split <;> omega)]
  rfl

theorem Rep.nodeAt_error {i : Int} (hi : ((nodesOf gs).length : Int) ≤ i) : Heap.nodeAt L i h = (.error .indexError, h) := by
  unfold Heap.nodeAt
  rw [bind_error (hr.conform_error hi)]

theorem Rep.nodeAt_nat {k : Nat} (hk : k < (nodesOf gs).length) : Heap.nodeAt L k h = (.ok (nodesOf gs)[k]?, h) := by
  unfold Heap.nodeAt
  rw [bind_ok (hr.conform_ok (by omega)), if_neg (by omega)]
  simp only [bind_run (HM.read _), read_run, hr.links.cnt]
  split
  · simp only [bind_run (HM.read _), read_run, hr.links.fst, Int.toNat_natCast]
    exact walkNext_run hr.links.seg (by omega)
  · simp only [bind_run (HM.read _), read_run, hr.links.lst]
    rw [walkPrev_run hr.links.seg (by omega)]
    congr 3
    omega

omit hr in
theorem pos_spec {n : Nat} {i : Int} {k : Nat} (hk : Nested.pos n i = some k) :
    k < n ∧ i < n ∧ (if i < 0 then i + n else i) = k := by
  unfold Nested.pos at hk
  split at hk
  · cases hk; rw [if_neg (by omega)]; omega
  · split at hk
    · cases hk; rw [if_pos (by omega)]; omega
    · cases hk

omit hr in
theorem pos_nat {n k : Nat} (hk : k < n) : Nested.pos n k = some k := by
  unfold Nested.pos
  rw [if_pos (by omega), Int.toNat_natCast]

omit hr in
theorem pos_none {n : Nat} {i : Int} (hk : Nested.pos n i = none) (hi : -(n : Int) ≤ i) : (n : Int) ≤ i := by
  unfold Nested.pos at hk
  split at hk
  · cases hk
  · split at hk
    · cases hk
    · omega

theorem Rep.nodeAt_ok {i : Int} {k : Nat} (hk : Nested.pos (nodesOf gs).length i = some k) :
    Heap.nodeAt L i h = (.ok (nodesOf gs)[k]?, h) := by
  obtain ⟨h1, h2, h3⟩ := pos_spec hk
  have hn := hr.nodeAt_nat h1
  unfold Heap.nodeAt at hn ⊢
  rw [bind_ok (hr.conform_ok (by omega)), if_neg (by omega)] at hn
  rw [bind_ok (hr.conform_ok h2), h3]
  exact hn

omit hr in
/-- Where a position lies. -/
theorem locate {k : Nat} (hk : k < (nodesOf gs).length) : ∃ A a t B i, gs = A ++ (a, t) :: B ∧ i < (a :: t).length ∧
    k = (nodesOf A).length + i ∧ (nodesOf gs)[k]? = (a :: t)[i]? := by
  induction gs generalizing k with
  | nil => simp at hk
  | cons g gs ih =>
    obtain ⟨a, t⟩ := g
    by_cases hh : k < (a :: t).length
    · exact ⟨[], a, t, gs, k, rfl, hh, by simp, by rw [nodesOf_cons, List.getElem?_append_left hh]⟩
    · rw [nodesOf_cons, List.length_append] at hk
      have hh' : (a :: t).length ≤ k := by omega
      obtain ⟨A, b, s, B, i, rfl, h1, h2, h3⟩ := ih (k := k - (a :: t).length) (by simp only at hk; omega)
      refine ⟨(a, t) :: A, b, s, B, i, rfl, h1, ?_, ?_⟩
      · rw [nodesOf_cons, List.length_append]; simp only; omega
      · rw [nodesOf_cons, List.getElem?_append_right hh', ← h3]

omit hr in
/-- A group cut at one of its nodes. -/
theorem cut_group {a n : Nat} {t : List Nat} {i : Nat} (hi : (a :: t)[i]? = some n) :
    (i = 0 ∧ n = a) ∨ ∃ t1 t2, t = t1 ++ n :: t2 ∧ i = t1.length + 1 := by
  cases i with
  | zero => simp at hi; exact .inl ⟨rfl, hi.symm⟩
  | succ i =>
    rw [List.getElem?_cons_succ] at hi
    obtain ⟨hlt, hi⟩ := List.getElem?_eq_some_iff.mp hi
    refine .inr ⟨t.take i, t.drop (i + 1), ?_, ?_⟩
    · conv => lhs; rw [← List.take_append_drop i t]
      rw [List.drop_eq_getElem_cons hlt, hi]
    · rw [List.length_take]; omega

/-! ## Inserting -/

omit hr in
theorem valuesOf_new {v : α} (hr : Rep h L gs) (hv : h'.value = upd h.value h.nodes v) : valuesOf h' gs = valuesOf h gs :=
  valuesOf_congr fun x hx => by rw [hv]; exact upd_ne _ _ (ne_of_mem_of_not hx hr.new_not_mem)

omit hr in
theorem insertBefore_at {A B : List Grp} {a n : Nat} {t : List Nat} {i : Nat} (hr : Rep h L (A ++ (a, t) :: B)) (v : α)
    (hi : (a :: t)[i]? = some n) : ∃ h' gs', Heap.insertBefore L (some n) v false h = (.ok (), h') ∧
      Step L h h' (A ++ (a, t) :: B) gs' ∧ h'.nodes = h.nodes + 1 ∧
      valuesOf h' gs' = Nested.insertAt v (valuesOf h (A ++ (a, t) :: B)) ((nodesOf A).length + i) := by
  have hilt : i < (a :: t).length := (List.getElem?_eq_some_iff.mp hi).1
  have hspec : Nested.insertAt v (valuesOf h (A ++ (a, t) :: B)) ((nodesOf A).length + i) =
      valuesOf h A ++ (((a :: t).map h.value).take i ++ v :: ((a :: t).map h.value).drop i) :: valuesOf h B := by
    rw [valuesOf_append, Nested.insertAt_append v (by rw [size_valuesOf]; omega) (by simp [valuesOf]), size_valuesOf, valuesOf_cons,
      Nat.add_sub_cancel_left, Nested.insertAt_cons v (by simpa using hilt)]
  have hnew := hr.new_not_mem
  simp only [nodesOf_append, nodesOf_cons, List.mem_append, List.mem_cons, not_or] at hnew
  obtain ⟨n1, ⟨n2, n3⟩, n4⟩ := hnew
  have vA : ∀ h' : Heap α, h'.value = upd h.value h.nodes v → valuesOf h' A = valuesOf h A := fun h' hv =>
    valuesOf_congr fun x hx => by rw [hv]; exact upd_ne _ _ (ne_of_mem_of_not hx n1)
  have vB : ∀ h' : Heap α, h'.value = upd h.value h.nodes v → valuesOf h' B = valuesOf h B := fun h' hv =>
    valuesOf_congr fun x hx => by rw [hv]; exact upd_ne _ _ (ne_of_mem_of_not hx n4)
  rcases cut_group hi with ⟨rfl, rfl⟩ | ⟨t1, t2, rfl, rfl⟩
  · obtain ⟨h', hrun, hst, hv, hn⟩ := insertBefore_head v hr
    refine ⟨h', _, hrun, hst, hn, ?_⟩
    rw [hspec, valuesOf_append, valuesOf_cons, vA h' hv, vB h' hv, hv]
    simp only [List.map_cons, upd_same, List.take_zero, List.drop_zero, List.nil_append]
    rw [upd_ne _ _ (Ne.symm n2), map_upd_same n3]
  · obtain ⟨h', hrun, hst, hv, hn⟩ := insertBefore_tail v hr
    refine ⟨h', _, hrun, hst, hn, ?_⟩
    simp only [List.mem_append, List.mem_cons, not_or] at n3
    rw [hspec, valuesOf_append, valuesOf_cons, vA h' hv, vB h' hv, hv]
    simp only [List.map_cons, List.map_append, upd_same, upd_ne _ _ (Ne.symm n2), upd_ne _ _ (Ne.symm n3.2.1), map_upd_same n3.1,
      map_upd_same n3.2.2]
    have e1 : (h.value a :: (t1.map h.value ++ h.value n :: t2.map h.value)) =
      (h.value a :: t1.map h.value) ++ (h.value n :: t2.map h.value) := rfl
    have e2 : t1.length + 1 = (h.value a :: t1.map h.value).length := by simp
    rw [e1, e2, List.take_left, List.drop_left]
    simp

theorem append_step (v : α) (ng : Bool) : ∃ h' gs', Heap.append L v ng h = (.ok (), h') ∧ Step L h h' gs gs' ∧
    h'.nodes = h.nodes + 1 ∧ nodesOf gs' = nodesOf gs ++ [h.nodes] ∧
    valuesOf h' gs' = if ng then valuesOf h gs ++ [[v]] else Nested.extend (valuesOf h gs) [v] := by
  unfold Heap.append Heap.len
  simp only [bind_run (HM.read _), read_run, hr.links.cnt]
  rcases List.eq_nil_or_concat gs with rfl | ⟨A, ⟨g, t⟩, rfl⟩
  · rw [if_pos (by simp)]
    obtain ⟨h', hrun, hst, hv, hn⟩ := insertFirst_step v hr
    refine ⟨h', _, hrun, hst, hn, by simp, ?_⟩
    cases ng <;> simp [valuesOf, hv, upd_same, Nested.extend]
  · rw [List.concat_eq_append] at hr ⊢
    rw [if_neg (by simp; omega)]
    simp only [bind_run (HM.read _), read_run]
    obtain ⟨h', hrun, hst, hv, hn⟩ := insertAfter_last v ng hr
    refine ⟨h', _, hrun, hst, hn, by cases ng <;> simp, ?_⟩
    have hvn := valuesOf_new hr hv
    have hnew := hr.new_not_mem
    cases ng with
    | true =>
      simp only [if_true]
      rw [show A ++ [(g, t), (h.nodes, [])] = (A ++ [(g, t)]) ++ [(h.nodes, [])] from by simp, valuesOf_append, hvn]
      simp [valuesOf, hv, upd_same]
    | false =>
      simp only [Bool.false_eq_true, if_false]
      rw [valuesOf_append] at hvn
      rw [valuesOf_append, valuesOf_append, valuesOf_cons, valuesOf_cons, valuesOf_nil, valuesOf_nil, Nested.extend_concat]
      rw [valuesOf_append, valuesOf_cons, valuesOf_cons, valuesOf_nil, valuesOf_nil] at hvn
      obtain ⟨e1, e2⟩ := List.append_inj hvn (by simp [valuesOf])
      rw [e1]
      simp only [List.cons.injEq, and_true] at e2
      simp only [List.map_cons, List.map_append, List.map_nil] at e2 ⊢
      rw [← List.cons_append, e2, hv, upd_same]

theorem prepend_step (v : α) (ng : Bool) : ∃ h' gs', Heap.prepend L v ng h = (.ok (), h') ∧ Step L h h' gs gs' ∧
    h'.nodes = h.nodes + 1 ∧
    valuesOf h' gs' = if ng then [v] :: valuesOf h gs else Nested.insertAt v (valuesOf h gs) 0 := by
  unfold Heap.prepend Heap.len
  simp only [bind_run (HM.read _), read_run, hr.links.cnt]
  cases gs with
  | nil =>
    rw [if_pos (by simp)]
    obtain ⟨h', hrun, hst, hv, hn⟩ := insertFirst_step v hr
    refine ⟨h', _, hrun, hst, hn, ?_⟩
    cases ng <;> simp [valuesOf, hv, upd_same, Nested.insertAt]
  | cons g B =>
    obtain ⟨g, t⟩ := g
    rw [if_neg (by simp; omega)]
    simp only [bind_run (HM.read _), read_run, hr.first_eq, headsOf_cons, List.head?_cons]
    cases ng with
    | true =>
      obtain ⟨h', hrun, hst, hv, hn⟩ := insertBefore_first_new v hr
      refine ⟨h', _, hrun, hst, hn, ?_⟩
      rw [valuesOf_cons, valuesOf_new hr hv, hv]
      simp [upd_same]
    | false =>
      obtain ⟨h', gs', hrun, hst, hn, hval⟩ := insertBefore_at (A := []) (i := 0) hr v rfl
      exact ⟨h', gs', hrun, hst, hn, hval⟩

theorem insert_step (v : α) {i : Int} {k : Nat} (hk : i = (nodesOf gs).length ∧ k = (nodesOf gs).length ∨
    Nested.pos (nodesOf gs).length i = some k) :
    ∃ h' gs', Heap.insert L i v h = (.ok (), h') ∧ Step L h h' gs gs' ∧ valuesOf h' gs' = Nested.insertAt v (valuesOf h gs) k := by
  unfold Heap.insert Heap.len
  simp only [bind_run (HM.read _), read_run, hr.links.cnt]
  by_cases h0 : i = 0
  · rw [if_pos h0]
    have hk0 : k = 0 := by
      rcases hk with ⟨h1, h2⟩ | hk
      · omega
      · obtain ⟨_, _, h3⟩ := pos_spec hk
        rw [if_neg (by omega)] at h3; omega
    obtain ⟨h', gs', hrun, hst, _, hval⟩ := prepend_step hr v false
    exact ⟨h', gs', hrun, hst, by rw [hk0]; exact hval⟩
  · rw [if_neg h0]
    by_cases hn : i = (nodesOf gs).length
    · rw [if_pos hn]
      have hkn : k = (nodesOf gs).length := by
        rcases hk with ⟨h1, h2⟩ | hk
        · exact h2
        · obtain ⟨h1, h2, h3⟩ := pos_spec hk
          omega
      obtain ⟨h', gs', hrun, hst, _, _, hval⟩ := append_step hr v false
      refine ⟨h', gs', hrun, hst, ?_⟩
      rw [hval, hkn, ← size_valuesOf h gs, Nested.insertAt_end v (valuesOf_ne h gs)]
      simp
    · rw [if_neg hn]
      have hk' := hk.resolve_left (fun hh => hn hh.1)
      obtain ⟨h1, _, _⟩ := pos_spec hk'
      rw [bind_ok (hr.nodeAt_ok hk')]
      obtain ⟨A, a, t, B, j, rfl, hj, rfl, hat⟩ := locate h1
      rw [hat, List.getElem?_eq_getElem hj]
      obtain ⟨h', gs', hrun, hst, _, hval⟩ := insertBefore_at hr v (List.getElem?_eq_getElem hj)
      exact ⟨h', gs', hrun, hst, hval⟩

theorem insert_error (v : α) {i : Int} (hi : ((nodesOf gs).length : Int) < i) : Heap.insert L i v h = (.error .indexError, h) := by
  unfold Heap.insert Heap.len
  simp only [bind_run (HM.read _), read_run, hr.links.cnt]
  rw [if_neg (by omega), if_neg (by omega), bind_error (hr.nodeAt_error (by omega))]

omit hr in
theorem extend_step (l : List α) (hr : Rep h L gs) : ∃ h' gs', Heap.extend L l h = (.ok (), h') ∧ Step L h h' gs gs' ∧
    valuesOf h' gs' = Nested.extend (valuesOf h gs) l := by
  induction l generalizing h gs with
  | nil => exact ⟨h, gs, rfl, Step.refl hr, Nested.extend_nil.symm⟩
  | cons v l ih =>
    obtain ⟨h1, gs1, hrun, hst, _, _, hval⟩ := append_step hr v false
    obtain ⟨h2, gs2, hrun2, hst2, hval2⟩ := ih hst.rep
    refine ⟨h2, gs2, by rw [Heap.extend, bind_ok hrun, hrun2], hst.trans hst2, ?_⟩
    rw [hval2, hval]
    simp only [Bool.false_eq_true, if_false]
    rw [Nested.extend_extend _ _ _ (.inr (by simp))]
    rfl

omit hr in
theorem appendGroup_step (l : List α) (hr : Rep h L gs) : ∃ h' gs', Heap.appendGroup L l h = (.ok (), h') ∧ Step L h h' gs gs' ∧
    valuesOf h' gs' = Nested.addGroup (valuesOf h gs) l := by
  cases l with
  | nil => exact ⟨h, gs, rfl, Step.refl hr, rfl⟩
  | cons v l =>
    obtain ⟨h1, gs1, hrun, hst, _, _, hval⟩ := append_step hr v true
    obtain ⟨h2, gs2, hrun2, hst2, hval2⟩ := extend_step l hst.rep
    refine ⟨h2, gs2, by rw [Heap.appendGroup, bind_ok hrun, hrun2], hst.trans hst2, ?_⟩
    rw [hval2, hval]
    simp only [if_true]
    rw [Nested.extend_addGroup]

/-! ## Beginning a group -/

theorem insertGroupAt_error {i : Int} (hi : ((nodesOf gs).length : Int) ≤ i) :
    Heap.insertGroupAt L i h = (.error .indexError, h) := by
  unfold Heap.insertGroupAt
  rw [bind_error (hr.conform_error hi)]

omit hr in
theorem insertGroupAt_run (hr : Rep h L gs) {i : Int} {k n : Nat} (hk : Nested.pos (nodesOf gs).length i = some k)
    (hn : (nodesOf gs)[k]? = some n) : Heap.insertGroupAt L i h = Heap.insertNewGroupAtNode L n h := by
  obtain ⟨h1, h2, h3⟩ := pos_spec hk
  unfold Heap.insertGroupAt
  rw [bind_ok (hr.conform_ok h2), h3, bind_ok (hr.nodeAt_nat h1), hn, bind_ok (deref_some _ _)]

theorem insertGroupAt_step {i : Int} {k : Nat} (hk : Nested.pos (nodesOf gs).length i = some k)
    (hb : ¬ Nested.Boundary (valuesOf h gs) k) :
    ∃ h' gs', Heap.insertGroupAt L i h = (.ok (), h') ∧ Step L h h' gs gs' ∧ valuesOf h' gs' = Nested.splitAt (valuesOf h gs) k := by
  obtain ⟨h1, h2, h3⟩ := pos_spec hk
  obtain ⟨A, a, t, B, j, hgs, hj, hkj, hat⟩ := locate h1
  rw [List.getElem?_eq_getElem hj] at hat
  rw [insertGroupAt_run hr hk hat]
  subst hgs
  rcases cut_group (List.getElem?_eq_getElem hj) with ⟨hj0, hja⟩ | ⟨t1, t2, ht, hj1⟩
  · subst hj0
    cases A with
    | nil =>
      refine ⟨h, _, ?_, Step.refl hr, ?_⟩
      · unfold Heap.insertNewGroupAtNode
        simp only [bind_run (HM.read _), read_run, hr.first_eq, List.nil_append, headsOf_cons, List.head?_cons]
        rw [if_pos (by rw [hja])]
        rfl
      · rw [hkj]; rfl
    | cons g A =>
      exfalso
      apply hb
      refine ⟨by rw [hkj, nodesOf_cons]; simp, ?_⟩
      unfold Nested.begins
      rw [List.mem_map]
      refine ⟨(g :: A).length, by simp [valuesOf], ?_⟩
      rw [valuesOf_append, List.take_left' (by simp [valuesOf]), ← map_nodesOf, List.length_map, hkj]
      rfl
  · generalize (a :: t)[j] = n at *
    subst ht hj1
    obtain ⟨hrun, hst⟩ := newGroupAt_step hr
    refine ⟨_, _, hrun, hst, ?_⟩
    rw [valuesOf_append h, Nested.splitAt_append (by rw [size_valuesOf]; omega), size_valuesOf, hkj, Nat.add_sub_cancel_left, valuesOf_cons h,
      Nested.splitAt, if_neg (by omega), if_pos (by simp), show valuesOf (newGroupAt h L n a) = valuesOf h from rfl,
      valuesOf_append, valuesOf_cons, valuesOf_cons]
    have e1 : ((a, t1 ++ n :: t2).1 :: (a, t1 ++ n :: t2).2).map h.value = (a :: t1).map h.value ++ (n :: t2).map h.value := by simp
    have e2 : t1.length + 1 = ((a :: t1).map h.value).length := by simp
    rw [e1, e2, List.take_left, List.drop_left]

/-! ## Removing -/

omit hr in
theorem popNode_at {A B : List Grp} {a n : Nat} {t : List Nat} {i : Nat} (hr : Rep h L (A ++ (a, t) :: B)) (hi : (a :: t)[i]? = some n) :
    ∃ h' gs', Heap.popNode L (some n) h = (.ok (h.value n), h') ∧ Step L h h' (A ++ (a, t) :: B) gs' ∧ h'.value = h.value ∧
      valuesOf h' gs' = valuesOf h A ++ (if (a :: t).length = 1 then valuesOf h B else ((a :: t).map h.value).eraseIdx i :: valuesOf h B) := by
  have hilt : i < (a :: t).length := (List.getElem?_eq_some_iff.mp hi).1
  rcases cut_group hi with ⟨rfl, rfl⟩ | ⟨t1, t2, rfl, rfl⟩
  · cases t with
    | nil =>
      obtain ⟨h', hrun, hst, hv, _⟩ := popNode_only hr
      refine ⟨h', _, hrun, hst, hv, ?_⟩
      rw [if_pos (by rfl), valuesOf_append]
      unfold valuesOf; rw [hv]
    | cons y t =>
      obtain ⟨h', hrun, hst, hv, _⟩ := popNode_head hr
      refine ⟨h', _, hrun, hst, hv, ?_⟩
      rw [if_neg (by simp), valuesOf_append, valuesOf_cons]
      unfold valuesOf; rw [hv]
      simp
  · obtain ⟨h', hrun, hst, hv, _⟩ := popNode_tail hr
    refine ⟨h', _, hrun, hst, hv, ?_⟩
    rw [if_neg (by simp), valuesOf_append, valuesOf_cons]
    unfold valuesOf; rw [hv]
    simp only [List.map_cons, List.map_append, List.eraseIdx_cons_succ]
    rw [List.eraseIdx_append_of_length_le (by simp)]
    simp

omit hr in
theorem removeAt_values {A B : List Grp} {a : Nat} {t : List Nat} {i : Nat} (h : Heap α) (hi : i < (a :: t).length) :
    Nested.removeAt (valuesOf h (A ++ (a, t) :: B)) ((nodesOf A).length + i) =
      valuesOf h A ++ (if (a :: t).length = 1 then valuesOf h B else ((a :: t).map h.value).eraseIdx i :: valuesOf h B) := by
  rw [valuesOf_append, Nested.removeAt_append (by rw [size_valuesOf]; omega), size_valuesOf, Nat.add_sub_cancel_left, valuesOf_cons,
    Nested.removeAt, if_pos (by simpa using hi)]
  simp

theorem popNode_pos {k n : Nat} (hk : (nodesOf gs)[k]? = some n) : ∃ h' gs', Heap.popNode L (some n) h = (.ok (h.value n), h') ∧
    Step L h h' gs gs' ∧ h'.value = h.value ∧ valuesOf h' gs' = Nested.removeAt (valuesOf h gs) k := by
  have hlt : k < (nodesOf gs).length := (List.getElem?_eq_some_iff.mp hk).1
  obtain ⟨A, a, t, B, j, rfl, hj, rfl, hat⟩ := locate hlt
  rw [hk] at hat
  obtain ⟨h', gs', hrun, hst, hv, hval⟩ := popNode_at hr hat.symm
  exact ⟨h', gs', hrun, hst, hv, by rw [hval, removeAt_values h hj]⟩

omit hr in
theorem flatten_get {k n : Nat} (hk : (nodesOf gs)[k]? = some n) : (valuesOf h gs).flatten[k]? = some (h.value n) := by
  rw [← map_nodesOf, List.getElem?_map, hk]; rfl

theorem pop_step {i : Int} {k : Nat} (hk : Nested.pos (nodesOf gs).length i = some k) {o : Option Int}
    (ho : o.getD ((nodesOf gs).length - 1) = i) :
    ∃ v h' gs', Heap.pop L o h = (.ok v, h') ∧ (valuesOf h gs).flatten[k]? = some v ∧ Step L h h' gs gs' ∧
      valuesOf h' gs' = Nested.removeAt (valuesOf h gs) k := by
  obtain ⟨h1, h2, h3⟩ := pos_spec hk
  have hn : (nodesOf gs)[k]? = some (nodesOf gs)[k] := List.getElem?_eq_getElem h1
  obtain ⟨h', gs', hrun, hst, _, hval⟩ := popNode_pos hr hn
  refine ⟨_, h', gs', ?_, flatten_get hn, hst, hval⟩
  unfold Heap.pop Heap.len
  simp only [bind_run (HM.read _), read_run, hr.links.cnt]
  rw [ho, bind_ok (hr.conform_ok h2), h3, bind_ok (hr.nodeAt_nat h1), hn]
  exact hrun

theorem pop_error {i : Int} (hi : ((nodesOf gs).length : Int) ≤ i) : Heap.pop L (some i) h = (.error .indexError, h) := by
  unfold Heap.pop Heap.len
  simp only [bind_run (HM.read _), read_run, Option.getD_some]
  rw [bind_error (hr.conform_error hi)]

/-! ## Assigning -/

omit hr in
theorem setValue_run (h : Heap α) (n : Nat) (v : α) : Heap.setValue n v h = (.ok (), { h with value := upd h.value n v }) := rfl

theorem setValue_step {n : Nat} (v : α) (hn : n ∈ nodesOf gs) : Step L h { h with value := upd h.value n v } gs gs := by
  refine ⟨⟨Links.same (h := h) hr.links rfl rfl rfl rfl rfl rfl rfl, ⟨hr.heads.seg, hr.heads.fst, hr.heads.lst, hr.heads.cnt, hr.heads.hd,
    hr.heads.tl⟩⟩, ⟨?_, fun _ _ => ⟨rfl, rfl, rfl, rfl, rfl, rfl⟩, Nat.le_refl _, rfl⟩,
    fun x hx => (Classical.em (x ∈ nodesOf gs)).imp_right (fun hn => ⟨hx, hn⟩), fun _ _ _ hx => hx⟩
  intro x _ hx
  exact ⟨upd_ne _ _ (fun hh => hx (hh ▸ hr.links.par n hn)), rfl, rfl, rfl, rfl, rfl, rfl⟩

omit hr in
theorem setValue_values {A B : List Grp} {a n : Nat} {t : List Nat} {i : Nat} (hr : Rep h L (A ++ (a, t) :: B)) (v : α)
    (hi : (a :: t)[i]? = some n) : valuesOf { h with value := upd h.value n v } (A ++ (a, t) :: B) =
      valuesOf h A ++ ((a :: t).map h.value).set i v :: valuesOf h B := by
  have hN := hr.links.nodup
  rw [nodesOf_append, nodesOf_cons, List.nodup_append, List.nodup_append] at hN
  obtain ⟨_, ⟨n1, n2, n3⟩, n4⟩ := hN
  have hm := List.mem_of_getElem? hi
  rw [valuesOf_append, valuesOf_cons]
  have e1 : valuesOf { h with value := upd h.value n v } A = valuesOf h A := valuesOf_congr fun x hx =>
    upd_ne _ _ (fun hh => n4 x hx x (by rw [List.mem_append]; exact .inl (by rw [hh]; exact hm)) rfl)
  have e2 : valuesOf { h with value := upd h.value n v } B = valuesOf h B := valuesOf_congr fun x hx =>
    upd_ne _ _ (fun hh => n3 x (by rw [hh]; exact hm) x hx rfl)
  rw [e1, e2]
  congr 2
  exact map_upd_set n1 hi

theorem setItem_step {i : Int} {k : Nat} (v : α) (hk : Nested.pos (nodesOf gs).length i = some k) :
    ∃ h', Heap.setItem L i v h = (.ok (), h') ∧ Step L h h' gs gs ∧ valuesOf h' gs = Nested.setAt v (valuesOf h gs) k := by
  obtain ⟨h1, _, _⟩ := pos_spec hk
  have hrun : Heap.setItem L i v h = (.ok (), { h with value := upd h.value (nodesOf gs)[k] v }) := by
    unfold Heap.setItem
    rw [bind_ok (hr.nodeAt_ok hk), List.getElem?_eq_getElem h1, bind_ok (deref_some _ _)]
    rfl
  refine ⟨_, hrun, setValue_step hr v (List.getElem_mem h1), ?_⟩
  have hn : (nodesOf gs)[k]? = some (nodesOf gs)[k] := List.getElem?_eq_getElem h1
  generalize (nodesOf gs)[k] = n at *
  obtain ⟨A, a, t, B, j, hgs, hj, hkj, hat⟩ := locate h1
  subst hgs hkj
  rw [hn] at hat
  rw [setValue_values hr v hat.symm, valuesOf_append, Nested.setAt_append v (by rw [size_valuesOf]; omega), size_valuesOf,
    Nat.add_sub_cancel_left, valuesOf_cons, Nested.setAt, if_pos (by simpa using hj)]

theorem setItem_error {i : Int} (v : α) (hi : ((nodesOf gs).length : Int) ≤ i) : Heap.setItem L i v h = (.error .indexError, h) := by
  unfold Heap.setItem
  rw [bind_error (hr.nodeAt_error hi)]

theorem getItem_ok {i : Int} {k : Nat} (hk : Nested.pos (nodesOf gs).length i = some k) :
    ∃ v, (valuesOf h gs).flatten[k]? = some v ∧ Heap.getItem L i h = (.ok v, h) := by
  obtain ⟨h1, _, _⟩ := pos_spec hk
  have hn : (nodesOf gs)[k]? = some (nodesOf gs)[k] := List.getElem?_eq_getElem h1
  refine ⟨_, flatten_get hn, ?_⟩
  unfold Heap.getItem
  rw [bind_ok (hr.nodeAt_ok hk), hn, bind_ok (deref_some _ _)]
  rfl

theorem getItem_error {i : Int} (hi : ((nodesOf gs).length : Int) ≤ i) : Heap.getItem L i h = (.error .indexError, h) := by
  unfold Heap.getItem
  rw [bind_error (hr.nodeAt_error hi)]

end Bibleref
