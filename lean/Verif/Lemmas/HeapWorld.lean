import Verif.Lemmas.HeapIndex

set_option linter.unusedSimpArgs false

/-!
# Histories of grouped lists
-/

namespace Bibleref
open HM

variable {α : Type} {h h' h'' : Heap α} {L M : Nat} {gs gs' : List Grp}

/-! ## Searching -/

theorem findNode_spec [DecidableEq α] {xs : List Nat} {p : Option Nat} {k : Nat} (v : α) (hs : Seg h.prev h.next p xs none) (hk : xs.length ≤ k) :
    (v ∈ xs.map h.value → ∃ n, xs[(xs.map h.value).idxOf v]? = some n ∧ Heap.findNode h v k xs.head? = .ok n) ∧
    (v ∉ xs.map h.value → Heap.findNode h v k xs.head? = .error .valueError) := by
  induction xs generalizing p k with
  | nil => exact ⟨fun hh => by simp at hh, fun _ => by cases k <;> rfl⟩
  | cons a xs ih =>
    obtain ⟨k, rfl⟩ : ∃ k', k = k' + 1 := ⟨k - 1, by simp at hk; omega⟩
    obtain ⟨i1, i2⟩ := ih (k := k) hs.2.2 (by simpa using hk)
    have hnx : h.next a = xs.head? := by rw [hs.2.1, Option.or_none]
    by_cases hv : h.value a = v
    · refine ⟨fun _ => ⟨a, ?_, ?_⟩, fun hh => absurd (by simp [hv]) hh⟩
      · simp [hv]
      · rw [List.head?_cons, Heap.findNode, if_pos hv]
    · have hb : (h.value a == v) = false := by simp [hv]
      refine ⟨fun hh => ?_, fun hh => ?_⟩
      · obtain ⟨n, h1, h2⟩ := i1 (by simpa [Ne.symm hv] using hh)
        refine ⟨n, ?_, ?_⟩
        · rw [List.map_cons, List.idxOf_cons, hb]; exact h1
        · rw [List.head?_cons, Heap.findNode, if_neg hv, hnx]; exact h2
      · rw [List.head?_cons, Heap.findNode, if_neg hv, hnx]
        exact i2 (fun hm => hh (by simp only [List.map_cons, List.mem_cons]; exact .inr hm))

theorem remove_step [DecidableEq α] (hr : Rep h L gs) (v : α) (hv : v ∈ (valuesOf h gs).flatten) :
    ∃ h' gs', Heap.remove L v h = (.ok (), h') ∧ Step L h h' gs gs' ∧
      valuesOf h' gs' = Nested.removeAt (valuesOf h gs) ((valuesOf h gs).flatten.idxOf v) := by
  rw [← map_nodesOf] at hv
  obtain ⟨n, h1, h2⟩ := (findNode_spec v hr.links.seg (Nat.le_succ_of_le hr.length_le)).1 hv
  rw [map_nodesOf] at h1
  obtain ⟨h', gs', hrun, hst, _, hval⟩ := popNode_pos hr h1
  refine ⟨h', gs', ?_, hst, hval⟩
  unfold Heap.remove
  rw [bind_run, readE_run, hr.links.fst, h2]
  simp only
  rw [bind_ok hrun]
  rfl

theorem remove_error [DecidableEq α] (hr : Rep h L gs) (v : α) (hv : v ∉ (valuesOf h gs).flatten) :
    Heap.remove L v h = (.error .valueError, h) := by
  rw [← map_nodesOf] at hv
  have h2 := (findNode_spec v hr.links.seg (Nat.le_succ_of_le hr.length_le)).2 hv
  unfold Heap.remove
  rw [bind_run, readE_run, hr.links.fst, h2]

/-! ## Views -/

theorem foldHeads {xs : List Nat} {p : Option Nat} (hs : Seg h.prevHead h.nextHead p xs none) (l : List Nat) (hl : l.length ≤ xs.length) :
    (l.foldlM (fun o _ => match o with
        | some g => .ok (h.nextHead g)
        | none => .error .attributeError) xs.head? : Except PyErr (Option Nat)) = .ok xs[l.length]? := by
  induction l generalizing xs p with
  | nil => cases xs <;> rfl
  | cons a l ih =>
    cases xs with
    | nil => simp at hl
    | cons x xs =>
      rw [List.foldlM_cons, List.head?_cons]
      simp only [bind, Except.bind]
      rw [hs.2.1, Option.or_none]
      have := ih hs.2.2 (by simpa using hl)
      simp only [List.length_cons, List.getElem?_cons_succ]
      exact this

theorem groupAt_ok (hr : Rep h L gs) {k : Nat} {g : Grp} (hk : gs[k]? = some g) : Heap.groupAt L k h = (.ok g.1, h) := by
  have hlt : k < gs.length := (List.getElem?_eq_some_iff.mp hk).1
  unfold Heap.groupAt
  simp only [bind_run (HM.read _), read_run, hr.heads.cnt]
  rw [if_neg (by rw [if_neg (by omega)]; omega), if_neg (by omega)]
  refine (bind_ok (b := some g.1) (h' := h) ?_).trans (deref_some _ _)
  rw [readE_run, hr.heads.fst, Int.toNat_natCast]
  have hf := foldHeads hr.heads.seg (List.range k) (by simp [headsOf]; omega)
  rw [List.length_range, headsOf, List.getElem?_map, hk] at hf
  rw [headsOf]
  exact congrArg (·, h) hf

theorem groupAt_error (hr : Rep h L gs) {k : Nat} (hk : gs.length ≤ k) : Heap.groupAt L k h = (.error .indexError, h) := by
  unfold Heap.groupAt
  simp only [bind_run (HM.read _), read_run, hr.heads.cnt]
  rw [if_pos (by rw [if_neg (by omega)]; omega)]
  rfl

theorem viewWalk_spec {n : Nat} {l B : List Nat} {p : Option Nat} (hs : Seg h.prev h.next p (n :: l ++ B) none)
    (hl : ∀ x ∈ l, h.isHead x = false) (hB : ∀ x, B.head? = some x → h.isHead x = true) (i : Nat) :
    Heap.viewWalk h i n = match (n :: l)[i]? with
      | some x => .ok x
      | none => .error .indexError := by
  induction i generalizing n l p with
  | zero => rfl
  | succ i ih =>
    rw [Heap.viewWalk]
    have hn : h.next n = (l ++ B).head? := by
      have := hs.2.1
      rwa [Option.or_none] at this
    cases l with
    | nil =>
      rw [hn, List.nil_append]
      cases hBh : B.head? with
      | none => rfl
      | some b => simp only [hB b hBh, if_true]; rfl
    | cons a l =>
      rw [hn, List.cons_append, List.head?_cons]
      simp only [hl a (by simp), Bool.false_eq_true, if_false, List.getElem?_cons_succ]
      exact ih hs.2.2 (fun x hx => hl x (by simp [hx]))

theorem viewCheck_ok (hr : Rep h L gs) {g : Grp} (hg : g ∈ gs) : Heap.viewCheck g.1 h = .ok () := by
  have hmem : g.1 ∈ nodesOf gs := mem_nodesOf.mpr ⟨g, hg, .inl rfl⟩
  unfold Heap.viewCheck
  rw [if_neg (by rw [hr.heads.hd g hg, hr.links.par g.1 hmem]; simp)]

theorem viewNodeAt_spec (hr : Rep h L gs) {g : Grp} (hg : g ∈ gs) (i : Nat) : Heap.viewNodeAt g.1 i h = match (g.1 :: g.2)[i]? with
      | some x => .ok x
      | none => .error .indexError := by
  unfold Heap.viewNodeAt
  rw [viewCheck_ok hr hg]
  simp only [bind, Except.bind]
  rw [if_neg (by omega), Int.toNat_natCast]
  obtain ⟨A, B, rfl⟩ := List.append_of_mem hg
  have hseg := hr.links.seg
  rw [nodesOf_append, nodesOf_cons, seg_append] at hseg
  refine viewWalk_spec hseg.2 (fun x hx => hr.heads.tl g (by simp) x hx) ?_ i
  intro x hx
  rw [head?_nodesOf] at hx
  have hm := List.mem_of_head? hx
  rw [headsOf, List.mem_map] at hm
  obtain ⟨g', hg', rfl⟩ := hm
  exact hr.heads.hd g' (by simp [hg'])

theorem groupSet_step (hr : Rep h L gs) {k i : Nat} {g : Grp} {n : Nat} (v : α) (hk : gs[k]? = some g) (hi : (g.1 :: g.2)[i]? = some n) :
    ∃ h', Heap.viewSet g.1 i v h = (.ok (), h') ∧ Step L h h' gs gs ∧
      valuesOf h' gs = (valuesOf h gs).set k (((g.1 :: g.2).map h.value).set i v) := by
  have hg := List.mem_of_getElem? hk
  have hn : n ∈ nodesOf gs := mem_nodesOf.mpr ⟨g, hg, by simpa using List.mem_of_getElem? hi⟩
  refine ⟨{ h with value := upd h.value n v }, ?_, setValue_step hr v hn, ?_⟩
  · unfold Heap.viewSet
    rw [bind_run, readE_run, viewNodeAt_spec hr hg, hi]
    rfl
  · obtain ⟨hlt, hk⟩ := List.getElem?_eq_some_iff.mp hk
    have hgs : gs = gs.take k ++ (g.1, g.2) :: gs.drop (k + 1) := by
      conv => lhs; rw [← List.take_append_drop k gs]
      rw [List.drop_eq_getElem_cons hlt, hk]
    have hlen : (valuesOf h (gs.take k)).length = k := by simp [valuesOf]; omega
    rw [hgs] at hr
    conv => lhs; rw [hgs]
    conv => rhs; rw [hgs]
    rw [setValue_values hr v hi, valuesOf_append, List.set_append_right _ _ (by omega), hlen, Nat.sub_self]
    rfl

theorem groupDel_step (hr : Rep h L gs) {k i : Nat} {g : Grp} {n : Nat} (hk : gs[k]? = some g) (hi : (g.1 :: g.2)[i]? = some n) :
    ∃ h' gs', Heap.viewDel g.1 i h = (.ok (), h') ∧ Step L h h' gs gs' ∧
      valuesOf h' gs' = if (g.1 :: g.2).length = 1 then (valuesOf h gs).eraseIdx k
        else (valuesOf h gs).set k (((g.1 :: g.2).map h.value).eraseIdx i) := by
  have hg := List.mem_of_getElem? hk
  have hn : g.1 ∈ nodesOf gs := mem_nodesOf.mpr ⟨g, hg, .inl rfl⟩
  have hp := hr.links.par _ hn
  have hva := viewNodeAt_spec hr hg i
  obtain ⟨hlt, hk⟩ := List.getElem?_eq_some_iff.mp hk
  have hgs : gs = gs.take k ++ (g.1, g.2) :: gs.drop (k + 1) := by
    conv => lhs; rw [← List.take_append_drop k gs]
    rw [List.drop_eq_getElem_cons hlt, hk]
  have hlen : (valuesOf h (gs.take k)).length = k := by simp [valuesOf]; omega
  have hr' := hr
  rw [hgs] at hr'
  obtain ⟨h', gs', hrun, hst, _, hval⟩ := popNode_at hr' hi
  rw [← hgs] at hst
  refine ⟨h', gs', ?_, hst, ?_⟩
  · unfold Heap.viewDel
    rw [bind_run, readE_run, hva, hi]
    simp only [bind_run (HM.read _), read_run, hp]
    rw [bind_ok (deref_some _ _), bind_ok hrun]
    rfl
  · rw [hval]
    have hv : valuesOf h gs = valuesOf h (gs.take k) ++ (g.1 :: g.2).map h.value :: valuesOf h (gs.drop (k + 1)) := by
      conv => lhs; rw [hgs]
      rw [valuesOf_append, valuesOf_cons]
    rw [hv]
    split
    · rw [List.eraseIdx_append_of_length_le (by omega), hlen, Nat.sub_self]; rfl
    · rw [List.set_append_right _ _ (by omega), hlen, Nat.sub_self]; rfl

/-! ## One operation -/

theorem valuesOf_oneGroup (hv : h'.value = h.value) (l : List Nat) : valuesOf h' (oneGroup l) = Nested.single (l.map h.value) := by
  cases l with
  | nil => rfl
  | cons a l => simp [oneGroup, valuesOf, Nested.single, hv]

theorem posE_ok {n : Nat} {i : Int} {k : Nat} (hk : Nested.pos n i = some k) : Nested.posE n i = .ok k := by
  unfold Nested.posE; rw [hk]

theorem posE_error {n : Nat} {i : Int} (hk : Nested.pos n i = none) : Nested.posE n i = .error .indexError := by
  unfold Nested.posE; rw [hk]

/-- What an operation does in the heap, compared with what it is meant to do. -/
def Sim (L : Nat) (h : Heap α) (gs : List Grp) (isClear : Prop) (run : Except PyErr (Option α) × Heap α) :
    Except PyErr (Option α × List (List α)) → Prop
  | .ok (r, xs') => ∃ h' gs', run = (.ok r, h') ∧ Rep h' L gs' ∧ Frame L h h' ∧ valuesOf h' gs' = xs' ∧
      ((isClear ∧ h'.parent = h.parent) ∨ Step L h h' gs gs')
  | .error e => run = (.error e, h)

theorem sim_of_step {isClear : Prop} {x : HM α Unit} {xs' : List (List α)} (hx : ∃ h' gs', x h = (.ok (), h') ∧ Step L h h' gs gs' ∧
    valuesOf h' gs' = xs') : Sim L h gs isClear ((do x; return none : HM α (Option α)) h) (.ok (none, xs')) := by
  obtain ⟨h', gs', hrun, hst, hval⟩ := hx
  exact ⟨h', gs', by rw [bind_ok hrun]; rfl, hst.rep, hst.frame, hval, .inr hst⟩

theorem sim_of_error {isClear : Prop} {x : HM α Unit} {e : PyErr} (hx : x h = (.error e, h)) :
    Sim L h gs isClear ((do x; return none : HM α (Option α)) h) (.error e) := by
  show _ = _
  rw [bind_error hx]

theorem mergeSort_map (le : α → α → Bool) (h : Heap α) (l : List Nat) :
    (l.mergeSort (nodeLe le h)).map h.value = (l.map h.value).mergeSort le := by
  rw [List.map_mergeSort]
  intro a _ b _
  rfl

theorem op_sim [DecidableEq α] (le : α → α → Bool) {depth : Nat} (op : ListOp α) (hr : Rep h L gs) (hs : op.Sensible depth (valuesOf h gs)) :
    Sim L h gs (op = .clear) (op.call le depth L h) (op.meaning le (valuesOf h gs)) := by
  have hsz := size_valuesOf h gs
  cases op with
  | prepend v ng =>
    obtain ⟨h', gs', a, b, _, c⟩ := prepend_step hr v ng
    exact sim_of_step ⟨h', gs', a, b, c⟩
  | append v ng =>
    obtain ⟨h', gs', a, b, _, _, c⟩ := append_step hr v ng
    refine sim_of_step ⟨h', gs', a, b, ?_⟩
    rw [c, Nested.insertAt_end v (valuesOf_ne h gs)]
  | extend l => exact sim_of_step (extend_step l hr)
  | appendGroup l => exact sim_of_step (appendGroup_step l hr)
  | insert i v =>
    have hnb : -((nodesOf gs).length : Int) ≤ i := by rw [← hsz]; exact hs
    simp only [ListOp.meaning, hsz, ListOp.call]
    by_cases hi : i = (nodesOf gs).length
    · rw [if_pos hi]
      exact sim_of_step (insert_step hr v (.inl ⟨hi, rfl⟩))
    · rw [if_neg hi]
      cases hk : Nested.pos (nodesOf gs).length i with
      | some k =>
        rw [posE_ok hk]
        exact sim_of_step (insert_step hr v (.inr hk))
      | none =>
        rw [posE_error hk]
        have := pos_none hk hnb
        exact sim_of_error (insert_error hr v (by omega))
  | insertGroupAt i =>
    obtain ⟨h1, h2⟩ := hs
    rw [hsz] at h2
    have hnb : -((nodesOf gs).length : Int) ≤ i := by rw [← hsz]; exact h1
    simp only [ListOp.meaning, hsz, ListOp.call]
    cases hk : Nested.pos (nodesOf gs).length i with
    | some k =>
      rw [posE_ok hk]
      exact sim_of_step (insertGroupAt_step hr hk (h2 k hk))
    | none =>
      rw [posE_error hk]
      exact sim_of_error (insertGroupAt_error hr (pos_none hk hnb))
  | pop o =>
    simp only [ListOp.meaning, hsz, ListOp.call]
    have hpop : ∀ {i : Int} {k : Nat}, Nested.pos (nodesOf gs).length i = some k → o.getD ((nodesOf gs).length - 1) = i →
        Sim L h gs ((ListOp.pop o : ListOp α) = .clear) ((do
          let v ← Heap.pop L o
          return some v : HM α (Option α)) h) (.ok ((valuesOf h gs).flatten[k]?, Nested.removeAt (valuesOf h gs) k)) := by
      intro i k hk ho
      obtain ⟨v, h', gs', a, b, c, d⟩ := pop_step hr hk ho
      refine ⟨h', gs', ?_, c.rep, c.frame, d, .inr c⟩
      rw [bind_ok a, b]
      rfl
    cases o with
    | none =>
      have hne : gs ≠ [] := fun hh => hs (by rw [hh]; rfl)
      have hlen : 0 < (nodesOf gs).length := List.length_pos_iff.mpr (fun hh => hne (nodesOf_eq_nil hh))
      have h1 : Nested.pos (nodesOf gs).length (-1) = some ((nodesOf gs).length - 1) := by
        unfold Nested.pos
        rw [if_neg (by omega), if_pos (by omega)]
        congr 1; omega
      have h2 : Nested.pos (nodesOf gs).length ((nodesOf gs).length - 1 : Int) = some ((nodesOf gs).length - 1) := by
        rw [show ((nodesOf gs).length - 1 : Int) = (((nodesOf gs).length - 1 : Nat) : Int) from by omega]
        exact pos_nat (by omega)
      simp only [Option.getD_none]
      rw [posE_ok h1]
      exact hpop h2 rfl
    | some i =>
      have hnb : -((nodesOf gs).length : Int) ≤ i := by rw [← hsz]; exact hs
      simp only [Option.getD_some]
      cases hk : Nested.pos (nodesOf gs).length i with
      | some k => rw [posE_ok hk]; exact hpop hk rfl
      | none =>
        rw [posE_error hk]
        show _ = _
        rw [bind_error (pop_error hr (pos_none hk hnb))]
  | remove v =>
    simp only [ListOp.meaning, ListOp.call]
    by_cases hv : v ∈ (valuesOf h gs).flatten
    · rw [if_pos hv]; exact sim_of_step (remove_step hr v hv)
    · rw [if_neg hv]; exact sim_of_error (remove_error hr v hv)
  | setItem i v =>
    have hnb : -((nodesOf gs).length : Int) ≤ i := by rw [← hsz]; exact hs
    simp only [ListOp.meaning, hsz, ListOp.call]
    cases hk : Nested.pos (nodesOf gs).length i with
    | some k =>
      rw [posE_ok hk]
      obtain ⟨h', a, b, c⟩ := setItem_step hr v hk
      exact sim_of_step ⟨h', gs, a, b, c⟩
    | none =>
      rw [posE_error hk]
      exact sim_of_error (setItem_error hr v (pos_none hk hnb))
  | delItem i =>
    have hnb : -((nodesOf gs).length : Int) ≤ i := by rw [← hsz]; exact hs
    simp only [ListOp.meaning, hsz, ListOp.call]
    cases hk : Nested.pos (nodesOf gs).length i with
    | some k =>
      rw [posE_ok hk]
      obtain ⟨v, h', gs', a, _, c, d⟩ := pop_step (o := some i) hr hk rfl
      refine sim_of_step ⟨h', gs', ?_, c, d⟩
      unfold Heap.delItem
      rw [bind_ok a]
      rfl
    | none =>
      rw [posE_error hk]
      refine sim_of_error ?_
      unfold Heap.delItem
      rw [bind_error (pop_error hr (pos_none hk hnb))]
  | groupSet k i v =>
    simp only [ListOp.meaning, ListOp.call]
    have hvk : (valuesOf h gs)[k]? = gs[k]?.map fun g => (g.1 :: g.2).map h.value := by rw [valuesOf, List.getElem?_map]
    cases hk : gs[k]? with
    | none =>
      rw [hk] at hvk; rw [hvk]
      show _ = _
      rw [bind_error (groupAt_error hr (List.getElem?_eq_none_iff.mp hk))]
    | some g =>
      rw [hk] at hvk; rw [hvk]
      simp only [Option.map_some]
      by_cases hi : i < (g.1 :: g.2).length
      · rw [if_pos (by simpa using hi), bind_ok (groupAt_ok hr hk)]
        obtain ⟨h', a, b, c⟩ := groupSet_step hr v hk (List.getElem?_eq_getElem hi)
        exact sim_of_step ⟨h', gs, a, b, c⟩
      · rw [if_neg (by simpa using hi), bind_ok (groupAt_ok hr hk)]
        refine sim_of_error ?_
        unfold Heap.viewSet
        rw [bind_run, readE_run, viewNodeAt_spec hr (List.mem_of_getElem? hk), List.getElem?_eq_none_iff.mpr (by omega)]
  | groupDel k i =>
    simp only [ListOp.meaning, ListOp.call]
    have hvk : (valuesOf h gs)[k]? = gs[k]?.map fun g => (g.1 :: g.2).map h.value := by rw [valuesOf, List.getElem?_map]
    cases hk : gs[k]? with
    | none =>
      rw [hk] at hvk; rw [hvk]
      show _ = _
      rw [bind_error (groupAt_error hr (List.getElem?_eq_none_iff.mp hk))]
    | some g =>
      rw [hk] at hvk; rw [hvk]
      simp only [Option.map_some]
      by_cases hi : i < (g.1 :: g.2).length
      · rw [if_pos (by simpa using hi), bind_ok (groupAt_ok hr hk)]
        obtain ⟨h', gs', a, b, c⟩ := groupDel_step hr hk (List.getElem?_eq_getElem hi)
        refine sim_of_step ⟨h', gs', a, b, ?_⟩
        rw [c]; simp
      · rw [if_neg (by simpa using hi), bind_ok (groupAt_ok hr hk)]
        refine sim_of_error ?_
        unfold Heap.viewDel
        rw [bind_run, readE_run, viewNodeAt_spec hr (List.mem_of_getElem? hk), List.getElem?_eq_none_iff.mpr (by omega)]
  | clear =>
    obtain ⟨h', a, b, c, _, _, d⟩ := clear_step h L
    exact ⟨h', [], by simp only [ListOp.call]; rw [bind_ok a]; rfl, b, c, rfl, .inl ⟨rfl, d⟩⟩
  | clearGroups =>
    obtain ⟨h', a, b, c, _⟩ := clearGroups_step hr
    refine sim_of_step ⟨h', _, a, b, ?_⟩
    rw [valuesOf_oneGroup c, map_nodesOf]
  | reverse =>
    obtain ⟨h', a, b, c, _⟩ := reverse_step hr
    refine sim_of_step ⟨h', _, a, b, ?_⟩
    rw [valuesOf_oneGroup c, List.map_reverse, map_nodesOf]
  | sort =>
    have hd : (nodesOf gs).length < depth := by rw [← hsz]; exact hs
    obtain ⟨h', a, b, c, _⟩ := sort_step (lx := fun a b => .ok (le a b)) (le := le) depth (fun _ _ _ _ => rfl) hr hd
    refine sim_of_step ⟨h', _, a, b, ?_⟩
    rw [valuesOf_oneGroup c, mergeSort_map, map_nodesOf]

/-! ## All lists -/

/-- The heap holds these lists. -/
structure World (h : Heap α) (ws : List (List (List α))) : Prop where
  lists : h.lists = ws.length
  rep : ∀ L xs, ws[L]? = some xs → ∃ gs, Rep h L gs ∧ valuesOf h gs = xs

/-- Every node that says it belongs to a list does. -/
def Tidy (h : Heap α) : Prop := ∀ x M, h.parent x = some M → M < h.lists ∧ ∃ gs, Rep h M gs ∧ x ∈ nodesOf gs

/-- Nodes do not come to belong to other lists. -/
structure Evolve (h h' : Heap α) : Prop where
  nodes : h.nodes ≤ h'.nodes
  par : ∀ x M, x < h.nodes → h'.parent x = some M → h.parent x = some M

theorem Evolve.refl (h : Heap α) : Evolve h h := ⟨Nat.le_refl _, fun _ _ _ hx => hx⟩

theorem Evolve.trans (h1 : Evolve h h') (h2 : Evolve h' h'') : Evolve h h'' :=
  ⟨Nat.le_trans h1.nodes h2.nodes, fun x M hx hp => h1.par x M hx (h2.par x M (Nat.lt_of_lt_of_le hx h1.nodes) hp)⟩

theorem Step.evolve (hst : Step L h h' gs gs') : Evolve h h' := by
  refine ⟨hst.frame.nodes, fun x M hx hp => ?_⟩
  by_cases hM : M = L
  · subst hM
    by_cases hpx : h.parent x = some M
    · exact hpx
    · rw [← (hst.frame.node x hx hpx).2.1, hp]
  · exact hst.other x M hM hp

theorem Rep.unique (h1 : Rep h L gs) (h2 : Rep h L gs') : nodesOf gs = nodesOf gs' := by
  have := h1.ids.symm.trans h2.ids
  exact Except.ok.inj this

theorem Step.tidy (hr : Rep h L gs) (hL : L < h.lists) (hst : Step L h h' gs gs') (ht : Tidy h) : Tidy h' := by
  intro x M hp
  by_cases hM : M = L
  · subst hM
    refine ⟨by rw [hst.frame.lists]; exact hL, gs', hst.rep, ?_⟩
    rcases hst.own x hp with h1 | ⟨h1, h2⟩
    · exact h1
    · obtain ⟨_, gs2, h3, h4⟩ := ht x M h1
      exact absurd (by rw [hr.unique h3]; exact h4) h2
  · obtain ⟨h1, gs2, h3, h4⟩ := ht x M (hst.other x M hM hp)
    exact ⟨by rw [hst.frame.lists]; exact h1, gs2, (h3.frame hM hst.frame).1, h4⟩

theorem World.update {ws : List (List (List α))} {xs : List (List α)} (hw : World h ws) (hr : Rep h' L gs')
    (hv : valuesOf h' gs' = xs) (hf : Frame L h h') : World h' (ws.set L xs) := by
  refine ⟨by rw [hf.lists, hw.lists, List.length_set], fun M ys hM => ?_⟩
  by_cases hML : M = L
  · subst hML
    have hlt : M < (ws.set M xs).length := (List.getElem?_eq_some_iff.mp hM).1
    rw [List.length_set] at hlt
    rw [List.getElem?_set_self hlt] at hM
    cases hM
    exact ⟨gs', hr, hv⟩
  · rw [List.getElem?_set_ne (Ne.symm hML)] at hM
    obtain ⟨gs, h1, h2⟩ := hw.rep M ys hM
    obtain ⟨h3, h4⟩ := h1.frame hML hf
    exact ⟨gs, h3, by rw [h4, h2]⟩

theorem newList_run (h : Heap α) : ∃ h', Heap.newList h = (.ok h.lists, h') ∧ Rep h' h.lists [] ∧ h'.parent = h.parent ∧
    h'.nodes = h.nodes ∧ h'.lists = h.lists + 1 ∧
    (∀ M gs, M ≠ h.lists → Rep h M gs → Rep h' M gs ∧ valuesOf h' gs = valuesOf h gs) := by
  obtain ⟨h', a, b, c, d, e, f⟩ := clear_step { h with lists := h.lists + 1 } h.lists
  refine ⟨h', ?_, b, f, e, c.lists, fun M gs hM hr => ?_⟩
  · have : Heap.newList h = (Heap.clear h.lists >>= fun _ => pure h.lists : HM α Nat) { h with lists := h.lists + 1 } := rfl
    rw [this, bind_ok a]
    rfl
  · have hr' : Rep { h with lists := h.lists + 1 } M gs :=
      ⟨⟨hr.links.nodup, hr.links.lt, hr.links.par, hr.links.seg, hr.links.fst, hr.links.lst, hr.links.cnt⟩,
       ⟨hr.heads.seg, hr.heads.fst, hr.heads.lst, hr.heads.cnt, hr.heads.hd, hr.heads.tl⟩⟩
    exact hr'.frame hM c

theorem newList_world {ws : List (List (List α))} (hw : World h ws) : ∃ h', Heap.newList h = (.ok h.lists, h') ∧ Rep h' h.lists [] ∧
    World h' (ws ++ [[]]) ∧ Evolve h h' ∧ (Tidy h → Tidy h') := by
  obtain ⟨h', a, b, c, d, e, f⟩ := newList_run h
  refine ⟨h', a, b, ⟨by rw [e, hw.lists]; simp, fun M ys hM => ?_⟩, ⟨by omega, fun x M _ hp => by rw [← c]; exact hp⟩, fun ht x M hp => ?_⟩
  · by_cases hML : M < ws.length
    · rw [List.getElem?_append_left hML] at hM
      obtain ⟨gs, h1, h2⟩ := hw.rep M ys hM
      obtain ⟨h3, h4⟩ := f M gs (by rw [hw.lists]; omega) h1
      exact ⟨gs, h3, by rw [h4, h2]⟩
    · rw [List.getElem?_append_right (by omega)] at hM
      have hlt := (List.getElem?_eq_some_iff.mp hM).1
      have hM0 : M - ws.length = 0 := by simp at hlt; omega
      rw [hM0] at hM
      cases hM
      have : M = h.lists := by rw [hw.lists]; omega
      subst this
      exact ⟨[], b, rfl⟩
  · rw [c] at hp
    obtain ⟨h1, gs, h2, h3⟩ := ht x M hp
    exact ⟨by omega, gs, (f M gs (by omega) h2).1, h3⟩

theorem extendFrom_step {gm : List Grp} {ys zs : List Nat} (hLM : M ≠ L) (hr : Rep h L gs) (hm : Rep h M gm) (hys : nodesOf gm = zs ++ ys)
    {k : Nat} (hk : ys.length ≤ k) : ∃ h' gs', Heap.extendFrom L k ys.head? h = (.ok (), h') ∧ Step L h h' gs gs' ∧
      valuesOf h' gs' = Nested.extend (valuesOf h gs) (ys.map h.value) := by
  induction ys generalizing h gs zs k with
  | nil => exact ⟨h, gs, by cases k <;> rfl, Step.refl hr, Nested.extend_nil.symm⟩
  | cons n ys ih =>
    obtain ⟨k, rfl⟩ : ∃ k', k = k' + 1 := ⟨k - 1, by simp at hk; omega⟩
    obtain ⟨h1, gs1, hrun, hst, _, _, hval⟩ := append_step hr (h.value n) false
    obtain ⟨hm1, hv1⟩ := hm.frame hLM hst.frame
    obtain ⟨h2, gs2, hrun2, hst2, hval2⟩ := ih (zs := zs ++ [n]) (k := k) hst.rep hm1 (by simp [hys]) (by simpa using hk)
    have hnx : h1.next n = ys.head? := by
      have := hm1.links.seg
      rw [hys] at this
      exact (seg_mid this).2
    have hvals : ys.map h1.value = ys.map h.value := by
      have h3 := congrArg List.flatten hv1
      rw [← map_nodesOf, ← map_nodesOf, hys, List.map_append, List.map_append] at h3
      have h4 := (List.append_inj h3 (by simp)).2
      rw [List.map_cons, List.map_cons, List.cons.injEq] at h4
      exact h4.2
    refine ⟨h2, gs2, ?_, hst.trans hst2, ?_⟩
    · rw [List.head?_cons, Heap.extendFrom]
      simp only [bind_run (HM.read _), read_run]
      rw [bind_ok hrun]
      simp only [bind_run (HM.read _), read_run]
      rw [hnx, hrun2]
    · rw [hval2, hval, hvals]
      simp only [Bool.false_eq_true, if_false]
      rw [Nested.extend_extend _ _ _ (.inr (by simp))]
      rfl

theorem extendList_step {gm : List Grp} (hLM : M ≠ L) (hr : Rep h L gs) (hm : Rep h M gm) {k : Nat} (hk : (nodesOf gm).length ≤ k) :
    ∃ h' gs', Heap.extendList L M k h = (.ok (), h') ∧ Step L h h' gs gs' ∧
      valuesOf h' gs' = Nested.extend (valuesOf h gs) (valuesOf h gm).flatten := by
  obtain ⟨h', gs', a, b, c⟩ := extendFrom_step (zs := []) (ys := nodesOf gm) hLM hr hm rfl hk
  refine ⟨h', gs', ?_, b, by rw [c, map_nodesOf]⟩
  unfold Heap.extendList
  simp only [bind_run (HM.read _), read_run, hm.links.fst]
  exact a

theorem copyGo_step (xs : List (List α)) (hxs : ∀ g ∈ xs, g ≠ []) (hr : Rep h L gs) : ∃ h' gs', Heap.copy.go L xs h = (.ok (), h') ∧
    Step L h h' gs gs' ∧ valuesOf h' gs' = valuesOf h gs ++ xs := by
  induction xs generalizing h gs with
  | nil => exact ⟨h, gs, rfl, Step.refl hr, by simp⟩
  | cons g xs ih =>
    obtain ⟨h1, gs1, hrun, hst, hval⟩ := appendGroup_step g hr
    obtain ⟨h2, gs2, hrun2, hst2, hval2⟩ := ih (fun g hg => hxs g (by simp [hg])) hst.rep
    refine ⟨h2, gs2, by rw [Heap.copy.go, bind_ok hrun, hrun2], hst.trans hst2, ?_⟩
    rw [hval2, hval, Nested.addGroup, if_neg (hxs g (by simp))]
    simp

theorem copy_world {ws : List (List (List α))} {xs : List (List α)} (hw : World h ws) (hM : ws[M]? = some xs) :
    ∃ h', Heap.copy M h = (.ok h.lists, h') ∧ World h' (ws ++ [xs]) ∧ Evolve h h' ∧ (Tidy h → Tidy h') := by
  obtain ⟨h1, a, b, c, d, e⟩ := newList_world hw
  have hlt : M < ws.length := (List.getElem?_eq_some_iff.mp hM).1
  obtain ⟨gm, hm, hv⟩ := c.rep M xs (by rw [List.getElem?_append_left hlt]; exact hM)
  obtain ⟨h2, gs2, hrun2, hst2, hval2⟩ := copyGo_step xs (by rw [← hv]; exact valuesOf_ne _ _) b
  have hL : h.lists < h1.lists := by rw [c.lists, hw.lists]; simp
  refine ⟨h2, ?_, ?_, d.trans hst2.evolve, fun ht => hst2.tidy b hL (e ht)⟩
  · unfold Heap.copy
    rw [bind_ok a, bind_ok hm.toNested, hv, bind_ok hrun2]
    rfl
  · have := c.update hst2.rep hval2 hst2.frame
    rw [hw.lists] at this
    rw [valuesOf_nil, List.nil_append, List.set_append_right _ _ (Nat.le_refl _), Nat.sub_self] at this
    exact this

/-- An operation on all lists does in the heap what it is meant to do. -/
theorem world_sim [DecidableEq α] (le : α → α → Bool) {depth : Nat} {ws : List (List (List α))} (op : WorldOp α) (hw : World h ws)
    (hs : op.Sensible depth ws) : ∃ h', op.call le depth h = ((op.meaning le ws).map Prod.fst, h') ∧
      World h' (match op.meaning le ws with | .ok (_, ws') => ws' | .error _ => ws) ∧ Evolve h h' ∧
      ((∀ L, op ≠ .on L .clear) → Tidy h → Tidy h') := by
  cases op with
  | new =>
    obtain ⟨h', a, b, c, d, e⟩ := newList_world hw
    exact ⟨h', by simp only [WorldOp.call]; rw [bind_ok a]; rfl, c, d, fun _ => e⟩
  | on L op =>
    obtain ⟨hL, hs⟩ := hs
    have hget : ws[L]? = some ws[L] := List.getElem?_eq_getElem hL
    obtain ⟨gs, hr, hv⟩ := hw.rep L _ hget
    rw [hget, Option.getD_some, ← hv] at hs
    have hsim := op_sim le op hr hs
    have hLl : L < h.lists := by rw [hw.lists]; exact hL
    simp only [WorldOp.call, WorldOp.meaning, hget, Option.getD_some, ← hv]
    cases hm : op.meaning le (valuesOf h gs) with
    | error e =>
      rw [hm] at hsim
      exact ⟨h, hsim, hw, Evolve.refl h, fun _ ht => ht⟩
    | ok r =>
      obtain ⟨r, xs'⟩ := r
      rw [hm] at hsim
      obtain ⟨h', gs', a, b, c, d, e⟩ := hsim
      refine ⟨h', a, hw.update b d c, ?_, fun hc ht => ?_⟩
      · rcases e with ⟨_, hp⟩ | e
        · exact ⟨c.nodes, fun x M _ hx => by rw [← hp]; exact hx⟩
        · exact e.evolve
      · rcases e with ⟨he, _⟩ | e
        · exact absurd (by rw [he]) (hc L)
        · exact e.tidy hr hLl ht
  | extendList L M =>
    obtain ⟨hL, hM, hLM⟩ := hs
    have hgL : ws[L]? = some ws[L] := List.getElem?_eq_getElem hL
    have hgM : ws[M]? = some ws[M] := List.getElem?_eq_getElem hM
    obtain ⟨gs, hr, hv⟩ := hw.rep L _ hgL
    obtain ⟨gm, hm, hvm⟩ := hw.rep M _ hgM
    obtain ⟨h', gs', a, b, c⟩ := extendList_step (Ne.symm hLM) hr hm (k := h.nodes + 1) (Nat.le_succ_of_le hm.length_le)
    simp only [WorldOp.meaning, hgL, hgM, Option.getD_some]
    refine ⟨h', ?_, hw.update b.rep (by rw [c, hv, hvm]) b.frame, b.evolve, fun _ ht => b.tidy hr (by rw [hw.lists]; exact hL) ht⟩
    simp only [WorldOp.call, bind_run (HM.read _), read_run]
    rw [bind_ok a]
    rfl
  | copy M =>
    have hgM : ws[M]? = some ws[M] := List.getElem?_eq_getElem hs
    obtain ⟨h', a, b, c, d⟩ := copy_world hw hgM
    simp only [WorldOp.meaning, hgM, Option.getD_some]
    exact ⟨h', by simp only [WorldOp.call]; rw [bind_ok a]; rfl, b, c, fun _ => d⟩

/-- A history does in the heap what it is meant to do. -/
theorem calls_sim [DecidableEq α] (le : α → α → Bool) {depth : Nat} {ws : List (List (List α))} (ops : List (WorldOp α)) (hw : World h ws)
    (hs : SensibleRun le depth ops ws) : (calls le depth ops h).1 = (meanings le ops ws).1 ∧
      World (calls le depth ops h).2 (meanings le ops ws).2 ∧ Evolve h (calls le depth ops h).2 ∧
      ((∀ op ∈ ops, ∀ L, op ≠ .on L .clear) → Tidy h → Tidy (calls le depth ops h).2) := by
  induction ops generalizing h ws with
  | nil => exact ⟨rfl, hw, Evolve.refl h, fun _ ht => ht⟩
  | cons op ops ih =>
    obtain ⟨h1, hrun, hw1, he1, ht1⟩ := world_sim le op hw hs.1
    obtain ⟨i1, i2, i3, i4⟩ := ih hw1 hs.2
    have hc : calls le depth (op :: ops) h = ((op.meaning le ws).map Prod.fst :: (calls le depth ops h1).1, (calls le depth ops h1).2) := by
      rw [calls, hrun]
    rw [hc]
    refine ⟨?_, ?_, he1.trans i3, fun hc ht => i4 (fun o ho => hc o (by simp [ho])) (ht1 (hc op (by simp)) ht)⟩
    · rw [i1, meanings]
      cases hm : op.meaning le ws with
      | error e => rfl
      | ok r => rfl
    · rw [meanings]
      cases hm : op.meaning le ws with
      | error e => rw [hm] at i2; exact i2
      | ok r => rw [hm] at i2; exact i2

theorem world_empty (v : α) : World (Heap.empty v) [] := ⟨rfl, fun L xs hL => by simp at hL⟩

theorem tidy_empty (v : α) : Tidy (Heap.empty v) := fun x M hp => by cases hp

end Bibleref
