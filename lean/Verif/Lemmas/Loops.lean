import Verif.SpecLoops
import Verif.Lemmas.HeapQuery

/-! Loops over lists that change: where the nodes are after an operation. -/

namespace Bibleref
open HM
variable {α : Type} {h h' : Heap α} {L : Nat} {gs gs' : List Grp}

/-! ## The nodes after an operation -/

theorem insertBefore_goes {A B : List Grp} {a n : Nat} {t : List Nat} {i : Nat} (hr : Rep h L (A ++ (a, t) :: B)) (v : α)
    (hi : (a :: t)[i]? = some n) : ∃ h' gs', Heap.insertBefore L (some n) v false h = (.ok (), h') ∧ Rep h' L gs' ∧
      nodesOf gs' = (nodesOf (A ++ (a, t) :: B)).take ((nodesOf A).length + i) ++ h.nodes ::
        (nodesOf (A ++ (a, t) :: B)).drop ((nodesOf A).length + i) := by
  rcases cut_group hi with ⟨rfl, rfl⟩ | ⟨t1, t2, rfl, rfl⟩
  · obtain ⟨h', hrun, hst, _, _⟩ := insertBefore_head v hr
    refine ⟨h', _, hrun, hst.rep, ?_⟩
    rw [nodesOf_append, nodesOf_append, Nat.add_zero, List.take_left, List.drop_left]
    simp
  · obtain ⟨h', hrun, hst, _, _⟩ := insertBefore_tail v hr
    refine ⟨h', _, hrun, hst.rep, ?_⟩
    have e1 : nodesOf (A ++ (a, t1 ++ n :: t2) :: B) = (nodesOf A ++ a :: t1) ++ (n :: t2 ++ nodesOf B) := by simp
    have e2 : (nodesOf A).length + (t1.length + 1) = (nodesOf A ++ a :: t1).length := by simp
    rw [e1, e2, List.take_left, List.drop_left]
    simp

theorem prepend_nodes (hr : Rep h L gs) (v : α) (ng : Bool) : ∃ h' gs', Heap.prepend L v ng h = (.ok (), h') ∧ Rep h' L gs' ∧
    nodesOf gs' = h.nodes :: nodesOf gs := by
  unfold Heap.prepend Heap.len
  simp only [bind_run (HM.read _), read_run, hr.links.cnt]
  cases gs with
  | nil =>
    rw [if_pos (by simp)]
    obtain ⟨h', hrun, hst, _, _⟩ := insertFirst_step v hr
    exact ⟨h', _, hrun, hst.rep, by simp⟩
  | cons g B =>
    obtain ⟨g, t⟩ := g
    rw [if_neg (by simp; omega)]
    simp only [bind_run (HM.read _), read_run, hr.first_eq, headsOf_cons, List.head?_cons]
    cases ng with
    | true =>
      obtain ⟨h', hrun, hst, _, _⟩ := insertBefore_first_new v hr
      exact ⟨h', _, hrun, hst.rep, by simp⟩
    | false =>
      obtain ⟨h', gs', hrun, hst, hn⟩ := insertBefore_goes (A := []) (i := 0) hr v rfl
      exact ⟨h', gs', hrun, hst, by rw [hn]; simp⟩

theorem insert_nodes (hr : Rep h L gs) (v : α) {i : Int} {k : Nat} (hk : i = (nodesOf gs).length ∧ k = (nodesOf gs).length ∨
    Nested.pos (nodesOf gs).length i = some k) :
    ∃ h' gs', Heap.insert L i v h = (.ok (), h') ∧ Rep h' L gs' ∧ nodesOf gs' = (nodesOf gs).take k ++ h.nodes :: (nodesOf gs).drop k := by
  unfold Heap.insert Heap.len
  simp only [bind_run (HM.read _), read_run, hr.links.cnt]
  by_cases h0 : i = 0
  · rw [if_pos h0]
    have hk0 : k = 0 := by
      rcases hk with ⟨h1, h2⟩ | hk
      · omega
      · obtain ⟨_, _, h3⟩ := pos_spec hk
        rw [if_neg (by omega)] at h3; omega
    obtain ⟨h', gs', hrun, hst, hn⟩ := prepend_nodes hr v false
    exact ⟨h', gs', hrun, hst, by rw [hk0, hn]; simp⟩
  · rw [if_neg h0]
    by_cases hn : i = (nodesOf gs).length
    · rw [if_pos hn]
      have hkn : k = (nodesOf gs).length := by
        rcases hk with ⟨h1, h2⟩ | hk
        · exact h2
        · obtain ⟨h1, h2, h3⟩ := pos_spec hk
          omega
      obtain ⟨h', gs', hrun, hst, _, hn, _⟩ := append_step hr v false
      exact ⟨h', gs', hrun, hst.rep, by rw [hn, hkn]; simp⟩
    · rw [if_neg hn]
      have hk' := hk.resolve_left (fun hh => hn hh.1)
      obtain ⟨h1, _, _⟩ := pos_spec hk'
      rw [bind_ok (hr.nodeAt_ok hk')]
      obtain ⟨A, a, t, B, j, rfl, hj, rfl, hat⟩ := locate h1
      rw [hat, List.getElem?_eq_getElem hj]
      exact insertBefore_goes hr v (List.getElem?_eq_getElem hj)

theorem extend_nodes (l : List α) (hr : Rep h L gs) : ∃ h' gs' more, Heap.extend L l h = (.ok (), h') ∧ Rep h' L gs' ∧
    nodesOf gs' = nodesOf gs ++ more := by
  induction l generalizing h gs with
  | nil => exact ⟨h, gs, [], rfl, hr, by simp⟩
  | cons v l ih =>
    obtain ⟨h1, gs1, hrun, hst, _, hn, _⟩ := append_step hr v false
    obtain ⟨h2, gs2, more, hrun2, hst2, hn2⟩ := ih hst.rep
    exact ⟨h2, gs2, h.nodes :: more, by rw [Heap.extend, bind_ok hrun, hrun2], hst2, by rw [hn2, hn]; simp⟩

theorem appendGroup_nodes (l : List α) (hr : Rep h L gs) : ∃ h' gs' more, Heap.appendGroup L l h = (.ok (), h') ∧ Rep h' L gs' ∧
    nodesOf gs' = nodesOf gs ++ more := by
  cases l with
  | nil => exact ⟨h, gs, [], rfl, hr, by simp⟩
  | cons v l =>
    obtain ⟨h1, gs1, hrun, hst, _, hn, _⟩ := append_step hr v true
    obtain ⟨h2, gs2, more, hrun2, hst2, hn2⟩ := extend_nodes l hst.rep
    exact ⟨h2, gs2, h.nodes :: more, by rw [Heap.appendGroup, bind_ok hrun, hrun2], hst2, by rw [hn2, hn]; simp⟩

theorem insertGroupAt_nodes (hr : Rep h L gs) {i : Int} {k : Nat} (hk : Nested.pos (nodesOf gs).length i = some k)
    (hb : ¬ Nested.Boundary (valuesOf h gs) k) :
    ∃ h' gs', Heap.insertGroupAt L i h = (.ok (), h') ∧ Rep h' L gs' ∧ nodesOf gs' = nodesOf gs := by
  obtain ⟨h1, h2, h3⟩ := pos_spec hk
  obtain ⟨A, a, t, B, j, hgs, hj, hkj, hat⟩ := locate h1
  rw [List.getElem?_eq_getElem hj] at hat
  rw [insertGroupAt_run hr hk hat]
  subst hgs
  rcases cut_group (List.getElem?_eq_getElem hj) with ⟨hj0, hja⟩ | ⟨t1, t2, ht, hj1⟩
  · subst hj0
    cases A with
    | nil =>
      refine ⟨h, _, ?_, hr, rfl⟩
      unfold Heap.insertNewGroupAtNode
      simp only [bind_run (HM.read _), read_run, hr.first_eq, List.nil_append, headsOf_cons, List.head?_cons]
      rw [if_pos (by rw [hja])]
      rfl
    | cons g A =>
      exfalso
      apply hb
      refine ⟨by rw [hkj, nodesOf_cons]; simp, ?_⟩
      unfold Nested.begins
      rw [List.mem_map]
      refine ⟨(g :: A).length, by simp [valuesOf], ?_⟩
      rw [valuesOf_append, List.take_left' (by simp [valuesOf]), ← map_nodesOf, List.length_map, hkj]
      rfl
  · generalize (a :: t)[j] = n at *
    subst ht hj1
    obtain ⟨hrun, hst⟩ := newGroupAt_step hr
    exact ⟨_, _, hrun, hst.rep, by simp⟩

/-- `unlinkHead` leaves the chain of all nodes alone. -/
theorem unlinkHead_links (n : Nat) (h : Heap α) : (Heap.unlinkHead L n h).2.next = h.next ∧ (Heap.unlinkHead L n h).2.prev = h.prev := by
  unfold Heap.unlinkHead Heap.addGroupCount Heap.setIsHead Heap.setPrevHead Heap.setNextHead Heap.setFirstHead Heap.setLastHead
    Heap.clearGroupHead
  cases hn : h.next n with
  | none =>
    cases hp : h.prevHead n <;> cases hq : h.nextHead n <;> by_cases hf : h.firstHead L = some n <;>
      by_cases hl : h.lastHead L = some n <;>
      simp [bind_run, read_run, modify_run, pure_run, hn, hp, hq, hf, hl]
  | some y =>
    cases hy : h.isHead y <;> cases hp : h.prevHead n <;> cases hq : h.nextHead n <;> by_cases hf : h.firstHead L = some n <;>
      by_cases hl : h.lastHead L = some n <;>
      simp [bind_run, read_run, modify_run, pure_run, hn, hp, hq, hf, hl, hy]

/-- A node that has been taken out keeps its links. -/
theorem popNode_keeps {xs ys : List Nat} {n : Nat} (hl : Links h L (xs ++ n :: ys)) {r} (hrun : Heap.popNode L (some n) h = (.ok r, h')) :
    h'.next n = h.next n ∧ h'.prev n = h.prev n := by
  obtain ⟨_, _, h1, h2, _⟩ := nodup_mid hl.nodup
  obtain ⟨hpr, hnx⟩ := seg_mid hl.seg
  have e1 : (unlinked h L n).next n = h.next n := by
    show updOpt h.next (h.prev n) (h.next n) n = _
    rw [updOpt_apply]; split <;> rfl
  have e2 : (unlinked h L n).prev n = h.prev n := by
    show updOpt h.prev (h.next n) (h.prev n) n = _
    rw [updOpt_apply]; split <;> rfl
  rw [popNode_run hl] at hrun
  have hk := unlinkHead_links (L := L) n (unlinked h L n)
  cases hh : h.isHead n with
  | false =>
    rw [hh] at hrun
    cases hrun
    exact ⟨e1, e2⟩
  | true =>
    rw [hh] at hrun
    simp only [if_true] at hrun
    rw [bind_run] at hrun
    generalize Heap.unlinkHead L n (unlinked h L n) = q at hrun hk
    obtain ⟨r1, h1⟩ := q
    cases r1 with
    | error => cases hrun
    | ok =>
      cases hrun
      exact ⟨by rw [hk.1]; exact e1, by rw [hk.2]; exact e2⟩

/-- What holds at the end of a computation that does not raise. -/
def Leaves {β : Type} (P : Heap α → Prop) (m : HM α β) : Prop := ∀ h b h', m h = (.ok b, h') → P h'

theorem Leaves.bind {β γ : Type} {P : Heap α → Prop} {x : HM α β} {f : β → HM α γ} (hf : ∀ b, Leaves P (f b)) : Leaves P (x >>= f) := by
  intro h c h' hh
  rw [bind_run] at hh
  split at hh
  · exact hf _ _ _ _ hh
  · cases hh

theorem unlinkHead_off (L n : Nat) : Leaves (fun h : Heap α => h.isHead n = false) (Heap.unlinkHead L n) := by
  unfold Heap.unlinkHead
  have last : Leaves (fun h : Heap α => h.isHead n = false) (Heap.clearGroupHead n) := by
    intro h b h' hh
    cases hh
    simp [upd]
  repeat' first
    | exact last
    | (apply Leaves.bind; intro _)
    | split

/-- A node that has been taken out is not the head of a group. -/
theorem popNode_off {n : Nat} {v : α} (hrun : Heap.popNode L (some n) h = (.ok v, h')) : h'.isHead n = false := by
  unfold Heap.popNode at hrun
  rw [bind_run] at hrun
  split at hrun
  · rename_i m h1 hc
    have hm : m = n := by
      unfold Heap.checkIsChild at hc
      simp only [bind_run (HM.read _), read_run] at hc
      split at hc <;> cases hc
      rfl
    subst hm
    rw [bind_run] at hrun
    split at hrun
    · rename_i h2 _
      simp only [bind_run (HM.read _), read_run] at hrun
      cases hh : h2.isHead m with
      | false =>
        rw [hh] at hrun
        cases hrun
        exact hh
      | true =>
        rw [hh] at hrun
        simp only [if_true] at hrun
        rw [bind_run] at hrun
        split at hrun
        · rename_i h3 hu
          cases hrun
          exact unlinkHead_off L m _ _ _ hu
        · cases hrun
    · cases hrun
  · cases hrun

theorem popNode_goes (hr : Rep h L gs) {k n : Nat} (hk : (nodesOf gs)[k]? = some n) :
    ∃ h' gs', Heap.popNode L (some n) h = (.ok (h.value n), h') ∧ Rep h' L gs' ∧ nodesOf gs' = (nodesOf gs).eraseIdx k ∧
      h'.next n = h.next n ∧ h'.prev n = h.prev n ∧ h'.value = h.value := by
  have hlt : k < (nodesOf gs).length := (List.getElem?_eq_some_iff.mp hk).1
  have hsplit : nodesOf gs = (nodesOf gs).take k ++ n :: (nodesOf gs).drop (k + 1) := by
    conv => lhs; rw [← List.take_append_drop k (nodesOf gs)]
    rw [List.drop_eq_getElem_cons hlt, (List.getElem?_eq_some_iff.mp hk).2]
  have hl := hr.links
  rw [hsplit] at hl
  obtain ⟨A, a, t, B, i, rfl, hj, rfl, hat⟩ := locate hlt
  rw [hk] at hat
  rcases cut_group hat.symm with ⟨rfl, rfl⟩ | ⟨t1, t2, rfl, rfl⟩
  · cases t with
    | nil =>
      obtain ⟨h', hrun, hst, hvl, _⟩ := popNode_only hr
      refine ⟨h', _, hrun, hst.rep, ?_, (popNode_keeps hl hrun).1, (popNode_keeps hl hrun).2, hvl⟩
      rw [nodesOf_append, nodesOf_append, List.eraseIdx_append_of_length_le (by omega)]; simp
    | cons y t =>
      obtain ⟨h', hrun, hst, hvl, _⟩ := popNode_head hr
      refine ⟨h', _, hrun, hst.rep, ?_, (popNode_keeps hl hrun).1, (popNode_keeps hl hrun).2, hvl⟩
      rw [nodesOf_append, nodesOf_append, List.eraseIdx_append_of_length_le (by omega)]; simp
  · obtain ⟨h', hrun, hst, hvl, _⟩ := popNode_tail hr
    refine ⟨h', _, hrun, hst.rep, ?_, (popNode_keeps hl hrun).1, (popNode_keeps hl hrun).2, hvl⟩
    have e1 : nodesOf (A ++ (a, t1 ++ n :: t2) :: B) = (nodesOf A ++ a :: t1) ++ (n :: (t2 ++ nodesOf B)) := by simp
    have e2 : (nodesOf A).length + (t1.length + 1) = (nodesOf A ++ a :: t1).length := by simp
    rw [e1, e2, List.eraseIdx_append_of_length_le (Nat.le_refl _), Nat.sub_self]; simp

/-- The links of a node of the list. -/
theorem Rep.links_at (hr : Rep h L gs) {j n : Nat} (hn : (nodesOf gs)[j]? = some n) :
    h.next n = (nodesOf gs)[j + 1]? ∧ h.prev n = if j = 0 then none else (nodesOf gs)[j - 1]? := by
  have hlt : j < (nodesOf gs).length := (List.getElem?_eq_some_iff.mp hn).1
  have hsplit : nodesOf gs = (nodesOf gs).take j ++ n :: (nodesOf gs).drop (j + 1) := by
    conv => lhs; rw [← List.take_append_drop j (nodesOf gs)]
    rw [List.drop_eq_getElem_cons hlt, (List.getElem?_eq_some_iff.mp hn).2]
  have hs := hr.links.seg
  rw [hsplit] at hs
  obtain ⟨hpr, hnx⟩ := seg_mid hs
  refine ⟨by rw [hnx, List.head?_drop], ?_⟩
  rw [hpr, List.getLast?_eq_getElem?, List.length_take, Nat.min_eq_left (by omega)]
  split
  · subst j; simp
  · rw [List.getElem?_take_of_lt (by omega)]

/-- Where the current node, at position `i`, is found afterwards. -/
structure Goes (h' : Heap α) (v : α) (n : Nat) (ns : List Nat) (p : Nat × Nat) : Prop where
  next : h'.next n = ns[p.2]?
  prev : h'.prev n = if p.1 = 0 then none else ns[p.1 - 1]?
  here : p.1 ≠ p.2 → ns[p.1]? = some n
  gone : p.1 = p.2 → h'.isHead n = false ∧ n ∉ ns ∧ h'.value n = v ∧ p.1 ≤ ns.length

theorem Goes.stays {v : α} (hr : Rep h' L gs') {j n : Nat} (hn : (nodesOf gs')[j]? = some n) : Goes h' v n (nodesOf gs') (j, j + 1) :=
  ⟨(hr.links_at hn).1, (hr.links_at hn).2, fun _ => hn, fun h => absurd h (by show ¬j = j + 1; omega)⟩

/-- After a removal. -/
theorem Goes.without (hr : Rep h L gs) {k m i n : Nat} (hk : (nodesOf gs)[k]? = some m) (hn : (nodesOf gs)[i]? = some n)
    (hr' : Rep h' L gs') (hns : nodesOf gs' = (nodesOf gs).eraseIdx k) (h1 : h'.next m = h.next m) (h2 : h'.prev m = h.prev m)
    (h3 : h'.isHead m = false) (h4 : h'.value = h.value) :
    Goes h' (h.value n) n (nodesOf gs') (ListOp.place.without i (some k)) := by
  simp only [ListOp.place.without]
  have hlt : i < (nodesOf gs).length := (List.getElem?_eq_some_iff.mp hn).1
  rcases Nat.lt_trichotomy k i with hki | hki | hki
  · rw [if_pos hki]
    have := Goes.stays (v := h.value n) hr' (j := i - 1) (n := n) (by
      rw [hns, List.getElem?_eraseIdx_of_ge (by omega), Nat.sub_add_cancel (by omega)]; exact hn)
    rwa [Nat.sub_add_cancel (by omega)] at this
  · rw [if_neg (by omega), if_pos hki]
    subst hki
    have hmn : m = n := by rw [hk] at hn; exact Option.some.inj hn
    subst hmn
    obtain ⟨a, b⟩ := hr.links_at hk
    refine ⟨?_, ?_, fun h => absurd rfl h, fun _ => ⟨h3, ?_, by rw [h4], by rw [hns, List.length_eraseIdx_of_lt hlt]; simp only []; omega⟩⟩
    · rw [h1, a, hns, List.getElem?_eraseIdx_of_ge (Nat.le_refl _)]
    · rw [h2, b, hns]
      by_cases h0 : k = 0
      · rw [if_pos h0, if_pos h0]
      · rw [if_neg h0, if_neg h0, List.getElem?_eraseIdx_of_lt (by show k - 1 < k; omega)]
    · rw [hns]
      intro hm
      obtain ⟨j, hj1, hj2⟩ := List.mem_eraseIdx_iff_getElem?.mp hm
      exact hj1 ((List.getElem?_inj (List.getElem?_eq_some_iff.mp hj2).1 hr.links.nodup).mp (hj2.trans hk.symm))
  · rw [if_neg (by omega), if_neg (by omega)]
    exact Goes.stays hr' (by rw [hns, List.getElem?_eraseIdx_of_lt hki]; exact hn)

variable [DecidableEq α]

theorem run_same {op : ListOp α} {le : α → α → Bool} {depth : Nat} {r r' : Except PyErr (Option α)} {h1 h2 : Heap α}
    (ha : op.call le depth L h = (r, h1)) (hb : op.call le depth L h = (r', h2)) : h1 = h2 := by
  rw [ha] at hb; cases hb; rfl

/-- The nodes after an operation, however it is performed. -/
theorem op_goes (le : α → α → Bool) {depth : Nat} (op : ListOp α) (hr : Rep h L gs) (hs : op.Sensible depth (valuesOf h gs))
    (hc : op ≠ .clear) (hso : op ≠ .sort) {r xs'} (hm : op.meaning le (valuesOf h gs) = .ok (r, xs')) {i n : Nat}
    (hn : (nodesOf gs)[i]? = some n) :
    ∃ r' h' gs', op.call le depth L h = (.ok r', h') ∧ Rep h' L gs' ∧ Goes h' (h.value n) n (nodesOf gs') (op.place (valuesOf h gs) i) := by
  have hsz := size_valuesOf h gs
  have hlt : i < (nodesOf gs).length := (List.getElem?_eq_some_iff.mp hn).1
  have pop_goes : ∀ {j : Int} {k : Nat} {o : Option Int}, Nested.pos (nodesOf gs).length j = some k → o.getD ((nodesOf gs).length - 1) = j →
      ∃ v h' gs', Heap.pop L o h = (.ok v, h') ∧ Rep h' L gs' ∧ Goes h' (h.value n) n (nodesOf gs') (ListOp.place.without i (some k)) := by
    intro j k o hk ho
    obtain ⟨h1, h2, h3⟩ := pos_spec hk
    have hkn : (nodesOf gs)[k]? = some (nodesOf gs)[k] := List.getElem?_eq_getElem h1
    obtain ⟨h', gs', hrun, hst, a, b, c, d⟩ := popNode_goes hr hkn
    refine ⟨h.value (nodesOf gs)[k], h', gs', ?_, hst, Goes.without hr hkn hn hst a b c (popNode_off hrun) d⟩
    unfold Heap.pop Heap.len
    simp only [bind_run (HM.read _), read_run, hr.links.cnt]
    rw [ho, bind_ok (hr.conform_ok h2), h3, bind_ok (hr.nodeAt_nat h1), hkn]
    exact hrun
  cases op with
  | prepend v ng =>
    obtain ⟨h', gs', a, b, c⟩ := prepend_nodes hr v ng
    exact ⟨none, h', gs', by simp only [ListOp.call]; rw [bind_ok a]; rfl, b, Goes.stays b (by rw [c]; simpa using hn)⟩
  | append v ng =>
    obtain ⟨h', gs', a, b, _, c, _⟩ := append_step hr v ng
    exact ⟨none, h', gs', by simp only [ListOp.call]; rw [bind_ok a]; rfl, b.rep,
      Goes.stays b.rep (by rw [c, List.getElem?_append_left hlt]; exact hn)⟩
  | extend l =>
    obtain ⟨h', gs', more, a, b, c⟩ := extend_nodes l hr
    exact ⟨none, h', gs', by simp only [ListOp.call]; rw [bind_ok a]; rfl, b,
      Goes.stays b (by rw [c, List.getElem?_append_left hlt]; exact hn)⟩
  | appendGroup l =>
    obtain ⟨h', gs', more, a, b, c⟩ := appendGroup_nodes l hr
    exact ⟨none, h', gs', by simp only [ListOp.call]; rw [bind_ok a]; rfl, b,
      Goes.stays b (by rw [c, List.getElem?_append_left hlt]; exact hn)⟩
  | insert j v =>
    simp only [ListOp.meaning, hsz] at hm
    simp only [ListOp.call, ListOp.place, hsz]
    by_cases hi : j = (nodesOf gs).length
    · rw [if_pos hi]
      obtain ⟨h', gs', a, b, c⟩ := insert_nodes hr v (.inl ⟨hi, rfl⟩)
      exact ⟨none, h', gs', by rw [bind_ok a]; rfl, b, Goes.stays b (by rw [c, List.take_length, List.getElem?_append_left hlt]; exact hn)⟩
    · rw [if_neg hi] at hm ⊢
      cases hk : Nested.pos (nodesOf gs).length j with
      | none => rw [posE_error hk] at hm; cases hm
      | some k =>
        obtain ⟨h', gs', a, b, c⟩ := insert_nodes hr v (.inr hk)
        have hkl := (pos_spec hk).1
        refine ⟨none, h', gs', by rw [bind_ok a]; rfl, b, ?_⟩
        simp only
        split
        · refine Goes.stays b ?_
          rw [c, List.getElem?_append_right (by rw [List.length_take]; omega), List.length_take, Nat.min_eq_left (by omega),
            show i + 1 - k = (i - k) + 1 from by omega, List.getElem?_cons_succ, List.getElem?_drop]
          rw [show k + (i - k) = i from by omega]; exact hn
        · refine Goes.stays b ?_
          rw [c, List.getElem?_append_left (by rw [List.length_take]; omega), List.getElem?_take_of_lt (by omega)]
          exact hn
  | insertGroupAt j =>
    obtain ⟨h1, h2⟩ := hs
    rw [hsz] at h2
    simp only [ListOp.meaning, hsz] at hm
    cases hk : Nested.pos (nodesOf gs).length j with
    | none => rw [posE_error hk] at hm; cases hm
    | some k =>
      obtain ⟨h', gs', a, b, c⟩ := insertGroupAt_nodes hr hk (h2 k hk)
      exact ⟨none, h', gs', by simp only [ListOp.call]; rw [bind_ok a]; rfl, b, Goes.stays b (by rw [c]; exact hn)⟩
  | pop o =>
    simp only [ListOp.meaning, hsz] at hm
    simp only [ListOp.call, ListOp.place, hsz]
    cases o with
    | none =>
      have h1 : Nested.pos (nodesOf gs).length (-1) = some ((nodesOf gs).length - 1) := by
        unfold Nested.pos
        rw [if_neg (by omega), if_pos (by omega)]
        congr 1; omega
      have h2 : Nested.pos (nodesOf gs).length ((nodesOf gs).length - 1 : Int) = some ((nodesOf gs).length - 1) := by
        rw [show ((nodesOf gs).length - 1 : Int) = (((nodesOf gs).length - 1 : Nat) : Int) from by omega]
        exact pos_nat (by omega)
      obtain ⟨v, h', gs', a, b, c⟩ := pop_goes (o := none) h2 rfl
      rw [Option.getD_none, h1]
      exact ⟨some v, h', gs', by rw [bind_ok a]; rfl, b, c⟩
    | some j =>
      rw [Option.getD_some] at hm ⊢
      cases hk : Nested.pos (nodesOf gs).length j with
      | none => rw [posE_error hk] at hm; cases hm
      | some k =>
        obtain ⟨v, h', gs', a, b, c⟩ := pop_goes (o := some j) hk rfl
        exact ⟨some v, h', gs', by rw [bind_ok a]; rfl, b, c⟩
  | delItem j =>
    simp only [ListOp.meaning, hsz] at hm
    simp only [ListOp.call, ListOp.place, hsz]
    cases hk : Nested.pos (nodesOf gs).length j with
    | none => rw [posE_error hk] at hm; cases hm
    | some k =>
      obtain ⟨v, h', gs', a, b, c⟩ := pop_goes (o := some j) hk rfl
      have e1 : Heap.delItem L j h = (.ok (), h') := by unfold Heap.delItem; rw [bind_ok a]; rfl
      exact ⟨none, h', gs', by rw [bind_ok e1]; rfl, b, c⟩
  | remove v =>
    simp only [ListOp.meaning] at hm
    by_cases hv : v ∈ (valuesOf h gs).flatten
    · have hv' := hv
      rw [← map_nodesOf] at hv
      obtain ⟨m, h1, h2⟩ := (findNode_spec v hr.links.seg (Nat.le_succ_of_le hr.length_le)).1 hv
      rw [map_nodesOf] at h1
      obtain ⟨h', gs', hrun, hst, a, b, c, d⟩ := popNode_goes hr h1
      have e1 : Heap.remove L v h = (.ok (), h') := by
        unfold Heap.remove
        rw [bind_run, readE_run, hr.links.fst, h2]
        simp only
        rw [bind_ok hrun]
        rfl
      exact ⟨none, h', gs', by simp only [ListOp.call]; rw [bind_ok e1]; rfl, hst, Goes.without hr h1 hn hst a b c (popNode_off hrun) d⟩
    · rw [if_neg hv] at hm; cases hm
  | setItem j v =>
    simp only [ListOp.meaning, hsz] at hm
    cases hk : Nested.pos (nodesOf gs).length j with
    | none => rw [posE_error hk] at hm; cases hm
    | some k =>
      obtain ⟨h', a, b, _⟩ := setItem_step hr v hk
      exact ⟨none, h', gs, by simp only [ListOp.call]; rw [bind_ok a]; rfl, b.rep, Goes.stays b.rep hn⟩
  | groupSet k j v =>
    simp only [ListOp.meaning] at hm
    have hvk : (valuesOf h gs)[k]? = gs[k]?.map fun g => (g.1 :: g.2).map h.value := by rw [valuesOf, List.getElem?_map]
    cases hk : gs[k]? with
    | none => rw [hk] at hvk; rw [hvk] at hm; cases hm
    | some g =>
      rw [hk] at hvk; rw [hvk] at hm
      simp only [Option.map_some] at hm
      by_cases hj : j < (g.1 :: g.2).length
      · obtain ⟨h', a, b, _⟩ := groupSet_step hr v hk (List.getElem?_eq_getElem hj)
        exact ⟨none, h', gs, by simp only [ListOp.call]; rw [bind_ok (groupAt_ok hr hk), bind_ok a]; rfl, b.rep, Goes.stays b.rep hn⟩
      · rw [if_neg (by simpa using hj)] at hm; cases hm
  | groupDel k j =>
    simp only [ListOp.meaning] at hm
    have hvk : (valuesOf h gs)[k]? = gs[k]?.map fun g => (g.1 :: g.2).map h.value := by rw [valuesOf, List.getElem?_map]
    cases hk : gs[k]? with
    | none => rw [hk] at hvk; rw [hvk] at hm; cases hm
    | some g =>
      rw [hk] at hvk; rw [hvk] at hm
      simp only [Option.map_some] at hm
      by_cases hj : j < (g.1 :: g.2).length
      · have hg := List.mem_of_getElem? hk
        have hgn : g.1 ∈ nodesOf gs := mem_nodesOf.mpr ⟨g, hg, .inl rfl⟩
        have hp := hr.links.par _ hgn
        have hva := viewNodeAt_spec hr hg j
        obtain ⟨hklt, hk'⟩ := List.getElem?_eq_some_iff.mp hk
        have hgs : gs = gs.take k ++ (g.1, g.2) :: gs.drop (k + 1) := by
          conv => lhs; rw [← List.take_append_drop k gs]
          rw [List.drop_eq_getElem_cons hklt, hk']
        have hpos : ((valuesOf h gs).take k).flatten.length = (nodesOf (gs.take k)).length := by
          rw [show (valuesOf h gs).take k = valuesOf h (gs.take k) from by simp [valuesOf, List.map_take], ← map_nodesOf,
            List.length_map]
        have hat : (nodesOf gs)[(nodesOf (gs.take k)).length + j]? = some (g.1 :: g.2)[j] := by
          have e1 : nodesOf gs = nodesOf (gs.take k) ++ ((g.1 :: g.2) ++ nodesOf (gs.drop (k + 1))) := by
            conv => lhs; rw [hgs]
            simp
          rw [e1, List.getElem?_append_right (by omega), Nat.add_sub_cancel_left, List.getElem?_append_left hj,
            List.getElem?_eq_getElem hj]
        obtain ⟨h', gs', hrun, hst, a, b, c, d⟩ := popNode_goes hr hat
        refine ⟨none, h', gs', ?_, hst, ?_⟩
        · simp only [ListOp.call]
          have e1 : Heap.viewDel g.1 j h = (.ok (), h') := by
            unfold Heap.viewDel
            rw [bind_run, readE_run, hva, List.getElem?_eq_getElem hj]
            simp only [bind_run (HM.read _), read_run, hp]
            rw [bind_ok (deref_some _ _), bind_ok hrun]
            rfl
          rw [bind_ok (groupAt_ok hr hk), bind_ok e1]; rfl
        · simp only [ListOp.place, hpos]
          exact Goes.without hr hat hn hst a b c (popNode_off hrun) d
      · rw [if_neg (by simpa using hj)] at hm; cases hm
  | clear => exact absurd rfl hc
  | clearGroups =>
    obtain ⟨h', a, b, _, _⟩ := clearGroups_step hr
    exact ⟨none, h', _, by simp only [ListOp.call]; rw [bind_ok a]; rfl, b.rep, Goes.stays b.rep (by rw [nodesOf_oneGroup]; exact hn)⟩
  | reverse =>
    obtain ⟨h', a, b, _, _⟩ := reverse_step hr
    refine ⟨none, h', _, by simp only [ListOp.call]; rw [bind_ok a]; rfl, b.rep, ?_⟩
    simp only [ListOp.place, hsz]
    rw [show (nodesOf gs).length - i = (nodesOf gs).length - 1 - i + 1 from by omega]
    refine Goes.stays b.rep ?_
    rw [nodesOf_oneGroup, List.getElem?_reverse (by omega), show (nodesOf gs).length - 1 - ((nodesOf gs).length - 1 - i) = i from by omega]
    exact hn
  | sort => exact absurd rfl hso

/-- The node a loop is at. -/
theorem forNodes_sim (le : α → α → Bool) {depth : Nat} (back : Bool) {choose : List α → List (List α) → Option (ListOp α)}
    (hch : GoodChoice depth choose) (fuel : Nat) {seen : List α} {c : Nat} {q : Option Nat} (hr : Rep h L gs)
    (hq : q = (cursor back c).bind fun i => (nodesOf gs)[i]?) :
    ∃ h' gs', Heap.forNodes back (loopBody le depth L choose) fuel seen q h =
        ((loopMeaning le back choose fuel seen c (valuesOf h gs)).1, h') ∧ Step L h h' gs gs' ∧
      valuesOf h' gs' = (loopMeaning le back choose fuel seen c (valuesOf h gs)).2 := by
  induction fuel generalizing h gs seen c q with
  | zero =>
    unfold loopMeaning
    cases q with
    | none =>
      have : ((cursor back c).bind fun i => (valuesOf h gs).flatten[i]?.map fun v => (i, v)) = none := by
        cases hc : cursor back c with
        | none => rfl
        | some i =>
          rw [hc] at hq
          simp only [Option.bind_some] at hq ⊢
          rw [← map_nodesOf, List.getElem?_map, ← hq]; rfl
      rw [this]
      exact ⟨h, gs, rfl, Step.refl hr, rfl⟩
    | some n =>
      cases hc : cursor back c with
      | none => rw [hc] at hq; cases hq
      | some i =>
        rw [hc, Option.bind_some] at hq
        have hv := flatten_get (h := h) hq.symm
        simp only [Option.bind_some, hv, Option.map_some]
        exact ⟨h, gs, rfl, Step.refl hr, rfl⟩
  | succ fuel ih =>
    unfold loopMeaning
    cases q with
    | none =>
      have : ((cursor back c).bind fun i => (valuesOf h gs).flatten[i]?.map fun v => (i, v)) = none := by
        cases hc : cursor back c with
        | none => rfl
        | some i =>
          rw [hc] at hq
          simp only [Option.bind_some] at hq ⊢
          rw [← map_nodesOf, List.getElem?_map, ← hq]; rfl
      rw [this]
      exact ⟨h, gs, rfl, Step.refl hr, rfl⟩
    | some n =>
      cases hc : cursor back c with
      | none => rw [hc] at hq; cases hq
      | some i =>
        rw [hc, Option.bind_some] at hq
        have hv := flatten_get (h := h) hq.symm
        simp only [Option.bind_some, hv, Option.map_some]
        rw [Heap.forNodes]
        simp only [bind_run (HM.read _), read_run]
        have hgo : ∀ {h1 : Heap α} {gs1 : List Grp} {p : Nat × Nat} {v : α}, Goes h1 v n (nodesOf gs1) p →
            (if back then h1.prev n else h1.next n) =
              (cursor back (if back then p.1 else p.2)).bind fun i => (nodesOf gs1)[i]? := by
          intro h1 gs1 p v hg
          cases back with
          | true =>
            simp only [if_true, cursor]
            rw [hg.prev]
            split <;> rfl
          | false =>
            simp only [cursor]
            rw [hg.next]
            rfl
        cases hcs : choose (seen ++ [h.value n]) (valuesOf h gs) with
        | none =>
          have hbody : loopBody le depth L choose (seen ++ [h.value n]) h = (.ok (), h) := by
            unfold loopBody
            rw [bind_ok hr.toNested, hcs]
            rfl
          rw [bind_ok hbody]
          simp only [bind_run (HM.read _), read_run]
          exact ih hr (hgo (p := (i, i + 1)) (v := h.value n) (Goes.stays hr hq.symm))
        | some op =>
          obtain ⟨g1, g2, g3⟩ := hch _ _ _ hcs
          have hsim := op_sim le op hr g1
          simp only
          cases hm : op.meaning le (valuesOf h gs) with
          | error x =>
            rw [hm] at hsim
            have hbody : loopBody le depth L choose (seen ++ [h.value n]) h = (.error x, h) := by
              unfold loopBody
              rw [bind_ok hr.toNested, hcs]
              exact bind_error hsim
            rw [bind_error hbody]
            exact ⟨h, gs, rfl, Step.refl hr, rfl⟩
          | ok rx =>
            obtain ⟨r, xs'⟩ := rx
            rw [hm] at hsim
            obtain ⟨h1, gs1, hrun, hrep, hfr, hval, hst⟩ := hsim
            have hst := hst.resolve_left (fun hh => g2 hh.1)
            obtain ⟨r', h2, gs2, hrun2, hrep2, hgoes⟩ := op_goes le op hr g1 g2 g3 hm hq.symm
            obtain rfl := run_same hrun hrun2
            rw [hrep2.unique hrep] at hgoes
            have hbody : loopBody le depth L choose (seen ++ [h.value n]) h = (.ok (), h1) := by
              unfold loopBody
              rw [bind_ok hr.toNested, hcs]
              exact bind_ok hrun
            rw [bind_ok hbody]
            simp only [bind_run (HM.read _), read_run]
            obtain ⟨h3, gs3, e1, e2, e3⟩ := ih (seen := seen ++ [h.value n]) hrep (hgo hgoes)
            rw [hval] at e1 e3
            exact ⟨h3, gs3, e1, hst.trans e2, e3⟩

theorem forEach_sim (le : α → α → Bool) {depth : Nat} (back : Bool) {choose : List α → List (List α) → Option (ListOp α)}
    (hch : GoodChoice depth choose) (fuel : Nat) (hr : Rep h L gs) :
    ∃ h' gs', Heap.forEach back L (loopBody le depth L choose) fuel h =
        ((loopMeaning le back choose fuel [] (if back then Nested.size (valuesOf h gs) else 0) (valuesOf h gs)).1, h') ∧
      Step L h h' gs gs' ∧
      valuesOf h' gs' = (loopMeaning le back choose fuel [] (if back then Nested.size (valuesOf h gs) else 0) (valuesOf h gs)).2 := by
  unfold Heap.forEach
  simp only [bind_run (HM.read _), read_run]
  apply forNodes_sim le back hch fuel hr
  cases back with
  | false => simp [cursor, hr.links.fst, List.head?_eq_getElem?]
  | true =>
    simp only [if_true, cursor, size_valuesOf, hr.links.lst, List.getLast?_eq_getElem?]
    split
    · rename_i h0; rw [h0, List.length_eq_zero_iff.mp h0]; rfl
    · rfl

end Bibleref
