import Verif.Lemmas.HeapInsert

set_option linter.unusedSimpArgs false

/-!
# Linked lists in the heap: the effect of inserting on the groups of nodes
-/

namespace Bibleref
open HM

variable {α : Type} {h h' : Heap α} {L : Nat} {gs gs' : List Grp}

/-- From `h` to `h'` the list `L` has changed from the groups `gs` to `gs'`, nothing else has changed, and no node has been
left behind. -/
structure Step (L : Nat) (h h' : Heap α) (gs gs' : List Grp) : Prop where
  rep : Rep h' L gs'
  frame : Frame L h h'
  own : ∀ x, h'.parent x = some L → x ∈ nodesOf gs' ∨ (h.parent x = some L ∧ x ∉ nodesOf gs)
  other : ∀ x M, M ≠ L → h'.parent x = some M → h.parent x = some M

theorem Step.refl (hr : Rep h L gs) : Step L h h gs gs :=
  ⟨hr, Frame.refl L h, fun x hx => (Classical.em (x ∈ nodesOf gs)).imp_right (fun hn => ⟨hx, hn⟩), fun _ _ _ hx => hx⟩

theorem Step.trans {h'' : Heap α} {gs'' : List Grp} (s1 : Step L h h' gs gs') (s2 : Step L h' h'' gs' gs'') : Step L h h'' gs gs'' := by
  refine ⟨s2.rep, s1.frame.trans s2.frame, fun x hx => ?_, fun x M hM hx => s1.other x M hM (s2.other x M hM hx)⟩
  rcases s2.own x hx with h1 | ⟨h1, h2⟩
  · exact .inl h1
  · exact (s1.own x h1).elim (fun h3 => absurd h3 h2) .inr

theorem Rep.new_not_mem (hr : Rep h L gs) : h.nodes ∉ nodesOf gs := fun hh => Nat.lt_irrefl _ (hr.links.lt _ hh)

theorem Rep.first_eq (hr : Rep h L gs) : h.first L = (headsOf gs).head? := by
  rw [hr.links.fst, head?_nodesOf]

/-- The neighbours of a group head are nodes of the list. -/
theorem Rep.head_nb (hr : Rep h L gs) {g : Nat} (hg : g ∈ headsOf gs) :
    (∀ p, h.prevHead g = some p → p ∈ headsOf gs) ∧ (∀ p, h.nextHead g = some p → p ∈ headsOf gs) := by
  obtain ⟨A, B, hAB⟩ := List.append_of_mem hg
  have hs := hr.heads.seg
  rw [hAB] at hs ⊢
  obtain ⟨h1, h2⟩ := seg_mid hs
  refine ⟨fun p hp => ?_, fun p hp => ?_⟩
  · rw [h1] at hp; simp [List.mem_of_getLast? hp]
  · rw [h2] at hp; simp [List.mem_of_head? hp]

/-- The neighbours of a node are nodes of the list. -/
theorem Links.nb {xs : List Nat} (hl : Links h L xs) {n : Nat} (hn : n ∈ xs) :
    (∀ p, h.prev n = some p → p ∈ xs) ∧ (∀ p, h.next n = some p → p ∈ xs) := by
  obtain ⟨A, B, hAB⟩ := List.append_of_mem hn
  have hs := hl.seg
  rw [hAB] at hs ⊢
  obtain ⟨h1, h2⟩ := seg_mid hs
  refine ⟨fun p hp => ?_, fun p hp => ?_⟩
  · rw [h1] at hp; simp [List.mem_of_getLast? hp]
  · rw [h2] at hp; simp [List.mem_of_head? hp]

/-! ## The first element -/

theorem insertFirst_step (v : α) (hr : Rep h L []) : ∃ h', Heap.insertFirst L v h = (.ok (), h') ∧
    Step L h h' [] [(h.nodes, [])] ∧ h'.value = upd h.value h.nodes v ∧ h'.nodes = h.nodes + 1 := by
  have hc : h.nodeCount L = 0 := hr.links.cnt
  refine ⟨_, by
    unfold Heap.insertFirst Heap.setupSingleGroup Heap.setFirst Heap.setLast Heap.addNodeCount Heap.setIsHead Heap.setPrevHead
      Heap.setNextHead Heap.setFirstHead Heap.setLastHead
    simp [bind_run, newNode_run, modify_run, read_run, hc, deref_some]; rfl, ?_, rfl, rfl⟩
  refine ⟨⟨⟨by simp, by simp, ?_, ?_, ?_, ?_, ?_⟩, ⟨?_, ?_, ?_, ?_, ?_, ?_⟩⟩, ⟨?_, ?_, Nat.le_succ _, rfl⟩, ?_, ?_⟩
  · simp
  · simp [Seg]
  · simp
  · simp
  · simp
  · simp [Seg]
  · simp
  · simp
  · simp
  · simp
  · simp
  · intro x hx _
    have : x ≠ h.nodes := by omega
    simp [upd_ne, this]
  · intro M hM
    simp [upd_ne, hM]
  · intro x hx
    by_cases hxn : x = h.nodes
    · left; simp [hxn]
    · right
      simp only [upd_ne _ _ hxn] at hx
      exact ⟨hx, by simp⟩
  · intro x M hM hx
    by_cases hxn : x = h.nodes
    · simp only [hxn, upd_same, Option.some.injEq] at hx
      exact absurd hx.symm hM
    · simpa only [upd_ne _ _ hxn] using hx

/-! ## Inserting before a node -/

theorem linkBefore_own (n : Nat) (v : α) {gs gs' : List Grp} (hs : ∀ x, x ∈ nodesOf gs' ↔ x = h.nodes ∨ x ∈ nodesOf gs) :
    (∀ x, (linkBefore h L n v).parent x = some L → x ∈ nodesOf gs' ∨ (h.parent x = some L ∧ x ∉ nodesOf gs)) ∧
    ∀ x M, M ≠ L → (linkBefore h L n v).parent x = some M → h.parent x = some M := by
  refine ⟨fun x hx => ?_, fun x M hM hx => ?_⟩
  · by_cases hxn : x = h.nodes
    · exact .inl ((hs x).mpr (.inl hxn))
    · simp only [linkBefore, upd_ne _ _ hxn] at hx
      by_cases hg : x ∈ nodesOf gs
      · exact .inl ((hs x).mpr (.inr hg))
      · exact .inr ⟨hx, hg⟩
  · by_cases hxn : x = h.nodes
    · simp only [linkBefore, hxn, upd_same, Option.some.injEq] at hx
      exact absurd hx.symm hM
    · simpa only [linkBefore, upd_ne _ _ hxn] using hx

theorem linkBefore_frame' {n : Nat} {v : α} {xs : List Nat} (hl : Links h L xs) (hn : n ∈ xs) : Frame L h (linkBefore h L n v) :=
  linkBefore_frame (hl.par n hn) (fun p hp => hl.par p ((hl.nb hn).1 p hp))

theorem insertBefore_tail {A B : List Grp} {g n : Nat} {t1 t2 : List Nat} (v : α) (hr : Rep h L (A ++ (g, t1 ++ n :: t2) :: B)) :
    ∃ h', Heap.insertBefore L (some n) v false h = (.ok (), h') ∧
      Step L h h' (A ++ (g, t1 ++ n :: t2) :: B) (A ++ (g, t1 ++ h.nodes :: n :: t2) :: B) ∧ h'.value = upd h.value h.nodes v ∧
      h'.nodes = h.nodes + 1 := by
  have hnm : n ∈ nodesOf (A ++ (g, t1 ++ n :: t2) :: B) := by simp
  have hhd : h.isHead n = false := hr.heads.tl (g, t1 ++ n :: t2) (by simp) n (by simp)
  refine ⟨linkBefore h L n v, ?_, ⟨⟨?_, ?_⟩, linkBefore_frame' hr.links hnm, ?_, ?_⟩, rfl, rfl⟩
  · rw [insertBefore_run v false (hr.links.par n hnm) (Nat.ne_of_lt (hr.links.lt n hnm)), if_neg (by simp), if_neg (by simp [hhd])]
    rfl
  · have := linkBefore_links (xs := nodesOf A ++ g :: t1) (ys := t2 ++ nodesOf B) (n := n) v (by simpa using hr.links)
    simpa using this
  · refine hr.heads.addNode (by simp) hr.links.lt rfl rfl rfl rfl rfl rfl ?_
    intro g' hg' x hx
    simp only [List.mem_append, List.mem_cons] at hg'
    rcases hg' with hg' | rfl | hg'
    · exact .inr ⟨g', by simp [hg'], hx⟩
    · simp only [List.mem_append, List.mem_cons] at hx
      by_cases hxn : x = h.nodes
      · exact .inl hxn
      · exact .inr ⟨(g, t1 ++ n :: t2), by simp, by simp; grind⟩
    · exact .inr ⟨g', by simp [hg'], hx⟩
  · exact (linkBefore_own n v (by intro x; simp; grind)).1
  · exact (linkBefore_own n v (gs := A ++ (g, t1 ++ n :: t2) :: B) (gs' := A ++ (g, t1 ++ h.nodes :: n :: t2) :: B)
      (by intro x; simp; grind)).2

/-- The list after linking a node before a group head, before the heads are put right. -/
theorem linkBefore_head {A B : List Grp} {n : Nat} {t : List Nat} (v : α) (hr : Rep h L (A ++ (n, t) :: B)) :
    Links (linkBefore h L n v) L (nodesOf A ++ h.nodes :: nodesOf ((n, t) :: B)) ∧ Heads (linkBefore h L n v) L (A ++ (n, t) :: B) := by
  constructor
  · have := linkBefore_links (xs := nodesOf A) (ys := t ++ nodesOf B) (n := n) v (by simpa using hr.links)
    simpa using this
  · exact hr.heads.addNode rfl hr.links.lt rfl rfl rfl rfl rfl rfl (fun g' hg' x hx => .inr ⟨g', hg', hx⟩)

theorem insertBefore_head {A B : List Grp} {n : Nat} {t : List Nat} (v : α) (hr : Rep h L (A ++ (n, t) :: B)) :
    ∃ h', Heap.insertBefore L (some n) v false h = (.ok (), h') ∧
      Step L h h' (A ++ (n, t) :: B) (A ++ (h.nodes, n :: t) :: B) ∧ h'.value = upd h.value h.nodes v ∧ h'.nodes = h.nodes + 1 := by
  have hnm : n ∈ nodesOf (A ++ (n, t) :: B) := by simp
  have hhd : h.isHead n = true := hr.heads.hd (n, t) (by simp)
  obtain ⟨l1, g1⟩ := linkBefore_head v hr
  have hnew := hr.new_not_mem
  have hnn : n ≠ h.nodes := Nat.ne_of_lt (hr.links.lt n hnm)
  have hprev : h.prev n = (nodesOf A).getLast? := by
    have hs := hr.links.seg
    rw [nodesOf_append, nodesOf_cons, List.cons_append] at hs
    exact (seg_mid hs).1
  have hph : (linkBefore h L n v).prevHead n = (headsOf A).getLast? := by
    have hs := g1.seg
    rw [headsOf_append, headsOf_cons] at hs
    exact (seg_mid hs).1
  have hN : (nodesOf (A ++ (n, t) :: B)).Nodup := hr.links.nodup
  have hnA : n ∉ nodesOf A := by
    rw [nodesOf_append, nodesOf_cons, List.cons_append] at hN
    exact (nodup_mid hN).2.2.1
  have hnx : (linkBefore h L n v).next h.nodes = some n := by
    show updOpt (upd h.next h.nodes (some n)) (h.prev n) (some h.nodes) h.nodes = _
    rw [hprev, updOpt_apply, if_neg, upd_same]
    intro hh
    exact hnew (by simp [List.mem_of_getLast? hh.symm])
  refine ⟨displace (linkBefore h L n v) L h.nodes n, ?_, ⟨⟨?_, ?_⟩, ?_, ?_, ?_⟩, rfl, rfl⟩
  · rw [insertBefore_run v false (hr.links.par n hnm) hnn, if_neg (by simp), if_pos hhd]
    refine displace_run hnx ?_
    rw [hph]; intro hh
    exact hnA (mem_headsOf (List.mem_of_getLast? hh))
  · refine Links.same (h := linkBefore h L n v) ?_ rfl rfl rfl rfl rfl rfl rfl
    simpa using l1
  · exact displace_heads g1 hN hnew
  · have hpar : ∀ x ∈ nodesOf (A ++ (n, t) :: B), (linkBefore h L n v).parent x = some L :=
      fun x hx => l1.par x (by simp at hx ⊢; grind)
    have hs := g1.seg
    rw [headsOf_append, headsOf_cons] at hs
    refine (linkBefore_frame' hr.links hnm).trans (displace_frame (upd_same _ _ _) (hpar n hnm) ?_ ?_)
    · intro p hp
      rw [hph] at hp
      have := mem_headsOf (List.mem_of_getLast? hp)
      exact hpar p (by simp [this])
    · intro p hp
      rw [(seg_mid hs).2] at hp
      have := mem_headsOf (List.mem_of_head? hp)
      exact hpar p (by simp [this])
  · exact (linkBefore_own n v (by intro x; simp; grind)).1
  · exact (linkBefore_own n v (gs := A ++ (n, t) :: B) (gs' := A ++ (h.nodes, n :: t) :: B) (by intro x; simp; grind)).2

theorem insertBefore_first_new {B : List Grp} {n : Nat} {t : List Nat} (v : α) (hr : Rep h L ((n, t) :: B)) :
    ∃ h', Heap.insertBefore L (some n) v true h = (.ok (), h') ∧
      Step L h h' ((n, t) :: B) ((h.nodes, []) :: (n, t) :: B) ∧ h'.value = upd h.value h.nodes v ∧ h'.nodes = h.nodes + 1 := by
  have hnm : n ∈ nodesOf ((n, t) :: B) := by simp
  obtain ⟨l1, g1⟩ := linkBefore_head (A := []) v hr
  simp only [List.nil_append, nodesOf_nil] at l1 g1
  have hnew := hr.new_not_mem
  have hnn : n ≠ h.nodes := Nat.ne_of_lt (hr.links.lt n hnm)
  have hfirst : h.first L = some n := hr.first_eq
  have hprev : h.prev n = none := hr.links.seg.1
  have hnx : (linkBefore h L n v).next h.nodes = some n := by
    show updOpt (upd h.next h.nodes (some n)) (h.prev n) (some h.nodes) h.nodes = _
    rw [hprev, updOpt_none, upd_same]
  refine ⟨keepHead (linkBefore h L n v) L h.nodes n, ?_, ⟨⟨?_, ?_⟩, ?_, ?_, ?_⟩, rfl, rfl⟩
  · rw [insertBefore_run v true (hr.links.par n hnm) hnn, if_pos rfl, if_pos hfirst]
    exact keepHead_run hnx g1.seg.1 g1.fst
  · refine Links.same (h := linkBefore h L n v) ?_ rfl rfl rfl rfl rfl rfl rfl
    simpa using l1
  · exact keepHead_heads g1 hr.links.nodup hnew
  · exact (linkBefore_frame' hr.links hnm).trans (keepHead_frame (upd_same _ _ _) (l1.par n (by simp)))
  · exact (linkBefore_own n v (by intro x; simp)).1
  · exact (linkBefore_own n v (gs := (n, t) :: B) (gs' := (h.nodes, []) :: (n, t) :: B) (by intro x; simp)).2

/-! ## Inserting at the end -/

theorem linkLast_rep {A : List Grp} {g : Nat} {t : List Nat} {n : Nat} (v : α) (hr : Rep h L (A ++ [(g, t)]))
    (hn : (nodesOf (A ++ [(g, t)])).getLast? = some n) :
    Step L h (linkLast h L n v) (A ++ [(g, t)]) (A ++ [(g, t ++ [h.nodes])]) := by
  obtain ⟨xs, hxs⟩ : ∃ xs, nodesOf (A ++ [(g, t)]) = xs ++ [n] := by
    rcases List.eq_nil_or_concat (nodesOf (A ++ [(g, t)])) with h0 | ⟨xs, a, h0⟩
    · rw [h0] at hn; cases hn
    · rw [h0, List.concat_eq_append, List.getLast?_concat] at hn
      cases hn
      exact ⟨xs, by rw [h0, List.concat_eq_append]⟩
  have hnm : n ∈ nodesOf (A ++ [(g, t)]) := by rw [hxs]; simp
  have hmem : ∀ x, x ∈ nodesOf (A ++ [(g, t ++ [h.nodes])]) ↔ x = h.nodes ∨ x ∈ nodesOf (A ++ [(g, t)]) := by
    intro x; simp; grind
  refine ⟨⟨?_, ?_⟩, linkLast_frame (hr.links.par n hnm), ?_, ?_⟩
  · have h1 := linkLast_links v (hxs ▸ hr.links)
    have h2 : nodesOf (A ++ [(g, t ++ [h.nodes])]) = xs ++ [n, h.nodes] := by
      rw [show xs ++ [n, h.nodes] = (xs ++ [n]) ++ [h.nodes] from by simp, ← hxs]; simp
    rw [h2]; exact h1
  · refine hr.heads.addNode (by simp) hr.links.lt rfl rfl rfl rfl rfl rfl ?_
    intro g' hg' x hx
    simp only [List.mem_append, List.mem_singleton] at hg'
    rcases hg' with hg' | rfl
    · exact .inr ⟨g', by simp [hg'], hx⟩
    · simp only [List.mem_append, List.mem_singleton] at hx
      rcases hx with hx | hx
      · exact .inr ⟨(g, t), by simp, hx⟩
      · exact .inl hx
  · intro x hx
    by_cases hxn : x = h.nodes
    · exact .inl ((hmem x).mpr (.inl hxn))
    · simp only [linkLast, upd_ne _ _ hxn] at hx
      by_cases hg : x ∈ nodesOf (A ++ [(g, t)])
      · exact .inl ((hmem x).mpr (.inr hg))
      · exact .inr ⟨hx, hg⟩
  · intro x M hM hx
    by_cases hxn : x = h.nodes
    · simp only [linkLast, hxn, upd_same, Option.some.injEq] at hx
      exact absurd hx.symm hM
    · simpa only [linkLast, upd_ne _ _ hxn] using hx

/-- A group begins at a node in the middle of a group. -/
theorem newGroupAt_step {A B : List Grp} {g n : Nat} {t1 t2 : List Nat} (hr : Rep h L (A ++ (g, t1 ++ n :: t2) :: B)) :
    Heap.insertNewGroupAtNode L n h = (.ok (), newGroupAt h L n g) ∧
      Step L h (newGroupAt h L n g) (A ++ (g, t1 ++ n :: t2) :: B) (A ++ (g, t1) :: (n, t2) :: B) := by
  have hsame : nodesOf (A ++ (g, t1) :: (n, t2) :: B) = nodesOf (A ++ (g, t1 ++ n :: t2) :: B) := by simp
  refine ⟨newGroupAt_run hr.links hr.heads, ⟨⟨?_, newGroupAt_heads hr.links.nodup hr.heads⟩, ?_, ?_, fun x M _ hx => hx⟩⟩
  · rw [hsame]
    exact hr.links.same rfl rfl rfl rfl rfl rfl rfl
  · have hgm : g ∈ headsOf (A ++ (g, t1 ++ n :: t2) :: B) := by simp
    refine newGroupAt_frame (hr.links.par n (by simp)) (hr.links.par g (mem_headsOf hgm)) ?_
    intro p hp
    exact hr.links.par p (mem_headsOf ((hr.head_nb hgm).2 p hp))
  · intro x hx
    rw [hsame]
    exact (Classical.em (x ∈ nodesOf (A ++ (g, t1 ++ n :: t2) :: B))).imp_right (fun hh => ⟨hx, hh⟩)

theorem getLast?_nodesOf_concat (A : List Grp) (g : Nat) (t : List Nat) : ∃ n, (nodesOf (A ++ [(g, t)])).getLast? = some n := by
  cases hh : (nodesOf (A ++ [(g, t)])).getLast? with
  | none =>
    rw [List.getLast?_eq_none_iff] at hh
    simp at hh
  | some n => exact ⟨n, rfl⟩

theorem insertAfter_last {A : List Grp} {g : Nat} {t : List Nat} (v : α) (ng : Bool) (hr : Rep h L (A ++ [(g, t)])) :
    ∃ h', Heap.insertAfter L (h.last L) v ng h = (.ok (), h') ∧
      Step L h h' (A ++ [(g, t)]) (if ng then A ++ [(g, t), (h.nodes, [])] else A ++ [(g, t ++ [h.nodes])]) ∧
      h'.value = upd h.value h.nodes v ∧ h'.nodes = h.nodes + 1 := by
  obtain ⟨n, hn⟩ := getLast?_nodesOf_concat A g t
  have hnm := List.mem_of_getLast? hn
  have hl : h.last L = some n := hr.links.lst.trans hn
  have hnx : h.next n = none := by
    obtain ⟨xs, ys, hxs⟩ := List.append_of_mem hnm
    have hs := hr.links.seg
    have hN := hr.links.nodup
    rw [hxs] at hs hN hn
    rw [(seg_mid hs).2]
    cases ys with
    | nil => rfl
    | cons y ys =>
      rw [show (xs ++ n :: y :: ys).getLast? = (y :: ys).getLast? from by simp [List.getLast?_append, List.getLast?_cons]] at hn
      exact absurd (List.mem_of_getLast? hn) (nodup_mid hN).2.2.2.1
  have s1 := linkLast_rep v hr hn
  have hrun := insertAfter_run (L := L) v ng (hr.links.par n hnm) hnx hl
  cases ng with
  | false =>
    exact ⟨_, by rw [hl, hrun]; rfl, s1, rfl, rfl⟩
  | true =>
    obtain ⟨r2, s2⟩ := newGroupAt_step (h := linkLast h L n v) (A := A) (B := []) (g := g) (t1 := t) (n := h.nodes) (t2 := []) s1.rep
    exact ⟨_, by rw [hl, hrun, if_pos rfl, r2], s1.trans s2, rfl, rfl⟩

end Bibleref
