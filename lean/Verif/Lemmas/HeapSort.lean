import Verif.Lemmas.HeapWhole

set_option linter.unusedSimpArgs false

/-!
# Linked lists in the heap: sorting
-/

namespace Bibleref
open HM

variable {α : Type} {h h' h'' : Heap α} {L : Nat} {gs gs' : List Grp}

/-- Only the links between the nodes `S` may have changed. -/
structure Relink (S : List Nat) (h h' : Heap α) : Prop where
  value : h'.value = h.value
  parent : h'.parent = h.parent
  prev : ∀ x, x ∉ S → h'.prev x = h.prev x
  next : ∀ x, x ∉ S → h'.next x = h.next x
  heads : ∀ x, x ∉ S → h'.isHead x = h.isHead x ∧ h'.prevHead x = h.prevHead x ∧ h'.nextHead x = h.nextHead x
  lists : h'.first = h.first ∧ h'.last = h.last ∧ h'.nodeCount = h.nodeCount ∧ h'.firstHead = h.firstHead ∧
    h'.lastHead = h.lastHead ∧ h'.groupCount = h.groupCount ∧ h'.lists = h.lists
  nodes : h'.nodes = h.nodes

theorem Relink.refl (S : List Nat) (h : Heap α) : Relink S h h :=
  ⟨rfl, rfl, fun _ _ => rfl, fun _ _ => rfl, fun _ _ => ⟨rfl, rfl, rfl⟩, ⟨rfl, rfl, rfl, rfl, rfl, rfl, rfl⟩, rfl⟩

theorem Relink.trans {S : List Nat} (h1 : Relink S h h') (h2 : Relink S h' h'') : Relink S h h'' := by
  refine ⟨h2.value.trans h1.value, h2.parent.trans h1.parent, fun x hx => (h2.prev x hx).trans (h1.prev x hx),
    fun x hx => (h2.next x hx).trans (h1.next x hx), fun x hx => ?_, ?_, h2.nodes.trans h1.nodes⟩
  · obtain ⟨a1, a2, a3⟩ := h1.heads x hx
    obtain ⟨b1, b2, b3⟩ := h2.heads x hx
    exact ⟨b1.trans a1, b2.trans a2, b3.trans a3⟩
  · obtain ⟨a1, a2, a3, a4, a5, a6, a7⟩ := h1.lists
    obtain ⟨b1, b2, b3, b4, b5, b6, b7⟩ := h2.lists
    exact ⟨b1.trans a1, b2.trans a2, b3.trans a3, b4.trans a4, b5.trans a5, b6.trans a6, b7.trans a7⟩

theorem Relink.mono {S T : List Nat} (h1 : Relink S h h') (hST : ∀ x ∈ S, x ∈ T) : Relink T h h' :=
  ⟨h1.value, h1.parent, fun x hx => h1.prev x (fun hh => hx (hST x hh)), fun x hx => h1.next x (fun hh => hx (hST x hh)),
    fun x hx => h1.heads x (fun hh => hx (hST x hh)), h1.lists, h1.nodes⟩

theorem Relink.seg {S l : List Nat} {p n : Option Nat} (h1 : Relink S h h') (hS : ∀ x ∈ l, x ∉ S) (hs : Seg h.prev h.next p l n) :
    Seg h'.prev h'.next p l n :=
  seg_congr hs (fun x hx => h1.prev x (hS x hx)) (fun x hx => h1.next x (hS x hx))

/-! ## Merging -/

/-- Comparing nodes by their values. -/
def nodeLe (le : α → α → Bool) (h : Heap α) (a b : Nat) : Bool := le (h.value a) (h.value b)

theorem readE_ok {β : Type} {o : Except PyErr β} {b : β} (ho : o = .ok b) : (HM.readE fun _ => o : HM α β) h = (.ok b, h) := by
  subst ho; rfl

/-- Merging lists of nodes. -/
def nodeMerge (le : Nat → Nat → Bool) (as bs : List Nat) : List Nat := List.merge as bs le

/-- The comparison of the values of two nodes succeeds, with the given outcome. -/
def Compares (lx : α → α → Except PyErr Bool) (le : α → α → Bool) (h : Heap α) (as bs : List Nat) : Prop :=
  ∀ a ∈ as, ∀ b ∈ bs, lx (h.value a) (h.value b) = .ok (le (h.value a) (h.value b))

theorem mergeSublists_perm (le : Nat → Nat → Bool) (as bs : List Nat) : (nodeMerge le as bs).Perm (as ++ bs) :=
  List.merge_perm_append le

theorem getLast?_cons_of_ne {a : Nat} {l : List Nat} (hl : l ≠ []) : (a :: l).getLast? = l.getLast? := by
  cases l with
  | nil => exact absurd rfl hl
  | cons b l => simp [List.getLast?_cons_cons]

/-- Putting a node in front of a merged list. -/
theorem merge_front {a : Nat} {ms S : List Nat} {p : Option Nat} (hm : Seg h.prev h.next p ms none) (hne : ms ≠ []) (hN : ms.Nodup)
    (ha : a ∉ ms) (haS : a ∈ S) (hS : ∀ x ∈ ms, x ∈ S) (r : Option Nat) :
    ∃ h', (do
        Heap.setNext a ms.head?
        let f' ← deref ms.head?
        Heap.setPrev f' (some a)
        Heap.setPrev a none
        return (some a, r) : HM α (Option Nat × Option Nat)) h = (.ok (some a, r), h') ∧
      Seg h'.prev h'.next none (a :: ms) none ∧ Relink S h h' ∧ h'.isHead = h.isHead := by
  obtain ⟨f, ms', rfl⟩ : ∃ f ms', ms = f :: ms' := by
    cases ms with
    | nil => exact absurd rfl hne
    | cons f ms' => exact ⟨f, ms', rfl⟩
  have hfa : f ≠ a := fun hh => ha (by simp [hh])
  refine ⟨{ h with next := upd h.next a (some f), prev := upd (upd h.prev f (some a)) a none }, ?_, ⟨?_, ?_, ?_⟩, ?_, rfl⟩
  · unfold Heap.setNext Heap.setPrev
    simp [bind_run, deref_some, modify_run, pure_run]
  · exact upd_same _ _ _
  · exact upd_same _ _ _
  · refine seg_left hm hN ?_ ?_ ?_
    · intro x hx; exact upd_ne _ _ (ne_of_mem_of_not hx ha)
    · intro x hx hxh
      show upd (upd h.prev f (some a)) a none x = _
      rw [upd_ne _ _ (ne_of_mem_of_not hx ha), upd_ne _ _ (fun hh => hxh (by rw [hh]; rfl))]
    · intro z hz
      simp only [List.head?_cons, Option.some.injEq] at hz
      subst hz
      show upd (upd h.prev f (some a)) a none f = _
      rw [upd_ne _ _ hfa, upd_same]
  · refine ⟨rfl, rfl, ?_, ?_, fun _ _ => ⟨rfl, rfl, rfl⟩, ⟨rfl, rfl, rfl, rfl, rfl, rfl, rfl⟩, rfl⟩
    · intro x hx
      show upd (upd h.prev f (some a)) a none x = _
      rw [upd_ne _ _ (fun hh => hx (by rw [hh]; exact haS)), upd_ne _ _ (fun hh => hx (by rw [hh]; exact hS f (by simp)))]
    · intro x hx
      exact upd_ne _ _ (fun hh => hx (hh ▸ haS))

theorem mergeSublists_nil (le : Nat → Nat → Bool) (bs : List Nat) : nodeMerge le [] bs = bs := by simp [nodeMerge]
theorem mergeSublists_nil_right (le : Nat → Nat → Bool) (as : List Nat) : nodeMerge le as [] = as := by simp [nodeMerge]
theorem mergeSublists_cons (le : Nat → Nat → Bool) (a b : Nat) (as bs : List Nat) : nodeMerge le (a :: as) (b :: bs) =
    if le a b then a :: nodeMerge le as (b :: bs) else b :: nodeMerge le (a :: as) bs := List.cons_merge_cons ..

/-- `_merge_sublists` either runs out of stack or merges. -/
theorem merge_spec {lx : α → α → Except PyErr Bool} {le : α → α → Bool} (d : Nat) {as bs : List Nat} {la lb pa pb : Option Nat}
    (hx : Compares lx le h as bs) (ha : Seg h.prev h.next pa as none)
    (hb : Seg h.prev h.next pb bs none) (hN : (as ++ bs).Nodup) (hne : as ≠ [] ∨ bs ≠ []) (hla : as ≠ [] → la = as.getLast?)
    (hlb : bs ≠ [] → lb = bs.getLast?) :
    (∃ h', Heap.mergeSublists lx d as.head? la bs.head? lb h = (.error .recursionError, h') ∧ d < as.length + bs.length) ∨
    (∃ h' p, Heap.mergeSublists lx d as.head? la bs.head? lb h =
        (.ok ((nodeMerge (nodeLe le h) as bs).head?, (nodeMerge (nodeLe le h) as bs).getLast?), h') ∧
      Seg h'.prev h'.next p (nodeMerge (nodeLe le h) as bs) none ∧ (as ≠ [] → bs ≠ [] → p = none) ∧
      Relink (as ++ bs) h h' ∧ h'.isHead = h.isHead) := by
  induction d generalizing as bs la lb pa pb with
  | zero =>
    left
    refine ⟨h, by rw [Heap.mergeSublists]; rfl, ?_⟩
    rcases hne with hh | hh
    · have := List.length_pos_iff.mpr hh; omega
    · have := List.length_pos_iff.mpr hh; omega
  | succ d ih =>
    cases as with
    | nil =>
      right
      have hbs : bs ≠ [] := hne.resolve_left (fun hh => hh rfl)
      refine ⟨h, pb, ?_, by rw [mergeSublists_nil]; exact hb, fun hh => absurd rfl hh, Relink.refl _ _, rfl⟩
      rw [mergeSublists_nil, ← hlb hbs, List.head?_nil, Heap.mergeSublists]
      rfl
    | cons a as =>
      cases bs with
      | nil =>
        right
        refine ⟨h, pa, ?_, by rw [mergeSublists_nil_right]; exact ha, fun _ hh => absurd rfl hh, Relink.refl _ _, rfl⟩
        rw [mergeSublists_nil_right, ← hla (by simp), List.head?_nil, List.head?_cons, Heap.mergeSublists]
        · rfl
        · simp
      | cons b bs =>
        have hnx : h.next a = as.head? := by rw [ha.2.1, Option.or_none]
        have hnb : h.next b = bs.head? := by rw [hb.2.1, Option.or_none]
        have hab : a ∉ as ++ b :: bs := by
          rw [List.cons_append, List.nodup_cons] at hN; exact hN.1
        have hN1 : (as ++ b :: bs).Nodup := by
          rw [List.cons_append, List.nodup_cons] at hN; exact hN.2
        have hba : b ∉ (a :: as) ++ bs := by
          obtain ⟨_, _, k1, k2, _⟩ := nodup_mid hN
          intro hh
          rcases List.mem_append.mp hh with hh | hh
          · exact k1 hh
          · exact k2 hh
        have hN2 : ((a :: as) ++ bs).Nodup := by
          obtain ⟨k1, k2, _, _, k3⟩ := nodup_mid hN
          rw [List.nodup_append]
          exact ⟨k1, k2, fun x hx y hy hxy => k3 x hx (hxy ▸ hy)⟩
        rw [mergeSublists_cons]
        simp only [List.head?_cons, Heap.mergeSublists]
        simp only [bind_run (HM.read _), read_run]
        rw [bind_ok (readE_ok (hx a (by simp) b (by simp)))]
        by_cases hle : le (h.value a) (h.value b) = true
        · have hle' : nodeLe le h a b = true := hle
          simp only [if_pos hle, if_pos hle']
          simp only [bind_run (HM.read _), read_run, hnx]
          rcases ih (as := as) (bs := b :: bs) (la := la) (lb := lb) (fun x h1 y h2 => hx x (by simp [h1]) y h2) ha.2.2 hb hN1 (.inr (by simp))
            (fun hh => by rw [hla (by simp), getLast?_cons_of_ne hh]) hlb with ⟨h', hrun, hd⟩ | ⟨h', p, hrun, hseg, _, hrel, hhd⟩
          · left
            rw [List.head?_cons] at hrun
            refine ⟨h', by rw [bind_run, hrun], by simp at hd ⊢; omega⟩
          · right
            rw [List.head?_cons] at hrun
            have hperm := mergeSublists_perm (nodeLe le h) as (b :: bs)
            have hmne : nodeMerge (nodeLe le h) as (b :: bs) ≠ [] := by
              intro hh; rw [hh] at hperm
              have := hperm.length_eq; simp at this
            have hmem : ∀ x, x ∈ nodeMerge (nodeLe le h) as (b :: bs) ↔ x ∈ as ++ b :: bs := fun x => hperm.mem_iff
            obtain ⟨h2, hrun2, hseg2, hrel2, hhd2⟩ := merge_front (h := h') (a := a) (S := (a :: as) ++ b :: bs) hseg hmne
              (hperm.nodup_iff.mpr hN1) (fun hh => hab ((hmem a).mp hh)) (by simp)
              (fun x hx => by have := (hmem x).mp hx; simp at this ⊢; grind)
              (nodeMerge (nodeLe le h) as (b :: bs)).getLast?
            refine ⟨h2, none, ?_, hseg2, fun _ _ => rfl, (hrel.mono (by simp; grind)).trans hrel2, hhd2.trans hhd⟩
            rw [bind_run, hrun]
            simp only [List.head?_cons, getLast?_cons_of_ne hmne]
            exact hrun2
        · have hle' : ¬ nodeLe le h a b = true := hle
          simp only [if_neg hle, if_neg hle']
          simp only [bind_run (HM.read _), read_run, hnb]
          rcases ih (as := a :: as) (bs := bs) (la := la) (lb := lb) (fun x h1 y h2 => hx x h1 y (by simp [h2])) ha hb.2.2 hN2 (.inl (by simp))
            hla (fun hh => by rw [hlb (by simp), getLast?_cons_of_ne hh]) with ⟨h', hrun, hd⟩ | ⟨h', p, hrun, hseg, _, hrel, hhd⟩
          · left
            rw [List.head?_cons] at hrun
            refine ⟨h', by rw [bind_run, hrun], by simp at hd ⊢; omega⟩
          · right
            rw [List.head?_cons] at hrun
            have hperm := mergeSublists_perm (nodeLe le h) (a :: as) bs
            have hmne : nodeMerge (nodeLe le h) (a :: as) bs ≠ [] := by
              intro hh; rw [hh] at hperm
              have := hperm.length_eq; simp at this
            have hmem : ∀ x, x ∈ nodeMerge (nodeLe le h) (a :: as) bs ↔ x ∈ (a :: as) ++ bs := fun x => hperm.mem_iff
            obtain ⟨h2, hrun2, hseg2, hrel2, hhd2⟩ := merge_front (h := h') (a := b) (S := (a :: as) ++ b :: bs) hseg hmne
              (hperm.nodup_iff.mpr hN2) (fun hh => hba ((hmem b).mp hh)) (by simp)
              (fun x hx => by have := (hmem x).mp hx; simp at this ⊢; grind)
              (nodeMerge (nodeLe le h) (a :: as) bs).getLast?
            refine ⟨h2, none, ?_, hseg2, fun _ _ => rfl, (hrel.mono (by simp; grind)).trans hrel2, hhd2.trans hhd⟩
            rw [bind_run, hrun]
            simp only [List.head?_cons, getLast?_cons_of_ne hmne]
            exact hrun2

/-- `_merge_sublists` needs a nested call for every node until one of the lists is exhausted. -/
theorem merge_overflow {lx : α → α → Except PyErr Bool} {le : α → α → Bool} (d : Nat) {as bs : List Nat} {la lb pa pb : Option Nat}
    (hx : Compares lx le h as bs)
    (ha : Seg h.prev h.next pa as none) (hb : Seg h.prev h.next pb bs none) (hda : d ≤ as.length) (hdb : d ≤ bs.length) :
    ∃ h', Heap.mergeSublists lx d as.head? la bs.head? lb h = (.error .recursionError, h') := by
  induction d generalizing as bs la lb pa pb with
  | zero => exact ⟨h, by rw [Heap.mergeSublists]; rfl⟩
  | succ d ih =>
    cases as with
    | nil => simp at hda
    | cons a as =>
      cases bs with
      | nil => simp at hdb
      | cons b bs =>
        have hnx : h.next a = as.head? := by rw [ha.2.1, Option.or_none]
        have hnb : h.next b = bs.head? := by rw [hb.2.1, Option.or_none]
        simp only [List.head?_cons, Heap.mergeSublists]
        simp only [bind_run (HM.read _), read_run]
        rw [bind_ok (readE_ok (hx a (by simp) b (by simp)))]
        by_cases hle : le (h.value a) (h.value b) = true
        · simp only [if_pos hle]
          simp only [bind_run (HM.read _), read_run, hnx]
          obtain ⟨h', hrun⟩ := ih (as := as) (bs := b :: bs) (la := la) (lb := lb) (fun x h1 y h2 => hx x (by simp [h1]) y h2) ha.2.2 hb (by simpa using hda) (by simp at hdb ⊢; omega)
          rw [List.head?_cons] at hrun
          exact ⟨h', by rw [bind_run, hrun]⟩
        · simp only [if_neg hle]
          simp only [bind_run (HM.read _), read_run, hnb]
          obtain ⟨h', hrun⟩ := ih (as := a :: as) (bs := bs) (la := la) (lb := lb) (fun x h1 y h2 => hx x h1 y (by simp [h2])) ha hb.2.2 (by simp at hda ⊢; omega) (by simpa using hdb)
          rw [List.head?_cons] at hrun
          exact ⟨h', by rw [bind_run, hrun]⟩

/-! ## Splitting -/

/-- The heap with the heads cleared, or not. -/
def maybeCleared (c : Bool) (h : Heap α) (xs : List Nat) : Heap α := if c then clearedHeads h xs else h

theorem clearedHeads_append (h : Heap α) (xs ys : List Nat) : clearedHeads (clearedHeads h xs) ys = clearedHeads h (xs ++ ys) := by
  unfold clearedHeads
  congr 1 <;>
  · funext x
    by_cases h1 : x ∈ xs <;> by_cases h2 : x ∈ ys <;> simp [h1, h2]

theorem maybeCleared_append (c : Bool) (h : Heap α) (xs ys : List Nat) :
    maybeCleared c (maybeCleared c h xs) ys = maybeCleared c h (xs ++ ys) := by
  cases c
  · rfl
  · exact clearedHeads_append h xs ys

theorem maybeCleared_nil (c : Bool) (h : Heap α) : maybeCleared c h [] = h := by
  cases c
  · rfl
  · simp [maybeCleared, clearedHeads]

theorem maybeCleared_next (c : Bool) (h : Heap α) (xs : List Nat) : (maybeCleared c h xs).next = h.next := by cases c <;> rfl
theorem maybeCleared_prev (c : Bool) (h : Heap α) (xs : List Nat) : (maybeCleared c h xs).prev = h.prev := by cases c <;> rfl
theorem maybeCleared_nodes (c : Bool) (h : Heap α) (xs : List Nat) : (maybeCleared c h xs).nodes = h.nodes := by cases c <;> rfl

theorem clear_run {β : Type} (c : Bool) (h : Heap α) (n : Nat) (k : HM α β) :
    (if c = true then Heap.clearGroupHead n >>= fun _ => k else k) h = k (maybeCleared c h [n]) := by
  cases c with
  | false => rfl
  | true =>
    rw [if_pos rfl, Heap.clearGroupHead, bind_ok (modify_run _ _)]
    congr 1
    unfold maybeCleared clearedHeads
    simp only [if_true]
    congr 1 <;>
    · funext x
      by_cases hx : x = n <;> simp [hx, upd_apply]

theorem splitLoop_run (c : Bool) {k : Nat} {slow : Nat} {s fs : List Nat} {p p' : Option Nat}
    (hs : Seg h.prev h.next p (slow :: s) none) (hf : Seg h.prev h.next p' fs none) (hle : fs.length ≤ s.length) (hk : fs.length ≤ k) :
    ∃ b, (slow :: s)[fs.length / 2]? = some b ∧ Heap.splitLoop c k slow fs.head? h = (.ok b, maybeCleared c h fs) := by
  induction k generalizing h slow s fs p p' with
  | zero =>
    have : fs = [] := List.eq_nil_of_length_eq_zero (by omega)
    subst this
    exact ⟨slow, rfl, by rw [maybeCleared_nil, List.head?_nil, Heap.splitLoop]; rfl⟩
  | succ k ih =>
    match fs, hf, hle, hk with
    | [], _, _, _ => exact ⟨slow, rfl, by rw [maybeCleared_nil, List.head?_nil, Heap.splitLoop]; rfl⟩
    | [f], hf, hle, hk =>
      refine ⟨slow, by simp, ?_⟩
      have hn : (maybeCleared c h [f]).next f = none := by rw [maybeCleared_next]; exact hf.2.1
      rw [List.head?_cons, Heap.splitLoop, clear_run]
      simp only [bind_run, read_run, hn]
      rfl
    | f :: f' :: fs, hf, hle, hk =>
      obtain ⟨s0, s', rfl⟩ : ∃ s0 s', s = s0 :: s' := by
        cases s with
        | nil => simp at hle
        | cons s0 s' => exact ⟨s0, s', rfl⟩
      have hn : (maybeCleared c h [f]).next f = some f' := by rw [maybeCleared_next]; exact hf.2.1
      have hn2 : (maybeCleared c (maybeCleared c h [f]) [f']).next slow = some s0 := by
        rw [maybeCleared_next, maybeCleared_next]; exact hs.2.1
      have hn3 : (maybeCleared c (maybeCleared c h [f]) [f']).next f' = fs.head? := by
        rw [maybeCleared_next, maybeCleared_next, hf.2.2.2.1, Option.or_none]
      obtain ⟨b, hb, hrun⟩ := ih (h := maybeCleared c h [f, f']) (slow := s0) (s := s') (fs := fs)
        (by rw [maybeCleared_next, maybeCleared_prev]; exact hs.2.2)
        (by rw [maybeCleared_next, maybeCleared_prev]; exact hf.2.2.2.2) (by simp at hle; omega) (by simp at hk; omega)
      refine ⟨b, ?_, ?_⟩
      · rw [← hb, show (f :: f' :: fs).length / 2 = fs.length / 2 + 1 from by simp; omega]; rfl
      · rw [List.head?_cons, Heap.splitLoop, clear_run]
        simp only [bind_run (HM.read _), read_run, hn]
        rw [clear_run]
        simp only [bind_run (HM.read _), read_run, hn2]
        rw [bind_ok (deref_some _ _)]
        simp only [bind_run (HM.read _), read_run, hn3]
        rw [maybeCleared_append, List.singleton_append, hrun, maybeCleared_append]
        rfl

/-- The middle of a list, where `_split` cuts it. -/
def half (l : List Nat) : Nat := (l.length + 1) / 2

theorem split_run (c : Bool) {f : Nat} {r : List Nat} (hs : Seg h.prev h.next none (f :: r) none) (hr : r ≠ []) (hN : (f :: r).Nodup)
    (hlt : ∀ x ∈ f :: r, x < h.nodes) : ∃ b h', Heap.split f c h = (.ok b, h') ∧ ((f :: r).drop (half (f :: r))).head? = some b ∧
      Seg h'.prev h'.next none ((f :: r).take (half (f :: r))) none ∧ Seg h'.prev h'.next none ((f :: r).drop (half (f :: r))) none ∧
      Relink (f :: r) h h' ∧ (c = false → h'.isHead = h.isHead) ∧ (c = true → ∀ x ∈ f :: r, h'.isHead x = false) := by
  have hlen := nodup_length_le hN hlt
  have hrl := List.length_pos_iff.mpr hr
  obtain ⟨slow, hslow, hrun⟩ := splitLoop_run (h := maybeCleared c h [f]) c (k := h.nodes + 1) (slow := f) (s := r) (fs := r)
    (by rw [maybeCleared_next, maybeCleared_prev]; exact hs) (by rw [maybeCleared_next, maybeCleared_prev]; exact hs.2.2)
    (Nat.le_refl _) (by simp at hlen; omega)
  rw [maybeCleared_append, List.singleton_append] at hrun
  obtain ⟨X, Y, b, hXY, hXl, hsl⟩ : ∃ X Y b, f :: r = X ++ slow :: b :: Y ∧ X.length + 1 = half (f :: r) ∧ True := by
    have h1 : r.length / 2 + 1 < (f :: r).length := by simp; omega
    refine ⟨(f :: r).take (r.length / 2), (f :: r).drop (r.length / 2 + 2), (f :: r)[r.length / 2 + 1], ?_, ?_, trivial⟩
    · have h2 : r.length / 2 < (f :: r).length := by omega
      have h3 : (f :: r)[r.length / 2] = slow := by
        rw [List.getElem?_eq_getElem h2] at hslow
        exact Option.some.inj hslow
      conv => lhs; rw [← List.take_append_drop (r.length / 2) (f :: r)]
      rw [List.drop_eq_getElem_cons h2, List.drop_eq_getElem_cons h1, h3]
    · rw [List.length_take, half]; simp; omega
  have hmid : (f :: r).take (half (f :: r)) = X ++ [slow] ∧ (f :: r).drop (half (f :: r)) = b :: Y := by
    have e : f :: r = (X ++ [slow]) ++ b :: Y := by rw [hXY]; simp
    have l1 : (X ++ [slow]).length = half (f :: r) := by simp [hXl]
    constructor
    · rw [← l1]; conv => lhs; rw [e]
      exact List.take_left ..
    · rw [← l1]; conv => lhs; rw [e]
      exact List.drop_left ..
  rw [hmid.1, hmid.2]
  have hs' := hs
  rw [hXY, show X ++ slow :: b :: Y = (X ++ [slow]) ++ (b :: Y) from by simp, seg_append] at hs'
  have hN' := hN
  rw [hXY, show X ++ slow :: b :: Y = (X ++ [slow]) ++ (b :: Y) from by simp, List.nodup_append] at hN'
  obtain ⟨hN1, hN2, hN3⟩ := hN'
  have hnb : h.next slow = some b := by
    have := hs; rw [hXY] at this
    exact (seg_mid this).2
  have hsm : slow ∈ f :: r := by rw [hXY]; simp
  have hbm : b ∈ f :: r := by rw [hXY]; simp
  refine ⟨b, { maybeCleared c h (f :: r) with next := upd h.next slow none, prev := upd h.prev b none }, ?_, rfl, ?_, ?_, ?_, ?_, ?_⟩
  · have hsf : (maybeCleared c h [f]).next f = r.head? := by rw [maybeCleared_next, hs.2.1, Option.or_none]
    have hn2 : (maybeCleared c h (f :: r)).next slow = some b := by rw [maybeCleared_next, hnb]
    unfold Heap.split
    rw [clear_run]
    simp only [bind_run (HM.read _), read_run, hsf, maybeCleared_nodes]
    rw [bind_ok hrun]
    simp only [bind_run (HM.read _), read_run, hn2]
    unfold Heap.setNext Heap.setPrev
    rw [bind_ok (modify_run _ _), bind_ok (deref_some _ _), bind_ok (modify_run _ _), maybeCleared_next, maybeCleared_prev]
    cases c <;> rfl
  · refine seg_right hs'.1 hN1 ?_ ?_ ?_
    · intro x hx
      exact upd_ne _ _ (fun hh => hN3 x hx b (by simp) hh)
    · intro x hx hxl
      exact upd_ne _ _ (fun hh => hxl (by rw [hh]; simp))
    · intro z hz
      simp only [List.getLast?_concat, Option.some.injEq] at hz
      subst hz
      exact upd_same _ _ _
  · refine seg_left hs'.2 hN2 ?_ ?_ ?_
    · intro x hx
      exact upd_ne _ _ (fun hh => hN3 slow (by simp) x hx hh.symm)
    · intro x hx hxh
      exact upd_ne _ _ (fun hh => hxh (by rw [hh]; rfl))
    · intro z hz
      simp only [List.head?_cons, Option.some.injEq] at hz
      subst hz
      exact upd_same _ _ _
  · refine ⟨by cases c <;> rfl, by cases c <;> rfl, ?_, ?_, ?_, ?_, by cases c <;> rfl⟩
    · intro x hx; exact upd_ne _ _ (fun hh => hx (hh ▸ hbm))
    · intro x hx; exact upd_ne _ _ (fun hh => hx (hh ▸ hsm))
    · intro x hx
      cases c with
      | false => exact ⟨rfl, rfl, rfl⟩
      | true => simp only [maybeCleared, clearedHeads, if_true, if_neg hx, and_self]
    · cases c <;> exact ⟨rfl, rfl, rfl, rfl, rfl, rfl, rfl⟩
  · intro hc; subst hc; rfl
  · intro hc x hx; subst hc
    simp only [maybeCleared, clearedHeads, if_true, if_pos hx]

/-! ## Sorting -/

theorem nodeLe_congr {le : α → α → Bool} (hv : h'.value = h.value) : nodeLe le h' = nodeLe le h := by
  unfold nodeLe; rw [hv]

theorem mergeSort_step (le : Nat → Nat → Bool) {l : List Nat} (hl : 1 < l.length) :
    l.mergeSort le = nodeMerge le ((l.take (half l)).mergeSort le) ((l.drop (half l)).mergeSort le) := by
  match l, hl with
  | a :: b :: l, _ =>
    rw [List.mergeSort]
    simp [nodeMerge, half, List.MergeSort.Internal.splitInTwo_fst, List.MergeSort.Internal.splitInTwo_snd]

theorem Compares.mono {lx : α → α → Except PyErr Bool} {le : α → α → Bool} {as bs as' bs' : List Nat} (hx : Compares lx le h as bs)
    (ha : ∀ x ∈ as', x ∈ as) (hb : ∀ x ∈ bs', x ∈ bs) (hv : h'.value = h.value) : Compares lx le h' as' bs' := by
  intro x h1 y h2
  rw [hv]
  exact hx x (ha x h1) y (hb y h2)

/-- `_merge_sort` either runs out of stack or sorts. -/
theorem mergeSort_spec {lx : α → α → Except PyErr Bool} {le : α → α → Bool} (d : Nat) (c : Bool) {l : List Nat}
    (hx : Compares lx le h l l) (hs : Seg h.prev h.next none l none) (hN : l.Nodup)
    (hlt : ∀ x ∈ l, x < h.nodes) :
    (∃ h', Heap.mergeSort lx d l.head? c h = (.error .recursionError, h') ∧ d ≤ l.length) ∨
    (∃ h', Heap.mergeSort lx d l.head? c h = (.ok ((l.mergeSort (nodeLe le h)).head?, (l.mergeSort (nodeLe le h)).getLast?), h') ∧
      Seg h'.prev h'.next none (l.mergeSort (nodeLe le h)) none ∧ Relink l h h' ∧ (c = false → h'.isHead = h.isHead) ∧
      (c = true → 1 < l.length → ∀ x ∈ l, h'.isHead x = false)) := by
  induction d generalizing h l c with
  | zero => exact .inl ⟨h, by rw [Heap.mergeSort]; rfl, by omega⟩
  | succ d ih =>
    match l, hx, hs, hN, hlt with
    | [], _, hs, _, _ =>
      right
      refine ⟨h, by rw [List.head?_nil, Heap.mergeSort]; simp [pure_run], by simp [Seg], Relink.refl _ _, fun _ => rfl, by simp⟩
    | [a], _, hs, _, _ =>
      right
      have hn : h.next a = none := hs.2.1
      refine ⟨h, ?_, by simpa using hs, Relink.refl _ _, fun _ => rfl, by simp⟩
      rw [List.head?_cons, Heap.mergeSort]
      simp only [bind_run (HM.read _), read_run, hn, if_true]
      simp [pure_run]
    | a :: b :: l, hx, hs, hN, hlt =>
      have hn : h.next a = some b := hs.2.1
      have hlen : 1 < (a :: b :: l).length := by simp
      have hh1 : half (a :: b :: l) < (a :: b :: l).length := by unfold half; omega
      have hh0 : 0 < half (a :: b :: l) := by unfold half; simp only [List.length_cons]; omega
      obtain ⟨b0, h1, hrun1, hb0, hX, hY, hrel1, hc1, hc2⟩ := split_run c hs (by simp) hN hlt
      have hrun : Heap.mergeSort lx (d + 1) (a :: b :: l).head? c h = (do
          let (x, lx') ← Heap.mergeSort lx d (some a) false
          let (y, ly) ← Heap.mergeSort lx d (some b0) false
          Heap.mergeSublists lx d x lx' y ly : HM α (Option Nat × Option Nat)) h1 := by
        rw [List.head?_cons, Heap.mergeSort]
        simp only [bind_run (HM.read _), read_run, hn]
        rw [if_neg (by simp), bind_ok hrun1]
      rw [hrun]
      generalize hXd : (a :: b :: l).take (half (a :: b :: l)) = X at *
      generalize hYd : (a :: b :: l).drop (half (a :: b :: l)) = Y at *
      have hXY : a :: b :: l = X ++ Y := by rw [← hXd, ← hYd, List.take_append_drop]
      have hXlen : X.length = half (a :: b :: l) := by rw [← hXd, List.length_take]; omega
      have hlenXY : (a :: b :: l).length = X.length + Y.length := by rw [hXY, List.length_append]
      have hXne : X ≠ [] := by intro hh; rw [hh] at hXlen; simp at hXlen; omega
      have hYne : Y ≠ [] := by intro hh; rw [hh] at hb0; cases hb0
      have hXhead : X.head? = some a := by
        cases X with
        | nil => exact absurd rfl hXne
        | cons x X => rw [List.cons_append, List.cons.injEq] at hXY; rw [hXY.1]; rfl
      have hN' := hN
      rw [hXY, List.nodup_append] at hN'
      obtain ⟨hNX, hNY, hdis⟩ := hN'
      have hXm : ∀ x ∈ X, x ∈ a :: b :: l := fun x hx => by rw [hXY]; simp [hx]
      have hYm : ∀ x ∈ Y, x ∈ a :: b :: l := fun x hx => by rw [hXY]; simp [hx]
      have hdl : d + 1 ≤ (a :: b :: l).length → d + 1 ≤ (a :: b :: l).length := id
      rcases ih (h := h1) false (hx.mono hXm hXm hrel1.value) hX hNX (fun x hx => by rw [hrel1.nodes]; exact hlt x (hXm x hx)) with
        ⟨h2, hrun2, hd2⟩ | ⟨h2, hrun2, hseg2, hrel2, hhd2, _⟩
      · left
        rw [hXhead] at hrun2
        refine ⟨h2, by rw [bind_run, hrun2], by have := List.length_pos_iff.mpr hYne; omega⟩
      · rw [hXhead] at hrun2
        have hv1 := hrel1.value
        rw [nodeLe_congr hv1] at hrun2 hseg2
        have hY2 : Seg h2.prev h2.next none Y none := hrel2.seg (fun x hx hh => hdis x hh x hx rfl) hY
        rcases ih (h := h2) false (hx.mono hYm hYm (hrel2.value.trans hrel1.value)) hY2 hNY (fun x hx => by rw [hrel2.nodes, hrel1.nodes]; exact hlt x (hYm x hx)) with
          ⟨h3, hrun3, hd3⟩ | ⟨h3, hrun3, hseg3, hrel3, hhd3, _⟩
        · left
          rw [hb0] at hrun3
          refine ⟨h3, by rw [bind_ok hrun2]; simp only; rw [bind_run, hrun3], by have := List.length_pos_iff.mpr hXne; omega⟩
        · rw [hb0] at hrun3
          rw [nodeLe_congr hrel2.value, nodeLe_congr hv1] at hrun3 hseg3
          have pX : (X.mergeSort (nodeLe le h)).Perm X := List.mergeSort_perm _ _
          have pY : (Y.mergeSort (nodeLe le h)).Perm Y := List.mergeSort_perm _ _
          have hseg2' := hrel3.seg (l := X.mergeSort (nodeLe le h)) (fun x hx hh => hdis x (pX.mem_iff.mp hx) x hh rfl) hseg2
          have hNm : (X.mergeSort (nodeLe le h) ++ Y.mergeSort (nodeLe le h)).Nodup := by
            rw [(pX.append pY).nodup_iff, ← hXY]; exact hN
          have hv3 : h3.value = h.value := hrel3.value.trans (hrel2.value.trans hv1)
          have hms : (a :: b :: l).mergeSort (nodeLe le h) =
              nodeMerge (nodeLe le h) (X.mergeSort (nodeLe le h)) (Y.mergeSort (nodeLe le h)) := by
            rw [mergeSort_step _ hlen, hXd, hYd]
          have neX : X.mergeSort (nodeLe le h) ≠ [] := by
            intro hh; rw [hh] at pX; exact hXne pX.symm.eq_nil
          have neY : Y.mergeSort (nodeLe le h) ≠ [] := by
            intro hh; rw [hh] at pY; exact hYne pY.symm.eq_nil
          rcases merge_spec (h := h3) d (hx.mono (fun x hh => hXm x (pX.mem_iff.mp hh)) (fun x hh => hYm x (pY.mem_iff.mp hh)) hv3) hseg2' hseg3 hNm (.inl neX) (fun _ => rfl) (fun _ => rfl) with
            ⟨h4, hrun4, hd4⟩ | ⟨h4, p, hrun4, hseg4, hp4, hrel4, hhd4⟩
          · left
            refine ⟨h4, by rw [bind_ok hrun2]; simp only; rw [bind_ok hrun3]; exact hrun4, ?_⟩
            rw [pX.length_eq, pY.length_eq] at hd4
            omega
          · right
            rw [nodeLe_congr hv3, ← hms] at hrun4 hseg4
            rw [hp4 neX neY] at hseg4
            have hall := ((hrel1.trans (hrel2.mono hXm)).trans (hrel3.mono hYm)).trans (hrel4.mono (T := a :: b :: l) (by
              intro x hx
              rcases List.mem_append.mp hx with hx | hx
              · exact hXm x (pX.mem_iff.mp hx)
              · exact hYm x (pY.mem_iff.mp hx)))
            have hhd : h4.isHead = h1.isHead := hhd4.trans ((hhd3 rfl).trans (hhd2 rfl))
            refine ⟨h4, by rw [bind_ok hrun2]; simp only; rw [bind_ok hrun3]; exact hrun4, hseg4, hall, fun hc => hhd.trans (hc1 hc), fun hc _ => ?_⟩
            rw [hhd]; exact hc2 hc

/-- `sort` needs nested calls: a list twice as long as the recursion limit allows always makes it fail. -/
theorem mergeSort_overflow {lx : α → α → Except PyErr Bool} {le : α → α → Bool} (d : Nat) (c : Bool) {l : List Nat}
    (hx : Compares lx le h l l) (hs : Seg h.prev h.next none l none) (hN : l.Nodup)
    (hlt : ∀ x ∈ l, x < h.nodes) (hd : 2 * d ≤ l.length) (hl : 2 ≤ l.length) :
    ∃ h', Heap.mergeSort lx d l.head? c h = (.error .recursionError, h') := by
  cases d with
  | zero => exact ⟨h, by rw [Heap.mergeSort]; rfl⟩
  | succ d =>
    match l, hl with
    | a :: b :: l, _ =>
      have hn : h.next a = some b := hs.2.1
      have hlen : 1 < (a :: b :: l).length := by simp
      have hh1 : half (a :: b :: l) < (a :: b :: l).length := by unfold half; omega
      have hh0 : 0 < half (a :: b :: l) := by unfold half; simp only [List.length_cons]; omega
      obtain ⟨b0, h1, hrun1, hb0, hX, hY, hrel1, hc1, hc2⟩ := split_run c hs (by simp) hN hlt
      have hrun : Heap.mergeSort lx (d + 1) (a :: b :: l).head? c h = (do
          let (x, lx') ← Heap.mergeSort lx d (some a) false
          let (y, ly) ← Heap.mergeSort lx d (some b0) false
          Heap.mergeSublists lx d x lx' y ly : HM α (Option Nat × Option Nat)) h1 := by
        rw [List.head?_cons, Heap.mergeSort]
        simp only [bind_run (HM.read _), read_run, hn]
        rw [if_neg (by simp), bind_ok hrun1]
      rw [hrun]
      have hdX : d ≤ half (a :: b :: l) := by unfold half; omega
      have hdY : d ≤ (a :: b :: l).length - half (a :: b :: l) := by unfold half; omega
      generalize hXd : (a :: b :: l).take (half (a :: b :: l)) = X at *
      generalize hYd : (a :: b :: l).drop (half (a :: b :: l)) = Y at *
      have hXY : a :: b :: l = X ++ Y := by rw [← hXd, ← hYd, List.take_append_drop]
      have hXlen : X.length = half (a :: b :: l) := by rw [← hXd, List.length_take]; omega
      have hYlen : Y.length = (a :: b :: l).length - half (a :: b :: l) := by rw [← hYd, List.length_drop]
      have hXne : X ≠ [] := by intro hh; rw [hh] at hXlen; simp at hXlen; omega
      have hXhead : X.head? = some a := by
        cases X with
        | nil => exact absurd rfl hXne
        | cons x X => rw [List.cons_append, List.cons.injEq] at hXY; rw [hXY.1]; rfl
      have hN' := hN
      rw [hXY, List.nodup_append] at hN'
      obtain ⟨hNX, hNY, hdis⟩ := hN'
      have hXm : ∀ x ∈ X, x ∈ a :: b :: l := fun x hx => by rw [hXY]; simp [hx]
      have hYm : ∀ x ∈ Y, x ∈ a :: b :: l := fun x hx => by rw [hXY]; simp [hx]
      rcases mergeSort_spec (h := h1) d false (hx.mono hXm hXm hrel1.value) hX hNX (fun x hx => by rw [hrel1.nodes]; exact hlt x (hXm x hx)) with
        ⟨h2, hrun2, hd2⟩ | ⟨h2, hrun2, hseg2, hrel2, hhd2, _⟩
      · rw [hXhead] at hrun2
        exact ⟨h2, by rw [bind_run, hrun2]⟩
      · rw [hXhead] at hrun2
        have hY2 : Seg h2.prev h2.next none Y none := hrel2.seg (fun x hx hh => hdis x hh x hx rfl) hY
        rcases mergeSort_spec (h := h2) d false (hx.mono hYm hYm (hrel2.value.trans hrel1.value)) hY2 hNY (fun x hx => by rw [hrel2.nodes, hrel1.nodes]; exact hlt x (hYm x hx)) with
          ⟨h3, hrun3, hd3⟩ | ⟨h3, hrun3, hseg3, hrel3, hhd3, _⟩
        · rw [hb0] at hrun3
          exact ⟨h3, by rw [bind_ok hrun2]; simp only; rw [bind_run, hrun3]⟩
        · rw [hb0] at hrun3
          have pX : (X.mergeSort (nodeLe le h1)).Perm X := List.mergeSort_perm _ _
          have pY : (Y.mergeSort (nodeLe le h2)).Perm Y := List.mergeSort_perm _ _
          have hseg2' := hrel3.seg (l := X.mergeSort (nodeLe le h1)) (fun x hx hh => hdis x (pX.mem_iff.mp hx) x hh rfl) hseg2
          obtain ⟨h4, hrun4⟩ := merge_overflow (h := h3) d (hx.mono (fun x hh => hXm x (pX.mem_iff.mp hh))
            (fun x hh => hYm x (pY.mem_iff.mp hh)) (hrel3.value.trans (hrel2.value.trans hrel1.value))) (la := (X.mergeSort (nodeLe le h1)).getLast?)
            (lb := (Y.mergeSort (nodeLe le h2)).getLast?) hseg2' hseg3 (by rw [pX.length_eq]; omega) (by rw [pY.length_eq]; omega)
          exact ⟨h4, by rw [bind_ok hrun2]; simp only; rw [bind_ok hrun3]; exact hrun4⟩

theorem Relink.frame {S : List Nat} (h1 : Relink S h h') (hS : ∀ x ∈ S, h.parent x = some L) : Frame L h h' := by
  obtain ⟨a1, a2, a3, a4, a5, a6, a7⟩ := h1.lists
  refine ⟨fun x _ hx => ?_, fun M _ => by rw [a1, a2, a3, a4, a5, a6]; simp, Nat.le_of_eq h1.nodes.symm, a7⟩
  have hx' : x ∉ S := fun hh => hx (hS x hh)
  obtain ⟨b1, b2, b3⟩ := h1.heads x hx'
  exact ⟨by rw [h1.value], by rw [h1.parent], h1.prev x hx', h1.next x hx', b1, b2, b3⟩

theorem sort_or {lx : α → α → Except PyErr Bool} {le : α → α → Bool} (d : Nat) (hx : Compares lx le h (nodesOf gs) (nodesOf gs)) (hr : Rep h L gs) :
    (∃ h', Heap.sort lx d L h = (.error .recursionError, h') ∧ d ≤ (nodesOf gs).length) ∨
    ∃ h', Heap.sort lx d L h = (.ok (), h') ∧ Step L h h' gs (oneGroup ((nodesOf gs).mergeSort (nodeLe le h))) ∧
      h'.value = h.value ∧ h'.nodes = h.nodes := by
  rcases mergeSort_spec d true hx hr.links.seg hr.links.nodup hr.links.lt with ⟨h1, hrun, hh⟩ | ⟨h1, hrun, hseg, hrel, _, hcl⟩
  · refine .inl ⟨h1, ?_, hh⟩
    unfold Heap.sort
    simp only [bind_run (HM.read _), read_run, hr.links.fst]
    rw [bind_error hrun]
  refine .inr ?_
  obtain ⟨a1, a2, a3, a4, a5, a6, a7⟩ := hrel.lists
  have hp := List.mergeSort_perm (nodesOf gs) (nodeLe le h)
  generalize hms : (nodesOf gs).mergeSort (nodeLe le h) = ms at *
  have hrun2 : Heap.sort lx d L h = Heap.setupSingleGroup L { h1 with
      first := upd h1.first L ms.head?, last := upd h1.last L ms.getLast? } := by
    unfold Heap.sort Heap.setFirst Heap.setLast
    simp only [bind_run (HM.read _), read_run, hr.links.fst]
    rw [bind_ok hrun]
    simp only
    rw [bind_ok (modify_run _ _), bind_ok (modify_run _ _)]
  have hl : Links { h1 with first := upd h1.first L ms.head?, last := upd h1.last L ms.getLast? } L ms := by
    refine ⟨hp.nodup_iff.mpr hr.links.nodup, ?_, ?_, hseg, upd_same _ _ _, upd_same _ _ _, ?_⟩
    · intro x hx
      show x < h1.nodes
      rw [hrel.nodes]; exact hr.links.lt x (hp.mem_iff.mp hx)
    · intro x hx
      show h1.parent x = _
      rw [hrel.parent]; exact hr.links.par x (hp.mem_iff.mp hx)
    · show h1.nodeCount L = _
      rw [a3, hr.links.cnt, hp.length_eq]
  have hfr : Frame L h { h1 with first := upd h1.first L ms.head?, last := upd h1.last L ms.getLast? } :=
    (hrel.frame hr.links.par).trans (firstLast_frame _ L _ _)
  cases ms with
  | nil =>
    have hgs : gs = [] := nodesOf_eq_nil hp.symm.eq_nil
    subst hgs
    have hr' : Rep { h1 with first := upd h1.first L none, last := upd h1.last L none } L [] := by
      refine ⟨hl, ⟨trivial, ?_, ?_, ?_, by simp, by simp⟩⟩
      · show h1.firstHead L = _
        rw [a4]; exact hr.heads.fst
      · show h1.lastHead L = _
        rw [a5]; exact hr.heads.lst
      · show h1.groupCount L = _
        rw [a6]; exact hr.heads.cnt
    have hown := own_same (L := L) (h := h) (h' := { h1 with first := upd h1.first L none, last := upd h1.last L none }) (gs := [])
      (gs' := []) (fun x hx => hx) hrel.parent
    exact ⟨_, by rw [hrun2]; exact setup_nil hr', ⟨hr', hfr, hown.1, hown.2⟩, hrel.value, hrel.nodes⟩
  | cons a l =>
    have hown := own_same (L := L) (h := h) (gs := gs) (gs' := oneGroup (a :: l))
      (h' := setUp { h1 with first := upd h1.first L (a :: l).head?, last := upd h1.last L (a :: l).getLast? } L a)
      (by intro x hx; rw [nodesOf_oneGroup]; exact hp.mem_iff.mpr hx) hrel.parent
    refine ⟨_, by rw [hrun2, setUp_run hl], ⟨setUp_rep hl ?_, ?_, hown.1, hown.2⟩, hrel.value, hrel.nodes⟩
    · intro x hx
      have h1x := hp.mem_iff.mp (List.mem_cons_of_mem a hx)
      refine hcl rfl ?_ x h1x
      rw [← hp.length_eq]
      have := List.length_pos_of_mem hx
      simp; omega
    · exact hfr.trans (setUp_frame (hl.par a (by simp)))

theorem sort_step {lx : α → α → Except PyErr Bool} {le : α → α → Bool} (d : Nat) (hx : Compares lx le h (nodesOf gs) (nodesOf gs)) (hr : Rep h L gs) (hd : (nodesOf gs).length < d) :
    ∃ h', Heap.sort lx d L h = (.ok (), h') ∧ Step L h h' gs (oneGroup ((nodesOf gs).mergeSort (nodeLe le h))) ∧
      h'.value = h.value ∧ h'.nodes = h.nodes := by
  rcases sort_or d hx hr with ⟨_, _, hh⟩ | hh
  · omega
  · exact hh

end Bibleref
