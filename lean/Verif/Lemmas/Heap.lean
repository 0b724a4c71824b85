import Verif.Model.Heap
import Verif.Lemmas.Groups

/-!
# Linked lists in the heap: representation and reading
-/

namespace Bibleref

/-! ## Updating and running -/

section
variable {β : Type}

@[simp] theorem upd_same (f : Nat → β) (a : Nat) (b : β) : upd f a b a = b := if_pos rfl

theorem upd_ne (f : Nat → β) {a x : Nat} (b : β) (hx : x ≠ a) : upd f a b x = f x := if_neg hx

theorem upd_apply (f : Nat → β) (a x : Nat) (b : β) : upd f a b x = if x = a then b else f x := rfl

/-- Assignment to an attribute of the object a variable refers to, if it is not `None`. -/
def updOpt (f : Nat → β) (o : Option Nat) (b : β) : Nat → β := fun x => if some x = o then b else f x

@[simp] theorem updOpt_none (f : Nat → β) (b : β) : updOpt f none b = f := rfl

theorem updOpt_some (f : Nat → β) (a : Nat) (b : β) : updOpt f (some a) b = upd f a b := by
  funext x
  simp [updOpt, upd]

theorem updOpt_apply (f : Nat → β) (o : Option Nat) (x : Nat) (b : β) : updOpt f o b x = if some x = o then b else f x := rfl

end

namespace HM
variable {α β γ : Type}

theorem pure_run (b : β) (h : Heap α) : (Pure.pure b : HM α β) h = (.ok b, h) := rfl

theorem bind_run (x : HM α β) (f : β → HM α γ) (h : Heap α) : (x >>= f) h =
    match x h with
    | (.ok b, h') => f b h'
    | (.error e, h') => (.error e, h') := rfl

theorem bind_ok {x : HM α β} {f : β → HM α γ} {h h' : Heap α} {b : β} (hx : x h = (.ok b, h')) : (x >>= f) h = f b h' := by
  rw [bind_run, hx]

theorem bind_error {x : HM α β} {f : β → HM α γ} {h h' : Heap α} {e : PyErr} (hx : x h = (.error e, h')) :
    (x >>= f) h = (.error e, h') := by
  rw [bind_run, hx]

theorem throw_run (e : PyErr) (h : Heap α) : (throw e : HM α β) h = (.error e, h) := rfl
theorem read_run (f : Heap α → β) (h : Heap α) : read f h = (.ok (f h), h) := rfl
theorem readE_run (f : Heap α → Except PyErr β) (h : Heap α) : readE f h = (f h, h) := rfl
theorem modify_run (f : Heap α → Heap α) (h : Heap α) : modify f h = (.ok (), f h) := rfl
theorem deref_some (n : Nat) (h : Heap α) : deref (some n) h = (.ok n, h) := rfl
theorem deref_none (h : Heap α) : deref none h = (.error .attributeError, h) := rfl

end HM

/-! ## Doubly linked stretches -/

/-- The nodes `l` are linked to each other in this order, the first one back to `p` and the last one on to `n`. -/
def Seg (pr nx : Nat → Option Nat) : Option Nat → List Nat → Option Nat → Prop
  | _, [], _ => True
  | p, a :: l, n => pr a = p ∧ nx a = l.head?.or n ∧ Seg pr nx (some a) l n

theorem head?_or_append {xs ys : List Nat} {n : Option Nat} : (xs ++ ys).head?.or n = xs.head?.or (ys.head?.or n) := by
  cases xs <;> simp

theorem getLast?_cons_or {a : Nat} {xs : List Nat} {p : Option Nat} : (a :: xs).getLast?.or p = xs.getLast?.or (some a) := by
  cases hx : xs.getLast? with
  | none => simp [List.getLast?_eq_none_iff.mp hx]
  | some z => simp [List.getLast?_cons, hx]

theorem seg_append {pr nx : Nat → Option Nat} {xs ys : List Nat} {p n : Option Nat} :
    Seg pr nx p (xs ++ ys) n ↔ Seg pr nx p xs (ys.head?.or n) ∧ Seg pr nx (xs.getLast?.or p) ys n := by
  induction xs generalizing p with
  | nil => simp [Seg]
  | cons a xs ih =>
    rw [List.cons_append]
    simp only [Seg, ih, head?_or_append, getLast?_cons_or, and_assoc]

theorem seg_congr {pr nx pr' nx' : Nat → Option Nat} {xs : List Nat} {p n : Option Nat} (hs : Seg pr nx p xs n)
    (h1 : ∀ x ∈ xs, pr' x = pr x) (h2 : ∀ x ∈ xs, nx' x = nx x) : Seg pr' nx' p xs n := by
  induction xs generalizing p with
  | nil => trivial
  | cons a xs ih =>
    obtain ⟨k1, k2, k3⟩ := hs
    exact ⟨(h1 a List.mem_cons_self).trans k1, (h2 a List.mem_cons_self).trans k2,
      ih k3 (fun x hx => h1 x (List.mem_cons_of_mem _ hx)) (fun x hx => h2 x (List.mem_cons_of_mem _ hx))⟩

theorem seg_right {pr nx pr' nx' : Nat → Option Nat} {xs : List Nat} {p n n' : Option Nat} (hs : Seg pr nx p xs n) (hN : xs.Nodup)
    (h1 : ∀ x ∈ xs, pr' x = pr x) (h2 : ∀ x ∈ xs, some x ≠ xs.getLast? → nx' x = nx x)
    (h3 : ∀ z, xs.getLast? = some z → nx' z = n') : Seg pr' nx' p xs n' := by
  induction xs generalizing p with
  | nil => trivial
  | cons a xs ih =>
    obtain ⟨k1, k2, k3⟩ := hs
    rw [List.nodup_cons] at hN
    have hlast : ∀ z ∈ xs, (a :: xs).getLast? = xs.getLast? := by
      intro z hz
      cases xs with
      | nil => cases hz
      | cons b xs => simp [List.getLast?_cons_cons]
    refine ⟨(h1 a List.mem_cons_self).trans k1, ?_, ih k3 hN.2 (fun x hx => h1 x (List.mem_cons_of_mem _ hx)) ?_ ?_⟩
    · cases xs with
      | nil => simpa using h3 a rfl
      | cons b xs =>
        rw [h2 a List.mem_cons_self, k2]
        · simp
        · intro hh
          exact hN.1 (List.mem_of_getLast? ((hlast b List.mem_cons_self).symm.trans hh.symm))
    · intro x hx hne
      exact h2 x (List.mem_cons_of_mem _ hx) (by rw [hlast x hx]; exact hne)
    · intro z hz
      exact h3 z (by rw [hlast z (List.mem_of_getLast? hz)]; exact hz)

theorem seg_left {pr nx pr' nx' : Nat → Option Nat} {xs : List Nat} {p p' n : Option Nat} (hs : Seg pr nx p xs n) (hN : xs.Nodup)
    (h1 : ∀ x ∈ xs, nx' x = nx x) (h2 : ∀ x ∈ xs, some x ≠ xs.head? → pr' x = pr x)
    (h3 : ∀ z, xs.head? = some z → pr' z = p') : Seg pr' nx' p' xs n := by
  cases xs with
  | nil => trivial
  | cons a xs =>
    obtain ⟨_, k2, k3⟩ := hs
    rw [List.nodup_cons] at hN
    refine ⟨h3 a rfl, (h1 a List.mem_cons_self).trans k2, seg_congr k3 (fun x hx => ?_) (fun x hx => h1 x (List.mem_cons_of_mem _ hx))⟩
    refine h2 x (List.mem_cons_of_mem _ hx) ?_
    intro hh
    simp only [List.head?_cons, Option.some.injEq] at hh
    exact hN.1 (hh ▸ hx)

/-- Replacing a stretch in the middle of a chain. -/
theorem seg_replace {pr nx pr' nx' : Nat → Option Nat} {A M M' B : List Nat} (hs : Seg pr nx none (A ++ M ++ B) none)
    (hA : A.Nodup) (hB : B.Nodup) (a1 : ∀ x ∈ A, pr' x = pr x) (a2 : ∀ x ∈ A, some x ≠ A.getLast? → nx' x = nx x)
    (a3 : ∀ z, A.getLast? = some z → nx' z = M'.head?.or B.head?)
    (b1 : ∀ x ∈ B, nx' x = nx x) (b2 : ∀ x ∈ B, some x ≠ B.head? → pr' x = pr x)
    (b3 : ∀ z, B.head? = some z → pr' z = M'.getLast?.or A.getLast?)
    (m : Seg pr' nx' A.getLast? M' B.head?) : Seg pr' nx' none (A ++ M' ++ B) none := by
  rw [seg_append, seg_append] at hs ⊢
  obtain ⟨⟨s1, s2⟩, s3⟩ := hs
  refine ⟨⟨seg_right s1 hA a1 a2 ?_, ?_⟩, seg_left s3 hB b1 b2 ?_⟩
  · intro z hz
    rw [a3 z hz, Option.or_none]
  · simpa using m
  · intro z hz
    rw [b3 z hz, Option.or_none, List.getLast?_append]

/-! ## Representation -/

/-- A group of nodes: its head and the rest. -/
abbrev Grp := Nat × List Nat

/-- All nodes, in order. -/
def nodesOf (gs : List Grp) : List Nat := gs.flatMap fun g => g.1 :: g.2

/-- The group heads, in order. -/
def headsOf (gs : List Grp) : List Nat := gs.map (·.1)

@[simp] theorem nodesOf_nil : nodesOf [] = [] := rfl
@[simp] theorem nodesOf_cons (g : Grp) (gs : List Grp) : nodesOf (g :: gs) = g.1 :: g.2 ++ nodesOf gs := rfl
@[simp] theorem nodesOf_append (A B : List Grp) : nodesOf (A ++ B) = nodesOf A ++ nodesOf B := List.flatMap_append
@[simp] theorem headsOf_nil : headsOf [] = [] := rfl
@[simp] theorem headsOf_cons (g : Grp) (gs : List Grp) : headsOf (g :: gs) = g.1 :: headsOf gs := rfl
@[simp] theorem headsOf_append (A B : List Grp) : headsOf (A ++ B) = headsOf A ++ headsOf B := List.map_append
@[simp] theorem length_headsOf (A : List Grp) : (headsOf A).length = A.length := List.length_map _

theorem mem_nodesOf {gs : List Grp} {x : Nat} : x ∈ nodesOf gs ↔ ∃ g ∈ gs, x = g.1 ∨ x ∈ g.2 := by
  simp [nodesOf]

theorem headsOf_sublist (gs : List Grp) : (headsOf gs).Sublist (nodesOf gs) := by
  induction gs with
  | nil => exact .slnil
  | cons g gs ih =>
    rw [headsOf_cons, nodesOf_cons, List.cons_append]
    exact .cons_cons _ (ih.trans (List.sublist_append_right _ _))

theorem mem_headsOf {gs : List Grp} {x : Nat} (hx : x ∈ headsOf gs) : x ∈ nodesOf gs := (headsOf_sublist gs).subset hx

theorem head?_nodesOf (gs : List Grp) : (nodesOf gs).head? = (headsOf gs).head? := by
  cases gs <;> simp

/-- The chain of all nodes of the list `L`. -/
structure Links {α : Type} (h : Heap α) (L : Nat) (xs : List Nat) : Prop where
  nodup : xs.Nodup
  lt : ∀ x ∈ xs, x < h.nodes
  par : ∀ x ∈ xs, h.parent x = some L
  seg : Seg h.prev h.next none xs none
  fst : h.first L = xs.head?
  lst : h.last L = xs.getLast?
  cnt : h.nodeCount L = xs.length

/-- The chain of the group heads of the list `L`. -/
structure Heads {α : Type} (h : Heap α) (L : Nat) (gs : List Grp) : Prop where
  seg : Seg h.prevHead h.nextHead none (headsOf gs) none
  fst : h.firstHead L = (headsOf gs).head?
  lst : h.lastHead L = (headsOf gs).getLast?
  cnt : h.groupCount L = gs.length
  hd : ∀ g ∈ gs, h.isHead g.1 = true
  tl : ∀ g ∈ gs, ∀ x ∈ g.2, h.isHead x = false

/-- The list `L` is made of these groups of nodes. -/
structure Rep {α : Type} (h : Heap α) (L : Nat) (gs : List Grp) : Prop where
  links : Links h L (nodesOf gs)
  heads : Heads h L gs

/-- The groups of values of these groups of nodes. -/
def valuesOf {α : Type} (h : Heap α) (gs : List Grp) : List (List α) := gs.map fun g => (g.1 :: g.2).map h.value

/-- Only the list `L` and its nodes have been changed. -/
structure Frame {α : Type} (L : Nat) (h h' : Heap α) : Prop where
  node : ∀ x, x < h.nodes → h.parent x ≠ some L → h'.value x = h.value x ∧ h'.parent x = h.parent x ∧ h'.prev x = h.prev x ∧
    h'.next x = h.next x ∧ h'.isHead x = h.isHead x ∧ h'.prevHead x = h.prevHead x ∧ h'.nextHead x = h.nextHead x
  list : ∀ M, M ≠ L → h'.first M = h.first M ∧ h'.last M = h.last M ∧ h'.nodeCount M = h.nodeCount M ∧
    h'.firstHead M = h.firstHead M ∧ h'.lastHead M = h.lastHead M ∧ h'.groupCount M = h.groupCount M
  nodes : h.nodes ≤ h'.nodes
  lists : h'.lists = h.lists

variable {α : Type} {h h' h'' : Heap α} {L M : Nat} {gs : List Grp}

theorem Frame.refl (L : Nat) (h : Heap α) : Frame L h h :=
  ⟨fun _ _ _ => ⟨rfl, rfl, rfl, rfl, rfl, rfl, rfl⟩, fun _ _ => ⟨rfl, rfl, rfl, rfl, rfl, rfl⟩, Nat.le_refl _, rfl⟩

theorem Frame.trans (h1 : Frame L h h') (h2 : Frame L h' h'') : Frame L h h'' := by
  refine ⟨fun x hx hp => ?_, fun M hM => ?_, Nat.le_trans h1.nodes h2.nodes, h2.lists.trans h1.lists⟩
  · obtain ⟨a1, a2, a3, a4, a5, a6, a7⟩ := h1.node x hx hp
    obtain ⟨b1, b2, b3, b4, b5, b6, b7⟩ := h2.node x (Nat.lt_of_lt_of_le hx h1.nodes) (by rw [a2]; exact hp)
    exact ⟨b1.trans a1, b2.trans a2, b3.trans a3, b4.trans a4, b5.trans a5, b6.trans a6, b7.trans a7⟩
  · obtain ⟨a1, a2, a3, a4, a5, a6⟩ := h1.list M hM
    obtain ⟨b1, b2, b3, b4, b5, b6⟩ := h2.list M hM
    exact ⟨b1.trans a1, b2.trans a2, b3.trans a3, b4.trans a4, b5.trans a5, b6.trans a6⟩

/-- Another list is not affected. -/
theorem Rep.frame (hr : Rep h M gs) (hM : M ≠ L) (hf : Frame L h h') : Rep h' M gs ∧ valuesOf h' gs = valuesOf h gs := by
  have hn : ∀ x ∈ nodesOf gs, _ := fun x hx => hf.node x (hr.links.lt x hx) (by
    rw [hr.links.par x hx]; intro hh; cases hh; exact hM rfl)
  obtain ⟨l1, l2, l3, l4, l5, l6⟩ := hf.list M hM
  refine ⟨⟨⟨hr.links.nodup, fun x hx => Nat.lt_of_lt_of_le (hr.links.lt x hx) hf.nodes, ?_, ?_, l1.trans hr.links.fst,
    l2.trans hr.links.lst, l3.trans hr.links.cnt⟩, ⟨?_, l4.trans hr.heads.fst, l5.trans hr.heads.lst, l6.trans hr.heads.cnt, ?_, ?_⟩⟩, ?_⟩
  · intro x hx; rw [(hn x hx).2.1, hr.links.par x hx]
  · exact seg_congr hr.links.seg (fun x hx => (hn x hx).2.2.1) (fun x hx => (hn x hx).2.2.2.1)
  · exact seg_congr hr.heads.seg (fun x hx => (hn x (mem_headsOf hx)).2.2.2.2.2.1) (fun x hx => (hn x (mem_headsOf hx)).2.2.2.2.2.2)
  · intro g hg; rw [(hn g.1 (mem_nodesOf.mpr ⟨g, hg, .inl rfl⟩)).2.2.2.2.1, hr.heads.hd g hg]
  · intro g hg x hx; rw [(hn x (mem_nodesOf.mpr ⟨g, hg, .inr hx⟩)).2.2.2.2.1, hr.heads.tl g hg x hx]
  · unfold valuesOf
    apply List.map_congr_left
    intro g hg
    apply List.map_congr_left
    intro x hx
    refine (hn x (mem_nodesOf.mpr ⟨g, hg, ?_⟩)).1
    simpa using hx

/-! ## Reading -/

theorem nodup_length_le {l : List Nat} {n : Nat} (hN : l.Nodup) (hl : ∀ x ∈ l, x < n) : l.length ≤ n := by
  have := List.Nodup.length_le_of_subset hN (l₂ := List.range n) (fun x hx => List.mem_range.mpr (hl x hx))
  simpa using this

theorem chain_seg {pr nx : Nat → Option Nat} {l : List Nat} {p : Option Nat} (hs : Seg pr nx p l none) {k : Nat} (hk : l.length ≤ k) :
    Heap.chain nx k l.head? = .ok l := by
  induction l generalizing p k with
  | nil => cases k <;> rfl
  | cons a l ih =>
    obtain ⟨_, h2, h3⟩ := hs
    obtain ⟨k, rfl⟩ : ∃ k', k = k' + 1 := ⟨k - 1, by simp at hk; omega⟩
    rw [List.head?_cons, Heap.chain, h2, Option.or_none, ih h3 (by simpa using hk)]
    rfl

theorem seg_getLast {pr nx : Nat → Option Nat} {l : List Nat} {a : Nat} {p n : Option Nat} (hs : Seg pr nx p (l ++ [a]) n) :
    pr a = l.getLast?.or p ∧ Seg pr nx p l (some a) := by
  rw [seg_append] at hs
  exact ⟨hs.2.1, hs.1⟩

theorem chain_seg_prev {pr nx : Nat → Option Nat} {l : List Nat} {n : Option Nat} (hs : Seg pr nx none l n) {k : Nat} (hk : l.length ≤ k) :
    Heap.chain pr k l.getLast? = .ok l.reverse := by
  induction k generalizing l n with
  | zero =>
    have : l = [] := List.eq_nil_of_length_eq_zero (by omega)
    subst this; rfl
  | succ k ih =>
    rcases List.eq_nil_or_concat l with rfl | ⟨l, a, rfl⟩
    · rfl
    · rw [List.concat_eq_append] at *
      obtain ⟨h1, h2⟩ := seg_getLast hs
      rw [List.getLast?_concat, Heap.chain, h1, Option.or_none, ih h2 (by simp at hk; omega)]
      simp [bind, Except.bind, pure, Except.pure]

variable (hr : Rep h L gs)
include hr

theorem Rep.length_le : (nodesOf gs).length ≤ h.nodes := nodup_length_le hr.links.nodup hr.links.lt

theorem Rep.ids : Heap.ids L h = .ok (nodesOf gs) := by
  unfold Heap.ids
  rw [hr.links.fst]
  exact chain_seg hr.links.seg (Nat.le_succ_of_le hr.length_le)

omit hr in
theorem map_nodesOf (h : Heap α) (gs : List Grp) : (nodesOf gs).map h.value = (valuesOf h gs).flatten := by
  unfold nodesOf valuesOf
  rw [List.map_flatMap, List.flatMap_def]

omit hr in
theorem valuesOf_ne (h : Heap α) (gs : List Grp) : ∀ g ∈ valuesOf h gs, g ≠ [] := by
  intro g hg
  simp only [valuesOf, List.mem_map] at hg
  obtain ⟨g', _, rfl⟩ := hg
  simp

theorem Rep.toList : Heap.toList L h = (.ok (valuesOf h gs).flatten, h) := by
  unfold Heap.toList
  rw [HM.readE_run, hr.ids, ← map_nodesOf]
  rfl

theorem Rep.toListReversed : Heap.toListReversed L h = (.ok (valuesOf h gs).flatten.reverse, h) := by
  unfold Heap.toListReversed
  rw [HM.readE_run, hr.links.lst, chain_seg_prev hr.links.seg (Nat.le_succ_of_le hr.length_le), ← map_nodesOf]
  simp [bind, Except.bind, pure, Except.pure]

theorem Rep.len : Heap.len L h = (.ok (valuesOf h gs).flatten.length, h) := by
  unfold Heap.len
  rw [HM.read_run, hr.links.cnt, ← map_nodesOf, List.length_map]

theorem Rep.groupsLen : Heap.groupsLen L h = (.ok (valuesOf h gs).length, h) := by
  unfold Heap.groupsLen
  rw [HM.read_run, hr.heads.cnt, valuesOf, List.length_map]

theorem Rep.headIds : Heap.heads L h = .ok (headsOf gs) := by
  unfold Heap.heads
  rw [hr.heads.fst]
  refine chain_seg hr.heads.seg ?_
  have := (headsOf_sublist gs).length_le
  have := hr.length_le
  omega

omit hr in
theorem groupRest_spec {h : Heap α} {n : Nat} {l : List Nat} {B : List Nat} {k : Nat} {p : Option Nat} (hs : Seg h.prev h.next p (n :: l ++ B) none)
    (hl : ∀ x ∈ l, h.isHead x = false) (hB : ∀ x, B.head? = some x → h.isHead x = true) (hk : l.length < k) :
    Heap.groupRest h k n = .ok l := by
  induction l generalizing n k p with
  | nil =>
    obtain ⟨k, rfl⟩ : ∃ k', k = k' + 1 := ⟨k - 1, by omega⟩
    obtain ⟨_, h2, _⟩ := hs
    cases B with
    | nil =>
      have h2 : h.next n = none := h2
      rw [Heap.groupRest, h2]
    | cons b B =>
      have h2 : h.next n = some b := h2
      rw [Heap.groupRest, h2]
      exact if_pos (hB b rfl)
  | cons a l ih =>
    obtain ⟨k, rfl⟩ : ∃ k', k = k' + 1 := ⟨k - 1, by omega⟩
    obtain ⟨_, h2, h3⟩ := hs
    have h2 : h.next n = some a := h2
    rw [Heap.groupRest, h2]
    refine (if_neg (by rw [hl a List.mem_cons_self]; simp)).trans ?_
    rw [ih (p := some n) h3 (fun x hx => hl x (List.mem_cons_of_mem _ hx)) (by simp at hk; omega)]
    rfl

omit hr in
/-- Every group of a list given as a decomposition. -/
theorem exists_split_of_mem {g : Grp} {gs : List Grp} (hg : g ∈ gs) : ∃ A B, gs = A ++ g :: B := List.append_of_mem hg

theorem Rep.viewIds {g : Grp} (hg : g ∈ gs) : Heap.viewIds g.1 h = .ok (g.1 :: g.2) := by
  obtain ⟨A, B, rfl⟩ := List.append_of_mem hg
  have hmem : g.1 ∈ nodesOf (A ++ g :: B) := mem_nodesOf.mpr ⟨g, hg, .inl rfl⟩
  unfold Heap.viewIds Heap.viewCheck
  rw [if_neg (by rw [hr.heads.hd g hg, hr.links.par g.1 hmem]; simp)]
  have hseg := hr.links.seg
  rw [nodesOf_append, nodesOf_cons, seg_append] at hseg
  rw [groupRest_spec hseg.2 (hr.heads.tl g hg) ?_ ?_]
  · rfl
  · intro x hx
    cases B with
    | nil => cases hx
    | cons b B =>
      have hx : b.1 = x := by injection hx
      subst hx
      exact hr.heads.hd b (by simp)
  · have := hr.length_le
    rw [nodesOf_append, nodesOf_cons, List.length_append, List.length_append, List.length_cons] at this
    omega

theorem Rep.toNested : Heap.toNested L h = (.ok (valuesOf h gs), h) := by
  unfold Heap.toNested
  rw [HM.readE_run, hr.headIds]
  have : ∀ l : List Grp, (∀ g ∈ l, g ∈ gs) → ((headsOf l).mapM fun g => do
      let l' ← Heap.viewIds g h
      return l'.map h.value : Except PyErr (List (List α))) = .ok (valuesOf h l) := by
    intro l hl
    induction l with
    | nil => rfl
    | cons g l ih =>
      rw [headsOf_cons, List.mapM_cons, ih (fun x hx => hl x (List.mem_cons_of_mem _ hx)), hr.viewIds (hl g List.mem_cons_self)]
      rfl
  exact Prod.ext (this gs (fun _ hg => hg)) rfl

end Bibleref
