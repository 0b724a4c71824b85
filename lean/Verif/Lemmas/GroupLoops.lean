import Verif.Lemmas.Loops

/-! Loops over the groups of lists that change. -/

namespace Bibleref
open HM
variable {α : Type} {h h' : Heap α} {L : Nat} {gs gs' : List Grp}

/-! ## What is kept of the head of a group -/

/-- The node is the head of a group. -/
def IsHd (n : Nat) (h : Heap α) : Prop := n < h.nodes ∧ h.isHead n = true

/-- The node is the head of a group, or no group is known to follow it. -/
def Loose (n : Nat) (h : Heap α) : Prop := n < h.nodes ∧ (h.isHead n = true ∨ h.nextHead n = none)

/-- What holds before a computation leads to what holds afterwards, whether it raises or not. -/
def Leads {β : Type} (P Q : Heap α → Prop) (m : HM α β) : Prop := ∀ h, P h → Q (m h).2

section
variable {β γ : Type} {P Q R : Heap α → Prop} {n : Nat}

theorem IsHd.loose (hh : IsHd n h) : Loose n h := ⟨hh.1, .inl hh.2⟩

theorem Leads.weaken {m : HM α β} (hm : Leads (IsHd n) (IsHd n) m) : Leads (IsHd n) (Loose n) m := fun h hh => (hm h hh).loose

theorem Leads.bind {x : HM α β} {f : β → HM α γ} (hx : Leads P P x) (hf : ∀ b, Leads P P (f b)) : Leads P P (x >>= f) := by
  intro h hp
  have := hx h hp
  rw [bind_run]
  split
  · rename_i e; rw [e] at this; exact hf _ _ this
  · rename_i e; rw [e] at this; exact this

theorem Leads.first {x : HM α β} {f : β → HM α γ} (hx : Leads (IsHd n) (IsHd n) x) (hf : ∀ b, Leads (IsHd n) (Loose n) (f b)) :
    Leads (IsHd n) (Loose n) (x >>= f) := by
  intro h hp
  have := hx h hp
  rw [bind_run]
  split
  · rename_i e; rw [e] at this; exact hf _ _ this
  · rename_i e; rw [e] at this; exact this.loose

theorem Leads.last {x : HM α β} {f : β → HM α γ} (hx : Leads (IsHd n) (Loose n) x) (hf : ∀ b, Leads (Loose n) (Loose n) (f b)) :
    Leads (IsHd n) (Loose n) (x >>= f) := by
  intro h hp
  have := hx h hp
  rw [bind_run]
  split
  · rename_i e; rw [e] at this; exact hf _ _ this
  · rename_i e; rw [e] at this; exact this

theorem leads_read (f : Heap α → β) : Leads P P (HM.read f) := fun _ hp => hp
theorem leads_readE (f : Heap α → Except PyErr β) : Leads P P (HM.readE f) := fun _ hp => hp
theorem leads_pure (b : β) : Leads P P (Pure.pure b : HM α β) := fun _ hp => hp
theorem leads_throw (e : PyErr) : Leads P P (HM.throw e : HM α β) := fun _ hp => hp
theorem leads_deref (o : Option Nat) : Leads P P (HM.deref o : HM α Nat) := by cases o <;> exact fun _ hp => hp

/-- Writing anything but the marks of group heads. -/
theorem leads_modify {f : Heap α → Heap α} (h1 : ∀ h, (f h).nodes = h.nodes) (h2 : ∀ h, (f h).isHead = h.isHead)
    (h3 : ∀ h, (f h).nextHead = h.nextHead) : Leads (Loose n) (Loose n) (HM.modify f) := by
  intro h hp
  unfold Loose at hp ⊢
  simp only [HM.modify, h1, h2, h3]
  exact hp

theorem leads_modify' {f : Heap α → Heap α} (h1 : ∀ h, (f h).nodes = h.nodes) (h2 : ∀ h, (f h).isHead = h.isHead) :
    Leads (IsHd n) (IsHd n) (HM.modify f) := by
  intro h hp
  unfold IsHd at hp ⊢
  simp only [HM.modify, h1, h2]
  exact hp

theorem leads_setIsHead (m : Nat) : Leads (IsHd n) (IsHd n) (Heap.setIsHead m : HM α Unit) := by
  intro h hp
  refine ⟨hp.1, ?_⟩
  simp only [Heap.setIsHead, HM.modify, upd]
  split
  · rfl
  · exact hp.2

theorem leads_setPrev (m : Nat) (x : Option Nat) : Leads (IsHd n) (IsHd n) (Heap.setPrev m x : HM α Unit) := leads_modify' (fun _ => rfl) fun _ => rfl
theorem leads_setNext (m : Nat) (x : Option Nat) : Leads (IsHd n) (IsHd n) (Heap.setNext m x : HM α Unit) := leads_modify' (fun _ => rfl) fun _ => rfl
theorem leads_setPrevHead (m : Nat) (x : Option Nat) : Leads (IsHd n) (IsHd n) (Heap.setPrevHead m x : HM α Unit) := leads_modify' (fun _ => rfl) fun _ => rfl
theorem leads_setNextHead (m : Nat) (x : Option Nat) : Leads (IsHd n) (IsHd n) (Heap.setNextHead m x : HM α Unit) := leads_modify' (fun _ => rfl) fun _ => rfl
theorem leads_clearParent (m : Nat) : Leads (IsHd n) (IsHd n) (Heap.clearParent m : HM α Unit) := leads_modify' (fun _ => rfl) fun _ => rfl
theorem leads_setFirst (m : Nat) (x : Option Nat) : Leads (IsHd n) (IsHd n) (Heap.setFirst m x : HM α Unit) := leads_modify' (fun _ => rfl) fun _ => rfl
theorem leads_setLast (m : Nat) (x : Option Nat) : Leads (IsHd n) (IsHd n) (Heap.setLast m x : HM α Unit) := leads_modify' (fun _ => rfl) fun _ => rfl
theorem leads_setFirstHead (m : Nat) (x : Option Nat) : Leads (IsHd n) (IsHd n) (Heap.setFirstHead m x : HM α Unit) := leads_modify' (fun _ => rfl) fun _ => rfl
theorem leads_setLastHead (m : Nat) (x : Option Nat) : Leads (IsHd n) (IsHd n) (Heap.setLastHead m x : HM α Unit) := leads_modify' (fun _ => rfl) fun _ => rfl
theorem leads_addNodeCount (m : Nat) (k : Int) : Leads (IsHd n) (IsHd n) (Heap.addNodeCount m k : HM α Unit) := leads_modify' (fun _ => rfl) fun _ => rfl
theorem leads_addGroupCount (m : Nat) (k : Int) : Leads (IsHd n) (IsHd n) (Heap.addGroupCount m k : HM α Unit) := leads_modify' (fun _ => rfl) fun _ => rfl
theorem leads_setValue (m : Nat) (v : α) : Leads (IsHd n) (IsHd n) (Heap.setValue m v) := leads_modify' (fun _ => rfl) fun _ => rfl

theorem leads_newNode (v : α) (p q : Option Nat) (M : Nat) : Leads (IsHd n) (IsHd n) (Heap.newNode v p q M) := by
  intro h hp
  refine ⟨Nat.lt_succ_of_lt hp.1, ?_⟩
  simp only [Heap.newNode, upd]
  rw [if_neg (Nat.ne_of_lt hp.1)]
  exact hp.2

theorem leads_clearGroupHead (m : Nat) (hp : ∀ h, P h → Loose n h) : Leads P (Loose n) (Heap.clearGroupHead m : HM α Unit) := by
  intro h hh
  obtain ⟨h1, h2⟩ := hp h hh
  refine ⟨h1, ?_⟩
  simp only [Heap.clearGroupHead, HM.modify, upd]
  split
  · exact .inr rfl
  · exact h2

end

/-- One such part. -/
macro "keep" : tactic => `(tactic| with_reducible first
  | exact leads_read _ | exact leads_readE _ | exact leads_pure _ | exact leads_throw _ | exact leads_deref _
  | exact leads_setIsHead _ | exact leads_newNode _ _ _ _
  | exact leads_setPrev _ _ | exact leads_setNext _ _ | exact leads_setPrevHead _ _ | exact leads_setNextHead _ _ | exact leads_clearParent _ | exact leads_setFirst _ _ | exact leads_setLast _ _ | exact leads_setFirstHead _ _ | exact leads_setLastHead _ _ | exact leads_addNodeCount _ _ | exact leads_addGroupCount _ _
  | exact leads_modify' (fun _ => rfl) (fun _ => rfl))

/-- Computations made of parts that keep the mark of the head. -/
macro "keeps" : tactic => `(tactic| repeat' with_reducible first
  | keep
  | assumption
  | apply Leads.bind | intro _ | split)

/-- Computations made of such parts, the mark of a head being taken away at the end. -/
macro "loosens" : tactic => `(tactic| repeat' with_reducible first
  | exact leads_clearGroupHead _ (fun _ hh => hh.loose)
  | refine Leads.last (leads_clearGroupHead _ (fun _ hh => hh.loose)) ?_
  | (refine Leads.first ?_ ?_; keep)
  | (refine Leads.weaken ?_; keep)
  | intro _ | split)

section
variable {n : Nat}

theorem leads_checkIsChild {P : Heap α → Prop} (M : Nat) (o : Option Nat) : Leads P P (Heap.checkIsChild M o : HM α Nat) := by
  unfold Heap.checkIsChild
  cases o with
  | none => exact leads_throw _
  | some m => exact Leads.bind (leads_read _) fun _ => by split <;> first | exact leads_pure _ | exact leads_throw _

theorem leads_conformIndex {P : Heap α → Prop} (M : Nat) (i : Int) : Leads P P (Heap.conformIndex M i : HM α Int) := by
  unfold Heap.conformIndex
  refine Leads.bind (leads_read _) fun _ => ?_
  dsimp only
  repeat' split
  all_goals first | exact leads_pure _ | exact leads_throw _

theorem leads_walkNext {P : Heap α → Prop} (k : Nat) (o : Option Nat) : Leads P P (Heap.walkNext k o : HM α (Option Nat)) := by
  induction k generalizing o with
  | zero => exact leads_pure _
  | succ k ih => exact Leads.bind (leads_deref _) fun _ => Leads.bind (leads_read _) fun _ => ih _

theorem leads_walkPrev {P : Heap α → Prop} (k : Nat) (o : Option Nat) : Leads P P (Heap.walkPrev k o : HM α (Option Nat)) := by
  induction k generalizing o with
  | zero => exact leads_pure _
  | succ k ih => exact Leads.bind (leads_deref _) fun _ => Leads.bind (leads_read _) fun _ => ih _

theorem leads_nodeAt {P : Heap α → Prop} (M : Nat) (i : Int) : Leads P P (Heap.nodeAt M i : HM α (Option Nat)) := by
  unfold Heap.nodeAt
  refine Leads.bind (leads_conformIndex _ _) fun _ => Leads.bind (leads_read _) fun _ => ?_
  split
  · exact Leads.bind (leads_read _) fun _ => leads_walkNext _ _
  · exact Leads.bind (leads_read _) fun _ => leads_walkPrev _ _

theorem leads_setupSingleGroup (M : Nat) : Leads (IsHd n) (IsHd n) (Heap.setupSingleGroup M : HM α Unit) := by
  unfold Heap.setupSingleGroup; keeps

theorem leads_insertFirst (M : Nat) (v : α) : Leads (IsHd n) (IsHd n) (Heap.insertFirst M v) := by
  have := @leads_setupSingleGroup α n M
  unfold Heap.insertFirst; keeps

theorem leads_insertNewGroupAtNode (M m : Nat) : Leads (IsHd n) (IsHd n) (Heap.insertNewGroupAtNode M m : HM α Unit) := by
  unfold Heap.insertNewGroupAtNode Heap.findGroupHead; keeps

theorem leads_insertAfter (M : Nat) (o : Option Nat) (v : α) (b : Bool) : Leads (IsHd n) (IsHd n) (Heap.insertAfter M o v b) := by
  unfold Heap.insertAfter
  refine Leads.bind (leads_checkIsChild _ _) fun _ => ?_
  keeps
  all_goals exact leads_insertNewGroupAtNode _ _

theorem leads_append (M : Nat) (v : α) (b : Bool) : Leads (IsHd n) (IsHd n) (Heap.append M v b) := by
  unfold Heap.append Heap.len
  refine Leads.bind (leads_read _) fun _ => ?_
  split
  · exact leads_insertFirst _ _
  · exact Leads.bind (leads_read _) fun _ => leads_insertAfter _ _ _ _

theorem leads_extend (M : Nat) (l : List α) : Leads (IsHd n) (IsHd n) (Heap.extend M l) := by
  induction l with
  | nil => exact leads_pure _
  | cons v l ih => exact Leads.bind (leads_append _ _ _) fun _ => ih

theorem leads_appendGroup (M : Nat) (l : List α) : Leads (IsHd n) (IsHd n) (Heap.appendGroup M l) := by
  cases l with
  | nil => exact leads_pure _
  | cons v l => exact Leads.bind (leads_append _ _ _) fun _ => leads_extend _ _

/-! ## Operations that take away the mark -/

theorem loose_setFirstHead (m : Nat) (x : Option Nat) : Leads (Loose n) (Loose n) (Heap.setFirstHead m x : HM α Unit) :=
  leads_modify (fun _ => rfl) (fun _ => rfl) fun _ => rfl

theorem leads_insertNewGroupBeforeHead (M m : Nat) (keep : Bool) :
    Leads (IsHd n) (Loose n) (Heap.insertNewGroupBeforeHead M m keep : HM α Unit) := by
  unfold Heap.insertNewGroupBeforeHead
  loosens
  all_goals refine Leads.bind (leads_read _) fun _ => ?_
  all_goals split
  all_goals first | exact loose_setFirstHead _ _ | exact leads_pure _

theorem leads_unlink (M m : Nat) : Leads (IsHd n) (IsHd n) (Heap.unlink M m : HM α Unit) := by
  unfold Heap.unlink; keeps

theorem leads_unlinkHead (M m : Nat) : Leads (IsHd n) (Loose n) (Heap.unlinkHead M m : HM α Unit) := by
  unfold Heap.unlinkHead
  refine Leads.first (leads_read _) fun _ => Leads.first (leads_read _) fun _ => Leads.first (leads_read _) fun _ =>
    Leads.first (leads_read _) fun _ => Leads.first (by keeps) fun _ => ?_
  loosens

theorem leads_popNode (M : Nat) (o : Option Nat) : Leads (IsHd n) (Loose n) (Heap.popNode M o : HM α α) := by
  unfold Heap.popNode
  refine Leads.first (leads_checkIsChild _ _) fun m => Leads.first (leads_unlink _ _) fun _ => Leads.first (leads_read _) fun _ => ?_
  dsimp only
  split
  · exact Leads.last (leads_unlinkHead _ _) fun _ => leads_read _
  · exact (leads_read _).weaken

theorem leads_insertBefore (M : Nat) (o : Option Nat) (v : α) (b : Bool) : Leads (IsHd n) (Loose n) (Heap.insertBefore M o v b) := by
  unfold Heap.insertBefore
  refine Leads.first (leads_checkIsChild _ _) fun m => ?_
  loosens
  all_goals first | exact leads_insertNewGroupBeforeHead _ _ _ | exact (leads_insertNewGroupAtNode _ _).weaken

theorem leads_prepend (M : Nat) (v : α) (b : Bool) : Leads (IsHd n) (Loose n) (Heap.prepend M v b) := by
  unfold Heap.prepend Heap.len
  refine Leads.first (leads_read _) fun _ => ?_
  split
  · exact (leads_insertFirst _ _).weaken
  · exact Leads.first (leads_read _) fun _ => leads_insertBefore _ _ _ _

theorem leads_insert (M : Nat) (i : Int) (v : α) : Leads (IsHd n) (Loose n) (Heap.insert M i v) := by
  unfold Heap.insert Heap.len
  refine Leads.first (leads_read _) fun _ => ?_
  split
  · exact leads_prepend _ _ _
  · split
    · exact (leads_append _ _ _).weaken
    · exact Leads.first (leads_nodeAt _ _) fun _ => leads_insertBefore _ _ _ _

theorem leads_insertGroupAt (M : Nat) (i : Int) : Leads (IsHd n) (IsHd n) (Heap.insertGroupAt M i : HM α Unit) :=
  Leads.bind (leads_conformIndex _ _) fun _ => Leads.bind (leads_nodeAt _ _) fun _ => Leads.bind (leads_deref _) fun _ =>
    leads_insertNewGroupAtNode _ _

theorem leads_pop (M : Nat) (i : Option Int) : Leads (IsHd n) (Loose n) (Heap.pop M i : HM α α) :=
  Leads.first (leads_read _) fun _ => Leads.first (leads_conformIndex _ _) fun _ => Leads.first (leads_nodeAt _ _) fun _ => leads_popNode _ _

theorem leads_viewDel (g : Nat) (i : Int) : Leads (IsHd n) (Loose n) (Heap.viewDel g i : HM α Unit) :=
  Leads.first (leads_readE _) fun _ => Leads.first (leads_read _) fun _ => Leads.first (leads_deref _) fun _ =>
    Leads.last (leads_popNode _ _) fun _ => leads_pure _

theorem leads_groupAt {P : Heap α → Prop} (M : Nat) (i : Int) : Leads P P (Heap.groupAt M i : HM α Nat) := by
  unfold Heap.groupAt
  refine Leads.bind (leads_read _) fun _ => ?_
  dsimp only
  repeat' split
  all_goals first | exact leads_throw _ | exact Leads.bind (leads_readE _) fun _ => leads_deref _

theorem loose_setupSingleGroup (M : Nat) : Leads (Loose n) (Loose n) (Heap.setupSingleGroup M : HM α Unit) := by
  have h1 : ∀ m, Leads (Loose n) (Loose n) (Heap.setIsHead m : HM α Unit) := by
    intro m h hp
    refine ⟨hp.1, ?_⟩
    simp only [Heap.setIsHead, HM.modify, upd]
    split
    · exact .inl rfl
    · exact hp.2
  have h2 : ∀ m, Leads (Loose n) (Loose n) (Heap.setNextHead m none : HM α Unit) := by
    intro m h hp
    refine ⟨hp.1, ?_⟩
    simp only [Heap.setNextHead, HM.modify, upd]
    split
    · exact .inr rfl
    · exact hp.2
  unfold Heap.setupSingleGroup
  refine Leads.bind (leads_read _) fun _ => ?_
  split
  · exact Leads.bind (leads_read _) fun _ => Leads.bind (leads_deref _) fun _ => Leads.bind (h1 _) fun _ =>
      Leads.bind (leads_modify (fun _ => rfl) (fun _ => rfl) fun _ => rfl) fun _ => Leads.bind (h2 _) fun _ =>
      Leads.bind (loose_setFirstHead _ _) fun _ => Leads.bind (leads_modify (fun _ => rfl) (fun _ => rfl) fun _ => rfl) fun _ =>
      leads_modify (fun _ => rfl) (fun _ => rfl) fun _ => rfl
  · exact leads_pure _

theorem loose_clearHeads (l : List Nat) : Leads (Loose n) (Loose n) (Heap.clearHeads l : HM α Unit) := by
  induction l with
  | nil => exact leads_pure _
  | cons m l ih => exact Leads.bind (leads_clearGroupHead _ fun _ hh => hh) fun _ => ih

theorem loose_clearGroups (M : Nat) : Leads (Loose n) (Loose n) (Heap.clearGroups M : HM α Unit) :=
  Leads.bind (leads_readE _) fun _ => Leads.bind (loose_clearHeads _) fun _ => loose_setupSingleGroup _

theorem loose_reverseFrom (k : Nat) (o : Option Nat) : Leads (Loose n) (Loose n) (Heap.reverseFrom k o : HM α Unit) := by
  induction k generalizing o with
  | zero => cases o <;> exact fun _ hp => hp
  | succ k ih =>
    cases o with
    | none => exact leads_pure _
    | some m =>
      exact Leads.bind (leads_read _) fun _ => Leads.bind (leads_read _) fun _ =>
        Leads.bind (leads_modify (fun _ => rfl) (fun _ => rfl) fun _ => rfl) fun _ =>
        Leads.bind (leads_modify (fun _ => rfl) (fun _ => rfl) fun _ => rfl) fun _ =>
        Leads.bind (leads_clearGroupHead _ fun _ hh => hh) fun _ => Leads.bind (leads_read _) fun _ => ih _

theorem loose_reverse (M : Nat) : Leads (Loose n) (Loose n) (Heap.reverse M : HM α Unit) := by
  unfold Heap.reverse Heap.len
  refine Leads.bind (leads_read _) fun _ => ?_
  split
  · exact leads_pure _
  · exact Leads.bind (leads_read _) fun _ => Leads.bind (leads_read _) fun _ => Leads.bind (leads_read _) fun _ =>
      Leads.bind (loose_reverseFrom _ _) fun _ =>
      Leads.bind (leads_modify (fun _ => rfl) (fun _ => rfl) fun _ => rfl) fun _ =>
      Leads.bind (leads_modify (fun _ => rfl) (fun _ => rfl) fun _ => rfl) fun _ => loose_setupSingleGroup _

/-! ## The loop -/

theorem groupFrom_at (A : List Grp) (g : Grp) (B : List Grp) :
    Nested.groupFrom (valuesOf h (A ++ g :: B)) (nodesOf A).length = some ((g.1 :: g.2).map h.value) := by
  induction A with
  | nil => simp [valuesOf, Nested.groupFrom]
  | cons a A ih =>
    simp only [valuesOf, List.cons_append, List.map_cons, Nested.groupFrom, nodesOf_cons, List.length_append, List.length_cons,
      List.length_map] at ih ⊢
    rw [if_neg (by omega), if_neg (by omega),
      show a.2.length + (nodesOf A).length + 1 - (a.2.length + 1) = (nodesOf A).length from by omega]
    exact ih

theorem groupFrom_inside (A : List Grp) (g : Grp) (B : List Grp) {i : Nat} (h0 : 0 < i) (hi : i < (g.1 :: g.2).length) :
    Nested.groupFrom (valuesOf h (A ++ g :: B)) ((nodesOf A).length + i) = none := by
  induction A with
  | nil =>
    simp only [List.length_cons] at hi
    simp only [valuesOf, List.nil_append, List.map_cons, Nested.groupFrom, nodesOf_nil, List.length_nil, List.length_cons, List.length_map]
    rw [if_neg (by omega), if_pos (by omega)]
  | cons a A ih =>
    simp only [valuesOf, List.cons_append, List.map_cons, Nested.groupFrom, nodesOf_cons, List.length_append, List.length_cons,
      List.length_map] at ih ⊢
    rw [if_neg (by omega), if_neg (by omega)]
    rw [show a.2.length + (nodesOf A).length + 1 + i - (a.2.length + 1) = (nodesOf A).length + i from by omega]
    exact ih

theorem groupFrom_end (gs : List Grp) : Nested.groupFrom (valuesOf h gs) (nodesOf gs).length = none := by
  induction gs with
  | nil => rfl
  | cons a A ih =>
    simp only [valuesOf, List.map_cons, Nested.groupFrom, nodesOf_cons, List.length_append, List.length_cons, List.length_map] at ih ⊢
    rw [if_neg (by omega), if_neg (by omega), Nat.add_sub_cancel_left]
    exact ih

/-- The node a loop over the groups is at, the current group beginning at position `i`. -/
inductive AtGroup (gs : List Grp) (i : Nat) : Option Nat → Prop
  | group (A : List Grp) (n : Nat) (t : List Nat) (B : List Grp) (hg : gs = A ++ (n, t) :: B) (hi : i = (nodesOf A).length) : AtGroup gs i (some n)
  | finished (hi : i = (nodesOf gs).length) : AtGroup gs i none

/-- The group after the one that begins with the given node. -/
theorem Rep.nextHead {A B : List Grp} {n : Nat} {t : List Nat} (hr : Rep h L (A ++ (n, t) :: B)) :
    AtGroup (A ++ (n, t) :: B) ((nodesOf A).length + ((n :: t).map h.value).length) (h.nextHead n) := by
  have hs := hr.heads.seg
  rw [headsOf_append, headsOf_cons] at hs
  rw [(seg_mid hs).2]
  cases B with
  | nil => exact .finished (by simp)
  | cons b B => exact .group (A ++ [(n, t)]) b.1 b.2 B (by simp) (by simp)

variable [DecidableEq α]

/-- After an operation on a list, a node that was the head of a group still is, or no group is known to follow it. -/
theorem op_loose (le : α → α → Bool) {depth : Nat} (op : ListOp α) (hso : op ≠ .sort) (M : Nat) :
    Leads (IsHd n) (Loose n) (op.call le depth M) := by
  cases op with
  | prepend v b => exact Leads.last (leads_prepend _ _ _) fun _ => leads_pure _
  | append v b => exact Leads.last (leads_append _ _ _).weaken fun _ => leads_pure _
  | extend l => exact Leads.last (leads_extend _ _).weaken fun _ => leads_pure _
  | appendGroup l => exact Leads.last (leads_appendGroup _ _).weaken fun _ => leads_pure _
  | insert i v => exact Leads.last (leads_insert _ _ _) fun _ => leads_pure _
  | insertGroupAt i => exact Leads.last (leads_insertGroupAt _ _).weaken fun _ => leads_pure _
  | pop i => exact Leads.last (leads_pop _ _) fun _ => leads_pure _
  | remove v =>
    exact Leads.last (Leads.first (leads_readE _) fun _ => Leads.last (leads_popNode _ _) fun _ => leads_pure _) fun _ => leads_pure _
  | setItem i v =>
    exact Leads.last (Leads.bind (leads_nodeAt _ _) fun _ => Leads.bind (leads_deref _) fun _ => leads_setValue _ _).weaken
      fun _ => leads_pure _
  | delItem i => exact Leads.last (Leads.last (leads_pop _ _) fun _ => leads_pure _) fun _ => leads_pure _
  | groupSet k i v =>
    exact Leads.first (leads_groupAt _ _) fun _ =>
      Leads.last (Leads.bind (leads_readE _) fun _ => leads_setValue _ _).weaken fun _ => leads_pure _
  | groupDel k i => exact Leads.first (leads_groupAt _ _) fun _ => Leads.last (leads_viewDel _ _) fun _ => leads_pure _
  | clear => exact Leads.last (leads_modify' (fun _ => rfl) fun _ => rfl).weaken fun _ => leads_pure _
  | clearGroups => exact Leads.last (fun h hp => loose_clearGroups _ h hp.loose) fun _ => leads_pure _
  | reverse => exact Leads.last (fun h hp => loose_reverse _ h hp.loose) fun _ => leads_pure _
  | sort => exact absurd rfl hso

omit [DecidableEq α] in
/-- The group that begins with a node of the list, and the one after it. -/
theorem next_group (hr : Rep h L gs) (hl : Loose n h) {j : Nat} (hn : (nodesOf gs)[j]? = some n) :
    match Nested.groupFrom (valuesOf h gs) j with
    | none => h.nextHead n = none
    | some g => AtGroup gs (j + g.length) (h.nextHead n) := by
  obtain ⟨A, a, t, B, i, rfl, h1, rfl, h2⟩ := locate (List.getElem?_eq_some_iff.mp hn).1
  rw [hn] at h2
  cases i with
  | zero =>
    simp only [List.getElem?_cons_zero, Option.some.injEq] at h2
    subst h2
    rw [Nat.add_zero, groupFrom_at]
    exact hr.nextHead
  | succ i =>
    rw [groupFrom_inside A (a, t) B (by omega) h1]
    rw [List.getElem?_cons_succ] at h2
    have := hr.heads.tl (a, t) (by simp) n (List.mem_of_getElem? h2.symm)
    rcases hl.2 with h3 | h3
    · rw [this] at h3; cases h3
    · exact h3

theorem forHeads_sim (le : α → α → Bool) {depth : Nat} {choose : List α → List (List α) → Option (ListOp α)}
    (hch : GoodChoice depth choose) (fuel : Nat) {c i : Nat} {q : Option Nat} (hr : Rep h L gs) (hq : AtGroup gs i q) :
    ∃ h' gs', Heap.forHeads (groupBody le depth L choose) fuel c q h =
        ((groupLoopMeaning le choose fuel c i (valuesOf h gs)).1, h') ∧ Step L h h' gs gs' ∧
      valuesOf h' gs' = (groupLoopMeaning le choose fuel c i (valuesOf h gs)).2 := by
  induction fuel generalizing h gs c i q with
  | zero =>
    unfold groupLoopMeaning
    cases hq with
    | finished hi =>
      rw [hi, groupFrom_end]
      exact ⟨h, gs, rfl, Step.refl hr, rfl⟩
    | group A n t B hg hi =>
      subst hg; subst hi
      rw [groupFrom_at]
      exact ⟨h, _, rfl, Step.refl hr, rfl⟩
  | succ fuel ih =>
    unfold groupLoopMeaning
    cases hq with
    | finished hi =>
      rw [hi, groupFrom_end]
      exact ⟨h, gs, rfl, Step.refl hr, rfl⟩
    | group A n t B hg hi =>
      subst hg; subst hi
      rw [groupFrom_at]
      simp only
      rw [Heap.forHeads]
      have hmem : (n, t) ∈ A ++ (n, t) :: B := by simp
      have hat : (nodesOf (A ++ (n, t) :: B))[(nodesOf A).length]? = some n := by simp
      have hhd : IsHd n h := ⟨hr.links.lt n (mem_nodesOf.mpr ⟨_, hmem, .inl rfl⟩), hr.heads.hd _ hmem⟩
      cases hcs : choose ((n :: t).map h.value) (valuesOf h (A ++ (n, t) :: B)) with
      | none =>
        have hbody : groupBody le depth L choose n h = (.ok (), h) := by
          unfold groupBody
          rw [bind_ok (view_read hr hmem).1, bind_ok hr.toNested, hcs]
          rfl
        rw [bind_ok hbody]
        simp only [bind_run (HM.read _), read_run]
        exact ih hr hr.nextHead
      | some op =>
        obtain ⟨g1, g2, g3⟩ := hch _ _ _ hcs
        have hsim := op_sim le op hr g1
        simp only
        cases hm : op.meaning le (valuesOf h (A ++ (n, t) :: B)) with
        | error x =>
          rw [hm] at hsim
          have hbody : groupBody le depth L choose n h = (.error x, h) := by
            unfold groupBody
            rw [bind_ok (view_read hr hmem).1, bind_ok hr.toNested, hcs]
            exact bind_error hsim
          rw [bind_error hbody]
          exact ⟨h, _, rfl, Step.refl hr, rfl⟩
        | ok rx =>
          obtain ⟨r, xs'⟩ := rx
          rw [hm] at hsim
          obtain ⟨h1, gs1, hrun, hrep, hfr, hval, hst⟩ := hsim
          have hst := hst.resolve_left (fun hh => g2 hh.1)
          obtain ⟨r', h2, gs2, hrun2, hrep2, hgoes⟩ := op_goes le op hr g1 g2 g3 hm hat
          obtain rfl := run_same hrun hrun2
          rw [hrep2.unique hrep] at hgoes
          have hl : Loose n h1 := by
            have := op_loose (n := n) le (depth := depth) op g3 L h hhd
            rwa [hrun] at this
          have hbody : groupBody le depth L choose n h = (.ok (), h1) := by
            unfold groupBody
            rw [bind_ok (view_read hr hmem).1, bind_ok hr.toNested, hcs]
            exact bind_ok hrun
          rw [bind_ok hbody]
          simp only [bind_run (HM.read _), read_run]
          by_cases hp : (op.place (valuesOf h (A ++ (n, t) :: B)) (nodesOf A).length).1 =
              (op.place (valuesOf h (A ++ (n, t) :: B)) (nodesOf A).length).2
          · rw [if_pos hp]
            have hnone : h1.nextHead n = none := by
              rcases hl.2 with h3 | h3
              · rw [(hgoes.gone hp).1] at h3; cases h3
              · exact h3
            rw [hnone]
            refine ⟨h1, gs1, ?_, hst, hval⟩
            cases fuel <;> rfl
          · rw [if_neg hp]
            have hnx := next_group hrep hl (hgoes.here hp)
            rw [hval] at hnx
            split
            · rename_i e
              rw [e] at hnx
              simp only at hnx
              rw [hnx]
              refine ⟨h1, gs1, ?_, hst, hval⟩
              cases fuel <;> rfl
            · rename_i g' e
              rw [e] at hnx
              obtain ⟨h3, gs3, e1, e2, e3⟩ := ih (c := c + 1) hrep hnx
              rw [hval] at e1 e3
              exact ⟨h3, gs3, e1, hst.trans e2, e3⟩

theorem forGroups_sim (le : α → α → Bool) {depth : Nat} {choose : List α → List (List α) → Option (ListOp α)}
    (hch : GoodChoice depth choose) (fuel : Nat) (hr : Rep h L gs) :
    ∃ h' gs', Heap.forGroups L (groupBody le depth L choose) fuel h = ((groupLoopMeaning le choose fuel 0 0 (valuesOf h gs)).1, h') ∧
      Step L h h' gs gs' ∧ valuesOf h' gs' = (groupLoopMeaning le choose fuel 0 0 (valuesOf h gs)).2 := by
  unfold Heap.forGroups
  simp only [bind_run (HM.read _), read_run]
  refine forHeads_sim le hch fuel hr ?_
  rw [hr.heads.fst]
  cases gs with
  | nil => exact .finished rfl
  | cons g gs => exact .group [] g.1 g.2 gs rfl rfl

/-! ## Loops over one group -/

omit [DecidableEq α] in
/-- Whether a node is the head of a group. -/
theorem Rep.isHead_at (hr : Rep h L gs) {j m : Nat} (hm : (nodesOf gs)[j]? = some m) :
    h.isHead m = true ↔ Nested.groupFrom (valuesOf h gs) j ≠ none := by
  obtain ⟨A, a, t, B, i, rfl, h1, rfl, h2⟩ := locate (List.getElem?_eq_some_iff.mp hm).1
  rw [hm] at h2
  cases i with
  | zero =>
    simp only [List.getElem?_cons_zero, Option.some.injEq] at h2
    subst h2
    rw [Nat.add_zero, groupFrom_at]
    have := hr.heads.hd (m, t) (by simp)
    simp [this]
  | succ i =>
    rw [groupFrom_inside A (a, t) B (by omega) h1]
    rw [List.getElem?_cons_succ] at h2
    have := hr.heads.tl (a, t) (by simp) m (List.mem_of_getElem? h2.symm)
    simp [this]

omit [DecidableEq α] in
theorem groupFrom_past {xs : List (List α)} (hx : ∀ g ∈ xs, g ≠ []) {j : Nat} (hj : xs.flatten.length ≤ j) : Nested.groupFrom xs j = none := by
  induction xs generalizing j with
  | nil => rfl
  | cons g xs ih =>
    have h0 : 0 < g.length := List.length_pos_iff.mpr (hx g (by simp))
    simp only [List.flatten_cons, List.length_append] at hj
    rw [Nested.groupFrom, if_neg (by omega), if_neg (by omega)]
    exact ih (fun g hg => hx g (by simp [hg])) (by omega)

theorem forView_sim (le : α → α → Bool) {depth : Nat} {choose : List α → List (List α) → Option (ListOp α)}
    (hch : GoodChoice depth choose) (fuel : Nat) {seen : List α} {i n : Nat} (hr : Rep h L gs) (hn : (nodesOf gs)[i]? = some n) :
    ∃ h' gs', Heap.forViewFrom (loopBody le depth L choose) fuel seen n h =
        ((viewLoopMeaning le choose fuel seen i (valuesOf h gs)).1, h') ∧ Step L h h' gs gs' ∧
      valuesOf h' gs' = (viewLoopMeaning le choose fuel seen i (valuesOf h gs)).2 := by
  induction fuel generalizing h gs seen i n with
  | zero =>
    rw [viewLoopMeaning.eq_def]
    simp only [flatten_get hn]
    exact ⟨h, gs, rfl, Step.refl hr, rfl⟩
  | succ fuel ih =>
    rw [viewLoopMeaning.eq_def]
    simp only [flatten_get hn]
    rw [Heap.forViewFrom]
    simp only [bind_run (HM.read _), read_run]
    -- how the loop goes on
    have go : ∀ {h1 : Heap α} {gs1 : List Grp} {j : Nat}, Rep h1 L gs1 → Step L h h1 gs gs1 → h1.next n = (nodesOf gs1)[j]? →
        ∃ h' gs', (do
            let q ← HM.read fun h => h.next n
            match q with
            | none => Pure.pure (seen ++ [h.value n])
            | some q =>
              let b ← HM.read fun h => h.isHead q
              if b then Pure.pure (seen ++ [h.value n])
              else Heap.forViewFrom (loopBody le depth L choose) fuel (seen ++ [h.value n]) q : HM α (List α)) h1 =
            ((if Nested.groupFrom (valuesOf h1 gs1) j = none then
                viewLoopMeaning le choose fuel (seen ++ [h.value n]) j (valuesOf h1 gs1)
              else (.ok (seen ++ [h.value n]), valuesOf h1 gs1)).1, h') ∧ Step L h h' gs gs' ∧
          valuesOf h' gs' = (if Nested.groupFrom (valuesOf h1 gs1) j = none then
                viewLoopMeaning le choose fuel (seen ++ [h.value n]) j (valuesOf h1 gs1)
              else (.ok (seen ++ [h.value n]), valuesOf h1 gs1)).2 := by
      intro h1 gs1 j hr1 hs1 hj
      simp only [bind_run (HM.read _), read_run]
      rw [hj]
      cases hm : (nodesOf gs1)[j]? with
      | none =>
        have hlen := List.getElem?_eq_none_iff.mp hm
        rw [if_pos (groupFrom_past (valuesOf_ne _ _) (by rw [← map_nodesOf, List.length_map]; exact hlen))]
        have : (valuesOf h1 gs1).flatten[j]? = none := by rw [← map_nodesOf, List.getElem?_map, hm]; rfl
        rw [viewLoopMeaning.eq_def]
        simp only [this]
        exact ⟨h1, gs1, rfl, hs1, rfl⟩
      | some m =>
        have hhd := hr1.isHead_at hm
        simp only [bind_run (HM.read _), read_run]
        by_cases hg : Nested.groupFrom (valuesOf h1 gs1) j = none
        · have : h1.isHead m = false := by
            cases hb : h1.isHead m with
            | false => rfl
            | true => exact absurd hg (hhd.mp hb)
          rw [if_pos hg, this]
          simp only [Bool.false_eq_true, if_false]
          obtain ⟨h2, gs2, e1, e2, e3⟩ := ih (seen := seen ++ [h.value n]) hr1 hm
          exact ⟨h2, gs2, e1, hs1.trans e2, e3⟩
        · rw [if_neg hg, hhd.mpr hg]
          exact ⟨h1, gs1, rfl, hs1, rfl⟩
    cases hcs : choose (seen ++ [h.value n]) (valuesOf h gs) with
    | none =>
      have hbody : loopBody le depth L choose (seen ++ [h.value n]) h = (.ok (), h) := by
        unfold loopBody
        rw [bind_ok hr.toNested, hcs]
        rfl
      rw [bind_ok hbody]
      exact go hr (Step.refl hr) (hr.links_at hn).1
    | some op =>
      obtain ⟨g1, g2, g3⟩ := hch _ _ _ hcs
      have hsim := op_sim le op hr g1
      simp only
      cases hm : op.meaning le (valuesOf h gs) with
      | error x =>
        rw [hm] at hsim
        have hbody : loopBody le depth L choose (seen ++ [h.value n]) h = (.error x, h) := by
          unfold loopBody
          rw [bind_ok hr.toNested, hcs]
          exact bind_error hsim
        rw [bind_error hbody]
        exact ⟨h, gs, rfl, Step.refl hr, rfl⟩
      | ok rx =>
        obtain ⟨r, xs'⟩ := rx
        rw [hm] at hsim
        obtain ⟨h1, gs1, hrun, hrep, hfr, hval, hst⟩ := hsim
        have hst := hst.resolve_left (fun hh => g2 hh.1)
        obtain ⟨r', h2, gs2, hrun2, hrep2, hgoes⟩ := op_goes le op hr g1 g2 g3 hm hn
        obtain rfl := run_same hrun hrun2
        rw [hrep2.unique hrep] at hgoes
        have hbody : loopBody le depth L choose (seen ++ [h.value n]) h = (.ok (), h1) := by
          unfold loopBody
          rw [bind_ok hr.toNested, hcs]
          exact bind_ok hrun
        rw [bind_ok hbody]
        have := go hrep hst hgoes.next
        rw [hval] at this
        exact this

end
end Bibleref
