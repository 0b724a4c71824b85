import Verif.Lemmas.GroupLoops
import Verif.Lemmas.LoopSpec

/-! A node that is not the head of a group never gets a link to a following group. -/

namespace Bibleref
open HM
variable {α : Type} {h h' : Heap α} {L : Nat} {gs gs' : List Grp}

section
variable {β γ : Type} {P Q R : Heap α → Prop} {n : Nat}

theorem Leads.seq {x : HM α β} {f : β → HM α γ} (hx : Leads P Q x) (hq : ∀ h, Q h → R h) (hf : ∀ b, Leads Q R (f b)) : Leads P R (x >>= f) := by
  intro h hp
  have := hx h hp
  rw [bind_run]
  split
  · rename_i e; rw [e] at this; exact hf _ _ this
  · rename_i e; rw [e] at this; exact hq _ this

theorem loose_setIsHead (m : Nat) : Leads (Loose n) (Loose n) (Heap.setIsHead m : HM α Unit) := by
  intro h hp
  refine ⟨hp.1, ?_⟩
  simp only [Heap.setIsHead, HM.modify, upd]
  split
  · exact .inl rfl
  · exact hp.2

theorem loose_setIsHead_self : Leads (Loose n) (IsHd n) (Heap.setIsHead n : HM α Unit) := by
  intro h hp
  refine ⟨hp.1, ?_⟩
  simp only [Heap.setIsHead, HM.modify, upd, if_true]

theorem loose_setNextHead {m : Nat} (hm : m ≠ n) (x : Option Nat) : Leads (Loose n) (Loose n) (Heap.setNextHead m x : HM α Unit) := by
  intro h hp
  refine ⟨hp.1, ?_⟩
  simp only [Heap.setNextHead, HM.modify, upd]
  rw [if_neg (Ne.symm hm)]
  exact hp.2

theorem loose_setPrev (m : Nat) (x : Option Nat) : Leads (Loose n) (Loose n) (Heap.setPrev m x : HM α Unit) :=
  leads_modify (fun _ => rfl) (fun _ => rfl) fun _ => rfl
theorem loose_setNext (m : Nat) (x : Option Nat) : Leads (Loose n) (Loose n) (Heap.setNext m x : HM α Unit) :=
  leads_modify (fun _ => rfl) (fun _ => rfl) fun _ => rfl
theorem loose_setPrevHead (m : Nat) (x : Option Nat) : Leads (Loose n) (Loose n) (Heap.setPrevHead m x : HM α Unit) :=
  leads_modify (fun _ => rfl) (fun _ => rfl) fun _ => rfl
theorem loose_clearParent (m : Nat) : Leads (Loose n) (Loose n) (Heap.clearParent m : HM α Unit) :=
  leads_modify (fun _ => rfl) (fun _ => rfl) fun _ => rfl
theorem loose_setFirst (m : Nat) (x : Option Nat) : Leads (Loose n) (Loose n) (Heap.setFirst m x : HM α Unit) :=
  leads_modify (fun _ => rfl) (fun _ => rfl) fun _ => rfl
theorem loose_setLast (m : Nat) (x : Option Nat) : Leads (Loose n) (Loose n) (Heap.setLast m x : HM α Unit) :=
  leads_modify (fun _ => rfl) (fun _ => rfl) fun _ => rfl
theorem loose_setLastHead (m : Nat) (x : Option Nat) : Leads (Loose n) (Loose n) (Heap.setLastHead m x : HM α Unit) :=
  leads_modify (fun _ => rfl) (fun _ => rfl) fun _ => rfl
theorem loose_addNodeCount (m : Nat) (k : Int) : Leads (Loose n) (Loose n) (Heap.addNodeCount m k : HM α Unit) :=
  leads_modify (fun _ => rfl) (fun _ => rfl) fun _ => rfl
theorem loose_addGroupCount (m : Nat) (k : Int) : Leads (Loose n) (Loose n) (Heap.addGroupCount m k : HM α Unit) :=
  leads_modify (fun _ => rfl) (fun _ => rfl) fun _ => rfl
theorem loose_setValue (m : Nat) (v : α) : Leads (Loose n) (Loose n) (Heap.setValue m v : HM α Unit) :=
  leads_modify (fun _ => rfl) (fun _ => rfl) fun _ => rfl

theorem loose_newNode (v : α) (p q : Option Nat) (M : Nat) : Leads (Loose n) (Loose n) (Heap.newNode v p q M) := by
  intro h hp
  refine ⟨Nat.lt_succ_of_lt hp.1, ?_⟩
  simp only [Heap.newNode, upd]
  rw [if_neg (Nat.ne_of_lt hp.1), if_neg (Nat.ne_of_lt hp.1)]
  exact hp.2

end

/-- Computations made of parts that keep the node loose. -/
macro "loose" : tactic => `(tactic| repeat' with_reducible first
  | exact leads_read _ | exact leads_readE _ | exact leads_pure _ | exact leads_throw _ | exact leads_deref _
  | exact loose_setIsHead _ | exact loose_newNode _ _ _ _ | exact leads_clearGroupHead _ (fun _ hh => hh)
  | exact loose_setNextHead (by assumption) _
  | exact loose_setFirstHead _ _
  | exact loose_setPrev _ _
  | exact loose_setNext _ _
  | exact loose_setPrevHead _ _
  | exact loose_clearParent _
  | exact loose_setFirst _ _
  | exact loose_setLast _ _
  | exact loose_setLastHead _ _
  | exact loose_addNodeCount _ _
  | exact loose_addGroupCount _ _
  | exact loose_setValue _ _
  | exact leads_modify (fun _ => rfl) (fun _ => rfl) (fun _ => rfl)
  | assumption
  | apply Leads.bind | intro _ | split)

section
variable {n : Nat}

theorem findHeadFrom_isHead (k : Nat) (o : Option Nat) {ph : Nat} (hf : Heap.findHeadFrom h k o = .ok (some ph)) : h.isHead ph = true := by
  induction k generalizing o with
  | zero => cases o <;> cases hf
  | succ k ih =>
    cases o with
    | none => cases hf
    | some m =>
      simp only [Heap.findHeadFrom] at hf
      split at hf
      · rename_i hm; cases hf; exact hm
      · exact ih _ hf

theorem loose_insertNewGroupAtNode (M m : Nat) : Leads (Loose n) (Loose n) (Heap.insertNewGroupAtNode M m : HM α Unit) := by
  unfold Heap.insertNewGroupAtNode
  refine Leads.bind (leads_read _) fun f => ?_
  split
  · exact leads_pure _
  · by_cases hm : m = n
    · subst hm
      refine Leads.seq loose_setIsHead_self (fun _ => IsHd.loose) fun _ => Leads.weaken ?_
      unfold Heap.findGroupHead
      keeps
    · refine Leads.bind (loose_setIsHead _) fun _ => Leads.bind (leads_read _) fun p => ?_
      intro h hp
      unfold Heap.findGroupHead
      rw [bind_run, readE_run]
      cases hf : Heap.findHeadFrom h (h.nodes + 1) p with
      | error e => exact hp
      | ok o =>
        simp only
        by_cases ho : o = some n
        · subst ho
          have hd : IsHd n h := ⟨hp.1, findHeadFrom_isHead _ _ hf⟩
          revert h
          intro h _ _ hd
          refine Leads.weaken ?_ h hd
          keeps
        · cases o with
          | none =>
            exact (Leads.bind (leads_modify (fun _ => rfl) (fun _ => rfl) (fun _ => rfl)) fun _ => Leads.bind (leads_deref none) fun _ => by loose) h hp
          | some ph =>
            have hph : ph ≠ n := fun e => ho (by rw [e])
            refine (?_ : Leads (Loose n) (Loose n) _) h hp
            refine Leads.bind (leads_modify (fun _ => rfl) (fun _ => rfl) (fun _ => rfl)) fun _ => ?_
            show Leads _ _ (HM.deref (some ph) >>= _)
            intro h hp
            rw [bind_ok (deref_some _ _)]
            refine (?_ : Leads (Loose n) (Loose n) _) h hp
            loose

theorem loose_insertNewGroupBeforeHead (M m old : Nat) (keep : Bool) (hm : m ≠ n) :
    Leads (fun h => Loose n h ∧ h.next m = some old ∧ h.prevHead old ≠ some n) (Loose n) (Heap.insertNewGroupBeforeHead M m keep : HM α Unit) := by
  intro h ⟨hl, hnx, hp⟩
  unfold Heap.insertNewGroupBeforeHead
  simp only [bind_run (HM.read _), read_run, hnx]
  have h1 := loose_setIsHead m h hl
  have e1 : (Heap.setIsHead m : HM α Unit) h = (.ok (), { h with isHead := upd h.isHead m true }) := rfl
  rw [e1] at h1
  rw [bind_ok e1, bind_ok (deref_some _ _)]
  simp only [bind_run (HM.read _), read_run]
  cases hq : h.prevHead old with
  | none =>
    simp only
    refine (?_ : Leads (Loose n) (Loose n) _) _ h1
    loose
  | some p =>
    have hpn : p ≠ n := fun e => hp (by rw [hq, e])
    simp only
    refine (?_ : Leads (Loose n) (Loose n) _) _ h1
    loose

theorem loose_insertAfter (M : Nat) (o : Option Nat) (v : α) (b : Bool) : Leads (Loose n) (Loose n) (Heap.insertAfter M o v b) := by
  unfold Heap.insertAfter
  refine Leads.bind (leads_checkIsChild _ _) fun _ => ?_
  loose
  all_goals exact loose_insertNewGroupAtNode _ _

theorem loose_insertFirst (M : Nat) (v : α) : Leads (Loose n) (Loose n) (Heap.insertFirst M v) := by
  have := @loose_setupSingleGroup α n M
  unfold Heap.insertFirst; loose

theorem loose_append (M : Nat) (v : α) (b : Bool) : Leads (Loose n) (Loose n) (Heap.append M v b) := by
  unfold Heap.append Heap.len
  refine Leads.bind (leads_read _) fun _ => ?_
  split
  · exact loose_insertFirst _ _
  · exact Leads.bind (leads_read _) fun _ => loose_insertAfter _ _ _ _

theorem loose_extend (M : Nat) (l : List α) : Leads (Loose n) (Loose n) (Heap.extend M l) := by
  induction l with
  | nil => exact leads_pure _
  | cons v l ih => exact Leads.bind (loose_append _ _ _) fun _ => ih

theorem loose_appendGroup (M : Nat) (l : List α) : Leads (Loose n) (Loose n) (Heap.appendGroup M l) := by
  cases l with
  | nil => exact leads_pure _
  | cons v l => exact Leads.bind (loose_append _ _ _) fun _ => loose_extend _ _

theorem loose_insertGroupAt (M : Nat) (i : Int) : Leads (Loose n) (Loose n) (Heap.insertGroupAt M i : HM α Unit) :=
  Leads.bind (leads_conformIndex _ _) fun _ => Leads.bind (leads_nodeAt _ _) fun _ => Leads.bind (leads_deref _) fun _ =>
    loose_insertNewGroupAtNode _ _

theorem loose_extendFrom (M k : Nat) (o : Option Nat) : Leads (Loose n) (Loose n) (Heap.extendFrom M k o : HM α Unit) := by
  induction k generalizing o with
  | zero => cases o <;> exact fun _ hp => hp
  | succ k ih =>
    cases o with
    | none => exact leads_pure _
    | some m => exact Leads.bind (leads_read _) fun _ => Leads.bind (loose_append _ _ _) fun _ => Leads.bind (leads_read _) fun _ => ih _

theorem loose_copyGo (M : Nat) (l : List (List α)) : Leads (Loose n) (Loose n) (Heap.copy.go M l) := by
  induction l with
  | nil => exact leads_pure _
  | cons g l ih => exact Leads.bind (loose_appendGroup _ _) fun _ => ih

/-! ## Sorting -/

theorem loose_splitLoop (c : Bool) (k s : Nat) (o : Option Nat) : Leads (Loose n) (Loose n) (Heap.splitLoop c k s o : HM α Nat) := by
  induction k generalizing s o with
  | zero => cases o <;> exact fun _ hp => hp
  | succ k ih =>
    cases o with
    | none => exact leads_pure _
    | some f =>
      simp only [Heap.splitLoop]
      loose
      all_goals exact ih _ _

theorem loose_split (f : Nat) (c : Bool) : Leads (Loose n) (Loose n) (Heap.split f c : HM α Nat) := by
  unfold Heap.split
  loose
  all_goals exact loose_splitLoop _ _ _ _

theorem loose_mergeSublists (le : α → α → Except PyErr Bool) (d : Nat) (a la b lb : Option Nat) :
    Leads (Loose n) (Loose n) (Heap.mergeSublists le d a la b lb) := by
  induction d generalizing a la b lb with
  | zero => exact leads_throw _
  | succ d ih =>
    cases a with
    | none => exact leads_pure _
    | some a =>
      cases b with
      | none => exact leads_pure _
      | some b =>
        simp only [Heap.mergeSublists]
        loose
        all_goals exact ih _ _ _ _

theorem loose_mergeSort (le : α → α → Except PyErr Bool) (d : Nat) (o : Option Nat) (c : Bool) : Leads (Loose n) (Loose n) (Heap.mergeSort le d o c) := by
  induction d generalizing o c with
  | zero => exact leads_throw _
  | succ d ih =>
    cases o with
    | none => exact leads_pure _
    | some f =>
      simp only [Heap.mergeSort]
      refine Leads.bind (leads_read _) fun _ => ?_
      split
      · exact leads_pure _
      · exact Leads.bind (loose_split _ _) fun _ => Leads.bind (ih _ _) fun _ => Leads.bind (ih _ _) fun _ => loose_mergeSublists _ _ _ _ _ _

theorem loose_sort (le : α → α → Except PyErr Bool) (d M : Nat) : Leads (Loose n) (Loose n) (Heap.sort le d M) := by
  unfold Heap.sort
  exact Leads.bind (leads_read _) fun _ => Leads.bind (loose_mergeSort _ _ _ _) fun _ => Leads.bind (loose_setFirst _ _) fun _ =>
    Leads.bind (loose_setLast _ _) fun _ => loose_setupSingleGroup _

/-! ## Operations that look at the group before -/

theorem unlink_same (M m : Nat) : Leads (fun h => Loose n h ∧ h.prevHead m ≠ some n) (fun h => Loose n h ∧ h.prevHead m ≠ some n)
    (Heap.unlink M m : HM α Unit) := by
  have key : ∀ f : Heap α → Heap α, (∀ h, (f h).nodes = h.nodes) → (∀ h, (f h).isHead = h.isHead) → (∀ h, (f h).nextHead = h.nextHead) →
      (∀ h, (f h).prevHead = h.prevHead) → Leads (fun h => Loose n h ∧ h.prevHead m ≠ some n)
        (fun h => Loose n h ∧ h.prevHead m ≠ some n) (HM.modify f) := by
    intro f h1 h2 h3 h4 h hp
    unfold Loose at hp ⊢
    simp only [HM.modify, h1, h2, h3, h4]
    exact hp
  unfold Heap.unlink Heap.setFirst Heap.setLast Heap.setFirstHead Heap.setLastHead Heap.setPrev Heap.setNext Heap.clearParent Heap.addNodeCount
  repeat' with_reducible first
    | exact leads_read _ | exact leads_pure _ | exact leads_deref _
    | exact key _ (fun _ => rfl) (fun _ => rfl) (fun _ => rfl) (fun _ => rfl)
    | apply Leads.bind | intro _ | split

theorem loose_unlinkHead (M m : Nat) : Leads (fun h => Loose n h ∧ h.prevHead m ≠ some n) (Loose n) (Heap.unlinkHead M m : HM α Unit) := by
  intro h ⟨hl, hp⟩
  unfold Heap.unlinkHead
  simp only [bind_run (HM.read _), read_run]
  generalize h.prevHead m = ph at hp
  generalize h.nextHead m = nh
  generalize h.next m = q
  have hrest : ∀ a b, Leads (Loose n) (Loose n) (do
      let fh ← HM.read fun h : Heap α => h.firstHead M
      if fh = some m then Heap.setFirstHead M a
      let lh ← HM.read fun h : Heap α => h.lastHead M
      if lh = some m then Heap.setLastHead M b
      match ph with
      | some p => Heap.setNextHead p a
      | none => Pure.pure ()
      match nh with
      | some q => Heap.setPrevHead q b
      | none => Pure.pure ()
      Heap.clearGroupHead m : HM α Unit) := by
    intro a b
    cases ph with
    | none => simp only; loose
    | some p =>
      have hpn : p ≠ n := fun e => hp (by rw [e])
      simp only; loose
  have hpair : ∀ lost, Leads (Loose n) (Loose n) ((match q, lost with
    | some q, false => do
      Heap.setIsHead q
      Heap.setPrevHead q ph
      Heap.setNextHead q nh
      return (some q, some q)
    | _, _ => do
      Heap.addGroupCount M (-1)
      return (nh, ph)) : HM α (Option Nat × Option Nat)) := by
    intro lost
    split
    · rename_i q
      by_cases hq : q = n
      · subst hq
        refine Leads.seq loose_setIsHead_self (fun _ => IsHd.loose) fun _ => Leads.weaken ?_
        keeps
      · loose
    · loose
  exact Leads.bind (hpair _) (fun x => hrest x.1 x.2) h hl

theorem loose_popNode (M m : Nat) (hl : Loose n h) (hp : h.isHead m = true → h.prevHead m ≠ some n) :
    Loose n (Heap.popNode M (some m) h : Except PyErr α × Heap α).2 := by
  unfold Heap.popNode
  have hc : (Heap.checkIsChild M (some m) : HM α Nat) h = (if h.parent m = some M then (.ok m, h) else (.error .valueError, h)) := by
    unfold Heap.checkIsChild
    simp only [bind_run (HM.read _), read_run]
    split <;> rfl
  rw [bind_run, hc]
  by_cases hpar : h.parent m = some M
  · rw [if_pos hpar]
    simp only
    by_cases hh : h.isHead m = true
    · refine Leads.seq (Q := fun h => Loose n h ∧ h.prevHead m ≠ some n) (unlink_same M m) (fun _ => And.left) ?_ h ⟨hl, hp hh⟩
      intro _
      refine Leads.seq (Q := fun h => Loose n h ∧ h.prevHead m ≠ some n) (leads_read _) (fun _ => And.left) fun b => ?_
      split
      · exact Leads.seq (loose_unlinkHead M m) (fun _ hh => hh) fun _ => leads_read _
      · exact fun h hh => hh.1
    · have hu : Leads (fun h => Loose n h ∧ h.isHead m = false) (fun h => Loose n h ∧ h.isHead m = false) (Heap.unlink M m : HM α Unit) := by
        have key : ∀ f : Heap α → Heap α, (∀ h, (f h).nodes = h.nodes) → (∀ h, (f h).isHead = h.isHead) → (∀ h, (f h).nextHead = h.nextHead) →
            Leads (fun h => Loose n h ∧ h.isHead m = false) (fun h => Loose n h ∧ h.isHead m = false) (HM.modify f) := by
          intro f h1 h2 h3 h hp
          unfold Loose at hp ⊢
          simp only [HM.modify, h1, h2, h3]
          exact hp
        unfold Heap.unlink Heap.setFirst Heap.setLast Heap.setFirstHead Heap.setLastHead Heap.setPrev Heap.setNext Heap.clearParent Heap.addNodeCount
        repeat' with_reducible first
          | exact leads_read _ | exact leads_pure _ | exact leads_deref _
          | exact key _ (fun _ => rfl) (fun _ => rfl) (fun _ => rfl)
          | apply Leads.bind | intro _ | split
      have h1 := hu h ⟨hl, by simpa using hh⟩
      rw [bind_run]
      split
      · rename_i e
        rw [e] at h1
        simp only [bind_run (HM.read _), read_run]
        rw [h1.2]
        exact h1.1
      · rename_i e; rw [e] at h1; exact h1.1
  · rw [if_neg hpar]
    exact hl

theorem loose_insertBefore (M m : Nat) (v : α) (b : Bool) (hl : Loose n h) (hm : m < h.nodes) (hpr : ∀ p, h.prev m = some p → p < h.nodes)
    (hp : h.isHead m = true → h.prevHead m ≠ some n) (hf : h.first M = some m → h.isHead m = true) :
    Loose n (Heap.insertBefore M (some m) v b h).2 := by
  unfold Heap.insertBefore
  have hc : (Heap.checkIsChild M (some m) : HM α Nat) h = (if h.parent m = some M then (.ok m, h) else (.error .valueError, h)) := by
    unfold Heap.checkIsChild
    simp only [bind_run (HM.read _), read_run]
    split <;> rfl
  rw [bind_run, hc]
  by_cases hpar : h.parent m = some M
  · rw [if_pos hpar]
    simp only [bind_run (HM.read _), read_run]
    let C : Heap α → Prop := fun h' => Loose n h' ∧ h'.next h.nodes = some m ∧ h'.isHead m = h.isHead m ∧ h'.prevHead m = h.prevHead m
    have hn := hl.1
    have key : ∀ f : Heap α → Heap α, (∀ h, (f h).nodes = h.nodes) → (∀ h, (f h).isHead = h.isHead) → (∀ h, (f h).nextHead = h.nextHead) →
        (∀ h, (f h).prevHead = h.prevHead) → (∀ h', (f h').next h.nodes = h'.next h.nodes) → Leads C C (HM.modify f) := by
      intro f h1 h2 h3 h4 h5 h' hp
      simp only [C, Loose] at hp ⊢
      simp only [HM.modify, h1, h2, h3, h4, h5]
      exact hp
    have hnew : (Heap.newNode v (h.prev m) (some m) M : HM α Nat) h = (.ok h.nodes, (Heap.newNode v (h.prev m) (some m) M h).2) := rfl
    have hC : C (Heap.newNode v (h.prev m) (some m) M h).2 := by
      refine ⟨loose_newNode _ _ _ _ h hl, ?_, ?_, ?_⟩
      · simp only [Heap.newNode, upd, if_true]
      · simp only [Heap.newNode, upd]; rw [if_neg (Nat.ne_of_lt hm)]
      · simp only [Heap.newNode, upd]; rw [if_neg (Nat.ne_of_lt hm)]
    rw [bind_ok hnew]
    generalize (Heap.newNode v (h.prev m) (some m) M h).2 = h₁ at hC
    have hdrop : ∀ h', C h' → Loose n h' := fun _ hh => hh.1
    have hbefore : ∀ keep, h.isHead m = true → Leads C (Loose n) (Heap.insertNewGroupBeforeHead M h.nodes keep : HM α Unit) := by
      intro keep hh h' hc
      exact loose_insertNewGroupBeforeHead M h.nodes m keep (Nat.ne_of_gt hn) h' ⟨hc.1, hc.2.1, by rw [hc.2.2.2]; exact hp hh⟩
    have hfin : Leads C (Loose n) (if b then
        if decide (h.first M = some m) then Heap.insertNewGroupBeforeHead M h.nodes true else Heap.insertNewGroupAtNode M h.nodes
      else do
        let isHead ← HM.read fun h : Heap α => h.isHead m
        if isHead then Heap.insertNewGroupBeforeHead M h.nodes false : HM α Unit) := by
      split
      · split
        · rename_i hh; exact hbefore _ (hf (by simpa using hh))
        · exact fun h' hc => loose_insertNewGroupAtNode _ _ h' hc.1
      · intro h' hc
        simp only [bind_run (HM.read _), read_run]
        rw [hc.2.2.1]
        split
        · rename_i hh; exact hbefore _ hh h' hc
        · exact hc.1
    have hfin' : Leads C (Loose n) (do
        Heap.addNodeCount M 1
        if b then
          if decide (h.first M = some m) then Heap.insertNewGroupBeforeHead M h.nodes true else Heap.insertNewGroupAtNode M h.nodes
        else do
          let isHead ← HM.read fun h : Heap α => h.isHead m
          if isHead then Heap.insertNewGroupBeforeHead M h.nodes false : HM α Unit) :=
      Leads.seq (Q := C) (key _ (fun _ => rfl) (fun _ => rfl) (fun _ => rfl) (fun _ => rfl) fun _ => rfl) hdrop fun _ => hfin
    have hfin2 : Leads C (Loose n) (do
        Heap.setPrev m (some h.nodes)
        if h.first M = some m then do
          Heap.setFirst M (some h.nodes)
          Heap.addNodeCount M 1
          if b then
            if decide (h.first M = some m) then Heap.insertNewGroupBeforeHead M h.nodes true else Heap.insertNewGroupAtNode M h.nodes
          else do
            let isHead ← HM.read fun h : Heap α => h.isHead m
            if isHead then Heap.insertNewGroupBeforeHead M h.nodes false
        else do
          Heap.addNodeCount M 1
          if b then
            if decide (h.first M = some m) then Heap.insertNewGroupBeforeHead M h.nodes true else Heap.insertNewGroupAtNode M h.nodes
          else do
            let isHead ← HM.read fun h : Heap α => h.isHead m
            if isHead then Heap.insertNewGroupBeforeHead M h.nodes false : HM α Unit) := by
      refine Leads.seq (Q := C) (key _ (fun _ => rfl) (fun _ => rfl) (fun _ => rfl) (fun _ => rfl) fun _ => rfl) hdrop fun _ => ?_
      split
      · exact Leads.seq (Q := C) (key _ (fun _ => rfl) (fun _ => rfl) (fun _ => rfl) (fun _ => rfl) fun _ => rfl) hdrop fun _ => hfin'
      · exact hfin'
    cases e : h.prev m with
    | some p =>
      refine Leads.seq (Q := C) (key (fun h' => { h' with next := upd h'.next p (some h.nodes) }) (fun _ => rfl) (fun _ => rfl) (fun _ => rfl)
        (fun _ => rfl) fun h' => ?_) hdrop (fun _ => hfin2) h₁ hC
      simp only [upd]
      rw [if_neg (Nat.ne_of_gt (hpr p e))]
    | none => exact hfin2 h₁ hC
  · rw [if_neg hpar]
    exact hl

end

/-! ## The operations -/

/-- Only the head of a group comes before the head of another one. -/
theorem Rep.prevHead_isHead (hr : Rep h L gs) {m p : Nat} (hm : m ∈ nodesOf gs) (hh : h.isHead m = true) (hp : h.prevHead m = some p) :
    h.isHead p = true := by
  obtain ⟨g, hg, hmg⟩ := mem_nodesOf.mp hm
  have hmg : m = g.1 := by
    rcases hmg with h1 | h1
    · exact h1
    · rw [hr.heads.tl g hg m h1] at hh; cases hh
  obtain ⟨A, B, rfl⟩ := List.append_of_mem hg
  have hs := hr.heads.seg
  rw [headsOf_append, headsOf_cons] at hs
  have := (seg_mid hs).1
  rw [← hmg, hp] at this
  have hmem := List.mem_of_getLast? this.symm
  simp only [headsOf, List.mem_map] at hmem
  obtain ⟨g', hg', rfl⟩ := hmem
  exact hr.heads.hd g' (by simp [hg'])

theorem Rep.head_or (hr : Rep h L gs) {n m : Nat} (hm : m ∈ nodesOf gs) (hn : h.isHead n = false) : h.isHead m = true → h.prevHead m ≠ some n := by
  intro hh hp
  rw [hr.prevHead_isHead hm hh hp] at hn
  cases hn

section
variable {n : Nat}

theorem Rep.loose_pop (hr : Rep h L gs) (hl : Loose n h) {m : Nat} (hm : m ∈ nodesOf gs) :
    Loose n (Heap.popNode L (some m) h : Except PyErr α × Heap α).2 := by
  by_cases hh : h.isHead n = true
  · exact leads_popNode L (some m) h ⟨hl.1, hh⟩
  · exact loose_popNode L m hl (hr.head_or hm (by simpa using hh))

theorem Rep.loose_before (hr : Rep h L gs) (hl : Loose n h) {m : Nat} (hm : m ∈ nodesOf gs) (v : α) (b : Bool) :
    Loose n (Heap.insertBefore L (some m) v b h).2 := by
  by_cases hh : h.isHead n = true
  · exact leads_insertBefore L (some m) v b h ⟨hl.1, hh⟩
  · refine loose_insertBefore L m v b hl (hr.links.lt m hm) ?_ (hr.head_or hm (by simpa using hh)) ?_
    · intro p hp
      obtain ⟨i, hi⟩ := List.mem_iff_getElem?.mp hm
      have := (hr.links_at hi).2
      rw [hp] at this
      split at this
      · cases this
      · exact hr.links.lt p (List.mem_of_getElem? this.symm)
    · intro hf
      rw [hr.first_eq] at hf
      have hmem := List.mem_of_head? hf
      simp only [headsOf, List.mem_map] at hmem
      obtain ⟨g, hg, rfl⟩ := hmem
      exact hr.heads.hd g hg

end

variable [DecidableEq α]

/-- An operation keeps a node loose. -/
theorem op_keeps_loose (le : α → α → Bool) {depth : Nat} (op : ListOp α) {n : Nat} (hr : Rep h L gs) (hs : op.Sensible depth (valuesOf h gs))
    {r xs'} (hm : op.meaning le (valuesOf h gs) = .ok (r, xs')) (hl : Loose n h) : Loose n (op.call le depth L h).2 := by
  have hsz := size_valuesOf h gs
  have after : ∀ {β γ : Type} {x : HM α β} {f : β → γ}, Loose n (x h).2 → Loose n ((x >>= fun b => (Pure.pure (f b) : HM α γ)) h).2 := by
    intro β γ x f hx
    rw [bind_run]
    split
    · rename_i e; rw [e] at hx; exact hx
    · rename_i e; rw [e] at hx; exact hx
  have hpop : ∀ {j : Int} {k : Nat} {o : Option Int}, Nested.pos (nodesOf gs).length j = some k → o.getD ((nodesOf gs).length - 1) = j →
      Loose n (Heap.pop L o h : Except PyErr α × Heap α).2 := by
    intro j k o hk ho
    obtain ⟨h1, h2, h3⟩ := pos_spec hk
    unfold Heap.pop Heap.len
    simp only [bind_run (HM.read _), read_run, hr.links.cnt]
    rw [ho, bind_ok (hr.conform_ok h2), h3, bind_ok (hr.nodeAt_nat h1), List.getElem?_eq_getElem h1]
    exact hr.loose_pop hl (List.getElem_mem h1)
  have hprep : ∀ v b, Loose n (Heap.prepend L v b h).2 := by
    intro v b
    unfold Heap.prepend Heap.len
    simp only [bind_run (HM.read _), read_run, hr.links.cnt]
    split
    · exact loose_insertFirst _ _ h hl
    · rename_i h0
      simp only [bind_run (HM.read _), read_run, hr.links.fst]
      cases hh : (nodesOf gs).head? with
      | none => rw [List.head?_eq_none_iff] at hh; rw [hh] at h0; exact absurd rfl h0
      | some m => exact hr.loose_before hl (List.mem_of_head? hh) v b
  cases op with
  | prepend v b => exact after (hprep v b)
  | append v b => exact after (loose_append _ _ _ h hl)
  | extend l => exact after (loose_extend _ _ h hl)
  | appendGroup l => exact after (loose_appendGroup _ _ h hl)
  | insert i v =>
    refine after ?_
    simp only [ListOp.meaning, hsz] at hm
    unfold Heap.insert Heap.len
    simp only [bind_run (HM.read _), read_run, hr.links.cnt]
    split
    · exact hprep v false
    · split
      · exact loose_append _ _ _ h hl
      · rename_i h0 h1
        rw [if_neg h1] at hm
        cases hk : Nested.pos (nodesOf gs).length i with
        | none => rw [posE_error hk] at hm; cases hm
        | some k =>
          obtain ⟨h3, _, _⟩ := pos_spec hk
          rw [bind_ok (hr.nodeAt_ok hk), List.getElem?_eq_getElem h3]
          exact hr.loose_before hl (List.getElem_mem h3) v false
  | insertGroupAt i => exact after (loose_insertGroupAt _ _ h hl)
  | pop o =>
    refine after ?_
    simp only [ListOp.meaning, hsz] at hm
    cases o with
    | none =>
      rw [Option.getD_none] at hm
      cases hk : Nested.pos (nodesOf gs).length (-1) with
      | none => rw [posE_error hk] at hm; cases hm
      | some k =>
        have := (pos_spec hk).1
        refine hpop (j := (nodesOf gs).length - 1) (k := (nodesOf gs).length - 1) (o := none) ?_ rfl
        rw [show ((nodesOf gs).length - 1 : Int) = (((nodesOf gs).length - 1 : Nat) : Int) from by omega]
        exact pos_nat (by omega)
    | some j =>
      rw [Option.getD_some] at hm
      cases hk : Nested.pos (nodesOf gs).length j with
      | none => rw [posE_error hk] at hm; cases hm
      | some k => exact hpop (o := some j) hk rfl
  | delItem j =>
    simp only [ListOp.meaning, hsz] at hm
    cases hk : Nested.pos (nodesOf gs).length j with
    | none => rw [posE_error hk] at hm; cases hm
    | some k => exact after (after (hpop (o := some j) hk rfl))
  | remove v =>
    refine after ?_
    simp only [ListOp.meaning] at hm
    by_cases hv : v ∈ (valuesOf h gs).flatten
    · rw [← map_nodesOf] at hv
      obtain ⟨m, h1, h2⟩ := (findNode_spec v hr.links.seg (Nat.le_succ_of_le hr.length_le)).1 hv
      unfold Heap.remove
      rw [bind_run, readE_run, hr.links.fst, h2]
      exact after (hr.loose_pop hl (List.mem_of_getElem? h1))
    · rw [if_neg hv] at hm; cases hm
  | setItem i v =>
    exact after ((Leads.bind (leads_nodeAt _ _) fun _ => Leads.bind (leads_deref _) fun _ => loose_setValue _ _) h hl)
  | groupSet k i v =>
    exact Leads.bind (P := Loose n) (leads_groupAt _ _) (fun _ =>
      Leads.bind (Leads.bind (leads_readE _) fun _ => loose_setValue _ _) fun _ => leads_pure _) h hl
  | groupDel k j =>
    simp only [ListOp.meaning] at hm
    have hvk : (valuesOf h gs)[k]? = gs[k]?.map fun g => (g.1 :: g.2).map h.value := by rw [valuesOf, List.getElem?_map]
    cases hk : gs[k]? with
    | none => rw [hk] at hvk; rw [hvk] at hm; cases hm
    | some g =>
      rw [hk] at hvk; rw [hvk] at hm
      simp only [Option.map_some] at hm
      by_cases hj : j < (g.1 :: g.2).length
      · have hg := List.mem_of_getElem? hk
        have hgn : g.1 ∈ nodesOf gs := mem_nodesOf.mpr ⟨g, hg, .inl rfl⟩
        have hp := hr.links.par _ hgn
        have hva := viewNodeAt_spec hr hg j
        have hmem : (g.1 :: g.2)[j] ∈ nodesOf gs := by
          refine mem_nodesOf.mpr ⟨g, hg, ?_⟩
          exact List.mem_cons.mp (List.getElem_mem hj)
        simp only [ListOp.call]
        rw [bind_ok (groupAt_ok hr hk)]
        refine after ?_
        unfold Heap.viewDel
        rw [bind_run, readE_run, hva, List.getElem?_eq_getElem hj]
        simp only [bind_run (HM.read _), read_run, hp]
        rw [bind_ok (deref_some _ _)]
        exact after (hr.loose_pop hl hmem)
      · rw [if_neg (by simpa using hj)] at hm; cases hm
  | clear => exact after (leads_modify (fun _ => rfl) (fun _ => rfl) (fun _ => rfl) h hl)
  | clearGroups => exact after (loose_clearGroups _ h hl)
  | reverse => exact after (loose_reverse _ h hl)
  | sort => exact after (loose_sort _ _ _ h hl)

end Bibleref
