import Verif.Lemmas.RangeHeap3
import Verif.Lemmas.DiffTotal

set_option linter.unusedSimpArgs false

/-!
# Lists of ranges in memory: `difference_update` of a list with itself
-/

namespace Bibleref
open HM

section
variable {α β γ : Type}

/-- The operation does not change the links to following nodes. -/
def Keeps (x : HM α β) : Prop := ∀ h, (x h).2.next = h.next

theorem Keeps.bind {x : HM α β} {f : β → HM α γ} (hx : Keeps x) (hf : ∀ b, Keeps (f b)) : Keeps (x >>= f) := by
  intro h
  have h1 := hx h
  rcases hr : x h with ⟨r, h'⟩
  rw [hr] at h1
  cases r with
  | error e => rw [bind_error hr]; exact h1
  | ok b => rw [bind_ok hr, hf b h']; exact h1

theorem Keeps.read (f : Heap α → β) : Keeps (HM.read f) := fun _ => rfl
theorem Keeps.pure (b : β) : Keeps (pure b : HM α β) := fun _ => rfl

theorem unlinkHead_next (L n : Nat) : Keeps (Heap.unlinkHead L n : HM α Unit) := by
  unfold Heap.unlinkHead
  refine (Keeps.read _).bind fun nh => (Keeps.read _).bind fun ph => (Keeps.read _).bind fun q => (Keeps.read _).bind fun lost => ?_
  refine Keeps.bind ?_ fun p => ?_
  · split
    · exact fun _ => rfl
    · exact fun _ => rfl
  · refine (Keeps.read _).bind fun fh => ?_
    by_cases hf : fh = some n <;> simp only [hf, if_true, if_false]
    · refine Keeps.bind (fun _ => rfl) fun _ => (Keeps.read _).bind fun lh => ?_
      by_cases hl : lh = some n <;> cases ph <;> cases nh <;> simp only [hl, if_true, if_false] <;> exact fun _ => rfl
    · refine (Keeps.read _).bind fun lh => ?_
      by_cases hl : lh = some n <;> cases ph <;> cases nh <;> simp only [hl, if_true, if_false] <;> exact fun _ => rfl

theorem popNode_next {h : Heap α} {L n : Nat} {xs ys : List Nat} (hl : Links h L (xs ++ n :: ys)) :
    (Heap.popNode L (some n) h).2.next n = h.next n := by
  rw [popNode_run hl]
  have hk : Keeps (do
      if h.isHead n then Heap.unlinkHead L n
      HM.read fun h => h.value n : HM α α) := by
    split
    · exact (unlinkHead_next L n).bind fun _ => Keeps.read _
    · exact Keeps.read _
  rw [hk]
  show updOpt h.next (h.prev n) (h.next n) n = h.next n
  rw [updOpt_apply]
  split <;> rfl

end

namespace RangeHeap

variable {h h' : Heap BibleRange} {L M : Nat} {gs gs' gm : List Grp} {e : Env} {flags : Option BibleFlag} {ws : List RangeList} {xs ys : RangeList}
  {K : BibleBook → Prop}

/-- After the body of the inner loop, the node that was compared still leads to the node that followed it. -/
theorem diffBody_next {xs ys : List Nat} {n : Nat} (diff : List BibleRange) (hr : Rep h L gs) (hx : nodesOf gs = xs ++ n :: ys) :
    (diffBody L diff n h).2.next n = ys.head? := by
  cases diff with
  | nil =>
    have := hr.links.seg
    rw [hx] at this
    exact (seg_mid this).2
  | cons d ds =>
    obtain ⟨h1, gs1, n1, new, hrun1, hst1, hx1, hh1, hv1, hk1, hle⟩ := putBefore_spec (d :: ds).reverse hr hx
    have hx2 : nodesOf gs1 = (xs ++ new) ++ n :: ys := by rw [hx1]; simp
    obtain ⟨h2, gs2, hrun2, hst2, hval2, hn2, _⟩ := popNode_nodes hst1.rep hx2
    have hl := hst1.rep.links
    rw [hx2] at hl
    have := popNode_next hl
    simp only [diffBody]
    rw [bind_ok hrun1, bind_ok hrun2]
    rw [hrun2] at this
    rw [show ((pure n1 : HM BibleRange Nat) h2).2.next n = h2.next n from rfl, this]
    exact (seg_mid hl.seg).2

theorem mem_of_head? {γ : Type} {l : List γ} {a : γ} (ha : l.head? = some a) : a ∈ l := by
  cases l with
  | nil => cases ha
  | cons b l => cases ha; simp

/-- Comparing a node with nodes of its own list keeps the list a list. -/
theorem diffInner_alias (hK : Kind e K) (k : Nat) {o : Option Nat} {n : Nat} (hr : Rep h L gs) (hn : n ∈ nodesOf gs)
    (ho : ∀ m, o = some m → m ∈ nodesOf gs) (hx : ∀ x ∈ nodesOf gs, OfKind K (h.value x)) :
    ∃ r h' gs', diffInner e flags L k o n h = (r, h') ∧ Step L h h' gs gs' ∧ (∀ n', r = .ok n' → n' ∈ nodesOf gs') ∧
      ∀ x ∈ nodesOf gs', OfKind K (h'.value x) := by
  induction k generalizing h gs o n with
  | zero =>
    cases o with
    | none => exact ⟨_, h, gs, rfl, Step.refl hr, fun n' hh => by cases hh; exact hn, hx⟩
    | some m => exact ⟨_, h, gs, rfl, Step.refl hr, fun n' hh => (by cases hh), hx⟩
  | succ k ih =>
    cases o with
    | none => exact ⟨_, h, gs, rfl, Step.refl hr, fun n' hh => by cases hh; exact hn, hx⟩
    | some m =>
      rw [diffInner_succ]
      simp only [bind_run (HM.read _), read_run]
      cases hd : (h.value n).difference e (h.value m) flags with
      | error x => exact ⟨_, h, gs, lift_error _ rfl, Step.refl hr, fun n' hh => (by cases hh), hx⟩
      | ok diff =>
        rw [lift_ok _ rfl]
        have hkd := hK.difference (hx n hn) (hx m (ho m rfl)) hd
        have hkn := hx
        obtain ⟨xs, ys, hx⟩ := List.append_of_mem hn
        obtain ⟨h1, gs1, n1, new, hrun1, hst1, hx1, hv1, hw1, hkeep, _⟩ := diffBody_spec diff hr hx
        have hk1 : ∀ x ∈ nodesOf gs1, OfKind K (h1.value x) := by
          have old : ∀ x ∈ nodesOf gs, OfKind K (h1.value x) := fun x hxx => by
            rw [hkeep x (hr.links.lt x hxx)]; exact hkn x hxx
          intro x hxx
          rw [hx1] at hxx
          rw [hx] at old
          simp only [List.mem_append, List.mem_cons] at hxx old
          rcases hxx with hxx | rfl | hxx | hxx
          · exact old x (.inl hxx)
          · rw [hv1]
            cases diff with
            | nil => exact hkn n hn
            | cons d ds => exact hkd d List.mem_cons_self
          · refine hkd _ (List.mem_of_mem_tail (hw1 ▸ List.mem_map_of_mem hxx))
          · exact old x (.inr (.inr hxx))
        have hnx := diffBody_next diff hr hx
        rw [hrun1] at hnx
        rw [bind_ok hrun1]
        simp only [bind_run (HM.read _), read_run]
        have hm := ho m rfl
        obtain ⟨r, h2, gs2, a, b, c, d⟩ := ih (o := h1.next m) (n := n1) hst1.rep (by rw [hx1]; simp) (by
          intro m' hm'
          by_cases hmn : m = n
          · rw [hmn, hnx] at hm'
            rw [hx1]
            have := mem_of_head? hm'
            simp [this]
          · have hm1 : m ∈ nodesOf gs1 := by
              rw [hx] at hm
              rw [hx1]
              simp only [List.mem_append, List.mem_cons] at hm ⊢
              grind
            obtain ⟨ps, qs, hpq⟩ := List.append_of_mem hm1
            have hs := hst1.rep.links.seg
            rw [hpq] at hs
            rw [(seg_mid hs).2] at hm'
            rw [hpq]
            have := mem_of_head? hm'
            simp [this]) hk1
        exact ⟨r, h2, gs2, a, hst1.trans b, c, d⟩

theorem diffOuter_alias (hK : Kind e K) (k fuel : Nat) {o : Option Nat} (hr : Rep h L gs) (ho : ∀ n, o = some n → n ∈ nodesOf gs)
    (hx : ∀ x ∈ nodesOf gs, OfKind K (h.value x)) :
    ∃ r h' gs', diffOuter e flags L L fuel k o h = (r, h') ∧ Step L h h' gs gs' ∧ ∀ x ∈ nodesOf gs', OfKind K (h'.value x) := by
  induction k generalizing h gs o with
  | zero => cases o <;> exact ⟨_, h, gs, rfl, Step.refl hr, hx⟩
  | succ k ih =>
    cases o with
    | none => exact ⟨_, h, gs, rfl, Step.refl hr, hx⟩
    | some n =>
      rw [diffOuter]
      simp only [bind_run (HM.read _), read_run]
      obtain ⟨r, h1, gs1, a, b, c, hx1⟩ := diffInner_alias (e := e) (flags := flags) hK fuel (o := h.first L) hr (ho n rfl) (by
        intro m hm
        rw [hr.links.fst] at hm
        exact mem_of_head? hm) hx
      cases r with
      | error x => exact ⟨_, h1, gs1, bind_error a, b, hx1⟩
      | ok n' =>
        rw [bind_ok a]
        simp only [bind_run (HM.read _), read_run]
        obtain ⟨r, h2, gs2, d, f, hx2⟩ := ih (o := h1.next n') b.rep (by
          intro m hm
          obtain ⟨ps, qs, hpq⟩ := List.append_of_mem (c n' rfl)
          have hs := b.rep.links.seg
          rw [hpq] at hs
          rw [(seg_mid hs).2] at hm
          rw [hpq]
          have := mem_of_head? hm
          simp [this]) hx1
        exact ⟨r, h2, gs2, d, b.trans f, hx2⟩

/-- `a.difference_update(a)` either fails for lack of room for nested calls or leaves `a` a list, whether it raises or not. -/
theorem differenceUpdate_alias (hK : Kind e K) (depth fuel : Nat) (hr : Rep h L gs) (hx : ∀ r ∈ (valuesOf h gs).flatten, OfKind K r) :
    (∃ h', differenceUpdate e depth fuel L L flags h = (.error .recursionError, h')) ∨
    ∃ r h' gs', differenceUpdate e depth fuel L L flags h = (r, h') ∧ Step L h h' gs gs' := by
  unfold differenceUpdate
  simp only [bind_run (HM.read _), read_run]
  obtain ⟨r, h1, gs1, a, b, hx1⟩ := diffOuter_alias (e := e) (flags := flags) hK fuel fuel (o := h.first L) hr (by
    intro m hm
    rw [hr.links.fst] at hm
    exact mem_of_head? hm) (fun x hxx => hx _ (by rw [← map_nodesOf]; exact List.mem_map_of_mem hxx))
  cases r with
  | error x => exact .inr ⟨_, h1, gs1, bind_error a, b⟩
  | ok u =>
    rw [bind_ok a]
    have hc : ∀ r ∈ (valuesOf h1 gs1).flatten, OfKind K r := fun r hr => by
      rw [← map_nodesOf] at hr
      obtain ⟨x, hxx, rfl⟩ := List.mem_map.mp hr
      exact hx1 x hxx
    rcases merge_out (e := e) (flags := none) depth b.rep (fun a ha b hb => hK.alike (hc a ha) (hc b hb)) with ⟨h2, hrun2, _⟩ | hout
    · exact .inl ⟨h2, hrun2⟩
    · right
      cases hm : RangeList.merge e (valuesOf h1 gs1) none with
      | error x =>
        rw [hm] at hout
        obtain ⟨h2, gs2, c, d⟩ := hout
        exact ⟨_, h2, gs2, c, b.trans d⟩
      | ok zs =>
        rw [hm] at hout
        obtain ⟨h2, gs2, c, d, _⟩ := hout
        exact ⟨_, h2, gs2, c, b.trans d⟩

/-! ## Termination -/

variable (hW : e.data.WF)
include hW

open RangeList in
theorem diffInner_alias_ends {k : Nat} {zs ms xs ys : List Nat} {n : Nat} (hr : Rep h L gs) (hx : nodesOf gs = xs ++ n :: ys)
    (hz : nodesOf gs = zs ++ ms) (hok : ∀ x ∈ nodesOf gs, AOK e.data (e.eff flags) (h.value x))
    (hk : total e.data (e.eff flags).verse0 (ms.map h.value) ≤ k) :
    (∃ x h' gs', diffInner e flags L k ms.head? n h = (.error x, h') ∧ x ≠ .diverges ∧ Step L h h' gs gs') ∨
    ∃ h' gs' n' ys', diffInner e flags L k ms.head? n h = (.ok n', h') ∧ Step L h h' gs gs' ∧ nodesOf gs' = xs ++ n' :: ys' ∧
      (∀ x ∈ nodesOf gs', AOK e.data (e.eff flags) (h'.value x)) ∧ xs.map h'.value = xs.map h.value ∧
      total e.data (e.eff flags).verse0 ((n' :: ys').map h'.value) ≤ total e.data (e.eff flags).verse0 ((n :: ys).map h.value) := by
  induction k generalizing h gs zs ms ys n with
  | zero =>
    cases ms with
    | nil => exact .inr ⟨h, gs, n, ys, rfl, Step.refl hr, hx, hok, rfl, Nat.le_refl _⟩
    | cons m ms =>
      have := size_pos hW (hok m (by simp [hz]))
      rw [List.map_cons, total_cons] at hk
      omega
  | succ k ih =>
    cases ms with
    | nil => exact .inr ⟨h, gs, n, ys, rfl, Step.refl hr, hx, hok, rfl, Nat.le_refl _⟩
    | cons m ms =>
      have hmok := hok m (by simp [hz])
      have hnok := hok n (by simp [hx])
      have hsm := size_pos hW hmok
      rw [List.map_cons, total_cons] at hk
      rw [List.head?_cons, diffInner_succ]
      simp only [bind_run (HM.read _), read_run]
      rcases difference_total hW (flags := flags) hnok hmok with ⟨x, hd, hx'⟩ | ⟨diff, hd, hdok, hdt, hdeq⟩
      · exact .inl ⟨x, h, gs, by rw [hd]; exact lift_error _ rfl, hx', Step.refl hr⟩
      · rw [hd, lift_ok _ rfl]
        obtain ⟨h1, gs1, n1, new, hrun1, hst1, hx1, hv1, hw1, hk1, hnil⟩ := diffBody_spec diff hr hx
        rw [bind_ok hrun1]
        simp only [bind_run (HM.read _), read_run]
        have hlt : ∀ x ∈ nodesOf gs, h1.value x = h.value x := fun x hxx => hk1 x (hr.links.lt x hxx)
        have hxs : xs.map h1.value = xs.map h.value := List.map_congr_left fun x hxx => hlt x (by simp [hx, hxx])
        have hys : ys.map h1.value = ys.map h.value := List.map_congr_left fun x hxx => hlt x (by simp [hx, hxx])
        by_cases hdn : diff = []
        · -- nothing changes
          obtain ⟨rfl, rfl⟩ := hnil hdn
          have hnx : h1.next m = ms.head? := by
            have := hr.links.seg
            rw [hz] at this
            exact (seg_mid this).2
          rw [hnx]
          exact ih hr hx (zs := zs ++ [m]) (by simp [hz]) hok (by omega)
        · have hmn : m ≠ n := fun hmn => hdn (hdeq (by rw [hmn]))
          -- the values at the place of the node
          have hvals : (n1 :: new).map h1.value = diff := by
            rw [List.map_cons, hv1, hw1]
            cases diff with
            | nil => exact absurd rfl hdn
            | cons a l => rfl
          have hok1 : ∀ x ∈ nodesOf gs1, AOK e.data (e.eff flags) (h1.value x) := by
            intro x hxx
            rw [hx1] at hxx
            have hcase : x ∈ nodesOf gs ∨ x ∈ n1 :: new := by
              rw [hx]
              simp only [List.mem_append, List.mem_cons] at hxx ⊢
              grind
            rcases hcase with hc | hc
            · rw [hlt x hc]; exact hok x hc
            · exact hdok _ (by rw [← hvals]; exact List.mem_map_of_mem hc)
          have htot : total e.data (e.eff flags).verse0 ((n1 :: (new ++ ys)).map h1.value) ≤
              total e.data (e.eff flags).verse0 ((n :: ys).map h.value) := by
            rw [show n1 :: (new ++ ys) = (n1 :: new) ++ ys from rfl, List.map_append, total_append, hvals, hys, List.map_cons, total_cons]
            omega
          -- where the other node is
          have hpos : (∃ c, xs = zs ++ m :: c ∧ ms = c ++ n :: ys) ∨ ∃ c, ys = c ++ m :: ms := by
            rw [hx] at hz
            rcases List.append_eq_append_iff.mp hz with ⟨c, h1, h2⟩ | ⟨c, h1, h2⟩
            · cases c with
              | nil => simp at h2; exact absurd h2.1.symm hmn
              | cons y c =>
                simp at h2
                exact .inr ⟨c, h2.2⟩
            · cases c with
              | nil => simp at h2; exact absurd h2.1 hmn
              | cons y c =>
                simp at h2
                exact .inl ⟨c, by rw [h1, h2.1], h2.2⟩
          obtain ⟨zs', ms', hz', hnx, hms⟩ : ∃ zs' ms', nodesOf gs1 = zs' ++ ms' ∧ h1.next m = ms'.head? ∧
              total e.data (e.eff flags).verse0 (ms'.map h1.value) ≤ total e.data (e.eff flags).verse0 (ms.map h.value) := by
            rcases hpos with ⟨c, hc1, hc2⟩ | ⟨c, hc⟩
            · refine ⟨zs ++ [m], c ++ n1 :: (new ++ ys), by rw [hx1, hc1]; simp, ?_, ?_⟩
              · have := hst1.rep.links.seg
                rw [hx1, hc1, show zs ++ m :: c ++ n1 :: (new ++ ys) = zs ++ m :: (c ++ n1 :: (new ++ ys)) by simp] at this
                exact (seg_mid this).2
              · rw [hc2, List.map_append, List.map_append, total_append, total_append]
                have : c.map h1.value = c.map h.value := List.map_congr_left fun x hxx => hlt x (by simp [hx, hc1, hxx])
                rw [this]
                omega
            · refine ⟨xs ++ n1 :: (new ++ (c ++ [m])), ms, by rw [hx1, hc]; simp, ?_, ?_⟩
              · have := hst1.rep.links.seg
                rw [hx1, hc, show xs ++ n1 :: (new ++ (c ++ m :: ms)) = (xs ++ n1 :: (new ++ c)) ++ m :: ms by simp] at this
                exact (seg_mid this).2
              · have : ms.map h1.value = ms.map h.value := List.map_congr_left fun x hxx => hlt x (by simp [hx, hc, hxx])
                rw [this]
                omega
          rw [hnx]
          rcases ih hst1.rep hx1 hz' hok1 (by omega) with ⟨x, h2, gs2, a, b, c⟩ | ⟨h2, gs2, n2, ys2, a, b, c, d, f, g⟩
          · exact .inl ⟨x, h2, gs2, a, b, hst1.trans c⟩
          · exact .inr ⟨h2, gs2, n2, ys2, a, hst1.trans b, c, d, by rw [f, hxs], by omega⟩

open RangeList in
theorem diffOuter_alias_ends {k fuel : Nat} {xs ys : List Nat} (hr : Rep h L gs) (hx : nodesOf gs = xs ++ ys)
    (hok : ∀ x ∈ nodesOf gs, AOK e.data (e.eff flags) (h.value x))
    (hk : total e.data (e.eff flags).verse0 (ys.map h.value) ≤ k)
    (hf : total e.data (e.eff flags).verse0 ((nodesOf gs).map h.value) ≤ fuel) :
    (∃ x h' gs', diffOuter e flags L L fuel k ys.head? h = (.error x, h') ∧ x ≠ .diverges ∧ Step L h h' gs gs') ∨
    ∃ h' gs', diffOuter e flags L L fuel k ys.head? h = (.ok (), h') ∧ Step L h h' gs gs' ∧
      (∀ x ∈ nodesOf gs', AOK e.data (e.eff flags) (h'.value x)) ∧
      total e.data (e.eff flags).verse0 ((nodesOf gs').map h'.value) ≤ total e.data (e.eff flags).verse0 ((nodesOf gs).map h.value) := by
  induction k generalizing h gs xs ys with
  | zero =>
    cases ys with
    | nil => exact .inr ⟨h, gs, rfl, Step.refl hr, hok, Nat.le_refl _⟩
    | cons n ys =>
      have := size_pos hW (hok n (by simp [hx]))
      rw [List.map_cons, total_cons] at hk
      omega
  | succ k ih =>
    cases ys with
    | nil => exact .inr ⟨h, gs, rfl, Step.refl hr, hok, Nat.le_refl _⟩
    | cons n ys =>
      rw [List.head?_cons, diffOuter]
      simp only [bind_run (HM.read _), read_run]
      rw [hr.links.fst]
      rcases diffInner_alias_ends hW (flags := flags) (k := fuel) hr hx (zs := []) (ms := nodesOf gs) rfl hok hf with
        ⟨x, h1, gs1, a, b, c⟩ | ⟨h1, gs1, n1, ys1, a, b, c, d, f, g⟩
      · exact .inl ⟨x, h1, gs1, bind_error a, b, c⟩
      · rw [bind_ok a]
        simp only [bind_run (HM.read _), read_run]
        have hnx : h1.next n1 = ys1.head? := by
          have := b.rep.links.seg
          rw [c] at this
          exact (seg_mid this).2
        rw [hnx]
        have hs := size_pos hW (d n1 (by simp [c]))
        have hall : total e.data (e.eff flags).verse0 ((nodesOf gs1).map h1.value) ≤ total e.data (e.eff flags).verse0 ((nodesOf gs).map h.value) := by
          rw [c, hx, List.map_append, List.map_append, total_append, total_append, f]
          omega
        rcases ih b.rep (xs := xs ++ [n1]) (ys := ys1) (by simp [c]) d (by
            rw [List.map_cons, total_cons] at g; omega) (by omega) with ⟨x, h2, gs2, a', b', c'⟩ | ⟨h2, gs2, a', b', c', d'⟩
        · exact .inl ⟨x, h2, gs2, a', b', b.trans c'⟩
        · exact .inr ⟨h2, gs2, a', b.trans b', c', by omega⟩

open RangeList in
/-- With fuel for every verse, `a.difference_update(a)` ends. -/
theorem differenceUpdate_alias_ends (depth : Nat) {fuel : Nat} (hr : Rep h L gs)
    (hok : ∀ r ∈ (valuesOf h gs).flatten, AOK e.data (e.eff flags) r) (hf : total e.data (e.eff flags).verse0 (valuesOf h gs).flatten ≤ fuel) :
    (differenceUpdate e depth fuel L L flags h).1 ≠ .error .diverges := by
  unfold differenceUpdate
  simp only [bind_run (HM.read _), read_run]
  rw [hr.links.fst]
  rw [← map_nodesOf] at hf
  rcases diffOuter_alias_ends hW (flags := flags) (k := fuel) (fuel := fuel) hr (xs := []) (ys := nodesOf gs) rfl
    (fun x hx => hok _ (by rw [← map_nodesOf]; exact List.mem_map_of_mem hx)) hf hf with ⟨x, h1, gs1, a, b, c⟩ | ⟨h1, gs1, a, b, c, d⟩
  · rw [bind_error a]
    intro hh
    cases hh
    exact b rfl
  · rw [bind_ok a]
    have hall : ∀ r ∈ (valuesOf h1 gs1).flatten, ROK e.data true r := fun r hr => by
      rw [← map_nodesOf] at hr
      obtain ⟨x, hx, rfl⟩ := List.mem_map.mp hr
      exact ⟨(c x hx).s.mono, (c x hx).t.mono, (c x hx).le⟩
    rcases merge_out (e := e) (flags := none) depth b.rep (fun a ha b hb => (hall a ha).alike (hall b hb)) with ⟨h2, hrun2, _⟩ | hout
    · rw [hrun2]; simp
    · rcases merge_any hW (l := valuesOf h1 gs1) (flags := none) hall with hm | ⟨m, hm⟩
      · rw [hm] at hout
        obtain ⟨h2, gs2, f, _⟩ := hout
        rw [f]; simp
      · rw [hm] at hout
        obtain ⟨h2, gs2, f, _⟩ := hout
        rw [f]; simp

end RangeHeap
end Bibleref
