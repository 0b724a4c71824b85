import Verif.SpecIterators
import Verif.Lemmas.LooseHeads
import Verif.Lemmas.LoopSpec

/-! Iterators over lists that change. -/

namespace Bibleref
open HM
variable {α : Type} {h h' : Heap α} {L : Nat} {gs gs' : List Grp}

/-! ## Iterators and nodes -/

/-- The link an iterator follows. -/
def Heap.link (h : Heap α) (w : Walk) (n : Nat) : Option Nat := match w with
  | .backward => h.prev n
  | .groups => h.nextHead n
  | _ => h.next n

/-- A node that has been taken out of its list. -/
structure Dropped (h : Heap α) (n : Nat) : Prop where
  lt : n < h.nodes
  par : h.parent n = none
  hd : h.isHead n = false

/-- The link leads to what is ahead. -/
def Aims (h : Heap α) (w : Walk) (ns : List Nat) : Option Nat → Ahead α → Prop
  | q, .nothing => q = none
  | q, .element i => i < ns.length ∧ q = ns[i]?
  | q, .removed v a => ∃ m, q = some m ∧ Dropped h m ∧ h.value m = v ∧ Aims h w ns (h.link w m) a

/-- The generator is at the place. -/
def StandsAt (h : Heap α) (L : Nat) (w : Walk) (ns : List Nat) (g : Gen) : Spot α → Prop
  | .start => g = .list L ∧ w ≠ .group
  | .first i => w = .group ∧ ∃ n, g = .view n ∧ ns[i]? = some n
  | .firstRemoved => ∃ n, g = .view n ∧ Dropped h n
  | .on i => ∃ n, g = .at n ∧ ns[i]? = some n ∧ (w = .groups → Loose n h)
  | .off a => ∃ n, g = .at n ∧ Dropped h n ∧ Aims h w ns (h.link w n) a ∧ (w = .groups → a = .nothing)
  | .over => g = .ended
  | .unknown => True

/-- Nodes that have been taken out are left alone, and the others do not get a next group unless they begin one. -/
structure RestsIn (h h' : Heap α) : Prop where
  nodes : h.nodes ≤ h'.nodes
  same : ∀ n, Dropped h n → Dropped h' n ∧ h'.value n = h.value n ∧ h'.prev n = h.prev n ∧ h'.next n = h.next n ∧
    h'.nextHead n = h.nextHead n
  loose : ∀ n, Loose n h → Loose n h'

theorem RestsIn.link (hq : RestsIn h h') {n : Nat} (hn : Dropped h n) (w : Walk) : h'.link w n = h.link w n := by
  obtain ⟨_, _, h1, h2, h3⟩ := hq.same n hn
  cases w <;> simp only [Heap.link, h1, h2, h3]

theorem Frame.rests (hf : Frame L h h') (hl : ∀ n, Loose n h → Loose n h') : RestsIn h h' := by
  refine ⟨hf.nodes, fun n hn => ?_, hl⟩
  obtain ⟨a, b, c, d, e, _, f⟩ := hf.node n hn.lt (by rw [hn.par]; nofun)
  exact ⟨⟨Nat.lt_of_lt_of_le hn.lt hf.nodes, by rw [b, hn.par], by rw [e, hn.hd]⟩, a, c, d, f⟩

theorem RestsIn.trans {h'' : Heap α} (h1 : RestsIn h h') (h2 : RestsIn h' h'') : RestsIn h h'' := by
  refine ⟨Nat.le_trans h1.nodes h2.nodes, fun n hn => ?_, fun n hn => h2.loose n (h1.loose n hn)⟩
  obtain ⟨a, b, c, d, e⟩ := h1.same n hn
  obtain ⟨a', b', c', d', e'⟩ := h2.same n a
  exact ⟨a', b'.trans b, c'.trans c, d'.trans d, e'.trans e⟩

theorem Aims.rests (hq : RestsIn h h') {w : Walk} {ns ns' : List Nat} (hns : ∀ i < ns.length, ns'[i]? = ns[i]?) {q : Option Nat} {a : Ahead α}
    (ha : Aims h w ns q a) : Aims h' w ns' q a := by
  induction a generalizing q with
  | nothing => exact ha
  | element i =>
    refine ⟨?_, ha.2.trans (hns i ha.1).symm⟩
    have := hns i ha.1
    rw [List.getElem?_eq_getElem ha.1] at this
    exact (List.getElem?_eq_some_iff.mp this).1
  | removed v a ih =>
    obtain ⟨m, h1, h2, h3, h4⟩ := ha
    obtain ⟨k1, k2, k3⟩ := hq.same m h2
    exact ⟨m, h1, k1, by rw [k2, h3], by rw [hq.link h2]; exact ih h4⟩

theorem StandsAt.rests (hq : RestsIn h h') {w : Walk} {ns ns' : List Nat} (hns : ∀ i < ns.length, ns'[i]? = ns[i]?) {g : Gen} {p : Spot α}
    (hp : StandsAt h L w ns g p) : StandsAt h' L w ns' g p := by
  have key : ∀ {i n}, ns[i]? = some n → ns'[i]? = some n := fun hi => by
    rw [hns _ (List.getElem?_eq_some_iff.mp hi).1]; exact hi
  cases p with
  | start | over | unknown => exact hp
  | first i => obtain ⟨w, n, h1, h2⟩ := hp; exact ⟨w, n, h1, key h2⟩
  | firstRemoved => obtain ⟨n, h1, h2⟩ := hp; exact ⟨n, h1, (hq.same n h2).1⟩
  | on i => obtain ⟨n, h1, h2, h3⟩ := hp; exact ⟨n, h1, key h2, fun hw => hq.loose n (h3 hw)⟩
  | off a =>
    obtain ⟨n, h1, h2, h3, h4⟩ := hp
    exact ⟨n, h1, (hq.same n h2).1, by rw [hq.link h2]; exact h3.rests hq hns, h4⟩

/-! ## `next` -/

theorem reach_arrive (hr : Rep h L gs) (w : Walk) {o : Option Nat} {q : Option Nat} (hq : q = o.bind fun i => (nodesOf gs)[i]?)
    (hd : w = .groups → ∀ n, q = some n → h.isHead n = true) :
    (h.reach q).1 = (Spot.arrive (valuesOf h gs) o).1 ∧
      StandsAt h L w (nodesOf gs) (h.reach q).2 (Spot.arrive (valuesOf h gs) o).2 := by
  unfold Spot.arrive
  cases o with
  | none => subst hq; exact ⟨rfl, rfl⟩
  | some i =>
    rw [Option.bind_some] at hq ⊢
    cases hn : (nodesOf gs)[i]? with
    | none =>
      rw [hn] at hq; subst hq
      rw [← map_nodesOf, List.getElem?_map, hn]
      exact ⟨rfl, rfl⟩
    | some n =>
      rw [hn] at hq; subst hq
      rw [flatten_get hn]
      exact ⟨rfl, n, rfl, hn, fun hw => ⟨hr.links.lt n (List.mem_of_getElem? hn), .inl (hd hw n rfl)⟩⟩

/-- A group begins at a position just if its node is the head of a group. -/
theorem Rep.begins (hr : Rep h L gs) {i n : Nat} (hn : (nodesOf gs)[i]? = some n) :
    (Nested.groupFrom (valuesOf h gs) i).isSome = h.isHead n := by
  obtain ⟨A, a, t, B, j, rfl, h1, rfl, h2⟩ := locate (List.getElem?_eq_some_iff.mp hn).1
  rw [hn] at h2
  cases j with
  | zero =>
    simp only [List.getElem?_cons_zero, Option.some.injEq] at h2
    subst h2
    rw [Nat.add_zero, groupFrom_at, hr.heads.hd (n, t) (by simp)]
    rfl
  | succ j =>
    rw [groupFrom_inside A (a, t) B (by omega) h1]
    rw [List.getElem?_cons_succ] at h2
    rw [hr.heads.tl (a, t) (by simp) n (List.mem_of_getElem? h2.symm)]
    rfl

theorem groupFrom_beyond {i : Nat} (hi : (nodesOf gs).length ≤ i) : Nested.groupFrom (valuesOf h gs) i = none := by
  induction gs generalizing i with
  | nil => rfl
  | cons a A ih =>
    simp only [valuesOf, List.map_cons, Nested.groupFrom, nodesOf_cons, List.length_append, List.length_cons, List.length_map] at ih hi ⊢
    rw [if_neg (by omega), if_neg (by omega)]
    exact ih (by omega)

/-- The step of `next` over a link that leads to position `i`. -/
theorem link_arrive (hr : Rep h L gs) {w : Walk} (hw : w ≠ .backward) (hw' : w ≠ .groups) {n i : Nat} (hl : h.next n = (nodesOf gs)[i]?) :
    (h.advance w (.at n)).1 = (Spot.arriveIn w (valuesOf h gs) i).1 ∧
      StandsAt h L w (nodesOf gs) (h.advance w (.at n)).2 (Spot.arriveIn w (valuesOf h gs) i).2 := by
  unfold Spot.arriveIn
  cases w with
  | backward => exact absurd rfl hw
  | groups => exact absurd rfl hw'
  | forward =>
    rw [if_neg (by simp)]
    exact reach_arrive hr _ hl nofun
  | group =>
    have hr' := reach_arrive (o := some i) hr .group rfl nofun
    simp only [Heap.advance, hl]
    cases hq : (nodesOf gs)[i]? with
    | none =>
      rw [groupFrom_beyond (List.getElem?_eq_none_iff.mp hq), if_neg (by simp)]
      rw [Option.bind_some, hq] at hr'
      exact hr'
    | some q =>
      rw [hr.begins hq]
      cases hb : h.isHead q with
      | true =>
        rw [if_pos ⟨trivial, rfl⟩]
        simp only [hb, if_true]
        exact ⟨rfl, rfl⟩
      | false =>
        rw [if_neg (by simp)]
        rw [Option.bind_some, hq] at hr'
        simp only [hb]
        exact hr'

theorem AtGroup.arrives (hr : Rep h L gs) {i : Nat} {q : Option Nat} (hq : AtGroup gs i q) :
    q = (some i).bind (fun i => (nodesOf gs)[i]?) ∧ ∀ n, q = some n → h.isHead n = true := by
  cases hq with
  | group A n t B hg hi =>
    subst hg hi
    refine ⟨?_, fun m hm => ?_⟩
    · rw [Option.bind_some, nodesOf_append, List.getElem?_append_right (Nat.le_refl _), Nat.sub_self, nodesOf_cons]
      rfl
    · cases hm
      exact hr.heads.hd (n, t) (by simp)
  | finished hi =>
    subst hi
    exact ⟨by rw [Option.bind_some, List.getElem?_eq_none_iff.mpr (Nat.le_refl _)], nofun⟩

theorem advance_sim (hr : Rep h L gs) {w : Walk} {g : Gen} {p : Spot α} (hp : StandsAt h L w (nodesOf gs) g p) (hu : p ≠ .unknown) :
    (h.advance w g).1 = (p.next w (valuesOf h gs)).1 ∧ StandsAt h L w (nodesOf gs) (h.advance w g).2 (p.next w (valuesOf h gs)).2 := by
  have hlen : (valuesOf h gs).flatten.length = (nodesOf gs).length := by rw [← map_nodesOf, List.length_map]
  cases p with
  | unknown => exact absurd rfl hu
  | over =>
    cases hp
    exact ⟨rfl, rfl⟩
  | start =>
    obtain ⟨rfl, hw⟩ := hp
    cases w with
    | group => exact absurd rfl hw
    | forward => exact reach_arrive hr _ (by simp only [Option.bind_some, hr.links.fst, List.head?_eq_getElem?]) nofun
    | groups =>
      refine reach_arrive hr _ (o := some 0) ?_ fun _ n hn => ?_
      · simp only [Option.bind_some]
        rw [hr.heads.fst]
        cases gs <;> rfl
      · rw [hr.heads.fst] at hn
        cases gs with
        | nil => cases hn
        | cons g gs => cases hn; exact hr.heads.hd g (by simp)
    | backward =>
      refine reach_arrive hr _ ?_ nofun
      simp only [hr.links.lst, hlen, List.getLast?_eq_getElem?]
      split
      · rename_i h0; rw [List.length_eq_zero_iff.mp h0]; rfl
      · rfl
  | first i =>
    obtain ⟨rfl, n, rfl, hn⟩ := hp
    have hb := hr.begins hn
    have hpar := hr.links.par n (List.mem_of_getElem? hn)
    simp only [Heap.advance, Spot.next, Heap.viewCheck, hpar]
    cases hh : h.isHead n with
    | true =>
      rw [if_neg (by simp), hb, hh]
      simp only [if_true]
      exact reach_arrive hr _ (by simp only [Option.bind_some, hn]) nofun
    | false =>
      rw [if_pos (.inl rfl), hb, hh]
      exact ⟨rfl, rfl⟩
  | firstRemoved =>
    obtain ⟨n, rfl, hn⟩ := hp
    simp only [Heap.advance, Spot.next, Heap.viewCheck, hn.hd]
    exact ⟨rfl, rfl⟩
  | on i =>
    obtain ⟨n, rfl, hn, hlo⟩ := hp
    obtain ⟨h1, h2⟩ := hr.links_at hn
    by_cases hw : w = .backward
    · subst hw
      refine reach_arrive hr _ ?_ nofun
      rw [h2]
      split <;> rfl
    by_cases hw' : w = .groups
    · subst hw'
      have := next_group hr (hlo rfl) hn
      simp only [Heap.advance, Spot.next]
      cases hgf : Nested.groupFrom (valuesOf h gs) i with
      | none =>
        rw [hgf] at this
        rw [this]
        exact ⟨rfl, rfl⟩
      | some g =>
        rw [hgf] at this
        obtain ⟨k1, k2⟩ := AtGroup.arrives hr this
        exact reach_arrive hr _ k1 fun _ => k2
    · have := link_arrive hr hw hw' h1
      cases w with
      | backward => exact absurd rfl hw
      | groups => exact absurd rfl hw'
      | forward => exact this
      | group => exact this
  | off a =>
    obtain ⟨n, rfl, hn, ha, hno⟩ := hp
    cases a with
    | nothing =>
      have ha : h.link w n = none := ha
      cases w <;> simp only [Heap.link] at ha <;> simp only [Heap.advance, ha, Heap.reach] <;> exact ⟨rfl, rfl⟩
    | element i =>
      obtain ⟨_, ha⟩ := ha
      by_cases hw : w = .backward
      · subst hw
        simp only [Spot.next, Spot.arriveIn]
        rw [if_neg (by simp)]
        exact reach_arrive hr _ (by simp only [Option.bind_some]; exact ha) nofun
      · have hw' : w ≠ .groups := fun hw' => by cases hno hw'
        refine link_arrive hr hw hw' ?_
        cases w with
        | backward => exact absurd rfl hw
        | groups => exact absurd rfl hw'
        | forward => exact ha
        | group => exact ha
    | removed v a =>
      obtain ⟨m, h1, h2, h3, h4⟩ := ha
      have : h.advance w (.at n) = h.reach (some m) := by
        cases w <;> simp only [Heap.link] at h1 <;> simp only [Heap.advance, h1]
        rw [h2.hd]; simp
      rw [this]
      exact ⟨by simp only [Heap.reach, Spot.next, h3], m, rfl, h2, h4, fun hw => by cases hno hw⟩

/-! ## Operations -/

theorem Step.out (hr : Rep h L gs) (hst : Step L h h' gs gs') {n : Nat} (hn : n ∈ nodesOf gs) (hn' : n ∉ nodesOf gs')
    (hh : h'.isHead n = false) : Dropped h' n := by
  refine ⟨Nat.lt_of_lt_of_le (hr.links.lt n hn) hst.frame.nodes, ?_, hh⟩
  cases hp : h'.parent n with
  | none => rfl
  | some M =>
    by_cases hM : M = L
    · subst hM
      rcases hst.own n hp with h1 | ⟨_, h1⟩
      · exact absurd h1 hn'
      · exact absurd hn h1
    · have := hst.other n M hM hp
      rw [hr.links.par n hn] at this
      cases this
      exact absurd rfl hM

theorem Goes.aims {v : α} {n : Nat} {ns : List Nat} {p : Nat × Nat} (hg : Goes h' v n ns p) (hp : p.1 = p.2) (w : Walk)
    (hlo : w = .groups → Loose n h') : Aims h' w ns (h'.link w n) (Ahead.from w ns.length p) := by
  have hb := (hg.gone hp).2.2.2
  have hf : Aims h' w ns (h'.next n) (if p.2 < ns.length then .element p.2 else .nothing) := by
    split
    · rename_i hlt; exact ⟨hlt, hg.next⟩
    · rename_i hlt; exact hg.next.trans (List.getElem?_eq_none_iff.mpr (by omega))
  cases w with
  | forward => exact hf
  | group => exact hf
  | groups =>
    rcases (hlo rfl).2 with h1 | h1
    · rw [(hg.gone hp).1] at h1; cases h1
    · exact h1
  | backward =>
    simp only [Heap.link, Ahead.from, hg.prev]
    split
    · rfl
    · exact ⟨by omega, rfl⟩

/-- The elements are where `moves` says. -/
def MovedTo (h h' : Heap α) (gs gs' : List Grp) (moves : Nat → Nat × Nat) : Prop :=
  ∀ i n, (nodesOf gs)[i]? = some n → Goes h' (h.value n) n (nodesOf gs') (moves i)

theorem Aims.step (hr : Rep h L gs) (hst : Step L h h' gs gs') {moves : Nat → Nat × Nat} (hmv : MovedTo h h' gs gs' moves) {w : Walk}
    (hw : w ≠ .groups) (hq : RestsIn h h') {q : Option Nat} {a : Ahead α} (ha : Aims h w (nodesOf gs) q a) :
    Aims h' w (nodesOf gs') q (a.after w moves (valuesOf h gs).flatten (nodesOf gs').length) := by
  induction a generalizing q with
  | nothing => exact ha
  | element i =>
    obtain ⟨hi, ha⟩ := ha
    have hn := List.getElem?_eq_getElem hi
    rw [hn] at ha
    have hg := hmv i _ hn
    simp only [Ahead.after, flatten_get hn]
    split
    · rename_i hp
      obtain ⟨g1, g2, g3, g4⟩ := hg.gone hp
      exact ⟨_, ha, hst.out hr (List.mem_of_getElem? hn) g2 g1, g3, hg.aims hp w (absurd · hw)⟩
    · rename_i hp
      have := hg.here hp
      exact ⟨(List.getElem?_eq_some_iff.mp this).1, ha.trans this.symm⟩
  | removed v a ih =>
    obtain ⟨m, h1, h2, h3, h4⟩ := ha
    obtain ⟨k1, k2, k3⟩ := hq.same m h2
    exact ⟨m, h1, k1, by rw [k2, h3], by rw [hq.link h2]; exact ih h4⟩

theorem StandsAt.step (hr : Rep h L gs) (hst : Step L h h' gs gs') {moves : Nat → Nat × Nat} (hmv : MovedTo h h' gs gs' moves) {w : Walk}
    (hq : RestsIn h h') {g : Gen} {p : Spot α} (hp : StandsAt h L w (nodesOf gs) g p) :
    StandsAt h' L w (nodesOf gs') g (p.after w moves (valuesOf h gs).flatten (nodesOf gs').length) := by
  cases p with
  | start | over | unknown => exact hp
  | first i =>
    obtain ⟨hw, n, h1, hn⟩ := hp
    have hg := hmv i n hn
    simp only [Spot.after]
    split
    · rename_i hp
      obtain ⟨g1, g2, g3, g4⟩ := hg.gone hp
      exact ⟨n, h1, hst.out hr (List.mem_of_getElem? hn) g2 g1⟩
    · rename_i hp
      exact ⟨hw, n, h1, hg.here hp⟩
  | firstRemoved =>
    obtain ⟨n, h1, h2⟩ := hp
    exact ⟨n, h1, (hq.same n h2).1⟩
  | on i =>
    obtain ⟨n, h1, hn, hlo⟩ := hp
    have hg := hmv i n hn
    simp only [Spot.after]
    split
    · rename_i hp
      obtain ⟨g1, g2, g3, g4⟩ := hg.gone hp
      exact ⟨n, h1, hst.out hr (List.mem_of_getElem? hn) g2 g1, hg.aims hp w fun hw => hq.loose n (hlo hw), fun hw => by rw [hw]; rfl⟩
    · rename_i hp
      exact ⟨n, h1, hg.here hp, fun hw => hq.loose n (hlo hw)⟩
  | off a =>
    obtain ⟨n, h1, h2, h3, h4⟩ := hp
    refine ⟨n, h1, (hq.same n h2).1, ?_, fun hw => by rw [h4 hw]; rfl⟩
    rw [hq.link h2]
    by_cases hw : w = .groups
    · rw [h4 hw] at h3 ⊢
      exact h3
    · exact h3.step hr hst hmv hw hq

section
variable [DecidableEq α] (le : α → α → Bool)

omit [DecidableEq α] in
theorem zipIdx_sort (h : Heap α) (ns : List Nat) {i n : Nat} (hn : ns[i]? = some n) :
    (ns.mergeSort (nodeLe le h))[(((ns.map h.value).zipIdx.mergeSort fun a b => le a.1 b.1).map Prod.snd).idxOf i]? = some n := by
  let S := ns.zipIdx.mergeSort fun a b => nodeLe le h a.1 b.1
  have h1 : S.map Prod.fst = ns.mergeSort (nodeLe le h) := by
    have := List.map_mergeSort (r := fun a b : Nat × Nat => nodeLe le h a.1 b.1) (s := nodeLe le h) (f := Prod.fst) (l := ns.zipIdx)
      (fun a _ b _ => rfl)
    rw [this, List.zipIdx_map_fst]
  have h2 : ((ns.map h.value).zipIdx.mergeSort fun a b => le a.1 b.1).map Prod.snd = S.map Prod.snd := by
    have := List.map_mergeSort (r := fun a b : Nat × Nat => nodeLe le h a.1 b.1) (s := fun a b : α × Nat => le a.1 b.1)
      (f := fun x => (h.value x.1, x.2)) (l := ns.zipIdx) (fun a _ b _ => rfl)
    have hz : (ns.map h.value).zipIdx = ns.zipIdx.map fun x => (h.value x.1, x.2) := by
      rw [List.zipIdx_map]
      rfl
    rw [hz, ← this, List.map_map]
    rfl
  rw [h2, ← h1]
  have hmem : (n, i) ∈ S := by
    rw [List.mem_mergeSort, List.mem_zipIdx_iff_getElem?]
    exact hn
  have hi : i ∈ S.map Prod.snd := List.mem_map.mpr ⟨_, hmem, rfl⟩
  have hlt := List.idxOf_lt_length_of_mem hi
  have hat := List.getElem_idxOf hlt
  rw [List.length_map] at hlt
  rw [List.getElem_map] at hat
  rw [List.getElem?_map, List.getElem?_eq_getElem hlt, Option.map_some]
  have hmem' := List.getElem_mem hlt
  rw [List.mem_mergeSort, List.mem_zipIdx_iff_getElem?, hat, hn] at hmem'
  exact hmem'.symm

theorem op_moved {depth : Nat} {op : ListOp α} (hr : Rep h L gs) (hs : op.Sensible depth (valuesOf h gs)) (hc : op ≠ .clear) {r xs'}
    (hm : op.meaning le (valuesOf h gs) = .ok (r, xs')) {r' : Except PyErr (Option α)} (hrun : op.call le depth L h = (r', h'))
    (hr' : Rep h' L gs') : MovedTo h h' gs gs' (op.moves le (valuesOf h gs)) := by
  intro i n hn
  by_cases hso : op = .sort
  · subst hso
    obtain ⟨h1, a, b, c, d⟩ := sort_step (lx := fun a b => .ok (le a b)) (le := le) depth (fun _ _ _ _ => rfl) hr (by have := hs; simp only [ListOp.Sensible, size_valuesOf] at this; exact this)
    have hh : h1 = h' := by
      have : ListOp.call le depth L .sort h = (.ok none, h1) := by
        simp only [ListOp.call]
        rw [bind_ok a]
        rfl
      rw [this] at hrun
      exact (Prod.mk.inj hrun).2
    subst hh
    have hns := hr'.unique b.rep
    have hz := zipIdx_sort le h (nodesOf gs) hn
    rw [map_nodesOf] at hz
    have hat : (nodesOf gs')[(((valuesOf h gs).flatten.zipIdx.mergeSort fun a b => le a.1 b.1).map Prod.snd).idxOf i]? = some n := by
      rw [hns, nodesOf_oneGroup]
      exact hz
    exact Goes.stays hr' hat
  · obtain ⟨r1, h1, gs1, a, b, c⟩ := op_goes le op hr hs hc hso hm hn
    have hh : h1 = h' := by
      rw [a] at hrun
      exact (Prod.mk.inj hrun).2
    subst hh
    rw [b.unique hr'] at c
    have : op.moves le (valuesOf h gs) i = op.place (valuesOf h gs) i := by
      cases op <;> first | rfl | exact absurd rfl hso
    rw [this]
    exact c

omit [DecidableEq α] in
theorem extendFrom_nodes {M : Nat} {gm : List Grp} {ys zs : List Nat} (hLM : M ≠ L) (hr : Rep h L gs) (hm : Rep h M gm)
    (hys : nodesOf gm = zs ++ ys) {k : Nat} (hk : ys.length ≤ k) : ∃ h' gs' more, Heap.extendFrom L k ys.head? h = (.ok (), h') ∧
      Step L h h' gs gs' ∧ nodesOf gs' = nodesOf gs ++ more := by
  induction ys generalizing h gs zs k with
  | nil => exact ⟨h, gs, [], by cases k <;> rfl, Step.refl hr, by simp⟩
  | cons n ys ih =>
    obtain ⟨k, rfl⟩ : ∃ k', k = k' + 1 := ⟨k - 1, by simp at hk; omega⟩
    obtain ⟨h1, gs1, hrun, hst, _, hn1, _⟩ := append_step hr (h.value n) false
    obtain ⟨hm1, _⟩ := hm.frame hLM hst.frame
    obtain ⟨h2, gs2, more, hrun2, hst2, hn2⟩ := ih (zs := zs ++ [n]) (k := k) hst.rep hm1 (by simp [hys]) (by simpa using hk)
    have hnx : h1.next n = ys.head? := by
      have := hm1.links.seg
      rw [hys] at this
      exact (seg_mid this).2
    refine ⟨h2, gs2, h.nodes :: more, ?_, hst.trans hst2, by rw [hn2, hn1]; simp⟩
    rw [List.head?_cons, Heap.extendFrom]
    simp only [bind_run (HM.read _), read_run]
    rw [bind_ok hrun]
    simp only [bind_run (HM.read _), read_run]
    rw [hnx, hrun2]

/-! ## Many lists and iterators -/

omit [DecidableEq α] in
/-- The generator is where the iterator is meant to be. -/
structure Trails (h : Heap α) (ws : List (List (List α))) (w : Walk) (g : Gen) (c : Cursor α) : Prop where
  walk : c.walk = w
  list : c.list < ws.length
  stands : ∀ gs, Rep h c.list gs → StandsAt h c.list w (nodesOf gs) g c.place

omit [DecidableEq α] in
theorem newList_rests {r : Except PyErr Nat} (hrun : Heap.newList h = (r, h')) : RestsIn h h' := by
  obtain ⟨h1, a, _, c, _⟩ := clear_step { h with lists := h.lists + 1 } h.lists
  have : Heap.newList h = (Heap.clear h.lists >>= fun _ => pure h.lists : HM α Nat) { h with lists := h.lists + 1 } := rfl
  rw [this, bind_ok a] at hrun
  have hh : h1 = h' := (Prod.mk.inj hrun).2
  subst hh
  have hl : ∀ n, Loose n { h with lists := h.lists + 1 } → Loose n h1 := fun n hn => by
    have : Loose n (Heap.clear h.lists { h with lists := h.lists + 1 } : Except PyErr Unit × Heap α).2 := hn
    rw [a] at this
    exact this
  have hq := c.rests hl
  exact ⟨hq.nodes, fun n hn => hq.same n ⟨hn.lt, hn.par, hn.hd⟩, fun n hn => hl n ⟨hn.1, hn.2⟩⟩

omit [DecidableEq α] in
/-- A list that is left alone keeps its iterators. -/
theorem Trails.keep {ws ws' : List (List (List α))} {w : Walk} {g : Gen} {c : Cursor α} (hw : World h ws) (hc : Trails h ws w g c)
    (hq : RestsIn h h') (hl : ws.length ≤ ws'.length) (hs : ∀ gs, Rep h c.list gs → Rep h' c.list gs) : Trails h' ws' w g c := by
  refine ⟨hc.walk, Nat.lt_of_lt_of_le hc.list hl, fun gs' hr' => ?_⟩
  obtain ⟨gs, hr, _⟩ := hw.rep c.list _ (List.getElem?_eq_getElem hc.list)
  rw [← (hs gs hr).unique hr']
  exact (hc.stands gs hr).rests hq fun _ _ => rfl

theorem world_trails {depth : Nat} {ws ws' : List (List (List α))} {op : WorldOp α} (hw : World h ws) (hs : op.Sensible depth ws)
    {r r'} (hm : op.meaning le ws = .ok (r, ws')) (hrun : op.call le depth h = (r', h')) {w : Walk} {g : Gen} {c : Cursor α}
    (hc : Trails h ws w g c) : Trails h' ws' w g (c.after le ws ws' op) := by
  obtain ⟨gc, hrc, hvc⟩ := hw.rep c.list _ (List.getElem?_eq_getElem hc.list)
  cases op with
  | new =>
    obtain ⟨h1, a, _, _, _, _, f⟩ := newList_run h
    simp only [WorldOp.call] at hrun
    rw [bind_ok a] at hrun
    have hh : h1 = h' := (Prod.mk.inj hrun).2
    subst hh
    cases hm
    exact hc.keep hw (newList_rests a) (by simp) fun gs hr => (f c.list gs (by rw [hw.lists]; have := hc.list; omega) hr).1
  | copy M =>
    have hgM : ws[M]? = some ws[M] := List.getElem?_eq_getElem hs
    obtain ⟨h1, a, b, c1, _⟩ := newList_world hw
    obtain ⟨gm, hm1, hv⟩ := c1.rep M ws[M] (by rw [List.getElem?_append_left hs]; exact hgM)
    obtain ⟨h2, gs2, hrun2, hst2, _⟩ := copyGo_step ws[M] (by rw [← hv]; exact valuesOf_ne _ _) b
    obtain ⟨h1', a', _, _, _, _, f⟩ := newList_run h
    rw [a] at a'
    have hh : h1 = h1' := (Prod.mk.inj a').2
    subst hh
    have hcp : Heap.copy M h = (.ok h.lists, h2) := by
      unfold Heap.copy
      rw [bind_ok a, bind_ok hm1.toNested, hv, bind_ok hrun2]
      rfl
    simp only [WorldOp.call] at hrun
    rw [bind_ok hcp] at hrun
    have hh : h2 = h' := (Prod.mk.inj hrun).2
    subst hh
    cases hm
    have hlo2 : ∀ n, Loose n h1 → Loose n h2 := fun n hn => by
      have := loose_copyGo (n := n) h.lists ws[M] h1 hn
      rw [hrun2] at this
      exact this
    have hne : c.list ≠ h.lists := by rw [hw.lists]; have := hc.list; omega
    exact hc.keep hw ((newList_rests a).trans (hst2.frame.rests hlo2)) (by simp) fun gs hr => ((f c.list gs hne hr).1.frame hne hst2.frame).1
  | extendList L M =>
    obtain ⟨hL, hM, hLM⟩ := hs
    obtain ⟨gs, hr, hv⟩ := hw.rep L _ (List.getElem?_eq_getElem hL)
    obtain ⟨gm, hrm, hvm⟩ := hw.rep M _ (List.getElem?_eq_getElem hM)
    obtain ⟨h1, gs1, more, a, b, hns⟩ := extendFrom_nodes (zs := []) (ys := nodesOf gm) (Ne.symm hLM) hr hrm rfl
      (k := h.nodes + 1) (Nat.le_succ_of_le hrm.length_le)
    have a' : Heap.extendList L M (h.nodes + 1) h = (.ok (), h1) := by
      unfold Heap.extendList
      simp only [bind_run (HM.read _), read_run, hrm.links.fst]
      exact a
    simp only [WorldOp.call, bind_run (HM.read _), read_run] at hrun
    rw [bind_ok a'] at hrun
    have hh : h1 = h' := (Prod.mk.inj hrun).2
    subst hh
    cases hm
    have hlo : ∀ n, Loose n h → Loose n h1 := fun n hn => by
      have := loose_extendFrom (n := n) L (h.nodes + 1) (nodesOf gm).head? h hn
      rw [a] at this
      exact this
    by_cases hcl : c.list = L
    · refine ⟨hc.walk, by rw [List.length_set]; exact hc.list, fun gs' hr' => ?_⟩
      subst hcl
      simp only [Cursor.after] at hr' ⊢
      rw [hr'.unique b.rep, hns]
      exact (hc.stands gs hr).rests (b.frame.rests hlo) fun i hi => List.getElem?_append_left hi
    · exact hc.keep hw (b.frame.rests hlo) (by simp) fun gs hr => (hr.frame hcl b.frame).1
  | on L op =>
    obtain ⟨hL, hs⟩ := hs
    have hget : ws[L]? = some ws[L] := List.getElem?_eq_getElem hL
    obtain ⟨gs, hr, hv⟩ := hw.rep L _ hget
    rw [hget, Option.getD_some, ← hv] at hs
    have hsim := op_sim le op hr hs
    simp only [WorldOp.call, WorldOp.meaning, hget, Option.getD_some, ← hv] at hrun hm
    cases hmo : op.meaning le (valuesOf h gs) with
    | error e => rw [hmo] at hm; cases hm
    | ok q =>
      obtain ⟨q, xs'⟩ := q
      rw [hmo] at hm hsim
      obtain ⟨h1, gs1, a, b, f, d, e⟩ := hsim
      rw [a] at hrun
      have hh : h1 = h' := (Prod.mk.inj hrun).2
      subst hh
      have hlo : ∀ n, Loose n h → Loose n h1 := fun n hn => by
        have := op_keeps_loose le op hr hs hmo hn
        rw [a] at this
        exact this
      have hws : ws.set L xs' = ws' := by cases hm; rfl
      subst hws
      by_cases hcl : c.list = L
      · subst hcl
        refine ⟨by simp only [Cursor.after, if_true]; exact hc.walk, by simp only [Cursor.after, if_true, List.length_set]; exact hc.list, ?_⟩
        intro gs' hr'
        simp only [Cursor.after, if_true] at hr' ⊢
        rw [hr'.unique b]
        have hst := hc.stands gs hr
        by_cases hcr : op = .clear
        · subst hcr
          cases hp : c.place with
          | start => rw [hp] at hst; exact hst
          | over => rw [hp] at hst; exact hst
          | _ => exact trivial
        · rcases e with ⟨he, _⟩ | e
          · exact absurd he hcr
          · have hmv := op_moved le hr hs hcr hmo a b
            have := hst.step hr e hmv (e.frame.rests hlo)
            rw [hc.walk, hget, Option.getD_some, ← hv, List.getElem?_set_self hL, Option.getD_some, ← d, ← map_nodesOf h1, List.length_map]
            cases op <;> first | exact this | exact absurd rfl hcr
      · have : c.after le ws (ws.set L xs') (.on L op) = c := by simp only [Cursor.after, if_neg hcl]
        rw [this]
        exact hc.keep hw (f.rests hlo) (by simp) fun gs hr => (hr.frame hcl f).1

theorem world_error {depth : Nat} {ws : List (List (List α))} {op : WorldOp α} (hw : World h ws) (hs : op.Sensible depth ws) {x}
    (hm : op.meaning le ws = .error x) : op.call le depth h = (.error x, h) := by
  cases op with
  | new | copy M | extendList L M => cases hm
  | on L op =>
    obtain ⟨hL, hs⟩ := hs
    have hget : ws[L]? = some ws[L] := List.getElem?_eq_getElem hL
    obtain ⟨gs, hr, hv⟩ := hw.rep L _ hget
    rw [hget, Option.getD_some, ← hv] at hs
    have hsim := op_sim le op hr hs
    simp only [WorldOp.call, WorldOp.meaning, hget, Option.getD_some, ← hv] at hm ⊢
    cases hmo : op.meaning le (valuesOf h gs) with
    | error e => rw [hmo] at hm hsim; cases hm; exact hsim
    | ok q => rw [hmo] at hm; cases hm

/-- Memory, lists, generators and iterators. -/
structure Tracks (h : Heap α) (ws : List (List (List α))) (gens : List (Walk × Gen)) (cs : List (Cursor α)) : Prop where
  world : World h ws
  len : gens.length = cs.length
  follows : ∀ (k : Nat) (w : Walk) (g : Gen) (c : Cursor α), gens[k]? = some (w, g) → cs[k]? = some c → Trails h ws w g c

omit [DecidableEq α] in
theorem Tracks.add {ws : List (List (List α))} {gens : List (Walk × Gen)} {cs : List (Cursor α)} (ht : Tracks h ws gens cs) {w : Walk}
    {g : Gen} {c : Cursor α} (hc : Trails h ws w g c) : Tracks h ws (gens ++ [(w, g)]) (cs ++ [c]) := by
  refine ⟨ht.world, by simp [ht.len], fun k w' g' c' h1 h2 => ?_⟩
  by_cases hk : k < gens.length
  · rw [List.getElem?_append_left hk] at h1
    rw [List.getElem?_append_left (ht.len ▸ hk)] at h2
    exact ht.follows k w' g' c' h1 h2
  · have h3 := (List.getElem?_eq_some_iff.mp h1).1
    have hk' : k = gens.length := by simp at h3; omega
    subst hk'
    rw [List.getElem?_append_right (Nat.le_refl _)] at h1
    rw [ht.len, List.getElem?_append_right (Nat.le_refl _)] at h2
    simp only [Nat.sub_self, List.getElem?_cons_zero, Option.some.injEq, Prod.mk.injEq] at h1 h2
    obtain ⟨rfl, rfl⟩ := h1
    subst h2
    exact hc

theorem action_sim {depth : Nat} {ws : List (List (List α))} {gens : List (Walk × Gen)} {cs : List (Cursor α)} (act : Action α)
    (ht : Tracks h ws gens cs) (hs : act.Sensible depth ws cs) :
    (act.run le depth h gens).1 = (act.meaning le ws cs).1 ∧
      Tracks (act.run le depth h gens).2.1 (act.meaning le ws cs).2.1 (act.run le depth h gens).2.2 (act.meaning le ws cs).2.2 := by
  cases act with
  | call op =>
    simp only [Action.run, Action.meaning]
    cases hm : op.meaning le ws with
    | error x =>
      rw [world_error le ht.world hs hm]
      exact ⟨rfl, ht⟩
    | ok q =>
      obtain ⟨q, ws'⟩ := q
      obtain ⟨h', a, b, _⟩ := world_sim le op ht.world hs
      rw [hm] at a b
      rw [a]
      refine ⟨rfl, b, by simp [ht.len], fun k w g c h1 h2 => ?_⟩
      rw [List.getElem?_map] at h2
      cases hc : cs[k]? with
      | none => rw [hc] at h2; cases h2
      | some c0 =>
        rw [hc] at h2
        cases h2
        exact world_trails le ht.world hs hm a (ht.follows k w g c0 h1 hc)
  | iter L back =>
    refine ⟨rfl, ht.add ⟨rfl, hs, fun gs _ => ⟨rfl, ?_⟩⟩⟩
    cases back <;> simp
  | iterGroup L k =>
    obtain ⟨xs, hx, hk⟩ := hs
    obtain ⟨gs, hr, hv⟩ := ht.world.rep L xs hx
    subst hv
    have hlen : gs.length = (valuesOf h gs).length := by simp [valuesOf]
    have hg : gs[k]? = some gs[k] := List.getElem?_eq_getElem (by omega)
    have := groupAt_ok hr hg
    simp only [Action.run, Action.meaning, this]
    refine ⟨trivial, ht.add ⟨rfl, (List.getElem?_eq_some_iff.mp hx).1, fun gs' hr' => ⟨rfl, _, rfl, ?_⟩⟩⟩
    simp only [hx, Option.getD_some] at hr' ⊢
    rw [hr'.unique hr]
    have h1 : ((valuesOf h gs).take k).flatten.length = (nodesOf (gs.take k)).length := by
      have : (valuesOf h gs).take k = valuesOf h (gs.take k) := by simp only [valuesOf, List.map_take]
      rw [this, ← map_nodesOf, List.length_map]
    have h2 : nodesOf gs = nodesOf (gs.take k) ++ nodesOf (gs.drop k) := by
      rw [← nodesOf_append, List.take_append_drop]
    rw [h1, h2, List.getElem?_append_right (Nat.le_refl _), Nat.sub_self, List.drop_eq_getElem_cons (by omega : k < gs.length), nodesOf_cons]
    rfl
  | iterGroups L => exact ⟨rfl, ht.add ⟨rfl, hs, fun gs _ => ⟨rfl, nofun⟩⟩⟩
  | iterView k =>
    simp only [Action.run, Action.meaning]
    cases hg : gens[k]? with
    | none =>
      have : cs[k]? = none := by rw [List.getElem?_eq_none_iff] at hg ⊢; rw [← ht.len]; exact hg
      rw [this]
      exact ⟨rfl, ht⟩
    | some wg =>
      obtain ⟨w, g⟩ := wg
      have hk := (List.getElem?_eq_some_iff.mp hg).1
      have hc : cs[k]? = some (cs[k]'(ht.len ▸ hk)) := List.getElem?_eq_getElem _
      rw [hc]
      have hf := ht.follows k w g _ hg hc
      have hu := hs _ hc
      generalize cs[k]'(ht.len ▸ hk) = c at hc hf hu ⊢
      obtain ⟨gs, hr, hv⟩ := ht.world.rep c.list _ (List.getElem?_eq_getElem hf.list)
      have hst := hf.stands gs hr
      obtain ⟨L, w', p⟩ := c
      obtain rfl : w' = w := hf.walk
      cases p with
      | unknown => exact absurd rfl hu
      | start => obtain ⟨rfl, _⟩ := hst; cases w' <;> exact ⟨rfl, ht⟩
      | over => cases hst; cases w' <;> exact ⟨rfl, ht⟩
      | first i => obtain ⟨rfl, n, rfl, _⟩ := hst; exact ⟨rfl, ht⟩
      | firstRemoved => obtain ⟨n, rfl, _⟩ := hst; cases w' <;> exact ⟨rfl, ht⟩
      | on i =>
        obtain ⟨n, rfl, hn, _⟩ := hst
        cases w' with
        | groups =>
          refine ⟨rfl, ht.add ⟨rfl, hf.list, fun gs' hr' => ⟨rfl, n, rfl, ?_⟩⟩⟩
          rw [hr'.unique hr]
          exact hn
        | _ => exact ⟨rfl, ht⟩
      | off a =>
        obtain ⟨n, rfl, hn, _⟩ := hst
        cases w' with
        | groups => exact ⟨rfl, ht.add ⟨rfl, hf.list, fun gs' hr' => ⟨n, rfl, hn⟩⟩⟩
        | _ => exact ⟨rfl, ht⟩
  | next k =>
    simp only [Action.run, Action.meaning]
    cases hg : gens[k]? with
    | none =>
      have : cs[k]? = none := by rw [List.getElem?_eq_none_iff] at hg ⊢; rw [← ht.len]; exact hg
      rw [this]
      exact ⟨rfl, ht⟩
    | some wg =>
      obtain ⟨w, g⟩ := wg
      have hk := (List.getElem?_eq_some_iff.mp hg).1
      have hc : cs[k]? = some (cs[k]'(ht.len ▸ hk)) := List.getElem?_eq_getElem _
      rw [hc]
      have hf := ht.follows k w g _ hg hc
      have hu := hs _ hc
      generalize cs[k]'(ht.len ▸ hk) = c at hc hf hu ⊢
      obtain ⟨gs, hr, hv⟩ := ht.world.rep c.list _ (List.getElem?_eq_getElem hf.list)
      obtain ⟨h1, h2⟩ := advance_sim hr (hf.stands gs hr) hu
      simp only [List.getElem?_eq_getElem hf.list, Option.getD_some, ← hv, hf.walk]
      refine ⟨h1, ht.world, by simp [ht.len], fun j w' g' c' h3 h4 => ?_⟩
      by_cases hj : j = k
      · subst hj
        rw [List.getElem?_set_self hk] at h3
        rw [List.getElem?_set_self (ht.len ▸ hk)] at h4
        cases h3
        cases h4
        exact ⟨rfl, hf.list, fun gs' hr' => by rw [hr'.unique hr]; exact h2⟩
      · rw [List.getElem?_set_ne (Ne.symm hj)] at h3 h4
        exact ht.follows j w' g' c' h3 h4

theorem runs_sim {depth : Nat} (acts : List (Action α)) {ws : List (List (List α))} {gens : List (Walk × Gen)} {cs : List (Cursor α)}
    (ht : Tracks h ws gens cs) (hs : Action.SensibleRun le depth acts ws cs) :
    (Action.runs le depth acts h gens).1 = (Action.meanings le acts ws cs).1 ∧
      Tracks (Action.runs le depth acts h gens).2.1 (Action.meanings le acts ws cs).2.1
        (Action.runs le depth acts h gens).2.2 (Action.meanings le acts ws cs).2.2 := by
  induction acts generalizing h ws gens cs with
  | nil => exact ⟨rfl, ht⟩
  | cons a as ih =>
    obtain ⟨h1, h2⟩ := action_sim le a ht hs.1
    obtain ⟨h3, h4⟩ := ih h2 hs.2
    exact ⟨by simp only [Action.runs, Action.meanings, h1, h3], h4⟩

omit [DecidableEq α] in
theorem tracks_empty (v : α) : Tracks (Heap.empty v) [] [] [] := ⟨world_empty v, rfl, fun k w g c h1 => by simp at h1⟩

theorem Action.runs_append {depth : Nat} (as bs : List (Action α)) (h : Heap α) (gens : List (Walk × Gen)) :
    Action.runs le depth (as ++ bs) h gens =
      let x := Action.runs le depth as h gens
      let y := Action.runs le depth bs x.2.1 x.2.2
      (x.1 ++ y.1, y.2) := by
  induction as generalizing h gens with
  | nil => rfl
  | cons a as ih =>
    simp only [List.cons_append, Action.runs, ih]

theorem Action.meanings_append (as bs : List (Action α)) (ws : List (List (List α))) (cs : List (Cursor α)) :
    Action.meanings le (as ++ bs) ws cs =
      let x := Action.meanings le as ws cs
      let y := Action.meanings le bs x.2.1 x.2.2
      (x.1 ++ y.1, y.2) := by
  induction as generalizing ws cs with
  | nil => rfl
  | cons a as ih =>
    simp only [List.cons_append, Action.meanings, ih]

theorem Action.meanings_length (as : List (Action α)) (ws : List (List (List α))) (cs : List (Cursor α)) :
    (Action.meanings le as ws cs).1.length = as.length := by
  induction as generalizing ws cs with
  | nil => rfl
  | cons a as ih => simp only [Action.meanings, List.length_cons, ih]

theorem Action.sensibleRun_append {depth : Nat} (as bs : List (Action α)) (ws : List (List (List α))) (cs : List (Cursor α)) :
    Action.SensibleRun le depth (as ++ bs) ws cs ↔ Action.SensibleRun le depth as ws cs ∧
      Action.SensibleRun le depth bs (Action.meanings le as ws cs).2.1 (Action.meanings le as ws cs).2.2 := by
  induction as generalizing ws cs with
  | nil => exact ⟨fun h => ⟨trivial, h⟩, fun h => h.2⟩
  | cons a as ih =>
    simp only [List.cons_append, Action.SensibleRun, Action.meanings, ih, and_assoc]

omit [DecidableEq α] in
theorem arrive_mem {xs : List (List α)} {o : Option Nat} {v : α} (hv : (Spot.arrive xs o).1 = .ok (some v)) : v ∈ xs.flatten := by
  unfold Spot.arrive at hv
  split at hv
  · cases hv
  · rename_i i u hu
    cases hv
    cases o with
    | none => cases hu
    | some j =>
      rw [Option.bind_some] at hu
      cases hx : xs.flatten[j]? with
      | none => rw [hx] at hu; cases hu
      | some y => rw [hx] at hu; cases hu; exact List.mem_of_getElem? hx

omit [DecidableEq α] in
theorem arriveIn_mem {w : Walk} {xs : List (List α)} {i : Nat} {v : α} (hv : (Spot.arriveIn w xs i).1 = .ok (some v)) : v ∈ xs.flatten := by
  unfold Spot.arriveIn at hv
  split at hv
  · cases hv
  · exact arrive_mem hv

omit [DecidableEq α] in
theorem next_mem {w : Walk} {xs : List (List α)} {p : Spot α} (hp : ∀ u a, p ≠ .off (.removed u a)) {v : α}
    (hv : (p.next w xs).1 = .ok (some v)) : v ∈ xs.flatten := by
  cases p with
  | start => cases w <;> exact arrive_mem hv
  | first i =>
    simp only [Spot.next] at hv
    split at hv
    · exact arrive_mem hv
    · cases hv
  | firstRemoved | over | unknown => cases hv
  | on i => cases w <;> first | exact arrive_mem hv | exact arriveIn_mem hv
  | off a =>
    cases a with
    | nothing => cases hv
    | element i => exact arriveIn_mem hv
    | removed u a => exact absurd rfl (hp u a)

/-! ## Iterators over a list that does not change -/

omit [DecidableEq α] in
/-- The iterator gives these elements and then ends. -/
def Dispenses (w : Walk) (xs : List (List α)) : Spot α → List α → Prop
  | p, [] => p.next w xs = (.ok none, .over)
  | p, v :: l => ∃ p', p.next w xs = (.ok (some v), p') ∧ Dispenses w xs p' l

omit [DecidableEq α] in
theorem Dispenses.next {w : Walk} {xs : List (List α)} {p : Spot α} {l : List α} (hg : Dispenses w xs p l) :
    (p.next w xs).1 = .ok l.head? ∧ Dispenses w xs (p.next w xs).2 l.tail := by
  cases l with
  | nil =>
    have : p.next w xs = (.ok none, .over) := hg
    rw [this]
    exact ⟨rfl, rfl⟩
  | cons v l =>
    obtain ⟨p', h1, h2⟩ := hg
    rw [h1]
    exact ⟨rfl, h2⟩

omit [DecidableEq α] in
theorem Dispenses.known {w : Walk} {xs : List (List α)} {p : Spot α} {l : List α} (hg : Dispenses w xs p l) : p ≠ .unknown := by
  rintro rfl
  cases l with
  | nil =>
    have : (.ok none, .unknown) = ((.ok none, .over) : Except PyErr (Option α) × Spot α) := hg
    cases this
  | cons v l =>
    obtain ⟨p', h1, _⟩ := hg
    cases h1

omit [DecidableEq α] in
theorem arrive_at {xs : List (List α)} {i : Nat} {v : α} (hi : xs.flatten[i]? = some v) :
    Spot.arrive xs (some i) = (.ok (some v), .on i) := by
  simp only [Spot.arrive, Option.bind_some, hi, Option.map_some]

omit [DecidableEq α] in
theorem arrive_none {xs : List (List α)} {i : Nat} (hi : xs.flatten[i]? = none) :
    Spot.arrive xs (some i) = (.ok none, .over) := by
  simp only [Spot.arrive, Option.bind_some, hi, Option.map_none]

omit [DecidableEq α] in
theorem gives_forward {xs : List (List α)} {l : List α} {i : Nat} {p : Spot α} (hl : xs.flatten.drop i = l)
    (hp : p.next .forward xs = Spot.arrive xs (some i)) : Dispenses .forward xs p l := by
  induction l generalizing i p with
  | nil =>
    show p.next .forward xs = _
    rw [hp, arrive_none (List.getElem?_eq_none_iff.mpr (List.drop_eq_nil_iff.mp hl))]
  | cons v l ih =>
    have hv : xs.flatten[i]? = some v := by
      have := congrArg List.head? hl
      rwa [List.head?_drop] at this
    refine ⟨.on i, by rw [hp, arrive_at hv], ih (i := i + 1) ?_ ?_⟩
    · have := congrArg List.tail hl
      rwa [List.tail_drop] at this
    · simp only [Spot.next, Spot.arriveIn]
      rw [if_neg (by simp)]

omit [DecidableEq α] in
theorem gives_backward {xs : List (List α)} {i : Nat} {p : Spot α} (hi : i ≤ xs.flatten.length)
    (hp : p.next .backward xs = Spot.arrive xs (if i = 0 then none else some (i - 1))) :
    Dispenses .backward xs p (xs.flatten.take i).reverse := by
  induction i generalizing p with
  | zero => exact hp
  | succ i ih =>
    have hv : xs.flatten[i]? = some (xs.flatten[i]'hi) := List.getElem?_eq_getElem hi
    rw [List.take_succ_eq_append_getElem hi, List.reverse_append]
    refine ⟨.on i, ?_, ih (Nat.le_of_succ_le hi) rfl⟩
    rw [hp, if_neg (by omega)]
    exact arrive_at hv

omit [DecidableEq α] in
theorem groupFrom_within {A : List (List α)} (hA : ∀ g ∈ A, g ≠ []) (g : List α) (B : List (List α)) {i : Nat} (h0 : 0 < i) (hi : i < g.length) :
    Nested.groupFrom (A ++ g :: B) (A.flatten.length + i) = none := by
  induction A with
  | nil =>
    simp only [List.nil_append, Nested.groupFrom, List.flatten_nil, List.length_nil]
    rw [if_neg (by omega), if_pos (by omega)]
  | cons a A ih =>
    have : a.length ≠ 0 := fun h => hA a (by simp) (List.length_eq_zero_iff.mp h)
    simp only [List.cons_append, Nested.groupFrom, List.flatten_cons, List.length_append]
    rw [if_neg (by omega), if_neg (by omega), show a.length + A.flatten.length + i - a.length = A.flatten.length + i from by omega]
    exact ih fun g hg => hA g (by simp [hg])

theorem gives_group {A : List (List α)} {g : List α} {B : List (List α)} (hx : ∀ a ∈ A ++ g :: B, a ≠ []) {i : Nat} (h0 : 0 < i)
    {l : List α} (hl : g.drop i = l) {p : Spot α} (hp : p.next .group (A ++ g :: B) = Spot.arriveIn .group (A ++ g :: B) (A.flatten.length + i))
    (hi : i ≤ g.length) : Dispenses .group (A ++ g :: B) p l := by
  induction l generalizing i p with
  | nil =>
    show p.next .group _ = _
    have hi' : i = g.length := by have := List.drop_eq_nil_iff.mp hl; omega
    subst hi'
    rw [hp, Spot.arriveIn]
    have hg := groupFrom_pre (pre := A ++ [g]) (fun a ha => hx a (by simp at ha ⊢; rcases ha with h | h <;> simp [h])) B
    simp only [List.append_assoc, List.cons_append, List.nil_append, List.flatten_append, List.flatten_cons, List.flatten_nil, List.append_nil,
      List.length_append] at hg
    rw [hg]
    cases B with
    | nil =>
      rw [if_neg (by simp)]
      exact arrive_none (by simp)
    | cons b B => rw [if_pos (by simp)]
  | cons v l ih =>
    have hlt : i < g.length := by
      rcases Nat.lt_or_ge i g.length with h | h
      · exact h
      · rw [List.drop_eq_nil_iff.mpr h] at hl; cases hl
    have hv : (A ++ g :: B).flatten[A.flatten.length + i]? = some v := by
      have := congrArg List.head? hl
      rw [List.head?_drop] at this
      rw [List.flatten_append, List.flatten_cons, List.getElem?_append_right (by omega), Nat.add_sub_cancel_left, List.getElem?_append_left hlt]
      exact this
    refine ⟨.on (A.flatten.length + i), ?_, ih (i := i + 1) (by omega) ?_ rfl (by omega)⟩
    · rw [hp, Spot.arriveIn, groupFrom_within (fun a ha => hx a (by simp [ha])) g B h0 hlt, if_neg (by simp)]
      exact arrive_at hv
    · have := congrArg List.tail hl
      rwa [List.tail_drop] at this

theorem gives_first {A : List (List α)} {g : List α} {B : List (List α)} (hx : ∀ a ∈ A ++ g :: B, a ≠ []) :
    Dispenses .group (A ++ g :: B) (.first A.flatten.length) g := by
  cases g with
  | nil => exact absurd rfl (hx [] (by simp))
  | cons v g =>
    have hg := groupFrom_pre (pre := A) (fun a ha => hx a (by simp [ha])) ((v :: g) :: B)
    refine ⟨.on A.flatten.length, ?_, gives_group (i := 1) hx (by omega) (by simp) rfl (by simp)⟩
    simp only [Spot.next, hg, List.head?_cons, Option.isSome_some, if_true]
    exact arrive_at (by simp)

theorem gives_groups {pre rest : List (List α)} (hx : ∀ a ∈ pre ++ rest, a ≠ []) {p : Spot α}
    (hp : p.next .groups (pre ++ rest) = Spot.arrive (pre ++ rest) (some pre.flatten.length)) :
    Dispenses .groups (pre ++ rest) p (rest.filterMap List.head?) := by
  induction rest generalizing pre p with
  | nil =>
    show p.next .groups _ = _
    rw [hp]
    exact arrive_none (by simp)
  | cons g rest ih =>
    cases g with
    | nil => exact absurd rfl (hx [] (by simp))
    | cons v g =>
      show Dispenses _ _ _ (v :: rest.filterMap List.head?)
      refine ⟨.on pre.flatten.length, ?_, ?_⟩
      · rw [hp]
        exact arrive_at (by simp)
      · have hg := groupFrom_pre (pre := pre) (fun a ha => hx a (by simp [ha])) ((v :: g) :: rest)
        have := @ih (pre ++ [v :: g]) (by simpa using hx) (.on pre.flatten.length) (by
          simp only [List.append_assoc, List.cons_append, List.nil_append, Spot.next, hg, List.head?_cons, Option.map_some]
          simp)
        simpa using this

/-- Where an iterator over groups is after `j + 1` steps. -/
theorem groups_at {xs : List (List α)} (hx : ∀ a ∈ xs, a ≠ []) {j : Nat} (hj : j < xs.length) {p : Spot α}
    (hp : p = (if j = 0 then .start else .on (xs.take (j - 1)).flatten.length)) :
    ∃ v, p.next .groups xs = (.ok (some v), .on (xs.take j).flatten.length) := by
  have hs : xs = xs.take j ++ xs[j] :: xs.drop (j + 1) := by rw [← List.drop_eq_getElem_cons hj, List.take_append_drop]
  have hg : xs[j] ≠ [] := hx _ (List.getElem_mem hj)
  have hat : ∃ v, xs.flatten[(xs.take j).flatten.length]? = some v := by
    cases hx : xs[j] with
    | nil => exact absurd hx hg
    | cons v g =>
      refine ⟨v, ?_⟩
      have hf : xs.flatten = (xs.take j).flatten ++ (v :: g ++ (xs.drop (j + 1)).flatten) := by
        rw [hx] at hs
        conv => lhs; rw [hs]
        simp
      rw [hf, List.getElem?_append_right (Nat.le_refl _), Nat.sub_self]
      rfl
  obtain ⟨v, hv⟩ := hat
  refine ⟨v, ?_⟩
  cases j with
  | zero => subst hp; exact arrive_at hv
  | succ j =>
    rw [if_neg (by omega), Nat.add_sub_cancel] at hp
    subst hp
    have hs' : xs = xs.take j ++ xs[j] :: xs.drop (j + 1) := by rw [← List.drop_eq_getElem_cons (by omega), List.take_append_drop]
    have hgf := groupFrom_pre (pre := xs.take j) (fun a ha => hx a (List.mem_of_mem_take ha)) (xs[j] :: xs.drop (j + 1))
    rw [← hs'] at hgf
    simp only [Spot.next, hgf, List.head?_cons, Option.map_some]
    rw [List.take_succ_eq_append_getElem (by omega)] at hv ⊢
    simp only [List.flatten_append, List.flatten_cons, List.flatten_nil, List.append_nil, List.length_append] at hv ⊢
    exact arrive_at hv

/-- Iterators that give known elements, advanced in any order. -/
theorem nexts_give {depth : Nat} {ws : List (List (List α))} (ks : List Nat) {cs : List (Cursor α)} {l : Nat → List α}
    (hg : ∀ (k : Nat) (c : Cursor α), cs[k]? = some c → Dispenses c.walk (ws[c.list]?.getD []) c.place (l k)) :
    Action.SensibleRun le depth (ks.map .next) ws cs ∧ ∀ (i k : Nat) (c : Cursor α), ks[i]? = some k → cs[k]? = some c →
      (Action.meanings le (ks.map .next) ws cs).1[i]? = some (.ok (l k)[(ks.take i).count k]?) := by
  induction ks generalizing cs l with
  | nil => exact ⟨trivial, fun i k c hi => by simp at hi⟩
  | cons k₀ ks ih =>
    cases hc0 : cs[k₀]? with
    | none =>
      obtain ⟨h1, h2⟩ := ih hg
      have hm : (Action.next k₀ : Action α).meaning le ws cs = (.error .indexError, ws, cs) := by simp only [Action.meaning, hc0]
      refine ⟨⟨fun c hc => (by rw [hc0] at hc; cases hc), by rw [hm]; exact h1⟩, fun i k c hi hc => ?_⟩
      have hk : k₀ ≠ k := by rintro rfl; rw [hc0] at hc; cases hc
      simp only [List.map_cons, Action.meanings, hm]
      cases i with
      | zero => simp only [List.getElem?_cons_zero, Option.some.injEq] at hi; exact absurd hi hk
      | succ i =>
        rw [List.getElem?_cons_succ] at hi ⊢
        rw [h2 i k c hi hc, List.take_succ_cons, List.count_cons_of_ne hk]
    | some c₀ =>
      obtain ⟨g1, g2⟩ := (hg k₀ c₀ hc0).next
      have hlt := (List.getElem?_eq_some_iff.mp hc0).1
      generalize hn : c₀.place.next c₀.walk (ws[c₀.list]?.getD []) = q at g1 g2
      obtain ⟨r, p⟩ := q
      have hm : (Action.next k₀ : Action α).meaning le ws cs = (r, ws, cs.set k₀ { c₀ with place := p }) := by
        simp only [Action.meaning, hc0, hn]
      obtain ⟨h1, h2⟩ := ih (cs := cs.set k₀ { c₀ with place := p }) (l := fun j => if j = k₀ then (l k₀).tail else l j) (by
        intro k c hc
        by_cases hk : k = k₀
        · subst hk
          rw [List.getElem?_set_self hlt] at hc
          cases hc
          rw [if_pos rfl]
          exact g2
        · rw [List.getElem?_set_ne (Ne.symm hk)] at hc
          rw [if_neg hk]
          exact hg k c hc)
      refine ⟨⟨fun c hc => by rw [hc0] at hc; cases hc; exact (hg k₀ c₀ hc0).known, by rw [hm]; exact h1⟩, fun i k c hi hc => ?_⟩
      simp only [List.map_cons, Action.meanings, hm]
      cases i with
      | zero =>
        simp only [List.getElem?_cons_zero, Option.some.injEq] at hi ⊢
        subst hi
        simp only at g1
        rw [g1, List.take_zero, List.count_nil, List.head?_eq_getElem?]
      | succ i =>
        rw [List.getElem?_cons_succ] at hi ⊢
        rw [List.take_succ_cons]
        by_cases hk : k = k₀
        · subst hk
          rw [h2 i k _ hi (List.getElem?_set_self hlt), if_pos rfl, List.count_cons_self, List.getElem?_tail]
        · rw [h2 i k c hi (by rw [List.getElem?_set_ne (Ne.symm hk)]; exact hc), if_neg hk, List.count_cons_of_ne (Ne.symm hk)]

end

end Bibleref
