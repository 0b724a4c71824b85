import Verif.Lemmas.RangeHeap
import Verif.Lemmas.Orderly

set_option linter.unusedSimpArgs false

/-!
# Lists of ranges in memory: the loops over two lists
-/

namespace Bibleref
open HM
namespace RangeHeap

variable {h h' : Heap BibleRange} {L M : Nat} {gs gs' gm : List Grp} {e : Env} {flags : Option BibleFlag} {K : BibleBook → Prop}

/-! ## Changing values only -/

theorem values_step {w : Nat → BibleRange} (hr : Rep h L gs) (hw : ∀ x, x ∉ nodesOf gs → w x = h.value x) :
    Step L h { h with value := w } gs gs := by
  refine ⟨⟨⟨hr.links.nodup, hr.links.lt, hr.links.par, hr.links.seg, hr.links.fst, hr.links.lst, hr.links.cnt⟩,
    ⟨hr.heads.seg, hr.heads.fst, hr.heads.lst, hr.heads.cnt, hr.heads.hd, hr.heads.tl⟩⟩, ⟨fun x _ hp => ?_, fun _ _ => by simp,
    Nat.le_refl _, rfl⟩, fun x hx => ?_, fun x N _ hx => hx⟩
  · refine ⟨hw x (fun hh => hp (hr.links.par x hh)), rfl, rfl, rfl, rfl, rfl, rfl⟩
  · by_cases hm : x ∈ nodesOf gs
    · exact .inl hm
    · exact .inr ⟨hx, hm⟩

theorem mapNodes_spec (f : BibleRange → Except PyErr BibleRange) {l : List Nat} (hN : l.Nodup) (h : Heap BibleRange) :
    match (l.map h.value).mapM f with
    | .ok vs => ∃ w, mapNodes f l h = (.ok (), { h with value := w }) ∧ (∀ x, x ∉ l → w x = h.value x) ∧ l.map w = vs
    | .error x => ∃ w, mapNodes f l h = (.error x, { h with value := w }) ∧ (∀ x, x ∉ l → w x = h.value x) := by
  induction l generalizing h with
  | nil => exact ⟨h.value, rfl, fun _ _ => rfl, rfl⟩
  | cons n l ih =>
    rw [List.map_cons, List.mapM_cons, mapNodes]
    simp only [bind_run (HM.read _), read_run]
    rw [List.nodup_cons] at hN
    cases hf : f (h.value n) with
    | error x => exact ⟨h.value, lift_error _ rfl, fun _ _ => rfl⟩
    | ok v =>
      rw [lift_ok _ rfl]
      have hi := ih hN.2 { h with value := upd h.value n v }
      have e1 : l.map (upd h.value n v) = l.map h.value := map_upd_same hN.1
      have hrun : (Heap.setValue n v >>= fun _ => mapNodes f l) h = mapNodes f l { h with value := upd h.value n v } :=
        bind_ok (setValue_run _ _ _)
      rw [hrun]
      simp only [e1] at hi
      simp only [bind, Except.bind]
      cases hm : (l.map h.value).mapM f with
      | error x =>
        rw [hm] at hi
        obtain ⟨w, a, b⟩ := hi
        refine ⟨w, a, fun x hx => ?_⟩
        rw [b x (fun hh => hx (by simp [hh])), upd_ne _ _ (fun hh => hx (by simp [hh]))]
      | ok vs =>
        rw [hm] at hi
        obtain ⟨w, a, b, c⟩ := hi
        refine ⟨w, a, fun x hx => ?_, ?_⟩
        · rw [b x (fun hh => hx (by simp [hh])), upd_ne _ _ (fun hh => hx (by simp [hh]))]
        · rw [List.map_cons, c, b n hN.1, upd_same]

theorem mapM_append_ok {β γ : Type} {f : β → Except PyErr γ} (l m : List β) : (l ++ m).mapM f = (do
    let a ← l.mapM f
    let b ← m.mapM f
    return a ++ b) := by
  induction l with
  | nil =>
    simp only [List.nil_append, List.mapM_nil]
    cases m.mapM f <;> rfl
  | cons x l ih =>
    simp only [List.cons_append, List.mapM_cons, ih]
    cases f x with
    | error _ => rfl
    | ok y =>
      simp only [bind, Except.bind]
      cases l.mapM f with
      | error _ => rfl
      | ok ys =>
        simp only [pure, Except.pure]
        cases m.mapM f <;> rfl

/-- Mapping over groups and over all their items. -/
theorem mapM_nested {β γ : Type} {f : β → Except PyErr γ} (xs : List (List β)) : xs.flatten.mapM f = (do
    let ys ← xs.mapM fun g => g.mapM f
    return ys.flatten) := by
  induction xs with
  | nil => rfl
  | cons g xs ih =>
    rw [List.flatten_cons, mapM_append_ok, ih, List.mapM_cons]
    cases g.mapM f with
    | error _ => rfl
    | ok a =>
      simp only [bind, Except.bind]
      cases List.mapM (fun g => List.mapM f g) xs with
      | error _ => rfl
      | ok ys => rfl

theorem mapM_length {β γ : Type} {f : β → Except PyErr γ} {l : List β} {m : List γ} (hm : l.mapM f = .ok m) : m.length = l.length := by
  induction l generalizing m with
  | nil => cases hm; rfl
  | cons x l ih =>
    rw [List.mapM_cons] at hm
    cases hx : f x with
    | error _ => rw [hx] at hm; cases hm
    | ok y =>
      rw [hx] at hm
      simp only [bind, Except.bind] at hm
      cases hl : l.mapM f with
      | error _ => rw [hl] at hm; cases hm
      | ok ys =>
        rw [hl] at hm
        cases hm
        simp [ih hl]

theorem mapM_shape {β γ : Type} {f : β → Except PyErr γ} {l : List (List β)} {m : List (List γ)}
    (hm : (l.mapM fun g => g.mapM f) = .ok m) : m.map List.length = l.map List.length := by
  induction l generalizing m with
  | nil => cases hm; rfl
  | cons x l ih =>
    rw [List.mapM_cons] at hm
    cases hx : x.mapM f with
    | error _ => rw [hx] at hm; cases hm
    | ok y =>
      rw [hx] at hm
      simp only [bind, Except.bind] at hm
      cases hl : (l.mapM fun g => g.mapM f) with
      | error _ => rw [hl] at hm; cases hm
      | ok ys =>
        rw [hl] at hm
        cases hm
        simp [ih hl, mapM_length hx]

theorem eq_of_shape {β : Type} {l m : List (List β)} (h1 : l.map List.length = m.map List.length) (h2 : l.flatten = m.flatten) : l = m := by
  induction l generalizing m with
  | nil => cases m with
    | nil => rfl
    | cons => simp at h1
  | cons g l ih => cases m with
    | nil => simp at h1
    | cons g' m =>
      simp only [List.map_cons, List.cons.injEq] at h1
      rw [List.flatten_cons, List.flatten_cons] at h2
      obtain ⟨rfl, h3⟩ := List.append_inj h2 h1.1
      rw [ih h1.2 h3]

theorem valuesOf_shape (h h' : Heap BibleRange) (gs : List Grp) : (valuesOf h gs).map List.length = (valuesOf h' gs).map List.length := by
  simp [valuesOf]

theorem mapNodes_out (f : BibleRange → Except PyErr BibleRange) (hr : Rep h L gs) :
    Out L h gs ((do let l ← HM.readE (Heap.ids L); mapNodes f l : HM BibleRange Unit) h)
      ((valuesOf h gs).mapM fun g => g.mapM f) := by
  rw [show (do let l ← HM.readE (Heap.ids L); mapNodes f l : HM BibleRange Unit) h = mapNodes f (nodesOf gs) h from
    bind_ok (by rw [readE_run, hr.ids])]
  have hs := mapNodes_spec f hr.links.nodup h
  rw [map_nodesOf, mapM_nested] at hs
  cases hm : ((valuesOf h gs).mapM fun g => g.mapM f) with
  | error x =>
    rw [hm] at hs
    obtain ⟨w, a, b⟩ := hs
    exact ⟨_, gs, a, values_step hr b⟩
  | ok xs =>
    rw [hm] at hs
    obtain ⟨w, a, b, c⟩ := hs
    refine ⟨_, gs, a, values_step hr b, eq_of_shape ?_ ?_⟩
    · rw [mapM_shape hm]; exact valuesOf_shape _ _ _
    · rw [← map_nodesOf]; exact c

theorem verse0to1_out (hr : Rep h L gs) : Out L h gs (verse0to1 e L h) (RangeList.verse0to1 e (valuesOf h gs)) := mapNodes_out _ hr
theorem verse1to0_out (hr : Rep h L gs) : Out L h gs (verse1to0 e L h) (RangeList.verse1to0 e (valuesOf h gs)) := mapNodes_out _ hr

/-! ## Union -/

theorem merge_congr {a b : RangeList} (hab : a.flatten = b.flatten) : RangeList.merge e a flags = RangeList.merge e b flags := by
  unfold RangeList.merge; rw [hab]

theorem unionUpdate_out (depth : Nat) {fuel : Nat} (hLM : M ≠ L) (hr : Rep h L gs) (hm : Rep h M gm)
    (hf : (valuesOf h gm).flatten.length ≤ fuel) (hK : Kind e K) (hx : ∀ r ∈ (valuesOf h gs).flatten, OfKind K r) (hy : ∀ r ∈ (valuesOf h gm).flatten, OfKind K r) :
    (∃ h', unionUpdate e depth fuel L M flags h = (.error .recursionError, h') ∧
      depth ≤ (valuesOf h gs).flatten.length + (valuesOf h gm).flatten.length) ∨
    Out L h gs (unionUpdate e depth fuel L M flags h) (RangeList.unionUpdate e (valuesOf h gs) (valuesOf h gm) flags) := by
  rw [← map_nodesOf, List.length_map] at hf
  obtain ⟨h1, gs1, hrun, hst, hval⟩ := extendList_step hLM hr hm hf
  have hfl : (valuesOf h1 gs1).flatten = (valuesOf h gs).flatten ++ (valuesOf h gm).flatten := by rw [hval, Nested.extend_flatten]
  unfold unionUpdate
  have hc : ∀ r ∈ (valuesOf h1 gs1).flatten, OfKind K r := by
    rw [hfl]
    exact fun r hr => (List.mem_append.mp hr).elim (hx r) (hy r)
  rcases merge_out (e := e) (flags := flags) depth hst.rep (fun a ha b hb => hK.alike (hc a ha) (hc b hb)) with ⟨h2, hrun2, hd⟩ | hout
  · refine .inl ⟨h2, (bind_ok hrun).trans hrun2, ?_⟩
    rw [hfl, List.length_append] at hd
    exact hd
  · refine .inr (Out.after hrun hst ?_)
    rw [merge_congr (b := Groups.extend (valuesOf h gs) (valuesOf h gm).flatten) (by rw [hfl, Groups.flatten_extend])] at hout
    exact hout

/-! ## Intersection -/

/-- What one range contributes to an intersection. -/
def meets (e : Env) (flags : Option BibleFlag) (m : List BibleRange) (a : BibleRange) : Except PyErr (List BibleRange) := do
  let l' ← m.mapM fun b => a.intersection e b flags
  return l'.flatMap fun i => i.head?.toList

theorem items_eq (l m : List BibleRange) : RangeList.intersectionItems e flags l m = (do
    let ls ← l.mapM (meets e flags m)
    return ls.flatten) := rfl

theorem meetAll_spec (a : BibleRange) (m : List BibleRange) (hr : Rep h L gs) :
    match meets e flags m a with
    | .ok items => ∃ h' gs', meetAll e flags L a m h = (.ok (), h') ∧ Step L h h' gs gs' ∧
        (valuesOf h' gs').flatten = (valuesOf h gs).flatten ++ items
    | .error x => ∃ h' gs', meetAll e flags L a m h = (.error x, h') ∧ Step L h h' gs gs' := by
  unfold meets
  induction m generalizing h gs with
  | nil => exact ⟨h, gs, rfl, Step.refl hr, by simp⟩
  | cons b m ih =>
    rw [List.mapM_cons, meetAll]
    cases hi : a.intersection e b flags with
    | error x => exact ⟨h, gs, lift_error _ rfl, Step.refl hr⟩
    | ok i =>
      rw [lift_ok _ rfl]
      simp only [bind, Except.bind]
      obtain ⟨h1, gs1, hrun1, hst1, hval1⟩ : ∃ h1 gs1, (match i with
          | [] => pure ()
          | x :: _ => Heap.append L x false : HM BibleRange Unit) h = (.ok (), h1) ∧ Step L h h1 gs gs1 ∧
          (valuesOf h1 gs1).flatten = (valuesOf h gs).flatten ++ i.head?.toList := by
        cases i with
        | nil => exact ⟨h, gs, rfl, Step.refl hr, by simp⟩
        | cons x i =>
          obtain ⟨h1, gs1, a, b, _, _, c⟩ := append_step hr x false
          refine ⟨h1, gs1, a, b, ?_⟩
          rw [c]
          simp [Nested.extend_flatten]
      have hgo : (match i with
          | [] => HM.bind (pure ()) fun _ => meetAll e flags L a m
          | x :: _ => HM.bind (Heap.append L x false) fun _ => meetAll e flags L a m : HM BibleRange Unit) h = meetAll e flags L a m h1 := by
        cases i with
        | nil => exact bind_ok hrun1
        | cons x i => exact bind_ok hrun1
      have hih := ih hst1.rep
      simp only [bind, Except.bind] at hih
      cases hm : (m.mapM fun b => a.intersection e b flags) with
      | error x =>
        rw [hm] at hih
        obtain ⟨h2, gs2, a, b⟩ := hih
        exact ⟨h2, gs2, (by first | exact hgo.trans a | (cases i <;> exact hgo.trans a)), hst1.trans b⟩
      | ok l' =>
        rw [hm] at hih
        obtain ⟨h2, gs2, a, b, c⟩ := hih
        refine ⟨h2, gs2, (by first | exact hgo.trans a | (cases i <;> exact hgo.trans a)), hst1.trans b, ?_⟩
        rw [c, hval1]
        simp

theorem meetAllAll_spec (m l : List BibleRange) (hr : Rep h L gs) :
    match RangeList.intersectionItems e flags l m with
    | .ok items => ∃ h' gs', meetAllAll e flags L m l h = (.ok (), h') ∧ Step L h h' gs gs' ∧
        (valuesOf h' gs').flatten = (valuesOf h gs).flatten ++ items
    | .error x => ∃ h' gs', meetAllAll e flags L m l h = (.error x, h') ∧ Step L h h' gs gs' := by
  rw [items_eq]
  induction l generalizing h gs with
  | nil => exact ⟨h, gs, rfl, Step.refl hr, by simp⟩
  | cons a l ih =>
    rw [List.mapM_cons, meetAllAll]
    have h1 := meetAll_spec (e := e) (flags := flags) a m hr
    cases ha : meets e flags m a with
    | error x =>
      rw [ha] at h1
      obtain ⟨h2, gs2, c, d⟩ := h1
      exact ⟨h2, gs2, bind_error c, d⟩
    | ok items =>
      rw [ha] at h1
      obtain ⟨h2, gs2, c, d, f⟩ := h1
      have hih := ih d.rep
      simp only [bind, Except.bind] at hih ⊢
      have hgo : HM.bind (meetAll e flags L a m) (fun _ => meetAllAll e flags L m l) h = meetAllAll e flags L m l h2 := bind_ok c
      rw [hgo]
      cases hm : l.mapM (meets e flags m) with
      | error x =>
        rw [hm] at hih
        obtain ⟨h3, gs3, a, b⟩ := hih
        exact ⟨h3, gs3, a, d.trans b⟩
      | ok ls =>
        rw [hm] at hih
        obtain ⟨h3, gs3, a, b, c⟩ := hih
        refine ⟨h3, gs3, a, d.trans b, ?_⟩
        rw [c, f]
        simp

/-! ## Difference -/

theorem putBefore_spec {xs ys : List Nat} {n : Nat} (rs : List BibleRange) (hr : Rep h L gs) (hx : nodesOf gs = xs ++ n :: ys) :
    ∃ h' gs' n' new, putBefore L rs n h = (.ok n', h') ∧ Step L h h' gs gs' ∧ nodesOf gs' = xs ++ (new ++ n :: ys) ∧
      (new ++ [n]).head? = some n' ∧ new.map h'.value = rs.reverse ∧ (∀ x, x < h.nodes → h'.value x = h.value x) ∧ h.nodes ≤ h'.nodes := by
  induction rs generalizing h gs n ys with
  | nil => exact ⟨h, gs, n, [], rfl, Step.refl hr, by simp [hx], rfl, rfl, fun _ _ => rfl, Nat.le_refl _⟩
  | cons r rs ih =>
    obtain ⟨h1, gs1, hrun1, hst1, hval1, hn1, hx1⟩ := insertBefore_nodes r hr hx
    obtain ⟨h2, gs2, n2, new, hrun2, hst2, hx2, hh2, hv2, hk2, hle⟩ := ih hst1.rep hx1
    have hprev : h1.prev n = some h.nodes := by
      have hs := hst1.rep.links.seg
      rw [hx1, show xs ++ h.nodes :: n :: ys = (xs ++ [h.nodes]) ++ n :: ys by simp] at hs
      rw [(seg_mid hs).1]; simp
    refine ⟨h2, gs2, n2, new ++ [h.nodes], ?_, hst1.trans hst2, by simp [hx2], ?_, ?_, fun x hx => ?_, by omega⟩
    · rw [putBefore, bind_ok hrun1]
      simp only [bind_run (HM.read _), read_run, hprev]
      rw [bind_ok (deref_some _ _)]
      exact hrun2
    · cases new with
      | nil => simpa using hh2
      | cons a new => simpa using hh2
    · rw [List.map_append, hv2, List.map_cons, List.map_nil, hk2 _ (by omega), hval1, upd_same]
      simp
    · rw [hk2 x (by omega), hval1, upd_ne _ _ (by omega)]

/-- The body of the inner loop of `difference_update`. -/
def diffBody (L : Nat) (diff : List BibleRange) (n : Nat) : HM BibleRange Nat :=
  match diff with
  | [] => return n
  | _ => do
    let n' ← putBefore L diff.reverse n
    let _ ← Heap.popNode L (some n)
    return n'

theorem diffInner_succ (k m n : Nat) : diffInner e flags L (k + 1) (some m) n = (do
    let b ← HM.read fun h => h.value m
    let a ← HM.read fun h => h.value n
    let diff ← lift (a.difference e b flags)
    let n' ← diffBody L diff n
    let q ← HM.read fun h => h.next m
    diffInner e flags L k q n') := by
  rw [diffInner]
  rfl

theorem diffBody_spec {xs ys : List Nat} {n : Nat} (diff : List BibleRange) (hr : Rep h L gs) (hx : nodesOf gs = xs ++ n :: ys) :
    ∃ h' gs' n' new, diffBody L diff n h = (.ok n', h') ∧ Step L h h' gs gs' ∧ nodesOf gs' = xs ++ n' :: (new ++ ys) ∧
      h'.value n' = diff.head?.getD (h.value n) ∧ new.map h'.value = diff.tail ∧
      (∀ x, x < h.nodes → h'.value x = h.value x) ∧ (diff = [] → h' = h ∧ n' = n) := by
  cases diff with
  | nil => exact ⟨h, gs, n, [], rfl, Step.refl hr, by simp [hx], rfl, rfl, fun _ _ => rfl, fun _ => ⟨rfl, rfl⟩⟩
  | cons d ds =>
    obtain ⟨h1, gs1, n1, new, hrun1, hst1, hx1, hh1, hv1, hk1, hle⟩ := putBefore_spec (d :: ds).reverse hr hx
    rw [List.reverse_reverse] at hv1
    cases new with
    | nil => simp at hv1
    | cons a new =>
      rw [List.cons_append, List.head?_cons, Option.some.injEq] at hh1
      subst hh1
      rw [List.map_cons, List.cons.injEq] at hv1
      obtain ⟨h2, gs2, hrun2, hst2, hval2, hn2, hx2⟩ := popNode_nodes (n := n) (xs := xs ++ a :: new) (ys := ys) hst1.rep (by simp [hx1])
      refine ⟨h2, gs2, a, new, ?_, hst1.trans hst2, by simp [hx2], ?_, ?_, fun x hx => ?_, fun hh => by cases hh⟩
      · simp only [diffBody]
        rw [bind_ok hrun1, bind_ok hrun2]
        rfl
      · rw [hval2, hv1.1]; rfl
      · rw [hval2, hv1.2]; rfl
      · rw [hval2, hk1 x hx]

theorem diffStep_ok {a b : BibleRange} {diff rest m : List BibleRange} (hd : a.difference e b flags = .ok diff) :
    RangeList.diffInner e flags a rest (b :: m) = RangeList.diffInner e flags (diff.head?.getD a) (diff.tail ++ rest) m := by
  rw [RangeList.diffInner]
  simp only [hd, bind, Except.bind]
  cases diff <;> rfl

theorem diffStep_error {a b : BibleRange} {rest m : List BibleRange} {x : PyErr} (hd : a.difference e b flags = .error x) :
    RangeList.diffInner e flags a rest (b :: m) = .error x := by
  rw [RangeList.diffInner]
  simp only [hd, bind, Except.bind]

theorem diffInner_out {xs ys zs ms : List Nat} {n k : Nat} (hLM : M ≠ L) (hr : Rep h L gs) (hx : nodesOf gs = xs ++ n :: ys) (hm : Rep h M gm)
    (hz : nodesOf gm = zs ++ ms) (hk : ms.length ≤ k) :
    match RangeList.diffInner e flags (h.value n) (ys.map h.value) (ms.map h.value) with
    | .ok (cur, rest) => ∃ h' gs' n' ys', diffInner e flags L k ms.head? n h = (.ok n', h') ∧ Step L h h' gs gs' ∧
        nodesOf gs' = xs ++ n' :: ys' ∧ h'.value n' = cur ∧ ys'.map h'.value = rest ∧ (∀ x ∈ xs, h'.value x = h.value x)
    | .error x => ∃ h' gs', diffInner e flags L k ms.head? n h = (.error x, h') ∧ Step L h h' gs gs' := by
  induction ms generalizing h gs n ys zs k with
  | nil => exact ⟨h, gs, n, ys, by cases k <;> rfl, Step.refl hr, hx, rfl, rfl, fun _ _ => rfl⟩
  | cons m ms ih =>
    obtain ⟨k, rfl⟩ : ∃ k', k = k' + 1 := ⟨k - 1, by simp at hk; omega⟩
    rw [List.map_cons, List.head?_cons, diffInner_succ]
    simp only [bind_run (HM.read _), read_run]
    cases hd : (h.value n).difference e (h.value m) flags with
    | error x => rw [diffStep_error hd]; exact ⟨h, gs, lift_error _ rfl, Step.refl hr⟩
    | ok diff =>
      rw [lift_ok _ rfl]
      obtain ⟨h1, gs1, n1, new, hrun1, hst1, hx1, hv1, hw1, hk1, _⟩ := diffBody_spec diff hr hx
      rw [bind_ok hrun1]
      simp only [bind_run (HM.read _), read_run]
      obtain ⟨hm1, hvm⟩ := hm.frame hLM hst1.frame
      have hnx : h1.next m = ms.head? := by
        have := hm1.links.seg
        rw [hz] at this
        exact (seg_mid this).2
      rw [hnx]
      have hlt := hr.links.lt
      rw [hx] at hlt
      have hys : ys.map h1.value = ys.map h.value := List.map_congr_left fun x hxx => hk1 x (hlt x (by simp [hxx]))
      have hms : ms.map h1.value = ms.map h.value := List.map_congr_left fun x hxx =>
        hk1 x (hm.links.lt x (by rw [hz]; simp [hxx]))
      have hi := ih (k := k) hst1.rep hx1 hm1 (zs := zs ++ [m]) (by simp [hz]) (by simpa using hk)
      rw [hv1, List.map_append, hw1, hys, hms] at hi
      rw [diffStep_ok hd]
      cases hdi : RangeList.diffInner e flags (diff.head?.getD (h.value n)) (diff.tail ++ ys.map h.value) (ms.map h.value) with
      | error x =>
        rw [hdi] at hi
        obtain ⟨h2, gs2, a, b⟩ := hi
        exact ⟨h2, gs2, a, hst1.trans b⟩
      | ok p =>
        obtain ⟨cur, rest⟩ := p
        rw [hdi] at hi
        obtain ⟨h2, gs2, n2, ys2, a, b, c, d, f, g⟩ := hi
        exact ⟨h2, gs2, n2, ys2, a, hst1.trans b, c, d, f, fun x hxx => by rw [g x hxx, hk1 x (hlt x (by simp [hxx]))]⟩

theorem diffOuter_out {xs ys : List Nat} {k fuel : Nat} (hLM : M ≠ L) (hr : Rep h L gs) (hx : nodesOf gs = xs ++ ys) (hm : Rep h M gm)
    (hk : (nodesOf gm).length ≤ fuel) :
    match RangeList.diffOuter e flags (valuesOf h gm).flatten k (ys.map h.value) with
    | .ok items => ∃ h' gs', diffOuter e flags L M fuel k ys.head? h = (.ok (), h') ∧ Step L h h' gs gs' ∧
        (valuesOf h' gs').flatten = xs.map h.value ++ items
    | .error x => ∃ h' gs', diffOuter e flags L M fuel k ys.head? h = (.error x, h') ∧ Step L h h' gs gs' := by
  induction k generalizing h gs xs ys with
  | zero =>
    cases ys with
    | nil => exact ⟨h, gs, rfl, Step.refl hr, by rw [← map_nodesOf, hx]; simp⟩
    | cons n ys => exact ⟨h, gs, rfl, Step.refl hr⟩
  | succ k ih =>
    cases ys with
    | nil => exact ⟨h, gs, rfl, Step.refl hr, by rw [← map_nodesOf, hx]; simp⟩
    | cons n ys =>
      rw [List.map_cons, RangeList.diffOuter, List.head?_cons, diffOuter]
      simp only [bind_run (HM.read _), read_run]
      rw [hm.links.fst]
      have hi := diffInner_out (e := e) (flags := flags) hLM hr hx hm (zs := []) (ms := nodesOf gm) rfl hk
      rw [map_nodesOf] at hi
      simp only [bind, Except.bind]
      cases hd : RangeList.diffInner e flags (h.value n) (ys.map h.value) (valuesOf h gm).flatten with
      | error x =>
        rw [hd] at hi
        obtain ⟨h2, gs2, a, b⟩ := hi
        exact ⟨h2, gs2, bind_error a, b⟩
      | ok p =>
        obtain ⟨cur, rest⟩ := p
        rw [hd] at hi
        obtain ⟨h2, gs2, n2, ys2, a, b, c, d, f, g⟩ := hi
        obtain ⟨hm2, hvm⟩ := hm.frame hLM b.frame
        have hnx : h2.next n2 = ys2.head? := by
          have := b.rep.links.seg
          rw [c] at this
          exact (seg_mid this).2
        have hgo : HM.bind (diffInner e flags L fuel (nodesOf gm).head? n) (fun n' => HM.bind (HM.read fun h => h.next n') fun q =>
            diffOuter e flags L M fuel k q) h = diffOuter e flags L M fuel k ys2.head? h2 := by
          refine (bind_ok a).trans ?_
          refine (bind_ok (read_run _ _)).trans ?_
          rw [hnx]
        rw [hgo]
        have hio := ih b.rep (xs := xs ++ [n2]) (ys := ys2) (by simp [c]) hm2
        rw [hvm, f] at hio
        simp only
        cases hdo : RangeList.diffOuter e flags (valuesOf h gm).flatten k rest with
        | error x =>
          rw [hdo] at hio
          obtain ⟨h3, gs3, a, b'⟩ := hio
          exact ⟨h3, gs3, a, b.trans b'⟩
        | ok items =>
          rw [hdo] at hio
          obtain ⟨h3, gs3, a, b', c'⟩ := hio
          refine ⟨h3, gs3, a, b.trans b', ?_⟩
          rw [c', List.map_append, List.map_cons, d, List.map_nil, List.map_congr_left g]
          simp

theorem differenceUpdate_out (depth : Nat) {fuel : Nat} (hLM : M ≠ L) (hr : Rep h L gs) (hm : Rep h M gm)
    (hf : (valuesOf h gm).flatten.length ≤ fuel) (hK : Kind e K) (hx : ∀ r ∈ (valuesOf h gs).flatten, OfKind K r) (hy : ∀ r ∈ (valuesOf h gm).flatten, OfKind K r) :
    (∃ h' items, differenceUpdate e depth fuel L M flags h = (.error .recursionError, h') ∧
      RangeList.diffOuter e flags (valuesOf h gm).flatten fuel (valuesOf h gs).flatten = .ok items ∧ depth ≤ items.length) ∨
    Out L h gs (differenceUpdate e depth fuel L M flags h) (RangeList.differenceUpdate e (valuesOf h gs) (valuesOf h gm) flags fuel) := by
  rw [← map_nodesOf (gs := gm), List.length_map] at hf
  have ho := diffOuter_out (e := e) (flags := flags) (k := fuel) hLM hr (xs := []) (ys := nodesOf gs) rfl hm hf
  rw [map_nodesOf] at ho
  unfold differenceUpdate RangeList.differenceUpdate
  simp only [bind_run (HM.read _), read_run]
  rw [hr.links.fst]
  cases hd : RangeList.diffOuter e flags (valuesOf h gm).flatten fuel (valuesOf h gs).flatten with
  | error x =>
    rw [hd] at ho
    obtain ⟨h2, gs2, a, b⟩ := ho
    exact .inr ⟨h2, gs2, bind_error a, b⟩
  | ok items =>
    rw [hd] at ho
    obtain ⟨h2, gs2, a, b, c⟩ := ho
    rw [List.map_nil, List.nil_append] at c
    have hc : ∀ r ∈ (valuesOf h2 gs2).flatten, OfKind K r := by
      rw [c]
      exact RangeList.diffOuter_kind hK hy hx hd
    rcases merge_out (e := e) (flags := none) depth b.rep (fun a ha b hb => hK.alike (hc a ha) (hc b hb)) with ⟨h3, hrun3, hd3⟩ | hout
    · exact .inl ⟨h3, items, (bind_ok a).trans hrun3, rfl, by rw [c] at hd3; exact hd3⟩
    · refine .inr (Out.after a b ?_)
      rw [merge_congr (b := RangeList.ofRanges items) (by rw [c, RangeList.ofRanges_flatten])] at hout
      exact hout

end RangeHeap
end Bibleref
