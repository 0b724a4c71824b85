import Verif.Lemmas.HeapSort
import Verif.SpecSort

/-! When `sort` runs out of stack. -/

namespace Bibleref
open Spec HM

variable {α : Type} {h : Heap α}

theorem mergeCalls_map {β γ : Type} {le : β → β → Bool} (f : γ → β) (as bs : List γ) :
    mergeCalls le (as.map f) (bs.map f) = mergeCalls (fun a b => le (f a) (f b)) as bs := by
  fun_induction mergeCalls (fun a b => le (f a) (f b)) as bs with
  | case1 bs => simp [mergeCalls]
  | case2 a as => simp [mergeCalls]
  | case3 a as b bs ih1 ih2 =>
    rw [List.map_cons, List.map_cons, mergeCalls, ← ih1, ← ih2, List.map_cons, List.map_cons]

theorem sortCalls_map {β γ : Type} {le : β → β → Bool} (f : γ → β) (l : List γ) :
    sortCalls le (l.map f) = sortCalls (fun a b => le (f a) (f b)) l := by
  fun_induction sortCalls (fun a b => le (f a) (f b)) l with
  | case1 l hl => rw [sortCalls, if_pos (by simpa using hl)]
  | case2 l hl first second ih1 ih2 =>
    rw [sortCalls, if_neg (by simpa using hl)]
    simp only [List.length_map, ← List.map_take, ← List.map_drop]
    rw [ih1, ih2]
    have hm : ∀ l : List γ, (l.map f).mergeSort le = (l.mergeSort fun a b => le (f a) (f b)).map f := fun l =>
      (List.map_mergeSort (f := f) (r := fun a b => le (f a) (f b)) (s := le) fun _ _ _ _ => rfl).symm
    rw [hm, hm, mergeCalls_map]

theorem mergeCalls_pos {β : Type} (le : β → β → Bool) (as bs : List β) : 1 ≤ mergeCalls le as bs := by
  cases as <;> cases bs <;> simp [mergeCalls]

theorem mergeCalls_bounds {β : Type} (le : β → β → Bool) (as bs : List β) :
    min as.length bs.length + 1 ≤ mergeCalls le as bs ∧ (as ≠ [] → bs ≠ [] → mergeCalls le as bs ≤ as.length + bs.length) := by
  fun_induction mergeCalls le as bs with
  | case1 bs => simp
  | case2 a as => simp
  | case3 a as b bs ih1 ih2 =>
    simp only [List.length_cons] at ih1 ih2 ⊢
    have one : mergeCalls le [] (b :: bs) = 1 ∧ mergeCalls le (a :: as) [] = 1 := by simp [mergeCalls]
    refine ⟨by split <;> omega, fun _ _ => ?_⟩
    split
    · by_cases has : as = []
      · subst has; rw [one.1]; omega
      · have := ih1.2 has (by simp); omega
    · by_cases hbs : bs = []
      · subst hbs; rw [one.2]; omega
      · have := ih2.2 (by simp) hbs; omega

theorem sortCalls_bounds {β : Type} (le : β → β → Bool) (l : List β) (hl : 2 ≤ l.length) :
    l.length / 2 + 2 ≤ sortCalls le l ∧ sortCalls le l ≤ l.length + 1 := by
  have one : ∀ m : List β, m.length ≤ 1 → sortCalls le m = 1 := fun m hm => by rw [sortCalls, if_pos hm]
  fun_induction sortCalls le l with
  | case1 l hl' => omega
  | case2 l hl' first second ih1 ih2 =>
    have l1 : first.length = (l.length + 1) / 2 := by simp only [first, List.length_take]; omega
    have l2 : second.length = l.length - (l.length + 1) / 2 := by simp only [second, List.length_drop]
    have b := mergeCalls_bounds le (first.mergeSort le) (second.mergeSort le)
    rw [List.length_mergeSort, List.length_mergeSort] at b
    have b2 := b.2 (by rw [ne_eq, ← List.length_eq_zero_iff, List.length_mergeSort]; omega)
      (by rw [ne_eq, ← List.length_eq_zero_iff, List.length_mergeSort]; omega)
    have k1 : sortCalls le first ≤ first.length + 1 := by
      by_cases hh : 2 ≤ first.length
      · exact (ih1 hh).2
      · rw [one _ (by omega)]; omega
    have k2 : sortCalls le second ≤ second.length + 1 := by
      by_cases hh : 2 ≤ second.length
      · exact (ih2 hh).2
      · rw [one _ (by omega)]; omega
    omega

/-- What comes after the recursive call does not run out of stack. -/
theorem after_call {a : Nat} {m : HM α (Option Nat × Option Nat)} :
    ((do
        let (f, l) ← m
        Heap.setNext a f
        let f' ← deref f
        Heap.setPrev f' (some a)
        Heap.setPrev a none
        return (some a, l) : HM α (Option Nat × Option Nat)) h).1 = .error .recursionError ↔ (m h).1 = .error .recursionError := by
  rw [bind_run]
  rcases hm : m h with ⟨r, h'⟩
  cases r with
  | error x => simp
  | ok p =>
    obtain ⟨f, l⟩ := p
    cases f with
    | none => exact ⟨fun hh => (by cases hh), fun hh => by cases hh⟩
    | some f => exact ⟨fun hh => (by cases hh), fun hh => by cases hh⟩

theorem merge_calls {lx : α → α → Except PyErr Bool} {le : α → α → Bool} (d : Nat) {as bs : List Nat} {la lb pa pb : Option Nat}
    (hx : Compares lx le h as bs) (ha : Seg h.prev h.next pa as none) (hb : Seg h.prev h.next pb bs none) :
    (Heap.mergeSublists lx d as.head? la bs.head? lb h).1 = .error .recursionError ↔ d < mergeCalls (nodeLe le h) as bs := by
  induction d generalizing as bs la lb pa pb with
  | zero =>
    rw [Heap.mergeSublists]
    exact ⟨fun _ => mergeCalls_pos _ _ _, fun _ => rfl⟩
  | succ d ih =>
    cases as with
    | nil =>
      rw [List.head?_nil, Heap.mergeSublists, mergeCalls]
      exact ⟨fun hh => (by cases hh), fun hh => by omega⟩
    | cons a as =>
      cases bs with
      | nil =>
        rw [List.head?_nil, List.head?_cons, Heap.mergeSublists, mergeCalls]
        · exact ⟨fun hh => (by cases hh), fun hh => by omega⟩
        · simp
      | cons b bs =>
        have hnx : h.next a = as.head? := by rw [ha.2.1, Option.or_none]
        have hnb : h.next b = bs.head? := by rw [hb.2.1, Option.or_none]
        simp only [List.head?_cons, Heap.mergeSublists]
        simp only [bind_run (HM.read _), read_run]
        rw [bind_ok (readE_ok (hx a (by simp) b (by simp))), mergeCalls]
        by_cases hle : le (h.value a) (h.value b) = true
        · simp only [if_pos hle]
          simp only [bind_run (HM.read _), read_run, hnx]
          rw [if_pos (show nodeLe le h a b = true from hle)]
          have := ih (as := as) (bs := b :: bs) (la := la) (lb := lb) (fun x h1 y h2 => hx x (by simp [h1]) y h2) ha.2.2 hb
          rw [List.head?_cons] at this
          rw [Nat.add_comm 1, Nat.succ_lt_succ_iff, ← this]
          exact after_call
        · simp only [if_neg hle]
          simp only [bind_run (HM.read _), read_run, hnb]
          rw [if_neg (show ¬ nodeLe le h a b = true from hle)]
          have := ih (as := a :: as) (bs := bs) (la := la) (lb := lb) (fun x h1 y h2 => hx x h1 y (by simp [h2])) ha hb.2.2
          rw [List.head?_cons] at this
          rw [Nat.add_comm 1, Nat.succ_lt_succ_iff, ← this]
          exact after_call

theorem mergeSort_calls {lx : α → α → Except PyErr Bool} {le : α → α → Bool} (d : Nat) (c : Bool) {l : List Nat}
    (hx : Compares lx le h l l) (hs : Seg h.prev h.next none l none) (hN : l.Nodup) (hlt : ∀ x ∈ l, x < h.nodes) :
    (Heap.mergeSort lx d l.head? c h).1 = .error .recursionError ↔ d < sortCalls (nodeLe le h) l := by
  have pos : ∀ l : List Nat, 1 ≤ sortCalls (nodeLe le h) l := fun l => by
    rw [sortCalls]
    split
    · exact Nat.le_refl _
    · exact Nat.le_add_right _ _
  induction d generalizing h l c with
  | zero =>
    rw [Heap.mergeSort]
    exact ⟨fun _ => pos l, fun _ => rfl⟩
  | succ d ih =>
    match l, hx, hs, hN, hlt with
    | [], _, hs, _, _ =>
      rw [List.head?_nil, Heap.mergeSort, sortCalls, if_pos (by simp)]
      exact ⟨fun hh => (by cases hh), fun hh => by omega⟩
    | [a], _, hs, _, _ =>
      have hn : h.next a = none := hs.2.1
      rw [List.head?_cons, Heap.mergeSort, sortCalls, if_pos (by simp)]
      simp only [bind_run (HM.read _), read_run, hn, if_true]
      exact ⟨fun hh => (by cases hh), fun hh => by omega⟩
    | a :: b :: l, hx, hs, hN, hlt =>
      have hn : h.next a = some b := hs.2.1
      have hh1 : half (a :: b :: l) < (a :: b :: l).length := by unfold half; simp only [List.length_cons]; omega
      have hh0 : 0 < half (a :: b :: l) := by unfold half; simp only [List.length_cons]; omega
      obtain ⟨b0, h1, hrun1, hb0, hX, hY, hrel1, hc1, hc2⟩ := split_run c hs (by simp) hN hlt
      have hrun : Heap.mergeSort lx (d + 1) (a :: b :: l).head? c h = (do
          let (x, lx') ← Heap.mergeSort lx d (some a) false
          let (y, ly) ← Heap.mergeSort lx d (some b0) false
          Heap.mergeSublists lx d x lx' y ly : HM α (Option Nat × Option Nat)) h1 := by
        rw [List.head?_cons, Heap.mergeSort]
        simp only [bind_run (HM.read _), read_run, hn]
        rw [if_neg (by simp), bind_ok hrun1]
      have hcalls : sortCalls (nodeLe le h) (a :: b :: l) =
          1 + max (max (sortCalls (nodeLe le h) ((a :: b :: l).take (half (a :: b :: l)))) (sortCalls (nodeLe le h) ((a :: b :: l).drop (half (a :: b :: l)))))
            (mergeCalls (nodeLe le h) (((a :: b :: l).take (half (a :: b :: l))).mergeSort (nodeLe le h))
              (((a :: b :: l).drop (half (a :: b :: l))).mergeSort (nodeLe le h))) := by
        rw [sortCalls, if_neg (by simp)]
        rfl
      rw [hrun, hcalls]
      generalize hXd : (a :: b :: l).take (half (a :: b :: l)) = X at *
      generalize hYd : (a :: b :: l).drop (half (a :: b :: l)) = Y at *
      have hXY : a :: b :: l = X ++ Y := by rw [← hXd, ← hYd, List.take_append_drop]
      have hXlen : X.length = half (a :: b :: l) := by rw [← hXd, List.length_take]; omega
      have hXne : X ≠ [] := by intro hh; rw [hh] at hXlen; simp at hXlen; omega
      have hXhead : X.head? = some a := by
        cases X with
        | nil => exact absurd rfl hXne
        | cons x X => rw [List.cons_append, List.cons.injEq] at hXY; rw [hXY.1]; rfl
      have hN' := hN
      rw [hXY, List.nodup_append] at hN'
      obtain ⟨hNX, hNY, hdis⟩ := hN'
      have hXm : ∀ x ∈ X, x ∈ a :: b :: l := fun x hx => by rw [hXY]; simp [hx]
      have hYm : ∀ x ∈ Y, x ∈ a :: b :: l := fun x hx => by rw [hXY]; simp [hx]
      have e1 := nodeLe_congr (le := le) hrel1.value
      have i1 := ih (h := h1) false (hx.mono hXm hXm hrel1.value) hX hNX (fun x hx => by rw [hrel1.nodes]; exact hlt x (hXm x hx))
        (by rw [e1]; exact pos)
      rw [hXhead, e1] at i1
      rcases mergeSort_spec (h := h1) d false (hx.mono hXm hXm hrel1.value) hX hNX (fun x hx => by rw [hrel1.nodes]; exact hlt x (hXm x hx)) with
        ⟨h2, hrun2, hd2⟩ | ⟨h2, hrun2, hseg2, hrel2, hhd2, _⟩
      · rw [hXhead] at hrun2
        rw [hrun2] at i1
        have := i1.mp rfl
        rw [bind_run, hrun2]
        exact ⟨fun _ => by omega, fun _ => rfl⟩
      · rw [hXhead] at hrun2
        rw [hrun2] at i1
        have j1 : ¬ d < sortCalls (nodeLe le h) X := fun hh => by cases i1.mpr hh
        rw [e1] at hrun2 hseg2
        have hY2 : Seg h2.prev h2.next none Y none := hrel2.seg (fun x hx hh => hdis x hh x hx rfl) hY
        have e2 := (nodeLe_congr (le := le) hrel2.value).trans e1
        have i2 := ih (h := h2) false (hx.mono hYm hYm (hrel2.value.trans hrel1.value)) hY2 hNY
          (fun x hx => by rw [hrel2.nodes, hrel1.nodes]; exact hlt x (hYm x hx)) (by rw [e2]; exact pos)
        rw [hb0, e2] at i2
        rcases mergeSort_spec (h := h2) d false (hx.mono hYm hYm (hrel2.value.trans hrel1.value)) hY2 hNY (fun x hx => by rw [hrel2.nodes, hrel1.nodes]; exact hlt x (hYm x hx)) with
          ⟨h3, hrun3, hd3⟩ | ⟨h3, hrun3, hseg3, hrel3, hhd3, _⟩
        · rw [hb0] at hrun3
          rw [hrun3] at i2
          have := i2.mp rfl
          rw [bind_ok hrun2]
          simp only
          rw [bind_run, hrun3]
          exact ⟨fun _ => by omega, fun _ => rfl⟩
        · rw [hb0] at hrun3
          rw [hrun3] at i2
          have j2 : ¬ d < sortCalls (nodeLe le h) Y := fun hh => by cases i2.mpr hh
          rw [e2] at hrun3 hseg3
          have pX : (X.mergeSort (nodeLe le h)).Perm X := List.mergeSort_perm _ _
          have pY : (Y.mergeSort (nodeLe le h)).Perm Y := List.mergeSort_perm _ _
          have hseg2' := hrel3.seg (l := X.mergeSort (nodeLe le h)) (fun x hx hh => hdis x (pX.mem_iff.mp hx) x hh rfl) hseg2
          have i3 := merge_calls (h := h3) d (hx.mono (fun x hh => hXm x (pX.mem_iff.mp hh))
            (fun x hh => hYm x (pY.mem_iff.mp hh)) (hrel3.value.trans (hrel2.value.trans hrel1.value))) (la := (X.mergeSort (nodeLe le h)).getLast?)
            (lb := (Y.mergeSort (nodeLe le h)).getLast?) hseg2' hseg3
          rw [(nodeLe_congr (le := le) hrel3.value).trans e2] at i3
          rw [bind_ok hrun2]
          simp only
          rw [bind_ok hrun3]
          refine i3.trans ?_
          omega

theorem setup_no_overflow (L : Nat) (h : Heap α) : (Heap.setupSingleGroup L h).1 ≠ .error .recursionError := by
  unfold Heap.setupSingleGroup
  simp only [bind_run (HM.read _), read_run]
  by_cases hc : h.nodeCount L > 0
  · simp only [if_pos hc, bind_run (HM.read _), read_run]
    cases h.first L with
    | none => intro hh; cases hh
    | some f => intro hh; cases hh
  · simp only [if_neg hc]
    intro hh; cases hh

/-- `sort` succeeds when there is room for its calls, and runs out of stack otherwise. -/
theorem sort_calls {lx : α → α → Except PyErr Bool} {le : α → α → Bool} (d : Nat) {L : Nat} {gs : List (Nat × List Nat)}
    (hx : Compares lx le h (nodesOf gs) (nodesOf gs)) (hr : Rep h L gs) :
    (d < sortCalls (nodeLe le h) (nodesOf gs) → (Heap.sort lx d L h).1 = .error .recursionError) ∧
    (sortCalls (nodeLe le h) (nodesOf gs) ≤ d → ∃ h', Heap.sort lx d L h = (.ok (), h') ∧
      Step L h h' gs (oneGroup ((nodesOf gs).mergeSort (nodeLe le h))) ∧ h'.value = h.value ∧ h'.nodes = h.nodes) := by
  have hc := mergeSort_calls d true hx hr.links.seg hr.links.nodup hr.links.lt
  constructor
  · intro hd
    have := hc.mpr hd
    unfold Heap.sort
    simp only [bind_run (HM.read _), read_run, hr.links.fst]
    rw [bind_run]
    rcases hm : Heap.mergeSort lx d (nodesOf gs).head? true h with ⟨r, h'⟩
    rw [hm] at this
    simp only at this
    subst this
    rfl
  · intro hd
    rcases sort_or d hx hr with ⟨h', hrun, _⟩ | hh
    · exfalso
      rcases mergeSort_spec d true hx hr.links.seg hr.links.nodup hr.links.lt with ⟨h1, h2, _⟩ | ⟨h1, h2, _⟩
      · rw [h2] at hc
        have := hc.mp rfl
        omega
      · unfold Heap.sort at hrun
        simp only [bind_run (HM.read _), read_run, hr.links.fst] at hrun
        rw [bind_ok h2] at hrun
        exact setup_no_overflow L _ (congrArg Prod.fst hrun)
    · exact hh

end Bibleref
