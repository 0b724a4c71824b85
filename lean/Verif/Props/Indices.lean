import Verif.Props.GroupedLists

/-!
# Every index (C37)

What the methods of a list do with every index, also with those which a Python list refuses.
-/

namespace Bibleref
open HM

/-- An index as it is counted in a list of `n` elements: a negative one from the end. -/
def Spec.countedIn (n : Nat) (i : Int) : Int := if i < 0 then i + n else i

open Spec

variable {α : Type} {h : Heap α} {L : Nat} {gs : List Grp}

theorem countedIn_lt {n : Nat} {i : Int} (hi : i < n) : countedIn n i < n := by unfold countedIn; split <;> omega

theorem countedIn_of_le {n : Nat} {i : Int} (hi : 0 ≤ i) : countedIn n i = i := if_neg (by omega)

theorem Rep.conform (hr : Rep h L gs) {i : Int} (hi : i < (nodesOf gs).length) :
    Heap.conformIndex L i h = (.ok (countedIn (nodesOf gs).length i), h) := hr.conform_ok hi

theorem walkNext_zero (o : Option Nat) : (Heap.walkNext 0 o : HM α (Option Nat)) = Pure.pure o := rfl

/-- Where `_node_at` goes: to the first element for every index below minus the length. -/
theorem Rep.nodeAt_any (hr : Rep h L gs) {i : Int} (hi : i < (nodesOf gs).length) :
    Heap.nodeAt L i h = (.ok (nodesOf gs)[(countedIn (nodesOf gs).length i).toNat]?, h) := by
  by_cases h0 : 0 ≤ countedIn (nodesOf gs).length i
  · refine hr.nodeAt_ok ?_
    have := countedIn_lt hi
    unfold countedIn at h0 this ⊢
    unfold Nested.pos
    split at h0 <;> rename_i hneg
    · rw [if_neg (by omega), if_pos (by omega), if_pos hneg]
    · rw [if_pos (by omega), if_neg hneg]
  · unfold Heap.nodeAt
    rw [bind_ok (hr.conform hi)]
    simp only [bind_run (HM.read _), read_run, hr.links.cnt]
    rw [if_pos (by omega), bind_run (HM.read _), read_run, hr.links.fst]
    have h1 : (countedIn (nodesOf gs).length i).toNat = 0 := by omega
    simp only [h1]
    rw [walkNext_zero, List.head?_eq_getElem?]; rfl

theorem Rep.nodeAt_same (hr : Rep h L gs) {i : Int} (hne : gs ≠ []) (hi : i < (nodesOf gs).length) :
    Heap.nodeAt L i h = Heap.nodeAt L (countedIn (nodesOf gs).length i).toNat h := by
  have hlt := countedIn_lt hi
  have hpos : 0 < (nodesOf gs).length := by
    cases gs with
    | nil => exact absurd rfl hne
    | cons g gs => rw [nodesOf_cons]; simp
  rw [hr.nodeAt_any hi, hr.nodeAt_any (by omega), countedIn_of_le (Int.natCast_nonneg _), Int.toNat_natCast]

theorem indexFrom_lo [DecidableEq α] (v : α) (lo : Int) (k : Nat) (i : Int) (hi : 0 ≤ i) (o : Option Nat) :
    Heap.indexFrom h v lo k i o = Heap.indexFrom h v lo.toNat k i o := by
  induction k generalizing i o with
  | zero => rfl
  | succ k ih =>
    cases o with
    | none => rfl
    | some n =>
      unfold Heap.indexFrom
      rw [ih (i + 1) (by omega)]
      have : (h.value n = v ∧ i ≥ lo) ↔ (h.value n = v ∧ i ≥ (lo.toNat : Int)) := by
        constructor <;> rintro ⟨a, b⟩ <;> exact ⟨a, by omega⟩
      simp only [this]

variable [DecidableEq α] {le : α → α → Bool} {depth : Nat} {ops : List (WorldOp α)} {ws : List (List (List α))} {xs : List (List α)}

/-- C37 for all indices of a list with elements. An index from the length on is refused. All others are taken: `lst[i]`, assigning to it
and `insert` take the first element if the index is below minus the length; `pop`, `del` and `insert_group_at` count a negative index
from the end a second time before they do so. -/
theorem C37_every_index (ha : After le depth ops h ws) (hL : ws[L]? = some xs) (hne : xs ≠ []) (i : Int) (v : α) (n : Nat)
    (hn : n = xs.flatten.length) :
    ((n : Int) ≤ i → Heap.getItem L i h = (.error .indexError, h) ∧ Heap.setItem L i v h = (.error .indexError, h) ∧
      Heap.pop L (some i) h = (.error .indexError, h) ∧ Heap.delItem L i h = (.error .indexError, h) ∧
      Heap.insertGroupAt L i h = (.error .indexError, h) ∧ ((n : Int) < i → Heap.insert L i v h = (.error .indexError, h))) ∧
    (i < n → ∀ p q : Nat, (p : Int) = max 0 (countedIn n i) → (q : Int) = max 0 (countedIn n (countedIn n i)) → p < n ∧ q < n ∧
      (∃ w, xs.flatten[p]? = some w ∧ Heap.getItem L i h = (.ok w, h)) ∧ Heap.setItem L i v h = Heap.setItem L p v h ∧
      Heap.insert L i v h = Heap.insert L p v h ∧
      Heap.pop L (some i) h = Heap.pop L (some q) h ∧ Heap.delItem L i h = Heap.delItem L q h ∧
      Heap.insertGroupAt L i h = Heap.insertGroupAt L q h) := by
  obtain ⟨gs, hr, rfl⟩ := ha.rep hL
  have hlen : (valuesOf h gs).flatten.length = (nodesOf gs).length := by rw [← map_nodesOf, List.length_map]
  rw [hlen] at hn
  subst hn
  have hgs : gs ≠ [] := by rintro rfl; exact hne rfl
  have hpos : 0 < (nodesOf gs).length := by
    cases gs with
    | nil => exact absurd rfl hgs
    | cons g gs => rw [nodesOf_cons]; simp
  constructor
  · intro hi
    refine ⟨getItem_error hr hi, ?_, pop_error hr hi, ?_, insertGroupAt_error hr hi, fun hi' => insert_error hr v hi'⟩
    · unfold Heap.setItem; rw [bind_error (hr.nodeAt_error hi)]
    · unfold Heap.delItem; rw [bind_error (pop_error hr hi)]
  · intro hi p q hp hq
    have hlt := countedIn_lt hi
    have hlt2 := countedIn_lt hlt
    have hp' : (countedIn (nodesOf gs).length i).toNat = p := by omega
    have hq' : (countedIn (nodesOf gs).length (countedIn (nodesOf gs).length i)).toNat = q := by omega
    have hpn : p < (nodesOf gs).length := by omega
    have hqn : q < (nodesOf gs).length := by omega
    have hsame : Heap.nodeAt L i h = Heap.nodeAt L p h := by rw [hr.nodeAt_same hgs hi, hp']
    have hcq : Heap.conformIndex L q h = (.ok (q : Int), h) := by rw [hr.conform (by omega), countedIn_of_le (by omega)]
    have hsame2 : Heap.nodeAt L (countedIn (nodesOf gs).length i) h = Heap.nodeAt L q h := by rw [hr.nodeAt_same hgs hlt, hq']
    have hpop : Heap.pop L (some i) h = Heap.pop L (some q) h := by
      unfold Heap.pop Heap.len
      simp only [bind_run (HM.read _), read_run, Option.getD_some]
      rw [bind_ok (hr.conform hi), bind_ok hcq, bind_run, bind_run, hsame2]
    have hget : Heap.getItem L i h = Heap.getItem L p h := by unfold Heap.getItem; rw [bind_run, bind_run, hsame]
    refine ⟨hpn, hqn, ?_, ?_, ?_, hpop, ?_, ?_⟩
    · obtain ⟨w, hw, hg⟩ := getItem_ok hr (pos_nat hpn)
      exact ⟨w, hw, by rw [hget]; exact hg⟩
    · unfold Heap.setItem; rw [bind_run, bind_run, hsame]
    · unfold Heap.insert Heap.len
      simp only [bind_run (HM.read _), read_run, hr.links.cnt]
      by_cases h0 : i = 0
      · have : p = 0 := by rw [h0, countedIn_of_le (by omega)] at hp'; omega
        rw [if_pos h0, if_pos (by omega)]
      · rw [if_neg h0, if_neg (by omega), bind_run, hsame]
        by_cases hp0 : p = 0
        · rw [if_pos (by omega), hp0, hr.nodeAt_nat hpos]
          unfold Heap.prepend Heap.len
          simp only [bind_run (HM.read _), read_run, hr.links.cnt]
          rw [if_neg (by omega), bind_run (HM.read _), read_run, hr.links.fst, List.head?_eq_getElem?]
        · rw [if_neg (by omega), if_neg (by omega), bind_run]
    · unfold Heap.delItem; rw [bind_run, bind_run, hpop]
    · unfold Heap.insertGroupAt
      rw [bind_ok (hr.conform hi), bind_ok hcq, bind_run, bind_run, hsame2]

/-- C37 on empty lists: nothing changes and every index is refused, but only those that are not negative with `IndexError`. -/
theorem C37_every_index_empty (ha : After le depth ops h ws) (hL : ws[L]? = some []) (i : Int) (v : α) :
    Heap.getItem L i h = (.error (if 0 ≤ i then .indexError else .attributeError), h) ∧
    Heap.setItem L i v h = (.error (if 0 ≤ i then .indexError else .attributeError), h) ∧
    Heap.insertGroupAt L i h = (.error (if 0 ≤ i then .indexError else .attributeError), h) ∧
    Heap.pop L (some i) h = (.error (if 0 ≤ i then .indexError else .valueError), h) ∧
    Heap.delItem L i h = (.error (if 0 ≤ i then .indexError else .valueError), h) ∧
    Heap.pop L none h = (.error .valueError, h) ∧
    (i ≠ 0 → Heap.insert L i v h = (.error (if 0 ≤ i then .indexError else .valueError), h)) := by
  obtain ⟨gs, hr, hval⟩ := ha.rep hL
  have hgs : gs = [] := by
    cases gs with
    | nil => rfl
    | cons g gs => exact absurd hval (by simp [valuesOf])
  subst hgs
  have hn : (nodesOf ([] : List Grp)).length = 0 := rfl
  by_cases hi : 0 ≤ i
  · have hpn : Heap.pop L none h = (.error .valueError, h) := by
      unfold Heap.pop Heap.len
      simp only [bind_run (HM.read _), read_run, hr.links.cnt, Option.getD_none]
      rw [bind_ok (hr.conform (by rw [hn]; omega)), bind_ok (hr.nodeAt_any (by rw [hn]; decide))]
      rfl
    simp only [if_pos hi]
    have hi' : ((nodesOf ([] : List Grp)).length : Int) ≤ i := by rw [hn]; omega
    refine ⟨getItem_error hr hi', ?_, insertGroupAt_error hr hi', pop_error hr hi', ?_, hpn, fun h0 => insert_error hr v (by rw [hn]; omega)⟩
    · unfold Heap.setItem; rw [bind_error (hr.nodeAt_error hi')]
    · unfold Heap.delItem; rw [bind_error (pop_error hr hi')]
  · simp only [if_neg hi]
    have hc : ∀ j : Int, j < 0 → Heap.conformIndex L j h = (.ok j, h) := by
      intro j hj
      rw [hr.conform (by rw [hn]; omega), countedIn, if_pos hj, hn]; simp
    have hnode : ∀ j : Int, j < 0 → Heap.nodeAt L j h = (.ok none, h) := by
      intro j hj
      rw [hr.nodeAt_any (by rw [hn]; omega)]; rfl
    have hneg : i < 0 := by omega
    have hpop : ∀ o : Option Int, o = none ∨ o = some i → Heap.pop L o h = (.error .valueError, h) := by
      intro o ho
      have hlt : o.getD ((0 : Nat) - 1) < 0 := by rcases ho with rfl | rfl <;> simp <;> omega
      unfold Heap.pop Heap.len
      simp only [bind_run (HM.read _), read_run, hr.links.cnt]
      rw [hn, bind_ok (hc _ hlt), bind_ok (hnode _ hlt)]
      rfl
    refine ⟨?_, ?_, ?_, hpop _ (.inr rfl), ?_, hpop _ (.inl rfl), fun h0 => ?_⟩
    · unfold Heap.getItem; rw [bind_ok (hnode i hneg)]; rfl
    · unfold Heap.setItem; rw [bind_ok (hnode i hneg)]; rfl
    · unfold Heap.insertGroupAt; rw [bind_ok (hc i hneg), bind_ok (hnode i hneg)]; rfl
    · unfold Heap.delItem; rw [bind_error (hpop _ (.inr rfl))]
    · unfold Heap.insert Heap.len
      simp only [bind_run (HM.read _), read_run, hr.links.cnt]
      rw [if_neg h0, if_neg (by rw [hn]; omega), bind_ok (hnode i hneg)]
      rfl

/-- C37, `index` for all limits: a limit too large is refused, otherwise `index` gives the least position between the limits, whichever
of them is the lower one, that holds the value. A negative limit is counted from the end, and one less than the upper limit is the
index counted. -/
theorem C37_index_exact (ha : After le depth ops h ws) (hL : ws[L]? = some xs) (x : α) (lo hi : Option Int) (n : Nat)
    (hn : n = xs.flatten.length) (a b : Int) (hA : a = lo.getD 0) (hB : b = hi.getD n - 1) :
    ((n : Int) ≤ a ∨ (n : Int) ≤ b → Heap.index L x lo hi h = (.error .indexError, h)) ∧
    (a < n → b < n → ∀ low high : Int, low = min (countedIn n a) (countedIn n b + 1) → high = max (countedIn n a) (countedIn n b + 1) →
      (∀ k : Nat, Heap.index L x lo hi h = (.ok (k : Int), h) ↔ low ≤ k ∧ k < high ∧ xs.flatten[k]? = some x ∧
        ∀ j : Nat, low ≤ j → j < k → xs.flatten[j]? ≠ some x) ∧
      (Heap.index L x lo hi h = (.error .valueError, h) ↔ ∀ j : Nat, low ≤ j → j < high → xs.flatten[j]? ≠ some x)) := by
  obtain ⟨gs, hr, rfl⟩ := ha.rep hL
  have hlen : (valuesOf h gs).flatten.length = (nodesOf gs).length := by rw [← map_nodesOf, List.length_map]
  rw [hlen] at hn
  subst hn
  constructor
  · intro hh
    unfold Heap.index Heap.len
    simp only [bind_run (HM.read _), read_run, hr.links.cnt]
    rw [← hA, ← hB]
    by_cases h1 : ((nodesOf gs).length : Int) ≤ a
    · rw [bind_error (hr.conform_error h1)]
    · rw [bind_ok (hr.conform (by omega)), bind_error (hr.conform_error (by omega))]
  · intro h1 h2 low high hlow hhigh
    have hca := countedIn_lt h1
    have hcb := countedIn_lt h2
    have hrun : Heap.index L x lo hi h = (Heap.indexFrom h x low.toNat high.toNat 0 (nodesOf gs).head?, h) := by
      unfold Heap.index Heap.len
      simp only [bind_run (HM.read _), read_run, hr.links.cnt]
      rw [← hA, ← hB, bind_ok (hr.conform h1), bind_ok (hr.conform h2)]
      by_cases hs : countedIn (nodesOf gs).length a > countedIn (nodesOf gs).length b + 1
      · simp only [if_pos hs, readE_run, hr.links.fst]
        rw [show low = countedIn (nodesOf gs).length b + 1 by omega, show high = countedIn (nodesOf gs).length a by omega,
          ← indexFrom_lo _ _ _ _ (Int.le_refl 0)]
      · simp only [if_neg hs, readE_run, hr.links.fst]
        rw [show low = countedIn (nodesOf gs).length a by omega, show high = countedIn (nodesOf gs).length b + 1 by omega,
          ← indexFrom_lo _ _ _ _ (Int.le_refl 0)]
    rw [hrun]
    have hsp := indexFrom_spec (h := h) x low.toNat (zs := []) (k := high.toNat) hr.links.seg (by omega)
    rw [map_nodesOf] at hsp
    simp only [List.length_nil, Nat.zero_add] at hsp
    rcases hsp with ⟨j, k1, k2, k3, k4, k5⟩ | ⟨k1, k2⟩
    · rw [show Heap.indexFrom h x low.toNat high.toNat 0 (nodesOf gs).head? = .ok (j : Int) from k5]
      constructor
      · intro k
        constructor
        · intro hk
          have : j = k := by
            have := congrArg Prod.fst hk
            simp only [Except.ok.injEq] at this; omega
          subst this
          exact ⟨by omega, by omega, k3, fun j' hlo hj' => k4 j' hj' (by omega)⟩
        · rintro ⟨g1, g2, g3, g4⟩
          have : j = k := by
            rcases Nat.lt_trichotomy j k with hjk | hjk | hjk
            · exact absurd k3 (g4 j (by omega) hjk)
            · exact hjk
            · exact absurd g3 (k4 k hjk (by omega))
          rw [this]
      · constructor
        · intro hk; cases hk
        · intro hno; exact absurd k3 (hno j (by omega) (by omega))
    · rw [show Heap.indexFrom h x low.toNat high.toNat 0 (nodesOf gs).head? = .error .valueError from k2]
      constructor
      · intro k
        constructor
        · intro hk; cases hk
        · rintro ⟨g1, g2, g3, g4⟩
          exact absurd g3 (k1 k (by omega) (by omega))
      · exact ⟨fun _ j hlo hj => k1 j (by omega) (by omega), fun _ => rfl⟩

/-- In `[7, 8, 9]`, `lst[-5]` is the first element, but `pop(-5)` is `pop(1)`; and `index(9, -1, -3)` is 2 since the limits are swapped. -/
example : let h := (calls natLe 100 [.new, .on 0 (.extend [7, 8, 9])] (Heap.empty 0)).2
    countedIn 3 (-5) = -2 ∧ countedIn 3 (countedIn 3 (-5)) = 1 ∧ (Heap.getItem 0 (-5) h).1 = .ok 7 ∧ (Heap.pop 0 (some (-5)) h).1 = .ok 8 ∧
    (Heap.index 0 8 (some (-1)) (some (-2)) h).1 = .ok 1 := by
  decide +kernel

end Bibleref
