import Verif.Lemmas.RangeHeap2

set_option linter.unusedSimpArgs false

/-!
# Lists of ranges in memory: operations that make new lists, and the other lists
-/

namespace Bibleref
open HM
namespace RangeHeap

variable {h h' : Heap BibleRange} {L M : Nat} {gs gs' gm : List Grp} {e : Env} {flags : Option BibleFlag} {ws : List RangeList} {xs ys : RangeList}
  {K : BibleBook → Prop}

/-- What an operation on the list `L` did to all lists. -/
def Upd (ws : List RangeList) (L : Nat) (run : Except PyErr Unit × Heap BibleRange) : Except PyErr RangeList → Prop
  | .ok xs => ∃ h', run = (.ok (), h') ∧ World h' (ws.set L xs)
  | .error x => ∃ h' ys, run = (.error x, h') ∧ World h' (ws.set L ys)

/-- What an operation that makes one new list did to all lists. -/
def New (ws : List RangeList) (run : Except PyErr Nat × Heap BibleRange) : Except PyErr RangeList → Prop
  | .ok xs => ∃ h', run = (.ok ws.length, h') ∧ World h' (ws ++ [xs])
  | .error x => ∃ h' ys, run = (.error x, h') ∧ World h' (ws ++ [ys])

theorem _root_.Bibleref.Out.world {run : Except PyErr Unit × Heap BibleRange} {spec : Except PyErr RangeList} (hw : World h ws)
    (ho : Out L h gs run spec) : Upd ws L run spec := by
  cases spec with
  | ok xs =>
    obtain ⟨h', gs', a, b, c⟩ := ho
    exact ⟨h', a, hw.update b.rep c b.frame⟩
  | error x =>
    obtain ⟨h', gs', a, b⟩ := ho
    exact ⟨h', _, a, hw.update b.rep rfl b.frame⟩

/-- An operation on a list just made, which is then returned. -/
theorem Upd.new {x : HM BibleRange Unit} {spec : Except PyErr RangeList} (hu : Upd (ws ++ [xs]) ws.length (x h) spec) :
    New ws ((x >>= fun _ => pure ws.length) h) spec := by
  have hset : ∀ ys, (ws ++ [xs]).set ws.length ys = ws ++ [ys] := fun ys => by simp
  cases spec with
  | ok xs =>
    obtain ⟨h', a, b⟩ := hu
    rw [hset] at b
    exact ⟨h', (bind_ok a).trans rfl, b⟩
  | error x =>
    obtain ⟨h', ys, a, b⟩ := hu
    rw [hset] at b
    exact ⟨h', ys, bind_error a, b⟩

theorem New.after {γ : Type} {x : HM BibleRange γ} {c : γ} {y : γ → HM BibleRange Nat} {spec : Except PyErr RangeList} (hx : x h = (.ok c, h'))
    (hy : New ws (y c h') spec) : New ws ((x >>= y) h) spec := by
  rw [bind_ok hx]; exact hy

theorem get_append_left {γ : Type} {l m : List γ} {k : Nat} {x : γ} (hk : l[k]? = some x) : (l ++ m)[k]? = some x := by
  rw [List.getElem?_append_left (List.getElem?_eq_some_iff.mp hk).1, hk]

theorem get_length {γ : Type} (l : List γ) (x : γ) (m : List γ) : (l ++ x :: m)[l.length]? = some x := by simp

theorem set_same {γ : Type} {l : List γ} {k : Nat} {x : γ} (hk : l[k]? = some x) : l.set k x = l := by
  obtain ⟨h1, rfl⟩ := List.getElem?_eq_some_iff.mp hk
  exact List.set_getElem_self h1

theorem set_length {γ : Type} (l : List γ) (x y : γ) : (l ++ [x]).set l.length y = l ++ [y] := by simp

theorem ne_length {γ : Type} {l : List γ} {k : Nat} {x : γ} (hk : l[k]? = some x) : k ≠ l.length :=
  Nat.ne_of_lt (List.getElem?_eq_some_iff.mp hk).1

theorem _root_.Bibleref.World.ne (hw : World h ws) (hL : ws[L]? = some xs) : ∀ g ∈ xs, g ≠ [] := by
  obtain ⟨gs, _, rfl⟩ := hw.rep L xs hL
  exact valuesOf_ne _ _

/-! ## Operations on one list -/

theorem verse0to1_world (hw : World h ws) (hL : ws[L]? = some xs) : Upd ws L (verse0to1 e L h) (RangeList.verse0to1 e xs) := by
  obtain ⟨gs, hr, rfl⟩ := hw.rep L xs hL
  exact (verse0to1_out hr).world hw

theorem verse1to0_world (hw : World h ws) (hL : ws[L]? = some xs) : Upd ws L (verse1to0 e L h) (RangeList.verse1to0 e xs) := by
  obtain ⟨gs, hr, rfl⟩ := hw.rep L xs hL
  exact (verse1to0_out hr).world hw

theorem regroup_world (hw : World h ws) (hL : ws[L]? = some xs) : Upd ws L (regroup e flags L h) (RangeList.regroup e flags xs.flatten) := by
  obtain ⟨gs, hr, rfl⟩ := hw.rep L xs hL
  exact (regroup_out hr).world hw

theorem sort_world (depth : Nat) (regroupToo : Bool) (hw : World h ws) (hL : ws[L]? = some xs) (hK : Kind e K)
    (hx : ∀ r ∈ xs.flatten, OfKind K r) :
    (∃ h', sort e depth L regroupToo h = (.error .recursionError, h') ∧ depth ≤ xs.flatten.length) ∨
    Upd ws L (sort e depth L regroupToo h) (RangeList.sort e xs regroupToo) := by
  obtain ⟨gs, hr, rfl⟩ := hw.rep L xs hL
  exact (sort_out depth hr (fun a ha b hb => hK.alike (hx a ha) (hx b hb)) regroupToo).imp_right (·.world hw)

theorem merge_world (depth : Nat) (hw : World h ws) (hL : ws[L]? = some xs) (hK : Kind e K)
    (hx : ∀ r ∈ xs.flatten, OfKind K r) :
    (∃ h', merge e depth L flags h = (.error .recursionError, h') ∧ depth ≤ xs.flatten.length) ∨
    Upd ws L (merge e depth L flags h) (RangeList.merge e xs flags) := by
  obtain ⟨gs, hr, rfl⟩ := hw.rep L xs hL
  exact (merge_out depth hr (fun a ha b hb => hK.alike (hx a ha) (hx b hb))).imp_right (·.world hw)

/-! ## Operations on two lists that change the first -/

theorem unionUpdate_world (depth : Nat) {fuel : Nat} (hw : World h ws) (hL : ws[L]? = some xs) (hM : ws[M]? = some ys) (hLM : M ≠ L)
    (hf : ys.flatten.length ≤ fuel) (hK : Kind e K)
    (hx : ∀ r ∈ xs.flatten, OfKind K r) (hy : ∀ r ∈ ys.flatten, OfKind K r) :
    (∃ h', unionUpdate e depth fuel L M flags h = (.error .recursionError, h') ∧ depth ≤ xs.flatten.length + ys.flatten.length) ∨
    Upd ws L (unionUpdate e depth fuel L M flags h) (RangeList.unionUpdate e xs ys flags) := by
  obtain ⟨gs, hr, rfl⟩ := hw.rep L xs hL
  obtain ⟨gm, hm, rfl⟩ := hw.rep M ys hM
  exact (unionUpdate_out depth hLM hr hm hf hK hx hy).imp_right (·.world hw)

theorem differenceUpdate_world (depth : Nat) {fuel : Nat} (hw : World h ws) (hL : ws[L]? = some xs) (hM : ws[M]? = some ys) (hLM : M ≠ L)
    (hf : ys.flatten.length ≤ fuel) (hK : Kind e K)
    (hx : ∀ r ∈ xs.flatten, OfKind K r) (hy : ∀ r ∈ ys.flatten, OfKind K r) :
    (∃ h' items, differenceUpdate e depth fuel L M flags h = (.error .recursionError, h') ∧
      RangeList.diffOuter e flags ys.flatten fuel xs.flatten = .ok items ∧ depth ≤ items.length) ∨
    Upd ws L (differenceUpdate e depth fuel L M flags h) (RangeList.differenceUpdate e xs ys flags fuel) := by
  obtain ⟨gs, hr, rfl⟩ := hw.rep L xs hL
  obtain ⟨gm, hm, rfl⟩ := hw.rep M ys hM
  exact (differenceUpdate_out depth hLM hr hm hf hK hx hy).imp_right (·.world hw)

/-! ## Operations that make a list -/

theorem union_world (depth : Nat) {fuel : Nat} (hw : World h ws) (hL : ws[L]? = some xs) (hM : ws[M]? = some ys)
    (hf : ys.flatten.length ≤ fuel) (hK : Kind e K)
    (hx : ∀ r ∈ xs.flatten, OfKind K r) (hy : ∀ r ∈ ys.flatten, OfKind K r) :
    (∃ h', union e depth fuel L M flags h = (.error .recursionError, h') ∧ depth ≤ xs.flatten.length + ys.flatten.length) ∨
    New ws (union e depth fuel L M flags h) (RangeList.union e xs ys flags) := by
  obtain ⟨h1, hrun, hw1, _⟩ := copy_world hw hL
  rw [hw.lists] at hrun
  unfold union RangeList.union
  rw [RangeList.copy_eq (hw.ne hL)]
  rcases unionUpdate_world (e := e) (flags := flags) depth hw1 (get_length ws xs []) (get_append_left hM) (ne_length hM) hf hK hx hy with
    ⟨h2, hrun2, hd⟩ | hu
  · exact .inl ⟨h2, (bind_ok hrun).trans (bind_error hrun2), hd⟩
  · exact .inr (New.after hrun hu.new)

theorem difference_world (depth : Nat) {fuel : Nat} (hw : World h ws) (hL : ws[L]? = some xs) (hM : ws[M]? = some ys)
    (hf : ys.flatten.length ≤ fuel) (hK : Kind e K)
    (hx : ∀ r ∈ xs.flatten, OfKind K r) (hy : ∀ r ∈ ys.flatten, OfKind K r) :
    (∃ h' items, difference e depth fuel L M flags h = (.error .recursionError, h') ∧
      RangeList.diffOuter e flags ys.flatten fuel xs.flatten = .ok items ∧ depth ≤ items.length) ∨
    New ws (difference e depth fuel L M flags h) (RangeList.difference e xs ys flags fuel) := by
  obtain ⟨h1, hrun, hw1, _⟩ := copy_world hw hL
  rw [hw.lists] at hrun
  unfold difference RangeList.difference
  rw [RangeList.copy_eq (hw.ne hL)]
  rcases differenceUpdate_world (e := e) (flags := flags) depth hw1 (get_length ws xs []) (get_append_left hM) (ne_length hM) hf hK hx hy with
    ⟨h2, items, hrun2, hi, hd⟩ | hu
  · exact .inl ⟨h2, items, (bind_ok hrun).trans (bind_error hrun2), hi, hd⟩
  · exact .inr (New.after hrun hu.new)

theorem intersection_world (depth : Nat) (hw : World h ws) (hL : ws[L]? = some xs) (hM : ws[M]? = some ys) (hK : Kind e K)
    (hx : ∀ r ∈ xs.flatten, OfKind K r) (hy : ∀ r ∈ ys.flatten, OfKind K r) :
    (∃ h' items, intersection e depth L M flags h = (.error .recursionError, h') ∧
      RangeList.intersectionItems e flags xs.flatten ys.flatten = .ok items ∧ depth ≤ items.length) ∨
    New ws (intersection e depth L M flags h) (RangeList.intersection e xs ys flags) := by
  obtain ⟨h1, hrun, hr1, hw1, _⟩ := newList_world hw
  rw [hw.lists] at hrun hr1
  obtain ⟨gl, hl1, hvl⟩ := hw1.rep L xs (get_append_left hL)
  obtain ⟨gm, hm1, hvm⟩ := hw1.rep M ys (get_append_left hM)
  have hgo : intersection e depth L M flags h =
      (meetAllAll e flags ws.length ys.flatten xs.flatten >>= fun _ => merge e depth ws.length flags >>= fun _ => pure ws.length : HM BibleRange Nat) h1 := by
    unfold intersection
    rw [bind_ok hrun, bind_ok hl1.toList, bind_ok hm1.toList, hvl, hvm]
  have hmeet := meetAllAll_spec (e := e) (flags := flags) ys.flatten xs.flatten hr1
  rw [hgo]
  unfold RangeList.intersection
  cases hi : RangeList.intersectionItems e flags xs.flatten ys.flatten with
  | error x =>
    rw [hi] at hmeet
    obtain ⟨h2, gs2, a, b⟩ := hmeet
    refine .inr ⟨h2, valuesOf h2 gs2, bind_error a, ?_⟩
    have := hw1.update (xs := valuesOf h2 gs2) b.rep rfl b.frame
    rw [set_length] at this
    exact this
  | ok items =>
    rw [hi] at hmeet
    obtain ⟨h2, gs2, a, b, c⟩ := hmeet
    have hw2 := hw1.update (xs := valuesOf h2 gs2) b.rep rfl b.frame
    rw [set_length] at hw2
    have c' : (valuesOf h2 gs2).flatten = items := by rw [c]; simp [valuesOf]
    rcases merge_world (e := e) (flags := flags) depth hw2 (get_length ws _ []) hK (by
      rw [c']; exact RangeList.intersectionItems_kind hK hx hy hi) with ⟨h3, hrun3, hd⟩ | hu
    · refine .inl ⟨h3, items, (bind_ok a).trans (bind_error hrun3), rfl, by rw [c'] at hd; exact hd⟩
    · rw [merge_congr (b := RangeList.ofRanges items) (by rw [c', RangeList.ofRanges_flatten])] at hu
      exact .inr (New.after a hu.new)

/-- Replacing the content of a list by that of another. -/
theorem replace_world {N : Nat} {zs : RangeList} {fuel : Nat} (hw : World h ws) (hN : ws[N]? = some zs) (hNL : N ≠ L)
    (hf : zs.flatten.length ≤ fuel) :
    ∃ h', (Heap.clear L >>= fun _ => Heap.extendList L N fuel : HM BibleRange Unit) h = (.ok (), h') ∧
      World h' (ws.set L (Groups.extend [] zs.flatten)) := by
  obtain ⟨h1, hrun1, hr1, hf1, _⟩ := clear_step h L
  have hw1 := hw.update hr1 (xs := []) rfl hf1
  have hN1 : (ws.set L [])[N]? = some zs := by rw [List.getElem?_set_ne (Ne.symm hNL), hN]
  obtain ⟨gn, hrn, hvn⟩ := hw1.rep N zs hN1
  have hk : (nodesOf gn).length ≤ fuel := by
    rw [← hvn, ← map_nodesOf, List.length_map] at hf; exact hf
  obtain ⟨h2, gs2, hrun2, hst2, hv2⟩ := extendList_step hNL hr1 hrn hk
  refine ⟨h2, (bind_ok hrun1).trans hrun2, ?_⟩
  have hw2 := hw1.update hst2.rep hv2 hst2.frame
  rw [List.set_set] at hw2
  rw [Groups.extend_nil, ← hvn]
  rw [show valuesOf h1 ([] : List Grp) = [] from rfl, Nested.extend_nil_left] at hw2
  exact hw2

theorem intersectionUpdate_world (depth : Nat) {fuel : Nat} (hw : World h ws) (hL : ws[L]? = some xs) (hM : ws[M]? = some ys)
    (hf : ∀ zs, RangeList.intersection e xs ys flags = .ok zs → zs.flatten.length ≤ fuel) (hK : Kind e K)
    (hx : ∀ r ∈ xs.flatten, OfKind K r) (hy : ∀ r ∈ ys.flatten, OfKind K r) :
    (∃ h' items, intersectionUpdate e depth fuel L M flags h = (.error .recursionError, h') ∧
      RangeList.intersectionItems e flags xs.flatten ys.flatten = .ok items ∧ depth ≤ items.length) ∨
    ∃ ts, Upd (ws ++ ts) L (intersectionUpdate e depth fuel L M flags h) (RangeList.intersectionUpdate e xs ys flags) := by
  unfold intersectionUpdate RangeList.intersectionUpdate
  rcases intersection_world (e := e) (flags := flags) depth hw hL hM hK hx hy with ⟨h1, items, hrun, hi, hd⟩ | hn
  · exact .inl ⟨h1, items, bind_error hrun, hi, hd⟩
  · right
    cases hi : RangeList.intersection e xs ys flags with
    | error x =>
      rw [hi] at hn
      obtain ⟨h1, zs, a, b⟩ := hn
      refine ⟨[zs], h1, xs, bind_error a, ?_⟩
      rw [set_same (get_append_left hL)]
      exact b
    | ok zs =>
      rw [hi] at hn
      obtain ⟨h1, a, b⟩ := hn
      obtain ⟨h2, c, d⟩ := replace_world (fuel := fuel) (L := L) b (get_length ws zs []) (ne_length hL).symm (hf zs hi)
      exact ⟨[zs], h2, (bind_ok a).trans c, d⟩

/-- What an operation that makes several new lists did to all lists. -/
def News (ws : List RangeList) (run : Except PyErr Nat × Heap BibleRange) : Except PyErr RangeList → Prop
  | .ok xs => ∃ h' N ts, run = (.ok N, h') ∧ World h' (ws ++ ts) ∧ ws.length ≤ N ∧ (ws ++ ts)[N]? = some xs
  | .error x => ∃ h' ts, run = (.error x, h') ∧ World h' (ws ++ ts)

theorem New.news {run : Except PyErr Nat × Heap BibleRange} {spec : Except PyErr RangeList} (hn : New ws run spec) : News ws run spec := by
  cases spec with
  | ok xs =>
    obtain ⟨h', a, b⟩ := hn
    exact ⟨h', _, [xs], a, b, Nat.le_refl _, get_length ws xs []⟩
  | error x =>
    obtain ⟨h', ys, a, b⟩ := hn
    exact ⟨h', _, a, b⟩

theorem symDifference_world (depth : Nat) {fuel : Nat} (hw : World h ws) (hL : ws[L]? = some xs) (hM : ws[M]? = some ys)
    (hf : ys.flatten.length ≤ fuel) (hg : ∀ zs, RangeList.intersection e xs ys flags = .ok zs → zs.flatten.length ≤ fuel) (hK : Kind e K)
    (hx : ∀ r ∈ xs.flatten, OfKind K r) (hy : ∀ r ∈ ys.flatten, OfKind K r) :
    ((∃ h', symDifference e depth fuel L M flags h = (.error .recursionError, h')) ∧
      (depth ≤ xs.flatten.length + ys.flatten.length ∨
      (∃ items, RangeList.intersectionItems e flags xs.flatten ys.flatten = .ok items ∧ depth ≤ items.length) ∨
      ∃ u i items, RangeList.union e xs ys flags = .ok u ∧ RangeList.intersection e xs ys flags = .ok i ∧
        RangeList.diffOuter e flags i.flatten fuel u.flatten = .ok items ∧ depth ≤ items.length)) ∨
    News ws (symDifference e depth fuel L M flags h) (RangeList.symDifference e xs ys flags fuel) := by
  unfold symDifference RangeList.symDifference
  rcases union_world (e := e) (flags := flags) depth hw hL hM hf hK hx hy with ⟨h1, hrun, hd⟩ | hn
  · exact .inl ⟨⟨h1, bind_error hrun⟩, .inl hd⟩
  cases hu : RangeList.union e xs ys flags with
  | error x =>
    rw [hu] at hn
    obtain ⟨h1, zs, a, b⟩ := hn
    exact .inr ⟨h1, _, bind_error a, b⟩
  | ok u =>
    rw [hu] at hn
    obtain ⟨h1, a, b⟩ := hn
    rw [bind_ok a]
    rcases intersection_world (e := e) (flags := flags) depth b (get_append_left hL) (get_append_left hM) hK hx hy with ⟨h2, items, hrun, hi, hd⟩ | hn
    · exact .inl ⟨⟨h2, bind_error hrun⟩, .inr (.inl ⟨items, hi, hd⟩)⟩
    cases hi : RangeList.intersection e xs ys flags with
    | error x =>
      rw [hi] at hn
      obtain ⟨h2, zs, c, d⟩ := hn
      rw [List.append_assoc] at d
      exact .inr ⟨h2, _, bind_error c, d⟩
    | ok i =>
      rw [hi] at hn
      obtain ⟨h2, c, d⟩ := hn
      rw [bind_ok c]
      rcases difference_world (e := e) (flags := flags) depth d (get_append_left (get_length ws u [])) (get_length _ i []) (hg i hi)
        hK (RangeList.union_kind hK hx hy hu) (RangeList.intersection_kind hK hx hy hi) with
        ⟨h3, items, hrun, hdo, hd⟩ | hn
      · exact .inl ⟨⟨h3, hrun⟩, .inr (.inr ⟨u, i, items, rfl, rfl, hdo, hd⟩)⟩
      · right
        simp only [bind, Except.bind]
        cases hdi : RangeList.difference e u i flags fuel with
        | error x =>
          rw [hdi] at hn
          obtain ⟨h3, zs, f, g⟩ := hn
          rw [List.append_assoc, List.append_assoc] at g
          exact ⟨h3, _, f, g⟩
        | ok zs =>
          rw [hdi] at hn
          obtain ⟨h3, f, g⟩ := hn
          refine ⟨h3, _, [u] ++ ([i] ++ [zs]), f, by simpa using g, by simp, by simp⟩

theorem symDifferenceUpdate_world (depth : Nat) {fuel : Nat} (hw : World h ws) (hL : ws[L]? = some xs) (hM : ws[M]? = some ys)
    (hf : ys.flatten.length ≤ fuel) (hg : ∀ zs, RangeList.intersection e xs ys flags = .ok zs → zs.flatten.length ≤ fuel)
    (hk : ∀ zs, RangeList.symDifference e xs ys flags fuel = .ok zs → zs.flatten.length ≤ fuel) (hK : Kind e K)
    (hx : ∀ r ∈ xs.flatten, OfKind K r) (hy : ∀ r ∈ ys.flatten, OfKind K r) :
    ((∃ h', symDifferenceUpdate e depth fuel L M flags h = (.error .recursionError, h')) ∧
      (depth ≤ xs.flatten.length + ys.flatten.length ∨
      (∃ items, RangeList.intersectionItems e flags xs.flatten ys.flatten = .ok items ∧ depth ≤ items.length) ∨
      ∃ u i items, RangeList.union e xs ys flags = .ok u ∧ RangeList.intersection e xs ys flags = .ok i ∧
        RangeList.diffOuter e flags i.flatten fuel u.flatten = .ok items ∧ depth ≤ items.length)) ∨
    ∃ ts, Upd (ws ++ ts) L (symDifferenceUpdate e depth fuel L M flags h) (RangeList.symDifferenceUpdate e xs ys flags fuel) := by
  unfold symDifferenceUpdate RangeList.symDifferenceUpdate
  rcases symDifference_world (e := e) (flags := flags) depth hw hL hM hf hg hK hx hy with ⟨⟨h1, hrun⟩, hd⟩ | hn
  · exact .inl ⟨⟨h1, bind_error hrun⟩, hd⟩
  · right
    cases hi : RangeList.symDifference e xs ys flags fuel with
    | error x =>
      rw [hi] at hn
      obtain ⟨h1, ts, a, b⟩ := hn
      refine ⟨ts, h1, xs, bind_error a, ?_⟩
      rw [set_same (get_append_left hL)]
      exact b
    | ok zs =>
      rw [hi] at hn
      obtain ⟨h1, N, ts, a, b, c, d⟩ := hn
      obtain ⟨h2, f, g⟩ := replace_world (fuel := fuel) (L := L) b d
        (fun hh => by have := (List.getElem?_eq_some_iff.mp hL).1; omega) (hk zs hi)
      exact ⟨ts, h2, (bind_ok a).trans f, g⟩

/-! ## Questions -/

theorem isDisjoint_world (hw : World h ws) (hL : ws[L]? = some xs) (hM : ws[M]? = some ys) :
    isDisjoint e L M h = (RangeList.isDisjoint e.data xs ys, h) := by
  obtain ⟨gs, hr, rfl⟩ := hw.rep L xs hL
  obtain ⟨gm, hm, rfl⟩ := hw.rep M ys hM
  unfold isDisjoint
  rw [bind_ok hr.toList, bind_ok hm.toList]
  rfl

theorem contains_world (depth : Nat) (hw : World h ws) (hL : ws[L]? = some xs) (hM : ws[M]? = some ys) (hK : Kind e K)
    (hx : ∀ r ∈ xs.flatten, OfKind K r) :
    (∃ h', contains e depth L M flags h = (.error .recursionError, h') ∧ depth ≤ xs.flatten.length) ∨
    ∃ h' ts, contains e depth L M flags h = (RangeList.contains e xs ys flags, h') ∧ World h' (ws ++ ts) := by
  obtain ⟨h1, hrun, hw1, _⟩ := copy_world hw hL
  rw [hw.lists] at hrun
  unfold contains RangeList.contains
  rw [RangeList.copy_eq (hw.ne hL)]
  rcases merge_world (e := e) (flags := flags) depth hw1 (get_length ws xs []) hK hx with ⟨h2, hrun2, hd⟩ | hu
  · exact .inl ⟨h2, (bind_ok hrun).trans (bind_error hrun2), hd⟩
  · right
    rw [bind_ok hrun]
    cases hm : RangeList.merge e xs flags with
    | error x =>
      rw [hm] at hu
      obtain ⟨h2, zs, a, b⟩ := hu
      refine ⟨h2, [zs], bind_error a, ?_⟩
      simpa using b
    | ok zs =>
      rw [hm] at hu
      obtain ⟨h2, a, b⟩ := hu
      rw [set_length] at b
      obtain ⟨gl, hl2, hvl⟩ := b.rep ws.length zs (get_length ws zs [])
      obtain ⟨gm, hm2, hvm⟩ := b.rep M ys (get_append_left hM)
      refine ⟨h2, [zs], ?_, b⟩
      rw [bind_ok a, bind_ok hl2.toList, bind_ok hm2.toList, hvl, hvm]
      rfl

end RangeHeap
end Bibleref
