import Verif.SpecHistory
import Verif.Lemmas.RangeHeap4
import Verif.Props.RangeLists

set_option linter.unusedSimpArgs false

/-!
# Histories of range lists
-/

namespace Bibleref
open HM

section
variable {α β γ : Type}

/-- More fuel does not change what happens when it is not used up. -/
def Refines (x y : HM α β) : Prop := ∀ h, (x h).1 ≠ .error .diverges → y h = x h

theorem Refines.refl (x : HM α β) : Refines x x := fun _ _ => rfl

theorem Refines.bind {x y : HM α β} {f g : β → HM α γ} (hx : Refines x y) (hf : ∀ b, Refines (f b) (g b)) : Refines (x >>= f) (y >>= g) := by
  intro h hne
  rcases hr : x h with ⟨r, h'⟩
  cases r with
  | error e =>
    rw [bind_error hr] at hne ⊢
    have := hx h (by rw [hr]; exact fun hh => hne (by cases hh; rfl))
    rw [hr] at this
    exact bind_error this
  | ok b =>
    have := hx h (by rw [hr]; simp)
    rw [hr] at this
    rw [bind_ok hr] at hne ⊢
    rw [bind_ok this]
    exact hf b h' hne

theorem Refines.silent {x y : HM α β} (hx : Refines x y) : Refines x.silent y.silent := hx.bind fun _ => Refines.refl _

theorem extendFrom_refines (L : Nat) {k k' : Nat} (hk : k ≤ k') (o : Option Nat) : Refines (Heap.extendFrom L k o : HM α Unit) (Heap.extendFrom L k' o) := by
  induction k generalizing k' o with
  | zero =>
    cases o with
    | none =>
      intro h _
      cases k' <;> rfl
    | some n => exact fun h hne => absurd rfl hne
  | succ k ih =>
    cases o with
    | none =>
      intro h _
      cases k' <;> rfl
    | some n =>
      obtain ⟨k', rfl⟩ : ∃ j, k' = j + 1 := ⟨k' - 1, by omega⟩
      exact (Refines.refl _).bind fun v => (Refines.refl _).bind fun _ => (Refines.refl _).bind fun q => ih (by omega) q

theorem extendList_refines (L M : Nat) {k k' : Nat} (hk : k ≤ k') : Refines (Heap.extendList L M k : HM α Unit) (Heap.extendList L M k') :=
  (Refines.refl _).bind fun f => extendFrom_refines L hk f

end

namespace RangeHeap
variable {e : Env} {flags : Option BibleFlag} {depth L M k k' f f' : Nat}

theorem diffInner_refines (hk : k ≤ k') (o : Option Nat) (n : Nat) : Refines (diffInner e flags L k o n) (diffInner e flags L k' o n) := by
  induction k generalizing k' o n with
  | zero =>
    cases o with
    | none =>
      intro h _
      cases k' <;> rfl
    | some n => exact fun h hne => absurd rfl hne
  | succ k ih =>
    cases o with
    | none =>
      intro h _
      cases k' <;> rfl
    | some m =>
      obtain ⟨k', rfl⟩ : ∃ j, k' = j + 1 := ⟨k' - 1, by omega⟩
      exact (Refines.refl _).bind fun b => (Refines.refl _).bind fun a => (Refines.refl _).bind fun d => (Refines.refl _).bind fun n' =>
        (Refines.refl _).bind fun q => ih (by omega) q n'

theorem diffOuter_refines (hk : k ≤ k') (hf : f ≤ f') (o : Option Nat) : Refines (diffOuter e flags L M f k o) (diffOuter e flags L M f' k' o) := by
  induction k generalizing k' o with
  | zero =>
    cases o with
    | none =>
      intro h _
      cases k' <;> rfl
    | some n => exact fun h hne => absurd rfl hne
  | succ k ih =>
    cases o with
    | none =>
      intro h _
      cases k' <;> rfl
    | some m =>
      obtain ⟨k', rfl⟩ : ∃ j, k' = j + 1 := ⟨k' - 1, by omega⟩
      exact (Refines.refl _).bind fun b => (diffInner_refines hf b m).bind fun a => (Refines.refl _).bind fun q => ih (by omega) q

theorem unionUpdate_refines (hk : k ≤ k') : Refines (unionUpdate e depth k L M flags) (unionUpdate e depth k' L M flags) :=
  (extendList_refines L M hk).bind fun _ => Refines.refl _

theorem union_refines (hk : k ≤ k') : Refines (union e depth k L M flags) (union e depth k' L M flags) :=
  (Refines.refl _).bind fun _ => (unionUpdate_refines hk).bind fun _ => Refines.refl _

theorem intersectionUpdate_refines (hk : k ≤ k') : Refines (intersectionUpdate e depth k L M flags) (intersectionUpdate e depth k' L M flags) :=
  (Refines.refl _).bind fun _ => (Refines.refl _).bind fun _ => extendList_refines _ _ hk

theorem differenceUpdate_refines (hk : k ≤ k') : Refines (differenceUpdate e depth k L M flags) (differenceUpdate e depth k' L M flags) :=
  (Refines.refl _).bind fun o => (diffOuter_refines hk hk o).bind fun _ => Refines.refl _

theorem difference_refines (hk : k ≤ k') : Refines (difference e depth k L M flags) (difference e depth k' L M flags) :=
  (Refines.refl _).bind fun _ => (differenceUpdate_refines hk).bind fun _ => Refines.refl _

theorem symDifference_refines (hk : k ≤ k') : Refines (symDifference e depth k L M flags) (symDifference e depth k' L M flags) :=
  (union_refines hk).bind fun _ => (Refines.refl _).bind fun _ => difference_refines hk

theorem symDifferenceUpdate_refines (hk : k ≤ k') : Refines (symDifferenceUpdate e depth k L M flags) (symDifferenceUpdate e depth k' L M flags) :=
  (symDifference_refines hk).bind fun _ => (Refines.refl _).bind fun _ => extendList_refines _ _ hk

end RangeHeap

theorem RangeOp.call_refines (e : Env) (depth : Nat) {k k' : Nat} (hk : k ≤ k') (op : RangeOp) : Refines (op.call e depth k) (op.call e depth k') := by
  cases op with
  | union L M flags => exact (RangeHeap.union_refines hk).silent
  | unionUpdate L M flags => exact RangeHeap.unionUpdate_refines hk
  | intersectionUpdate L M flags => exact RangeHeap.intersectionUpdate_refines hk
  | difference L M flags => exact (RangeHeap.difference_refines hk).silent
  | differenceUpdate L M flags => exact RangeHeap.differenceUpdate_refines hk
  | symDifference L M flags => exact (RangeHeap.symDifference_refines hk).silent
  | symDifferenceUpdate L M flags => exact RangeHeap.symDifferenceUpdate_refines hk
  | basic op => unfold RangeOp.call; split <;> first | exact Refines.refl _ | (rename_i hh; cases hh) | (rename_i hh; cases hh; exact Refines.refl _)
  | _ => exact Refines.refl _

/-! ## What a call does to the lists -/

variable {h h' : Heap BibleRange} {L M : Nat} {gs gs' gm : List Grp} {e : Env} {flags : Option BibleFlag} {ws : List RangeList} {xs ys : RangeList}

/-- All lists are lists afterwards, and only the list `t` may have changed. -/
def Sound (ws : List RangeList) (t : Option Nat) (h' : Heap BibleRange) : Prop :=
  ∃ ws', World h' ws' ∧ ws.length ≤ ws'.length ∧ ∀ K xs, t ≠ some K → ws[K]? = some xs → ws'[K]? = some xs

theorem Sound.set_append {ts : List RangeList} (hw : World h' ((ws ++ ts).set L ys)) : Sound ws (some L) h' := by
  refine ⟨_, hw, by simp, fun K xs hK hx => ?_⟩
  rw [List.getElem?_set_ne (fun hh => hK (by rw [hh]))]
  exact RangeHeap.get_append_left hx

theorem Sound.set (hw : World h' (ws.set L ys)) : Sound ws (some L) h' := Sound.set_append (ts := []) (by rw [List.append_nil]; exact hw)

theorem Sound.append {ts : List RangeList} (hw : World h' (ws ++ ts)) : Sound ws none h' :=
  ⟨_, hw, by simp, fun K xs _ hx => RangeHeap.get_append_left hx⟩

theorem Upd.sound {ts : List RangeList} {run : Except PyErr Unit × Heap BibleRange} {spec : Except PyErr RangeList} (hu : RangeHeap.Upd (ws ++ ts) L run spec) :
    Sound ws (some L) run.2 := by
  cases spec with
  | ok xs => obtain ⟨h', rfl, hw⟩ := hu; exact Sound.set_append hw
  | error x => obtain ⟨h', ys, rfl, hw⟩ := hu; exact Sound.set_append hw

theorem Upd.sound' {run : Except PyErr Unit × Heap BibleRange} {spec : Except PyErr RangeList} (hu : RangeHeap.Upd ws L run spec) :
    Sound ws (some L) run.2 := Upd.sound (ts := []) (by rw [List.append_nil]; exact hu)

theorem silent_heap {β : Type} (x : HM BibleRange β) (h : Heap BibleRange) : (x.silent h).2 = (x h).2 := by
  rcases hr : x h with ⟨r, h'⟩
  unfold HM.silent
  cases r with
  | error y => rw [bind_error hr]
  | ok b => rw [bind_ok hr]; rfl

theorem silent_error {β : Type} {x : HM BibleRange β} {y : PyErr} (hx : (x h).1 = .error y) : (x.silent h).1 = .error y := by
  rcases hr : x h with ⟨r, h'⟩
  rw [hr] at hx
  cases hx
  unfold HM.silent
  rw [bind_error hr]

theorem News.sound {x : HM BibleRange Nat} {spec : Except PyErr RangeList} (hu : RangeHeap.News ws (x h) spec) : Sound ws none (x.silent h).2 := by
  rw [silent_heap]
  cases spec with
  | ok xs =>
    obtain ⟨h', N, ts, hr, hw, _⟩ := hu
    rw [hr]
    exact Sound.append hw
  | error y =>
    obtain ⟨h', ts, hr, hw⟩ := hu
    rw [hr]
    exact Sound.append hw

theorem meaning_frame (le : BibleRange → BibleRange → Bool) (op : WorldOp BibleRange) (ws : List RangeList) :
    ws.length ≤ (match op.meaning le ws with | .ok (_, ws') => ws' | .error _ => ws).length ∧
    ∀ K xs, (RangeOp.basic op).target ≠ some K → ws[K]? = some xs →
      (match op.meaning le ws with | .ok (_, ws') => ws' | .error _ => ws)[K]? = some xs := by
  cases op with
  | new => exact ⟨by simp [WorldOp.meaning], fun K xs _ hx => RangeHeap.get_append_left hx⟩
  | copy M => exact ⟨by simp [WorldOp.meaning], fun K xs _ hx => RangeHeap.get_append_left hx⟩
  | extendList L M =>
    refine ⟨by simp [WorldOp.meaning], fun K xs hK hx => ?_⟩
    show (ws.set L _)[K]? = _
    rw [List.getElem?_set_ne (fun hh => hK (by rw [← hh]; rfl))]
    exact hx
  | on L op =>
    simp only [WorldOp.meaning]
    cases op.meaning le (ws[L]?.getD []) with
    | error y => exact ⟨Nat.le_refl _, fun K xs _ hx => hx⟩
    | ok r =>
      refine ⟨by show _ ≤ (ws.set L r.2).length; simp, fun K xs hK hx => ?_⟩
      show (ws.set L r.2)[K]? = _
      rw [List.getElem?_set_ne (fun hh => hK (by rw [← hh]; rfl))]
      exact hx

theorem symDifference_mono {e : Env} {flags : Option BibleFlag} {a b z : RangeList} {k k' : Nat} (hz : RangeList.symDifference e a b flags k = .ok z) (hk : k ≤ k') :
    RangeList.symDifference e a b flags k' = .ok z := by
  unfold RangeList.symDifference RangeList.difference RangeList.differenceUpdate at hz ⊢
  cases hu : RangeList.union e a b flags with
  | error y => simp only [bind, Except.bind, hu] at hz; cases hz
  | ok u =>
    cases hi : RangeList.intersection e a b flags with
    | error y => simp only [bind, Except.bind, hu, hi] at hz; cases hz
    | ok i =>
      cases hd : RangeList.diffOuter e flags i.flatten k (RangeList.copy u).flatten with
      | error y => simp only [bind, Except.bind, hu, hi, hd] at hz; cases hz
      | ok items =>
        simp only [bind, Except.bind, hu, hi, hd, diffOuter_mono hd hk] at hz ⊢
        exact hz

/-- Whatever a call that ends does, all lists are lists afterwards and only its target has changed. -/
theorem RangeOp.sensible_basic {d : BibleData} {depth : Nat} {op : WorldOp BibleRange} (hsort : ¬ ∃ L, op = .on L .sort)
    (hs : (RangeOp.basic op).Sensible d depth ws) : op.Sensible depth ws := by
  unfold RangeOp.Sensible at hs
  split at hs
  all_goals first
    | exact hs
    | (rename_i hh; cases hh; exact hs)
    | (rename_i hh; cases hh; exact absurd ⟨_, rfl⟩ hsort)
    | (rename_i hh; cases hh; done)

theorem RangeOp.call_basic {depth fuel : Nat} {op : WorldOp BibleRange} (hsort : ¬ ∃ L, op = .on L .sort) :
    (RangeOp.basic op).call e depth fuel = (op.call (fun _ _ => true) depth).silent := by
  unfold RangeOp.call
  split
  all_goals first
    | rfl
    | (rename_i hh; cases hh; exact absurd ⟨_, rfl⟩ hsort)
    | (rename_i hh; cases hh; rfl)
    | (rename_i hh; cases hh; done)

theorem call_sound (depth fuel : Nat) (op : RangeOp) (hw : World h ws) (hs : op.Sensible e.data depth ws) (he : Ended (op.call e depth fuel h)) :
    Sound ws op.target (op.call e depth fuel h).2 := by
  have get : ∀ {K}, K < ws.length → ∃ xs, ws[K]? = some xs := fun hK => ⟨_, List.getElem?_eq_getElem hK⟩
  -- enough fuel
  have more : ∀ {k}, fuel ≤ k → op.call e depth k h = op.call e depth fuel h := fun hk => op.call_refines e depth hk h he.2
  have kind1 : ∀ {L : Nat} {xs : RangeList}, ws[L]? = some xs → Orderly e.data (ws[L]?.getD []).flatten →
      ∃ K, Kind e K ∧ ∀ r ∈ xs.flatten, OfKind K r := fun hL ho => by
    rw [hL] at ho; exact ho.kind
  have kind2 : ∀ {L M : Nat} {xs ys : RangeList}, ws[L]? = some xs → ws[M]? = some ys →
      Orderly e.data ((ws[L]?.getD []).flatten ++ (ws[M]?.getD []).flatten) →
      ∃ K, Kind e K ∧ (∀ r ∈ xs.flatten, OfKind K r) ∧ ∀ r ∈ ys.flatten, OfKind K r := fun hL hM ho => by
    rw [hL, hM] at ho
    obtain ⟨K, hK, hx⟩ := ho.kind
    exact ⟨K, hK, fun r hr => hx r (List.mem_append_left _ hr), fun r hr => hx r (List.mem_append_right _ hr)⟩
  cases op with
  | basic op =>
    by_cases hsort : ∃ L, op = .on L .sort
    · obtain ⟨L, rfl⟩ := hsort
      obtain ⟨xs, hL⟩ := get hs.1
      obtain ⟨K, hK, hx⟩ := kind1 hL hs.2
      rcases RangeHeap.sort_world (e := e) depth true hw hL hK hx with ⟨h', hrun, _⟩ | hu
      · exact absurd (congrArg Prod.fst hrun) he.1
      · exact Upd.sound' hu
    · have hs' : op.Sensible depth ws := RangeOp.sensible_basic hsort hs
      have hcall := RangeOp.call_basic (e := e) (depth := depth) (fuel := fuel) hsort
      obtain ⟨h', hrun, hw', _⟩ := world_sim (fun _ _ => true) op hw hs'
      have := meaning_frame (fun _ _ => true) op ws
      rw [hcall, silent_heap, hrun]
      refine ⟨_, hw', ?_⟩
      revert this
      cases WorldOp.meaning (fun _ _ => true) ws op <;> exact id
  | verse0to1 L =>
    obtain ⟨xs, hL⟩ := get hs
    exact Upd.sound' (RangeHeap.verse0to1_world hw hL)
  | verse1to0 L =>
    obtain ⟨xs, hL⟩ := get hs
    exact Upd.sound' (RangeHeap.verse1to0_world hw hL)
  | regroup L flags =>
    obtain ⟨xs, hL⟩ := get hs
    exact Upd.sound' (RangeHeap.regroup_world hw hL)
  | sort L regroupToo =>
    obtain ⟨xs, hL⟩ := get hs.1
    obtain ⟨K, hK, hx⟩ := kind1 hL hs.2
    rcases RangeHeap.sort_world (e := e) depth regroupToo hw hL hK hx with ⟨h', hrun, _⟩ | hu
    · exact absurd (congrArg Prod.fst hrun) he.1
    · exact Upd.sound' hu
  | merge L flags =>
    obtain ⟨xs, hL⟩ := get hs.1
    obtain ⟨K, hK, hx⟩ := kind1 hL hs.2
    rcases RangeHeap.merge_world (e := e) (flags := flags) depth hw hL hK hx with ⟨h', hrun, _⟩ | hu
    · exact absurd (congrArg Prod.fst hrun) he.1
    · exact Upd.sound' hu
  | isDisjoint L M =>
    obtain ⟨xs, hL⟩ := get hs.1
    obtain ⟨ys, hM⟩ := get hs.2
    simp only [RangeOp.call]
    rw [silent_heap, RangeHeap.isDisjoint_world hw hL hM]
    exact Sound.append (ts := []) (by rw [List.append_nil]; exact hw)
  | contains L M flags =>
    obtain ⟨xs, hL⟩ := get hs.1.1
    obtain ⟨ys, hM⟩ := get hs.1.2
    obtain ⟨K, hK, hx, hy⟩ := kind2 hL hM hs.2
    rcases RangeHeap.contains_world (e := e) (flags := flags) depth hw hL hM hK hx with ⟨h', hrun, _⟩ | ⟨h', ts, hrun, hw'⟩
    · exact absurd (silent_error (congrArg Prod.fst hrun)) he.1
    · simp only [RangeOp.call]
      rw [silent_heap, hrun]
      exact Sound.append hw'
  | union L M flags =>
    obtain ⟨xs, hL⟩ := get hs.1.1
    obtain ⟨ys, hM⟩ := get hs.1.2
    obtain ⟨K, hK, hx, hy⟩ := kind2 hL hM hs.2
    have hm := more (k := fuel + ys.flatten.length) (by omega)
    rw [← hm] at he ⊢
    rcases RangeHeap.union_world (e := e) (flags := flags) depth hw hL hM (fuel := fuel + ys.flatten.length) (by omega) hK hx hy with ⟨h', hrun, _⟩ | hu
    · exact absurd (silent_error (congrArg Prod.fst hrun)) he.1
    · exact News.sound hu.news
  | unionUpdate L M flags =>
    obtain ⟨xs, hL⟩ := get hs.1.1
    obtain ⟨ys, hM⟩ := get hs.1.2
    obtain ⟨K, hK, hx, hy⟩ := kind2 hL hM hs.2
    by_cases hLM : M = L
    · subst hLM
      rw [hL] at hM
      cases hM
      obtain ⟨gs, hr, hv⟩ := hw.rep M xs hL
      by_cases hne : nodesOf gs = []
      · have hf : h.first M = none := by rw [hr.links.fst, hne]; rfl
        have hx' : Heap.extendList M M fuel h = (.ok (), h) := by
          unfold Heap.extendList
          simp only [bind_run (HM.read _), read_run, hf]
          cases fuel <;> rfl
        have hrun : RangeHeap.unionUpdate e depth fuel M M flags h = RangeHeap.merge e depth M flags h := by
          unfold RangeHeap.unionUpdate
          rw [bind_ok hx']
        simp only [RangeOp.call] at he ⊢
        rw [hrun] at he ⊢
        rcases RangeHeap.merge_world (e := e) (flags := flags) depth hw hL hK hx with ⟨h', hrun, _⟩ | hu
        · exact absurd (congrArg Prod.fst hrun) he.1
        · exact Upd.sound' hu
      · obtain ⟨h', hrun⟩ := extendSelf_diverges fuel (zs := []) hr rfl hne
        have hx : Heap.extendList M M fuel h = (.error .diverges, h') := by
          unfold Heap.extendList
          simp only [bind_run (HM.read _), read_run, hr.links.fst]
          exact hrun
        exact absurd (show (RangeHeap.unionUpdate e depth fuel M M flags h).1 = _ from congrArg Prod.fst (bind_error hx)) he.2
    · have hm := more (k := fuel + ys.flatten.length) (by omega)
      rw [← hm] at he ⊢
      rcases RangeHeap.unionUpdate_world (e := e) (flags := flags) depth hw hL hM hLM (fuel := fuel + ys.flatten.length) (by omega) hK hx hy with ⟨h', hrun, _⟩ | hu
      · exact absurd (congrArg Prod.fst hrun) he.1
      · exact Upd.sound' hu
  | intersection L M flags =>
    obtain ⟨xs, hL⟩ := get hs.1.1
    obtain ⟨ys, hM⟩ := get hs.1.2
    obtain ⟨K, hK, hx, hy⟩ := kind2 hL hM hs.2
    rcases RangeHeap.intersection_world (e := e) (flags := flags) depth hw hL hM hK hx hy with ⟨h', items, hrun, _⟩ | hu
    · exact absurd (silent_error (congrArg Prod.fst hrun)) he.1
    · exact News.sound hu.news
  | intersectionUpdate L M flags =>
    obtain ⟨xs, hL⟩ := get hs.1.1
    obtain ⟨ys, hM⟩ := get hs.1.2
    obtain ⟨K, hK, hx, hy⟩ := kind2 hL hM hs.2
    obtain ⟨k, hk, hf⟩ : ∃ k, fuel ≤ k ∧ ∀ zs, RangeList.intersection e xs ys flags = .ok zs → zs.flatten.length ≤ k := by
      cases hi : RangeList.intersection e xs ys flags with
      | error y => exact ⟨fuel, Nat.le_refl _, fun zs hh => by cases hh⟩
      | ok z => exact ⟨fuel + z.flatten.length, by omega, fun zs hh => by cases hh; omega⟩
    have hm := more hk
    rw [← hm] at he ⊢
    rcases RangeHeap.intersectionUpdate_world (e := e) (flags := flags) depth hw hL hM hf hK hx hy with ⟨h', items, hrun, _⟩ | ⟨ts, hu⟩
    · exact absurd (congrArg Prod.fst hrun) he.1
    · exact Upd.sound hu
  | difference L M flags =>
    obtain ⟨xs, hL⟩ := get hs.1.1
    obtain ⟨ys, hM⟩ := get hs.1.2
    obtain ⟨K, hK, hx, hy⟩ := kind2 hL hM hs.2
    have hm := more (k := fuel + ys.flatten.length) (by omega)
    rw [← hm] at he ⊢
    rcases RangeHeap.difference_world (e := e) (flags := flags) depth hw hL hM (fuel := fuel + ys.flatten.length) (by omega) hK hx hy with ⟨h', items, hrun, _⟩ | hu
    · exact absurd (silent_error (congrArg Prod.fst hrun)) he.1
    · exact News.sound hu.news
  | differenceUpdate L M flags =>
    obtain ⟨xs, hL⟩ := get hs.1.1
    obtain ⟨ys, hM⟩ := get hs.1.2
    obtain ⟨K, hK, hx, hy⟩ := kind2 hL hM hs.2
    by_cases hLM : M = L
    · subst hLM
      obtain ⟨gs, hr, hv⟩ := hw.rep M xs hL
      rcases RangeHeap.differenceUpdate_alias (e := e) (flags := flags) hK depth fuel hr (by rw [hv]; exact hx) with ⟨h', hrun⟩ | ⟨r, h', gs', hrun, hst⟩
      · exact absurd (congrArg Prod.fst hrun) he.1
      · simp only [RangeOp.call]
        rw [hrun]
        exact Sound.set (hw.update hst.rep rfl hst.frame)
    · have hm := more (k := fuel + ys.flatten.length) (by omega)
      rw [← hm] at he ⊢
      rcases RangeHeap.differenceUpdate_world (e := e) (flags := flags) depth hw hL hM hLM (fuel := fuel + ys.flatten.length) (by omega) hK hx hy with
        ⟨h', items, hrun, _⟩ | hu
      · exact absurd (congrArg Prod.fst hrun) he.1
      · exact Upd.sound' hu
  | symDifference L M flags =>
    obtain ⟨xs, hL⟩ := get hs.1.1
    obtain ⟨ys, hM⟩ := get hs.1.2
    obtain ⟨K, hK, hx, hy⟩ := kind2 hL hM hs.2
    obtain ⟨k, hk, hk2, hf⟩ : ∃ k, fuel ≤ k ∧ ys.flatten.length ≤ k ∧ ∀ zs, RangeList.intersection e xs ys flags = .ok zs → zs.flatten.length ≤ k := by
      cases hi : RangeList.intersection e xs ys flags with
      | error y => exact ⟨fuel + ys.flatten.length, by omega, by omega, fun zs hh => by cases hh⟩
      | ok z => exact ⟨fuel + ys.flatten.length + z.flatten.length, by omega, by omega, fun zs hh => by cases hh; omega⟩
    have hm := more hk
    rw [← hm] at he ⊢
    rcases RangeHeap.symDifference_world (e := e) (flags := flags) depth hw hL hM hk2 hf hK hx hy with ⟨⟨h', hrun⟩, _⟩ | hu
    · exact absurd (silent_error (congrArg Prod.fst hrun)) he.1
    · exact News.sound hu
  | symDifferenceUpdate L M flags =>
    obtain ⟨xs, hL⟩ := get hs.1.1
    obtain ⟨ys, hM⟩ := get hs.1.2
    obtain ⟨K, hK, hx, hy⟩ := kind2 hL hM hs.2
    obtain ⟨k, hk, hk2, hf⟩ : ∃ k, fuel ≤ k ∧ ys.flatten.length ≤ k ∧ ∀ zs, RangeList.intersection e xs ys flags = .ok zs → zs.flatten.length ≤ k := by
      cases hi : RangeList.intersection e xs ys flags with
      | error y => exact ⟨fuel + ys.flatten.length, by omega, by omega, fun zs hh => by cases hh⟩
      | ok z => exact ⟨fuel + ys.flatten.length + z.flatten.length, by omega, by omega, fun zs hh => by cases hh; omega⟩
    obtain ⟨j, hj, hg⟩ : ∃ j, k ≤ j ∧ ∀ zs, RangeList.symDifference e xs ys flags j = .ok zs → zs.flatten.length ≤ j := by
      by_cases hex : ∃ j z, RangeList.symDifference e xs ys flags j = .ok z
      · obtain ⟨j, z, hz⟩ := hex
        refine ⟨k + j + z.flatten.length, by omega, fun zs hzs => ?_⟩
        rw [symDifference_mono hz (by omega)] at hzs
        cases hzs
        omega
      · exact ⟨k, Nat.le_refl _, fun zs hzs => absurd ⟨k, zs, hzs⟩ hex⟩
    have hm := more (Nat.le_trans hk hj)
    rw [← hm] at he ⊢
    rcases RangeHeap.symDifferenceUpdate_world (e := e) (flags := flags) depth hw hL hM (Nat.le_trans hk2 hj) (fun zs hz => Nat.le_trans (hf zs hz) hj) hg hK hx hy with
      ⟨⟨h', hrun⟩, _⟩ | ⟨ts, hu⟩
    · exact absurd (congrArg Prod.fst hrun) he.1
    · exact Upd.sound hu

/-! ## Reachable memory -/

theorem World.contents (hw : World h ws) : contents h = ws := by
  unfold Bibleref.contents
  apply List.ext_getElem?
  intro K
  by_cases hK : K < ws.length
  · have hx : ws[K]? = some ws[K] := List.getElem?_eq_getElem hK
    obtain ⟨gs, hr, hv⟩ := hw.rep K _ hx
    rw [List.getElem?_map, List.getElem?_range (by rw [hw.lists]; exact hK), hx]
    simp only [Option.map_some]
    rw [hr.toNested, hv]
  · rw [List.getElem?_eq_none (by simp [hw.lists]; omega), List.getElem?_eq_none (by omega)]

theorem Reachable.world (hr : Reachable h) : World h (contents h) := by
  induction hr with
  | start v => exact (world_empty v).contents.symm ▸ world_empty v
  | call e depth fuel op hr hs he ih =>
    obtain ⟨ws', hw, _⟩ := call_sound depth fuel op ih hs he
    rw [hw.contents]
    exact hw

end Bibleref
