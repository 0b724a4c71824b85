import Verif.Lemmas.Count

/-! What `chap_count` and `book_count` count with `whole=True` when an end of the range is a verse 0 that the global flags do
not allow. -/

namespace Bibleref
open Spec

/-- `countWhole` only looks at the first and the last piece. -/
theorem countWhole_ends (isWhole : BibleRange → Except PyErr Bool) (w : BibleRange → Bool) (l : List BibleRange) (hne : l ≠ [])
    (hf : ∀ x, l.head? = some x → isWhole x = .ok (w x)) (hl : 1 < l.length → ∀ x, l.getLast? = some x → isWhole x = .ok (w x))
    (hmid : ∀ pre x post, l = pre ++ x :: post → pre ≠ [] → post ≠ [] → w x = true) :
    BibleRange.countWhole isWhole true l = .ok ((l.filter w).length : Int) := by
  rw [← countWhole_filter (fun x => .ok (w x)) w l (fun _ _ => rfl) hne hmid]
  unfold BibleRange.countWhole
  cases hh : l.head? with
  | none => rfl
  | some x =>
    simp only [if_true, hf x hh, bind, Except.bind]
    by_cases h1 : l.length > 1
    · rw [if_pos h1, if_pos h1]
      cases hg : l.getLast? with
      | none => rfl
      | some y => simp only [hl h1 y hg]
    · rw [if_neg h1, if_neg h1]

section
variable {κ : Type} {d : BibleData} (h : d.WF) {key : BibleVerse → κ} (hk : Convex d true key)
include h hk

/-- A tile holds every verse of its class that lies in the stretch. -/
theorem Tiles.holds {i k : Nat} {l : List BibleRange} (ht : Tiles d true i k l)
    (h1 : ∀ x ∈ l, key x.start = key x.stop) (h2 : Neighbours (fun p q => key p.stop ≠ key q.start) l)
    {x : BibleRange} (hx : x ∈ l) {v : BibleVerse} (hv : Valid d true v) (hkv : key v = key x.start)
    (a : i ≤ ix d true v) (b : ix d true v ≤ k) : ix d true x.start ≤ ix d true v ∧ ix d true v ≤ ix d true x.stop := by
  obtain ⟨y, hy, p, q⟩ := ht.find h a b
  obtain ⟨gy, _⟩ := ht.pieces h hy
  have hky : key y.start = key x.start := by rw [← hkv]; exact (hk gy.s hv gy.t p q (h1 y hy)).symm
  have hyx : y = x := by
    obtain ⟨m, hm, em⟩ := List.mem_iff_getElem.mp hx
    obtain ⟨n, hn, en⟩ := List.mem_iff_getElem.mp hy
    have := (List.getElem_inj (h₀ := by simpa using hn) (h₁ := by simpa using hm) (ht.keys_nodup h hk h1 h2)).mp
      (by simp only [List.getElem_map, em, en]; exact hky)
    subst this
    rw [← em, ← en]
  subst hyx
  exact ⟨p, q⟩

open Classical in
/-- The pieces counted, for a classification with first numbered verses `F`, last verses `L` and places `Z` for a verse 0. -/
theorem Tiles.count_verse0 {r : BibleRange} (hr : ROK d true r) (hz : r.start.verse = 0 ∨ r.stop.verse = 0)
    {l : List BibleRange} (ht : Tiles d true (ix d true r.start) (ix d true r.stop) l)
    (h1 : ∀ x ∈ l, key x.start = key x.stop) (h2 : Neighbours (fun p q => key p.stop ≠ key q.start) l)
    (F L : BibleVerse → BibleVerse) (Z : κ → BibleVerse)
    (hF : ∀ v, Valid d true v → Valid d false (F v) ∧ key (F v) = key v)
    (hL : ∀ v, Valid d true v → Valid d false (L v) ∧ key (L v) = key v)
    (hFL : ∀ u v, Valid d true u → Valid d true v → key u = key v →
      (ix d true (F v) ≤ ix d true u ∨ u = Z (key v)) ∧ ix d true u ≤ ix d true (L v))
    (hZ : ∀ v, Valid d true v → (Z (key v)).verse = 0 ∧
      (Valid d true (Z (key v)) → key (Z (key v)) = key v ∧ ix d true (Z (key v)) < ix d true (F v)))
    (isWhole : BibleRange → Except PyErr Bool)
    (hw : ∀ x ∈ l, isWhole x = .ok (decide (x.start = F x.start ∧ x.stop = L x.start))) :
    ∃ n : Nat, BibleRange.countWhole isWhole true l = .ok n ∧
      HasCard (fun c => (∃ v ∈ canon d false, key v = c) ∧ (∀ v ∈ canon d false, key v = c → InRange d r v) ∧
        (key r.start = c → r.start.verse ≠ 0) ∧ (key r.stop = c → Z c ∉ canon d true)) n := by
  have hv1 : ∀ v, Valid d false v → v.verse ≠ 0 := by
    intro v hv
    have := hv.2.2.1
    simp [firstNum] at this
    omega
  have hin : ∀ v, Valid d true v → (InRange d r v ↔ ix d true r.start ≤ ix d true v ∧ ix d true v ≤ ix d true r.stop) := by
    intro v hv
    rw [InRange, pos_le_ix h hr.s hv, pos_le_ix h hv hr.t]
  let C : κ → Prop := fun c => (∀ v ∈ canon d false, key v = c → InRange d r v) ∧
        (key r.start = c → r.start.verse ≠ 0) ∧ (key r.stop = c → Z c ∉ canon d true)
  have hnd := ht.keys_nodup h hk h1 h2
  have hhead : ∀ x, l.head? = some x → x.start = r.start := by
    intro x hx
    obtain ⟨y, hy, hg⟩ := ht.head
    rw [hx] at hy; cases hy
    rw [ix_get h hr.s] at hg
    exact (Option.some.inj hg).symm
  have hlast : ∀ x, l.getLast? = some x → x.stop = r.stop := by
    intro x hx
    obtain ⟨y, hy, hg⟩ := ht.last
    rw [hx] at hy; cases hy
    rw [ix_get h hr.t] at hg
    exact (Option.some.inj hg).symm
  have hsz : ∀ x ∈ l, x.start = F x.start → x.start = r.start → key x.start ≠ key r.stop ∨ x.stop ≠ L x.start := by
    intro x hx hs hxs
    apply Classical.byContradiction
    intro hh
    rw [not_or, Classical.not_not, Classical.not_not] at hh
    obtain ⟨hks, hL'⟩ := hh
    obtain ⟨gx, gx1, gx2, gx3⟩ := ht.pieces h hx
    have e1 := (ht.holds h hk h1 h2 hx hr.t hks.symm ((pos_le_ix h hr.s hr.t).mp hr.le) (Nat.le_refl _)).2
    have e2 : x.stop = r.stop := (ix_inj h gx.t hr.t).mp (by omega)
    rcases hz with hz | hz
    · rw [← hxs, hs] at hz
      exact hv1 _ (hF _ gx.s).1 hz
    · rw [← e2, hL'] at hz
      exact hv1 _ (hL _ gx.s).1 hz
  refine ⟨(l.filter fun x => decide (C (key x.start))).length, ?_, (l.filter fun x => decide (C (key x.start))).map fun x => key x.start,
    (List.filter_sublist.map _).nodup hnd, fun c => ?_, by simp⟩
  · apply countWhole_ends _ _ _ ht.ne_nil
    · intro x hx
      have hxl : x ∈ l := List.mem_of_mem_head? hx
      obtain ⟨gx, gx1, gx2, gx3⟩ := ht.pieces h hxl
      have hxs := hhead x hx
      rw [hw x hxl]
      congr 1
      rw [decide_eq_decide]
      constructor
      · rintro ⟨a, b⟩
        refine ⟨fun v hv hkv => ?_, fun _ => ?_, fun hks => ?_⟩
        · have hv := ((mem_canon h).mp hv)
          have hvt := hv.mono
          obtain ⟨p, q⟩ := hFL v x.start hvt gx.s hkv
          rw [hin v hvt, ← hxs]
          rw [← b] at q
          refine ⟨?_, by omega⟩
          rcases p with p | p
          · rw [← a] at p; exact p
          · exact absurd (by rw [p]; exact (hZ _ gx.s).1) (hv1 v hv)
        · rw [← hxs, a]; exact hv1 _ (hF _ gx.s).1
        · rcases hsz x hxl a hxs with hh | hh
          · exact absurd hks.symm hh
          · exact absurd b hh
      · rintro ⟨a, b, c⟩
        have hFv := hF _ gx.s
        have hLv := hL _ gx.s
        have i1 := (hin _ hFv.1.mono).mp (a _ ((mem_canon h).mpr hFv.1) hFv.2)
        have i2 := (hin _ hLv.1.mono).mp (a _ ((mem_canon h).mpr hLv.1) hLv.2)
        have j2 := ht.holds h hk h1 h2 hxl hLv.1.mono hLv.2 i2.1 i2.2
        obtain ⟨p, _⟩ := hFL x.start x.start gx.s gx.s rfl
        obtain ⟨_, q⟩ := hFL x.stop x.start gx.t gx.s (h1 x hxl).symm
        refine ⟨?_, (ix_inj h gx.t hLv.1.mono).mp (by omega)⟩
        rcases p with p | p
        · apply (ix_inj h gx.s hFv.1.mono).mp
          rw [← hxs] at i1
          omega
        · exact absurd (by rw [← hxs, p]; exact (hZ _ gx.s).1) (b (by rw [hxs]))
    · intro hlen x hx
      have hxl : x ∈ l := List.mem_of_getLast? hx
      obtain ⟨gx, gx1, gx2, gx3⟩ := ht.pieces h hxl
      have hxt := hlast x hx
      -- the last piece is not the first one
      have hks : key r.start ≠ key x.start := by
        obtain ⟨y, hy, _⟩ := ht.head
        have hys := hhead y hy
        intro hh
        have hyl : y ∈ l := List.mem_of_mem_head? hy
        rw [← hys] at hh
        obtain ⟨y', l', rfl⟩ : ∃ y' l', l = y' :: l' := by
          cases l with
          | nil => cases hy
          | cons a b => exact ⟨a, b, rfl⟩
        cases hy
        have hl' : l' ≠ [] := by rintro rfl; simp at hlen
        have hxl' : x ∈ l' := by
          rw [List.getLast?_cons_of_ne_nil hl'] at hx
          exact List.mem_of_getLast? hx
        rw [List.map_cons, List.nodup_cons] at hnd
        exact hnd.1 (List.mem_map.mpr ⟨x, hxl', hh.symm⟩)
      have hkt : key r.stop = key x.start := by rw [← hxt, h1 x hxl]
      rw [hw x hxl]
      congr 1
      rw [decide_eq_decide]
      constructor
      · rintro ⟨a, b⟩
        refine ⟨fun v hv hkv => ?_, fun hh => absurd hh hks, fun _ hzc => ?_⟩
        · have hv := ((mem_canon h).mp hv)
          have hvt := hv.mono
          obtain ⟨p, q⟩ := hFL v x.start hvt gx.s hkv
          rw [hin v hvt, ← hxt]
          rw [← b] at q
          refine ⟨?_, q⟩
          rcases p with p | p
          · rw [← a] at p; omega
          · exact absurd (by rw [p]; exact (hZ _ gx.s).1) (hv1 v hv)
        · obtain ⟨z1, z2⟩ := (hZ _ gx.s).2 ((mem_canon h).mp hzc)
          have hzv := (mem_canon h).mp hzc
          rw [← a] at z2
          by_cases hlt : ix d true r.start ≤ ix d true (Z (key x.start))
          · have := (ht.holds h hk h1 h2 hxl hzv z1 hlt (by omega)).1
            omega
          · exact hks (by rw [← z1]; exact hk hzv hr.s gx.s (by omega) (by omega) z1)
      · rintro ⟨a, b, c⟩
        have hFv := hF _ gx.s
        have hLv := hL _ gx.s
        have i1 := (hin _ hFv.1.mono).mp (a _ ((mem_canon h).mpr hFv.1) hFv.2)
        have i2 := (hin _ hLv.1.mono).mp (a _ ((mem_canon h).mpr hLv.1) hLv.2)
        have j1 := ht.holds h hk h1 h2 hxl hFv.1.mono hFv.2 i1.1 i1.2
        have j2 := ht.holds h hk h1 h2 hxl hLv.1.mono hLv.2 i2.1 i2.2
        obtain ⟨p, _⟩ := hFL x.start x.start gx.s gx.s rfl
        obtain ⟨_, q⟩ := hFL x.stop x.start gx.t gx.s (h1 x hxl).symm
        refine ⟨?_, (ix_inj h gx.t hLv.1.mono).mp (by omega)⟩
        rcases p with p | p
        · exact (ix_inj h gx.s hFv.1.mono).mp (by omega)
        · exact absurd ((mem_canon h).mpr (p ▸ gx.s)) (c hkt)
    · intro pre x post hl hp hq
      have hxl : x ∈ l := by rw [hl]; simp
      have hwx := ht.middle h hk h1 h2 hl hp hq
      obtain ⟨gx, gx1, gx2, gx3⟩ := ht.pieces h hxl
      rw [decide_eq_true_iff]
      have hne : ∀ y, y ∈ pre ∨ y ∈ post → key y.start ≠ key x.start := by
        intro y hy hkey
        rw [hl, List.map_append, List.map_cons, List.nodup_append, List.nodup_cons] at hnd
        rcases hy with hy | hy
        · exact hnd.2.2 _ (List.mem_map.mpr ⟨y, hy, rfl⟩) _ (List.mem_cons_self) hkey
        · exact hnd.2.1.1 (List.mem_map.mpr ⟨y, hy, hkey⟩)
      refine ⟨fun v hv hkv => ?_, fun hh => ?_, fun hh => ?_⟩
      · have hv := ((mem_canon h).mp hv).mono
        have := hwx v hv hkv
        rw [hin v hv]; omega
      · exfalso
        obtain ⟨y, pre', rfl⟩ : ∃ y pre', pre = y :: pre' := by
          cases pre with
          | nil => exact absurd rfl hp
          | cons a b => exact ⟨a, b, rfl⟩
        have := hhead y (by rw [hl]; rfl)
        exact hne y (.inl (by simp)) (by rw [this, hh])
      · exfalso
        have hg : l.getLast? = some (post.getLast hq) := by
          rw [hl, List.getLast?_append, List.getLast?_cons_of_ne_nil hq, List.getLast?_eq_some_getLast hq]; rfl
        have := hlast _ hg
        have hm : post.getLast hq ∈ l := List.mem_of_getLast? hg
        exact hne _ (.inr (List.getLast_mem hq)) (by rw [h1 _ hm, this, hh])
  · rw [List.mem_map]
    constructor
    · rintro ⟨x, hx, rfl⟩
      obtain ⟨hx, hc⟩ := List.mem_filter.mp hx
      obtain ⟨gx, _⟩ := ht.pieces h hx
      exact ⟨⟨F x.start, (mem_canon h).mpr (hF _ gx.s).1, (hF _ gx.s).2⟩, decide_eq_true_iff.mp hc⟩
    · rintro ⟨⟨v, hv, rfl⟩, hc⟩
      have hv' := ((mem_canon h).mp hv).mono
      obtain ⟨a, b⟩ := (hin v hv').mp (hc.1 v hv rfl)
      obtain ⟨x, hx, p, q⟩ := ht.find h a b
      obtain ⟨gx, _⟩ := ht.pieces h hx
      have hkx := hk gx.s hv' gx.t p q (h1 x hx)
      refine ⟨x, List.mem_filter.mpr ⟨hx, ?_⟩, hkx.symm⟩
      rw [decide_eq_true_iff, ← hkx]; exact hc

end

theorem isWholeChap_odd {e : Env} (h : e.data.WF) (hg : e.flags.verse0 = false) {x : BibleRange} (hx : ROK e.data true x)
    (hkx : ((x.start.book, x.start.chap) : BibleBook × Int) = (x.stop.book, x.stop.chap)) :
    x.isWholeChap e none = .ok (decide (x.start = ⟨x.start.book, x.start.chap, 1⟩ ∧ x.stop = enChap e.data x.start)) := by
  obtain ⟨hb, hc⟩ := Prod.mk.injEq .. ▸ hkx
  have hlast := lastVerse_eq h x.start.book x.start.chap
  rw [if_pos ⟨hx.s.1, hx.s.2.1⟩] at hlast
  unfold BibleRange.isWholeChap
  rw [if_neg (by simpa using hb), firstVerse_global h hx.s.1 hx.s.2.1, ← hb, hlast]
  have hf : firstNum e.data e.flags.verse0 x.start.book x.start.chap = 1 := by rw [hg]; simp [firstNum]
  rw [hf]
  simp only [bind, Except.bind, pure, Except.pure]
  split
  · rename_i hne; congr 1; symm; rw [decide_eq_false_iff_not]; exact fun hh => hne hh.1
  · rename_i heq
    congr 1
    have heq := Classical.not_not.mp heq
    apply Bool.eq_iff_iff.mpr
    rw [decide_eq_true_iff, decide_eq_true_iff]
    exact ⟨fun hh => ⟨heq, hh⟩, fun hh => hh.2⟩

theorem isWholeBook_odd {e : Env} (h : e.data.WF) (hg : e.flags.verse0 = false) {x : BibleRange}
    (hb : x.start.book = x.stop.book) :
    x.isWholeBook e none = .ok (decide (x.start = ⟨x.start.book, 1, 1⟩ ∧ x.stop = enBook e.data x.start)) := by
  have hp := h.nChaps_pos x.start.book
  unfold BibleRange.isWholeBook
  rw [if_neg (by simpa using hb), firstVerse_none h, firstVerse_global h (by omega) (by omega), ← hb, lastVerse_none h]
  have hf : firstNum e.data e.flags.verse0 x.start.book 1 = 1 := by rw [hg]; simp [firstNum]
  rw [hf]
  simp only [bind, Except.bind, pure, Except.pure]
  split
  · rename_i hne; congr 1; symm; rw [decide_eq_false_iff_not]; exact fun hh => hne hh.1
  · rename_i heq
    congr 1
    have heq := Classical.not_not.mp heq
    apply Bool.eq_iff_iff.mpr
    rw [decide_eq_true_iff, decide_eq_true_iff]
    exact ⟨fun hh => ⟨heq, hh⟩, fun hh => hh.2⟩

theorem valid_one {d : BibleData} (h : d.WF) {b : BibleBook} {c : Int} (hb : b ∈ d.bookOrder) (h1 : 1 ≤ c)
    (h2 : c ≤ nChaps d b) : Valid d false ⟨b, c, 1⟩ := by
  have := firstNum_valid h (v0 := false) hb h1 h2
  simpa [firstNum] using this

theorem chapCount_verse0 {e : Env} (h : e.data.WF) (hg : e.flags.verse0 = false) {r : BibleRange} (hr : ROK e.data true r)
    (hz : r.start.verse = 0 ∨ r.stop.verse = 0) :
    ∃ n : Nat, r.chapCount e true = .ok n ∧
      HasCard (fun k : BibleBook × Int => (∃ v ∈ canon e.data false, (v.book, v.chap) = k) ∧
        (∀ v ∈ canon e.data false, (v.book, v.chap) = k → InRange e.data r v) ∧
        ((r.start.book, r.start.chap) = k → r.start.verse ≠ 0) ∧
        ((r.stop.book, r.stop.chap) = k → (⟨k.1, k.2, 0⟩ : BibleVerse) ∉ canon e.data true)) n := by
  have hv0 : true = (e.flags.verse0 || r.start.verse == 0 || r.stop.verse == 0) := by
    rcases hz with hz | hz <;> simp [hz]
  obtain ⟨l, h1, h2, h3, h4⟩ := split_chap h hr hv0
  simp only [BibleRange.chapCount, h1, bind, Except.bind]
  refine h2.count_verse0 h (convex_chap h true) hr hz h3 h4 (fun v => ⟨v.book, v.chap, 1⟩) (enChap e.data) (fun k => ⟨k.1, k.2, 0⟩)
    ?_ ?_ ?_ ?_ _ (fun x hx => ?_)
  · exact fun v hv => ⟨valid_one h hv.listed hv.1 hv.2.1, rfl⟩
  · exact fun v hv => ⟨lastNum_valid h hv.listed hv.1 hv.2.1, rfl⟩
  · intro u v hu hv hk
    obtain ⟨hb, hc⟩ := Prod.mk.injEq .. ▸ hk
    refine ⟨?_, (le_ix h hu (lastNum_valid h hv.listed hv.1 hv.2.1)).mp (le_enChap h hu hb hc)⟩
    by_cases hz : u.verse = 0
    · right
      obtain ⟨b, c, n⟩ := u
      simp only at hz hb hc
      simp [hz, hb, hc]
    · left
      rw [← le_ix h (valid_one h hv.listed hv.1 hv.2.1).mono hu, h.le_iff]
      have := hu.2.2.1
      have : 0 ≤ firstNum e.data true u.book u.chap := by unfold firstNum; split <;> omega
      exact .inr ⟨hb.symm, .inr ⟨hc.symm, by simp only; omega⟩⟩
  · intro v hv
    refine ⟨rfl, fun hz => ⟨rfl, ?_⟩⟩
    rw [← lt_ix h hz (valid_one h hv.listed hv.1 hv.2.1).mono, h.lt_iff]
    simp
  · rw [isWholeChap_odd h hg (h2.pieces h hx).1 (h3 x hx)]

theorem bookCount_verse0 {e : Env} (h : e.data.WF) (hg : e.flags.verse0 = false) {r : BibleRange} (hr : ROK e.data true r)
    (hz : r.start.verse = 0 ∨ r.stop.verse = 0) :
    ∃ n : Nat, r.bookCount e true = .ok n ∧
      HasCard (fun k : BibleBook => (∃ v ∈ canon e.data false, v.book = k) ∧
        (∀ v ∈ canon e.data false, v.book = k → InRange e.data r v) ∧
        (r.start.book = k → r.start.verse ≠ 0) ∧
        (r.stop.book = k → (⟨k, 1, 0⟩ : BibleVerse) ∉ canon e.data true)) n := by
  have hv0 : true = (e.flags.verse0 || r.start.verse == 0 || r.stop.verse == 0) := by
    rcases hz with hz | hz <;> simp [hz]
  obtain ⟨l, h1, h2, h3, h4⟩ := split_book h hr hv0
  simp only [BibleRange.bookCount, h1, bind, Except.bind]
  have hone : ∀ b ∈ e.data.bookOrder, Valid e.data false ⟨b, 1, 1⟩ := fun b hb => by
    have := h.nChaps_pos b
    exact valid_one h hb (by omega) (by omega)
  refine h2.count_verse0 h (convex_book h true) hr hz h3 h4 (fun v => ⟨v.book, 1, 1⟩) (enBook e.data) (fun k => ⟨k, 1, 0⟩)
    ?_ ?_ ?_ ?_ _ (fun x hx => ?_)
  · exact fun v hv => ⟨hone _ hv.listed, rfl⟩
  · exact fun v hv => ⟨enBook_valid h _ hv.listed, rfl⟩
  · intro u v hu hv hb
    refine ⟨?_, (le_ix h hu (enBook_valid h _ hv.listed)).mp (le_enBook h hu hb)⟩
    have := hu.2.2.1
    have : 0 ≤ firstNum e.data true u.book u.chap := by unfold firstNum; split <;> omega
    by_cases hz : u.chap = 1 ∧ u.verse = 0
    · right
      obtain ⟨b, c, n⟩ := u
      simp only at hz hb
      simp [hz.1, hz.2, hb]
    · left
      rw [← le_ix h (hone _ hv.listed).mono hu, h.le_iff]
      have := hu.1
      by_cases hc : u.chap = 1
      · exact .inr ⟨hb.symm, .inr ⟨hc.symm, by simp only; omega⟩⟩
      · exact .inr ⟨hb.symm, .inl (by simp only; omega)⟩
  · intro v hv
    refine ⟨rfl, fun hz => ⟨rfl, ?_⟩⟩
    rw [← lt_ix h hz (hone _ hv.listed).mono, h.lt_iff]
    simp
  · rw [isWholeBook_odd h hg (h3 x hx)]

end Bibleref
