import Verif.Props.StepLaws

/-!
# Chapters and books follow one another without gaps (C88)
-/

namespace Bibleref

open Spec

section
variable {d : BibleData} (h : d.WF)
include h

theorem ix_next {v0 : Bool} {v t : BibleVerse} (hv : Valid d v0 v) (ht : Valid d v0 t) (hlt : v.lt d t = true)
    (hmin : ∀ u, Valid d v0 u → v.lt d u = true → t.le d u = true) : ix d v0 t = ix d v0 v + 1 := by
  rw [lt_ix h hv ht] at hlt
  have hg := ix_get h ht
  obtain ⟨u, hu⟩ : ∃ u, (canon d v0)[ix d v0 v + 1]? = some u :=
    ⟨_, List.getElem?_eq_getElem (Nat.lt_of_le_of_lt hlt (List.getElem?_eq_some_iff.mp hg).1)⟩
  have huv := valid_of_get h hu
  have hui := ix_of_get h hu
  have := hmin u huv ((lt_ix h hv huv).mpr (by omega))
  rw [le_ix h ht huv] at this
  omega

theorem last_valid {v0 : Bool} {b : BibleBook} {c : Int} (hb : b ∈ d.bookOrder) (h1 : 1 ≤ c) (h2 : c ≤ nChaps d b) :
    Valid d v0 ⟨b, c, lastNum d b c⟩ := by
  have := h.lastNum_pos h1 h2
  have := firstNum_le_one d v0 b c
  exact ⟨h1, h2, by simp only; omega, by simp only; omega, hb⟩

end

/-- The step from the last verse of a chapter to the first verse of what follows, and back. -/
theorem step_joint {e : Env} (h : e.data.WF) (flags : Option BibleFlag) {b b' : BibleBook} {c c' : Int} (hb : b ∈ e.data.bookOrder)
    (hb' : b' ∈ e.data.bookOrder) (h1 : 1 ≤ c) (h2 : c ≤ nChaps e.data b) (h1' : 1 ≤ c') (h2' : c' ≤ nChaps e.data b')
    (hm : (e.eff flags).multibook = true ∨ b' = b)
    (hlt : bidx e.data b < bidx e.data b' ∨ (b = b' ∧ c < c'))
    (hmin : ∀ u, Valid e.data true u → bidx e.data b < bidx e.data u.book ∨ (b = u.book ∧ c < u.chap) →
      bidx e.data b' < bidx e.data u.book ∨ (b' = u.book ∧ c' ≤ u.chap)) :
    (⟨b, c, lastNum e.data b c⟩ : BibleVerse).add e 1 flags = .ok (some ⟨b', c', firstNum e.data (e.eff flags).verse0 b' c'⟩) ∧
    (⟨b', c', firstNum e.data (e.eff flags).verse0 b' c'⟩ : BibleVerse).sub e 1 flags = .ok (some ⟨b, c, lastNum e.data b c⟩) := by
  have hl0 : ((⟨b, c, lastNum e.data b c⟩ : BibleVerse).verse == 0) = false :=
    beq_eq_false_iff_ne.mpr (by have := h.lastNum_pos h1 h2; simp only; omega)
  have hl := last_valid h (v0 := (e.eff flags).verse0) hb h1 h2
  have hf := firstNum_valid h (v0 := (e.eff flags).verse0) hb' h1' h2'
  have key : ∀ u, Valid e.data true u → (⟨b, c, lastNum e.data b c⟩ : BibleVerse).lt e.data u = true →
      bidx e.data b' < bidx e.data u.book ∨ (b' = u.book ∧ c' ≤ u.chap) := by
    intro u hu hlu
    refine hmin u hu ?_
    rw [h.lt_iff] at hlu
    rcases hlu with hlu | ⟨hlu, hlu' | ⟨hlu', hlv⟩⟩
    · exact .inl hlu
    · exact .inr ⟨hlu, hlu'⟩
    · simp only at hlu hlu' hlv
      have := hu.le_last
      rw [← hlu, ← hlu'] at this
      omega
  have hadd : (⟨b, c, lastNum e.data b c⟩ : BibleVerse).add e (1 : Nat) flags =
      .ok (some ⟨b', c', firstNum e.data (e.eff flags).verse0 b' c'⟩) := by
    rw [add_ix h (by rw [hl0, Bool.or_false]; exact hl), hl0, Bool.or_false]
    refine ⟨hf, ix_next h hl hf ?_ fun u hu hlu => ?_, hm⟩
    · rw [h.lt_iff]
      exact hlt.imp id fun hh => ⟨hh.1, .inl hh.2⟩
    · rw [h.le_iff]
      rcases key u hu.mono hlu with hh | ⟨hh, hh'⟩
      · exact .inl hh
      · right
        refine ⟨hh, ?_⟩
        by_cases hc : c' = u.chap
        · right
          have := hu.2.2.1
          rw [← hh, ← hc] at this
          exact ⟨hc, this⟩
        · exact .inl (by simp only; omega)
  refine ⟨hadd, ?_⟩
  refine (C06_subtract_undoes_add e h flags _ _ 1 ((mem_canon h).mpr hl.mono) hadd).mpr ⟨?_, fun q => ?_⟩
  · intro u hu hu0 hle hlu
    have hu := (mem_canon h).mp hu
    rw [lessEq_listed hl hu, h.le_iff_lt_or_eq] at hle
    rw [less_listed hu hf, h.lt_iff] at hlu
    have hlu' := hle.resolve_right (by
      rintro rfl
      rw [hu0] at hl0
      simp at hl0)
    have hk := key u hu hlu'
    have hch : u.book = b' ∧ u.chap = c' := by
      simp only at hlu
      rcases hlu with q | ⟨q, q' | ⟨q', _⟩⟩
      · rcases hk with k | ⟨k, _⟩
        · omega
        · rw [k] at q; omega
      · rcases hk with k | ⟨_, k⟩
        · rw [q] at k; omega
        · omega
      · exact ⟨q, q'⟩
    rw [if_pos hch, hl0, Bool.or_false, ← eff_eq]
    cases hq : (e.eff flags).verse0 with
    | true => rfl
    | false => simp
  · simp only at q
    rw [q] at hl0
    simp at hl0

/-- C88, chapters: the verse after the last verse of a chapter is the first verse of the next chapter, and the other way round. -/
theorem C88_chapters (e : Env) (h : e.data.WF) (flags : Option BibleFlag) (b : BibleBook) (hb : b ∈ e.data.bookOrder) (c : Int)
    (hc : c ∈ chapters e.data b) (l f : BibleVerse) (hl : b.lastVerse e (some c) = .ok l) (hf : b.firstVerse e (some (c + 1)) flags = .ok f) :
    l.add e 1 flags = .ok (some f) ∧ f.sub e 1 flags = .ok (some l) := by
  rw [mem_chapters] at hc
  rw [lastVerse_eq h, if_pos hc] at hl
  rw [firstVerse_eq h] at hf
  split at hf
  · rename_i hc'
    cases hl
    cases hf
    refine step_joint h flags hb hb hc.1 hc.2 hc'.1 hc'.2.1 (.inr rfl) (.inr ⟨rfl, by omega⟩) fun u _ hu => ?_
    exact hu.imp id fun q => ⟨q.1, by omega⟩
  · cases hf

/-- A verse with none after it in its list has no next one. -/
theorem add_end {e : Env} (h : e.data.WF) (flags : Option BibleFlag) {v : BibleVerse} (hv : Valid e.data true v)
    (hmax : ∀ u, ((e.eff flags).multibook = true ∨ u.book = v.book) → Valid e.data true u → v.lt e.data u = true → False) :
    v.add e 1 flags = .ok none := by
  obtain ⟨i, hi⟩ := List.mem_iff_getElem?.mp ((mem_walk_iff h (mb := (e.eff flags).multibook)
    (v0 := (e.eff flags).verse0 || v.verse == 0) hv.listed).mpr ⟨.inr rfl, hv.honour⟩)
  have hadd : v.add e (1 : Nat) flags = _ := add_walk h hi 1
  refine hadd.trans (congrArg _ ?_)
  cases hu : (walk e.data (e.eff flags).multibook ((e.eff flags).verse0 || v.verse == 0) v.book)[i + 1]? with
  | none => rfl
  | some u =>
    have hm := (mem_walk_iff h hv.listed).mp (List.mem_of_getElem? hu)
    obtain ⟨a, ha⟩ := List.getElem?_eq_some_iff.mp hi
    obtain ⟨b, hb⟩ := List.getElem?_eq_some_iff.mp hu
    have := List.pairwise_iff_getElem.mp (pairwise_walk h (e.eff flags).multibook ((e.eff flags).verse0 || v.verse == 0) v.book) i (i + 1)
      a b (by omega)
    rw [ha, hb] at this
    exact (hmax u hm.1 hm.2.mono this).elim

/-- A verse with none before it in its list has no previous one. -/
theorem sub_end {e : Env} (h : e.data.WF) (flags : Option BibleFlag) {v : BibleVerse} (hv : Valid e.data true v)
    (hmin : ∀ u, ((e.eff flags).multibook = true ∨ u.book = v.book) → Valid e.data ((e.eff flags).verse0 || v.verse == 0) u →
      u.lt e.data v = true → False) :
    v.sub e 1 flags = .ok none := by
  obtain ⟨i, hi⟩ := List.mem_iff_getElem?.mp ((mem_walk_iff h (mb := (e.eff flags).multibook)
    (v0 := (e.eff flags).verse0 || v.verse == 0) hv.listed).mpr ⟨.inr rfl, hv.honour⟩)
  rw [sub_one_walk h hi]
  split
  · cases hu : (walk e.data (e.eff flags).multibook ((e.eff flags).verse0 || v.verse == 0) v.book)[i - 1]? with
    | none => rfl
    | some u =>
      have hm := (mem_walk_iff h hv.listed).mp (List.mem_of_getElem? hu)
      obtain ⟨a, ha⟩ := List.getElem?_eq_some_iff.mp hi
      obtain ⟨b, hb⟩ := List.getElem?_eq_some_iff.mp hu
      have := List.pairwise_iff_getElem.mp (pairwise_walk h (e.eff flags).multibook ((e.eff flags).verse0 || v.verse == 0) v.book)
        (i - 1) i b a (by omega)
      rw [ha, hb] at this
      exact (hmin u hm.1 hm.2 this).elim
  · rfl

theorem add_last_end {e : Env} (h : e.data.WF) (flags : Option BibleFlag) {b : BibleBook} (hb : b ∈ e.data.bookOrder)
    (hend : (e.eff flags).multibook = true → ∀ b' ∈ e.data.bookOrder, bidx e.data b' ≤ bidx e.data b) :
    (⟨b, nChaps e.data b, lastNum e.data b (nChaps e.data b)⟩ : BibleVerse).add e 1 flags = .ok none := by
  have hp := h.nChaps_pos b
  refine add_end h flags (last_valid h hb (by omega) (by omega)) fun u hu huv hlt => ?_
  have hbk : u.book = b := by
    rcases hu with q | q
    · have := hend q _ huv.listed
      rw [h.lt_iff] at hlt
      rcases hlt with r | r
      · simp only at r; omega
      · exact r.1.symm
    · exact q
  rw [h.lt_iff] at hlt
  have k1 := huv.2.1
  have k2 := huv.le_last
  rw [hbk] at hlt k1 k2
  simp only at hlt
  rcases hlt with r | ⟨_, r | ⟨r, r'⟩⟩
  · omega
  · omega
  · rw [← r] at k2; omega

theorem sub_first_end {e : Env} (h : e.data.WF) (flags : Option BibleFlag) {b : BibleBook} (hb : b ∈ e.data.bookOrder)
    (hend : (e.eff flags).multibook = true → ∀ b' ∈ e.data.bookOrder, bidx e.data b ≤ bidx e.data b') :
    (⟨b, 1, firstNum e.data (e.eff flags).verse0 b 1⟩ : BibleVerse).sub e 1 flags = .ok none := by
  have hp := h.nChaps_pos b
  have hf := firstNum_valid h (v0 := (e.eff flags).verse0) hb (c := 1) (by omega) (by omega)
  have hv0 : ((e.eff flags).verse0 || (⟨b, 1, firstNum e.data (e.eff flags).verse0 b 1⟩ : BibleVerse).verse == 0) = (e.eff flags).verse0 := by
    cases hq : (e.eff flags).verse0 with
    | true => rfl
    | false => simp [firstNum]
  refine sub_end h flags hf.mono fun u hu huv hlt => ?_
  rw [hv0] at huv
  have hbk : u.book = b := by
    rcases hu with q | q
    · have := hend q _ huv.listed
      rw [h.lt_iff] at hlt
      rcases hlt with r | r
      · simp only at r; omega
      · exact r.1
    · exact q
  rw [h.lt_iff] at hlt
  have k1 := huv.1
  have k2 := huv.2.2.1
  rw [hbk] at hlt k2
  simp only at hlt
  rcases hlt with r | ⟨_, r | ⟨r, r'⟩⟩
  · omega
  · omega
  · rw [r] at k2; omega

theorem firstVerse_ok {e : Env} (h : e.data.WF) {b : BibleBook} {flags : Option BibleFlag} {f : BibleVerse}
    (hf : b.firstVerse e none flags = .ok f) : f = ⟨b, 1, firstNum e.data (e.eff flags).verse0 b 1⟩ := by
  rw [firstVerse_none h, firstVerse_eq h] at hf
  split at hf
  · cases hf; rfl
  · cases hf

/-- C88, books: with `MULTIBOOK` the verse after the last verse of a book is the first verse of the next book, and the other way round;
without it there is none. -/
theorem C88_books (e : Env) (h : e.data.WF) (flags : Option BibleFlag) (b b' : BibleBook) (hb : b.next e.data = some b') (l f : BibleVerse)
    (hl : b.lastVerse e none = .ok l) (hf : b'.firstVerse e none flags = .ok f) :
    l.add e 1 flags = .ok (if (inForce e flags).multibook then some f else none) ∧
    f.sub e 1 flags = .ok (if (inForce e flags).multibook then some l else none) := by
  have hm' := BibleData.WF.next_mem hb
  have hm : b ∈ e.data.bookOrder := by
    by_cases q : b ∈ e.data.bookOrder
    · exact q
    · rw [(C10_not_listed _ b q).1] at hb; cases hb
  rw [(C10_next_prev _ h _ b (h.bidx_get hm)).1] at hb
  have hi := h.bidx_of_get hb
  rw [lastVerse_none h] at hl
  cases hl
  rw [firstVerse_ok h hf, ← eff_eq]
  have hp := h.nChaps_pos b
  have hp' := h.nChaps_pos b'
  cases hq : (e.eff flags).multibook with
  | true =>
    refine step_joint h flags hm hm' (by omega) (by omega) (by omega) (by omega) (.inl hq) (.inl (by omega)) fun u hu hlt => ?_
    rcases hlt with r | ⟨r, r'⟩
    · by_cases s : bidx e.data b' = bidx e.data u.book
      · exact .inr ⟨h.bidx_inj.mp s, hu.1⟩
      · exact .inl (by omega)
    · have := hu.2.1
      rw [← r] at this
      omega
  | false =>
    exact ⟨add_last_end h flags hm (by simp [hq]), sub_first_end h flags hm' (by simp [hq])⟩

/-- C88, the ends: there is no verse after the last verse of the last book and none before the first verse of the first book. -/
theorem C88_ends (e : Env) (h : e.data.WF) (flags : Option BibleFlag) (b : BibleBook) (hb : b ∈ e.data.bookOrder) :
    (∀ l, b.next e.data = none → b.lastVerse e none = .ok l → l.add e 1 flags = .ok none) ∧
    (∀ f, b.prev e.data = none → b.firstVerse e none flags = .ok f → f.sub e 1 flags = .ok none) := by
  have hnp := C10_next_prev _ h _ b (h.bidx_get hb)
  constructor
  · intro l hn hl
    rw [lastVerse_none h] at hl
    cases hl
    rw [hnp.1, List.getElem?_eq_none_iff] at hn
    refine add_last_end h flags hb fun _ b' hb' => ?_
    have := h.bidx_lt hb'
    omega
  · intro f hn hf
    rw [firstVerse_ok h hf]
    refine sub_first_end h flags hb fun _ b' _ => ?_
    rw [hnp.2] at hn
    split at hn
    · omega
    · have := h.bidx_lt hb
      rw [List.getElem?_eq_none_iff] at hn
      omega

/-- The hypotheses are met: in the default Bible, Psalm 3 follows Psalm 2, and its verse 0 comes first if it is allowed. -/
example : (2 : Int) ∈ chapters dflt.data .Psa ∧ BibleBook.lastVerse dflt .Psa (some 2) = .ok ⟨.Psa, 2, 12⟩ ∧
    BibleBook.firstVerse dflt .Psa (some (2 + 1)) none = .ok ⟨.Psa, 3, 1⟩ := by decide +kernel

example : BibleBook.next dflt.data .Mal = some .Matt ∧ BibleBook.lastVerse dflt .Mal none = .ok ⟨.Mal, 4, 6⟩ ∧
    BibleBook.firstVerse dflt .Matt none none = .ok ⟨.Matt, 1, 1⟩ ∧ BibleBook.next dflt.data .Rev = none ∧
    BibleBook.prev dflt.data .Gen = none := by decide +kernel

end Bibleref
