import Verif.Lemmas.AddSub

/-! More lemmas about verses: flags in force, negative distances, first and last verses, book order. -/

namespace Bibleref
open Spec

theorem eff_eq (e : Env) (flags : Option BibleFlag) : e.eff flags = inForce e flags := by
  rcases flags with _ | ⟨_ | _, _ | _⟩ <;> rfl

theorem BibleVerse.new_cases {e : Env} (h : e.data.WF) {b : BibleBook} (hb : b ∈ e.data.bookOrder) (c n : Int)
    (f : Option BibleFlag) :
    (BibleVerse.new e b c n f = .ok ⟨b, c, n⟩ ∧ Valid e.data (e.eff f).verse0 ⟨b, c, n⟩) ∨
      (BibleVerse.new e b c n f = .error .invalidReference ∧ ¬ Valid e.data (e.eff f).verse0 ⟨b, c, n⟩) := by
  rw [BibleVerse.new_eq h hb]
  by_cases hv : Valid e.data (e.eff f).verse0 ⟨b, c, n⟩
  · exact .inl ⟨if_pos hv, hv⟩
  · exact .inr ⟨if_neg hv, hv⟩

theorem Exists.honour {d : BibleData} {v : BibleVerse} {v0 : Bool} (hv : Exists d true v) :
    Exists d (v0 || v.verse == 0) v := by
  by_cases h0 : v.verse = 0
  · simpa [h0] using hv
  · exact hv.of_ne_zero h0

/-- A verse that exists with verse 0s allowed exists under the flags extended by its own verse 0. -/
theorem Valid.honour {d : BibleData} {v : BibleVerse} {v0 : Bool} (hv : Valid d true v) :
    Valid d (v0 || v.verse == 0) v := by
  by_cases h0 : v.verse = 0
  · simpa [h0] using hv
  · exact hv.of_ne_zero h0

theorem add_nonpos {e : Env} (h : e.data.WF) {v : BibleVerse} (flags : Option BibleFlag) {n : Int}
    (hv : Valid e.data true v) (hn : v.verse + n ≤ lastNum e.data v.book v.chap) :
    v.add e n flags =
      if firstNum e.data ((e.eff flags).verse0 || v.verse == 0) v.book v.chap ≤ v.verse + n
      then .ok (some ⟨v.book, v.chap, v.verse + n⟩) else .error .invalidReference := by
  have hf := v.eff_honour e flags
  have hv0 := v.honour_verse0 (e.eff flags)
  unfold BibleVerse.add
  simp only [h.maxVerseNum]
  rw [if_pos ⟨hv.1, hv.2.1⟩]
  simp only [bind, Except.bind]
  rw [BibleVerse.addLoop, if_neg (by omega), BibleVerse.new_eq h hv.listed, hf, hv0]
  by_cases h1 : firstNum e.data ((e.eff flags).verse0 || v.verse == 0) v.book v.chap ≤ v.verse + n
  · rw [if_pos h1, if_pos (show Valid e.data _ ⟨v.book, v.chap, v.verse + n⟩ from ⟨hv.1, hv.2.1, h1, hn, hv.listed⟩)]; rfl
  · rw [if_neg h1, if_neg (show ¬ Valid _ _ _ from fun hh => h1 hh.2.2.1)]; rfl

theorem sub_nonpos {e : Env} (h : e.data.WF) {v : BibleVerse} (flags : Option BibleFlag) {n : Int}
    (hv : Valid e.data true v)
    (hn : firstNum e.data ((e.eff flags).verse0 || v.verse == 0) v.book v.chap ≤ v.verse - n) :
    v.sub e n flags =
      if v.verse - n ≤ lastNum e.data v.book v.chap
      then .ok (some ⟨v.book, v.chap, v.verse - n⟩) else .error .invalidReference := by
  have hf := v.eff_honour e flags
  have hv0 := v.honour_verse0 (e.eff flags)
  unfold BibleVerse.sub
  simp only [h.minVerseNum]
  rw [if_pos ⟨hv.1, hv.2.1⟩, hf, hv0]
  simp only [bind, Except.bind]
  rw [BibleVerse.subLoop, if_neg (by omega), BibleVerse.new_eq h hv.listed, hf, hv0]
  by_cases h1 : v.verse - n ≤ lastNum e.data v.book v.chap
  · rw [if_pos h1, if_pos (show Valid e.data _ ⟨v.book, v.chap, v.verse - n⟩ from ⟨hv.1, hv.2.1, hn, h1, hv.listed⟩)]; rfl
  · rw [if_neg h1, if_neg (show ¬ Valid _ _ _ from fun hh => h1 hh.le_last)]; rfl

/-- The outcomes `subtract` is allowed to have. -/
def OkOutcome (d : BibleData) (v0 : Bool) (r : Except PyErr (Option BibleVerse)) : Prop :=
  r = .ok none ∨ (∃ w, r = .ok (some w) ∧ Valid d v0 w) ∨ r = .error .invalidReference

theorem new_outcome {e : Env} (h : e.data.WF) {b : BibleBook} (hb : b ∈ e.data.bookOrder) (c n : Int)
    (f : Option BibleFlag) :
    OkOutcome e.data (e.eff f).verse0 (do let v ← BibleVerse.new e b c n f; return some v) := by
  rcases BibleVerse.new_cases h hb c n f with ⟨h1, h2⟩ | ⟨h1, h2⟩
  · right; left; refine ⟨⟨b, c, n⟩, ?_, h2⟩; rw [h1]; rfl
  · right; right; rw [h1]; rfl

/-- Whatever the flags, the loop of `subtract` ends with one of the allowed outcomes. -/
theorem subLoop_outcome {e : Env} (h : e.data.WF) {f : BibleFlag} (hf : e.eff (some f) = f) (fuel : Nat) :
    ∀ (b : BibleBook) (c n mn : Int),
    b ∈ e.data.bookOrder → 1 ≤ c → c ≤ nChaps e.data b → (before e.data f.multibook (b, c)).length < fuel →
    OkOutcome e.data f.verse0 (BibleVerse.subLoop e f fuel b c n mn) := by
  induction fuel with
  | zero => intro b c n mn _ _ _ h3; omega
  | succ fuel ih =>
    intro b c n mn hb h1 h2 h3
    rw [BibleVerse.subLoop]
    rw [before_eq h (fun _ => hb)] at h3
    have hnew := new_outcome h hb c n (some f)
    rw [hf] at hnew
    by_cases hlt : n < mn
    · rw [if_pos hlt]
      simp only [h.minChapNum, h.maxChapNum, h.maxVerseNum, h.minVerseNum]
      by_cases hc : c - 1 < 1
      · rw [if_pos hc]; rw [if_pos hc] at h3
        by_cases hm : f.multibook = false
        · rw [if_pos hm]; left; rfl
        · rw [if_neg hm]; rw [if_neg hm] at h3
          cases hp : b.prev e.data with
          | none => left; rfl
          | some b' =>
            rw [hp] at h3
            have := h.nChaps_pos b'
            simp only [List.length_cons] at h3
            simp only
            rw [if_pos ⟨by omega, by omega⟩, if_pos ⟨by omega, by omega⟩]
            exact ih _ _ _ _ (BibleData.WF.prev_mem hp) (by omega) (by omega) (by omega)
      · rw [if_neg hc]; rw [if_neg hc] at h3
        simp only [List.length_cons] at h3
        rw [if_pos ⟨by omega, by omega⟩, if_pos ⟨by omega, by omega⟩]
        exact ih _ _ _ _ hb (by omega) (by omega) (by omega)
    · rw [if_neg hlt]; exact hnew

theorem sub_outcome {e : Env} (h : e.data.WF) {v : BibleVerse} (hv : Valid e.data true v) (n : Int)
    (flags : Option BibleFlag) :
    OkOutcome e.data ((e.eff flags).verse0 || v.verse == 0) (v.sub e n flags) := by
  have hf := v.eff_honour e flags
  have hv0 := v.honour_verse0 (e.eff flags)
  unfold BibleVerse.sub
  simp only [h.minVerseNum]
  rw [if_pos ⟨hv.1, hv.2.1⟩, ← hv0]
  exact subLoop_outcome h hf _ _ _ _ _ hv.listed hv.1 hv.2.1 (length_before_le h (fun _ => hv.listed) hv.1 hv.2.1)

theorem lastVerse_eq {e : Env} (h : e.data.WF) (b : BibleBook) (c : Int) :
    b.lastVerse e (some c) = if 1 ≤ c ∧ c ≤ nChaps e.data b then .ok ⟨b, c, lastNum e.data b c⟩
      else .error .invalidReference := by
  simp only [BibleBook.lastVerse, h.maxVerseNum, Option.getD_some]
  by_cases hc : 1 ≤ c ∧ c ≤ nChaps e.data b
  · rw [if_pos hc, if_pos hc]
    simp only [bind, Except.bind]
    have := h.lastNum_pos hc.1 hc.2
    have := firstNum_le_one e.data (e.eff none).verse0 b c
    rw [BibleVerse.new_exists h, if_pos (show Exists _ _ _ from ⟨hc.1, hc.2, by simp only; omega, by simp only; omega⟩)]
  · rw [if_neg hc, if_neg hc]; rfl

theorem lastVerse_none {e : Env} (h : e.data.WF) (b : BibleBook) :
    b.lastVerse e none = .ok ⟨b, nChaps e.data b, lastNum e.data b (nChaps e.data b)⟩ := by
  have := lastVerse_eq h b (nChaps e.data b)
  have hp := h.nChaps_pos b
  rw [if_pos ⟨by omega, by omega⟩] at this
  rw [← this]
  simp only [BibleBook.lastVerse, Option.getD_none, Option.getD_some, h.maxChapNum]

theorem firstVerse_eq {e : Env} (h : e.data.WF) (b : BibleBook) (c : Int) (flags : Option BibleFlag) :
    b.firstVerse e (some c) flags =
      if 1 ≤ c ∧ c ≤ nChaps e.data b ∧
        firstNum e.data e.flags.verse0 b c ≤ firstNum e.data (e.eff flags).verse0 b c
      then .ok ⟨b, c, firstNum e.data (e.eff flags).verse0 b c⟩ else .error .invalidReference := by
  simp only [BibleBook.firstVerse, h.minVerseNum, Option.getD_some]
  by_cases hc : 1 ≤ c ∧ c ≤ nChaps e.data b
  · rw [if_pos hc]
    simp only [bind, Except.bind]
    have := h.lastNum_pos hc.1 hc.2
    have := firstNum_le_one e.data (e.eff flags).verse0 b c
    rw [BibleVerse.new_exists h]
    by_cases h1 : firstNum e.data e.flags.verse0 b c ≤ firstNum e.data (e.eff flags).verse0 b c
    · rw [if_pos (show Exists _ _ _ from ⟨hc.1, hc.2, h1, by simp only; omega⟩), if_pos ⟨hc.1, hc.2, h1⟩]
    · rw [if_neg (show ¬ Exists _ _ _ from fun hh => h1 hh.2.2.1), if_neg (fun hh => h1 hh.2.2)]
  · rw [if_neg hc, if_neg (fun hh => hc ⟨hh.1, hh.2.1⟩)]; rfl

theorem firstVerse_none {e : Env} (h : e.data.WF) (b : BibleBook) (flags : Option BibleFlag) :
    b.firstVerse e none flags = b.firstVerse e (some 1) flags := by
  simp only [BibleBook.firstVerse, Option.getD_none, Option.getD_some, h.minChapNum]

/-- When does `first_verse` work: verse 0s allowed for the call are also allowed globally, or there is none. -/
theorem firstNum_le_iff (d : BibleData) (g f : Bool) (b : BibleBook) (c : Int) :
    firstNum d g b c ≤ firstNum d f b c ↔ ¬ (f = true ∧ g = false ∧ c ∈ d.verse0s b) := by
  unfold firstNum
  cases g <;> cases f <;> by_cases hc : c ∈ d.verse0s b <;> simp [hc]

/-- In-chapter neighbours in `chapVerses`: its first and last elements. -/
theorem chapVerses_head {d : BibleData} (h : d.WF) {v0 b} {c : Int} (h1 : 1 ≤ c) (h2 : c ≤ nChaps d b) :
    (chapVerses d v0 b c).head? = some ⟨b, c, firstNum d v0 b c⟩ := by
  have hl := h.lastNum_pos h1 h2
  have := firstNum_le_one d v0 b c
  rw [chapVerses, intRange_cons (by omega)]; rfl

theorem chapVerses_getLast {d : BibleData} (h : d.WF) {v0 b} {c : Int} (h1 : 1 ≤ c) (h2 : c ≤ nChaps d b) :
    (chapVerses d v0 b c).getLast? = some ⟨b, c, lastNum d b c⟩ := by
  have hl := h.lastNum_pos h1 h2
  have := firstNum_le_one d v0 b c
  rw [chapVerses, intRange_append (b := lastNum d b c - 1) (by omega) (by omega), intRange_cons (a := lastNum d b c - 1 + 1) (by omega),
    intRange_nil (a := lastNum d b c - 1 + 1 + 1) (by omega)]
  simp

theorem bookVerses_head {d : BibleData} (h : d.WF) {v0 b} :
    (bookVerses d v0 b).head? = some ⟨b, 1, firstNum d v0 b 1⟩ := by
  have hp := h.nChaps_pos b
  have hne := chapVerses_head h (v0 := v0) (b := b) (c := 1) (by omega) (by omega)
  rw [bookVerses, chapters, intRange_cons (by omega), List.flatMap_cons, List.head?_append, hne]; rfl

theorem bookVerses_getLast {d : BibleData} (h : d.WF) {v0 b} :
    (bookVerses d v0 b).getLast? = some ⟨b, nChaps d b, lastNum d b (nChaps d b)⟩ := by
  have hp := h.nChaps_pos b
  have hne := chapVerses_getLast h (v0 := v0) (b := b) (c := nChaps d b) (by omega) (by omega)
  rw [bookVerses, chapters, intRange_append (b := nChaps d b - 1) (by omega) (by omega), intRange_cons (a := (nChaps d b : Int) - 1 + 1) (by omega),
    intRange_nil (a := (nChaps d b : Int) - 1 + 1 + 1) (by omega), List.flatMap_append, List.getLast?_append]
  simp only [List.flatMap_cons, List.flatMap_nil, List.append_nil]
  rw [show (nChaps d b : Int) - 1 + 1 = nChaps d b by omega, hne]; rfl

end Bibleref
namespace Bibleref
open Spec

/-- The environment with the global flags replaced. -/
abbrev Env.setFlags (e : Env) (f : BibleFlag) : Env := ⟨e.data, f⟩

theorem Env.setFlags_eff (e : Env) (f : BibleFlag) : (e.setFlags f).eff (some f) = f := by
  by_cases hf : f = .none <;> simp [eff, hf]

/-- One step back does not see the global flags. -/
theorem sub_one_setFlags {e : Env} (h : e.data.WF) {v : BibleVerse} (hv : Exists e.data true v) (flags : Option BibleFlag) :
    v.sub e 1 flags = v.sub (e.setFlags (v.honourFlags (e.eff flags))) 1 (some (v.honourFlags (e.eff flags))) := by
  have hff := v.eff_honour e flags
  have hh : v.honourFlags (v.honourFlags (e.eff flags)) = v.honourFlags (e.eff flags) := by
    unfold BibleVerse.honourFlags BibleFlag.union BibleFlag.VERSE_0; split <;> simp
  unfold BibleVerse.sub
  rw [Env.setFlags_eff, hh]
  generalize hf : v.honourFlags (e.eff flags) = f at *
  have h' : (e.setFlags f).data.WF := h
  have hef := e.setFlags_eff f
  simp only [h.minVerseNum, h'.minVerseNum, hff, hef]
  simp only [Env.setFlags]
  rw [if_pos ⟨hv.1, hv.2.1⟩]
  simp only [bind, Except.bind]
  have hnew : ∀ b c n, BibleVerse.new e b c n (some f) = BibleVerse.new (e.setFlags f) b c n (some f) := by
    intro b c n
    rw [BibleVerse.new_exists h, BibleVerse.new_exists h', hff, hef]
  simp only [Env.setFlags] at hnew
  have hfuel : ∃ k, e.data.totalChaps = k + 1 := by
    have := nChaps_le_total h v.book
    have := h.nChaps_pos v.book
    exact ⟨e.data.totalChaps - 1, by omega⟩
  obtain ⟨k, hk⟩ := hfuel
  rw [hk]
  conv => lhs; rw [BibleVerse.subLoop, hnew]
  conv => rhs; rw [BibleVerse.subLoop]
  by_cases hlt : v.verse - 1 < firstNum e.data f.verse0 v.book v.chap
  · rw [if_pos hlt, if_pos hlt]
    have hv1 : v.verse - 1 + 1 = firstNum e.data f.verse0 v.book v.chap := by
      have hge := (hv.honour (v0 := (e.eff flags).verse0)).2.2.1
      rw [← BibleVerse.honour_verse0, hf] at hge
      omega
    have key : ∀ (b : BibleBook) (c : Int), 1 ≤ c → c ≤ nChaps e.data b →
        (do let mx ← b.maxVerseNum e.data c
            let mn' ← b.minVerseNum e c none
            BibleVerse.subLoop e f (k + 1) b c (v.verse - 1 + mx - firstNum e.data f.verse0 v.book v.chap + 1) mn') =
        (do let mx ← b.maxVerseNum e.data c
            let mn' ← b.minVerseNum ⟨e.data, f⟩ c none
            BibleVerse.subLoop ⟨e.data, f⟩ f (k + 1) b c (v.verse - 1 + mx - firstNum e.data f.verse0 v.book v.chap + 1) mn') := by
      intro b c h1 h2
      have h'' : (⟨e.data, f⟩ : Env).data.WF := h
      have hl := h.lastNum_pos h1 h2
      simp only [h.maxVerseNum, h.minVerseNum, h''.minVerseNum]
      rw [if_pos ⟨h1, h2⟩, if_pos ⟨h1, h2⟩, if_pos ⟨h1, h2⟩]
      simp only [bind, Except.bind]
      have m1 := firstNum_le_one e.data (e.eff none).verse0 b c
      have m2 := firstNum_le_one e.data ((⟨e.data, f⟩ : Env).eff none).verse0 b c
      conv => lhs; rw [BibleVerse.subLoop, hnew]
      conv => rhs; rw [BibleVerse.subLoop]
      rw [if_neg (by omega), if_neg (by omega)]
    simp only [h.minChapNum]
    by_cases hc : v.chap - 1 < 1
    · rw [if_pos hc, if_pos hc]
      split
      · rfl
      · cases hp : v.book.prev e.data with
        | none => rfl
        | some b' =>
          have := h.nChaps_pos b'
          exact key b' _ (by rw [h.maxChapNum]; omega) (by rw [h.maxChapNum]; omega)
    · rw [if_neg hc, if_neg hc]
      exact key _ _ (by omega) (by have := hv.2.1; omega)
  · rw [if_neg hlt, if_neg hlt]

/-- One step back is right whatever the flags. -/
theorem sub_one_walk {e : Env} (h : e.data.WF) {v : BibleVerse} {flags : Option BibleFlag} {i : Nat}
    (hi : (walk e.data (e.eff flags).multibook ((e.eff flags).verse0 || v.verse == 0) v.book)[i]? = some v) :
    v.sub e 1 flags = .ok (if 1 ≤ i then
      (walk e.data (e.eff flags).multibook ((e.eff flags).verse0 || v.verse == 0) v.book)[i - 1]? else none) := by
  have hv := (mem_walk h (List.mem_of_getElem? hi)).mono
  rw [sub_one_setFlags h hv]
  have hm := v.honour_multibook (e.eff flags)
  have hv0 := v.honour_verse0 (e.eff flags)
  have hef := e.setFlags_eff (v.honourFlags (e.eff flags))
  have h' : (e.setFlags (v.honourFlags (e.eff flags))).data.WF := h
  have hor : (((e.setFlags (v.honourFlags (e.eff flags))).eff (some (v.honourFlags (e.eff flags)))).verse0 || v.verse == 0)
      = ((e.eff flags).verse0 || v.verse == 0) := by
    rw [hef, hv0]; cases (e.eff flags).verse0 <;> simp
  have := sub_walk h' (v := v) (flags := some (v.honourFlags (e.eff flags))) (i := i)
    (by rw [hor]; exact hv0) (by rw [hor, hef, hm]; exact hi) 1
  rw [hor, hef, hm] at this
  exact this

end Bibleref
