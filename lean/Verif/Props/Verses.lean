import Verif.Lemmas.VerseMore

/-!
# Properties of verses and books (C01-C06, C08-C11, C48)

Statements use the vocabulary of `Verif/Spec.lean` and the modelled methods only.
-/

namespace Bibleref
open Spec

/-- The default Bible with no global flags, used in the examples. -/
def dflt : Env := ⟨defaultData, .none⟩

/-- The default Bible with `bibleref.flags = BibleFlag.ALL`. -/
def dfltAll : Env := ⟨defaultData, .ALL⟩

/-! ## C01 -/

/-- C01: the constructor succeeds exactly for the verses of the book allowed by the flags in force, with the given numbers,
and otherwise raises `InvalidReferenceError`. The book need not be in the book order. -/
theorem C01_verse_constructor (e : Env) (h : e.data.WF) (b : BibleBook) (c n : Int) (flags : Option BibleFlag) :
    (∀ v, BibleVerse.new e b c n flags = .ok v ↔ v = ⟨b, c, n⟩ ∧ v ∈ bookVerses e.data (inForce e flags).verse0 b) ∧
    (∀ err, BibleVerse.new e b c n flags = .error err ↔
      err = .invalidReference ∧ (⟨b, c, n⟩ : BibleVerse) ∉ bookVerses e.data (inForce e flags).verse0 b) := by
  rw [← eff_eq]
  have hcases : (BibleVerse.new e b c n flags = .ok ⟨b, c, n⟩ ∧ (⟨b, c, n⟩ : BibleVerse) ∈ bookVerses e.data (e.eff flags).verse0 b) ∨
      (BibleVerse.new e b c n flags = .error .invalidReference ∧
        (⟨b, c, n⟩ : BibleVerse) ∉ bookVerses e.data (e.eff flags).verse0 b) := by
    simp only [mem_bookVerses, true_and]
    rw [BibleVerse.new_exists h]
    by_cases hv : Exists e.data (e.eff flags).verse0 ⟨b, c, n⟩
    · exact .inl ⟨if_pos hv, hv⟩
    · exact .inr ⟨if_neg hv, hv⟩
  rcases hcases with ⟨h1, h2⟩ | ⟨h1, h2⟩ <;> rw [h1]
  · refine ⟨fun v => ⟨?_, ?_⟩, fun err => ⟨?_, ?_⟩⟩
    · intro hv; cases hv; exact ⟨rfl, h2⟩
    · rintro ⟨rfl, _⟩; rfl
    · intro hv; cases hv
    · rintro ⟨_, hn⟩; exact absurd h2 hn
  · refine ⟨fun v => ⟨?_, ?_⟩, fun err => ⟨?_, ?_⟩⟩
    · intro hv; cases hv
    · rintro ⟨rfl, hn⟩; exact absurd hn h2
    · intro hv; cases hv; exact ⟨rfl, h2⟩
    · rintro ⟨rfl, _⟩; rfl

/-- C01, in numbers: which verses are in the list of verses of a book, and in the reading-order list of all verses. -/
theorem C01_existing_verses (d : BibleData) (v0 : Bool) (b : BibleBook) (v : BibleVerse) :
    (v ∈ bookVerses d v0 b ↔ v.book = b ∧ 1 ≤ v.chap ∧ v.chap ≤ nChaps d v.book ∧
      (if v0 = true ∧ v.chap ∈ d.verse0s v.book then 0 else 1) ≤ v.verse ∧ v.verse ≤ lastNum d v.book v.chap) ∧
    (v ∈ canon d v0 ↔ v.book ∈ d.bookOrder ∧ v ∈ bookVerses d v0 v.book) :=
  ⟨mem_bookVerses, by rw [mem_canon_iff, mem_bookVerses]; simp⟩

example : BibleVerse.new dflt .Psa 3 0 (some .VERSE_0) = .ok ⟨.Psa, 3, 0⟩ ∧
    BibleVerse.new dflt .Psa 3 0 none = .error .invalidReference ∧
    BibleVerse.new dflt .Psa 151 1 none = .error .invalidReference := by decide +kernel
example : dflt.data.WF := defaultData_wf

/-! ## C02 -/

/-- C02: `<`, `<=` and `==` of existing verses are those of their positions in reading order. -/
theorem C02_order_is_reading_order (d : BibleData) (h : d.WF) (v0 : Bool) (i j : Nat) (v w : BibleVerse)
    (hi : (canon d v0)[i]? = some v) (hj : (canon d v0)[j]? = some w) :
    Answers (v.less d w) (i < j) ∧ Answers (v.lessEq d w) (i ≤ j) ∧ (v = w ↔ i = j) := by
  have hc : v.comparable d w = true := comparable_listed ((mem_canon h).mp (List.mem_of_getElem? hi))
    ((mem_canon h).mp (List.mem_of_getElem? hj))
  have h1 := h.canon_lt_iff hi hj
  have h3 : v = w ↔ i = j :=
    ⟨fun hh => index_unique (h.nodup_canon v0) hi (by rw [hj, hh]), fun hh => by subst hh; rw [hi] at hj; cases hj; rfl⟩
  refine ⟨⟨_, BibleVerse.less_eq hc, h1⟩, ⟨_, BibleVerse.lessEq_eq hc, ?_⟩, h3⟩
  rw [h.le_iff_lt_or_eq, h1, h3]; omega

/-- C02: exactly one of `v < w`, `v == w`, `w < v` holds, `<=` is `<` or `==`, and `<` is transitive, for verses that
exist. -/
theorem C02_total_order (d : BibleData) (h : d.WF) (v w u : BibleVerse) (hv : v ∈ canon d true) (hw : w ∈ canon d true)
    (hu : u ∈ canon d true) :
    (v.less d w = .ok true ∨ v = w ∨ w.less d v = .ok true) ∧ ¬ (v.less d w = .ok true ∧ v = w) ∧
    ¬ (v.less d w = .ok true ∧ w.less d v = .ok true) ∧ Answers (v.lessEq d w) (v.less d w = .ok true ∨ v = w) ∧
    (v.less d w = .ok true → w.less d u = .ok true → v.less d u = .ok true) ∧ ∃ c, v.less d w = .ok c := by
  rw [mem_canon h] at hv hw hu
  unfold Answers
  simp only [less_listed hw hv, less_listed hw hu, less_listed hv hu,
    BibleVerse.lessEq_eq (comparable_listed hv hw), Except.ok.injEq, exists_eq_left', BibleVerse.less_eq (comparable_listed hv hw),
    exists_eq', and_true]
  rw [h.le_iff_lt_or_eq, h.lt_pos hv hw, h.lt_pos hw hv, h.lt_pos hw hu, h.lt_pos hv hu, ← h.pos_inj hv hw]
  omega

/-- The list of verses has no repetitions and its verses of one book are consecutive, so positions are meaningful. -/
theorem C02_reading_order_nodup (d : BibleData) (h : d.WF) (v0 : Bool) : (canon d v0).Nodup := h.nodup_canon v0

example : (⟨.Mal, 4, 6⟩ : BibleVerse).less defaultData ⟨.Matt, 1, 1⟩ = .ok true ∧ (⟨.Mal, 4, 6⟩ : BibleVerse) ∈ canon defaultData true
    ∧ (⟨.Matt, 1, 1⟩ : BibleVerse) ∈ canon defaultData true := by
  simp only [mem_canon defaultData_wf]; decide +kernel
example : ∃ i : Nat, (canon defaultData true)[i]? = some ⟨.Psa, 3, 0⟩ :=
  List.mem_iff_getElem?.mp ((mem_canon defaultData_wf).mpr (by decide +kernel))

/-! ## C03, C04 -/

/-- C03: with `MULTIBOOK` in force, `add(n)` is `n` steps forward in the list of verses allowed by the flags (a verse 0
allows verse 0s), or `None` past the end. -/
theorem C03_add_multibook (e : Env) (h : e.data.WF) (flags : Option BibleFlag) (hm : (inForce e flags).multibook = true)
    (v : BibleVerse) (v0 : Bool) (hv0 : v0 = ((inForce e flags).verse0 || v.verse == 0)) (i n : Nat)
    (hi : (canon e.data v0)[i]? = some v) : v.add e n flags = .ok (canon e.data v0)[i + n]? := by
  rw [← eff_eq] at hm hv0
  have := add_walk h (v := v) (flags := flags) (i := i) (by rw [hm, ← hv0]; exact hi) n
  rw [this, hm, ← hv0]; rfl

/-- C04: without `MULTIBOOK`, the same within the verses of the book. -/
theorem C04_add_in_book (e : Env) (h : e.data.WF) (flags : Option BibleFlag) (hm : (inForce e flags).multibook = false)
    (v : BibleVerse) (v0 : Bool) (hv0 : v0 = ((inForce e flags).verse0 || v.verse == 0)) (i n : Nat)
    (hi : (bookVerses e.data v0 v.book)[i]? = some v) : v.add e n flags = .ok (bookVerses e.data v0 v.book)[i + n]? := by
  rw [← eff_eq] at hm hv0
  have := add_walk h (v := v) (flags := flags) (i := i) (by rw [hm, ← hv0]; exact hi) n
  rw [this, hm, ← hv0]; rfl

/-- Every existing verse has a place in the list C03/C04 speak about. -/
theorem C03_C04_applicable (e : Env) (h : e.data.WF) (flags : Option BibleFlag) (v : BibleVerse) (hv : v ∈ canon e.data true) :
    (∃ i : Nat, (canon e.data ((inForce e flags).verse0 || v.verse == 0))[i]? = some v) ∧
    (∃ i : Nat, (bookVerses e.data ((inForce e flags).verse0 || v.verse == 0) v.book)[i]? = some v) := by
  rw [mem_canon h] at hv
  exact ⟨List.mem_iff_getElem?.mp ((mem_canon h).mpr hv.honour), List.mem_iff_getElem?.mp
    (mem_bookVerses.mpr ⟨rfl, (valid_iff.mp hv).1.honour⟩)⟩

example : BibleVerse.add dflt ⟨.Mal, 4, 6⟩ 1 (some .MULTIBOOK) = .ok (some ⟨.Matt, 1, 1⟩) ∧
    BibleVerse.add dflt ⟨.Mal, 4, 6⟩ 1 none = .ok none ∧
    BibleVerse.add dflt ⟨.Psa, 3, 0⟩ 9 none = .ok (some ⟨.Psa, 4, 0⟩) ∧
    BibleVerse.add dflt ⟨.Rev, 22, 21⟩ 1 (some .ALL) = .ok none := by decide +kernel
example : (⟨.Mal, 4, 6⟩ : BibleVerse) ∈ canon dflt.data true := (mem_canon defaultData_wf).mpr (by decide +kernel)

/-! ## C05, C06 -/

/-- C05 as wished: for all flags, `subtract(n)` is `n` steps back. False for the code (see below). -/
def C05Wish : Prop := ∀ (e : Env), e.data.WF → ∀ (flags : Option BibleFlag) (v : BibleVerse) (v0 : Bool),
  v0 = ((inForce e flags).verse0 || v.verse == 0) → (inForce e flags).multibook = false → ∀ (i n : Nat),
  (bookVerses e.data v0 v.book)[i]? = some v →
  v.sub e n flags = .ok (if n ≤ i then (bookVerses e.data v0 v.book)[i - n]? else none)

/-- C05 with `MULTIBOOK`, provided the call allows verse 0s exactly if the global flags do (which holds in particular
without a `flags` argument, except for a verse 0 made under other flags). Missing: calls that disagree with the global
flags about verse 0s, for which the code is wrong. -/
theorem C05_subtract_multibook_partial (e : Env) (h : e.data.WF) (flags : Option BibleFlag)
    (hm : (inForce e flags).multibook = true) (v : BibleVerse) (v0 : Bool)
    (hv0 : v0 = ((inForce e flags).verse0 || v.verse == 0)) (hg : e.flags.verse0 = v0) (i n : Nat)
    (hi : (canon e.data v0)[i]? = some v) :
    v.sub e n flags = .ok (if n ≤ i then (canon e.data v0)[i - n]? else none) := by
  rw [← eff_eq] at hm hv0
  have := sub_walk h (v := v) (flags := flags) (i := i) (by rw [hg, hv0]) (by rw [hm, ← hv0]; exact hi) n
  rw [this, hm, ← hv0]; rfl

/-- C05 without `MULTIBOOK`, under the same proviso. -/
theorem C05_subtract_in_book_partial (e : Env) (h : e.data.WF) (flags : Option BibleFlag)
    (hm : (inForce e flags).multibook = false) (v : BibleVerse) (v0 : Bool)
    (hv0 : v0 = ((inForce e flags).verse0 || v.verse == 0)) (hg : e.flags.verse0 = v0) (i n : Nat)
    (hi : (bookVerses e.data v0 v.book)[i]? = some v) :
    v.sub e n flags = .ok (if n ≤ i then (bookVerses e.data v0 v.book)[i - n]? else none) := by
  rw [← eff_eq] at hm hv0
  have := sub_walk h (v := v) (flags := flags) (i := i) (by rw [hg, hv0]) (by rw [hm, ← hv0]; exact hi) n
  rw [this, hm, ← hv0]; rfl

/-- C05 fails: with no global flags, 9 verses before Psalm 5:0 is Psalm 4:0, but `subtract` gives 3:8. -/
theorem C05_counterexample : BibleVerse.sub dflt ⟨.Psa, 5, 0⟩ 9 none = .ok (some ⟨.Psa, 3, 8⟩) ∧
    BibleVerse.add dflt ⟨.Psa, 4, 0⟩ 9 none = .ok (some ⟨.Psa, 5, 0⟩) ∧ ¬ C05Wish := by
  have h1 : BibleVerse.sub dflt ⟨.Psa, 5, 0⟩ 9 none = .ok (some ⟨.Psa, 3, 8⟩) := by decide +kernel
  have h2 : BibleVerse.add dflt ⟨.Psa, 4, 0⟩ 9 none = .ok (some ⟨.Psa, 5, 0⟩) := by decide +kernel
  refine ⟨h1, h2, fun hw => ?_⟩
  obtain ⟨i, hi⟩ := (C03_C04_applicable dflt defaultData_wf none ⟨.Psa, 4, 0⟩
    ((mem_canon defaultData_wf).mpr (by decide +kernel))).2
  have h3 := C04_add_in_book dflt defaultData_wf none rfl ⟨.Psa, 4, 0⟩ true rfl i 9 hi
  have h4 : BibleVerse.add dflt ⟨.Psa, 4, 0⟩ ((9 : Nat) : Int) none = .ok (some ⟨.Psa, 5, 0⟩) := h2
  rw [h4] at h3
  have h5 := hw dflt defaultData_wf none ⟨.Psa, 5, 0⟩ true rfl rfl (i + 9) 9 (Except.ok.inj h3).symm
  rw [if_pos (by omega), show i + 9 - 9 = i by omega] at h5
  have h6 : BibleVerse.sub dflt ⟨.Psa, 5, 0⟩ ((9 : Nat) : Int) none = .ok (some ⟨.Psa, 3, 8⟩) := h1
  rw [h6] at h5
  have hi' : (bookVerses dflt.data true .Psa)[i]? = some ⟨.Psa, 4, 0⟩ := hi
  change Except.ok _ = Except.ok (bookVerses dflt.data true .Psa)[i]? at h5
  rw [hi'] at h5
  exact absurd h5 (by decide)

/-- C05 for a single step holds whatever the flags. -/
theorem C05_subtract_one (e : Env) (h : e.data.WF) (flags : Option BibleFlag) (v : BibleVerse) (v0 : Bool)
    (hv0 : v0 = ((inForce e flags).verse0 || v.verse == 0)) (l : List BibleVerse)
    (hl : l = if (inForce e flags).multibook then canon e.data v0 else bookVerses e.data v0 v.book) (i : Nat)
    (hi : l[i]? = some v) : v.sub e 1 flags = .ok (if i = 0 then none else l[i - 1]?) := by
  rw [← eff_eq] at hv0 hl
  have hw : l = walk e.data (e.eff flags).multibook v0 v.book := hl
  have := sub_one_walk h (v := v) (flags := flags) (i := i) (by rw [← hv0, ← hw]; exact hi)
  rw [this, ← hv0, ← hw]
  by_cases h0 : i = 0
  · rw [if_neg (by omega), if_pos h0]
  · rw [if_pos (by omega), if_neg h0]

example : BibleVerse.sub dflt ⟨.Psa, 4, 0⟩ 1 none = .ok (some ⟨.Psa, 3, 8⟩) := by decide +kernel

example : BibleVerse.sub dflt ⟨.Matt, 1, 1⟩ 1 (some .MULTIBOOK) = .ok (some ⟨.Mal, 4, 6⟩) ∧
    BibleVerse.sub dflt ⟨.Matt, 1, 1⟩ 1 none = .ok none ∧
    BibleVerse.sub dfltAll ⟨.Psa, 4, 0⟩ 9 none = .ok (some ⟨.Psa, 3, 0⟩) ∧
    dfltAll.flags.verse0 = ((inForce dfltAll none).verse0 || (⟨.Psa, 4, 0⟩ : BibleVerse).verse == 0) := by decide +kernel

/-- C06: if `v.add(n)` is `w` then `w.subtract(n)` is `v` and conversely. The hypotheses say that both calls agree with
the global flags about verse 0s; missing are calls that do not. -/
theorem C06_add_subtract_inverse_partial (e : Env) (h : e.data.WF) (flags : Option BibleFlag) (v w : BibleVerse) (n : Nat)
    (hv : v ∈ canon e.data e.flags.verse0) (hw : w ∈ canon e.data e.flags.verse0)
    (hg : (inForce e flags).verse0 = e.flags.verse0) :
    v.add e n flags = .ok (some w) ↔ w.sub e n flags = .ok (some v) := by
  rw [← eff_eq] at hg
  rw [mem_canon h] at hv hw
  have hz : ∀ u : BibleVerse, Valid e.data e.flags.verse0 u → ((e.eff flags).verse0 || u.verse == 0) = e.flags.verse0 := by
    intro u hu
    rw [hg]
    by_cases h0 : u.verse = 0
    · have h1 := hu.2.2.1
      rw [h0] at h1
      cases hf : e.flags.verse0
      · rw [hf] at h1; simp at h1
      · rfl
    · simp [h0]
  have hmem : ∀ u : BibleVerse, Valid e.data e.flags.verse0 u →
      ∃ i : Nat, (walk e.data (e.eff flags).multibook e.flags.verse0 u.book)[i]? = some u := by
    intro u hu
    apply List.mem_iff_getElem?.mp
    unfold walk; split
    · exact (mem_canon h).mpr hu
    · exact mem_bookVerses.mpr ⟨rfl, (valid_iff.mp hu).1⟩
  obtain ⟨i, hi⟩ := hmem v hv
  obtain ⟨j, hj⟩ := hmem w hw
  have hadd := add_walk h (v := v) (flags := flags) (i := i) (by rw [hz v hv]; exact hi) n
  have hsub := sub_walk h (v := w) (flags := flags) (i := j) (by rw [hz w hw]) (by rw [hz w hw]; exact hj) n
  rw [hz v hv] at hadd
  rw [hz w hw] at hsub
  rw [hadd, hsub]
  -- in the book case a hit in the other book's list means the books are the same
  have hb : ∀ u u' : BibleVerse, u' ∈ walk e.data (e.eff flags).multibook e.flags.verse0 u.book →
      walk e.data (e.eff flags).multibook e.flags.verse0 u.book = walk e.data (e.eff flags).multibook e.flags.verse0 u'.book := by
    intro u u' hu
    unfold walk at hu ⊢
    split
    · rfl
    · rename_i hm; rw [if_neg hm] at hu; rw [(mem_bookVerses.mp hu).1]
  constructor
  · intro hh
    have hh := Except.ok.inj hh
    have hbb := hb v w (List.mem_of_getElem? hh)
    rw [hbb] at hh hi
    have := index_unique (nodup_walk h _ _ _) hh hj
    rw [if_pos (by omega), show j - n = i by omega, hi]
  · intro hh
    have hh := Except.ok.inj hh
    split at hh
    · have hbb := hb w v (List.mem_of_getElem? hh)
      rw [hbb] at hh hj
      have := index_unique (nodup_walk h _ _ _) hh hi
      rw [show i + n = j by omega, hj]
    · cases hh

/-- C06 fails without the hypotheses. -/
theorem C06_counterexample : BibleVerse.add dflt ⟨.Psa, 4, 0⟩ 9 none = .ok (some ⟨.Psa, 5, 0⟩) ∧
    BibleVerse.sub dflt ⟨.Psa, 5, 0⟩ 9 none ≠ .ok (some ⟨.Psa, 4, 0⟩) := by decide +kernel

example : BibleVerse.add dfltAll ⟨.Mal, 4, 6⟩ 30 none = .ok (some ⟨.Matt, 2, 5⟩) ∧
    BibleVerse.sub dfltAll ⟨.Matt, 2, 5⟩ 30 none = .ok (some ⟨.Mal, 4, 6⟩) ∧
    (inForce dfltAll none).verse0 = dfltAll.flags.verse0 := by decide +kernel

/-! ## C08 -/

/-- C08, first half: for every integer, `add` and `subtract` return `None`, a verse that exists under the flags in force,
or raise `InvalidReferenceError`. -/
theorem C08_outcomes (e : Env) (h : e.data.WF) (flags : Option BibleFlag) (v : BibleVerse) (hv : v ∈ canon e.data true)
    (n : Int) (v0 : Bool) (hv0 : v0 = ((inForce e flags).verse0 || v.verse == 0)) :
    (v.add e n flags = .ok none ∨ (∃ w ∈ canon e.data v0, v.add e n flags = .ok (some w)) ∨
      v.add e n flags = .error .invalidReference) ∧
    (v.sub e n flags = .ok none ∨ (∃ w ∈ canon e.data v0, v.sub e n flags = .ok (some w)) ∨
      v.sub e n flags = .error .invalidReference) := by
  rw [← eff_eq] at hv0
  have hv' := (mem_canon h).mp hv
  constructor
  · by_cases hn : v.verse + n ≤ lastNum e.data v.book v.chap
    · rw [add_nonpos h flags hv' hn, ← hv0]
      split
      · rename_i h1
        right; left
        exact ⟨⟨v.book, v.chap, v.verse + n⟩, (mem_canon h).mpr ⟨hv'.1, hv'.2.1, h1, hn, hv'.listed⟩, rfl⟩
      · right; right; rfl
    · have hp : 0 ≤ n := by have := hv'.le_last; omega
      obtain ⟨i, hi⟩ : ∃ i : Nat, (walk e.data (e.eff flags).multibook v0 v.book)[i]? = some v := by
        apply List.mem_iff_getElem?.mp
        have hh : Valid e.data v0 v := hv0 ▸ hv'.honour
        unfold walk; split
        · exact (mem_canon h).mpr hh
        · exact mem_bookVerses.mpr ⟨rfl, (valid_iff.mp hh).1⟩
      have := add_walk h (v := v) (flags := flags) (i := i) (by rw [← hv0]; exact hi) n.toNat
      rw [show ((n.toNat : Nat) : Int) = n by omega, ← hv0] at this
      rw [this]
      cases hw : (walk e.data (e.eff flags).multibook v0 v.book)[i + n.toNat]? with
      | none => left; rfl
      | some w => right; left; exact ⟨w, (mem_canon h).mpr (mem_walk_valid h hv'.listed (List.mem_of_getElem? hw)), rfl⟩
  · rcases sub_outcome h hv' n flags with h1 | ⟨w, h1, h2⟩ | h1
    · exact .inl h1
    · exact .inr (.inl ⟨w, (mem_canon h).mpr (hv0 ▸ h2), h1⟩)
    · exact .inr (.inr h1)

/-- C08, second half, as far as it is true: a negative distance is a move inside the chapter; where that would leave the
chapter the code raises instead of moving on. Missing: moving across chapters. -/
theorem C08_negative_partial (e : Env) (h : e.data.WF) (flags : Option BibleFlag) (v : BibleVerse) (n : Nat)
    (v0 : Bool) (hv0 : v0 = ((inForce e flags).verse0 || v.verse == 0)) (hv : v ∈ canon e.data v0) :
    v.add e (-n) flags = (if (⟨v.book, v.chap, v.verse - n⟩ : BibleVerse) ∈ chapVerses e.data v0 v.book v.chap
      then .ok (some ⟨v.book, v.chap, v.verse - n⟩) else .error .invalidReference) ∧
    v.sub e (-n) flags = (if (⟨v.book, v.chap, v.verse + n⟩ : BibleVerse) ∈ chapVerses e.data v0 v.book v.chap
      then .ok (some ⟨v.book, v.chap, v.verse + n⟩) else .error .invalidReference) := by
  rw [← eff_eq] at hv0
  have hv' := (mem_canon h).mp hv
  have hv1 := hv'.2.2.1
  have hv2 := hv'.le_last
  simp only [mem_chapVerses, true_and]
  constructor
  · rw [add_nonpos h flags hv'.mono (by omega), ← hv0]
    by_cases h1 : firstNum e.data v0 v.book v.chap ≤ v.verse - n
    · rw [if_pos (by omega), if_pos ⟨h1, by omega⟩]; rfl
    · rw [if_neg (by omega), if_neg (fun hh => h1 hh.1)]
  · rw [sub_nonpos h flags hv'.mono (by rw [← hv0]; omega)]
    rw [show v.verse - -(n : Int) = v.verse + n by omega]
    by_cases h1 : v.verse + n ≤ lastNum e.data v.book v.chap
    · rw [if_pos h1, if_pos ⟨by omega, h1⟩]
    · rw [if_neg h1, if_neg (fun hh => h1 hh.2)]

/-- C08 fails across chapters. -/
theorem C08_counterexample : BibleVerse.add dflt ⟨.Matt, 2, 1⟩ (-1) none = .error .invalidReference ∧
    BibleVerse.sub dflt ⟨.Matt, 2, 1⟩ 1 none = .ok (some ⟨.Matt, 1, 25⟩) ∧
    BibleVerse.sub dflt ⟨.Matt, 1, 25⟩ (-1) none = .error .invalidReference ∧
    BibleVerse.add dflt ⟨.Matt, 1, 25⟩ 1 none = .ok (some ⟨.Matt, 2, 1⟩) := by decide +kernel

example : BibleVerse.add dflt ⟨.Matt, 2, 5⟩ (-3) none = .ok (some ⟨.Matt, 2, 2⟩) := by decide +kernel

/-! ## C09 (verses; ranges and lists are in `Props/Ranges.lean` and `Props/Lists.lean`) -/

/-- C09: what `verse_0_to_1` and `verse_1_to_0` return, and that they never raise. -/
theorem C09_verse_conversions (e : Env) (h : e.data.WF) (v : BibleVerse) (hv : v ∈ canon e.data true) :
    v.verse0to1 e = .ok (if v.verse = 0 then ⟨v.book, v.chap, 1⟩ else v) ∧
    v.verse1to0 e = .ok (if v.verse = 1 ∧ (⟨v.book, v.chap, 0⟩ : BibleVerse) ∈ canon e.data true
      then ⟨v.book, v.chap, 0⟩ else v) := by
  simp only [mem_canon h] at *
  have hl := h.lastNum_pos hv.1 hv.2.1
  constructor
  · unfold BibleVerse.verse0to1
    split
    · have := firstNum_le_one e.data (e.eff none).verse0 v.book v.chap
      rw [BibleVerse.new_ok h (show Valid e.data _ ⟨v.book, v.chap, 1⟩ from ⟨hv.1, hv.2.1, this, hl, hv.listed⟩)]
    · rfl
  · unfold BibleVerse.verse1to0
    by_cases h1 : v.verse = 1
    · rw [if_pos h1]
      simp only [h.minVerseNum]
      rw [if_pos ⟨hv.1, hv.2.1⟩]
      simp only [bind, Except.bind]
      have he : (e.eff (some .VERSE_0)).verse0 = true := rfl
      rw [he]
      by_cases h2 : firstNum e.data true v.book v.chap = 0
      · have hz : Valid e.data true ⟨v.book, v.chap, 0⟩ := ⟨hv.1, hv.2.1, by simp only; omega, by simp only; omega,
          hv.listed⟩
        rw [if_pos h2, if_pos ⟨h1, hz⟩, BibleVerse.new_ok h (by rw [he]; exact hz)]
      · rw [if_neg h2, if_neg]; rfl
        rintro ⟨_, hz⟩
        have := hz.2.2.1
        have := firstNum_nonneg e.data true v.book v.chap
        simp only at *
        omega
    · rw [if_neg h1, if_neg (fun hh => h1 hh.1)]; rfl

/-- C09: the conversions return existing verses, are idempotent, and are inverse on verse 0s and their verse 1s. -/
theorem C09_conversions_inverse (e : Env) (h : e.data.WF) (v : BibleVerse) (hv : v ∈ canon e.data true) :
    (∀ w, v.verse0to1 e = .ok w → w ∈ canon e.data false ∧ w.verse0to1 e = .ok w ∧ v.lessEq e.data w = .ok true ∧
      (v.verse = 0 → w.verse1to0 e = .ok v)) ∧
    (∀ w, v.verse1to0 e = .ok w → w ∈ canon e.data true ∧ w.verse1to0 e = .ok w ∧ w.lessEq e.data v = .ok true ∧
      (w ≠ v → w.verse0to1 e = .ok v)) := by
  have key := C09_verse_conversions e h v hv
  have hv' := (mem_canon h).mp hv
  have hl := h.lastNum_pos hv'.1 hv'.2.1
  rw [key.1, key.2]
  constructor
  · intro w hw
    cases hw
    by_cases h0 : v.verse = 0
    · rw [if_pos h0]
      have hval : Valid e.data false ⟨v.book, v.chap, 1⟩ := ⟨hv'.1, hv'.2.1, firstNum_le_one _ _ _ _, hl, hv'.listed⟩
      have kw := C09_verse_conversions e h _ ((mem_canon h).mpr hval.mono)
      have hveq : v = ⟨v.book, v.chap, 0⟩ := by cases v; simp_all
      refine ⟨(mem_canon h).mpr hval, ?_, ?_, fun _ => ?_⟩
      · rw [kw.1]; rfl
      · rw [BibleVerse.lessEq_true (comparable_book (by rfl)), h.le_iff]; right; exact ⟨rfl, .inr ⟨rfl, by rw [h0]; simp⟩⟩
      · rw [kw.2, if_pos ⟨rfl, hveq ▸ hv⟩, ← hveq]
    · rw [if_neg h0]
      refine ⟨(mem_canon h).mpr (hv'.of_ne_zero h0), ?_, ?_, fun hh => absurd hh h0⟩
      · rw [key.1, if_neg h0]
      · rw [BibleVerse.lessEq_true (comparable_book (by rfl)), h.le_iff_lt_or_eq]; right; rfl
  · intro w hw
    cases hw
    by_cases h1 : v.verse = 1 ∧ (⟨v.book, v.chap, 0⟩ : BibleVerse) ∈ canon e.data true
    · rw [if_pos h1]
      have kw := C09_verse_conversions e h _ h1.2
      have hveq : v = ⟨v.book, v.chap, 1⟩ := by cases v; simp_all
      refine ⟨h1.2, ?_, ?_, fun _ => ?_⟩
      · rw [kw.2, if_neg (fun hh => absurd hh.1 (by simp))]
      · rw [BibleVerse.lessEq_true (comparable_book (by rfl)), h.le_iff]; right; exact ⟨rfl, .inr ⟨rfl, by rw [h1.1]; simp⟩⟩
      · rw [kw.1]; simp only [if_true]; rw [← hveq]
    · rw [if_neg h1]
      refine ⟨hv, ?_, ?_, fun hh => absurd rfl hh⟩
      · rw [key.2, if_neg h1]
      · rw [BibleVerse.lessEq_true (comparable_book (by rfl)), h.le_iff_lt_or_eq]; right; rfl

theorem conversions_monotone_le (e : Env) (h : e.data.WF) (v w : BibleVerse) (hv : v ∈ canon e.data true)
    (hw : w ∈ canon e.data true) (hvw : v.le e.data w = true) :
    (∀ v' w', v.verse0to1 e = .ok v' → w.verse0to1 e = .ok w' → v'.le e.data w' = true) ∧
    (∀ v' w', v.verse1to0 e = .ok v' → w.verse1to0 e = .ok w' → v'.le e.data w' = true) := by
  have kv := C09_verse_conversions e h v hv
  have kw := C09_verse_conversions e h w hw
  have hv' := (mem_canon h).mp hv
  have hw' := (mem_canon h).mp hw
  have f1 := firstNum_nonneg e.data true v.book v.chap
  have f2 := firstNum_nonneg e.data true w.book w.chap
  have g1 := hv'.2.2.1
  have g2 := hw'.2.2.1
  rw [kv.1, kw.1, kv.2, kw.2]
  rw [h.le_iff] at hvw
  constructor
  · rintro v' w' ⟨⟩ ⟨⟩
    rw [h.le_iff]
    by_cases h1 : v.verse = 0 <;> by_cases h2 : w.verse = 0 <;> simp only [h1, h2, if_true, if_false] <;>
      exact hvw.imp id (And.imp id (Or.imp id (And.imp id (by intro; omega))))
  · rintro v' w' ⟨⟩ ⟨⟩
    rw [h.le_iff]
    by_cases h1 : v.verse = 1 ∧ (⟨v.book, v.chap, 0⟩ : BibleVerse) ∈ canon e.data true <;>
      by_cases h2 : w.verse = 1 ∧ (⟨w.book, w.chap, 0⟩ : BibleVerse) ∈ canon e.data true
    · rw [if_pos h1, if_pos h2]
      exact hvw.imp id (And.imp id (Or.imp id (And.imp id (by intro; simp only; omega))))
    · rw [if_pos h1, if_neg h2]
      exact hvw.imp id (And.imp id (Or.imp id (And.imp id (by intro; simp only; omega))))
    · rw [if_neg h1, if_pos h2]; simp only
      rcases hvw with hh | ⟨hb, hh | ⟨hc, hh⟩⟩
      · exact .inl hh
      · exact .inr ⟨hb, .inl hh⟩
      · refine .inr ⟨hb, .inr ⟨hc, ?_⟩⟩
        by_cases h0 : v.verse = 1
        · exact absurd ⟨h0, by rw [hb, hc]; exact h2.2⟩ h1
        · omega
    · rw [if_neg h1, if_neg h2]; exact hvw

/-- C09: the conversions are monotone: they never move a verse past another one. -/
theorem C09_conversions_monotone (e : Env) (h : e.data.WF) (v w : BibleVerse) (hv : v ∈ canon e.data true)
    (hw : w ∈ canon e.data true) (hvw : v.lessEq e.data w = .ok true) :
    (∀ v' w', v.verse0to1 e = .ok v' → w.verse0to1 e = .ok w' → v'.lessEq e.data w' = .ok true) ∧
    (∀ v' w', v.verse1to0 e = .ok v' → w.verse1to0 e = .ok w' → v'.lessEq e.data w' = .ok true) := by
  have iv := C09_conversions_inverse e h v hv
  have iw := C09_conversions_inverse e h w hw
  have key := conversions_monotone_le e h v w hv hw ((lessEq_listed ((mem_canon h).mp hv) ((mem_canon h).mp hw)).mp hvw)
  exact ⟨fun v' w' h1 h2 => (lessEq_listed ((mem_canon h).mp (iv.1 v' h1).1) ((mem_canon h).mp (iw.1 w' h2).1)).mpr (key.1 v' w' h1 h2),
    fun v' w' h1 h2 => (lessEq_listed ((mem_canon h).mp (iv.2 v' h1).1) ((mem_canon h).mp (iw.2 w' h2).1)).mpr (key.2 v' w' h1 h2)⟩

example : BibleVerse.verse0to1 dflt ⟨.Psa, 3, 0⟩ = .ok ⟨.Psa, 3, 1⟩ ∧ BibleVerse.verse1to0 dflt ⟨.Psa, 3, 1⟩ = .ok ⟨.Psa, 3, 0⟩ ∧
    BibleVerse.verse1to0 dflt ⟨.Psa, 1, 1⟩ = .ok ⟨.Psa, 1, 1⟩ := by decide +kernel
example : (⟨.Psa, 3, 0⟩ : BibleVerse) ∈ canon dflt.data true := (mem_canon defaultData_wf).mpr (by decide +kernel)

/-! ## C10 -/

/-- C10: `next()` and `prev()` are one step in the configured book order, `None` exactly at its ends. -/
theorem C10_next_prev (d : BibleData) (h : d.WF) (i : Nat) (b : BibleBook) (hb : d.bookOrder[i]? = some b) :
    b.next d = d.bookOrder[i + 1]? ∧ b.prev d = (if i = 0 then none else d.bookOrder[i - 1]?) := by
  have hm := List.mem_of_getElem? hb
  have := h.bidx_of_get hb
  have hlt := (List.getElem?_eq_some_iff.mp hb).1
  constructor
  · simp only [BibleBook.next, h.order_eq hm, this]
    split
    · rw [List.getElem?_eq_none (by omega)]
    · rfl
  · simp only [BibleBook.prev, h.order_eq hm, this]

/-- C10: a book that is not in the book order has no next and no previous one. -/
theorem C10_not_listed (d : BibleData) (b : BibleBook) (hb : b ∉ d.bookOrder) : b.next d = none ∧ b.prev d = none := by
  simp only [BibleBook.next, BibleBook.prev, order_of_not_mem hb]
  exact ⟨trivial, trivial⟩

/-- C10: `next` and `prev` are inverse, and of the books in the book order only the last (first) one has no next (previous)
one. -/
theorem C10_next_prev_inverse (d : BibleData) (h : d.WF) (b c : BibleBook) :
    (b.next d = some c ↔ c.prev d = some b) ∧
    (b ∈ d.bookOrder → ((b.next d = none ↔ d.bookOrder.getLast? = some b) ∧
      (b.prev d = none ↔ d.bookOrder.head? = some b))) := by
  by_cases hlb : b ∈ d.bookOrder
  rotate_left
  · refine ⟨?_, fun hh => absurd hh hlb⟩
    rw [(C10_not_listed d b hlb).1]
    exact ⟨nofun, fun hh => absurd (BibleData.WF.prev_mem hh) hlb⟩
  suffices key : ∀ c, c ∈ d.bookOrder → (b.next d = some c ↔ c.prev d = some b) ∧
      (b ∈ d.bookOrder → ((b.next d = none ↔ d.bookOrder.getLast? = some b) ∧
        (b.prev d = none ↔ d.bookOrder.head? = some b))) by
    by_cases hlc : c ∈ d.bookOrder
    · exact key c hlc
    · refine ⟨?_, (key b hlb).2⟩
      rw [(C10_not_listed d c hlc).2]
      exact ⟨fun hh => absurd (BibleData.WF.next_mem hh) hlc, nofun⟩
  intro c hlc
  have hb := h.bidx_get hlb
  have hc := h.bidx_get hlc
  have kb := C10_next_prev d h _ b hb
  have kc := C10_next_prev d h _ c hc
  have lb := h.bidx_lt hlb
  rw [kb.1, kb.2, kc.2]
  refine ⟨⟨?_, ?_⟩, fun _ => ⟨⟨?_, ?_⟩, ⟨?_, ?_⟩⟩⟩
  · intro hh
    have := h.bidx_of_get hh
    rw [if_neg (by omega), this, show bidx d b + 1 - 1 = bidx d b by omega, hb]
  · intro hh
    split at hh
    · cases hh
    · have := h.bidx_of_get hh
      rw [show bidx d b + 1 = bidx d c by omega, hc]
  · intro hh
    rw [List.getElem?_eq_none_iff] at hh
    rw [List.getLast?_eq_getElem?, show d.bookOrder.length - 1 = bidx d b by omega, hb]
  · intro hh
    rw [List.getLast?_eq_getElem?] at hh
    have := h.bidx_of_get hh
    rw [List.getElem?_eq_none_iff]; omega
  · intro hh
    split at hh
    · rename_i h0
      rw [List.head?_eq_getElem?, ← h0, hb]
    · rw [List.getElem?_eq_none_iff] at hh; omega
  · intro hh
    rw [List.head?_eq_getElem?] at hh
    have := h.bidx_of_get hh
    rw [if_pos (by omega)]

/-- C10: starting at the first book and calling `next()` `i` times gives the `i`-th book, so all books are visited. -/
theorem C10_walk_visits_all (d : BibleData) (h : d.WF) (i : Nat) :
    (Nat.repeat (fun o => o.bind (fun b => BibleBook.next d b)) i d.bookOrder.head?) = d.bookOrder[i]? := by
  induction i with
  | zero => rw [Nat.repeat, List.head?_eq_getElem?]
  | succ i ih =>
    rw [Nat.repeat, ih]
    cases hb : d.bookOrder[i]? with
    | none =>
      rw [List.getElem?_eq_none_iff] at hb
      rw [List.getElem?_eq_none (by omega)]; rfl
    | some b => exact (C10_next_prev d h i b hb).1

example : BibleBook.next defaultData .Mal = some .Matt ∧ BibleBook.prev defaultData .Matt = some .Mal ∧
    BibleBook.next defaultData .Rev = none ∧ defaultData.bookOrder[39]? = some .Matt := by decide +kernel

/-- The default data with the New Testament books only in the book order. -/
def ntData : BibleData := { defaultData with bookOrder := defaultData.bookOrder.drop 39 }

theorem ntData_wf : ntData.WF := ⟨by decide +kernel, defaultData_wf.chaps⟩

example : BibleBook.Mal ∉ ntData.bookOrder ∧ BibleBook.prev ntData .Matt = none ∧ BibleBook.next ntData .Matt = some .Mark ∧
    BibleVerse.add ⟨ntData, .MULTIBOOK⟩ ⟨.Matt, 28, 20⟩ 1 none = .ok (some ⟨.Mark, 1, 1⟩) ∧
    BibleVerse.add ⟨ntData, .none⟩ ⟨.Mal, 3, 18⟩ 1 none = .ok (some ⟨.Mal, 4, 1⟩) ∧
    BibleVerse.add ⟨ntData, .MULTIBOOK⟩ ⟨.Mal, 4, 6⟩ 1 none = .ok none := by decide +kernel

/-! ## C11 -/

/-- C11: `last_verse` of a chapter or book is the last element of its list of verses; it raises `InvalidReferenceError`
exactly for a chapter that does not exist. -/
theorem C11_last_verse (e : Env) (h : e.data.WF) (b : BibleBook) (c : Int) (v0 : Bool) :
    (∀ v, b.lastVerse e (some c) = .ok v ↔ c ∈ chapters e.data b ∧ (chapVerses e.data v0 b c).getLast? = some v) ∧
    (∀ err, b.lastVerse e (some c) = .error err ↔ err = .invalidReference ∧ c ∉ chapters e.data b) ∧
    (∀ v, b.lastVerse e none = .ok v ↔ (bookVerses e.data v0 b).getLast? = some v) := by
  rw [lastVerse_eq h, lastVerse_none h, bookVerses_getLast h]
  simp only [mem_chapters]
  refine ⟨?_, ?_, fun v => by simp⟩
  · intro v
    by_cases hc : 1 ≤ c ∧ c ≤ nChaps e.data b
    · rw [if_pos hc, chapVerses_getLast h hc.1 hc.2]; simp [hc]
    · rw [if_neg hc]; simp [hc]
  · intro err
    by_cases hc : 1 ≤ c ∧ c ≤ nChaps e.data b
    · rw [if_pos hc]; simp [hc]
    · rw [if_neg hc]; simp only [hc, not_false_eq_true, and_true, Except.error.injEq, eq_comm]

/-- C11 for `first_verse`, as far as it is true: when verse 0s allowed for the call are also allowed globally, or the
chapter has none. In the remaining case the code raises (`C11_first_verse_defect`). -/
theorem C11_first_verse_partial (e : Env) (h : e.data.WF) (b : BibleBook) (c : Int) (flags : Option BibleFlag)
    (hg : ¬ ((inForce e flags).verse0 = true ∧ e.flags.verse0 = false ∧ c ∈ e.data.verse0s b)) :
    (∀ v, b.firstVerse e (some c) flags = .ok v ↔
      c ∈ chapters e.data b ∧ (chapVerses e.data (inForce e flags).verse0 b c).head? = some v) ∧
    (∀ err, b.firstVerse e (some c) flags = .error err ↔ err = .invalidReference ∧ c ∉ chapters e.data b) := by
  rw [← eff_eq] at *
  rw [firstVerse_eq h]
  have := (firstNum_le_iff e.data e.flags.verse0 (e.eff flags).verse0 b c).mpr hg
  simp only [mem_chapters]
  constructor
  · intro v
    by_cases hc : 1 ≤ c ∧ c ≤ nChaps e.data b
    · rw [if_pos ⟨hc.1, hc.2, this⟩, chapVerses_head h hc.1 hc.2]; simp [hc]
    · rw [if_neg (fun hh => hc ⟨hh.1, hh.2.1⟩)]; simp [hc]
  · intro err
    by_cases hc : 1 ≤ c ∧ c ≤ nChaps e.data b
    · rw [if_pos ⟨hc.1, hc.2, this⟩]; simp [hc]
    · rw [if_neg (fun hh => hc ⟨hh.1, hh.2.1⟩)]; simp only [hc, not_false_eq_true, and_true, Except.error.injEq, eq_comm]

/-- C11 for `first_verse` of a whole book, under the same condition for chapter 1. -/
theorem C11_first_verse_book_partial (e : Env) (h : e.data.WF) (b : BibleBook) (flags : Option BibleFlag)
    (hg : ¬ ((inForce e flags).verse0 = true ∧ e.flags.verse0 = false ∧ (1 : Int) ∈ e.data.verse0s b)) (v : BibleVerse) :
    b.firstVerse e none flags = .ok v ↔ (bookVerses e.data (inForce e flags).verse0 b).head? = some v := by
  rw [firstVerse_none h, (C11_first_verse_partial e h b 1 flags hg).1, bookVerses_head h, chapVerses_head h (by omega)]
  · have := h.nChaps_pos b
    rw [mem_chapters]
    constructor
    · exact fun hh => hh.2
    · exact fun hh => ⟨⟨by omega, by omega⟩, hh⟩
  · have := h.nChaps_pos b; omega

/-- C11 fails: `first_verse` raises whenever a verse 0 is allowed by the call's flags only. -/
theorem C11_first_verse_defect (e : Env) (h : e.data.WF) (b : BibleBook) (c : Int) (flags : Option BibleFlag)
    (hg : (inForce e flags).verse0 = true ∧ e.flags.verse0 = false ∧ c ∈ e.data.verse0s b) :
    b.firstVerse e (some c) flags = .error .invalidReference := by
  rw [← eff_eq] at hg
  rw [firstVerse_eq h, if_neg]
  rintro ⟨_, _, h3⟩
  exact (firstNum_le_iff e.data e.flags.verse0 (e.eff flags).verse0 b c).mp h3 hg

/-- C11: the witness for the defect. -/
theorem C11_counterexample : BibleBook.firstVerse dflt .Psa (some 3) (some .VERSE_0) = .error .invalidReference ∧
    (chapVerses dflt.data true .Psa 3).head? = some ⟨.Psa, 3, 0⟩ := by decide +kernel

/-- C11: `is_last_in_chap` and `is_last_in_book` hold exactly for those verses, of the chapter (of the same book) or the book
asked about, by default the verse's own. -/
theorem C11_is_last (e : Env) (h : e.data.WF) (v : BibleVerse) (v0 : Bool) (chap : Option Int) (book : Option BibleBook)
    (hc : chap.getD v.chap ∈ chapters e.data v.book) :
    v.isLastInChap e chap = .ok (decide ((chapVerses e.data v0 v.book (chap.getD v.chap)).getLast? = some v)) ∧
    v.isLastInBook e book = .ok (decide ((bookVerses e.data v0 (book.getD v.book)).getLast? = some v)) := by
  rw [mem_chapters] at hc
  constructor
  · simp only [BibleVerse.isLastInChap, BibleVerse.lastVerse, lastVerse_eq h]
    rw [if_pos hc, chapVerses_getLast h hc.1 hc.2]
    simp [bind, Except.bind, pure, Except.pure, eq_comm]
  · simp only [BibleVerse.isLastInBook, lastVerse_none h]
    rw [bookVerses_getLast h]
    simp [bind, Except.bind, pure, Except.pure, eq_comm]

/-- C11: `is_first_in_chap` and `is_first_in_book` hold exactly for those verses, of the chapter (of the same book) or the book
asked about, when the call allows verse 0s only if they are allowed globally. -/
theorem C11_is_first_partial (e : Env) (h : e.data.WF) (v : BibleVerse) (chap : Option Int) (book : Option BibleBook)
    (hc : chap.getD v.chap ∈ chapters e.data v.book)
    (flags : Option BibleFlag) (hg : (inForce e flags).verse0 = true → e.flags.verse0 = true) :
    v.isFirstInChap e chap flags =
      .ok (decide ((chapVerses e.data (inForce e flags).verse0 v.book (chap.getD v.chap)).head? = some v)) ∧
    v.isFirstInBook e book flags =
      .ok (decide ((bookVerses e.data (inForce e flags).verse0 (book.getD v.book)).head? = some v)) := by
  rw [mem_chapters] at hc
  rw [← eff_eq] at *
  have hle : ∀ b c, firstNum e.data e.flags.verse0 b c ≤ firstNum e.data (e.eff flags).verse0 b c := fun b c =>
    (firstNum_le_iff _ _ _ _ _).mpr (fun hh => by have := hg hh.1; rw [hh.2.1] at this; cases this)
  constructor
  · simp only [BibleVerse.isFirstInChap, BibleVerse.firstVerse, firstVerse_eq h]
    rw [if_pos ⟨hc.1, hc.2, hle _ _⟩, chapVerses_head h hc.1 hc.2]
    simp [bind, Except.bind, pure, Except.pure, eq_comm]
  · have hp := h.nChaps_pos (book.getD v.book)
    simp only [BibleVerse.isFirstInBook, firstVerse_none h, firstVerse_eq h]
    rw [if_pos ⟨by omega, by omega, hle _ _⟩, bookVerses_head h]
    simp [bind, Except.bind, pure, Except.pure, eq_comm]

example : (some (16 : Int)).getD 3 ∈ chapters dflt.data .Mark ∧ (⟨.Mark, 16, 20⟩ : BibleVerse).isLastInChap dflt (some 16) = .ok true ∧
    (⟨.Mark, 16, 20⟩ : BibleVerse).isLastInBook dflt (some .Luke) = .ok false ∧
    (⟨.Mark, 1, 1⟩ : BibleVerse).isFirstInChap dflt (some 2) none = .ok false ∧
    (⟨.Mark, 1, 1⟩ : BibleVerse).isFirstInBook dflt (some .Mark) none = .ok true := by decide +kernel

/-! ## C54 -/

/-- **C54**: the numbers of a book's chapters, of the verses of each chapter and of all its verses are what `min_chap_num`,
`max_chap_num`, `chap_count`, `min_verse_num`, `max_verse_num` and `verse_count` say; chapters that do not exist are refused. -/
theorem C54_counts (e : Env) (h : e.data.WF) (b : BibleBook) (flags : Option BibleFlag) :
    (∀ c, c ∈ chapters e.data b ↔ b.minChapNum e.data ≤ c ∧ c ≤ b.maxChapNum e.data) ∧
    b.chapCount e.data = (chapters e.data b).length ∧
    (∀ c ∈ chapters e.data b, ∃ mn mx, b.minVerseNum e c flags = .ok mn ∧ b.maxVerseNum e.data c = .ok mx ∧
      ∀ n, ⟨b, c, n⟩ ∈ bookVerses e.data (inForce e flags).verse0 b ↔ mn ≤ n ∧ n ≤ mx) ∧
    (∀ c, c ∉ chapters e.data b → b.minVerseNum e c flags = .error .invalidReference ∧
      b.maxVerseNum e.data c = .error .invalidReference) ∧
    b.verseCount e flags = .ok (bookVerses e.data (inForce e flags).verse0 b).length := by
  refine ⟨fun c => by rw [mem_chapters, h.minChapNum, h.maxChapNum], ?_, fun c hc => ?_, fun c hc => ?_, ?_⟩
  · rw [BibleBook.chapCount, h.minChapNum, h.maxChapNum, chapters, length_intRange]; omega
  · rw [mem_chapters] at hc
    rw [← eff_eq, h.minVerseNum, h.maxVerseNum, if_pos hc, if_pos hc]
    refine ⟨_, _, rfl, rfl, fun n => ?_⟩
    rw [mem_bookVerses]
    exact ⟨fun hh => hh.2.2.2, fun hh => ⟨rfl, hc.1, hc.2, hh⟩⟩
  · rw [mem_chapters] at hc
    rw [h.minVerseNum, h.maxVerseNum, if_neg hc, if_neg hc]
    exact ⟨rfl, rfl⟩
  · have hn : (b.chapCount e.data).toNat = nChaps e.data b := by
      rw [BibleBook.chapCount, h.minChapNum, h.maxChapNum]; omega
    have key : ∀ k, k ≤ nChaps e.data b → (List.range k).foldlM (fun (count : Int) (i : Nat) => do
        let mx ← b.maxVerseNum e.data (i + 1)
        let mn ← b.minVerseNum e (i + 1) flags
        return count + (mx - mn + 1)) 0 =
        (.ok (((intRange 1 k).flatMap (chapVerses e.data (e.eff flags).verse0 b)).length : Int) : Except PyErr Int) := by
      intro k
      induction k with
      | zero => intro _; rfl
      | succ k ih =>
        intro hk
        have hc : (1 : Int) ≤ k + 1 ∧ (k + 1 : Int) ≤ nChaps e.data b := by omega
        rw [List.range_succ, List.foldlM_append, ih (by omega)]
        have hi : intRange 1 ((k + 1 : Nat) : Int) = intRange 1 k ++ [(k + 1 : Int)] := by
          simp only [intRange]
          rw [show (((k + 1 : Nat) : Int) + 1 - 1).toNat = k + 1 by omega, show ((k : Int) + 1 - 1).toNat = k by omega,
            List.range_succ, List.map_append, List.map_singleton, Int.add_comm 1 (k : Int)]
        simp only [List.foldlM_cons, List.foldlM_nil, h.maxVerseNum, h.minVerseNum, if_pos hc, bind, Except.bind, pure, Except.pure]
        rw [hi, List.flatMap_append, List.length_append]
        have h1 := h.lastNum_pos hc.1 hc.2
        have h2 := firstNum_le_one e.data (e.eff flags).verse0 b (k + 1)
        have h3 : (([(k + 1 : Int)].flatMap (chapVerses e.data (e.eff flags).verse0 b)).length : Int) =
            lastNum e.data b (k + 1) - firstNum e.data (e.eff flags).verse0 b (k + 1) + 1 := by
          simp only [List.flatMap_cons, List.flatMap_nil, List.append_nil, chapVerses, List.length_map, length_intRange]
          omega
        rw [Int.natCast_add, h3]
    unfold BibleBook.verseCount
    rw [hn, key _ (Nat.le_refl _), ← eff_eq]
    rfl

example : BibleBook.verseCount dfltAll .Psa none = .ok 2577 := by decide +kernel

example : BibleBook.firstVerse dfltAll .Psa (some 3) none = .ok ⟨.Psa, 3, 0⟩ ∧ BibleBook.lastVerse dflt .Matt none = .ok ⟨.Matt, 28, 20⟩ ∧
    BibleVerse.isFirstInChap dfltAll ⟨.Psa, 3, 0⟩ none none = .ok true ∧ BibleVerse.isLastInBook dflt ⟨.Matt, 28, 20⟩ none = .ok true ∧
    ¬ ((inForce dflt none).verse0 = true ∧ dflt.flags.verse0 = false ∧ (3 : Int) ∈ dflt.data.verse0s .Psa) := by decide +kernel

end Bibleref
