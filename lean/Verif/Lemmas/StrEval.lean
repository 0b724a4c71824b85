import Verif.Lemmas.StrText
import Verif.Lemmas.Args
import Verif.Lemmas.Regroup
import Verif.Props.Parsing

/-!
# What the callbacks make of the texts of references
-/

namespace Bibleref
open Spec

/-! ## Shapes of ranges -/

theorem pos_le_parts {d : BibleData} (h : d.WF) {v w : BibleVerse} {v0 w0} (hv : Valid d v0 v) (hw : Valid d w0 w) :
    pos d v ≤ pos d w ↔ bidx d v.book < bidx d w.book ∨
      (v.book = w.book ∧ (v.chap < w.chap ∨ (v.chap = w.chap ∧ v.verse ≤ w.verse))) := by
  rw [← h.le_pos hv hw, h.le_iff]

/-- The whole of the first book, chapter; the whole of the last book, chapter; exactly one book, chapter. -/
def FromBook (d : BibleData) (v0 : Bool) (r : BibleRange) : Prop :=
  r.start = stBook d v0 r.start ∧ pos d (enBook d r.start) ≤ pos d r.stop
def FromChap (d : BibleData) (v0 : Bool) (r : BibleRange) : Prop :=
  r.start = stChap d v0 r.start ∧ pos d (enChap d r.start) ≤ pos d r.stop
def ToBook (d : BibleData) (v0 : Bool) (r : BibleRange) : Prop :=
  r.stop = enBook d r.stop ∧ pos d r.start ≤ pos d (stBook d v0 r.stop)
def ToChap (d : BibleData) (v0 : Bool) (r : BibleRange) : Prop :=
  r.stop = enChap d r.stop ∧ pos d r.start ≤ pos d (stChap d v0 r.stop)
def OneBook (d : BibleData) (v0 : Bool) (r : BibleRange) : Prop := r.start = stBook d v0 r.start ∧ r.stop = enBook d r.start
def OneChap (d : BibleData) (v0 : Bool) (r : BibleRange) : Prop := r.start = stChap d v0 r.start ∧ r.stop = enChap d r.start

instance {d v0 r} : Decidable (FromBook d v0 r) := by unfold FromBook; infer_instance
instance {d v0 r} : Decidable (FromChap d v0 r) := by unfold FromChap; infer_instance
instance {d v0 r} : Decidable (ToBook d v0 r) := by unfold ToBook; infer_instance
instance {d v0 r} : Decidable (ToChap d v0 r) := by unfold ToChap; infer_instance
instance {d v0 r} : Decidable (OneBook d v0 r) := by unfold OneBook; infer_instance
instance {d v0 r} : Decidable (OneChap d v0 r) := by unfold OneChap; infer_instance

section
variable {d : BibleData} (h : d.WF) {v0 : Bool} {r : BibleRange} (hr : ROK d v0 r)
include h hr

theorem FromBook.same (hf : FromBook d v0 r) (hb : r.start.book = r.stop.book) : OneBook d v0 r := by
  refine ⟨hf.1, ?_⟩
  have hen := (blocks_book h v0).en_valid hr.s.mono
  have h1 := (blocks_book h v0).en_max hr.t.mono hr.s.mono hb.symm
  exact ((h.pos_inj hen hr.t).1 (Nat.le_antisymm hf.2 h1)).symm

theorem FromChap.same (hf : FromChap d v0 r) (hb : r.start.book = r.stop.book) (hc : r.start.chap = r.stop.chap) :
    OneChap d v0 r := by
  refine ⟨hf.1, ?_⟩
  have hen := (blocks_chap h v0).en_valid hr.s.mono
  have h1 := (blocks_chap h v0).en_max hr.t.mono hr.s.mono (by rw [hb, hc])
  exact ((h.pos_inj hen hr.t).1 (Nat.le_antisymm hf.2 h1)).symm

theorem ToBook.same (hf : ToBook d v0 r) (hb : r.start.book = r.stop.book) : OneBook d v0 r := by
  have hst := (blocks_book h v0).st_valid hr.t.mono
  have h1 := (blocks_book h v0).st_min hr.s hr.t.mono hb
  have h2 := (h.pos_inj hr.s hst).1 (Nat.le_antisymm hf.2 h1)
  refine ⟨?_, ?_⟩
  · unfold stBook at h2 ⊢; rw [hb]; exact h2
  · have := hf.1; unfold enBook at this ⊢; rw [hb]; exact this

theorem ToChap.same (hf : ToChap d v0 r) (hb : r.start.book = r.stop.book) (hc : r.start.chap = r.stop.chap) :
    OneChap d v0 r := by
  have hst := (blocks_chap h v0).st_valid hr.t.mono
  have h1 := (blocks_chap h v0).st_min hr.s hr.t.mono (by rw [hb, hc])
  have h2 := (h.pos_inj hr.s hst).1 (Nat.le_antisymm hf.2 h1)
  refine ⟨?_, ?_⟩
  · unfold stChap at h2 ⊢; rw [hb, hc]; exact h2
  · have := hf.1; unfold enChap at this ⊢; rw [hb, hc]; exact this

omit h hr in
theorem OneBook.from (hf : OneBook d v0 r) : FromBook d v0 r ∧ ToBook d v0 r := by
  have hb : r.stop.book = r.start.book := by rw [hf.2]; rfl
  refine ⟨⟨hf.1, by rw [hf.2]; exact Nat.le_refl _⟩, ?_, ?_⟩
  · rw [show enBook d r.stop = enBook d r.start by unfold enBook; rw [hb]]; exact hf.2
  · rw [show stBook d v0 r.stop = stBook d v0 r.start by unfold stBook; rw [hb], ← hf.1]; exact Nat.le_refl _

omit h hr in
theorem OneChap.from (hf : OneChap d v0 r) : FromChap d v0 r ∧ ToChap d v0 r := by
  have hb : r.stop.book = r.start.book := by rw [hf.2]; rfl
  have hc : r.stop.chap = r.start.chap := by rw [hf.2]; rfl
  refine ⟨⟨hf.1, by rw [hf.2]; exact Nat.le_refl _⟩, ?_, ?_⟩
  · rw [show enChap d r.stop = enChap d r.start by unfold enChap; rw [hb, hc]]; exact hf.2
  · rw [show stChap d v0 r.stop = stChap d v0 r.start by unfold stChap; rw [hb, hc], ← hf.1]; exact Nat.le_refl _

omit h in
theorem FromChap.single (hf : FromChap d v0 r) (hn : nChaps d r.start.book = 1) : FromBook d v0 r := by
  have hc : r.start.chap = 1 := by have := hr.s.1; have := hr.s.2.1; omega
  refine ⟨?_, ?_⟩
  · have := hf.1; unfold stChap at this; unfold stBook; rw [hc] at this; exact this
  · have := hf.2; unfold enChap at this; unfold enBook; rw [hc] at this; rw [hn]; exact this

omit h in
theorem ToChap.single (hf : ToChap d v0 r) (hn : nChaps d r.stop.book = 1) : ToBook d v0 r := by
  have hc : r.stop.chap = 1 := by have := hr.t.1; have := hr.t.2.1; omega
  refine ⟨?_, ?_⟩
  · have := hf.1; unfold enChap at this; unfold enBook; rw [hn]; rw [hc] at this; exact this
  · have := hf.2; unfold stChap at this; unfold stBook; rw [hc] at this; exact this

/-- A range that is to the end of its last chapter because it is the whole of its first book. -/
theorem FromBook.toChap (hf : FromBook d v0 r) (hb : r.start.book = r.stop.book) : ToChap d v0 r := by
  obtain ⟨h1, h2⟩ := hf.same h hr hb
  have hn := h.nChaps_pos r.start.book
  have hc : r.stop.chap = nChaps d r.start.book := by rw [h2]; rfl
  refine ⟨?_, ?_⟩
  · unfold enChap; rw [hc, ← hb]; exact h2
  · have hst := (blocks_chap h v0).st_valid hr.t.mono
    have := (blocks_book h v0).st_min hst hr.s.mono hb.symm
    rw [← h1] at this
    exact this

theorem FromBook.fromChap (hf : FromBook d v0 r) : FromChap d v0 r := by
  have hc : r.start.chap = 1 := by rw [hf.1]; rfl
  refine ⟨?_, ?_⟩
  · have := hf.1; unfold stBook at this; unfold stChap; rw [hc]; exact this
  · have hen := (blocks_chap h v0).en_valid hr.s.mono
    have := (blocks_book h v0).en_max hen.mono hr.s.mono rfl
    exact Nat.le_trans this hf.2

end

/-! ## The constructor, as the callbacks call it -/

section
variable {e : Env} (h : e.data.WF) {flags : Option BibleFlag}
include h

omit h in
theorem not_reversed_none (d : BibleData) (b : BibleBook) (c v : Option Int) : ¬ Reversed d b c v none none none := by
  rintro (⟨b', hb, _⟩ | ⟨_, c', _, ⟨c'', hc, _⟩ | ⟨_, n, n', _, hn, _⟩⟩)
  · cases hb
  · cases hc
  · cases hn

theorem new_valid {v : BibleVerse} (hv : Valid e.data (e.eff flags).verse0 v) :
    BibleVerse.new e v.book v.chap v.verse (some (e.eff flags)) = .ok v := by
  rw [new_orInvalid h hv.listed, firstOf_verse h, if_pos hv]; rfl

theorem ofArgs_one_verse {v : BibleVerse} (hv : Valid e.data (e.eff flags).verse0 v) :
    BibleRange.ofArgs e (some v.book) (some v.chap) (some v.verse) none none none (some (e.eff flags)) = .ok ⟨v, v⟩ := by
  rw [ofArgs_stages rfl (swapArgs_keep h hv.listed (fun _ hb => by cases hb) (not_reversed_none _ _ _ _)), Env.eff_eff]
  simp [startE, stopE, new_valid h hv]

theorem ofArgs_two_verses {r : BibleRange} (hr : ROK e.data (e.eff flags).verse0 r)
    (hm : (e.eff flags).multibook = true ∨ r.start.book = r.stop.book) :
    BibleRange.ofArgs e (some r.start.book) (some r.start.chap) (some r.start.verse) (some r.stop.book) (some r.stop.chap)
      (some r.stop.verse) (some (e.eff flags)) = .ok r := by
  have hn : ¬ Reversed e.data r.start.book (some r.start.chap) (some r.start.verse) (some r.stop.book) (some r.stop.chap)
      (some r.stop.verse) := by
    have hle := (pos_le_parts h hr.s hr.t).1 hr.le
    rw [bidx_of_mem hr.s.listed, bidx_of_mem hr.t.listed] at hle
    rintro (⟨b', hb, hlt⟩ | ⟨hbb, c', hc, ⟨c'', hc', hlt⟩ | ⟨_, n, n', hn, hn', hlt⟩⟩)
    · cases hb
      rcases hle with hle | ⟨hle, _⟩
      · omega
      · rw [hle] at hlt; omega
    · cases hc; cases hc'
      have : r.start.book = r.stop.book := by rcases hbb with hbb | hbb <;> simp at hbb; exact hbb.symm
      rw [this] at hle
      omega
    · cases hc; cases hn; cases hn'
      rename_i hcc
      have : r.start.book = r.stop.book := by rcases hbb with hbb | hbb <;> simp at hbb; exact hbb.symm
      have : r.stop.chap = r.start.chap := by rcases hcc with hcc | hcc <;> simp at hcc; exact hcc
      rw [this, ‹r.start.book = r.stop.book›] at hle
      omega
  rw [ofArgs_stages (compareBooks_ok hr.s.listed (fun b hb => by cases hb; exact hr.t.listed)) (swapArgs_keep h hr.s.listed (fun b hb => by cases hb; exact hr.t.listed) hn), Env.eff_eff]
  simp only [startE, stopE, new_valid h hr.s, Option.getD_some, new_valid h hr.t]
  rw [if_neg (by simp), if_neg]
  rintro ⟨h1, h2⟩
  rcases hm with hm | hm
  · rw [hm] at h1; cases h1
  · exact h2 hm

section
variable (hg : (e.eff flags).verse0 = true → e.flags.verse0 = true)
include hg

theorem ofArgs_one_book {v : BibleVerse} (hb : v.book ∈ e.data.bookOrder) :
    BibleRange.ofArgs e (some v.book) none none none none none (some (e.eff flags)) =
      .ok ⟨stBook e.data (e.eff flags).verse0 v, enBook e.data v⟩ := by
  have := (ofArgs_value h (flags := some (e.eff flags)) hb (fun _ hx => by cases hx)
    (not_reversed_none e.data v.book none none)).1 (by rwa [Env.eff_eff])
  rw [this, Env.eff_eff]
  simp [argRange, argStart, argStop, firstOf_book h hb, lastOf_book h hb, rangeFrom, stBook, enBook]

theorem ofArgs_one_chap {v : BibleVerse} (hb : v.book ∈ e.data.bookOrder) (h1 : 1 ≤ v.chap) (h2 : v.chap ≤ nChaps e.data v.book) :
    BibleRange.ofArgs e (some v.book) (some v.chap) none none none none (some (e.eff flags)) =
      .ok ⟨stChap e.data (e.eff flags).verse0 v, enChap e.data v⟩ := by
  have := (ofArgs_value h (flags := some (e.eff flags)) hb (fun _ hx => by cases hx)
    (not_reversed_none e.data v.book (some v.chap) none)).1
    (by rwa [Env.eff_eff])
  rw [this, Env.eff_eff]
  simp [argRange, argStart, argStop, firstOf_chap h hb, lastOf_chap h hb, rangeFrom, h1, h2, stChap, enChap]

end
end

/-! ## Single references -/

/-- The parser is in the book, and if the book has several chapters at this level; at verse level, in the chapter. -/
def Level (d : BibleData) (ps : PState) (b : BibleBook) (c : Int) (atVerse : Bool) : Prop :=
  ps.book = some b ∧ (nChaps d b ≠ 1 → ps.atVerse = atVerse ∧ (atVerse = true → ps.chap = some c))

section
variable {u : Uni} {e : Env} (h : e.data.WF) {flags : Option BibleFlag} {o : StrOpts} {v : BibleVerse}
  (hv : Valid e.data (e.eff flags).verse0 v)
include h hv

/-- The tree of parts of a verse. -/
def tree (d : BibleData) (o : StrOpts) (p : Parts) (v : BibleVerse) : Single := treeOf (shownAs d o v.book) (partsShown d p v) v

omit hv in
theorem partsShown_multi (hn : nChaps e.data v.book ≠ 1) (p : Parts) : partsShown e.data p v = p := by
  unfold partsShown
  rw [h.chapCount, if_neg (by omega)]

omit hv in
theorem partsShown_single (hn : nChaps e.data v.book = 1) (p : Parts) :
    partsShown e.data p v = { p with chap := false } := by
  unfold partsShown
  rw [h.chapCount, hn, if_pos (by rfl)]

omit h in
theorem toNat_chap : ((v.chap.toNat : Nat) : Int) = v.chap := by have := hv.1; omega

omit h in
theorem verse_nonneg : 0 ≤ v.verse := by
  have h1 := hv.2.2.1
  unfold firstNum at h1
  split at h1 <;> omega

omit h in
theorem toNat_verse : ((v.verse.toNat : Nat) : Int) = v.verse := by have := verse_nonneg hv; omega

omit h in
theorem chap_one (hn : nChaps e.data v.book = 1) : v.chap = 1 := by have := hv.1; have := hv.2.1; omega

omit h hv in
theorem named_run (hn : NameReads u e.data o v.book) {α} (f : BibleBook → PM α) (ps : PState) :
    (nameCallback u e.data (shownAs e.data o v.book) >>= f) ps = f v.book ps := by
  unfold nameCallback
  rw [hn.2]
  rfl

omit h hv in
theorem book_run (hn : NameReads u e.data o v.book) (f : BibleFlag) (ps : PState) :
    evalSingle u e f (.book (shownAs e.data o v.book)) ps =
      (asParsing (BibleRange.ofArgs e (some v.book) none none none none none (some f)), ⟨some v.book, ps.chap, false⟩) :=
  named_run hn _ ps

omit h hv in
theorem bookNum_run (hn : NameReads u e.data o v.book) (f : BibleFlag) (n : Nat) (ps : PState) :
    evalSingle u e f (.bookNum (shownAs e.data o v.book) n) ps =
      if v.book.chapCount e.data = 1 then
        (asParsing (BibleRange.ofArgs e (some v.book) (some (v.book.minChapNum e.data)) (some n) none none none (some f)),
          ⟨some v.book, some (v.book.minChapNum e.data), true⟩)
      else (asParsing (BibleRange.ofArgs e (some v.book) (some n) none none none none (some f)),
          ⟨some v.book, some n, false⟩) := by
  refine (named_run hn _ ps).trans ?_
  rw [PM.bind_run]
  simp only [PM.get]
  by_cases h2 : v.book.chapCount e.data = 1
  · rw [if_pos h2, if_pos h2]; rfl
  · rw [if_neg h2, if_neg h2]; rfl

omit h hv in
theorem bookChapVerse_run (hn : NameReads u e.data o v.book) (f : BibleFlag) (c n : Nat) (ps : PState) :
    evalSingle u e f (.bookChapVerse (shownAs e.data o v.book) c n) ps =
      (asParsing (BibleRange.ofArgs e (some v.book) (some c) (some n) none none none (some f)), ⟨some v.book, some c, true⟩) :=
  named_run hn _ ps

omit h hv in
theorem chapVerse_run (f : BibleFlag) (c n : Nat) (ps : PState) (hb : ps.book = some v.book) :
    evalSingle u e f (.chapVerse c n) ps =
      (asParsing (BibleRange.ofArgs e (some v.book) (some c) (some n) none none none (some f)), ⟨some v.book, some c, true⟩) := by
  obtain ⟨b, c', l⟩ := ps
  cases hb
  rfl

theorem eval_book (hg : (e.eff flags).verse0 = true → e.flags.verse0 = true) (hn : NameReads u e.data o v.book) (ps : PState) :
    ∃ ps', evalSingle u e (e.eff flags) (tree e.data o .BOOK v) ps =
      (.ok ⟨stBook e.data (e.eff flags).verse0 v, enBook e.data v⟩, ps') ∧ ∀ c, Level e.data ps' v.book c false := by
  have ht : tree e.data o .BOOK v = .book (shownAs e.data o v.book) := by
    unfold tree partsShown
    split <;> rfl
  rw [ht]
  refine ⟨⟨some v.book, ps.chap, false⟩, ?_, fun c => ⟨rfl, fun _ => ⟨rfl, fun h => by cases h⟩⟩⟩
  rw [book_run hn, ofArgs_one_book h hg hv.listed]
  rfl

theorem eval_bookChap (hg : (e.eff flags).verse0 = true → e.flags.verse0 = true) (hn : NameReads u e.data o v.book)
    (hm : nChaps e.data v.book ≠ 1) (ps : PState) :
    ∃ ps', evalSingle u e (e.eff flags) (tree e.data o .BOOK_CHAP v) ps =
      (.ok ⟨stChap e.data (e.eff flags).verse0 v, enChap e.data v⟩, ps') ∧ ∀ c, Level e.data ps' v.book c false := by
  have ht : tree e.data o .BOOK_CHAP v = .bookNum (shownAs e.data o v.book) v.chap.toNat := by
    unfold tree treeOf; rw [partsShown_multi h hm]; rfl
  rw [ht]
  refine ⟨⟨some v.book, some v.chap, false⟩, ?_, fun c => ⟨rfl, fun _ => ⟨rfl, fun h => by cases h⟩⟩⟩
  have h1 : ¬ v.book.chapCount e.data = 1 := by rw [h.chapCount]; omega
  rw [bookNum_run hn, if_neg h1, toNat_chap hv, ofArgs_one_chap h hg hv.listed hv.1 hv.2.1]
  rfl

theorem eval_full (hn : NameReads u e.data o v.book) (ps : PState) :
    ∃ ps', evalSingle u e (e.eff flags) (tree e.data o .full v) ps = (.ok ⟨v, v⟩, ps') ∧
      Level e.data ps' v.book v.chap true := by
  refine ⟨⟨some v.book, some v.chap, true⟩, ?_, rfl, fun _ => ⟨rfl, fun _ => rfl⟩⟩
  by_cases hm : nChaps e.data v.book = 1
  · have ht : tree e.data o .full v = .bookNum (shownAs e.data o v.book) v.verse.toNat := by
      unfold tree treeOf; rw [partsShown_single h hm]; rfl
    rw [ht]
    have h1 : v.book.chapCount e.data = 1 := by rw [h.chapCount]; omega
    rw [bookNum_run hn, if_pos h1, toNat_verse hv, h.minChapNum, ← chap_one hv hm, ofArgs_one_verse h hv]
    rfl
  · have ht : tree e.data o .full v = .bookChapVerse (shownAs e.data o v.book) v.chap.toNat v.verse.toNat := by
      unfold tree treeOf; rw [partsShown_multi h hm]; rfl
    rw [ht]
    rw [bookChapVerse_run hn, toNat_verse hv, toNat_chap hv, ofArgs_one_verse h hv]
    rfl

theorem eval_chap (hg : (e.eff flags).verse0 = true → e.flags.verse0 = true) (hm : nChaps e.data v.book ≠ 1) (ps : PState)
    {c : Int} (hl : Level e.data ps v.book c false) :
    ∃ ps', evalSingle u e (e.eff flags) (tree e.data o .CHAP v) ps =
      (.ok ⟨stChap e.data (e.eff flags).verse0 v, enChap e.data v⟩, ps') ∧ ∀ c, Level e.data ps' v.book c false := by
  have ht : tree e.data o .CHAP v = .num v.chap.toNat := by
    unfold tree treeOf; rw [partsShown_multi h hm]; rfl
  rw [ht]
  refine ⟨ps, ?_, fun c => ⟨hl.1, fun _ => ⟨(hl.2 hm).1, fun h => by cases h⟩⟩⟩
  have h1 : v.book.chapCount e.data ≠ 1 := by rw [h.chapCount]; omega
  rw [evalSingle_num_chap u e _ _ ps v.book hl.1 h1 (hl.2 hm).1, toNat_chap hv]
  change (asParsing (BibleRange.ofArgs e (some v.book) (some v.chap) none none none none (some (e.eff flags))), _) = _
  rw [ofArgs_one_chap h hg hv.listed hv.1 hv.2.1]
  rfl

/-- A lone number, as the verse. -/
theorem eval_num_verse (ps : PState) (hb : ps.book = some v.book)
    (hl : nChaps e.data v.book ≠ 1 → ps.atVerse = true ∧ ps.chap = some v.chap) :
    ∃ ps', evalSingle u e (e.eff flags) (.num v.verse.toNat) ps = (.ok ⟨v, v⟩, ps') ∧
      Level e.data ps' v.book v.chap true := by
  by_cases hm : nChaps e.data v.book = 1
  · refine ⟨{ ps with chap := some v.chap }, ?_, hb, fun hm' => absurd hm hm'⟩
    have h1 : v.book.chapCount e.data = 1 := by rw [h.chapCount]; omega
    rw [evalSingle_num_single u e _ _ ps v.book hb h1, toNat_verse hv, h.minChapNum, ← chap_one hv hm]
    change (asParsing (BibleRange.ofArgs e (some v.book) (some v.chap) (some v.verse) none none none (some (e.eff flags))), _) = _
    rw [ofArgs_one_verse h hv]
    rfl
  · refine ⟨ps, ?_, hb, fun _ => ⟨(hl hm).1, fun _ => (hl hm).2⟩⟩
    have h1 : v.book.chapCount e.data ≠ 1 := by rw [h.chapCount]; omega
    rw [evalSingle_num_verse u e _ _ ps v.book v.chap hb h1 (hl hm).1 (hl hm).2, toNat_verse hv]
    change (asParsing (BibleRange.ofArgs e (some v.book) (some v.chap) (some v.verse) none none none (some (e.eff flags))), _) = _
    rw [ofArgs_one_verse h hv]
    rfl

theorem eval_verse (ps : PState) (hl : Level e.data ps v.book v.chap true) :
    ∃ ps', evalSingle u e (e.eff flags) (tree e.data o .VERSE v) ps = (.ok ⟨v, v⟩, ps') ∧
      Level e.data ps' v.book v.chap true := by
  have ht : tree e.data o .VERSE v = .num v.verse.toNat := by
    unfold tree partsShown
    split <;> rfl
  rw [ht]
  exact eval_num_verse h hv ps hl.1 fun hm => ⟨(hl.2 hm).1, (hl.2 hm).2 rfl⟩

theorem eval_chapVerse (ps : PState) (hb : ps.book = some v.book) :
    ∃ ps', evalSingle u e (e.eff flags) (tree e.data o .CHAP_VERSE v) ps = (.ok ⟨v, v⟩, ps') ∧
      Level e.data ps' v.book v.chap true := by
  by_cases hm : nChaps e.data v.book = 1
  · have ht : tree e.data o .CHAP_VERSE v = .num v.verse.toNat := by
      unfold tree treeOf; rw [partsShown_single h hm]; rfl
    rw [ht]
    exact eval_num_verse h hv ps hb fun hm' => absurd hm hm'
  · have ht : tree e.data o .CHAP_VERSE v = .chapVerse v.chap.toNat v.verse.toNat := by
      unfold tree treeOf; rw [partsShown_multi h hm]; rfl
    rw [ht]
    refine ⟨⟨some v.book, some v.chap, true⟩, ?_, rfl, fun _ => ⟨rfl, fun _ => rfl⟩⟩
    rw [chapVerse_run _ _ _ _ hb, toNat_verse hv, toNat_chap hv, ofArgs_one_verse h hv]
    rfl

/-- The start of a book shown with its verse number: as long as that is 1, it reads as chapter 1. -/
theorem eval_bookVerse (hg : (e.eff flags).verse0 = true → e.flags.verse0 = true) (hn : NameReads u e.data o v.book)
    (hs : v = stBook e.data (e.eff flags).verse0 v)
    (h1 : nChaps e.data v.book = 1 ∨ firstNum e.data (e.eff flags).verse0 v.book 1 = 1) (ps : PState) :
    ∃ x ps', evalSingle u e (e.eff flags) (tree e.data o ⟨true, false, true⟩ v) ps = (.ok ⟨v, x⟩, ps') ∧
      ps'.book = some v.book := by
  have ht : tree e.data o ⟨true, false, true⟩ v = .bookNum (shownAs e.data o v.book) v.verse.toNat := by
    unfold tree partsShown; split <;> rfl
  by_cases hm : nChaps e.data v.book = 1
  · have ht' : tree e.data o .full v = .bookNum (shownAs e.data o v.book) v.verse.toNat := by
      unfold tree treeOf; rw [partsShown_single h hm]; rfl
    rw [ht, ← ht']
    obtain ⟨ps', h2, h3⟩ := eval_full h hv hn ps
    exact ⟨v, ps', h2, h3.1⟩
  · have h1 := h1.resolve_left hm
    have hc : v.chap = 1 := by rw [hs]; rfl
    have hvv : v.verse = 1 := by rw [hs]; exact h1
    have ht' : tree e.data o .BOOK_CHAP v = .bookNum (shownAs e.data o v.book) v.chap.toNat := by
      unfold tree treeOf; rw [partsShown_multi h hm]; rfl
    obtain ⟨ps', h2, h3⟩ := eval_bookChap h hv hg hn hm ps
    rw [ht', hc, ← hvv, ← ht] at h2
    refine ⟨enChap e.data v, ps', h2.trans ?_, (h3 0).1⟩
    have : stChap e.data (e.eff flags).verse0 v = v := by
      unfold stChap; rw [hc]; exact hs.symm
    rw [this]

end

end Bibleref
