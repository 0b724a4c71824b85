import Verif.SpecMeaning
import Verif.Lemmas.StrEval
import Verif.Lemmas.Grammar
import Verif.Props.RangeArgs
import Verif.Props.Parsing

/-!
# The parser's state and the text read
-/

namespace Bibleref
open Spec

/-- A meaning as an outcome of the parser. -/
def outcome {α : Type} : Option α → Except PyErr α
  | some a => .ok a
  | none => .error .parsing

/-- The outcome is the meaning: under a condition in any case, otherwise it may be an exception. -/
def Means {α : Type} (hg : Prop) (x : Except PyErr α) (m : Option α) : Prop :=
  (hg → x = outcome m) ∧ (x = outcome m ∨ x = .error .parsing)

theorem Means.intro {α : Type} {hg : Prop} {x : Except PyErr α} {m : Option α} (h : x = outcome m) : Means hg x m :=
  ⟨fun _ => h, .inl h⟩

theorem Means.ok {α : Type} {hg : Prop} {a : α} {m : Option α} (h : Means hg (.ok a) m) : m = some a := by
  rcases h.2 with h | h
  · cases m with
    | none => cases h
    | some b => cases h; rfl
  · cases h

theorem Means.error {α β : Type} {hg : Prop} {x : PyErr} {m : Option α} (h : Means hg (.error x : Except PyErr α) m)
    (f : α → Option β) : Means hg (.error x : Except PyErr β) (m.bind f) := by
  refine ⟨fun hh => ?_, ?_⟩
  · have := h.1 hh
    cases m with
    | none => cases this; rfl
    | some a => cases this
  · rcases h.2 with h | h
    · cases m with
      | none => cases h; exact .inr rfl
      | some a => cases h
    · cases h; exact .inr rfl

/-- A computation of the parser in two steps. -/
theorem means_bind {α β : Type} {hg : Prop} {m : PM α} {f : α → PM β} {s : PState} {a : Option α} {b : α → Option β}
    {P : PState → Prop} {Q : PState → Prop}
    (h1 : Means hg (m s).1 a ∧ ∀ x, (m s).1 = .ok x → P (m s).2)
    (h2 : ∀ x s, P s → Means hg (f x s).1 (b x) ∧ ∀ y, (f x s).1 = .ok y → Q (f x s).2) :
    Means hg ((m >>= f) s).1 (a.bind b) ∧ ∀ y, ((m >>= f) s).1 = .ok y → Q ((m >>= f) s).2 := by
  have hb : (m >>= f) s = match m s with | (.ok a, s) => f a s | (.error err, s) => (.error err, s) := rfl
  cases hm : m s with
  | mk r s' =>
    rw [hm] at h1 hb
    cases r with
    | error x =>
      simp only at hb h1
      rw [hb]
      exact ⟨h1.1.error b, fun y hy => by cases hy⟩
    | ok x =>
      simp only at hb h1
      rw [hb]
      have := h1.1.ok
      subst this
      exact h2 x s' (h1.2 x rfl)

variable {u : Uni} {e : Env} {flags : Option BibleFlag}

/-- The parser's state after the text `before`. -/
structure Follows (u : Uni) (d : BibleData) (before : List Piece) (st : PState) : Prop where
  book : st.book = lastBook u d before
  level : ∀ b, st.book = some b → nChaps d b ≠ 1 → st.atVerse = meansVerse before ∧
    (meansVerse before = true → ∃ c : Nat, lastChap before = some c ∧ st.chap = some (c : Int))

theorem follows_init (u : Uni) (d : BibleData) : Follows u d [] PState.init := ⟨rfl, fun b hb => by cases hb⟩

theorem chapters_length (d : BibleData) (b : BibleBook) : (chapters d b).length = nChaps d b := by
  simp [chapters, intRange]

section
variable (h : e.data.Full)
include h

/-- The flags are fine about verse 0s. -/
theorem oneRange_means (b : BibleBook) (c v : Option Int) (hcv : ¬ (c = none ∧ v ≠ none)) (s : PState) :
    Means ((e.eff flags).verse0 = true → e.flags.verse0 = true) (oneRange e (e.eff flags) b c v s).1
      (fullRange e.data (e.eff flags).verse0 ⟨b, c, v⟩) ∧ (oneRange e (e.eff flags) b c v s).2 = s := by
  refine ⟨?_, rfl⟩
  have hn : ¬ Reversed e.data b c v none none none := by
    rintro (⟨_, hh, _⟩ | ⟨_, _, _, ⟨_, hh, _⟩ | ⟨_, _, _, _, hh, _⟩⟩) <;> cases hh
  have hv := ofArgs_value (flags := some (e.eff flags)) h (h.listed b) (fun b _ => h.listed b) hn
  rw [Env.eff_eff] at hv
  have ha : asParsing (argRange e.data (e.eff flags) b c v none none none) =
      outcome (fullRange e.data (e.eff flags).verse0 ⟨b, c, v⟩) := by
    unfold argRange argStart argStop fullRange
    rw [if_neg hcv]
    simp only
    cases h1 : firstOf e.data (e.eff flags).verse0 b c v with
    | none => rfl
    | some s =>
      cases h2 : lastOf e.data (e.eff flags).verse0 b c v with
      | none => rfl
      | some t =>
        have hs := matches_iff.1 (List.find?_some h1)
        have ht := matches_iff.1 (List.find?_some h2)
        simp only [rangeFrom]
        rw [if_pos (.inr (by rw [hs.1, ht.1]))]
        rfl
  unfold oneRange PM.lift
  refine ⟨fun hg => ?_, ?_⟩
  · simp only; rw [hv.1 hg, ha]
  · rcases hv.2 with h1 | h1
    · left; simp only; rw [h1, ha]
    · right; simp only; rw [h1]; rfl

/-- One reference. -/
theorem single_heard {before : List Piece} (x : Single) {s : PState} (hs : Follows u e.data before s) :
    Means ((e.eff flags).verse0 = true → e.flags.verse0 = true) (evalSingle u e (e.eff flags) x s).1
      (singleMeaning u e.data (e.eff flags) before x) ∧
    Follows u e.data (heardSingle u e.data before x) (evalSingle u e (e.eff flags) x s).2 := by
  have one {b : BibleBook} {c v : Option Int} {st : PState} (heval : evalSingle u e (e.eff flags) x s = oneRange e (e.eff flags) b c v st)
      (hm : fullRef u e.data before x = some ⟨b, c, v⟩) (hcv : ¬ (c = none ∧ v ≠ none)) (hst : Follows u e.data (.ref x :: before) st) :
      Means ((e.eff flags).verse0 = true → e.flags.verse0 = true) (evalSingle u e (e.eff flags) x s).1
        (singleMeaning u e.data (e.eff flags) before x) ∧
      Follows u e.data (heardSingle u e.data before x) (evalSingle u e (e.eff flags) x s).2 := by
    have := oneRange_means (flags := flags) h b c v hcv st
    unfold singleMeaning heardSingle
    rw [heval, hm]
    exact ⟨this.1, this.2 ▸ hst⟩
  have bad (heval : evalSingle u e (e.eff flags) x s = (.error .parsing, s)) (hm : fullRef u e.data before x = none) :
      Means ((e.eff flags).verse0 = true → e.flags.verse0 = true) (evalSingle u e (e.eff flags) x s).1
        (singleMeaning u e.data (e.eff flags) before x) ∧
      Follows u e.data (heardSingle u e.data before x) (evalSingle u e (e.eff flags) x s).2 := by
    unfold singleMeaning heardSingle
    rw [heval, hm]
    exact ⟨.intro rfl, hs⟩
  cases x with
  | book name =>
    cases hb : BibleBook.fromStr u e.data name with
    | none => exact bad (by simp only [evalSingle, nameCallback, hb]; rfl) (by simp [fullRef, hb])
    | some b =>
      exact one (st := { s with book := some b, atVerse := false }) (by simp only [evalSingle, nameCallback, hb]; rfl)
        (by simp [fullRef, hb]) (by simp) ⟨by simp [lastBook, namedBook, hb], fun b' _ _ => ⟨rfl, fun hh => by cases hh⟩⟩
  | bookNum name n =>
    cases hb : BibleBook.fromStr u e.data name with
    | none => exact bad (by simp only [evalSingle, nameCallback, hb]; rfl) (by simp [fullRef, hb])
    | some b =>
      by_cases hc : nChaps e.data b = 1
      · refine one (b := b) (c := some 1) (v := some n) (st := ⟨some b, some 1, true⟩) ?_
          (by simp [fullRef, hb, numberIn, chapters_length, hc]) (by simp) ⟨by simp [lastBook, namedBook, hb], fun b' hb' hn => by
            cases hb'; exact absurd hc hn⟩
        have hc' : b.chapCount e.data = 1 := by rw [h.chapCount, hc]; rfl
        simp only [evalSingle, nameCallback, hb]
        show (if b.chapCount e.data = 1 then _ else _ : PM BibleRange) s = _
        rw [if_pos hc', h.minChapNum]; rfl
      · refine one (b := b) (c := some n) (v := none) (st := { s with book := some b, chap := some (n : Int), atVerse := false }) ?_
          (by simp [fullRef, hb, numberIn, chapters_length, hc]) (by simp)
          ⟨by simp [lastBook, namedBook, hb], fun b' _ _ => ⟨rfl, fun hh => by cases hh⟩⟩
        have hc' : ¬ b.chapCount e.data = 1 := by rw [h.chapCount]; omega
        simp only [evalSingle, nameCallback, hb]
        show (if b.chapCount e.data = 1 then _ else _ : PM BibleRange) s = _
        rw [if_neg hc']; rfl
  | bookChapVerse name c v =>
    cases hb : BibleBook.fromStr u e.data name with
    | none => exact bad (by simp only [evalSingle, nameCallback, hb]; rfl) (by simp [fullRef, hb])
    | some b =>
      exact one (st := ⟨some b, some (c : Int), true⟩) (by simp only [evalSingle, nameCallback, hb]; rfl)
        (by simp [fullRef, hb]) (by simp) ⟨by simp [lastBook, namedBook, hb], fun b' _ _ => ⟨rfl, fun _ => ⟨c, rfl, rfl⟩⟩⟩
  | chapVerse c v =>
    cases hb : s.book with
    | none =>
      refine bad ?_ (by simp [fullRef, ← hs.book, hb])
      simp only [evalSingle]
      show (match s.book with | none => PM.raise .parsing | some b => _ : PM BibleRange) s = _
      rw [hb]; rfl
    | some b =>
      refine one (b := b) (c := some c) (v := some v) (st := ⟨some b, some (c : Int), true⟩) ?_ (by simp [fullRef, ← hs.book, hb]) (by simp)
        ⟨by simp [lastBook, namedBook, ← hs.book, hb], fun b' _ _ => ⟨rfl, fun _ => ⟨c, rfl, rfl⟩⟩⟩
      simp only [evalSingle]
      show (match s.book with | none => PM.raise .parsing | some b => _ : PM BibleRange) s = _
      rw [hb]; rfl
  | num n =>
    cases hb : s.book with
    | none =>
      refine bad ?_ (by simp [fullRef, ← hs.book, hb])
      simp only [evalSingle]
      show (match s.book with | none => PM.raise .parsing | some b => _ : PM BibleRange) s = _
      rw [hb]; rfl
    | some b =>
      have hl := hs.level b hb
      by_cases hc : nChaps e.data b = 1
      · refine one (b := b) (c := some 1) (v := some n) (st := { s with chap := some 1 }) ?_
          (by simp [fullRef, ← hs.book, hb, numberIn, chapters_length, hc]) (by simp)
          ⟨by simp [lastBook, namedBook, ← hs.book], fun b' hb' hn => by
            simp only at hb'; rw [hb] at hb'; cases hb'; exact absurd hc hn⟩
        have hc' : b.chapCount e.data = 1 := by rw [h.chapCount, hc]; rfl
        simp only [evalSingle]
        show (match s.book with | none => PM.raise .parsing | some b => _ : PM BibleRange) s = _
        rw [hb]
        show (if b.chapCount e.data = 1 then _ else _ : PM BibleRange) s = _
        rw [if_pos hc', h.minChapNum]; rfl
      · have hc' : ¬ b.chapCount e.data = 1 := by rw [h.chapCount]; omega
        obtain ⟨hl1, hl2⟩ := hl hc
        have hF : Follows u e.data (.ref (.num n) :: before) s :=
          ⟨by simp [lastBook, namedBook, ← hs.book], fun b' hb' hn => by
            rw [hb] at hb'; cases hb'; exact ⟨hl1, hl2⟩⟩
        cases hv : meansVerse before with
        | true =>
          obtain ⟨c, hc1, hc2⟩ := hl2 hv
          refine one (b := b) (c := some c) (v := some n) (st := s) ?_
            (by simp [fullRef, ← hs.book, hb, chapters_length, hc, hv, hc1]) (by simp) hF
          simp only [evalSingle]
          show (match s.book with | none => PM.raise .parsing | some b => _ : PM BibleRange) s = _
          rw [hb]
          show (if b.chapCount e.data = 1 then _ else if s.atVerse = true then _ else _ : PM BibleRange) s = _
          rw [if_neg hc', if_pos (by rw [hl1, hv])]
          show (match s.chap with | none => PM.raise .parsing | some c => _ : PM BibleRange) s = _
          rw [hc2]
        | false =>
          refine one (b := b) (c := some n) (v := none) (st := s) ?_
            (by simp [fullRef, ← hs.book, hb, chapters_length, hc, hv, numberIn]) (by simp) hF
          simp only [evalSingle]
          show (match s.book with | none => PM.raise .parsing | some b => _ : PM BibleRange) s = _
          rw [hb]
          show (if b.chapCount e.data = 1 then _ else if s.atVerse = true then _ else _ : PM BibleRange) s = _
          rw [if_neg hc', if_neg (by rw [hl1, hv]; simp)]

/-- One reference that is read. -/
theorem single_means {before : List Piece} (x : Single) {s : PState} (hs : Follows u e.data before s) :
    Means ((e.eff flags).verse0 = true → e.flags.verse0 = true) (evalSingle u e (e.eff flags) x s).1
      (singleMeaning u e.data (e.eff flags) before x) ∧
    ∀ r, (evalSingle u e (e.eff flags) x s).1 = .ok r → Follows u e.data (.ref x :: before) (evalSingle u e (e.eff flags) x s).2 := by
  obtain ⟨h1, h2⟩ := single_heard (flags := flags) h x hs
  refine ⟨h1, fun r hr => ?_⟩
  rw [hr] at h1
  have hm := h1.ok
  unfold singleMeaning at hm
  unfold heardSingle at h2
  cases hf : fullRef u e.data before x with
  | none => rw [hf] at hm; cases hm
  | some w => rw [hf] at h2; exact h2

/-- Two verses that exist, in any order. -/
theorem ofArgs_verses {s t : BibleVerse} (hs : Valid e.data (e.eff flags).verse0 s) (ht : Valid e.data (e.eff flags).verse0 t) :
    asParsing (BibleRange.ofArgs e (some s.book) (some s.chap) (some s.verse) (some t.book) (some t.chap) (some t.verse)
      (some (e.eff flags))) =
    outcome (if (e.eff flags).multibook = true ∨ s.book = t.book then
      some (if pos e.data s ≤ pos e.data t then (⟨s, t⟩ : BibleRange) else ⟨t, s⟩) else none) := by
  have key : ∀ {s t : BibleVerse}, Valid e.data (e.eff flags).verse0 s → Valid e.data (e.eff flags).verse0 t → pos e.data s ≤ pos e.data t →
      asParsing (BibleRange.ofArgs e (some s.book) (some s.chap) (some s.verse) (some t.book) (some t.chap) (some t.verse)
        (some (e.eff flags))) = outcome (if (e.eff flags).multibook = true ∨ s.book = t.book then some (⟨s, t⟩ : BibleRange) else none) := by
    intro s t hs ht hle
    by_cases hm : (e.eff flags).multibook = true ∨ s.book = t.book
    · rw [if_pos hm]
      have := ofArgs_two_verses (flags := flags) h (r := ⟨s, t⟩) ⟨hs, ht, hle⟩ hm
      simp only at this
      rw [this]; rfl
    · rw [if_neg hm]
      have hn : ¬ Reversed e.data s.book (some s.chap) (some s.verse) (some t.book) (some t.chap) (some t.verse) := by
        have hp := (pos_le_parts h hs ht).1 hle
        rw [bidx_of_mem hs.listed, bidx_of_mem ht.listed] at hp
        rintro (⟨b', hb, hlt⟩ | ⟨hbb, _⟩)
        · cases hb
          rcases hp with hp | ⟨hp, _⟩
          · omega
          · rw [hp] at hlt; omega
        · rcases hbb with hbb | hbb
          · cases hbb
          · exact hm (.inr (Option.some.inj hbb).symm)
      have hv := (ofArgs_value (flags := some (e.eff flags)) h hs.listed (fun b _ => h.listed b) hn).2
      have ha : argRange e.data (e.eff (some (e.eff flags))) s.book (some s.chap) (some s.verse) (some t.book) (some t.chap) (some t.verse) =
          .error .multibookRange := by
        rw [Env.eff_eff]
        unfold argRange argStart argStop
        rw [if_neg (by simp), firstOf_verse h, if_pos hs]
        simp only [Option.getD_some]
        rw [lastOf_verse h, if_pos ht]
        simp only [rangeFrom]
        rw [if_neg hm]
      rw [ha] at hv
      rcases hv with hv | hv <;> rw [hv] <;> rfl
  by_cases hle : pos e.data s ≤ pos e.data t
  · rw [key hs ht hle]
    simp only [if_pos hle]
  · have hswap : BibleRange.ofArgs e (some s.book) (some s.chap) (some s.verse) (some t.book) (some t.chap) (some t.verse) (some (e.eff flags)) =
        BibleRange.ofArgs e (some t.book) (some t.chap) (some t.verse) (some s.book) (some s.chap) (some s.verse) (some (e.eff flags)) := by
      have hr := C13_reversed e h (some (e.eff flags)) s.book hs.listed
      rcases (pos_le_parts h ht hs).1 (by omega) with hp | ⟨hp, hp' | ⟨hp1, hp2⟩⟩
      · exact ((hr (some s.chap) (some s.verse) (some t.chap) (some t.verse)).1 t.book ht.listed
          (by rwa [bidx_of_mem hs.listed, bidx_of_mem ht.listed] at hp)).2
      · rw [hp]
        exact ((hr none (some s.verse) none (some t.verse)).2.1 (some s.book) (.inr rfl) s.chap t.chap hp').2
      · rw [hp, hp1]
        have hlt : t.verse < s.verse := by
          rcases Int.lt_or_eq_of_le hp2 with hlt | heq
          · exact hlt
          · refine absurd ?_ hle
            have : s = t := by cases s; cases t; simp_all
            rw [this]; exact Nat.le_refl _
        exact ((hr none none (some s.chap) none).2.2 (some s.book) (.inr rfl) s.chap s.verse t.verse hlt (.inr rfl)).2
    rw [hswap, key ht hs (by omega)]
    simp only [if_neg hle]
    by_cases hm : (e.eff flags).multibook = true ∨ s.book = t.book
    · rw [if_pos hm, if_pos (hm.imp_right Eq.symm)]
    · rw [if_neg hm, if_neg fun hm' => hm (hm'.imp_right Eq.symm)]

/-- The ranges of single references are valid. -/
theorem fullRange_valid {v0 : Bool} {w : Full} {r : BibleRange} (hr : fullRange e.data v0 w = some r) :
    Valid e.data v0 r.start ∧ Valid e.data v0 r.stop := by
  unfold fullRange at hr
  split at hr
  · rename_i s t h1 h2
    cases hr
    exact ⟨(mem_canon h).1 (List.mem_of_find?_eq_some h1), (mem_canon h).1 (List.mem_reverse.1 (List.mem_of_find?_eq_some h2))⟩
  · cases hr

/-- One or two references. -/
theorem ref_means {before : List Piece} (x : Ref) {s : PState} (hs : Follows u e.data before s) :
    Means ((e.eff flags).verse0 = true → e.flags.verse0 = true) (evalRef u e (e.eff flags) x s).1
      (refMeaning u e.data (e.eff flags) before x) ∧
    ∀ r, (evalRef u e (e.eff flags) x s).1 = .ok r → Follows u e.data (upTo before x) (evalRef u e (e.eff flags) x s).2 := by
  cases x with
  | single a => exact single_means h a hs
  | dual a b =>
    have h1 := single_means (flags := flags) h a hs
    simp only [refMeaning, evalRef]
    have hv : ∀ {before x r}, singleMeaning u e.data (e.eff flags) before x = some r →
        Valid e.data (e.eff flags).verse0 r.start ∧ Valid e.data (e.eff flags).verse0 r.stop := by
      intro before x r hr
      unfold singleMeaning at hr
      cases hf : fullRef u e.data before x with
      | none => rw [hf] at hr; cases hr
      | some w => rw [hf] at hr; exact fullRange_valid h hr
    have hb (m : PM BibleRange) (f : BibleRange → PM BibleRange) (s : PState) :
        (m >>= f) s = match m s with | (.ok a, s) => f a s | (.error err, s) => (.error err, s) := by
      show PM.bind m f s = _
      unfold PM.bind
      cases m s with
      | mk r s => cases r <;> rfl
    rw [hb]
    cases he : evalSingle u e (e.eff flags) a s with
    | mk r1 s1 =>
      rw [he] at h1
      cases r1 with
      | error x => exact ⟨h1.1.error _, fun _ hy => by cases hy⟩
      | ok r1 =>
        have hm1 := h1.1.ok
        have hs1 : Follows u e.data (.dash :: .ref a :: before) s1 := ⟨(h1.2 r1 rfl).book, (h1.2 r1 rfl).level⟩
        have h2 := single_means (flags := flags) h b hs1
        rw [hm1]
        simp only [Option.bind_some]
        rw [hb]
        cases he2 : evalSingle u e (e.eff flags) b s1 with
        | mk r2 s2 =>
          rw [he2] at h2
          cases r2 with
          | error x => exact ⟨h2.1.error _, fun _ hy => by cases hy⟩
          | ok r2 =>
            have hm2 := h2.1.ok
            rw [hm2]
            refine ⟨.intro ?_, fun _ _ => h2.2 r2 rfl⟩
            exact ofArgs_verses h (hv hm1).1 (hv hm2).2

omit h in
/-- A list separator. -/
theorem sep_follows {d : BibleData} {before : List Piece} (m : Bool) {s : PState} (hs : Follows u d before s) :
    (evalSep m s).1 = .ok () ∧ Follows u d (.sep m :: before) (evalSep m s).2 := by
  cases m with
  | false => exact ⟨rfl, hs.book, hs.level⟩
  | true => exact ⟨rfl, hs.book, fun b _ _ => ⟨rfl, fun hh => by cases hh⟩⟩

/-- The references after the first one. -/
theorem rest_means (l : List (Bool × Ref)) : ∀ {before : List Piece} {s : PState}, Follows u e.data before s →
    Means ((e.eff flags).verse0 = true → e.flags.verse0 = true) (evalRest u e (e.eff flags) l s).1
      (restMeaning u e.data (e.eff flags) before l) ∧
    ∀ r, (evalRest u e (e.eff flags) l s).1 = .ok r → Follows u e.data (upToRest before l) (evalRest u e (e.eff flags) l s).2 := by
  induction l with
  | nil => intro before s hs; exact ⟨.intro rfl, fun _ _ => hs⟩
  | cons x l ih =>
    obtain ⟨m, x⟩ := x
    intro before s hs
    have h0 := sep_follows m hs
    have hb : evalRest u e (e.eff flags) ((m, x) :: l) s =
        (evalRef u e (e.eff flags) x >>= fun x => evalRest u e (e.eff flags) l >>= fun rest => pure ((m, x) :: rest)) (evalSep m s).2 := by
      cases m <;> rfl
    rw [hb]
    have := means_bind (hg := ((e.eff flags).verse0 = true → e.flags.verse0 = true))
      (P := Follows u e.data (upTo (.sep m :: before) x)) (Q := Follows u e.data (upToRest before ((m, x) :: l)))
      (b := fun y => (restMeaning u e.data (e.eff flags) (upTo (.sep m :: before) x) l).bind fun xs => some ((m, y) :: xs))
      (f := fun x => evalRest u e (e.eff flags) l >>= fun rest => pure ((m, x) :: rest))
      (ref_means (flags := flags) h x h0.2) (fun y s' hs' => means_bind
        (P := Follows u e.data (upToRest before ((m, x) :: l))) (Q := Follows u e.data (upToRest before ((m, x) :: l)))
        (ih hs') (fun xs s'' hs'' => ⟨.intro rfl, fun _ _ => hs''⟩))
    simp only [restMeaning, Option.map_eq_bind]
    exact this

end

/-- Grouping. -/
theorem groupUp_inGroups (l : List (Bool × BibleRange)) : ∀ (x : BibleRange), groupUp x l = inGroups x l := by
  have key : ∀ (l : List (Bool × BibleRange)) (P : List (List BibleRange)) (g : List BibleRange) (x : BibleRange),
      (l.foldl groupStep (P, g ++ [x])).1 ++ [(l.foldl groupStep (P, g ++ [x])).2] =
        P ++ match inGroups x l with | [] => [] | a :: as => (g ++ a) :: as := by
    intro l
    induction l with
    | nil => intro P g x; simp [inGroups]
    | cons y l ih =>
      obtain ⟨m, y⟩ := y
      intro P g x
      cases m with
      | true =>
        have := ih (P ++ [g ++ [x]]) [] y
        simp only [List.nil_append] at this
        simp only [List.foldl_cons, groupStep, if_true, inGroups, this]
        cases inGroups y l <;> simp
      | false =>
        have := ih P (g ++ [x]) y
        have hne : inGroups y l ≠ [] := by
          cases l with
          | nil => simp [inGroups]
          | cons z l =>
            obtain ⟨m, z⟩ := z
            cases m
            · simp only [inGroups]; split <;> simp
            · simp [inGroups]
        simp only [List.foldl_cons, groupStep, Bool.false_eq_true, if_false, inGroups, this]
        cases hg : inGroups y l with
        | nil => exact absurd hg hne
        | cons a as => simp
  intro x
  have := key l [] [] x
  simp only [List.nil_append] at this
  unfold groupUp
  simp only [this]
  cases inGroups x l <;> rfl

/-- A whole string. -/
theorem tree_means (h : e.data.Full) {before : List Piece} (t : Tree) {s : PState} (hs : Follows u e.data before s) :
    Means ((e.eff flags).verse0 = true → e.flags.verse0 = true) (evalTree u e (e.eff flags) t s).1
      (meaning u e.data (e.eff flags) before t) ∧
    ∀ r, (evalTree u e (e.eff flags) t s).1 = .ok r → Follows u e.data (allOf before t) (evalTree u e (e.eff flags) t s).2 := by
  have := means_bind (hg := ((e.eff flags).verse0 = true → e.flags.verse0 = true))
      (P := Follows u e.data (upTo before t.first)) (Q := Follows u e.data (allOf before t))
      (b := fun y => (restMeaning u e.data (e.eff flags) (upTo before t.first) t.rest).bind fun l => some (inGroups y l))
      (f := fun x => evalRest u e (e.eff flags) t.rest >>= fun l => (match t.trailing with
        | none => pure ()
        | some major => evalSep major) >>= fun _ => pure (groupUp x l))
      (ref_means (flags := flags) h t.first hs) (fun y s' hs' => means_bind
        (P := Follows u e.data (upToRest (upTo before t.first) t.rest)) (Q := Follows u e.data (allOf before t))
        (rest_means h t.rest hs') (fun xs s'' hs'' => by
          rw [groupUp_inGroups]
          unfold allOf
          cases t.trailing with
          | none => exact ⟨.intro rfl, fun _ _ => hs''⟩
          | some m => cases m <;> exact ⟨.intro rfl, fun _ _ => (sep_follows _ hs'').2⟩))
  have he : evalTree u e (e.eff flags) t s = (evalRef u e (e.eff flags) t.first >>= fun x => evalRest u e (e.eff flags) t.rest >>= fun l =>
      (match t.trailing with
        | none => pure ()
        | some major => evalSep major) >>= fun _ => pure (groupUp x l)) s := by
    unfold evalTree
    cases t.trailing <;> rfl
  rw [he]
  simp only [meaning, Option.map_eq_bind]
  exact this

/-! ## After an exception -/

/-- An exception means that there is no meaning. -/
theorem Means.none_of_error {α : Type} {hg : Prop} {x : PyErr} {m : Option α} (h : Means hg (.error x : Except PyErr α) m) (hg' : hg) :
    m = none := by
  have := h.1 hg'
  cases m with
  | none => rfl
  | some a => cases this

section
variable (h : e.data.Full) (hg : (e.eff flags).verse0 = true → e.flags.verse0 = true)
include h hg

theorem ref_heard {before : List Piece} (x : Ref) {s : PState} (hs : Follows u e.data before s) :
    Follows u e.data (heardRef u e.data (e.eff flags) before x) (evalRef u e (e.eff flags) x s).2 := by
  cases x with
  | single a => exact (single_heard h a hs).2
  | dual a b =>
    have h1 := single_heard (flags := flags) h a hs
    have h1' := single_means (flags := flags) h a hs
    simp only [heardRef, evalRef]
    have hb (m : PM BibleRange) (f : BibleRange → PM BibleRange) (s : PState) :
        (m >>= f) s = match m s with | (.ok a, s) => f a s | (.error err, s) => (.error err, s) := by
      show PM.bind m f s = _
      unfold PM.bind
      cases m s with
      | mk r s => cases r <;> rfl
    rw [hb]
    cases he : evalSingle u e (e.eff flags) a s with
    | mk r1 s1 =>
      rw [he] at h1 h1'
      cases r1 with
      | error x => rw [h1.1.none_of_error hg]; exact h1.2
      | ok r1 =>
        rw [h1.1.ok]
        have hs1 : Follows u e.data (.dash :: .ref a :: before) s1 := ⟨(h1'.2 r1 rfl).book, (h1'.2 r1 rfl).level⟩
        have h2 := single_heard (flags := flags) h b hs1
        simp only
        rw [hb]
        cases he2 : evalSingle u e (e.eff flags) b s1 with
        | mk r2 s2 =>
          rw [he2] at h2
          cases r2 <;> exact h2.2

theorem rest_heard (l : List (Bool × Ref)) : ∀ {before : List Piece} {s : PState}, Follows u e.data before s →
    Follows u e.data (heardRest u e.data (e.eff flags) before l) (evalRest u e (e.eff flags) l s).2 := by
  induction l with
  | nil => intro before s hs; exact hs
  | cons x l ih =>
    obtain ⟨m, x⟩ := x
    intro before s hs
    have h0 := sep_follows m hs
    have hb : evalRest u e (e.eff flags) ((m, x) :: l) s =
        (evalRef u e (e.eff flags) x >>= fun x => evalRest u e (e.eff flags) l >>= fun rest => pure ((m, x) :: rest)) (evalSep m s).2 := by
      cases m <;> rfl
    rw [hb]
    have h1 := ref_means (flags := flags) h x h0.2
    have h2 := ref_heard h hg x h0.2
    have hb {α β : Type} (m : PM α) (f : α → PM β) (s : PState) :
        (m >>= f) s = match m s with | (.ok a, s) => f a s | (.error err, s) => (.error err, s) := by
      show PM.bind m f s = _
      unfold PM.bind
      cases m s with
      | mk r s => cases r <;> rfl
    rw [hb]
    unfold heardRest
    cases he : evalRef u e (e.eff flags) x (evalSep m s).2 with
    | mk r1 s1 =>
      rw [he] at h1 h2
      cases r1 with
      | error x => rw [h1.1.none_of_error hg]; exact h2
      | ok r1 =>
        rw [h1.1.ok]
        have h3 := ih (h1.2 r1 rfl)
        simp only
        rw [hb]
        cases he2 : evalRest u e (e.eff flags) l s1 with
        | mk r2 s2 =>
          rw [he2] at h3
          cases r2 <;> exact h3

theorem tree_heard {before : List Piece} (t : Tree) {s : PState} (hs : Follows u e.data before s) :
    Follows u e.data (heardTree u e.data (e.eff flags) before t) (evalTree u e (e.eff flags) t s).2 := by
  have he : evalTree u e (e.eff flags) t s = (evalRef u e (e.eff flags) t.first >>= fun x => evalRest u e (e.eff flags) t.rest >>= fun l =>
      (match t.trailing with
        | none => pure ()
        | some major => evalSep major) >>= fun _ => pure (groupUp x l)) s := by
    unfold evalTree
    cases t.trailing <;> rfl
  have h0 := tree_means (flags := flags) h t hs
  rw [he] at h0 ⊢
  have h1 := ref_means (flags := flags) h t.first hs
  have h2 := ref_heard h hg t.first hs
  have hb {α β : Type} (m : PM α) (f : α → PM β) (s : PState) :
      (m >>= f) s = match m s with | (.ok a, s) => f a s | (.error err, s) => (.error err, s) := by
    show PM.bind m f s = _
    unfold PM.bind
    cases m s with
    | mk r s => cases r <;> rfl
  rw [hb] at h0 ⊢
  unfold heardTree
  cases he : evalRef u e (e.eff flags) t.first s with
  | mk r1 s1 =>
    rw [he] at h1 h2 h0
    cases r1 with
    | error x => rw [h1.1.none_of_error hg]; exact h2
    | ok r1 =>
      have h3 := rest_means (flags := flags) h t.rest (h1.2 r1 rfl)
      have h4 := rest_heard h hg t.rest (h1.2 r1 rfl)
      rw [h1.1.ok]
      simp only at h0 ⊢
      rw [hb] at h0 ⊢
      cases he2 : evalRest u e (e.eff flags) t.rest s1 with
      | mk r2 s2 =>
        rw [he2] at h3 h4 h0
        cases r2 with
        | error x => rw [h3.1.none_of_error hg]; exact h4
        | ok l =>
          rw [h3.1.ok]
          simp only at h0 ⊢
          exact h0.2 _ (by cases t.trailing with | none => rfl | some m => cases m <;> rfl)

end

end Bibleref
