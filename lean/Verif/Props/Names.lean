import Verif.Lemmas.Names

/-!
# Names of books (C46)

`u` says how Python treats the characters from 128 on; the theorems hold whatever it says.
-/

namespace Bibleref
open Spec

/-- The shape of a stored name is accepted for the book. -/
theorem accepted_title (u : Uni) (n : NameData) (h : n.minChars ≤ n.title.length) : Accepted u n (nameShape u n.title) := by
  left
  unfold splitTitle
  split
  · rename_i s heq
    exact ⟨_, .tail _ (.head _), n.title.length, h, by rw [heq, List.take_of_length_le (by simp; omega)]; rfl⟩
  · rename_i s heq
    exact ⟨_, .tail _ (.head _), n.title.length, h, by rw [heq, List.take_of_length_le (by simp; omega)]; rfl⟩
  · rename_i s heq
    exact ⟨_, .tail _ (.head _), n.title.length, h, by rw [heq, List.take_of_length_le (by simp; omega)]; rfl⟩
  · exact ⟨[], by simp, n.title.length, h, by simp⟩

theorem defaultNames_own : (BibleBook.all.all fun b => match defaultNameData b with
    | none => false
    | some n => decide (n.minChars ≤ n.title.length) && n.abbr.all (fun c => decide (c.toNat < 128)) &&
      ((nameRx n).lang lower).contains (n.abbr.map fun c => if c = ' ' then none else some (lower c))) = true := by
  decide +kernel

/-- **C46, no string is a name of two books.** With the default names, whatever the string. -/
theorem C46_unambiguous (u : Uni) (s : List Char) (b b' : BibleBook) (h : b.matchesName u defaultData s = true)
    (h' : b'.matchesName u defaultData s = true) : b = b' := by
  obtain ⟨n, hn, hp, _⟩ := defaultNames b
  obtain ⟨n', hn', hp', _⟩ := defaultNames b'
  exact accepted_unique hn hn' ((matchesName_iff (d := defaultData) hn hp).mp h)
    ((matchesName_iff (d := defaultData) hn' hp').mp h')

/-- **C46, what is recognised.** `from_str` gives a book exactly if the string, apart from letter case, the amount of white
space and white space around it, is one of the accepted forms of that book's name. -/
theorem C46_from_str (u : Uni) (s : List Char) (b : BibleBook) :
    BibleBook.fromStr u defaultData s = some b ↔
      ∃ n, defaultData.nameData b = some n ∧ Accepted u n (trim (shape u s)) := by
  rw [← shape_strip]
  constructor
  · intro h
    obtain ⟨n, hn, hp, _⟩ := defaultNames b
    exact ⟨n, hn, (matchesName_iff (d := defaultData) hn hp).mp (fromStr_some h)⟩
  · rintro ⟨n, hn, h⟩
    obtain ⟨n₁, hn₁, hp, _⟩ := defaultNames b
    have : n = n₁ := by
      have h1 : defaultNameData b = some n := hn
      rw [hn₁] at h1
      exact (Option.some.inj h1).symm
    subst this
    obtain ⟨b', hb'⟩ := fromStr_isSome ((matchesName_iff (d := defaultData) (s := strip u s) hn hp).mpr h)
    obtain ⟨n', hn', hp', _⟩ := defaultNames b'
    rw [hb', accepted_unique hn' hn ((matchesName_iff (d := defaultData) hn' hp').mp (fromStr_some hb')) h]

/-- **C46, titles and abbreviations.** A book's title and its abbreviation, in any letter case, with any amount of white space
where they have some and around them, are recognised as that book. -/
theorem C46_title_abbrev (u : Uni) (s : List Char) (b : BibleBook) (n : NameData) (hn : defaultData.nameData b = some n)
    (h : trim (shape u s) = nameShape u n.title ∨ trim (shape u s) = nameShape u n.abbr) :
    BibleBook.fromStr u defaultData s = some b := by
  rw [C46_from_str]
  refine ⟨n, hn, ?_⟩
  have ho := List.all_eq_true.mp defaultNames_own b b.mem_all
  have hn' : defaultNameData b = some n := hn
  simp only [hn', Bool.and_eq_true, decide_eq_true_eq, List.all_eq_true, List.contains_iff_mem] at ho
  rcases h with h | h
  · rw [h]; exact accepted_title u n ho.1.1
  · rw [h, ← lang_nameRx]
    obtain ⟨n₁, hn₁, _, ha⟩ := defaultNames b
    rw [hn'] at hn₁
    cases hn₁
    rw [Rx.lang_ascii u ha]
    have : nameShape u n.abbr = n.abbr.map fun c => if c = ' ' then none else some (lower c) := by
      unfold nameShape
      apply List.map_congr_left
      intro c hc
      simp [foldChar, ho.1.2 c hc]
    rw [this]
    exact ho.2

/-- **C46, the error.** `from_str(raise_error=True)` raises `InvalidReferenceError` exactly if no book accepts the string. -/
theorem C46_raise (u : Uni) (s : List Char) :
    BibleBook.fromStrE u defaultData s = .error .invalidReference ↔
      ∀ b n, defaultData.nameData b = some n → ¬ Accepted u n (trim (shape u s)) := by
  unfold BibleBook.fromStrE
  cases hf : BibleBook.fromStr u defaultData s with
  | some b =>
    obtain ⟨n, hn, ha⟩ := (C46_from_str u s b).mp hf
    simp only [reduceCtorEq, false_iff]
    intro h
    exact h b n hn ha
  | none =>
    simp only [true_iff]
    intro b n hn ha
    have := (C46_from_str u s b).mpr ⟨n, hn, ha⟩
    rw [hf] at this
    cases this

/-- **C46, other names.** With any name data that nowhere has two blanks in a row, the recognised book is one that accepts the
string, and some book is recognised whenever some book accepts it. -/
theorem C46_custom (u : Uni) (d : BibleData) (hd : ∀ b n, d.nameData b = some n → PlainNames n) (s : List Char) :
    (∀ b, BibleBook.fromStr u d s = some b → ∃ n, d.nameData b = some n ∧ Accepted u n (trim (shape u s))) ∧
    ((∃ b n, d.nameData b = some n ∧ Accepted u n (trim (shape u s))) → ∃ b, BibleBook.fromStr u d s = some b) := by
  rw [← shape_strip]
  constructor
  · intro b h
    have h := fromStr_some h
    cases hn : d.nameData b with
    | none => simp [BibleBook.matchesName, hn] at h
    | some n => exact ⟨n, rfl, (matchesName_iff hn (hd b n hn)).mp h⟩
  · rintro ⟨b, n, hn, h⟩
    exact fromStr_isSome ((matchesName_iff hn (hd b n hn)).mpr h)

/-- A stand-in for the Unicode tables, for examples. -/
def exampleUni : Uni := ⟨fun _ => false, fun _ => false, id⟩

example : BibleBook.fromStr exampleUni defaultData "  sOnG \t of   SONGS ".toList = some .Song :=
  C46_title_abbrev exampleUni _ .Song _ rfl (.inl (by decide +kernel))

example : BibleBook.fromStr exampleUni defaultData "iii john".toList = some .IIIJn :=
  (C46_from_str exampleUni _ _).mpr ⟨_, rfl, .inl ⟨_, .tail _ (.tail _ (.head _)), 4, by decide, by decide +kernel⟩⟩

example : BibleBook.fromStr exampleUni defaultData "1 Jo".toList = some .IJn :=
  (C46_from_str exampleUni _ _).mpr ⟨_, rfl, .inl ⟨_, .tail _ (.head _), 2, by decide, by decide +kernel⟩⟩

example : (BibleBook.Jude).matchesName exampleUni defaultData "jude".toList = true := by decide +kernel

end Bibleref
