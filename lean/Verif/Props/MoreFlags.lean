import Verif.Lemmas.MoreFlags
import Verif.Props.Meaning
import Verif.Props.Defects
import Verif.Props.Steps

/-!
# Allowing more takes nothing away (C74)

Throughout, `f₀` and `g₀` are the global flags and `flags` and `flags'` the arguments of a first and of a second call; what is in force
in the first one is in force in the second one.
-/

namespace Bibleref
open Spec

/-- C74: a verse that can be made can be made with more flags. -/
theorem C74_verse (d : BibleData) (h : d.WF) (f₀ g₀ : BibleFlag) (flags flags' : Option BibleFlag)
    (hw : Within (inForce ⟨d, f₀⟩ flags) (inForce ⟨d, g₀⟩ flags')) (b : BibleBook) (c n : Int) (v : BibleVerse)
    (hv : BibleVerse.new ⟨d, f₀⟩ b c n flags = .ok v) : BibleVerse.new ⟨d, g₀⟩ b c n flags' = .ok v := by
  rw [(C01_verse_constructor ⟨d, f₀⟩ h b c n flags).1] at hv
  rw [(C01_verse_constructor ⟨d, g₀⟩ h b c n flags').1]
  obtain ⟨h1, h2⟩ := hv
  refine ⟨h1, ?_⟩
  rw [mem_bookVerses] at h2 ⊢
  refine ⟨h2.1, ?_⟩
  obtain ⟨h3, h4, h5, h6⟩ := h2.2
  have h7 := firstNum_more d v.book v.chap hw.1
  exact ⟨h3, h4, by show firstNum d _ v.book v.chap ≤ v.verse; simp only at h5; omega, h6⟩

example : Within (inForce dflt none) (inForce dflt (some .VERSE_0)) := ⟨(fun h => nomatch h), (fun h => nomatch h)⟩
example : BibleVerse.new dflt .Psa 3 1 none = .ok ⟨.Psa, 3, 1⟩ ∧ BibleVerse.new dflt .Psa 3 0 none = .error .invalidReference ∧
    BibleVerse.new dflt .Psa 3 0 (some .VERSE_0) = .ok ⟨.Psa, 3, 0⟩ := by decide +kernel

/-- C74: a range that can be made of two verses is made of them with more flags. -/
theorem C74_range (d : BibleData) (h : d.WF) (f₀ g₀ : BibleFlag) (flags flags' : Option BibleFlag)
    (hw : Within (inForce ⟨d, f₀⟩ flags) (inForce ⟨d, g₀⟩ flags')) (v w : BibleVerse) (hv : v ∈ canon d true)
    (hw' : w ∈ canon d true) (r : BibleRange) (hr : BibleRange.new ⟨d, f₀⟩ (some v) (some w) flags = .ok r) :
    BibleRange.new ⟨d, g₀⟩ (some v) (some w) flags' = .ok r := by
  rw [C12_range_constructor ⟨d, f₀⟩ h v w hv hw'] at hr
  rw [C12_range_constructor ⟨d, g₀⟩ h v w hv hw']
  split at hr
  · rename_i hb
    rw [if_pos (hb.imp hw.2 id)]
    exact hr
  · cases hr

/-- The arguments of `BibleRange` in order, whatever the flags. -/
theorem ofArgs_normal_all {d : BibleData} (h : d.WF) (sb : BibleBook) (hS : sb ∈ d.bookOrder)
    (sc sv : Option Int) (eb : Option BibleBook) (hE : ∀ b, eb = some b → b ∈ d.bookOrder) (ec ev : Option Int) :
    ∃ sb' sc' sv' eb' ec' ev', sb' ∈ d.bookOrder ∧ (∀ b, eb' = some b → b ∈ d.bookOrder) ∧ ¬ Reversed d sb' sc' sv' eb' ec' ev' ∧
      ∀ f₀ flags, BibleRange.ofArgs ⟨d, f₀⟩ (some sb) sc sv eb ec ev flags =
        BibleRange.ofArgs ⟨d, f₀⟩ (some sb') sc' sv' eb' ec' ev' flags := by
  by_cases hn : Reversed d sb sc sv eb ec ev
  · rcases hn with ⟨b, rfl, hh⟩ | ⟨heb, c, rfl, ⟨c', rfl, hh⟩ | ⟨hec, n, n', rfl, rfl, hh⟩⟩
    · exact ⟨_, _, _, _, _, _, hE b rfl, fun b hb => by cases hb; exact hS,
        ((C13_reversed ⟨d, .none⟩ h none sb hS sc sv ec ev).1 b (hE b rfl) hh).1,
        fun f₀ flags => ((C13_reversed ⟨d, f₀⟩ h flags sb hS sc sv ec ev).1 b (hE b rfl) hh).2⟩
    · exact ⟨_, _, _, _, _, _, hS, hE, ((C13_reversed ⟨d, .none⟩ h none sb hS none sv none ev).2.1 eb heb c c' hh).1,
        fun f₀ flags => ((C13_reversed ⟨d, f₀⟩ h flags sb hS none sv none ev).2.1 eb heb c c' hh).2⟩
    · exact ⟨_, _, _, _, _, _, hS, hE, ((C13_reversed ⟨d, .none⟩ h none sb hS none none ec none).2.2 eb heb c n n' hh hec).1,
        fun f₀ flags => ((C13_reversed ⟨d, f₀⟩ h flags sb hS none none ec none).2.2 eb heb c n n' hh hec).2⟩
  · exact ⟨_, _, _, _, _, _, hS, hE, hn, fun _ _ => rfl⟩

theorem argStop_more {d : BibleData} (h : d.WF) {a a' : Bool} (ha : a = true → a' = true) {sb sc sv eb ec ev t}
    (ht : argStop d a sb sc sv eb ec ev = some t) : argStop d a' sb sc sv eb ec ev = some t := by
  unfold argStop at ht ⊢
  split at ht
  · exact lastOf_more h ha ht
  · split at ht
    · rename_i hb
      simp only [hb, if_true]
      exact lastOf_more h ha ht
    · cases ht
  · exact lastOf_more h ha ht

/-- C74: a range that can be made of books and numbers is made of them with more flags, from the same verse on or from the verse 0
before it, and up to the same verse; it covers all it did before. Proviso as for C13: what the second call allows about verse 0s the
global flags allow as well. -/
theorem C74_range_args_partial (d : BibleData) (h : d.WF) (f₀ g₀ : BibleFlag) (flags flags' : Option BibleFlag)
    (hw : Within (inForce ⟨d, f₀⟩ flags) (inForce ⟨d, g₀⟩ flags')) (hg : (inForce ⟨d, g₀⟩ flags').verse0 = true → g₀.verse0 = true)
    (sb eb : Option BibleBook) (hS : ∀ b, sb = some b → b ∈ d.bookOrder) (hE : ∀ b, eb = some b → b ∈ d.bookOrder)
    (sc sv ec ev : Option Int) (r : BibleRange) (hr : BibleRange.ofArgs ⟨d, f₀⟩ sb sc sv eb ec ev flags = .ok r) :
    ∃ r', BibleRange.ofArgs ⟨d, g₀⟩ sb sc sv eb ec ev flags' = .ok r' ∧
      Kept (inForce ⟨d, f₀⟩ flags) (inForce ⟨d, g₀⟩ flags') r r' ∧ r'.stop = r.stop ∧ ∀ v, InRange d r v → InRange d r' v := by
  cases sb with
  | none => cases hr
  | some sb =>
    obtain ⟨sb', sc', sv', eb', ec', ev', hS', hE', hn, heq⟩ := ofArgs_normal_all h sb (hS _ rfl) sc sv eb hE ec ev
    rw [heq] at hr ⊢
    rw [C13_value_partial ⟨d, g₀⟩ h flags' hg sb' hS' sc' sv' eb' hE' ec' ev' hn]
    rw [C13_exact ⟨d, f₀⟩ h flags sb' hS' sc' sv' eb' hE' ec' ev' hn] at hr
    split at hr
    · cases hr
    · unfold argRange at hr ⊢
      simp only at hr ⊢
      cases hs : argStart d (inForce ⟨d, f₀⟩ flags).verse0 sb' sc' sv' with
      | none => rw [hs] at hr; cases hr
      | some s =>
        cases ht : argStop d (inForce ⟨d, f₀⟩ flags).verse0 sb' sc' sv' eb' ec' ev' with
        | none => rw [hs, ht] at hr; cases hr
        | some t =>
          rw [hs, ht] at hr
          rw [argStop_more h hw.1 ht]
          unfold argStart at hs ⊢
          split at hs
          · cases hs
          · rename_i hc
            rw [if_neg hc]
            obtain ⟨s', hs', hl⟩ := firstOf_more h hw.1 hs
            rw [hs']
            simp only [rangeFrom] at hr ⊢
            split at hr
            · rename_i hb
              cases hr
              refine ⟨_, if_pos (by rw [hl.book]; exact hb.imp hw.2 id), ⟨hl.1, .refl _, fun he => by rw [hl.2 he]⟩, rfl, ?_⟩
              intro v hv
              have := low_le h (firstOf_spec h hs).1 (firstOf_spec h hs').1 hl.1
              exact ⟨Nat.le_trans this hv.1, hv.2⟩
            · cases hr

example : BibleRange.ofArgs dflt (some .Psa) (some 3) none none none none none = .ok ⟨⟨.Psa, 3, 1⟩, ⟨.Psa, 3, 8⟩⟩ ∧
    BibleRange.ofArgs ⟨defaultData, .VERSE_0⟩ (some .Psa) (some 3) none none none none none = .ok ⟨⟨.Psa, 3, 0⟩, ⟨.Psa, 3, 8⟩⟩ := by
  decide +kernel

/-- C74: a string that can be read as a list of ranges is read with more flags as a list with the same groups of as many ranges, each
beginning and ending with the verse it did or with the verse 0 before it. Proviso as for C64. -/
theorem C74_list_string_partial (u : Uni) (d : BibleData) (h : d.Full) (hd : PlainSeps u d) (f₀ g₀ : BibleFlag)
    (flags flags' : Option BibleFlag) (hw : Within (inForce ⟨d, f₀⟩ flags) (inForce ⟨d, g₀⟩ flags'))
    (hg : (inForce ⟨d, g₀⟩ flags').verse0 = true → g₀.verse0 = true) (s : List Char) (l : RangeList)
    (hr : (RangeList.ofStr u ⟨d, f₀⟩ flags s PState.init).1 = .ok l) :
    ∃ l', (RangeList.ofStr u ⟨d, g₀⟩ flags' s PState.init).1 = .ok l' ∧ l'.map List.length = l.map List.length ∧
      ∀ p ∈ l.flatten.zip l'.flatten, Kept (inForce ⟨d, f₀⟩ flags) (inForce ⟨d, g₀⟩ flags') p.1 p.2 := by
  by_cases ht : ∃ t, ListRule u d s t
  · obtain ⟨t, ht⟩ := ht
    have hm := C64_sound u ⟨d, f₀⟩ h hd flags s t ht PState.init (.inl rfl) l hr
    obtain ⟨l', hm', h1, h2⟩ := meaning_more h.toWF hw hm
    have := C64_meaning_partial u ⟨d, g₀⟩ h hd flags' hg s t ht PState.init (.inl rfl)
    rw [hm'] at this
    exact ⟨l', this, h1, h2⟩
  · rw [C53_refused u ⟨d, f₀⟩ flags s PState.init fun t h' => ht ⟨t, h'⟩] at hr
    cases hr

/-- C74, `BibleRange(string)`. -/
theorem C74_range_string_partial (u : Uni) (d : BibleData) (h : d.Full) (hd : PlainSeps u d) (f₀ g₀ : BibleFlag)
    (flags flags' : Option BibleFlag) (hw : Within (inForce ⟨d, f₀⟩ flags) (inForce ⟨d, g₀⟩ flags'))
    (hg : (inForce ⟨d, g₀⟩ flags').verse0 = true → g₀.verse0 = true) (s : List Char) (r : BibleRange)
    (hr : (BibleRange.ofStr u ⟨d, f₀⟩ flags s PState.init).1 = .ok r) :
    ∃ r', (BibleRange.ofStr u ⟨d, g₀⟩ flags' s PState.init).1 = .ok r' ∧
      Kept (inForce ⟨d, f₀⟩ flags) (inForce ⟨d, g₀⟩ flags') r r' := by
  have e1 : ∀ f₁ fl, inForce ⟨d, f₁⟩ (some (Env.eff ⟨d, f₁⟩ fl)) = inForce ⟨d, f₁⟩ fl := by
    intro f₁ fl; rw [← eff_eq, ← eff_eq, Env.eff_eff]
  rw [BibleRange.ofStr_fst] at hr ⊢
  cases hl : (RangeList.ofStr u ⟨d, f₀⟩ (some (Env.eff ⟨d, f₀⟩ flags)) s PState.init).1 with
  | error _ => rw [hl] at hr; cases hr
  | ok l =>
    rw [hl] at hr
    simp only at hr
    obtain ⟨l', h1, h2, h3⟩ := C74_list_string_partial u d h hd f₀ g₀ (some (Env.eff ⟨d, f₀⟩ flags)) (some (Env.eff ⟨d, g₀⟩ flags'))
      (by rw [e1, e1]; exact hw) (by rw [e1]; exact hg) s l hl
    rw [e1, e1] at h3
    rw [h1]
    have hlen : l'.flatten.length = l.flatten.length := by rw [List.length_flatten, List.length_flatten, h2]
    split at hr
    · rename_i r0 hf
      cases hr
      rw [hf] at hlen h3
      obtain ⟨r', hf'⟩ := List.length_eq_one_iff.mp hlen
      rw [hf'] at h3
      simp only [hf']
      exact ⟨r', rfl, h3 (r, r') (by simp)⟩
    · cases hr

/-- C74, `BibleVerse(string)`: the same verse, if the two calls do not differ about verse 0s. -/
theorem C74_verse_string_partial (u : Uni) (d : BibleData) (h : d.Full) (hd : PlainSeps u d) (f₀ g₀ : BibleFlag)
    (flags flags' : Option BibleFlag) (hw : Within (inForce ⟨d, f₀⟩ flags) (inForce ⟨d, g₀⟩ flags'))
    (hg : (inForce ⟨d, g₀⟩ flags').verse0 = true → g₀.verse0 = true)
    (h0 : (inForce ⟨d, f₀⟩ flags).verse0 = (inForce ⟨d, g₀⟩ flags').verse0) (s : List Char) (v : BibleVerse)
    (hv : (BibleVerse.ofStr u ⟨d, f₀⟩ flags s PState.init).1 = .ok v) :
    (BibleVerse.ofStr u ⟨d, g₀⟩ flags' s PState.init).1 = .ok v := by
  rw [BibleVerse.ofStr_fst] at hv ⊢
  cases hl : (RangeList.ofStr u ⟨d, f₀⟩ flags s PState.init).1 with
  | error _ => rw [hl] at hv; cases hv
  | ok l =>
    rw [hl] at hv
    simp only at hv
    obtain ⟨l', h1, h2, h3⟩ := C74_list_string_partial u d h hd f₀ g₀ flags flags' hw hg s l hl
    rw [h1]
    have hlen : l'.flatten.length = l.flatten.length := by rw [List.length_flatten, List.length_flatten, h2]
    split at hv
    · rename_i r0 hf
      rw [hf] at hlen h3
      obtain ⟨r', hf'⟩ := List.length_eq_one_iff.mp hlen
      rw [hf'] at h3
      have := (h3 (r0, r') (by simp)).2.2 h0
      simp only at this
      simp only [hf', this]
      exact hv
    · cases hv

theorem verse_eq {v w : BibleVerse} (h1 : v.book = w.book) (h2 : v.chap = w.chap) (h3 : v.verse = w.verse) : v = w := by
  cases v; cases w; cases h1; cases h2; cases h3; rfl

/-- C74: so every verse that is covered with fewer flags is covered with more, except perhaps the last verse of a range that is
verse 1 of its chapter. -/
theorem C74_covers_partial (u : Uni) (d : BibleData) (h : d.Full) (hd : PlainSeps u d) (f₀ g₀ : BibleFlag)
    (flags flags' : Option BibleFlag) (hw : Within (inForce ⟨d, f₀⟩ flags) (inForce ⟨d, g₀⟩ flags'))
    (hg : (inForce ⟨d, g₀⟩ flags').verse0 = true → g₀.verse0 = true) (s : List Char) (l l' : RangeList)
    (hr : (RangeList.ofStr u ⟨d, f₀⟩ flags s PState.init).1 = .ok l)
    (hr' : (RangeList.ofStr u ⟨d, g₀⟩ flags' s PState.init).1 = .ok l') (v : BibleVerse) (hv : v ∈ canon d true)
    (r : BibleRange) (hm : r ∈ l.flatten) (hin : InRange d r v) (hlast : v ≠ r.stop ∨ v.verse ≠ 1) :
    ∃ r' ∈ l'.flatten, InRange d r' v := by
  obtain ⟨l₁, h1, h2, h3⟩ := C74_list_string_partial u d h hd f₀ g₀ flags flags' hw hg s l hr
  rw [hr'] at h1
  cases h1
  have hlen : l'.flatten.length = l.flatten.length := by rw [List.length_flatten, List.length_flatten, h2]
  obtain ⟨i, hi, hri⟩ := List.mem_iff_getElem.mp hm
  have hp : (r, l'.flatten[i]'(by omega)) ∈ l.flatten.zip l'.flatten := by
    rw [List.mem_iff_getElem]
    exact ⟨i, by rw [List.length_zip]; omega, by rw [List.getElem_zip, hri]⟩
  have hm' : l'.flatten[i]'(by omega) ∈ l'.flatten := List.getElem_mem _
  obtain ⟨k1, k2, -⟩ := h3 _ hp
  generalize l'.flatten[i]'(by omega) = r' at hm' k1 k2
  simp only at k1 k2
  have a1 : Allowed d (inForce ⟨d, f₀⟩ flags) r := by
    rcases C45_list u ⟨d, f₀⟩ h flags s PState.init with h' | ⟨l₂, h', -, -, h4⟩
    · rw [hr] at h'; cases h'
    · rw [hr] at h'; cases h'; exact h4 r hm
  have a2 : Allowed d (inForce ⟨d, g₀⟩ flags') r' := by
    rcases C45_list u ⟨d, g₀⟩ h flags' s PState.init with h' | ⟨l₂, h', -, -, h4⟩
    · rw [hr'] at h'; cases h'
    · rw [hr'] at h'; cases h'; exact h4 r' hm'
  have hv' := (mem_canon h.toWF).mp hv
  have v1 := (mem_canon h.toWF).mp a1.1.start_mem
  have v2 := (mem_canon h.toWF).mp a1.1.stop_mem
  have v3 := (mem_canon h.toWF).mp a2.1.start_mem
  have v4 := (mem_canon h.toWF).mp a2.1.stop_mem
  refine ⟨r', hm', Nat.le_trans (low_le h.toWF v1 v3 k1) hin.1, ?_⟩
  rcases k2 with he | ⟨hs1, he⟩
  · rw [he]; exact hin.2
  · have hne : v ≠ r.stop := by
      rcases hlast with hl | hl
      · exact hl
      · rintro rfl; exact hl hs1
    have hle := (pos_le_parts h.toWF hv' v2).mp hin.2
    rw [pos_le_parts h.toWF hv' v4, he]
    rcases hle with h4 | ⟨h4, h5 | ⟨h5, h6⟩⟩
    · exact .inl h4
    · exact .inr ⟨h4, .inl h5⟩
    · refine .inr ⟨h4, .inr ⟨h5, ?_⟩⟩
      show v.verse ≤ 0
      have : v.verse ≠ r.stop.verse := fun h6 => hne (verse_eq h4 h5 h6)
      omega

/-- The verses of a book are next to each other in the Bible. -/
theorem canon_parts {d : BibleData} {b : BibleBook} (hb : b ∈ d.bookOrder) (v0 : Bool) :
    ∃ A B, canon d v0 = A ++ (bookVerses d v0 b ++ B) := by
  obtain ⟨xs, ys, he⟩ := List.append_of_mem hb
  refine ⟨xs.flatMap (bookVerses d v0), ys.flatMap (bookVerses d v0), ?_⟩
  unfold canon
  rw [he]
  simp

theorem get_parts {α} {A L B : List α} {i : Nat} {x : α} (hx : L[i]? = some x) : (A ++ (L ++ B))[A.length + i]? = some x := by
  have hi : i < L.length := (List.getElem?_eq_some_iff.mp hx).1
  rw [List.getElem?_append_right (by omega), List.getElem?_append_left (by omega)]
  simpa using hx

/-- C74: verses that are reached by `add` without `MULTIBOOK` are reached with it. -/
theorem C74_add (d : BibleData) (h : d.WF) (f₀ g₀ : BibleFlag) (flags flags' : Option BibleFlag)
    (hw : Within (inForce ⟨d, f₀⟩ flags) (inForce ⟨d, g₀⟩ flags'))
    (h0 : (inForce ⟨d, f₀⟩ flags).verse0 = (inForce ⟨d, g₀⟩ flags').verse0) (v w : BibleVerse) (hv : v ∈ canon d true) (n : Nat)
    (ha : v.add ⟨d, f₀⟩ n flags = .ok (some w)) : v.add ⟨d, g₀⟩ n flags' = .ok (some w) := by
  obtain ⟨⟨i, hi⟩, ⟨j, hj⟩⟩ := C03_C04_applicable ⟨d, f₀⟩ h flags v hv
  have hb : v.book ∈ d.bookOrder := ((mem_canon h).mp hv).listed
  cases hf : (inForce ⟨d, f₀⟩ flags).multibook with
  | true =>
    rw [C03_add_multibook ⟨d, f₀⟩ h flags hf v _ rfl i n hi] at ha
    rw [C03_add_multibook ⟨d, g₀⟩ h flags' (hw.2 hf) v _ rfl i n (by rw [← h0]; exact hi), ← h0]
    exact ha
  | false =>
    rw [C04_add_in_book ⟨d, f₀⟩ h flags hf v _ rfl j n hj] at ha
    cases hg : (inForce ⟨d, g₀⟩ flags').multibook with
    | false =>
      rw [C04_add_in_book ⟨d, g₀⟩ h flags' hg v _ rfl j n (by rw [← h0]; exact hj), ← h0]
      exact ha
    | true =>
      obtain ⟨A, B, hAB⟩ := canon_parts hb ((inForce ⟨d, f₀⟩ flags).verse0 || v.verse == 0)
      rw [C03_add_multibook ⟨d, g₀⟩ h flags' hg v _ rfl (A.length + j) n (by rw [← h0]; rw [hAB]; exact get_parts hj), ← h0]
      simp only at ha ⊢
      rw [hAB, Nat.add_assoc, get_parts (Except.ok.inj ha)]

/-- C74: verses that are reached by `subtract` without `MULTIBOOK` are reached with it. -/
theorem C74_subtract (d : BibleData) (h : d.WF) (f₀ g₀ : BibleFlag) (flags flags' : Option BibleFlag)
    (hw : Within (inForce ⟨d, f₀⟩ flags) (inForce ⟨d, g₀⟩ flags'))
    (h0 : (inForce ⟨d, f₀⟩ flags).verse0 = (inForce ⟨d, g₀⟩ flags').verse0) (hg0 : f₀.verse0 = g₀.verse0) (v w : BibleVerse)
    (hv : v ∈ canon d true) (n : Nat) (hs : v.sub ⟨d, f₀⟩ n flags = .ok (some w)) : v.sub ⟨d, g₀⟩ n flags' = .ok (some w) := by
  obtain ⟨i, hi⟩ := C05_applicable ⟨d, f₀⟩ h flags v hv
  have hb : v.book ∈ d.bookOrder := ((mem_canon h).mp hv).listed
  have key : ∃ k, ∀ (j : Nat) x, (counted ⟨d, f₀⟩ flags v)[j]? = some x → (counted ⟨d, g₀⟩ flags' v)[k + j]? = some x := by
    unfold counted
    rw [← h0]
    simp only [← hg0]
    cases hf : (inForce ⟨d, f₀⟩ flags).multibook with
    | true => rw [hw.2 hf]; exact ⟨0, fun j x hx => by rw [Nat.zero_add]; exact hx⟩
    | false =>
      cases hg : (inForce ⟨d, g₀⟩ flags').multibook with
      | false => exact ⟨0, fun j x hx => by rw [Nat.zero_add]; exact hx⟩
      | true =>
        obtain ⟨A, B, hAB⟩ := canon_parts hb true
        simp only [if_true, Bool.false_eq_true, if_false]
        rw [hAB, List.filter_append, List.filter_append]
        exact ⟨_, fun j x hx => get_parts hx⟩
  obtain ⟨k, key⟩ := key
  rw [C05_subtract_exact ⟨d, f₀⟩ h flags v i n hi] at hs
  rw [C05_subtract_exact ⟨d, g₀⟩ h flags' v (k + i) n (key i v hi), ← h0]
  split at hs
  · rename_i hn
    rw [if_pos (by omega)]
    cases hx : (counted ⟨d, f₀⟩ flags v)[i - n]? with
    | none => rw [hx] at hs; cases hs
    | some x =>
      rw [hx] at hs
      have := key (i - n) x hx
      rw [show k + (i - n) = k + i - n by omega] at this
      rw [this]
      exact hs
  · cases hs

example : BibleVerse.add dflt ⟨.Psa, 3, 8⟩ 2 none = .ok (some ⟨.Psa, 4, 2⟩) ∧ BibleVerse.add dflt ⟨.Mal, 4, 6⟩ 1 none = .ok none ∧
    BibleVerse.add dflt ⟨.Psa, 3, 8⟩ 2 (some .MULTIBOOK) = .ok (some ⟨.Psa, 4, 2⟩) ∧
    BibleVerse.sub dflt ⟨.Psa, 4, 2⟩ 2 none = .ok (some ⟨.Psa, 3, 8⟩) ∧ BibleVerse.sub dflt ⟨.Matt, 1, 1⟩ 1 none = .ok none ∧
    BibleVerse.sub dflt ⟨.Psa, 4, 2⟩ 2 (some .MULTIBOOK) = .ok (some ⟨.Psa, 3, 8⟩) := by decide +kernel

example : (RangeList.ofStr exampleUni dflt none "Psalm 3; 4:2".toList PState.init).1 =
      .ok [[⟨⟨.Psa, 3, 1⟩, ⟨.Psa, 3, 8⟩⟩], [⟨⟨.Psa, 4, 2⟩, ⟨.Psa, 4, 2⟩⟩]] ∧
    (RangeList.ofStr exampleUni ⟨defaultData, .VERSE_0⟩ none "Psalm 3; 4:2".toList PState.init).1 =
      .ok [[⟨⟨.Psa, 3, 0⟩, ⟨.Psa, 3, 8⟩⟩], [⟨⟨.Psa, 4, 2⟩, ⟨.Psa, 4, 2⟩⟩]] := by decide +kernel

/-- C74: no verse counts less with more global flags. -/
theorem C74_count (d : BibleData) (h : d.WF) (f₀ g₀ : BibleFlag) (hw : Within f₀ g₀) (r : BibleRange) (hr : RangeOK d true r) :
    ∃ m n : Nat, r.verseCount ⟨d, f₀⟩ = .ok m ∧ r.verseCount ⟨d, g₀⟩ = .ok n ∧ m ≤ n ∧ (f₀.verse0 = g₀.verse0 → m = n) := by
  refine ⟨_, _, C15_verse_count ⟨d, f₀⟩ h r hr _ rfl, C15_verse_count ⟨d, g₀⟩ h r hr _ rfl, ?_, fun he => by simp only [he]⟩
  have hmono : (f₀.verse0 || r.start.verse == 0 || r.stop.verse == 0) = true →
      (g₀.verse0 || r.start.verse == 0 || r.stop.verse == 0) = true := by
    have := hw.1
    cases hf : f₀.verse0 <;> cases hg : g₀.verse0 <;> simp_all
  simp only
  generalize (f₀.verse0 || r.start.verse == 0 || r.stop.verse == 0) = a at hmono
  generalize (g₀.verse0 || r.start.verse == 0 || r.stop.verse == 0) = b at hmono
  have hs : (canon d a).Sublist (canon d b) := by
    have hb := ((mem_canon h).mp hr.start_mem).listed
    cases b with
    | true =>
      have := walk_filter h true a hb
      simp only [walk, if_true] at this
      rw [← this]
      exact List.filter_sublist
    | false =>
      cases a with
      | true => cases hmono rfl
      | false => exact List.Sublist.refl _
  exact (hs.filter _).length_le

/-- C74 fails for references in reverse order, for verses given as a range, and if only the call allows verse 0s: "Psalm 4-2" covers
4:1 without `VERSE_0` but not with it; "Psalm 3-3:1" is a verse without `VERSE_0` but not with it; "Psalm 3" can be read without
`VERSE_0`, but not with `VERSE_0` in the call alone. -/
theorem C74_counterexample :
    ((RangeList.ofStr exampleUni dflt none "Psalm 4-2".toList PState.init).1 = .ok [[⟨⟨.Psa, 2, 12⟩, ⟨.Psa, 4, 1⟩⟩]] ∧
      (RangeList.ofStr exampleUni ⟨defaultData, .VERSE_0⟩ none "Psalm 4-2".toList PState.init).1 =
        .ok [[⟨⟨.Psa, 2, 12⟩, ⟨.Psa, 4, 0⟩⟩]] ∧ ¬ InRange defaultData ⟨⟨.Psa, 2, 12⟩, ⟨.Psa, 4, 0⟩⟩ ⟨.Psa, 4, 1⟩) ∧
    ((BibleVerse.ofStr exampleUni dflt none "Psalm 3-3:1".toList PState.init).1 = .ok ⟨.Psa, 3, 1⟩ ∧
      (BibleVerse.ofStr exampleUni ⟨defaultData, .VERSE_0⟩ none "Psalm 3-3:1".toList PState.init).1 = .error .invalidReference) ∧
    ((RangeList.ofStr exampleUni dflt none "Psalm 3".toList PState.init).1 = .ok [[⟨⟨.Psa, 3, 1⟩, ⟨.Psa, 3, 8⟩⟩]] ∧
      (RangeList.ofStr exampleUni dflt (some .VERSE_0) "Psalm 3".toList PState.init).1 = .error .parsing) := by
  refine ⟨⟨by decide +kernel, by decide +kernel, fun hr => ?_⟩, by decide +kernel, by decide +kernel⟩
  have := (BibleData.WF.le_pos defaultData_full.toWF (v0 := false) (w0 := true) (v := ⟨.Psa, 4, 1⟩) (w := ⟨.Psa, 4, 0⟩)
    (by decide +kernel) (by decide +kernel)).2 hr.2
  revert this
  decide +kernel

end Bibleref
