import Verif.Lemmas.Regroup

/-! Regrouping ends, whatever the flags. -/

namespace Bibleref

/-- The computation returns or raises. -/
structure Ends {β : Type} (x : Except PyErr β) : Prop where
  ne : x ≠ .error .diverges

namespace Ends
variable {β γ : Type}

theorem ok (b : β) : Ends (.ok b) := ⟨fun hh => by cases hh⟩
theorem error {y : PyErr} (hy : y ≠ .diverges) : Ends (.error y : Except PyErr β) := ⟨fun hh => by cases hh; exact hy rfl⟩
theorem bind {x : Except PyErr β} {f : β → Except PyErr γ} (hx : Ends x) (hf : ∀ b, Ends (f b)) : Ends (x >>= f) := by
  cases x with
  | error y => exact error fun hh => hx.ne (by rw [hh])
  | ok b => exact hf b
theorem ite {c : Prop} [Decidable c] {x y : Except PyErr β} (hx : Ends x) (hy : Ends y) : Ends (if c then x else y) := by
  split <;> assumption
end Ends

theorem BibleBook.minVerseNum_ends (e : Env) (b : BibleBook) (chap : Int) (flags : Option BibleFlag) : Ends (b.minVerseNum e chap flags) :=
  Ends.ite (Ends.error (by decide)) (Ends.ok _)

theorem BibleBook.maxVerseNum_ends (d : BibleData) (b : BibleBook) (chap : Int) : Ends (b.maxVerseNum d chap) := by
  refine Ends.ite (Ends.error (by decide)) ?_
  split
  · exact Ends.error (by decide)
  · split
    · exact Ends.ok _
    · exact Ends.error (by decide)

theorem BibleVerse.new_ends (e : Env) (b : BibleBook) (chap verse : Int) (flags : Option BibleFlag) : Ends (BibleVerse.new e b chap verse flags) :=
  Ends.ite (Ends.error (by decide)) ((b.minVerseNum_ends e chap flags).bind fun _ => (b.maxVerseNum_ends e.data chap).bind fun _ =>
    Ends.ite (Ends.error (by decide)) (Ends.ok _))

theorem BibleBook.firstVerse_ends (e : Env) (b : BibleBook) (chap : Option Int) (flags : Option BibleFlag) : Ends (b.firstVerse e chap flags) := by
  unfold BibleBook.firstVerse
  exact (b.minVerseNum_ends e _ flags).bind fun _ => BibleVerse.new_ends ..

theorem BibleBook.lastVerse_ends (e : Env) (b : BibleBook) (chap : Option Int) : Ends (b.lastVerse e chap) := by
  unfold BibleBook.lastVerse
  exact (b.maxVerseNum_ends e.data _).bind fun _ => BibleVerse.new_ends ..

theorem BibleVerse.less_ends (d : BibleData) (v w : BibleVerse) : Ends (v.less d w) := by
  cases hc : v.comparable d w with
  | true => rw [BibleVerse.less_eq hc]; exact Ends.ok _
  | false => rw [BibleVerse.less_error hc]; exact Ends.error (by decide)

theorem BibleVerse.lessEq_ends (d : BibleData) (v w : BibleVerse) : Ends (v.lessEq d w) := by
  cases hc : v.comparable d w with
  | true => rw [BibleVerse.lessEq_eq hc]; exact Ends.ok _
  | false => rw [BibleVerse.lessEq_error hc]; exact Ends.error (by decide)

namespace BibleRange
variable (e : Env) (r : BibleRange) (flags : Option BibleFlag)

theorem spansStartBook_ends : Ends (r.spansStartBook e flags) :=
  (BibleBook.firstVerse_ends ..).bind fun _ => Ends.ite (Ends.ok _) ((BibleBook.lastVerse_ends ..).bind fun _ => BibleVerse.lessEq_ends ..)
theorem spansEndBook_ends : Ends (r.spansEndBook e flags) :=
  (BibleBook.lastVerse_ends ..).bind fun _ => Ends.ite (Ends.ok _) ((BibleBook.firstVerse_ends ..).bind fun _ => BibleVerse.lessEq_ends ..)
theorem spansStartChap_ends : Ends (r.spansStartChap e flags) :=
  (BibleBook.firstVerse_ends ..).bind fun _ => Ends.ite (Ends.ok _) ((BibleBook.lastVerse_ends ..).bind fun _ => BibleVerse.lessEq_ends ..)
theorem spansEndChap_ends : Ends (r.spansEndChap e flags) :=
  (BibleBook.lastVerse_ends ..).bind fun _ => Ends.ite (Ends.ok _) ((BibleBook.firstVerse_ends ..).bind fun _ => BibleVerse.lessEq_ends ..)
theorem isWholeBook_ends : Ends (r.isWholeBook e flags) :=
  Ends.ite (Ends.ok _) ((BibleBook.firstVerse_ends ..).bind fun _ => Ends.ite (Ends.ok _) ((BibleBook.lastVerse_ends ..).bind fun _ => Ends.ok _))
theorem isWholeChap_ends : Ends (r.isWholeChap e flags) :=
  Ends.ite (Ends.ok _) ((BibleBook.firstVerse_ends ..).bind fun _ => Ends.ite (Ends.ok _) ((BibleBook.lastVerse_ends ..).bind fun _ => Ends.ok _))
end BibleRange

namespace RangeList
variable {e : Env} (h : e.data.WF) (flags : Option BibleFlag)
include h

theorem regroupStep_ends {r : BibleRange} (hr : ROK e.data true r) (s : GroupState) : Ends (regroupStep e flags s r) := by
  obtain ⟨n, hn, _⟩ := chapCount_eq h hr rfl
  have hc : Ends (r.chapCount e false) := by rw [hn]; exact Ends.ok _
  have h1 : Ends (regroupStart e flags s r) :=
    (r.spansStartBook_ends e flags).bind fun _ => Ends.ite (Ends.ok _) ((r.spansStartChap_ends e flags).bind fun _ => Ends.ite (Ends.ok _)
      (Ends.ite (Ends.ite (Ends.ok _) (hc.bind fun _ => Ends.ok _)) (Ends.ok _)))
  have h2 : Ends (isDual e flags r) :=
    (r.isWholeBook_ends e flags).bind fun _ => Ends.ite (Ends.ok _) ((r.isWholeChap_ends e flags).bind fun _ => Ends.ite (Ends.ok _) (Ends.ok _))
  have h3 : ∀ b, Ends (regroupStop e flags b r) := fun b =>
    (r.spansEndBook_ends e flags).bind fun _ => Ends.ite (Ends.ok _) (Ends.bind (Ends.ite (Ends.ok _) (r.spansEndChap_ends e flags)) fun _ => Ends.ok _)
  unfold regroupStep
  refine h1.bind fun x => ?_
  refine Ends.bind (Ends.ite (Ends.ok _) ((r.spansEndChap_ends e none).bind fun _ => Ends.ok _)) fun b => ?_
  exact h2.bind fun _ => Ends.ite ((h3 _).bind fun _ => Ends.ok _) (Ends.ok _)

theorem regroup_ends {l : List BibleRange} (hl : ∀ r ∈ l, ROK e.data true r) : Ends (regroup e flags l) := by
  unfold regroup
  refine Ends.bind ?_ fun _ => Ends.ok _
  generalize (⟨none, none, false⟩ : GroupState) = s
  induction l generalizing s with
  | nil => exact Ends.ok _
  | cons r l ih =>
    exact (regroupStep_ends h flags (hl r List.mem_cons_self) s).bind fun x =>
      (ih (fun r hr => hl r (List.mem_cons_of_mem _ hr)) _).bind fun _ => Ends.ok _

end RangeList
end Bibleref
