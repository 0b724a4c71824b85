import Verif.Lemmas.Groups
import Verif.Lemmas.Unlisted
import Verif.SpecHistory

/-!
# Ranges that can be compared with each other

The set operations on ranges of a set `K` of books do not lead out of `K`, if `K` consists of the books in the order or of one book
outside it.
-/

namespace Bibleref

/-- Both books are in the set. -/
def OfKind (K : BibleBook → Prop) (r : BibleRange) : Prop := K r.start.book ∧ K r.stop.book

/-- Books that can be compared, and that are not left by adding or subtracting verses. -/
structure Kind (e : Env) (K : BibleBook → Prop) : Prop where
  cmp : ∀ {b c}, K b → K c → b = c ∨ (b ∈ e.data.bookOrder ∧ c ∈ e.data.bookOrder)
  add : ∀ {v : BibleVerse} {n : Int} {fl : Option BibleFlag} {w : BibleVerse}, K v.book → v.add e n fl = .ok (some w) → K w.book
  sub : ∀ {v : BibleVerse} {n : Int} {fl : Option BibleFlag} {w : BibleVerse}, K v.book → v.sub e n fl = .ok (some w) → K w.book

theorem next_listed {d : BibleData} {b c : BibleBook} (h : b.next d = some c) : c ∈ d.bookOrder := by
  unfold BibleBook.next at h
  repeat' split at h
  all_goals first
    | cases h; done
    | exact List.mem_of_getElem? h

theorem prev_listed {d : BibleData} {b c : BibleBook} (h : b.prev d = some c) : c ∈ d.bookOrder := by
  unfold BibleBook.prev at h
  repeat' split at h
  all_goals first
    | cases h; done
    | exact List.mem_of_getElem? h

section
variable {e : Env}

theorem addLoop_listed (f : BibleFlag) (fuel : Nat) : ∀ b c n mx w, b ∈ e.data.bookOrder →
    BibleVerse.addLoop e f fuel b c n mx = .ok (some w) → w.book ∈ e.data.bookOrder := by
  induction fuel with
  | zero => intro b c n mx w _ hw; cases hw
  | succ fuel ih =>
    intro b c n mx w hb hw
    rw [BibleVerse.addLoop] at hw
    have go : ∀ b' c', b' ∈ e.data.bookOrder → (do
        let mn ← b'.minVerseNum e c' (some f)
        let mx' ← b'.maxVerseNum e.data c'
        BibleVerse.addLoop e f fuel b' c' (n - mx + mn - 1) mx' : Except PyErr (Option BibleVerse)) = .ok (some w) →
        w.book ∈ e.data.bookOrder := by
      intro b' c' hb' hh
      cases h1 : b'.minVerseNum e c' (some f) with
      | error x => rw [h1] at hh; cases hh
      | ok mn =>
        cases h2 : b'.maxVerseNum e.data c' with
        | error x => rw [h1, h2] at hh; cases hh
        | ok mx' => rw [h1, h2] at hh; exact ih _ _ _ _ _ hb' hh
    split at hw
    · split at hw
      · split at hw
        · cases hw
        · split at hw
          · cases hw
          · next b' hn => exact go _ _ (next_listed hn) hw
      · exact go _ _ hb hw
    · cases h1 : BibleVerse.new e b c n (some f) with
      | error x => rw [h1] at hw; cases hw
      | ok v => rw [h1] at hw; cases hw; rw [verse_new_book h1]; exact hb

theorem subLoop_listed (f : BibleFlag) (fuel : Nat) : ∀ b c n mn w, b ∈ e.data.bookOrder →
    BibleVerse.subLoop e f fuel b c n mn = .ok (some w) → w.book ∈ e.data.bookOrder := by
  induction fuel with
  | zero => intro b c n mx w _ hw; cases hw
  | succ fuel ih =>
    intro b c n mx w hb hw
    rw [BibleVerse.subLoop] at hw
    split at hw
    · split at hw
      · split at hw
        · cases hw
        · split at hw
          · cases hw
          · next b' hn =>
            simp only [bind, Except.bind] at hw
            split at hw
            · cases hw
            · split at hw
              · cases hw
              · exact ih _ _ _ _ _ (prev_listed hn) hw
      · simp only [bind, Except.bind] at hw
        split at hw
        · cases hw
        · split at hw
          · cases hw
          · exact ih _ _ _ _ _ hb hw
    · cases h1 : BibleVerse.new e b c n (some f) with
      | error x => rw [h1] at hw; cases hw
      | ok v => rw [h1] at hw; cases hw; rw [verse_new_book h1]; exact hb

theorem kind_listed : Kind e (· ∈ e.data.bookOrder) where
  cmp := fun h1 h2 => .inr ⟨h1, h2⟩
  add := by
    intro v n fl w hv hw
    unfold BibleVerse.add at hw
    cases h1 : v.book.maxVerseNum e.data v.chap with
    | error x => simp only [h1, bind, Except.bind] at hw; cases hw
    | ok mx => simp only [h1, bind, Except.bind] at hw; exact addLoop_listed _ _ _ _ _ _ _ hv hw
  sub := by
    intro v n fl w hv hw
    unfold BibleVerse.sub at hw
    cases h1 : v.book.minVerseNum e v.chap (some (v.honourFlags (e.eff fl))) with
    | error x => simp only [h1, bind, Except.bind] at hw; cases hw
    | ok mx => simp only [h1, bind, Except.bind] at hw; exact subLoop_listed _ _ _ _ _ _ _ hv hw

theorem kind_single {b : BibleBook} (hb : b ∉ e.data.bookOrder) : Kind e (· = b) where
  cmp := fun h1 h2 => .inl (h1.trans h2.symm)
  add := fun hv hw => (add_only hb hv _ _).2 _ hw
  sub := fun hv hw => (sub_only hb hv _ _).2 _ hw

theorem Orderly.kind {l : List BibleRange} (h : Orderly e.data l) : ∃ K, Kind e K ∧ ∀ r ∈ l, OfKind K r := by
  rcases h with h | ⟨b, h⟩
  · exact ⟨_, kind_listed, h⟩
  · by_cases hb : b ∈ e.data.bookOrder
    · exact ⟨_, kind_listed, fun r hr => by
        show r.start.book ∈ _ ∧ r.stop.book ∈ _
        rw [(h r hr).1, (h r hr).2]; exact ⟨hb, hb⟩⟩
    · exact ⟨_, kind_single hb, h⟩

variable {K : BibleBook → Prop} (hK : Kind e K)
include hK

theorem Kind.comparable {v w : BibleVerse} (hv : K v.book) (hw : K w.book) : v.comparable e.data w = true := by
  rcases hK.cmp hv hw with h | ⟨h1, h2⟩
  · exact comparable_book h
  · exact comparable_mem h1 h2

theorem Kind.alike {a b : BibleRange} (ha : OfKind K a) (hb : OfKind K b) : Alike e.data a b :=
  ⟨hK.comparable ha.1 hb.1, hK.comparable ha.1 hb.2, hK.comparable ha.2 hb.1, hK.comparable ha.2 hb.2⟩

omit hK in
theorem new_kind {s t : Option BibleVerse} (hs : ∀ v, s = some v → K v.book) (ht : ∀ v, t = some v → K v.book)
    {fl : Option BibleFlag} {r : BibleRange} (hr : BibleRange.new e s t fl = .ok r) : OfKind K r := by
  rw [BibleRange.new_eq] at hr
  cases s with
  | none => simp only at hr; split at hr <;> cases hr
  | some s =>
    cases t with
    | none => simp only at hr; split at hr <;> cases hr
    | some t =>
      have h1 := hs s rfl
      have h2 := ht t rfl
      simp only at hr
      repeat' split at hr
      all_goals cases hr
      · exact ⟨h2, h1⟩
      · exact ⟨h1, h2⟩

omit hK in
theorem minVerse_kind (d : BibleData) {v w : BibleVerse} (hv : K v.book) (hw : K w.book) : K (BibleRange.minVerse d v w).book := by
  unfold BibleRange.minVerse; split <;> assumption

omit hK in
theorem maxVerse_kind (d : BibleData) {v w : BibleVerse} (hv : K v.book) (hw : K w.book) : K (BibleRange.maxVerse d v w).book := by
  unfold BibleRange.maxVerse; split <;> assumption

theorem Kind.union {a r : BibleRange} (ha : OfKind K a) (hr : OfKind K r) {fl : Option BibleFlag} {l : List BibleRange}
    (hl : a.union e r fl = .ok l) : ∀ x ∈ l, OfKind K x := by
  rw [BibleRange.union_eq (hK.alike ha hr)] at hl
  simp only [bind] at hl
  cases hq : (if a.disjointT e.data r then (a.isAdjacent e r fl).bind (fun adj => pure (!adj)) else pure false : Except PyErr Bool) with
  | error x => rw [hq] at hl; cases hl
  | ok apart =>
    rw [hq] at hl
    simp only [Except.bind] at hl
    cases apart with
    | true =>
      cases hl
      intro x hx
      unfold BibleRange.lowerHigher at hx
      split at hx <;> simp only [List.mem_cons, List.not_mem_nil, or_false] at hx <;> rcases hx with rfl | rfl <;> assumption
    | false =>
      simp only [Bool.false_eq_true, if_false] at hl
      cases hr2 : BibleRange.new e (some (BibleRange.minVerse e.data a.start r.start)) (some (BibleRange.maxVerse e.data a.stop r.stop)) fl with
      | error x => rw [hr2] at hl; cases hl
      | ok y =>
        rw [hr2] at hl
        cases hl
        intro x hx
        cases List.mem_singleton.mp hx
        exact new_kind (by rintro v ⟨⟩; exact minVerse_kind e.data ha.1 hr.1) (by rintro v ⟨⟩; exact maxVerse_kind e.data ha.2 hr.2) hr2

theorem Kind.intersection {a r : BibleRange} (ha : OfKind K a) (hr : OfKind K r) {fl : Option BibleFlag} {l : List BibleRange}
    (hl : a.intersection e r fl = .ok l) : ∀ x ∈ l, OfKind K x := by
  rw [BibleRange.intersection_eq (hK.alike ha hr)] at hl
  split at hl
  · cases hl; simp
  · cases hr2 : BibleRange.new e (some (BibleRange.maxVerse e.data a.start r.start)) (some (BibleRange.minVerse e.data a.stop r.stop)) fl with
    | error x => rw [hr2] at hl; cases hl
    | ok y =>
      rw [hr2] at hl
      cases hl
      intro x hx
      cases List.mem_singleton.mp hx
      exact new_kind (by rintro v ⟨⟩; exact maxVerse_kind e.data ha.1 hr.1) (by rintro v ⟨⟩; exact minVerse_kind e.data ha.2 hr.2) hr2

theorem Kind.difference {a r : BibleRange} (ha : OfKind K a) (hr : OfKind K r) {fl : Option BibleFlag} {l : List BibleRange}
    (hl : a.difference e r fl = .ok l) : ∀ x ∈ l, OfKind K x := by
  rw [BibleRange.difference_eq (hK.alike ha hr)] at hl
  split at hl
  · cases hl; intro x hx; cases List.mem_singleton.mp hx; exact ha
  split at hl
  · cases hl; simp
  cases h1 : r.start.sub e 1 fl with
  | error x => rw [h1] at hl; cases hl
  | ok before =>
  simp only [h1, bind, Except.bind] at hl
  cases h2 : BibleRange.new e (some a.start) before none with
  | error x => rw [h2] at hl; cases hl
  | ok lower =>
  simp only [h2] at hl
  cases h3 : r.stop.add e 1 fl with
  | error x => rw [h3] at hl; cases hl
  | ok after =>
  simp only [h3] at hl
  cases h4 : BibleRange.new e after (some a.stop) none with
  | error x => rw [h4] at hl; cases hl
  | ok upper =>
  simp only [h4] at hl
  have k1 : OfKind K lower := new_kind (by rintro v ⟨⟩; exact ha.1) (fun v hv => hK.sub hr.1 (hv ▸ h1)) h2
  have k2 : OfKind K upper := new_kind (fun v hv => hK.add hr.2 (hv ▸ h3)) (by rintro v ⟨⟩; exact ha.2) h4
  intro x hx
  split at hl
  · cases hl
    simp only [List.mem_cons, List.not_mem_nil, or_false] at hx
    rcases hx with rfl | rfl <;> assumption
  · split at hl <;> cases hl <;> cases List.mem_singleton.mp hx <;> assumption

namespace RangeList

variable {flags : Option BibleFlag}

theorem mergeLoop_kind {rest : List BibleRange} : ∀ {cur m}, OfKind K cur → (∀ r ∈ rest, OfKind K r) →
    mergeLoop e flags cur rest = .ok m → ∀ r ∈ m, OfKind K r := by
  induction rest with
  | nil => intro cur m hc _ hm r hr; cases hm; cases List.mem_singleton.mp hr; exact hc
  | cons next rest ih =>
    intro cur m hc hrest hm
    have hn := hrest next List.mem_cons_self
    have hrest' := fun r hr => hrest r (List.mem_cons_of_mem _ hr)
    rw [mergeLoop] at hm
    cases hu : cur.union e next flags with
    | error x => rw [hu] at hm; cases hm
    | ok u =>
      rw [hu] at hm
      have go : ∀ {m}, ((mergeLoop e flags next rest).bind fun v => .ok (cur :: v)) = .ok m → ∀ r ∈ m, OfKind K r := by
        intro m hm
        cases h1 : mergeLoop e flags next rest with
        | error x => rw [h1] at hm; cases hm
        | ok v =>
          rw [h1] at hm
          cases hm
          intro r hr
          rcases List.mem_cons.mp hr with rfl | hr
          · exact hc
          · exact ih hn hrest' h1 r hr
      match u, hu, hm with
      | [], _, hm => exact go hm
      | [x], hu, hm => exact ih (hK.union hc hn hu x List.mem_cons_self) hrest' hm
      | _ :: _ :: _, _, hm => exact go hm

theorem merge_kind {l m : RangeList} (hl : ∀ r ∈ l.flatten, OfKind K r) (hm : merge e l flags = .ok m) : ∀ r ∈ m.flatten, OfKind K r := by
  unfold merge at hm
  rw [mergeItems_eq fun a ha b hb => hK.alike (hl a ha) (hl b hb)] at hm
  have hs : ∀ r ∈ sortT e.data l.flatten, OfKind K r := fun r hr => hl r ((sortT_perm _).mem_iff.mp hr)
  cases hxs : sortT e.data l.flatten with
  | nil =>
    rw [hxs] at hm
    have hm' : regroup e none [] = .ok m := hm
    rw [(regroup_flatten hm').1]
    simp
  | cons a rest =>
    rw [hxs] at hm hs
    simp only at hm
    cases h1 : mergeLoop e flags a rest with
    | error x => rw [h1] at hm; cases hm
    | ok items =>
      rw [h1] at hm
      rw [(regroup_flatten hm).1]
      exact mergeLoop_kind hK (hs a List.mem_cons_self) (fun r hr => hs r (List.mem_cons_of_mem _ hr)) h1

theorem union_kind {l m u : RangeList} (hl : ∀ r ∈ l.flatten, OfKind K r) (hm : ∀ r ∈ m.flatten, OfKind K r)
    (hu : union e l m flags = .ok u) : ∀ r ∈ u.flatten, OfKind K r := by
  refine merge_kind hK ?_ hu
  rw [Groups.flatten_extend]
  intro r hr
  rcases List.mem_append.mp hr with hr | hr
  · rw [copy_flatten] at hr; exact hl r hr
  · exact hm r hr

omit hK in
theorem mapM_forall {α β : Type} {f : α → Except PyErr β} {P : β → Prop} {l : List α} (hf : ∀ a ∈ l, ∀ b, f a = .ok b → P b) :
    ∀ {m}, l.mapM f = .ok m → ∀ b ∈ m, P b := by
  induction l with
  | nil => intro m hm b hb; cases hm; cases hb
  | cons a l ih =>
    intro m hm b hb
    rw [List.mapM_cons] at hm
    cases h1 : f a with
    | error x => rw [h1] at hm; cases hm
    | ok y =>
      cases h2 : l.mapM f with
      | error x => rw [h1, h2] at hm; cases hm
      | ok ys =>
        rw [h1, h2] at hm
        cases hm
        rcases List.mem_cons.mp hb with rfl | hb
        · exact hf a List.mem_cons_self _ h1
        · exact ih (fun a ha => hf a (List.mem_cons_of_mem _ ha)) h2 b hb

theorem intersectionItems_kind {l m items : List BibleRange} (hl : ∀ r ∈ l, OfKind K r) (hm : ∀ r ∈ m, OfKind K r)
    (hi : intersectionItems e flags l m = .ok items) : ∀ r ∈ items, OfKind K r := by
  unfold intersectionItems at hi
  cases h1 : (l.mapM fun a => (do
      let l' ← m.mapM fun b => a.intersection e b flags
      return l'.flatMap fun i => i.head?.toList : Except PyErr (List BibleRange))) with
  | error x => rw [h1] at hi; cases hi
  | ok ls =>
    rw [h1] at hi
    cases hi
    intro r hr
    obtain ⟨xs, hxs, hr⟩ := List.mem_flatten.mp hr
    refine mapM_forall (P := fun xs => ∀ r ∈ xs, OfKind K r) ?_ h1 xs hxs r hr
    intro a ha ys hys
    cases h2 : m.mapM fun b => a.intersection e b flags with
    | error x => rw [h2] at hys; cases hys
    | ok l' =>
      rw [h2] at hys
      cases hys
      intro r hr
      obtain ⟨i, hi, hr⟩ := List.mem_flatMap.mp hr
      have := mapM_forall (P := fun i => ∀ r ∈ i, OfKind K r) (fun b hb i hi => hK.intersection (hl a ha) (hm b hb) hi) h2 i hi
      cases i with
      | nil => cases hr
      | cons x i => exact this r (by simp at hr; simp [hr])

theorem intersection_kind {l m i : RangeList} (hl : ∀ r ∈ l.flatten, OfKind K r) (hm : ∀ r ∈ m.flatten, OfKind K r)
    (hi : intersection e l m flags = .ok i) : ∀ r ∈ i.flatten, OfKind K r := by
  unfold intersection at hi
  cases h1 : intersectionItems e flags l.flatten m.flatten with
  | error x => rw [h1] at hi; cases hi
  | ok items =>
    rw [h1] at hi
    refine merge_kind hK ?_ hi
    rw [ofRanges_flatten]
    exact intersectionItems_kind hK hl hm h1

theorem diffInner_kind {other : List BibleRange} : ∀ {cur rest cur' rest'}, (∀ r ∈ other, OfKind K r) → (∀ r ∈ cur :: rest, OfKind K r) →
    diffInner e flags cur rest other = .ok (cur', rest') → ∀ r ∈ cur' :: rest', OfKind K r := by
  induction other with
  | nil => intro cur rest cur' rest' _ hc hd; cases hd; exact hc
  | cons b bs ih =>
    intro cur rest cur' rest' ho hc hd
    rw [diffInner] at hd
    cases h1 : cur.difference e b flags with
    | error x => rw [h1] at hd; cases hd
    | ok diff =>
      rw [h1] at hd
      have hin := hK.difference (hc cur List.mem_cons_self) (ho b List.mem_cons_self) h1
      have ho' := fun r hr => ho r (List.mem_cons_of_mem b hr)
      cases diff with
      | nil => exact ih ho' hc hd
      | cons x xs =>
        refine ih ho' ?_ hd
        intro r hr
        rcases List.mem_cons.mp hr with rfl | hr
        · exact hin _ List.mem_cons_self
        · rcases List.mem_append.mp hr with hr | hr
          · exact hin r (List.mem_cons_of_mem _ hr)
          · exact hc r (List.mem_cons_of_mem _ hr)

theorem diffOuter_kind {other : List BibleRange} (ho : ∀ r ∈ other, OfKind K r) : ∀ {fuel l items}, (∀ r ∈ l, OfKind K r) →
    diffOuter e flags other fuel l = .ok items → ∀ r ∈ items, OfKind K r := by
  intro fuel
  induction fuel with
  | zero =>
    intro l items hl hd
    cases l with
    | nil => cases hd; simp
    | cons a l => cases hd
  | succ fuel ih =>
    intro l items hl hd
    cases l with
    | nil => cases hd; simp
    | cons a l =>
      rw [diffOuter] at hd
      cases h1 : diffInner e flags a l other with
      | error x => rw [h1] at hd; cases hd
      | ok p =>
        obtain ⟨cur, rest⟩ := p
        have hp := diffInner_kind hK ho hl h1
        cases h2 : diffOuter e flags other fuel rest with
        | error x => simp only [h1, h2, bind, Except.bind] at hd; cases hd
        | ok done =>
          simp only [h1, h2, bind, Except.bind] at hd
          cases hd
          intro r hr
          rcases List.mem_cons.mp hr with rfl | hr
          · exact hp _ List.mem_cons_self
          · exact ih (fun r hr => hp r (List.mem_cons_of_mem _ hr)) h2 r hr

end RangeList
end
end Bibleref
