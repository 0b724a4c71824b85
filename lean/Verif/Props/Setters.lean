import Verif.Model.Setters
import Verif.Lemmas.Order

/-!
# Setting the Bible data (C62)
-/

namespace Bibleref
open Store

/-- The data as it should be after an assignment. -/
def Spec.updated (d : BibleData) : Assign → BibleData
  | .rangeSep c => { d with rangeSep := c }
  | .majorListSep c => { d with majorListSep := c }
  | .minorListSep c => { d with minorListSep := c }
  | .verseSepStd c => { d with verseSepStd := c }
  | .verseSepAlt c => { d with verseSepAlt := c }
  | .bookOrder l => { d with bookOrder := l }
  | .nameData f => { d with nameData := f }
  | .maxVerses f => { d with maxVerses := f }
  | .verse0s f => { d with verse0s := fun b => (f b).getD [] }

/-- Everything but the orders of the books is as in `d`. -/
structure Spec.ShowsRest (s : Store) (d : BibleData) : Prop where
  seps : s.seps = ⟨d.rangeSep, d.majorListSep, d.minorListSep, d.verseSepStd, d.verseSepAlt⟩
  parser : s.parserSeps = s.seps
  bookOrder : s.bookOrder = d.bookOrder
  names : ∀ b, s.nameData b = d.nameData b ∧ s.regex b = d.nameData b ∧ s.abbr b = (d.nameData b).map (·.abbr) ∧
    s.title b = (d.nameData b).map (·.title)
  maxVerses : ∀ b, s.maxVerses b = d.maxVerses b ∧ s.bookMaxVerses b = d.maxVerses b
  verse0s : ∀ b, (s.verse0s b).getD [] = d.verse0s b ∧ s.bookVerse0s b = d.verse0s b

/-- Everything that the package looks at is as in `d`: the attributes of `bible_data()`, those of the books, the parser. -/
structure Spec.Shows (s : Store) (d : BibleData) : Prop extends Spec.ShowsRest s d where
  order : ∀ b, s.order b = d.bookOrder.idxOf? b

open Spec

/-- The loop over the rest `l` of an order, after the books `done`. -/
theorem orderLoop_ok (l : List BibleBook) : ∀ (done : List BibleBook) (o : BibleBook → Option Nat), (done ++ l).Nodup →
    (∀ x ∈ done, o x = some (done.idxOf x)) →
    (orderLoop o (BibleBook.all.filter (fun x => x ∉ done)) done.length l).1 = .ok () ∧
    ∀ x, (orderLoop o (BibleBook.all.filter (fun x => x ∉ done)) done.length l).2 x =
      if x ∈ done ++ l then some ((done ++ l).idxOf x) else none := by
  induction l with
  | nil =>
    intro done o _ ho
    refine ⟨rfl, fun x => ?_⟩
    simp only [orderLoop, List.append_nil, List.mem_filter, BibleBook.mem_all, true_and, decide_eq_true_eq]
    by_cases hx : x ∈ done
    · rw [if_neg (fun hn => hn hx), if_pos hx, ho x hx]
    · rw [if_pos hx, if_neg hx]
  | cons b l ih =>
    intro done o hnd ho
    have hb : b ∉ done := by
      rw [List.nodup_append] at hnd
      intro hh
      exact hnd.2.2 b hh b (List.mem_cons_self ..) rfl
    rw [show done ++ b :: l = (done ++ [b]) ++ l by simp] at hnd ⊢
    unfold orderLoop
    simp only
    rw [if_pos (by simp [BibleBook.mem_all, hb])]
    have hfil : (BibleBook.all.filter (fun x => x ∉ done)).filter (· ≠ b) = BibleBook.all.filter (fun x => x ∉ done ++ [b]) := by
      rw [List.filter_filter]
      congr 1
      funext x
      simp only [List.mem_append, List.mem_singleton, not_or, ne_eq, decide_not]
      grind
    have := ih (done ++ [b]) (fun x => if x = b then some done.length else o x) hnd ?_
    · rw [hfil]; simpa using this
    · intro x hx
      by_cases hxb : x = b
      · subst hxb
        simp only [if_true, List.idxOf_append, if_neg hb, List.idxOf_cons_self, Nat.zero_add]
      · have hxd : x ∈ done := by simpa [hxb] using hx
        simp only [if_neg hxb, ho x hxd, List.idxOf_append, if_pos hxd]

/-- The loop over the rest `p ++ b :: q` of an order, after the books `done`, when `b` is the first book to come again. -/
theorem orderLoop_error (b : BibleBook) (q : List BibleBook) (p : List BibleBook) : ∀ (done : List BibleBook)
    (o : BibleBook → Option Nat), (done ++ p).Nodup → b ∈ done ++ p →
    orderLoop o (BibleBook.all.filter (fun x => x ∉ done)) done.length (p ++ b :: q) =
      (.error .keyError, fun x => if x = b then some (done ++ p).length else
        if x ∈ p then some ((done ++ p).idxOf x) else o x) := by
  induction p with
  | nil =>
    intro done o _ hb
    rw [List.append_nil] at hb
    rw [List.nil_append]
    unfold orderLoop
    simp only
    rw [if_neg (by simp [hb])]
    simp
  | cons c p ih =>
    intro done o hnd hb
    have hc : c ∉ done := by
      rw [List.nodup_append] at hnd
      intro hh
      exact hnd.2.2 c hh c (List.mem_cons_self ..) rfl
    rw [show done ++ c :: p = (done ++ [c]) ++ p by simp] at hnd hb ⊢
    rw [List.cons_append]
    unfold orderLoop
    simp only
    rw [if_pos (by simp [BibleBook.mem_all, hc])]
    have hfil : (BibleBook.all.filter (fun x => x ∉ done)).filter (· ≠ c) = BibleBook.all.filter (fun x => x ∉ done ++ [c]) := by
      rw [List.filter_filter]
      congr 1
      funext x
      simp only [List.mem_append, List.mem_singleton, not_or, ne_eq, decide_not]
      grind
    have := ih (done ++ [c]) (fun x => if x = c then some done.length else o x) hnd hb
    rw [hfil, show done.length + 1 = (done ++ [c]).length by simp, this]
    congr 1
    funext x
    by_cases hxb : x = b
    · simp only [if_pos hxb]
    · simp only [if_neg hxb, List.mem_cons]
      by_cases hxc : x = c
      · subst hxc
        have hxp : x ∉ p := by
          rw [List.nodup_append] at hnd
          intro hh
          exact hnd.2.2 x (by simp) x hh rfl
        simp only [if_neg hxp, if_true, true_or, List.idxOf_append, if_neg hc, List.idxOf_cons_self, Nat.zero_add,
          List.mem_append, List.mem_singleton, or_true]
      · simp only [hxc, false_or, if_false]

/-- A list with repetitions has a first book that comes again. -/
theorem exists_first_repeat : ∀ (q p : List BibleBook), p.Nodup → ¬ (p ++ q).Nodup →
    ∃ p' b q', p ++ q = p' ++ b :: q' ∧ p'.Nodup ∧ b ∈ p' := by
  intro q
  induction q with
  | nil => intro p hp hn; rw [List.append_nil] at hn; exact absurd hp hn
  | cons c q ih =>
    intro p hp hn
    by_cases hc : c ∈ p
    · exact ⟨p, c, q, rfl, hp, hc⟩
    · rw [show p ++ c :: q = (p ++ [c]) ++ q by simp] at hn ⊢
      refine ih _ ?_ hn
      rw [List.nodup_append]
      exact ⟨hp, by simp, fun a ha d hd h => hc (by simp at hd; rw [← hd, ← h]; exact ha)⟩

theorem idxOf?_eq_ite (l : List BibleBook) (x : BibleBook) : l.idxOf? x = if x ∈ l then some (l.idxOf x) else none := by
  by_cases hx : x ∈ l
  · rw [if_pos hx, List.idxOf?_eq_some_iff]
    exact ⟨List.idxOf_lt_length_of_mem hx, by simp, fun j hj => by simpa using List.not_of_lt_findIdx hj⟩
  · rw [if_neg hx, List.idxOf?_eq_none_iff]; exact hx

theorem filter_all_nil : BibleBook.all.filter (fun x => x ∉ ([] : List BibleBook)) = BibleBook.all :=
  List.filter_eq_self.mpr (fun _ _ => by simp)

theorem assign_order_ok (s : Store) {l : List BibleBook} (hl : l.Nodup) : (s.assign (.bookOrder l)).1 = .ok () ∧
    ∀ b, (s.assign (.bookOrder l)).2.order b = l.idxOf? b := by
  have h := orderLoop_ok l [] s.order (by simpa using hl) (by simp)
  rw [filter_all_nil] at h
  exact ⟨h.1, fun b => by rw [idxOf?_eq_ite]; exact h.2 b⟩

/-- C62, exactly when an assignment raises an exception: when it is a book order with repetitions. -/
theorem C62_outcome (s : Store) (a : Assign) :
    ((s.assign a).1 = .error .keyError ∧ ∃ l, a = .bookOrder l ∧ ¬ l.Nodup) ∨
    ((s.assign a).1 = .ok () ∧ ∀ l, a = .bookOrder l → l.Nodup) := by
  cases a with
  | bookOrder l =>
    by_cases hl : l.Nodup
    · exact .inr ⟨(assign_order_ok s hl).1, fun l' h => by cases h; exact hl⟩
    · obtain ⟨p, b, q, h1, h2, h3⟩ := exists_first_repeat l [] List.nodup_nil (by simpa using hl)
      rw [List.nil_append] at h1
      have h := orderLoop_error b q p [] s.order (by simpa using h2) (by simpa using h3)
      rw [filter_all_nil] at h
      refine .inl ⟨?_, l, rfl, hl⟩
      simp only [Store.assign, h1]
      exact congrArg Prod.fst h
  | _ => exact .inr ⟨rfl, fun l h => by cases h⟩

/-- C62: after any assignment, even one that raises an exception, everything but the orders of the books is as assigned. -/
theorem C62_assign_rest {s : Store} {d : BibleData} (h : ShowsRest s d) (a : Assign) :
    ShowsRest (s.assign a).2 (updated d a) := by
  obtain ⟨h1, h2, h3, h4, h5, h6⟩ := h
  cases a with
  | bookOrder l => exact ⟨h1, h2, rfl, h4, h5, h6⟩
  | nameData f => exact ⟨h1, h2, h3, fun b => ⟨rfl, rfl, rfl, rfl⟩, h5, h6⟩
  | maxVerses f => exact ⟨h1, h2, h3, h4, fun b => ⟨rfl, rfl⟩, h6⟩
  | verse0s f =>
    refine ⟨h1, h2, h3, h4, h5, fun b => ⟨rfl, ?_⟩⟩
    simp only [Store.assign, updated]
    cases f b <;> rfl
  | _ => exact ⟨by simp only [Store.assign, Store.recreateParser, h1, updated], rfl, h3, h4, h5, h6⟩

/-- C62: after an assignment that raises no exception everything is as assigned, and nothing else has changed. -/
theorem C62_assign {s : Store} {d : BibleData} (h : Shows s d) (a : Assign) (ha : (s.assign a).1 = .ok ()) :
    Shows (s.assign a).2 (updated d a) := by
  refine ⟨C62_assign_rest h.toShowsRest a, ?_⟩
  rcases C62_outcome s a with ⟨h', _⟩ | ⟨_, h'⟩
  · rw [h'] at ha; cases ha
  · cases a with
    | bookOrder l => exact (assign_order_ok s (h' l rfl)).2
    | _ => exact h.order

/-- C62: `useParser` changes nothing that can be seen. -/
theorem useParser_shows {s : Store} {d : BibleData} (h : ShowsRest s d) : ShowsRest s.useParser d ∧ s.useParser.order = s.order := by
  obtain ⟨h1, h2, h3, h4, h5, h6⟩ := h
  unfold Store.useParser
  cases hp : s.parser with
  | some p => exact ⟨⟨h1, h2, h3, h4, h5, h6⟩, rfl⟩
  | none => exact ⟨⟨h1, rfl, h3, h4, h5, h6⟩, rfl⟩

/-- The data as it should be after a history of assignments and uses of the parser. -/
def Spec.afterAll (d : BibleData) : List (Option Assign) → BibleData
  | [] => d
  | some a :: l => afterAll (updated d a) l
  | none :: l => afterAll d l

theorem run_shows (l : List (Option Assign)) : ∀ (s : Store) (d : BibleData), ShowsRest s d →
    (d.bookOrder.Nodup → ∀ b, s.order b = d.bookOrder.idxOf? b) →
    ShowsRest (s.run l) (afterAll d l) ∧
    ((afterAll d l).bookOrder.Nodup → ∀ b, (s.run l).order b = (afterAll d l).bookOrder.idxOf? b) := by
  induction l with
  | nil => intro s d h ho; exact ⟨h, ho⟩
  | cons x l ih =>
    intro s d h ho
    cases x with
    | none =>
      refine ih _ _ (useParser_shows h).1 ?_
      rw [(useParser_shows h).2]; exact ho
    | some a =>
      refine ih _ _ (C62_assign_rest h a) ?_
      cases a with
      | bookOrder l => exact fun hl => (assign_order_ok s hl).2
      | _ => exact ho

theorem fresh_shows : Shows Store.fresh ⟨[], fun _ => none, fun _ => [], fun _ => none, '-', ';', ',', ':', '.'⟩ :=
  ⟨⟨rfl, rfl, rfl, fun _ => ⟨rfl, rfl, rfl, rfl⟩, fun _ => ⟨rfl, rfl⟩, fun _ => ⟨rfl, rfl⟩⟩, fun _ => rfl⟩

/-- C62: after the import everything is as in the default data. -/
theorem C62_import : Shows Store.imported defaultData := by
  have h := run_shows (Store.importAssigns.map some) _ _ fresh_shows.toShowsRest (fun _ => fresh_shows.order)
  have hd : afterAll ⟨[], fun _ => none, fun _ => [], fun _ => none, '-', ';', ',', ':', '.'⟩ (Store.importAssigns.map some) =
      defaultData := by
    simp only [Store.importAssigns, List.map, afterAll, updated]
    have : (fun b => (if defaultData.verse0s b = [] then none else some (defaultData.verse0s b)).getD []) = defaultData.verse0s := by
      funext b
      by_cases hb : defaultData.verse0s b = []
      · rw [if_pos hb, hb]; rfl
      · rw [if_neg hb]; rfl
    rw [this]
    rfl
  rw [hd] at h
  exact ⟨h.1, h.2 (by decide +kernel)⟩

/-- C62: whatever has been assigned since the import, everything but the orders of the books is as last assigned, wherever the
package keeps it. -/
theorem C62_history (l : List (Option Assign)) : ShowsRest (Store.imported.run l) (afterAll defaultData l) :=
  (run_shows l _ _ C62_import.toShowsRest (fun _ => C62_import.order)).1

/-- C62: the orders of the books too are as last assigned unless the last assigned book order has repetitions; assignments that
raised an exception before it do not matter. -/
theorem C62_history_order_partial (l : List (Option Assign)) (hl : (afterAll defaultData l).bookOrder.Nodup) :
    Shows (Store.imported.run l) (afterAll defaultData l) :=
  ⟨C62_history l, (run_shows l _ _ C62_import.toShowsRest (fun _ => C62_import.order)).2 hl⟩

/-- C62: the last book order assigned is the one in force, independently of what was assigned before or raised an exception. -/
theorem C62_recovery (s : Store) (l : List BibleBook) (hl : l.Nodup) (b : BibleBook) (i : Nat) :
    (s.assign (.bookOrder l)).2.order b = some i ↔ l[i]? = some b := by
  rw [(assign_order_ok s hl).2 b, List.idxOf?_eq_some_iff]
  constructor
  · rintro ⟨h, h', _⟩
    rw [List.getElem?_eq_getElem h, h']
  · intro h
    obtain ⟨hi, he⟩ := List.getElem?_eq_some_iff.mp h
    refine ⟨hi, by simp [he], fun j hj hh => ?_⟩
    have := index_unique hl (List.getElem?_eq_some_iff.mpr ⟨by omega, hh⟩) h
    omega

/-- C62: the state after a book order with repetitions. The order is kept as assigned, the books up to the first book `b` that
comes again have their positions, `b` its second position, and all others the order they had before. -/
theorem C62_rejected (s : Store) (p : List BibleBook) (b : BibleBook) (q : List BibleBook) (hp : p.Nodup) (hb : b ∈ p) :
    (s.assign (.bookOrder (p ++ b :: q))).1 = .error .keyError ∧
    (s.assign (.bookOrder (p ++ b :: q))).2.bookOrder = p ++ b :: q ∧
    ∀ x, (s.assign (.bookOrder (p ++ b :: q))).2.order x =
      if x = b then some p.length else if x ∈ p then some (p.idxOf x) else s.order x := by
  have h := orderLoop_error b q p [] s.order (by simpa using hp) (by simpa using hb)
  rw [filter_all_nil] at h
  refine ⟨congrArg Prod.fst h, rfl, fun x => ?_⟩
  simp only [Store.assign]
  exact congrFun (congrArg Prod.snd h) x

/-- C62 fails for a book order that is refused: `KeyError` is raised, but the order is the refused one and two books share a
place. -/
theorem C62_counterexample :
    (Store.imported.assign (.bookOrder [.Exod, .Exod, .Gen])).1 = .error .keyError ∧
    (Store.imported.assign (.bookOrder [.Exod, .Exod, .Gen])).2.bookOrder = [.Exod, .Exod, .Gen] ∧
    (Store.imported.assign (.bookOrder [.Exod, .Exod, .Gen])).2.order .Gen = some 0 ∧
    (Store.imported.assign (.bookOrder [.Exod, .Exod, .Gen])).2.order .Exod = some 1 ∧
    (Store.imported.assign (.bookOrder [.Lev, .Lev, .Gen])).2.order .Lev = (Store.imported.assign (.bookOrder [.Lev, .Lev, .Gen])).2.order .Exod := by
  have h := C62_rejected Store.imported [.Exod] .Exod [.Gen] (by simp) (by simp)
  have h' := C62_rejected Store.imported [.Lev] .Lev [.Gen] (by simp) (by simp)
  refine ⟨h.1, h.2.1, ?_, ?_, ?_⟩
  · refine (h.2.2 .Gen).trans ?_
    rw [if_neg (by decide), if_neg (by decide), C62_import.order]
    decide +kernel
  · exact (h.2.2 .Exod).trans (by simp)
  · refine (h'.2.2 .Lev).trans (Eq.trans ?_ (h'.2.2 .Exod).symm)
    rw [if_pos rfl, if_neg (by decide), if_neg (by decide), C62_import.order]
    decide +kernel

example : [BibleBook.Matt, .Gen].Nodup ∧ BibleBook.Gen ∈ [BibleBook.Matt, .Gen] := by decide
example : (afterAll defaultData [some (.bookOrder [.Gen, .Gen]), none, some (.rangeSep '~'), some (.bookOrder [.Rev, .Gen])]).bookOrder.Nodup := by
  decide
example : ∃ s d, ShowsRest s d ∧ d.rangeSep = '~' ∧ s.parser = some ⟨'~', ';', ',', ':', '.'⟩ :=
  ⟨_, _, C62_history [none, some (.rangeSep '~')], rfl, rfl⟩
example : ∃ s d, Shows s d ∧ (s.assign (.bookOrder [.Rev, .Gen])).1 = .ok () := ⟨_, _, C62_import, rfl⟩

end Bibleref
