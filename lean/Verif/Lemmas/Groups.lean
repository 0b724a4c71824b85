import Verif.Lemmas.Compare

/-! Grouping of lists. -/

namespace Bibleref
namespace Groups
variable {α : Type}

/-- All groups are non-empty. -/
def NE (g : Groups α) : Prop := ∀ x ∈ g, x ≠ []

theorem append_ne_nil (g : Groups α) (a : α) (n : Bool) : append g a n ≠ [] := by
  match g, n with
  | [], _ => simp [append]
  | [_], false => simp [append]
  | [_], true => simp [append]
  | _ :: _ :: _, _ => simp [append]

theorem append_concat (g : Groups α) (x : List α) (a : α) (n : Bool) :
    append (g ++ [x]) a n = if n then g ++ [x, [a]] else g ++ [x ++ [a]] := by
  induction g with
  | nil => cases n <;> rfl
  | cons y g ih =>
    cases g with
    | nil => cases n <;> simp [append]
    | cons z g =>
      simp only [List.cons_append, append]
      rw [show z :: (g ++ [x]) = z :: g ++ [x] from rfl, ih]
      cases n <;> simp

theorem flatten_append_item (g : Groups α) (a : α) (n : Bool) : (append g a n).flatten = g.flatten ++ [a] := by
  rcases List.eq_nil_or_concat g with rfl | ⟨g', x, rfl⟩
  · rfl
  · rw [List.concat_eq_append, append_concat]; cases n <;> simp

theorem flatten_foldl (g : Groups α) (l : List α) :
    (l.foldl (fun g x => append g x false) g).flatten = g.flatten ++ l := by
  induction l generalizing g with
  | nil => simp
  | cons a l ih => rw [List.foldl_cons, ih, flatten_append_item]; simp

theorem flatten_extend (g : Groups α) (l : List α) : (extend g l).flatten = g.flatten ++ l := flatten_foldl g l

theorem foldl_false (g : Groups α) (x l : List α) :
    l.foldl (fun g x => append g x false) (g ++ [x]) = g ++ [x ++ l] := by
  induction l generalizing x with
  | nil => simp
  | cons a l ih => rw [List.foldl_cons, append_concat, if_neg (by simp), ih]; simp

theorem appendGroup_eq (g : Groups α) {l : List α} (hl : l ≠ []) : appendGroup g l = g ++ [l] := by
  cases l with
  | nil => exact absurd rfl hl
  | cons a l =>
    have h1 : append g a true = g ++ [[a]] := by
      rcases List.eq_nil_or_concat g with rfl | ⟨g', x, rfl⟩
      · rfl
      · rw [List.concat_eq_append, append_concat]; simp
    rw [appendGroup, h1, foldl_false]; rfl

theorem foldl_appendGroup (g : Groups α) {l : Groups α} (hl : NE l) : l.foldl appendGroup g = g ++ l := by
  induction l generalizing g with
  | nil => simp
  | cons a l ih =>
    rw [List.foldl_cons, appendGroup_eq g (hl a List.mem_cons_self), ih _ (fun x hx => hl x (List.mem_cons_of_mem _ hx))]
    simp

theorem extend_nil (l : List α) : extend [] l = if l = [] then [] else [l] := by
  cases l with
  | nil => rfl
  | cons a l =>
    rw [if_neg (by simp)]
    show l.foldl (fun g x => append g x false) ([] ++ [[a]]) = _
    rw [foldl_false]; rfl

theorem cut_cons (b : Bool) (a : α) (l : List (Bool × α)) : ∃ g gs, cut ((b, a) :: l) = (a :: g) :: gs := by
  match l with
  | [] => exact ⟨[], [], by simp [cut]⟩
  | (true, c) :: l => exact ⟨[], _, by rw [cut]⟩
  | (false, c) :: l =>
    obtain ⟨g, gs, h⟩ := cut_cons false c l
    exact ⟨c :: g, gs, by rw [cut, h]⟩

theorem flatten_cut (l : List (Bool × α)) : (cut l).flatten = l.map (·.2) := by
  match l with
  | [] => rfl
  | [(_, a)] => rfl
  | (_, a) :: (true, c) :: l =>
    rw [cut, List.flatten_cons, flatten_cut]; rfl
  | (_, a) :: (false, c) :: l =>
    have ih := flatten_cut ((false, c) :: l)
    obtain ⟨g, gs, h⟩ := cut_cons false c l
    rw [cut, h]
    rw [h] at ih
    simp_all

theorem cut_ne (l : List (Bool × α)) : NE (cut l) := by
  match l with
  | [] => intro x hx; cases hx
  | [(_, a)] => intro x hx; simp [cut] at hx; simp [hx]
  | (_, a) :: (true, c) :: l =>
    intro x hx
    rw [cut] at hx
    rcases List.mem_cons.mp hx with rfl | hx
    · simp
    · exact cut_ne _ x hx
  | (_, a) :: (false, c) :: l =>
    intro x hx
    have ih := cut_ne ((false, c) :: l)
    obtain ⟨g, gs, h⟩ := cut_cons false c l
    rw [cut, h] at hx
    rw [h] at ih
    rcases List.mem_cons.mp hx with rfl | hx
    · simp
    · exact ih x (List.mem_cons_of_mem _ hx)

theorem mergeSublists_eq {lx : α → α → Except PyErr Bool} {le : α → α → Bool} {xs ys : List α}
    (hx : ∀ x ∈ xs, ∀ y ∈ ys, lx x y = .ok (le x y)) : mergeSublists lx xs ys = .ok (List.merge xs ys le) := by
  induction xs generalizing ys with
  | nil => simp [mergeSublists]
  | cons x xs ih =>
    rw [mergeSublists]
    induction ys with
    | nil => simp [mergeInto]
    | cons y ys ih2 =>
      rw [mergeInto, List.cons_merge_cons, ih (fun a ha b hb => hx a (by simp [ha]) b hb),
        ih2 (fun a ha b hb => hx a ha b (by simp [hb])), hx x (by simp) y (by simp)]
      simp only [bind, Except.bind, pure, Except.pure]
      split <;> rfl

/-- The code's merge sort is the library's. -/
theorem mergeSort_eq {lx : α → α → Except PyErr Bool} {le : α → α → Bool} {n : Nat} {l : List α}
    (hx : ∀ x ∈ l, ∀ y ∈ l, lx x y = .ok (le x y)) (hn : l.length ≤ n) : mergeSort lx n l = .ok (l.mergeSort le) := by
  induction n generalizing l with
  | zero =>
    cases l with
    | nil => simp [mergeSort]
    | cons a l => simp at hn
  | succ n ih =>
    rw [mergeSort]
    match l with
    | [] => simp
    | [a] => simp
    | a :: b :: l =>
      rw [if_neg (by simp)]
      have h1 : ∀ x, x ∈ (a :: b :: l).take (((a :: b :: l).length + 1) / 2) → x ∈ a :: b :: l := fun x hh => List.mem_of_mem_take hh
      have h2 : ∀ x, x ∈ (a :: b :: l).drop (((a :: b :: l).length + 1) / 2) → x ∈ a :: b :: l := fun x hh => List.mem_of_mem_drop hh
      rw [ih (fun x h3 y h4 => hx x (h1 x h3) y (h1 y h4)) (by simp at hn ⊢; omega),
        ih (fun x h3 y h4 => hx x (h2 x h3) y (h2 y h4)) (by simp at hn ⊢; omega)]
      simp only [bind, Except.bind]
      rw [mergeSublists_eq (fun x h3 y h4 => hx x (h1 x (List.mem_mergeSort.mp h3)) y (h2 y (List.mem_mergeSort.mp h4))), List.mergeSort]
      simp [List.MergeSort.Internal.splitInTwo_fst, List.MergeSort.Internal.splitInTwo_snd]

end Groups

namespace RangeList
open Groups

theorem copy_eq {l : RangeList} (hl : NE l) : copy l = l := by rw [copy, foldl_appendGroup [] hl]; rfl

theorem ofRanges_flatten (l : List BibleRange) : (ofRanges l).flatten = l := by
  rw [ofRanges, flatten_foldl]; rfl

theorem copy_flatten (l : RangeList) : (copy l).flatten = l.flatten := by
  have : ∀ (l g : Groups BibleRange), (l.foldl appendGroup g).flatten = g.flatten ++ l.flatten := by
    intro l
    induction l with
    | nil => simp
    | cons a l ih =>
      intro g
      rw [List.foldl_cons, ih]
      cases a with
      | nil => simp [appendGroup]
      | cons x a => rw [appendGroup_eq g (by simp)]; simp
  rw [copy, this]; rfl

theorem regroupHeads_items {e : Env} {flags : Option BibleFlag} {s : GroupState} {l : List BibleRange}
    {m : List (Bool × BibleRange)} (h : regroupHeads e flags s l = .ok m) : m.map (·.2) = l := by
  induction l generalizing s m with
  | nil => cases h; rfl
  | cons r l ih =>
    simp only [regroupHeads, bind, Except.bind] at h
    split at h
    · cases h
    · next v hv =>
      split at h
      · cases h
      · next rest hrest => cases h; simp [ih hrest]

theorem regroup_flatten {e : Env} {flags : Option BibleFlag} {l : List BibleRange} {m : RangeList}
    (h : regroup e flags l = .ok m) : m.flatten = l ∧ NE m := by
  simp only [regroup, bind, Except.bind] at h
  split at h
  · cases h
  · next v hv =>
    cases h
    exact ⟨by rw [flatten_cut, regroupHeads_items hv], cut_ne _⟩

/-- The items in order. -/
def sortT (d : BibleData) (l : List BibleRange) : List BibleRange := l.mergeSort fun a b => a.le d b

theorem sortT_perm {d : BibleData} (l : List BibleRange) : (sortT d l).Perm l := List.mergeSort_perm ..

theorem sortItems_eq {d : BibleData} {l : List BibleRange} (hl : ∀ a ∈ l, ∀ b ∈ l, Alike d a b) : sortItems d l = .ok (sortT d l) :=
  Groups.mergeSort_eq (fun a ha b hb => BibleRange.lessEq_eq (hl a ha b hb)) (Nat.le_refl _)

theorem mergeItems_eq {e : Env} {flags : Option BibleFlag} {l : List BibleRange} (hl : ∀ a ∈ l, ∀ b ∈ l, Alike e.data a b) :
    mergeItems e flags l = match sortT e.data l with
      | [] => .ok []
      | a :: rest => mergeLoop e flags a rest := by
  unfold mergeItems
  rw [sortItems_eq hl]; rfl

end RangeList
end Bibleref
