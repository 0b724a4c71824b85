import Verif.Lemmas.Loops

/-! What particular loops do to lists. -/

namespace Bibleref
variable {α : Type}

namespace Nested

theorem dropping_removeAt (p : α → Bool) {xs : List (List α)} {k : Nat} {v : α} (hk : xs.flatten[k]? = some v) (hv : p v = true) :
    dropping p (removeAt xs k) = dropping p xs := by
  induction xs generalizing k with
  | nil => rfl
  | cons g gs ih =>
    rw [removeAt]
    by_cases hg : k < g.length
    · rw [if_pos hg]
      rw [List.flatten_cons, List.getElem?_append_left hg] at hk
      split
      · rename_i h1
        obtain ⟨a, rfl⟩ := List.length_eq_one_iff.mp h1
        have : k = 0 := by simp at hg; omega
        subst this
        simp only [List.getElem?_cons_zero, Option.some.injEq] at hk
        subst hk
        simp [dropping, hv]
      · have : (g.eraseIdx k).filter (fun v => !p v) = g.filter (fun v => !p v) := by
          have e1 : g = g.take k ++ v :: g.drop (k + 1) := by
            conv => lhs; rw [← List.take_append_drop k g]
            rw [List.drop_eq_getElem_cons hg, (List.getElem?_eq_some_iff.mp hk).2]
          rw [List.eraseIdx_eq_take_drop_succ]
          conv => rhs; rw [e1]
          rw [List.filter_append, List.filter_append, List.filter_cons, hv]
          rfl
        simp only [dropping, List.map_cons, this]
    · rw [if_neg hg]
      rw [List.flatten_cons, List.getElem?_append_right (by omega)] at hk
      have := ih hk
      simp only [dropping, List.map_cons, List.filter_cons] at this ⊢
      split
      · rw [this]
      · exact this

theorem removeAt_ne {xs : List (List α)} {k : Nat} (hx : ∀ g ∈ xs, g ≠ []) : ∀ g ∈ removeAt xs k, g ≠ [] := by
  induction xs generalizing k with
  | nil => simp [removeAt]
  | cons g gs ih =>
    rw [removeAt]
    have h1 := fun x hx' => hx x (List.mem_cons_of_mem _ hx')
    split
    · split
      · exact h1
      · rename_i hl hg
        intro x hx'
        rcases List.mem_cons.mp hx' with rfl | hx'
        · intro h0
          have := congrArg List.length h0
          rw [List.length_eraseIdx_of_lt hl] at this
          simp at this
          omega
        · exact h1 x hx'
    · intro x hx'
      rcases List.mem_cons.mp hx' with rfl | hx'
      · exact hx _ (List.mem_cons_self ..)
      · exact ih h1 x hx'

theorem dropping_self (p : α → Bool) {xs : List (List α)} (hx : ∀ g ∈ xs, g ≠ []) (hp : ∀ v ∈ xs.flatten, p v = false) :
    dropping p xs = xs := by
  have h1 : (xs.map fun g => g.filter fun v => !p v) = xs := by
    conv => rhs; rw [← List.map_id xs]
    apply List.map_congr_left
    intro g hg
    rw [List.filter_eq_self.mpr]; · rfl
    intro v hv
    rw [hp v (List.mem_flatten.mpr ⟨g, hg, hv⟩)]; rfl
  rw [dropping, h1, List.filter_eq_self]
  intro g hg
  have := hx g hg
  cases g with
  | nil => exact absurd rfl this
  | cons => rfl

theorem setAt_flatten (v : α) (gs : List (List α)) (k : Nat) : (setAt v gs k).flatten = gs.flatten.set k v := by
  induction gs generalizing k with
  | nil => rfl
  | cons g gs ih =>
    rw [setAt]
    split
    · rename_i hg
      rw [List.flatten_cons, List.flatten_cons, List.set_append_left _ _ hg]
    · rename_i hg
      rw [List.flatten_cons, List.flatten_cons, List.set_append_right _ _ (by omega), ih]

theorem setAt_lengths (v : α) (gs : List (List α)) (k : Nat) : (setAt v gs k).map List.length = gs.map List.length := by
  induction gs generalizing k with
  | nil => rfl
  | cons g gs ih =>
    rw [setAt]
    split
    · simp
    · simp [ih]

theorem eq_of_lengths {xs ys : List (List α)} (h1 : xs.map List.length = ys.map List.length) (h2 : xs.flatten = ys.flatten) : xs = ys := by
  induction xs generalizing ys with
  | nil => cases ys with
    | nil => rfl
    | cons => cases h1
  | cons x xs ih => cases ys with
    | nil => cases h1
    | cons y ys =>
      simp only [List.map_cons, List.cons.injEq] at h1
      rw [List.flatten_cons, List.flatten_cons] at h2
      obtain ⟨a, b⟩ := List.append_inj h2 h1.1
      rw [a, ih h1.2 b]

theorem extend_ne {xs : List (List α)} {l : List α} (hx : ∀ g ∈ xs, g ≠ []) (hne : xs ≠ []) : ∀ g ∈ extend xs l, g ≠ [] := by
  rcases List.eq_nil_or_concat xs with rfl | ⟨A, g, rfl⟩
  · exact absurd rfl hne
  · rw [List.concat_eq_append] at hx ⊢
    rw [extend_concat]
    intro y hy
    rcases List.mem_append.mp hy with hy | hy
    · exact hx y (List.mem_append_left _ hy)
    · rw [List.mem_singleton.mp hy]
      have := hx g (by simp)
      cases g with
      | nil => exact absurd rfl this
      | cons => simp

end Nested

variable [DecidableEq α] (le : α → α → Bool)

theorem getElem?_mid {l done todo : List α} (hl : l = done ++ todo) : l[done.length]? = todo.head? := by
  rw [hl, List.getElem?_append_right (Nat.le_refl _), Nat.sub_self, List.head?_eq_getElem?]

theorem removing_loop (p : α → Bool) {fuel : Nat} {seen done todo : List α} {xs : List (List α)} (hx : ∀ g ∈ xs, g ≠ [])
    (hd : ∀ v ∈ done, p v = false) (hxs : xs.flatten = done ++ todo) (hf : todo.length ≤ fuel) :
    loopMeaning le false (removing p) fuel seen done.length xs = (.ok (seen ++ todo), Nested.dropping p xs) := by
  induction todo generalizing fuel seen done xs with
  | nil =>
    rw [loopMeaning.eq_def]
    simp only [cursor, Bool.false_eq_true, if_false, Option.bind_some]
    rw [getElem?_mid hxs]
    simp only [List.head?_nil, Option.map_none, List.append_nil]
    rw [Nested.dropping_self p hx (by rw [hxs, List.append_nil]; exact hd)]
  | cons v todo ih =>
    obtain ⟨fuel, rfl⟩ : ∃ k, fuel = k + 1 := ⟨fuel - 1, by simp at hf; omega⟩
    simp only [List.length_cons, Nat.add_le_add_iff_right] at hf
    rw [loopMeaning.eq_def]
    have hat := getElem?_mid hxs
    simp only [cursor, Bool.false_eq_true, if_false, Option.bind_some]
    rw [hat]
    simp only [List.head?_cons, Option.map_some, removing, List.getLast?_concat]
    cases hv : p v with
    | false =>
      simp only [Bool.false_eq_true, if_false]
      have := ih (fuel := fuel) (seen := seen ++ [v]) (done := done ++ [v]) (xs := xs) hx (by
        intro w hw
        rcases List.mem_append.mp hw with hw | hw
        · exact hd w hw
        · rw [List.mem_singleton.mp hw]; exact hv) (by rw [hxs]; simp) hf
      rw [List.length_append, List.length_singleton] at this
      rw [this]; simp
    | true =>
      have hnd : v ∉ done := fun hh => by rw [hd v hh] at hv; cases hv
      have hidx : xs.flatten.idxOf v = done.length := by
        rw [hxs, List.idxOf_append, if_neg hnd, List.idxOf_cons_self, Nat.zero_add]
      have hm : v ∈ xs.flatten := by rw [hxs]; simp
      simp only [if_true, ListOp.meaning, ListOp.place, ListOp.place.without, hidx, Nat.lt_irrefl, if_false]
      rw [if_pos hm]
      simp only
      rw [ih (Nested.removeAt_ne hx) hd (by
        rw [Nested.removeAt_flatten, hxs, List.eraseIdx_append_of_length_le (Nat.le_refl _), Nat.sub_self]; rfl) hf]
      rw [Nested.dropping_removeAt p (by rw [hat]; rfl) hv]
      simp

theorem replacing_loop (f : α → α) {fuel : Nat} {seen todo : List α} {xs : List (List α)}
    (hxs : xs.flatten = seen.map f ++ todo) (hf : todo.length ≤ fuel) :
    ∃ ys, loopMeaning le false (replacing f) fuel seen seen.length xs = (.ok (seen ++ todo), ys) ∧
      ys.flatten = (seen ++ todo).map f ∧ ys.map List.length = xs.map List.length := by
  induction todo generalizing fuel seen xs with
  | nil =>
    rw [loopMeaning.eq_def]
    simp only [cursor, Bool.false_eq_true, if_false, Option.bind_some]
    have hat := getElem?_mid hxs
    rw [List.length_map] at hat
    rw [hat]
    simp only [List.head?_nil, Option.map_none, List.append_nil]
    exact ⟨xs, rfl, by rw [hxs, List.append_nil], rfl⟩
  | cons v todo ih =>
    obtain ⟨fuel, rfl⟩ : ∃ k, fuel = k + 1 := ⟨fuel - 1, by simp at hf; omega⟩
    simp only [List.length_cons, Nat.add_le_add_iff_right] at hf
    rw [loopMeaning.eq_def]
    have hat := getElem?_mid hxs
    rw [List.length_map] at hat
    have hlt : seen.length < xs.flatten.length := by rw [hxs]; simp
    simp only [cursor, Bool.false_eq_true, if_false, Option.bind_some]
    rw [hat]
    simp only [List.head?_cons, Option.map_some, replacing, List.getLast?_concat, List.length_append, List.length_singleton]
    rw [if_pos (by omega)]
    simp only [ListOp.meaning, ListOp.place]
    have hpos : Nested.posE (Nested.size xs) (((seen.length + 1 : Nat) : Int) - 1) = .ok seen.length := by
      rw [show (((seen.length + 1 : Nat) : Int) - 1) = (seen.length : Int) from by omega]
      exact posE_ok (pos_nat hlt)
    rw [hpos]
    obtain ⟨ys, h1, h2, h3⟩ := ih (fuel := fuel) (seen := seen ++ [v]) (xs := Nested.setAt (f v) xs seen.length) (by
      rw [Nested.setAt_flatten, hxs, List.set_append_right _ _ (by simp), List.length_map, Nat.sub_self]; simp) hf
    refine ⟨ys, ?_, by rw [h2]; simp, by rw [h3, Nested.setAt_lengths]⟩
    rw [List.length_append, List.length_singleton] at h1
    show loopMeaning _ _ _ _ _ _ _ = _
    rw [h1]; simp

theorem appending_loop (p : α → Bool) (f : α → α) (hpf : ∀ v, p v = true → p (f v) = false) {fuel : Nat} {seen todo : List α}
    {xs : List (List α)} (hx : ∀ g ∈ xs, g ≠ []) (hxs : xs.flatten = seen ++ todo)
    (hf : todo.length + (todo.filter p).length ≤ fuel) :
    loopMeaning le false (appending p f) fuel seen seen.length xs =
      (.ok (seen ++ todo ++ (todo.filter p).map f), Nested.extend xs ((todo.filter p).map f)) := by
  induction fuel generalizing seen todo xs with
  | zero =>
    have : todo = [] := List.length_eq_zero_iff.mp (by omega)
    subst this
    rw [loopMeaning.eq_def]
    simp only [cursor, Bool.false_eq_true, if_false, Option.bind_some]
    rw [getElem?_mid hxs]
    simp [Nested.extend_nil]
  | succ fuel ih =>
    rw [loopMeaning.eq_def]
    simp only [cursor, Bool.false_eq_true, if_false, Option.bind_some]
    rw [getElem?_mid hxs]
    cases todo with
    | nil => simp [Nested.extend_nil]
    | cons v todo =>
      simp only [List.head?_cons, Option.map_some, appending, List.getLast?_concat]
      cases hv : p v with
      | false =>
        simp only [Bool.false_eq_true, if_false]
        have hf' : (v :: todo).filter p = todo.filter p := by rw [List.filter_cons, hv]; rfl
        rw [hf'] at hf ⊢
        have := ih (seen := seen ++ [v]) (todo := todo) hx (by rw [hxs]; simp) (by simp at hf; omega)
        rw [List.length_append, List.length_singleton] at this
        rw [this]; simp
      | true =>
        simp only [if_true, ListOp.meaning, ListOp.place]
        have hf' : (v :: todo).filter p = v :: todo.filter p := by rw [List.filter_cons, hv]; rfl
        rw [hf'] at hf ⊢
        have hne : xs ≠ [] := by intro h0; rw [h0] at hxs; simp at hxs
        rw [Nested.insertAt_end _ hx]
        have hflt : (todo ++ [f v]).filter p = todo.filter p := by rw [List.filter_append]; simp [hpf v hv]
        have := ih (seen := seen ++ [v]) (todo := todo ++ [f v]) (xs := Nested.extend xs [f v]) (Nested.extend_ne hx hne)
          (by rw [Nested.extend_flatten, hxs]; simp) (by rw [hflt]; simp at hf ⊢; omega)
        rw [List.length_append, List.length_singleton, hflt] at this
        simp only [Bool.false_eq_true, if_false]
        rw [this, Nested.extend_extend _ _ _ (.inl hne)]
        simp

theorem appending_forever (f : α → α) {fuel : Nat} {seen : List α} {xs : List (List α)} (hx : ∀ g ∈ xs, g ≠ [])
    (hlt : seen.length < xs.flatten.length) :
    (loopMeaning le false (appending (fun _ => true) f) fuel seen seen.length xs).1 = .error .diverges := by
  induction fuel generalizing seen xs with
  | zero =>
    rw [loopMeaning.eq_def]
    simp only [cursor, Bool.false_eq_true, if_false, Option.bind_some, List.getElem?_eq_getElem hlt, Option.map_some]
  | succ fuel ih =>
    rw [loopMeaning.eq_def]
    simp only [cursor, Bool.false_eq_true, if_false, Option.bind_some, List.getElem?_eq_getElem hlt, Option.map_some, appending,
      List.getLast?_concat, if_true, ListOp.meaning, ListOp.place]
    rw [Nested.insertAt_end _ hx]
    have hne : xs ≠ [] := by intro h0; rw [h0] at hlt; simp at hlt
    have := ih (seen := seen ++ [xs.flatten[seen.length]]) (xs := Nested.extend xs [f xs.flatten[seen.length]]) (Nested.extend_ne hx hne) (by rw [Nested.extend_flatten, List.length_append, List.length_append, List.length_singleton, List.length_singleton]; omega)
    rw [List.length_append, List.length_singleton] at this
    exact this

theorem groupFrom_pre {pre : List (List α)} (hp : ∀ g ∈ pre, g ≠ []) (rest : List (List α)) :
    Nested.groupFrom (pre ++ rest) pre.flatten.length = rest.head? := by
  induction pre with
  | nil => cases rest <;> simp [Nested.groupFrom]
  | cons g pre ih =>
    have h0 : 0 < g.length := List.length_pos_iff.mpr (hp g (by simp))
    simp only [List.cons_append, Nested.groupFrom, List.flatten_cons, List.length_append]
    rw [if_neg (by omega), if_neg (by omega), Nat.add_sub_cancel_left]
    exact ih fun g hg => hp g (by simp [hg])

theorem appendingGroups_spec {p : List α → Bool} {f : List α → List α} (hpf : ∀ g, p g = true → f g ≠ [] ∧ p (f g) = false) {fuel : Nat}
    {c : Nat} {pre rest : List (List α)} (hp : ∀ g ∈ pre, g ≠ []) (hr : ∀ g ∈ rest, g ≠ [])
    (hf : rest.length + (rest.filter p).length ≤ fuel) :
    groupLoopMeaning le (appendingGroups p f) fuel c pre.flatten.length (pre ++ rest) =
      (.ok (c + rest.length + (rest.filter p).length), pre ++ rest ++ (rest.filter p).map f) := by
  induction fuel generalizing c pre rest with
  | zero =>
    have : rest = [] := List.length_eq_zero_iff.mp (by omega)
    subst this
    rw [groupLoopMeaning.eq_def]
    simp only [groupFrom_pre hp]
    simp
  | succ fuel ih =>
    rw [groupLoopMeaning.eq_def]
    simp only [groupFrom_pre hp]
    cases rest with
    | nil => simp
    | cons g rest =>
      have hp' : ∀ x ∈ pre ++ [g], x ≠ [] := by
        intro x hx
        rcases List.mem_append.mp hx with hx | hx
        · exact hp x hx
        · exact hr x (by simp at hx; simp [hx])
      have hr' : ∀ x ∈ rest, x ≠ [] := fun x hx => hr x (by simp [hx])
      have hlen : pre.flatten.length + g.length = (pre ++ [g]).flatten.length := by simp
      simp only [List.head?_cons, appendingGroups]
      cases hg : p g with
      | false =>
        simp only [Bool.false_eq_true, if_false]
        have hf' : (g :: rest).filter p = rest.filter p := by rw [List.filter_cons, hg]; rfl
        rw [hf'] at hf ⊢
        rw [hlen, show pre ++ g :: rest = (pre ++ [g]) ++ rest from by simp, ih hp' hr' (by simp at hf; omega)]
        simp; omega
      | true =>
        obtain ⟨h1, h2⟩ := hpf g hg
        simp only [if_true, ListOp.meaning, ListOp.place]
        have hf' : (g :: rest).filter p = g :: rest.filter p := by rw [List.filter_cons, hg]; rfl
        have hflt : (rest ++ [f g]).filter p = rest.filter p := by rw [List.filter_append]; simp [h2]
        rw [hf'] at hf ⊢
        have hadd : Nested.addGroup (pre ++ g :: rest) (f g) = pre ++ (g :: (rest ++ [f g])) := by
          unfold Nested.addGroup
          rw [if_neg h1]
          simp
        have hne : (pre.flatten.length = pre.flatten.length + 1) = False := by simp
        simp only [hadd, hne, if_false, groupFrom_pre hp, List.head?_cons]
        rw [hlen, show pre ++ g :: (rest ++ [f g]) = (pre ++ [g]) ++ (rest ++ [f g]) from by simp, ih hp' (by
          intro x hx
          rcases List.mem_append.mp hx with hx | hx
          · exact hr' x hx
          · simp at hx; rw [hx]; exact h1) (by rw [hflt]; simp at hf ⊢; omega), hflt]
        simp; omega

theorem extend_prefix (A : List (List α)) (w : List α) (post : List (List α)) (l : List α) :
    Nested.extend (A ++ w :: post) l = A ++ Nested.extend (w :: post) l := by
  induction A with
  | nil => rfl
  | cons a A ih =>
    rw [List.cons_append, List.cons_append, ← ih]
    cases A <;> simp [Nested.extend]

/-- A loop over a group other than the last one whose body appends elements. -/
theorem viewAppending_spec {p : α → Bool} {f : α → α} {fuel : Nat} {seen : List α} {pre : List (List α)} {done : List α} {v : α}
    {todo : List α} {w : List α} {post : List (List α)} (hp : ∀ g ∈ pre, g ≠ []) (hw : ∀ g ∈ w :: post, g ≠ [])
    (hf : todo.length < fuel) :
    viewLoopMeaning le (appending p f) fuel seen (pre.flatten.length + done.length) (pre ++ (done ++ v :: todo) :: w :: post) =
      (.ok (seen ++ v :: todo), pre ++ (done ++ v :: todo) :: Nested.extend (w :: post) (((v :: todo).filter p).map f)) := by
  induction fuel generalizing seen done v todo w post with
  | zero => omega
  | succ fuel ih =>
    have hx : ∀ g ∈ pre ++ (done ++ v :: todo) :: w :: post, g ≠ [] := by
      intro g hg
      rcases List.mem_append.mp hg with hg | hg
      · exact hp g hg
      · rcases List.mem_cons.mp hg with rfl | hg
        · simp
        · exact hw g hg
    have hat : ∀ (w : List α) (post : List (List α)),
        (pre ++ (done ++ v :: todo) :: w :: post).flatten[pre.flatten.length + done.length]? = some v := by
      intro w post
      simp [List.getElem?_append_right]
    have hgf : ∀ (w : List α) (post : List (List α)), w ≠ [] →
        Nested.groupFrom (pre ++ (done ++ v :: todo) :: w :: post) (pre.flatten.length + done.length + 1) =
        if todo = [] then some w else none := by
      intro w post hw
      cases todo with
      | nil =>
        have := groupFrom_pre (pre := pre ++ [done ++ [v]]) (by
          intro g hg
          rcases List.mem_append.mp hg with hg | hg
          · exact hp g hg
          · simp at hg; simp [hg]) (w :: post)
        simp only [List.append_assoc, List.singleton_append, List.flatten_append, List.flatten_singleton, List.length_append,
          List.length_singleton, List.head?_cons, List.flatten_cons, List.flatten_nil, List.append_nil] at this
        rw [← Nat.add_assoc] at this
        simpa using this
      | cons u todo =>
        rw [if_neg (by simp)]
        clear ih hf hat hx
        induction pre with
        | nil =>
          simp only [List.nil_append, List.flatten_nil, List.length_nil, Nested.groupFrom, List.length_append, List.length_cons]
          rw [if_neg (by omega), if_pos (by omega)]
        | cons g pre ihp =>
          have h0 : 0 < g.length := List.length_pos_iff.mpr (hp g (by simp))
          simp only [List.cons_append, Nested.groupFrom, List.flatten_cons, List.length_append]
          rw [if_neg (by omega), if_neg (by omega), show g.length + pre.flatten.length + done.length + 1 - g.length =
            pre.flatten.length + done.length + 1 from by omega]
          exact ihp fun g hg => hp g (by simp [hg])
    have step : ∀ (w : List α) (post : List (List α)), (∀ g ∈ w :: post, g ≠ []) →
        (if Nested.groupFrom (pre ++ (done ++ v :: todo) :: w :: post) (pre.flatten.length + done.length + 1) = none then
          viewLoopMeaning le (appending p f) fuel (seen ++ [v]) (pre.flatten.length + done.length + 1) (pre ++ (done ++ v :: todo) :: w :: post)
        else (.ok (seen ++ [v]), pre ++ (done ++ v :: todo) :: w :: post)) =
          (.ok (seen ++ v :: todo), pre ++ (done ++ v :: todo) :: Nested.extend (w :: post) ((todo.filter p).map f)) := by
      intro w post hw
      rw [hgf w post (hw w (by simp))]
      cases todo with
      | nil => simp [Nested.extend_nil]
      | cons u todo =>
        rw [if_neg (by simp : ¬(u :: todo = [])), if_pos rfl]
        have := ih (seen := seen ++ [v]) (done := done ++ [v]) (v := u) (todo := todo) hw (by simp at hf; omega)
        simpa [Nat.add_assoc] using this
    rw [viewLoopMeaning.eq_def]
    simp only [hat, appending, List.getLast?_concat]
    cases hv : p v with
    | false =>
      simp only [Bool.false_eq_true, if_false, List.filter_cons, hv]
      exact step w post hw
    | true =>
      simp only [if_true, ListOp.meaning, ListOp.place, List.filter_cons, hv, List.map_cons]
      rw [Nested.insertAt_end _ hx]
      have he : Nested.extend (pre ++ (done ++ v :: todo) :: w :: post) [f v] =
          pre ++ (done ++ v :: todo) :: Nested.extend (w :: post) [f v] := by
        have := extend_prefix (pre ++ [done ++ v :: todo]) w post [f v]
        simpa using this
      have hee : Nested.extend (w :: post) (f v :: (todo.filter p).map f) =
          Nested.extend (Nested.extend (w :: post) [f v]) ((todo.filter p).map f) := by
        rw [Nested.extend_extend _ _ _ (.inl (by simp))]
        rfl
      simp only [Bool.false_eq_true, if_false]
      rw [he, hee]
      have hne := Nested.extend_ne (l := [f v]) hw (by simp)
      cases hc : Nested.extend (w :: post) [f v] with
      | nil => cases post <;> simp [Nested.extend] at hc
      | cons w' post' =>
        rw [hc] at hne
        exact step w' post' hne

end Bibleref
