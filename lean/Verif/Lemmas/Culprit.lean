import Verif.SpecPositions
import Verif.Lemmas.Positions

/-!
# What the positions of an error point to
-/

namespace Bibleref
open Spec

variable {u : Uni} {e : Env}

theorem parse_tree {flags : Option BibleFlag} {s : List Char} {t : Tree} (hd : PlainSeps u e.data) (h : ListRule u e.data s t)
    (st : PState) : parse u e flags s st = evalTree u e (e.eff flags) t st := by
  unfold parse
  rw [tree_complete hd h]

theorem PM.bind_ok {α β : Type} {m : PM α} {f : α → PM β} {s : PState} {a : α} {s' : PState} (h : m s = (.ok a, s')) :
    (m >>= f) s = f a s' := by
  change PM.bind m f s = _
  unfold PM.bind
  rw [h]

theorem PM.bind_err {α β : Type} {m : PM α} {f : α → PM β} {s : PState} {x : PyErr} {s' : PState} (h : m s = (.error x, s')) :
    (m >>= f) s = (.error x, s') := by
  change PM.bind m f s = _
  unfold PM.bind
  rw [h]

theorem LM.bind_ok {α β : Type} {m : LM α} {f : α → LM β} {s : PState} {a : α} {s' : PState} (h : m s = (.ok a, s')) :
    (m >>= f) s = f a s' := by
  change (match m s with
    | (.ok a, s) => f a s
    | (.error p, s) => (.error p, s)) = _
  rw [h]

theorem LM.bind_err {α β : Type} {m : LM α} {f : α → LM β} {s : PState} {x : Int × Int} {s' : PState} (h : m s = (.error x, s')) :
    (m >>= f) s = (.error x, s') := by
  change (match m s with
    | (.ok a, s) => f a s
    | (.error p, s) => (.error p, s)) = _
  rw [h]

/-- If a sequence raises an exception, its first or its second part does. -/
theorem LM.bind_error_inv {α β : Type} {m : LM α} {f : α → LM β} {s : PState} {x : Int × Int} {s' : PState}
    (h : (m >>= f) s = (.error x, s')) : m s = (.error x, s') ∨ ∃ a s1, m s = (.ok a, s1) ∧ f a s1 = (.error x, s') := by
  cases hm : m s with
  | mk r s1 =>
    cases r with
    | error p => rw [LM.bind_err hm] at h; cases h; exact .inl rfl
    | ok a => rw [LM.bind_ok hm] at h; exact .inr ⟨a, s1, rfl, h⟩

/-! ## Evaluating lists -/

theorem evalTree_ok {f : BibleFlag} {r : Ref} {l : List (Bool × Ref)} {tr : Option Bool} {st s1 s2 : PState} {a : BibleRange}
    {al : List (Bool × BibleRange)} (h1 : evalRef u e f r st = (.ok a, s1)) (h2 : evalRest u e f l s1 = (.ok al, s2)) :
    evalTree u e f ⟨r, l, tr⟩ st = (.ok (groupUp a al), match tr with
      | none => s2
      | some m => (evalSep m s2).2) := by
  unfold evalTree
  rw [PM.bind_ok h1, PM.bind_ok h2]
  cases tr <;> rfl

theorem evalRest_snoc {f : BibleFlag} (m : Bool) (r : Ref) (l : List (Bool × Ref)) : ∀ {st s1 s2 : PState}
    {al : List (Bool × BibleRange)} {x : BibleRange}, evalRest u e f l st = (.ok al, s1) →
    evalRef u e f r (evalSep m s1).2 = (.ok x, s2) → evalRest u e f (l ++ [(m, r)]) st = (.ok (al ++ [(m, x)]), s2) := by
  have hsep : ∀ s, evalSep m s = (.ok (), (evalSep m s).2) := fun _ => rfl
  induction l with
  | nil =>
    intro st s1 s2 al x h1 h2
    cases h1
    change (evalSep m >>= _) st = _
    rw [PM.bind_ok (hsep _), PM.bind_ok h2]
    rfl
  | cons y l ih =>
    intro st s1 s2 al x h1 h2
    obtain ⟨m', r'⟩ := y
    have hsep' : ∀ s, evalSep m' s = (.ok (), (evalSep m' s).2) := fun _ => rfl
    change (evalSep m' >>= _) st = _ at h1
    change (evalSep m' >>= _) st = _
    rw [PM.bind_ok (hsep' _)] at h1 ⊢
    cases hr : evalRef u e f r' (evalSep m' st).2 with
    | mk a s3 =>
      cases a with
      | error p => rw [PM.bind_err hr] at h1; cases h1
      | ok a =>
        rw [PM.bind_ok hr] at h1 ⊢
        cases hl : evalRest u e f l s3 with
        | mk b s4 =>
          cases b with
          | error p => rw [PM.bind_err hl] at h1; cases h1
          | ok b =>
            rw [PM.bind_ok hl] at h1
            cases h1
            exact PM.bind_ok (ih hl h2)

theorem ok_of_erase {α : Type} {x : Except (Int × Int) α × PState} {y : Except PyErr α × PState} (h : y = eraseOut x) {a : α}
    {s : PState} (hx : x = (.ok a, s)) : y = (.ok a, s) := by rw [h, hx]; rfl

theorem err_of_erase {α : Type} {x : Except (Int × Int) α × PState} {y : Except PyErr α × PState} (h : y = eraseOut x) {p : Int × Int}
    {s : PState} (hx : x = (.error p, s)) : y = (.error .parsing, s) := by rw [h, hx]; rfl

/-! ## One reference -/

theorem parseSingle_skipWs (d : BibleData) (s : List Char) : parseSingle u d (skipWs s) = parseSingle u d s := by
  unfold parseSingle
  rw [skipWs_idem]

theorem listRule_single {d : BibleData} {s : List Char} {x : Single} (h : SingleRule u d s x []) : ListRule u d s ⟨.single x, [], none⟩ :=
  ⟨[], .single h, .done (skips_self _)⟩

theorem parse_single {flags : Option BibleFlag} {s : List Char} {x : Single} (hd : PlainSeps u e.data)
    (h : SingleRule u e.data s x []) {st st' : PState} {r : BibleRange} (hx : evalSingle u e (e.eff flags) x st = (.ok r, st')) :
    parse u e flags s st = (.ok [[r]], st') := by
  rw [parse_tree hd (listRule_single h)]
  exact evalTree_ok (r := .single x) (l := []) (tr := none) hx rfl

theorem parse_single_error {flags : Option BibleFlag} {s : List Char} {x : Single} (hd : PlainSeps u e.data)
    (h : SingleRule u e.data s x []) {st st' : PState} {p : PyErr} (hx : evalSingle u e (e.eff flags) x st = (.error p, st')) :
    (parse u e flags s st).1 = .error p := by
  rw [parse_tree hd (listRule_single h)]
  unfold evalTree
  rw [PM.bind_err (m := evalRef u e (e.eff flags) (.single x)) hx]

/-- The name at the beginning of a reference. -/
theorem parseSingle_name {d : BibleData} {s rest : List Char} {x : Single} (h : parseSingle u d s = some (x, rest)) :
    match x with
    | .book name | .bookNum name _ | .bookChapVerse name _ _ => IsName u d name ∧ ∃ r, skipWs s = name ++ r
    | _ => True := by
  unfold parseSingle at h
  cases hn : lexName u d (skipWs s) with
  | some y =>
    obtain ⟨name, s1⟩ := y
    obtain ⟨k1, k2, _⟩ := lexName_some hn
    rw [hn] at h
    simp only at h
    cases hm : lexNum (skipWs s1) with
    | none =>
      rw [hm] at h
      cases h
      exact ⟨k1, _, k2⟩
    | some z =>
      obtain ⟨n, s2⟩ := z
      rw [hm] at h
      simp only at h
      cases hv : parseVerse d s2 with
      | none => rw [hv] at h; cases h
      | some w =>
        obtain ⟨v, s3⟩ := w
        rw [hv] at h
        cases v <;> (cases h; exact ⟨k1, s1, k2⟩)
  | none =>
    rw [hn] at h
    simp only at h
    cases hm : lexNum (skipWs s) with
    | none => rw [hm] at h; cases h
    | some z =>
      obtain ⟨n, s2⟩ := z
      rw [hm] at h
      simp only at h
      cases hv : parseVerse d s2 with
      | none => rw [hv] at h; cases h
      | some w =>
        obtain ⟨v, s3⟩ := w
        rw [hv] at h
        cases v <;> (cases h; trivial)

/-- Where a callback for one reference raises an exception: at the reference, unless its name is not known. -/
theorem evalSingleAt_error {f : BibleFlag} {a : LSingle} {st st1 : PState} {p : Int × Int}
    (h : evalSingleAt u e f a st = (.error p, st1)) :
    (∃ name, (match a.ref with
        | .book n | .bookNum n _ | .bookChapVerse n _ _ => n = name
        | _ => False) ∧ BibleBook.fromStr u e.data name = none ∧ p = ((a.start : Int), (a.start : Int) + name.length)) ∨
    (NameKnown u e.data a.ref ∧ p = ((a.start : Int), (a.stop : Int))) := by
  have hat : ∀ {α : Type} {p q : Int × Int} {x : Except PyErr α} {s s'}, LM.attempt q x s = (.error p, s') → p = q := by
    intro α p q x s s' h
    cases x with
    | ok a => cases h
    | error y => cases h; rfl
  have hset : ∀ {p : Int × Int} {s s1 s'}, LM.set s s1 ≠ (.error p, s') := by intro p s s1 s' h; cases h
  have hget : ∀ {p : Int × Int} {s s'}, LM.get s ≠ (.error p, s') := by intro p s s' h; cases h
  have hname : ∀ {p : Int × Int} {name : List Char} {s s'}, nameCallbackAt u e.data a.start name s = (.error p, s') →
      BibleBook.fromStr u e.data name = none ∧ p = ((a.start : Int), (a.start : Int) + name.length) := by
    intro p name s s' h
    unfold nameCallbackAt at h
    cases hb : BibleBook.fromStr u e.data name with
    | none => rw [hb] at h; cases h; exact ⟨rfl, rfl⟩
    | some b => rw [hb] at h; cases h
  have hname' : ∀ {b : BibleBook} {name : List Char} {s s'}, nameCallbackAt u e.data a.start name s = (.ok b, s') →
      BibleBook.fromStr u e.data name ≠ none := by
    intro b name s s' h hn
    unfold nameCallbackAt at h
    rw [hn] at h; cases h
  unfold evalSingleAt at h
  cases ha : a.ref with
  | book name =>
    rw [ha] at h
    simp only at h
    rcases LM.bind_error_inv h with h | ⟨b, s1, h0, h⟩
    · exact .inl ⟨name, rfl, hname h⟩
    · refine .inr ⟨hname' h0, ?_⟩
      rcases LM.bind_error_inv h with h | ⟨b1, s2, _, h⟩
      · exact absurd h hget
      rcases LM.bind_error_inv h with h | ⟨b2, s3, _, h⟩
      · exact absurd h hset
      exact hat h
  | bookNum name n =>
    rw [ha] at h
    simp only at h
    rcases LM.bind_error_inv h with h | ⟨b, s1, h0, h⟩
    · exact .inl ⟨name, rfl, hname h⟩
    · refine .inr ⟨hname' h0, ?_⟩
      rcases LM.bind_error_inv h with h | ⟨b1, s2, _, h⟩
      · exact absurd h hget
      by_cases hb : b.chapCount e.data = 1
      · simp only [if_pos hb] at h
        rcases LM.bind_error_inv h with h | ⟨b2, s3, _, h⟩
        · exact absurd h hset
        exact hat h
      · simp only [if_neg hb] at h
        rcases LM.bind_error_inv h with h | ⟨b2, s3, _, h⟩
        · exact absurd h hset
        exact hat h
  | bookChapVerse name c v =>
    rw [ha] at h
    simp only at h
    rcases LM.bind_error_inv h with h | ⟨b, s1, h0, h⟩
    · exact .inl ⟨name, rfl, hname h⟩
    · refine .inr ⟨hname' h0, ?_⟩
      rcases LM.bind_error_inv h with h | ⟨b1, s2, _, h⟩
      · exact absurd h hset
      exact hat h
  | chapVerse c v =>
    rw [ha] at h
    simp only at h
    refine .inr ⟨trivial, ?_⟩
    rcases LM.bind_error_inv h with h | ⟨s0, s1, _, h⟩
    · exact absurd h hget
    cases hb : s0.book with
    | none => rw [hb] at h; cases h; rfl
    | some b =>
      rw [hb] at h
      rcases LM.bind_error_inv h with h | ⟨b2, s3, _, h⟩
      · exact absurd h hset
      exact hat h
  | num n =>
    rw [ha] at h
    simp only at h
    refine .inr ⟨trivial, ?_⟩
    rcases LM.bind_error_inv h with h | ⟨s0, s1, _, h⟩
    · exact absurd h hget
    cases hb : s0.book with
    | none => rw [hb] at h; cases h; rfl
    | some b =>
      rw [hb] at h
      simp only at h
      by_cases hc : b.chapCount e.data = 1
      · simp only [if_pos hc] at h
        rcases LM.bind_error_inv h with h | ⟨b2, s3, _, h⟩
        · exact absurd h hset
        exact hat h
      · simp only [if_neg hc] at h
        cases hv : s0.atVerse with
        | false => rw [hv] at h; exact hat h
        | true =>
          rw [hv] at h
          simp only [if_true] at h
          cases hch : s0.chap with
          | none => rw [hch] at h; cases h; rfl
          | some c => rw [hch] at h; exact hat h

/-- A located reference: its text, and where it is. -/
theorem locSingle_text {d : BibleData} {s p sx rest : List Char} {a : LSingle} (hs : s = p ++ sx)
    (h : locSingle u d s.length sx = some (a, rest)) : ∃ w text, AllWs w ∧ sx = w ++ text ++ rest ∧ SingleRule u d text a.ref [] ∧
      (∀ c, text.head? = some c → isWs c = false) ∧ a.start = (p ++ w).length ∧ a.stop = (p ++ w ++ text).length ∧
      SingleRule u d (w ++ text) a.ref [] ∧ SingleRule u d sx a.ref rest ∧ SingleRule u d (text ++ rest) a.ref rest ∧
      (match a.ref with
        | .book name | .bookNum name _ | .bookChapVerse name _ _ => IsName u d name ∧ ∃ r, text ++ rest = name ++ r
        | _ => True) := by
  unfold locSingle at h
  cases hp : parseSingle u d sx with
  | none => rw [hp] at h; cases h
  | some y =>
    obtain ⟨x, r⟩ := y
    rw [hp] at h
    cases h
    have hw : sx = sx.takeWhile isWs ++ skipWs sx := (List.takeWhile_append_dropWhile).symm
    have h1 := single_sound ((parseSingle_skipWs d sx).trans hp)
    obtain ⟨text, h2, h3⟩ := single_cut (y := []) (z := rest) h1
    have hall : AllWs (sx.takeWhile isWs) := fun c hc => List.all_eq_true.1 List.all_takeWhile c hc
    have hsx : sx = sx.takeWhile isWs ++ text ++ rest := by rw [List.append_assoc, ← h2]; exact hw
    obtain ⟨text', h4, h5⟩ := single_cut (y := []) (z := rest) (single_sound hp)
    have ht : text' = sx.takeWhile isWs ++ text := List.append_cancel_right (h4.symm.trans hsx)
    have hne : text ≠ [] := by
      rintro rfl
      have := (single_length h3).2
      exact this rfl
    refine ⟨sx.takeWhile isWs, text, hall, hsx, h3, ?_, ?_, ?_, ht ▸ h5, single_sound hp, h2 ▸ h1, ?_⟩
    · intro c hc
      refine dropWhile_first (p := isWs) sx c ?_
      have : (skipWs sx).head? = some c := by
        rw [h2]
        cases text with
        | nil => exact absurd rfl hne
        | cons a t => exact hc
      exact this
    · have e1 := congrArg List.length hw
      simp only [hs, List.length_append] at e1 ⊢
      omega
    · have e1 := congrArg List.length hsx
      simp only [List.length_append] at e1
      simp only [hs, List.length_append]
      omega
    · have := parseSingle_name hp
      rw [h2] at this
      cases x <;> exact this

/-- The conclusion about positions. -/
def PointsAt (u : Uni) (e : Env) (flags : Option BibleFlag) (s : List Char) (p : Int × Int) (pre : List Char) (st : PState) : Prop :=
  ∃ text post, s = pre ++ text ++ post ∧ p = (((pre.length : Nat) : Int), (((pre ++ text).length : Nat) : Int)) ∧ Culprit u e flags st text

theorem single_culprit {flags : Option BibleFlag} (hd : PlainSeps u e.data) {s p sx rest : List Char} {a : LSingle} (hs : s = p ++ sx)
    (h : locSingle u e.data s.length sx = some (a, rest)) {st st1 : PState} {q : Int × Int}
    (hq : evalSingleAt u e (e.eff flags) a st = (.error q, st1)) :
    ∃ w, AllWs w ∧ PointsAt u e flags s q (p ++ w) st := by
  obtain ⟨w, text, h1, h2, h3, h4, h5, h6, _, _, _, h7⟩ := locSingle_text hs h
  refine ⟨w, h1, ?_⟩
  have herr := err_of_erase (evalSingle_erase e (e.eff flags) a st) hq
  rcases evalSingleAt_error hq with ⟨name, k1, k2, k3⟩ | ⟨k1, k2⟩
  · have hn : IsName u e.data name ∧ ∃ r, text ++ rest = name ++ r := by
      cases ha : a.ref with
      | book n => rw [ha] at k1 h7; cases k1; exact h7
      | bookNum n _ => rw [ha] at k1 h7; cases k1; exact h7
      | bookChapVerse n _ _ => rw [ha] at k1 h7; cases k1; exact h7
      | chapVerse _ _ => rw [ha] at k1; cases k1
      | num _ => rw [ha] at k1; cases k1
    obtain ⟨hn, r, hr⟩ := hn
    refine ⟨name, r, ?_, ?_, .name hn k2⟩
    · rw [hs, h2, List.append_assoc w, hr]; simp
    · rw [k3, h5]; simp; omega
  · refine ⟨text, rest, ?_, ?_, .single h3 h4 k1 (parse_single_error hd h3 herr)⟩
    · rw [hs, h2]; simp
    · rw [k2, h5, h6]

theorem lexChar_some {p : Char → Bool} {s r : List Char} (h : lexChar p s = some r) : ∃ c, p c = true ∧ s = c :: r := by
  cases s with
  | nil => cases h
  | cons c s =>
    simp only [lexChar] at h
    by_cases hc : p c = true
    · rw [if_pos hc] at h; cases h; exact ⟨c, hc, rfl⟩
    · rw [if_neg hc] at h; cases h

/-- A reference of a list that cannot be read: the culprit is it, or a part of it. -/
theorem ref_culprit {flags : Option BibleFlag} (hd : PlainSeps u e.data) {s p sx rest : List Char} {r : LRef} (hs : s = p ++ sx)
    (h : locRef u e.data s.length sx = some (r, rest)) {st st1 : PState} {q : Int × Int}
    (hq : evalRefAt u e (e.eff flags) r st = (.error q, st1)) :
    (∃ w, AllWs w ∧ PointsAt u e flags s q (p ++ w) st) ∨
    ∃ t w1 w2 x a st2, SingleRule u e.data t x [] ∧ (∃ z, sx = t ++ z ∧ SingleRule u e.data sx x z) ∧ AllWs w1 ∧ AllWs w2 ∧
      evalSingle u e (e.eff flags) x st = (.ok a, st2) ∧
      PointsAt u e flags s q (p ++ t ++ (w1 ++ e.data.rangeSep :: w2)) st2 := by
  unfold locRef at h
  cases ha : locSingle u e.data s.length sx with
  | none => rw [ha] at h; cases h
  | some y =>
    obtain ⟨a, s1⟩ := y
    rw [ha] at h
    simp only at h
    cases hc : lexChar (· = e.data.rangeSep) (skipWs s1) with
    | none =>
      rw [hc] at h
      cases h
      exact .inl (single_culprit hd hs ha hq)
    | some s2 =>
      rw [hc] at h
      simp only at h
      cases hb : locSingle u e.data s.length s2 with
      | none => rw [hb] at h; cases h
      | some y =>
        obtain ⟨b, s3⟩ := y
        rw [hb] at h
        cases h
        have hall2 := err_of_erase (evalRef_erase e (e.eff flags) (.dual a b) st) hq
        rcases LM.bind_error_inv hq with hq | ⟨x, st2, hx, hq⟩
        · exact .inl (single_culprit hd hs ha hq)
        · obtain ⟨w, text, h1, h2, h3, h4, h5, h6, h7, h8, h9, _⟩ := locSingle_text hs ha
          obtain ⟨c, hcc, hs1⟩ := lexChar_some hc
          simp only [decide_eq_true_eq] at hcc
          subst hcc
          have hw1 : s1 = s1.takeWhile isWs ++ e.data.rangeSep :: s2 := by
            rw [← hs1]; exact (List.takeWhile_append_dropWhile).symm
          have hall : AllWs (s1.takeWhile isWs) := fun c hc => List.all_eq_true.1 List.all_takeWhile c hc
          generalize s1.takeWhile isWs = w1 at hw1 hall
          have hs' : s = (p ++ (w ++ text) ++ w1 ++ [e.data.rangeSep]) ++ s2 := by
            rw [hs, h2, hw1]
            simp
          have hx' := ok_of_erase (evalSingle_erase e (e.eff flags) a st) hx
          rcases LM.bind_error_inv hq with hq | ⟨y, st3, hy, hq⟩
          · obtain ⟨w2, k1, k2⟩ := single_culprit hd hs' hb hq
            refine .inr ⟨w ++ text, w1, w2, a.ref, x, st2, h7, ⟨s1, h2, h8⟩, hall, k1, hx', ?_⟩
            have : p ++ (w ++ text) ++ (w1 ++ e.data.rangeSep :: w2) =
              p ++ (w ++ text) ++ w1 ++ [e.data.rangeSep] ++ w2 := by simp
            rw [this]; exact k2
          · obtain ⟨w2, text2, g1, g2, g3, g4, g5, g6, g7, g8, _, _⟩ := locSingle_text hs' hb
            have hy' := ok_of_erase (evalSingle_erase e (e.eff flags) b st2) hy
            have hrule : RefRule u e.data (text ++ s1) (.dual a.ref b.ref) ([] ++ s3) := .dual h9 ⟨w1, hall, hw1⟩ g8
            obtain ⟨p', j1, j2⟩ := ref_cut hrule
            have hp' : p' = text ++ w1 ++ e.data.rangeSep :: w2 ++ text2 := by
              refine List.append_cancel_right (j1.symm.trans ?_ : p' ++ s3 = _ ++ s3)
              rw [hw1, g2]; simp
            subst hp'
            have hlist : ListRule u e.data (text ++ w1 ++ e.data.rangeSep :: w2 ++ text2) ⟨.dual a.ref b.ref, [], none⟩ :=
              ⟨[], j2, .done (skips_self _)⟩
            refine .inl ⟨w, h1, text ++ w1 ++ e.data.rangeSep :: w2 ++ text2, s3, ?_, ?_,
              .dual h3 h4 hall g1 g3 (parse_single hd h3 hx') (parse_single hd g3 hy') ?_⟩
            · rw [hs, h2, hw1, g2]; simp
            · cases x
              have : q = ((a.start : Int), (b.stop : Int)) := by
                generalize BibleRange.ofArgs _ _ _ _ _ _ _ _ = z at hq
                cases z with
                | ok z => cases hq
                | error z => cases hq; rfl
              rw [this, h5, g6]
              simp
            · rw [parse_tree hd hlist]
              unfold evalTree
              rw [PM.bind_err (m := evalRef u e (e.eff flags) (.dual a.ref b.ref)) hall2]

/-! ## A list of references -/

/-- Some references of a list, up to some place of the string. -/
inductive RestTo (u : Uni) (d : BibleData) : List Char → List (Bool × Ref) → List Char → Prop
  | nil {s} : RestTo u d s [] s
  | snoc {s l s1 m s2 r s3} : RestTo u d s l s1 → Skips s1 (listSep d m :: s2) → RefRule u d s2 r s3 →
      RestTo u d s (l ++ [(m, r)]) s3

theorem RestTo.cut {d : BibleData} {s l s'} (h : RestTo u d s l s') : ∀ y z, s' = y ++ z → ∃ p, s = p ++ z ∧ RestTo u d p l y := by
  induction h with
  | nil => intro y z h; exact ⟨y, h, .nil⟩
  | snoc _ h2 h3 ih =>
    intro y z h
    subst h
    obtain ⟨p, rfl, h3'⟩ := ref_cut h3
    rw [← List.cons_append] at h2
    obtain ⟨p2, rfl, h2'⟩ := skips_cut h2
    obtain ⟨p3, rfl, h1'⟩ := ih _ _ rfl
    exact ⟨p3, rfl, .snoc h1' h2' h3'⟩

theorem RestTo.rule {d : BibleData} {s l s'} (h : RestTo u d s l s') : ∀ {l' t}, RestRule u d s' l' t → RestRule u d s (l ++ l') t := by
  induction h with
  | nil => intro l' t h; exact h
  | snoc _ h2 h3 ih =>
    intro l' t h
    have := ih (.cons h2 h3 h)
    rw [List.append_assoc]
    exact this

/-- The text of some references of a list, with what comes after them. -/
theorem prefix_rule {d : BibleData} {s s0 r l y z l' t} (h : RefRule u d s r s0) (h' : RestTo u d s0 l (y ++ z))
    (hy : RestRule u d y l' t) : ∃ p, s = p ++ z ∧ ListRule u d p ⟨r, l ++ l', t⟩ := by
  obtain ⟨p0, rfl, h1⟩ := h'.cut y z rfl
  obtain ⟨p, rfl, h2⟩ := ref_cut h
  exact ⟨p, rfl, p0, h2, h1.rule hy⟩

theorem locRef_sound {d : BibleData} {n : Nat} {s : List Char} {r : LRef} {rest : List Char} (h : locRef u d n s = some (r, rest)) :
    RefRule u d s r.erase rest := by
  have := locRef_erase (u := u) (d := d) n s
  rw [h] at this
  exact ref_sound this.symm

theorem rest_culprit {flags : Option BibleFlag} (hd : PlainSeps u e.data) {s s0 : List Char} {r0 : Ref} (h0 : RefRule u e.data s r0 s0)
    {st stA : PState} {a0 : BibleRange} (he : evalRef u e (e.eff flags) r0 st = (.ok a0, stA)) (fuel : Nat) :
    ∀ {sx : List Char} {l0 : List (Bool × Ref)} {ll : List (Bool × LRef)} {t : Option Bool} {al : List (Bool × BibleRange)}
      {stB st1 : PState} {q : Int × Int}, RestTo u e.data s0 l0 sx → evalRest u e (e.eff flags) l0 stA = (.ok al, stB) →
      locRest u e.data s.length fuel sx = some (ll, t) → evalRestAt u e (e.eff flags) ll stB = (.error q, st1) →
      ∃ pre st', ReadBefore u e flags st pre st' ∧ PointsAt u e flags s q pre st' := by
  induction fuel with
  | zero =>
    intro sx l0 ll t al stB st1 q h1 h2 h3 h4
    unfold locRest at h3
    cases hw : skipWs sx with
    | nil => rw [hw] at h3; cases h3; cases h4
    | cons c s' =>
      rw [hw] at h3
      simp only at h3
      cases hl : lexListSep e.data (c :: s') <;> (rw [hl] at h3; cases h3)
  | succ k ih =>
    intro sx l0 ll t al stB st1 q h1 h2 h3 h4
    unfold locRest at h3
    cases hw : skipWs sx with
    | nil => rw [hw] at h3; cases h3; cases h4
    | cons c s' =>
      rw [hw] at h3
      simp only at h3
      cases hl : lexListSep e.data (c :: s') with
      | none => rw [hl] at h3; cases h3
      | some x =>
        obtain ⟨m, s2⟩ := x
        rw [hl] at h3
        simp only at h3
        have hsep := lexListSep_sound hl
        have hsk : Skips sx (listSep e.data m :: s2) := by rw [← hsep, ← hw]; exact skips_skipWs sx
        cases hw2 : skipWs s2 with
        | nil => rw [hw2] at h3; cases h3; cases h4
        | cons c2 s3 =>
          rw [hw2] at h3
          simp only at h3
          cases hr : locRef u e.data s.length s2 with
          | none => rw [hr] at h3; cases h3
          | some x =>
            obtain ⟨r, s4⟩ := x
            rw [hr] at h3
            simp only at h3
            cases hlr : locRest u e.data s.length k s4 with
            | none => rw [hlr] at h3; cases h3
            | some x =>
              obtain ⟨l', t'⟩ := x
              rw [hlr] at h3
              cases h3
              -- the text up to the separator
              obtain ⟨w, hwall, hsx⟩ := hsk
              have hp : ∃ p, s = p ++ s2 ∧ ListRule u e.data p ⟨r0, l0 ++ [], some m⟩ := by
                refine prefix_rule (y := w ++ [listSep e.data m]) h0 ?_ (.trailing ⟨w, hwall, rfl⟩ (skips_self _))
                rw [hsx] at h1
                simpa using h1
              rw [List.append_nil] at hp
              obtain ⟨p, hp1, hp2⟩ := hp
              have hparse : parse u e flags p st = (.ok (groupUp a0 al), (evalSep m stB).2) := by
                rw [parse_tree hd hp2]
                exact evalTree_ok he h2
              rcases LM.bind_error_inv h4 with h4 | ⟨_, stC, h5, h4⟩
              · cases h4
              have hC : stC = (evalSep m stB).2 := by cases h5; rfl
              subst hC
              rcases LM.bind_error_inv h4 with h4 | ⟨x, stD, h6, h4⟩
              · rcases ref_culprit hd hp1 hr h4 with ⟨w', k1, k2⟩ | ⟨tx, w1, w2, x, a, st2, k1, ⟨z, k2, k3⟩, k4, k5, k6, k7⟩
                · exact ⟨p ++ w', _, .inr ⟨p, w', _, rfl, .inl k1, hparse⟩, k2⟩
                · refine ⟨_, st2, .inr ⟨p ++ tx, _, groupUp a0 (al ++ [(m, a)]), rfl, .inr ⟨w1, w2, k4, k5, rfl⟩, ?_⟩, k7⟩
                  · have h1' : RestTo u e.data s0 (l0 ++ [(m, .single x)]) ([] ++ z) :=
                      .snoc h1 ⟨w, hwall, hsx⟩ (.single k3)
                    obtain ⟨p', j1, j2⟩ := prefix_rule h0 h1' (.done (skips_self _))
                    have : p' = p ++ tx := by
                      refine List.append_cancel_right (j1.symm.trans ?_ : p' ++ z = _ ++ z)
                      rw [hp1, k2, List.append_assoc]
                    subst this
                    rw [List.append_nil] at j2
                    rw [parse_tree hd j2]
                    exact evalTree_ok (tr := none) he (evalRest_snoc m (.single x) l0 h2 k6)
              · have h6' := ok_of_erase (evalRef_erase e (e.eff flags) r _) h6
                rcases LM.bind_error_inv h4 with h4 | ⟨y, stE, h7, h4⟩
                · exact ih (.snoc h1 ⟨w, hwall, hsx⟩ (locRef_sound hr)) (evalRest_snoc m r.erase l0 h2 h6') hlr h4
                · cases h4

/-- A string that fits the grammar but cannot be read: the positions point to the culprit, and everything before it can be read. -/
theorem parseAt_culprit {flags : Option BibleFlag} (hd : PlainSeps u e.data) {s : List Char} {t : LTree}
    (ht : locTree u e.data s = some t) {st st1 : PState} {q : Int × Int}
    (hq : parseAt u e flags s st = (.error q, st1)) :
    ∃ pre st', ReadBefore u e flags st pre st' ∧ PointsAt u e flags s q pre st' := by
  unfold parseAt at hq
  rw [ht] at hq
  simp only at hq
  unfold locTree at ht
  cases hr : locRef u e.data s.length s with
  | none => rw [hr] at ht; cases ht
  | some x =>
    obtain ⟨r, rest⟩ := x
    rw [hr] at ht
    simp only at ht
    cases hl : locRest u e.data s.length rest.length rest with
    | none => rw [hl] at ht; cases ht
    | some x =>
      obtain ⟨l, tr⟩ := x
      rw [hl] at ht
      cases ht
      rcases LM.bind_error_inv hq with hq | ⟨x, stA, h6, hq⟩
      · rcases ref_culprit hd (p := []) rfl hr hq with ⟨w', k1, k2⟩ | ⟨tx, w1, w2, x, a, st2, k1, _, k4, k5, k6, k7⟩
        · exact ⟨w', st, .inl ⟨k1, rfl⟩, k2⟩
        · exact ⟨_, st2, .inr ⟨tx, _, _, rfl, .inr ⟨w1, w2, k4, k5, rfl⟩, parse_single hd k1 k6⟩, k7⟩
      · have h6' := ok_of_erase (evalRef_erase e (e.eff flags) r st) h6
        rcases LM.bind_error_inv hq with hq | ⟨y, stB, h7, hq⟩
        · exact rest_culprit hd (locRef_sound hr) h6' rest.length .nil rfl hl hq
        · cases tr <;> cases hq

end Bibleref
