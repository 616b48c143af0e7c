import Verif.Parser
import Verif.Lemmas.Text
import Verif.Lemmas.Dict
/-
Lemmas on squeezing runs of blanks.
-/

namespace Verif
open Verif

/-- Runs of blanks reduced to one blank. -/
abbrev sq (s : Str) : Str := subRun ' ' s

theorem sqGo_blank (b : Bool) (t : Str) : subRunGo ' ' b (' ' :: t) = if b then subRunGo ' ' true t else ' ' :: subRunGo ' ' true t := by
  simp [subRunGo]

theorem sqGo_char {c : Char} (h : c ≠ ' ') (b : Bool) (t : Str) : subRunGo ' ' b (c :: t) = c :: subRunGo ' ' false t := by
  simp [subRunGo, h]

theorem sqGo_idem : ∀ (s : Str) (b : Bool), subRunGo ' ' b (subRunGo ' ' b s) = subRunGo ' ' b s
  | [], b => by cases b <;> rfl
  | c :: t, b => by
    by_cases h : c = ' '
    · subst h
      cases b
      · simp only [sqGo_blank, Bool.false_eq_true, if_false]
        rw [sqGo_idem t true]
      · simp only [sqGo_blank, if_true]
        exact sqGo_idem t true
    · rw [sqGo_char h, sqGo_char h, sqGo_idem t false]

theorem sq_idem (s : Str) : sq (sq s) = sq s := sqGo_idem s false

/-- The flag after a text. -/
def endsBlank (b : Bool) (s : Str) : Bool := match s.getLast? with
  | none => b
  | some c => c == ' '

theorem endsBlank_cons (c : Char) (t : Str) (b : Bool) : endsBlank b (c :: t) = endsBlank (c == ' ') t := by
  unfold endsBlank
  cases h : t.getLast? with
  | none =>
    rw [List.getLast?_eq_none_iff] at h
    subst h
    rfl
  | some d =>
    have : (c :: t).getLast? = some d := by rw [List.getLast?_cons, h]; rfl
    rw [this]

theorem sqGo_append : ∀ (x y : Str) (b : Bool), subRunGo ' ' b (x ++ y) = subRunGo ' ' b x ++ subRunGo ' ' (endsBlank b x) y
  | [], y, b => rfl
  | c :: t, y, b => by
    rw [endsBlank_cons]
    by_cases h : c = ' '
    · subst h
      rw [List.cons_append, sqGo_blank, sqGo_blank]
      cases b <;> simp [sqGo_append t y]
    · have : (c == ' ') = false := by simpa using h
      rw [List.cons_append, sqGo_char h, sqGo_char h, sqGo_append t y, this]; rfl

/-- Leading blanks do not matter after a blank. -/
theorem sqGo_true_sq : ∀ (s : Str) (b : Bool), subRunGo ' ' true (subRunGo ' ' b s) = subRunGo ' ' true s
  | [], b => rfl
  | c :: t, b => by
    by_cases h : c = ' '
    · subst h
      cases b
      · simp only [sqGo_blank, if_true, Bool.false_eq_true, if_false]; exact sqGo_idem t true
      · simp only [sqGo_blank, if_true]; exact sqGo_idem t true
    · rw [sqGo_char h, sqGo_char h, sqGo_char h, sqGo_idem t false]

theorem endsBlank_sq : ∀ (s : Str) (b : Bool), endsBlank b (subRunGo ' ' b s) = endsBlank b s
  | [], b => rfl
  | c :: t, b => by
    have e := endsBlank_cons
    by_cases h : c = ' '
    · subst h
      rw [sqGo_blank, e]
      cases b
      · simp only [Bool.false_eq_true, if_false]
        rw [e]; exact endsBlank_sq t true
      · simp only [if_true]
        exact endsBlank_sq t true
    · have : (c == ' ') = false := by simpa using h
      rw [sqGo_char h, e, e, this]; exact endsBlank_sq t false

theorem sqGo_sq (s : Str) (b : Bool) : subRunGo ' ' b (sq s) = subRunGo ' ' b s := by
  cases b
  · exact sq_idem s
  · exact sqGo_true_sq s false

/-- Squeezing is a congruence for appending. -/
theorem sq_append_congr {x x' y y' : Str} (hx : sq x = sq x') (hy : sq y = sq y') : sq (x ++ y) = sq (x' ++ y') := by
  unfold sq subRun
  rw [sqGo_append, sqGo_append]
  have h1 : subRunGo ' ' false x = subRunGo ' ' false x' := hx
  have h2 : endsBlank false x = endsBlank false x' := by rw [← endsBlank_sq x, ← endsBlank_sq x', h1]
  rw [h1, h2, ← sqGo_sq y, ← sqGo_sq y', hy]

theorem sq_append_char {c : Char} (h : c ≠ ' ') (a b : Str) : sq (a ++ c :: b) = sq a ++ c :: sq b := by
  unfold sq subRun
  rw [sqGo_append, sqGo_char h]

theorem mem_sq {c : Char} {s : Str} (h : c ≠ ' ') : c ∈ sq s ↔ c ∈ s := by
  unfold sq subRun
  generalize false = b
  induction s generalizing b with
  | nil => simp [subRunGo]
  | cons x t ih =>
    by_cases hx : x = ' '
    · subst hx
      rw [sqGo_blank]
      cases b <;> simp [ih, h]
    · rw [sqGo_char hx]; simp [ih]

/-! ## Stripping -/

theorem lstrip_cons (c : Char) (s : Str) : lstrip (c :: s) = if isSpace c then lstrip s else c :: s := by
  simp [lstrip, List.dropWhile_cons]

theorem rstrip_snoc (s : Str) (c : Char) : rstrip (s ++ [c]) = if isSpace c then rstrip s else s ++ [c] := by
  simp only [rstrip, List.reverse_append, List.reverse_cons, List.reverse_nil, List.nil_append, List.singleton_append, List.dropWhile_cons]
  split <;> simp

theorem lstrip_sqGo : ∀ (s : Str) (b : Bool), lstrip (subRunGo ' ' b s) = sq (lstrip s)
  | [], b => rfl
  | c :: t, b => by
    by_cases h : c = ' '
    · subst h
      have : isSpace ' ' = true := by decide
      rw [sqGo_blank, lstrip_cons, if_pos this]
      cases b
      · simp only [Bool.false_eq_true, if_false]
        rw [lstrip_cons, if_pos this, lstrip_sqGo t true]
      · simp only [if_true]
        rw [lstrip_sqGo t true]
    · rw [sqGo_char h, lstrip_cons, lstrip_cons]
      split
      · exact lstrip_sqGo t false
      · exact (sqGo_char h false t).symm

theorem rstrip_sq (s : Str) : rstrip (sq s) = sq (rstrip s) := by
  induction s using snocInd with
  | nil => rfl
  | append_singleton l a ih =>
    rw [rstrip_snoc]
    have e : sq (l ++ [a]) = sq l ++ subRunGo ' ' (endsBlank false l) [a] := sqGo_append l [a] false
    by_cases h : a = ' '
    · subst h
      have hs : isSpace ' ' = true := by decide
      rw [if_pos hs, ← ih, e, sqGo_blank]
      cases endsBlank false l
      · simp only [Bool.false_eq_true, if_false, subRunGo]
        rw [rstrip_snoc, if_pos hs]
      · simp [subRunGo]
    · rw [e, sqGo_char h]
      simp only [subRunGo]
      rw [rstrip_snoc]
      split
      · exact ih
      · rw [e, sqGo_char h]; rfl

theorem strip_sq (s : Str) : strip (sq s) = sq (strip s) := by
  unfold strip
  rw [← rstrip_sq, ← lstrip_sqGo s false]
  rfl

theorem strip_congr {s t : Str} (h : sq s = sq t) : sq (strip s) = sq (strip t) := by rw [← strip_sq, ← strip_sq, h]

/-! ## Searching -/

theorem isPrefixOf_sq : ∀ {sub : Str}, (' ' ∉ sub) → ∀ s : Str, sub.isPrefixOf (sq s) = sub.isPrefixOf s
  | [], _, s => by simp
  | c :: sub, h, [] => by simp [sq, subRun, subRunGo]
  | c :: sub, h, x :: t => by
    simp only [List.mem_cons, not_or] at h
    by_cases hx : x = ' '
    · subst hx
      have : (c == ' ') = false := by simpa using Ne.symm h.1
      unfold sq subRun
      rw [sqGo_blank]
      simp [List.isPrefixOf, this]
    · unfold sq subRun
      rw [sqGo_char hx]
      simp only [List.isPrefixOf]
      rw [show subRunGo ' ' false t = sq t from rfl, isPrefixOf_sq h.2 t]

theorem drop_sq : ∀ {sub : Str}, (' ' ∉ sub) → ∀ s : Str, sub.isPrefixOf s = true → (sq s).drop sub.length = sq (s.drop sub.length)
  | [], _, s, _ => rfl
  | c :: sub, h, [], hp => by simp at hp
  | c :: sub, h, x :: t, hp => by
    simp only [List.mem_cons, not_or] at h
    simp only [List.isPrefixOf, Bool.and_eq_true, beq_iff_eq] at hp
    have hx : x ≠ ' ' := by rw [← hp.1]; exact Ne.symm h.1
    have e : sq (x :: t) = x :: sq t := sqGo_char hx false t
    rw [e]
    exact drop_sq h.2 t hp.2

theorem partitionS_sq {sub : Str} (hne : sub ≠ []) (h : ' ' ∉ sub) :
    ∀ (s : Str) (b : Bool), partitionS sub (subRunGo ' ' b s) =
      (subRunGo ' ' b (partitionS sub s).1, (partitionS sub s).2.1, sq (partitionS sub s).2.2)
  | [], b => by
    cases sub with
    | nil => exact absurd rfl hne
    | cons c t => simp [subRunGo, partitionS, sq, subRun]
  | x :: t, b => by
    by_cases hx : x = ' '
    · subst hx
      have hb : ∀ r : Str, sub.isPrefixOf (' ' :: r) = false := by
        intro r
        cases sub with
        | nil => exact absurd rfl hne
        | cons c sub =>
          simp only [List.mem_cons, not_or] at h
          simp [List.isPrefixOf, Ne.symm h.1]
      rw [sqGo_blank]
      cases b
      · simp only [Bool.false_eq_true, if_false, partitionS, hb, partitionS_sq hne h t true, sqGo_blank]
      · simp only [if_true, Bool.false_eq_true, if_false, partitionS, hb, partitionS_sq hne h t true, sqGo_blank]
    · have e : subRunGo ' ' b (x :: t) = sq (x :: t) := by rw [sqGo_char hx]; exact (sqGo_char hx false t).symm
      rw [e]
      have e2 : sq (x :: t) = x :: sq t := sqGo_char hx false t
      have hp := isPrefixOf_sq h (x :: t)
      rw [e2] at hp ⊢
      simp only [partitionS]
      rw [hp]
      by_cases hpre : sub.isPrefixOf (x :: t) = true
      · rw [if_pos hpre, if_pos hpre, ← e2, drop_sq h _ hpre]
        rfl
      · rw [if_neg hpre, if_neg hpre, show sq t = subRunGo ' ' false t from rfl, partitionS_sq hne h t false, sqGo_char hx]

theorem findIdx_isSome_sq {sub : Str} (hne : sub ≠ []) (h : ' ' ∉ sub) :
    ∀ (s : Str) (b : Bool), (findIdx sub (subRunGo ' ' b s)).isSome = (findIdx sub s).isSome
  | [], b => rfl
  | x :: t, b => by
    by_cases hx : x = ' '
    · subst hx
      have hb : ∀ r : Str, sub.isPrefixOf (' ' :: r) = false := by
        intro r
        cases sub with
        | nil => exact absurd rfl hne
        | cons c sub =>
          simp only [List.mem_cons, not_or] at h
          simp [List.isPrefixOf, Ne.symm h.1]
      rw [sqGo_blank]
      cases b <;> simp [findIdx, hb, findIdx_isSome_sq hne h t true]
    · have e : subRunGo ' ' b (x :: t) = sq (x :: t) := by rw [sqGo_char hx]; exact (sqGo_char hx false t).symm
      rw [e]
      have e2 : sq (x :: t) = x :: sq t := sqGo_char hx false t
      have hp := isPrefixOf_sq h (x :: t)
      rw [e2] at hp ⊢
      simp only [findIdx]
      rw [hp]
      split
      · rfl
      · simp only [Option.isSome_map]
        exact findIdx_isSome_sq hne h t false

theorem hasSub_sq {sub : Str} (hne : sub ≠ []) (h : ' ' ∉ sub) (s : Str) : hasSub sub (sq s) = hasSub sub s :=
  findIdx_isSome_sq hne h s false

theorem hasSub_congr {sub s t : Str} (hne : sub ≠ []) (h : ' ' ∉ sub) (e : sq s = sq t) : hasSub sub s = hasSub sub t := by
  rw [← hasSub_sq hne h, e, hasSub_sq hne h]

theorem partitionS_congr {sub s t : Str} (hne : sub ≠ []) (h : ' ' ∉ sub) (e : sq s = sq t) :
    sq (partitionS sub s).1 = sq (partitionS sub t).1 ∧ sq (partitionS sub s).2.2 = sq (partitionS sub t).2.2 := by
  have h1 := partitionS_sq hne h s false
  have h2 := partitionS_sq hne h t false
  rw [show subRunGo ' ' false s = subRunGo ' ' false t from e, h2] at h1
  simp only [Prod.mk.injEq] at h1
  exact ⟨h1.1.symm, h1.2.2.symm⟩

theorem startsWith_congr {pre s t : Str} (h : ' ' ∉ pre) (e : sq s = sq t) : startsWith s pre = startsWith t pre := by
  unfold startsWith
  rw [← isPrefixOf_sq h s, e, isPrefixOf_sq h]

/-! ## Tabs -/

/-- Tabs turned into blanks. -/
def detab (s : Str) : Str := s.map (fun c => if c = '\t' then ' ' else c)

theorem sqGo_tab : ∀ (s : Str) (b k : Bool), (k = true → b = true) → subRunGo ' ' b (subRunGo '\t' k s) = subRunGo ' ' b (detab s)
  | [], b, k, _ => by cases k <;> rfl
  | c :: t, b, k, hk => by
    by_cases h : c = '\t'
    · subst h
      have e : detab ('\t' :: t) = ' ' :: detab t := rfl
      rw [e, sqGo_blank]
      have e2 : subRunGo '\t' k ('\t' :: t) = if k then subRunGo '\t' true t else ' ' :: subRunGo '\t' true t := by simp [subRunGo]
      rw [e2]
      cases k
      · simp only [Bool.false_eq_true, if_false, sqGo_blank]
        rw [sqGo_tab t true true (fun _ => rfl)]
      · simp only [if_true, hk rfl]
        exact sqGo_tab t true true (fun _ => rfl)
    · have e : detab (c :: t) = c :: detab t := by simp [detab, h]
      have e2 : subRunGo '\t' k (c :: t) = c :: subRunGo '\t' false t := by simp [subRunGo, h]
      rw [e, e2]
      by_cases hc : c = ' '
      · subst hc
        rw [sqGo_blank, sqGo_blank, sqGo_tab t true false (by simp)]
      · rw [sqGo_char hc, sqGo_char hc, sqGo_tab t false false (by simp)]

theorem detab_append (a b : Str) : detab (a ++ b) = detab a ++ detab b := by simp [detab]

theorem sqGo_detab_sq : ∀ (s : Str) (b k : Bool), (k = true → b = true) → subRunGo ' ' b (detab (subRunGo ' ' k s)) = subRunGo ' ' b (detab s)
  | [], b, k, _ => by cases k <;> rfl
  | c :: t, b, k, hk => by
    by_cases h : c = ' '
    · subst h
      have e : detab (' ' :: t) = ' ' :: detab t := rfl
      rw [e, sqGo_blank, sqGo_blank]
      cases k
      · simp only [Bool.false_eq_true, if_false]
        have e2 : ∀ r, detab (' ' :: r) = ' ' :: detab r := fun _ => rfl
        rw [e2, sqGo_blank, sqGo_detab_sq t true true (fun _ => rfl)]
      · simp only [if_true, hk rfl]
        exact sqGo_detab_sq t true true (fun _ => rfl)
    · rw [sqGo_char h]
      by_cases ht : c = '\t'
      · subst ht
        have e : ∀ r, detab ('\t' :: r) = ' ' :: detab r := fun _ => rfl
        rw [e, e, sqGo_blank, sqGo_blank, sqGo_detab_sq t true false (by simp)]
      · have e : ∀ r, detab (c :: r) = c :: detab r := by intro r; simp [detab, ht]
        rw [e, e, sqGo_char h, sqGo_char h, sqGo_detab_sq t false false (by simp)]

theorem sq_cleanLine (s : Str) : sq (cleanLine s) = sq (detab (strip s)) := by
  unfold sq cleanLine subRun
  rw [sqGo_tab _ _ _ (by simp), sqGo_detab_sq _ _ _ (by simp)]

end Verif
