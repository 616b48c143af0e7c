import Mathlib.Logic.Basic
import Verif.Py.Re
/-
Lemmas about the text primitives: searching, slicing, splitting, stripping.
-/

namespace Verif

/-! ## Searching -/

theorem findIdx_some {sub : Str} : ∀ {s : Str} {i : Nat}, findIdx sub s = some i →
    ∃ a b, s = a ++ sub ++ b ∧ a.length = i
  | [], i, h => by
    simp only [findIdx] at h
    split at h
    · rename_i hp
      cases h
      exact ⟨[], [], by simpa using (List.isPrefixOf_iff_prefix.1 hp), rfl⟩
    · cases h
  | c :: t, i, h => by
    simp only [findIdx] at h
    split at h
    · rename_i hp
      cases h
      obtain ⟨b, hb⟩ := List.isPrefixOf_iff_prefix.1 hp
      exact ⟨[], b, by simpa using hb.symm, rfl⟩
    · cases h' : findIdx sub t with
      | none => rw [h'] at h; cases h
      | some j =>
        rw [h'] at h
        cases h
        obtain ⟨a, b, e, l⟩ := findIdx_some h'
        exact ⟨c :: a, b, by simp [e], by simp [l]⟩

theorem findIdx_none_iff {sub : Str} : ∀ {s : Str}, findIdx sub s = none ↔ ¬ sub <:+: s
  | [] => by
    simp only [findIdx]
    split
    · rename_i hp
      simp only [reduceCtorEq, false_iff, not_not]
      exact (List.isPrefixOf_iff_prefix.1 hp).isInfix
    · rename_i hp
      simp only [true_iff]
      intro h
      apply hp
      rw [List.infix_nil.1 h]; rfl
  | c :: t => by
    simp only [findIdx]
    split
    · rename_i hp
      simp only [reduceCtorEq, false_iff, not_not]
      exact (List.isPrefixOf_iff_prefix.1 hp).isInfix
    · rename_i hp
      rw [Option.map_eq_none_iff, findIdx_none_iff, List.infix_cons_iff]
      have : ¬ sub <+: c :: t := fun h => hp (List.isPrefixOf_iff_prefix.2 h)
      simp [this]

theorem hasSub_iff {sub s : Str} : hasSub sub s = true ↔ sub <:+: s := by
  unfold hasSub
  cases h : findIdx sub s with
  | none => simpa using findIdx_none_iff.1 h
  | some i =>
    obtain ⟨a, b, e, -⟩ := findIdx_some h
    simp only [Option.isSome_some, true_iff]
    exact ⟨a, b, e.symm⟩

theorem hasSub_false_iff {sub s : Str} : hasSub sub s = false ↔ ¬ sub <:+: s := by
  rw [← hasSub_iff]; simp

theorem singleton_infix {c : Char} {s : Str} : [c] <:+: s ↔ c ∈ s := by
  constructor
  · rintro ⟨a, b, rfl⟩; simp
  · intro h
    obtain ⟨a, b, rfl⟩ := List.append_of_mem h
    exact ⟨a, b, by simp⟩

theorem hasSub_single {c : Char} {s : Str} : hasSub [c] s = true ↔ c ∈ s := by
  rw [hasSub_iff, singleton_infix]

theorem findIdx_char {c : Char} : ∀ {a b : Str}, c ∉ a → findIdx [c] (a ++ c :: b) = some a.length
  | [], b, _ => by simp [findIdx]
  | x :: a, b, h => by
    simp only [List.mem_cons, not_or] at h
    simp only [List.cons_append, findIdx, List.isPrefixOf, Bool.and_true]
    rw [if_neg (by simpa using h.1), findIdx_char h.2]
    simp

theorem findIdx_char_none {c : Char} {s : Str} (h : c ∉ s) : findIdx [c] s = none := by
  rw [findIdx_none_iff, singleton_infix]; exact h

theorem pyFind_char {c : Char} {a b : Str} (h : c ∉ a) : pyFind [c] (a ++ c :: b) = (a.length : Int) := by
  simp [pyFind, findIdx_char h]

theorem pyFind_char_none {c : Char} {s : Str} (h : c ∉ s) : pyFind [c] s = -1 := by
  simp [pyFind, findIdx_char_none h]

theorem rfindIdx_char_none {c : Char} : ∀ {s : Str}, c ∉ s → rfindIdx [c] s = none
  | [], _ => by simp [rfindIdx]
  | x :: s, h => by
    simp only [List.mem_cons, not_or] at h
    simp only [rfindIdx, rfindIdx_char_none h.2, List.isPrefixOf, Bool.and_true]
    rw [if_neg (by simpa using h.1)]

theorem rfindIdx_char {c : Char} : ∀ {a b : Str}, c ∉ b → rfindIdx [c] (a ++ c :: b) = some a.length
  | [], b, h => by simp [rfindIdx, rfindIdx_char_none h]
  | x :: a, b, h => by simp [rfindIdx, rfindIdx_char h]

theorem pyRfind_char {c : Char} {a b : Str} (h : c ∉ b) : pyRfind [c] (a ++ c :: b) = (a.length : Int) := by
  simp [pyRfind, rfindIdx_char h]

/-- The first occurrence of a character. -/
theorem split_first {c : Char} {s : Str} (h : c ∈ s) : ∃ a b, s = a ++ c :: b ∧ c ∉ a := by
  induction s with
  | nil => simp at h
  | cons x t ih =>
    by_cases hx : x = c
    · exact ⟨[], t, by simp [hx], by simp⟩
    · obtain ⟨a, b, e, ha⟩ := ih (by simpa [Ne.symm hx] using h)
      exact ⟨x :: a, b, by simp [e], by simp [ha, Ne.symm hx]⟩

/-- The last occurrence of a character. -/
theorem split_last {c : Char} {s : Str} (h : c ∈ s) : ∃ a b, s = a ++ c :: b ∧ c ∉ b := by
  obtain ⟨a, b, e, ha⟩ := split_first (s := s.reverse) (by simpa using h)
  refine ⟨b.reverse, a.reverse, ?_, by simpa using ha⟩
  have := congrArg List.reverse e
  simpa using this

/-! ## Slicing -/

theorem sliceBound_nat (len i : Nat) : sliceBound len (i : Int) = min i len := by
  unfold sliceBound
  rw [if_neg (by omega)]; simp

theorem pySlice_nat {α : Type} (s : List α) (i j : Nat) : pySlice s (i : Int) (j : Int) = (s.take j).drop i := by
  simp only [pySlice, sliceBound_nat]
  rw [show s.take (min j s.length) = s.take j by rw [← List.take_eq_take_min]]
  by_cases h : i ≤ s.length
  · rw [Nat.min_eq_left h]
  · rw [Nat.min_eq_right (by omega), List.drop_of_length_le (by simp; omega), List.drop_of_length_le (by simp; omega)]

theorem pySlice_zero {α : Type} (s : List α) (j : Nat) : pySlice s 0 (j : Int) = s.take j := by
  have := pySlice_nat s 0 j
  simpa using this

theorem pySlice_succ {α : Type} (s : List α) (i j : Nat) :
    pySlice s ((i : Int) + 1) (j : Int) = (s.take j).drop (i + 1) := by
  have := pySlice_nat s (i + 1) j
  simpa using this

/-- `s[0:find(c)+1]` when `c` occurs. -/
theorem pySlice_upto {c : Char} {a b : Str} (h : c ∉ a) :
    pySlice (a ++ c :: b) 0 (pyFind [c] (a ++ c :: b) + 1) = a ++ [c] := by
  rw [pyFind_char h]
  have := pySlice_zero (a ++ c :: b) (a.length + 1)
  push_cast at this
  rw [this, List.take_append]
  simp [List.take_of_length_le (Nat.le_succ a.length)]

/-! ## Splitting -/

theorem splitC_ne_nil (c : Char) (s : Str) : splitC c s ≠ [] := by
  induction s with
  | nil => simp [splitC]
  | cons x t ih =>
    simp only [splitC]
    split
    · simp
    · cases h : splitC c t with
      | nil => exact absurd h ih
      | cons p ps => simp [consHead]

theorem splitC_plain {c : Char} : ∀ {s : Str}, c ∉ s → splitC c s = [s]
  | [], _ => rfl
  | x :: t, h => by
    simp only [List.mem_cons, not_or] at h
    simp [splitC, Ne.symm h.1, splitC_plain h.2, consHead]

theorem splitC_cons {c : Char} : ∀ {a b : Str}, c ∉ a → splitC c (a ++ c :: b) = a :: splitC c b
  | [], b, _ => by simp [splitC]
  | x :: a, b, h => by
    simp only [List.mem_cons, not_or] at h
    simp [splitC, Ne.symm h.1, splitC_cons h.2, consHead]

theorem splitC_append (c : Char) (a b : Str) : splitC c (a ++ c :: b) = splitC c a ++ splitC c b := by
  induction a with
  | nil => simp [splitC]
  | cons x a ih =>
    by_cases hx : x = c
    · simp [splitC, hx, ih]
    · simp only [List.cons_append, splitC, beq_iff_eq, hx, if_false, ih]
      cases h : splitC c a with
      | nil => exact absurd h (splitC_ne_nil c a)
      | cons p ps => simp [consHead]

/-- The parts, joined by the separator, are the text. -/
theorem joinS_splitC (c : Char) (s : Str) : joinS [c] (splitC c s) = s := by
  induction s with
  | nil => rfl
  | cons x t ih =>
    simp only [splitC]
    split
    · rename_i h
      have hx : x = c := by simpa using h
      cases hs : splitC c t with
      | nil => exact absurd hs (splitC_ne_nil c t)
      | cons p ps => rw [hs] at ih; simp [joinS, ih, hx]
    · cases hs : splitC c t with
      | nil => exact absurd hs (splitC_ne_nil c t)
      | cons p ps =>
        rw [hs] at ih
        cases ps with
        | nil => simp [consHead, joinS] at ih ⊢; exact ih
        | cons q qs => simp [consHead, joinS] at ih ⊢; exact ih

theorem not_mem_splitC {c : Char} : ∀ {s : Str}, ∀ p ∈ splitC c s, c ∉ p
  | [], p, hp => by simp [splitC] at hp; simp [hp]
  | x :: t, p, hp => by
    have ih : ∀ p ∈ splitC c t, c ∉ p := not_mem_splitC (s := t)
    by_cases hx : x = c
    · simp only [splitC, hx, beq_self_eq_true, if_true, List.mem_cons] at hp
      rcases hp with rfl | hp
      · simp
      · exact ih p hp
    · simp only [splitC, beq_iff_eq, hx, if_false] at hp
      cases hs : splitC c t with
      | nil => exact absurd hs (splitC_ne_nil c t)
      | cons q qs =>
        rw [hs] at hp ih
        simp only [consHead, List.mem_cons] at hp
        rcases hp with rfl | hp
        · simp only [List.mem_cons, not_or]
          exact ⟨Ne.symm hx, ih q (by simp)⟩
        · exact ih p (by simp [hp])

/-- Every part is a piece of the text. -/
theorem splitC_infix {c : Char} {s p : Str} (h : p ∈ splitC c s) : p <:+: s := by
  rw [← joinS_splitC c s]
  generalize splitC c s = l at h
  induction l with
  | nil => simp at h
  | cons q qs ih =>
    cases qs with
    | nil => simp only [List.mem_singleton] at h; subst h; exact ⟨[], [], by simp [joinS]⟩
    | cons r rs =>
      rw [List.mem_cons] at h
      simp only [joinS]
      rcases h with rfl | h
      · exact ⟨[], [c] ++ joinS [c] (r :: rs), by simp⟩
      · exact (ih h).trans ⟨q ++ [c], [], by simp⟩

theorem getLastD_splitC_infix {c : Char} {s : Str} : (splitC c s).getLastD [] <:+: s := by
  have h := splitC_ne_nil c s
  have : (splitC c s).getLastD [] ∈ splitC c s := by
    cases hs : splitC c s with
    | nil => exact absurd hs h
    | cons p ps =>
      have := List.getLast_mem (l := p :: ps) (by simp)
      rw [List.getLast_eq_getLastD] at this
      rw [List.getLastD_cons]; exact this
  exact splitC_infix this

/-! ## Replacing and stripping -/

/-- Replacing a character by nothing removes it. -/
theorem replace_char_nil (c : Char) (s : Str) : replace [c] [] s = s.filter (· ≠ c) := by
  unfold replace
  induction s with
  | nil => rfl
  | cons x t ih =>
    by_cases hx : x = c
    · subst hx; simpa [replaceGo] using ih
    · simpa [replaceGo, hx, Ne.symm hx] using ih

theorem replace_char {c : Char} {new s : Str} : replace [c] new s = s.flatMap (fun x => if x = c then new else [x]) := by
  unfold replace
  induction s with
  | nil => rfl
  | cons x t ih =>
    by_cases hx : x = c
    · subst hx; simpa [replaceGo] using ih
    · simpa [replaceGo, hx, Ne.symm hx] using ih

theorem replace_absent {c : Char} {new s : Str} (h : c ∉ s) : replace [c] new s = s := by
  rw [replace_char]
  induction s with
  | nil => rfl
  | cons x t ih =>
    simp only [List.mem_cons, not_or] at h
    rw [List.flatMap_cons, ih h.2, if_neg (Ne.symm h.1)]; rfl

theorem lstrip_suffix (s : Str) : lstrip s <:+ s := List.dropWhile_suffix _

theorem rstrip_prefix (s : Str) : rstrip s <+: s := by
  have : (s.reverse.dropWhile isSpace) <:+ s.reverse := List.dropWhile_suffix _
  have := List.reverse_prefix.2 this
  simpa [rstrip] using this

theorem strip_infix (s : Str) : strip s <:+: s := (rstrip_prefix _).isInfix.trans (lstrip_suffix s).isInfix

theorem lstrip_id {c : Char} {s : Str} (h : isSpace c = false) : lstrip (c :: s) = c :: s := by
  simp [lstrip, List.dropWhile_cons, h]

theorem rstrip_id {c : Char} {s : Str} (h : isSpace c = false) : rstrip (s ++ [c]) = s ++ [c] := by
  simp [rstrip, List.dropWhile_cons, h]

/-- A text that neither starts nor ends with white space. -/
def Trim (s : Str) : Prop := (∀ c, s.head? = some c → isSpace c = false) ∧ (∀ c, s.getLast? = some c → isSpace c = false)

instance (s : Str) : Decidable (Trim s) :=
  decidable_of_iff ((∀ c ∈ s.head?, isSpace c = false) ∧ (∀ c ∈ s.getLast?, isSpace c = false)) Iff.rfl

theorem lstrip_of_head {s : Str} (h : ∀ c, s.head? = some c → isSpace c = false) : lstrip s = s := by
  cases s with
  | nil => rfl
  | cons c t => exact lstrip_id (h c rfl)

theorem rstrip_of_last {s : Str} (h : ∀ c, s.getLast? = some c → isSpace c = false) : rstrip s = s := by
  rcases List.eq_nil_or_concat s with rfl | ⟨t, c, rfl⟩
  · rfl
  · rw [List.concat_eq_append] at h ⊢; exact rstrip_id (h c (by simp))

theorem Trim.strip {s : Str} (h : Trim s) : strip s = s := by
  unfold Verif.strip
  rw [lstrip_of_head h.1, rstrip_of_last h.2]

/-! ## Partitions -/

theorem partitionS_char {c : Char} : ∀ {a b : Str}, c ∉ a → partitionS [c] (a ++ c :: b) = (a, true, b)
  | [], b, _ => by simp [partitionS]
  | x :: a, b, h => by
    simp only [List.mem_cons, not_or] at h
    simp only [List.cons_append, partitionS, List.isPrefixOf, Bool.and_true]
    rw [if_neg (by simpa using h.1), partitionS_char h.2]

theorem partitionS_absent {sub : Str} : ∀ {s : Str}, ¬ sub <:+: s → partitionS sub s = (s, false, [])
  | [], h => by
    simp only [partitionS]
    rw [if_neg]
    intro hp
    exact h (List.isPrefixOf_iff_prefix.1 hp).isInfix
  | x :: t, h => by
    rw [List.infix_cons_iff, not_or] at h
    simp only [partitionS]
    rw [if_neg (fun hp => h.1 (List.isPrefixOf_iff_prefix.1 hp)), partitionS_absent h.2]

theorem partitionS_eq {sub : Str} : ∀ {s : Str}, sub <:+: s →
    s = (partitionS sub s).1 ++ sub ++ (partitionS sub s).2.2
  | [], h => by
    rw [List.infix_nil] at h; subst h; rfl
  | x :: t, h => by
    simp only [partitionS]
    split
    · rename_i hp
      obtain ⟨r, hr⟩ := List.isPrefixOf_iff_prefix.1 hp
      simp only [List.nil_append]
      rw [← hr]; simp
    · rename_i hp
      rw [List.infix_cons_iff] at h
      rcases h with h | h
      · exact absurd (List.isPrefixOf_iff_prefix.2 h) hp
      · simp only [List.cons_append]
        rw [← partitionS_eq h]

theorem partitionS_fst_prefix (sub s : Str) : (partitionS sub s).1 <+: s := by
  by_cases h : sub <:+: s
  · exact ⟨sub ++ (partitionS sub s).2.2, by rw [← List.append_assoc]; exact (partitionS_eq h).symm⟩
  · rw [partitionS_absent h]; exact List.prefix_refl _

/-! ## Letter case -/

theorem toNat_ofNat_low {n : Nat} (h : n < 0xd800) : (Char.ofNat n).toNat = n := by
  have hv : n.isValidChar := Or.inl h
  unfold Char.ofNat
  rw [dif_pos hv]
  rfl

theorem lowerC_special {c d : Char} (hd : isLowerA d = false) (hu : isUpperA d = false) : lowerC c = d ↔ c = d := by
  unfold lowerC
  by_cases h : isUpperA c = true
  · simp only [h, if_true]
    constructor
    · intro e
      exfalso
      unfold isUpperA at h
      simp only [Bool.and_eq_true, decide_eq_true_eq, Char.le_def] at h
      have h1 : 65 ≤ c.toNat := h.1
      have h2 : c.toNat ≤ 90 := h.2
      have : d.toNat = c.toNat + 32 := by
        rw [← e, toNat_ofNat_low (by omega)]
      unfold isLowerA at hd
      simp only [Bool.and_eq_false_iff, decide_eq_false_iff_not, Char.le_def] at hd
      rcases hd with hd | hd
      · apply hd; change (97 : Nat) ≤ d.toNat; omega
      · apply hd; change d.toNat ≤ (122 : Nat); omega
    · rintro rfl; rw [h] at hu; cases hu
  · simp [h]

theorem lowerC_idem (c : Char) : lowerC (lowerC c) = lowerC c := by
  unfold lowerC
  by_cases h : isUpperA c = true
  · simp only [h, if_true]
    rw [if_neg]
    unfold isUpperA at h ⊢
    simp only [Bool.and_eq_true, decide_eq_true_eq, Char.le_def] at h ⊢
    have h1 : 65 ≤ c.toNat := h.1
    have h2 : c.toNat ≤ 90 := h.2
    have e : (Char.ofNat (c.toNat + 32)).toNat = c.toNat + 32 := by
      rw [toNat_ofNat_low (by omega)]
    rintro ⟨-, h4⟩
    have h4 : (Char.ofNat (c.toNat + 32)).toNat ≤ 90 := h4
    omega
  · simp [h]

theorem lower_idem (s : Str) : lower (lower s) = lower s := by
  simp [lower, lowerC_idem]

theorem lower_append (a b : Str) : lower (a ++ b) = lower a ++ lower b := by simp [lower]

theorem length_lower (s : Str) : (lower s).length = s.length := by simp [lower]

theorem mem_lower_special {d : Char} (hd : isLowerA d = false) (hu : isUpperA d = false) {s : Str} :
    d ∈ lower s ↔ d ∈ s := by
  simp only [lower, List.mem_map]
  constructor
  · rintro ⟨c, hc, e⟩; rw [(lowerC_special hd hu).1 e] at hc; exact hc
  · intro h; exact ⟨d, h, (lowerC_special hd hu).2 rfl⟩

end Verif
