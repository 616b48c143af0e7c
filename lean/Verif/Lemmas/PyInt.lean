import Verif.Lemmas.Text
import Verif.Spec.Types
import Mathlib.Tactic.IntervalCases
/-
Which texts `int` accepts.
-/

namespace Verif
open Verif.Spec

theorem digit_iff (c : Char) : digit c = true ↔ '0' ≤ c ∧ c ≤ '9' := by
  constructor
  · intro h
    simp only [digit, List.contains_eq_mem, List.mem_cons, List.not_mem_nil, or_false, decide_eq_true_eq] at h
    rcases h with rfl | rfl | rfl | rfl | rfl | rfl | rfl | rfl | rfl | rfl <;> decide
  · rintro ⟨h1, h2⟩
    have h1 : 48 ≤ c.toNat := h1
    have h2 : c.toNat ≤ 57 := h2
    have : c = Char.ofNat c.toNat := (Char.ofNat_toNat c).symm
    rw [this]
    generalize c.toNat = n at *
    interval_cases n <;> decide

/-- The texts accepted after a digit. -/
def DigTail (s : Str) : Prop :=
  ∃ (g : Str) (rest : List Str), (∀ c ∈ g, digit c = true) ∧ (∀ r ∈ rest, r ≠ [] ∧ ∀ c ∈ r, digit c = true) ∧
    s = g ++ rest.flatMap ('_' :: ·)

theorem digitsGo_isSome (s : Str) : ∀ acc, ((digitsGo true acc s).isSome = true ↔ DigTail s) ∧
    ((digitsGo false acc s).isSome = true ↔ Digits s) := by
  induction s with
  | nil =>
    intro acc
    refine ⟨?_, ?_⟩
    · simp only [digitsGo, if_true, Option.isSome_some, true_iff]
      exact ⟨[], [], by simp, by simp, by simp⟩
    · simp only [digitsGo, Bool.false_eq_true, if_false, Option.isSome_none, false_iff]
      rintro ⟨g, rest, hg, -, -, e⟩
      cases g with
      | nil => exact hg rfl
      | cons => simp at e
  | cons c t ih =>
    intro acc
    by_cases hd : '0' ≤ c ∧ c ≤ '9'
    · have hc : digit c = true := (digit_iff c).2 hd
      have hc' : c ≠ '_' := by rintro rfl; revert hd; decide
      simp only [digitsGo, hd, and_self, if_true, (ih _).1]
      have key : DigTail t ↔ ∃ (g : Str) (rest : List Str), g ≠ [] ∧ (∀ c ∈ g, digit c = true) ∧
          (∀ r ∈ rest, r ≠ [] ∧ ∀ c ∈ r, digit c = true) ∧ c :: t = g ++ rest.flatMap ('_' :: ·) := by
        constructor
        · rintro ⟨g, rest, h1, h2, e⟩
          exact ⟨c :: g, rest, by simp, by simpa [hc] using h1, h2, by simp [e]⟩
        · rintro ⟨g, rest, hg, h1, h2, e⟩
          cases g with
          | nil => exact absurd rfl hg
          | cons x g =>
            simp only [List.cons_append, List.cons.injEq] at e
            exact ⟨g, rest, fun c hc => h1 c (by simp [hc]), h2, e.2⟩
      refine ⟨?_, key⟩
      rw [key]
      constructor
      · rintro ⟨g, rest, -, h1, h2, e⟩; exact ⟨g, rest, h1, h2, e⟩
      · rintro ⟨g, rest, h1, h2, e⟩
        refine ⟨g, rest, ?_, h1, h2, e⟩
        rintro rfl
        cases rest with
        | nil => simp at e
        | cons r rest => simp only [List.nil_append, List.flatMap_cons, List.cons_append, List.cons.injEq] at e; exact hc' e.1
    · have hc : digit c ≠ true := fun h => hd ((digit_iff c).1 h)
      simp only [digitsGo, hd, if_false]
      refine ⟨?_, ?_⟩
      · by_cases hu : c = '_'
        · simp only [hu, and_self, if_true, (ih _).2]
          constructor
          · rintro ⟨g, rest, h0, h1, h2, e⟩
            refine ⟨[], g :: rest, by simp, ?_, by simp [e]⟩
            intro r hr
            rcases List.mem_cons.1 hr with rfl | hr
            · exact ⟨h0, h1⟩
            · exact h2 r hr
          · rintro ⟨g, rest, h1, h2, e⟩
            cases g with
            | cons x g =>
              simp only [List.cons_append, List.cons.injEq] at e
              exact absurd (h1 x (by simp)) (by rw [← e.1, ← hu]; exact hc)
            | nil =>
              cases rest with
              | nil => simp at e
              | cons r rest =>
                simp only [List.nil_append, List.flatMap_cons, List.cons_append, List.cons.injEq, true_and] at e
                exact ⟨r, rest, (h2 r (by simp)).1, (h2 r (by simp)).2, fun x hx => h2 x (by simp [hx]), e⟩
        · simp only [hu, false_and, if_false, Option.isSome_none, Bool.false_eq_true, false_iff]
          rintro ⟨g, rest, h1, h2, e⟩
          cases g with
          | cons x g =>
            simp only [List.cons_append, List.cons.injEq] at e
            exact absurd (h1 x (by simp)) (by rw [← e.1]; exact hc)
          | nil =>
            cases rest with
            | nil => simp at e
            | cons r rest => simp only [List.nil_append, List.flatMap_cons, List.cons_append, List.cons.injEq] at e; exact hu e.1
      · simp only [Bool.false_eq_true, and_false, if_false, Option.isSome_none, false_iff]
        rintro ⟨g, rest, h0, h1, h2, e⟩
        cases g with
        | nil => exact h0 rfl
        | cons x g =>
          simp only [List.cons_append, List.cons.injEq] at e
          exact absurd (h1 x (by simp)) (by rw [← e.1]; exact hc)

/-- White space around a text. -/
theorem strip_decomp (s : Str) : ∃ pre post, (∀ c ∈ pre, isSpace c = true) ∧ (∀ c ∈ post, isSpace c = true) ∧
    s = pre ++ strip s ++ post := by
  refine ⟨s.takeWhile isSpace, ((lstrip s).reverse.takeWhile isSpace).reverse, ?_, ?_, ?_⟩
  · intro c hc; exact List.all_eq_true.1 (List.all_takeWhile (p := isSpace) (l := s)) c hc
  · intro c hc
    exact List.all_eq_true.1 (List.all_takeWhile (p := isSpace) (l := (lstrip s).reverse)) c (List.mem_reverse.1 hc)
  · have h1 : strip s ++ ((lstrip s).reverse.takeWhile isSpace).reverse = lstrip s := by
      unfold strip rstrip
      rw [← List.reverse_append, List.takeWhile_append_dropWhile, List.reverse_reverse]
    rw [List.append_assoc, h1]
    exact (List.takeWhile_append_dropWhile (p := isSpace) (l := s)).symm

theorem dropWhile_append_all {p : Char → Bool} {pre s : Str} (h : ∀ c ∈ pre, p c = true) :
    (pre ++ s).dropWhile p = s.dropWhile p := by
  induction pre with
  | nil => rfl
  | cons c t ih =>
    rw [List.cons_append, List.dropWhile_cons, if_pos (h c (by simp))]
    exact ih (fun x hx => h x (by simp [hx]))

theorem lstrip_append {pre s : Str} (h : ∀ c ∈ pre, isSpace c = true) : lstrip (pre ++ s) = lstrip s :=
  dropWhile_append_all h

theorem rstrip_append {s post : Str} (h : ∀ c ∈ post, isSpace c = true) : rstrip (s ++ post) = rstrip s := by
  unfold rstrip
  rw [List.reverse_append, dropWhile_append_all (by simpa using h)]

/-- Stripping a text padded with white space. -/
theorem strip_pad {pre s post : Str} (h1 : ∀ c ∈ pre, isSpace c = true) (h2 : ∀ c ∈ post, isSpace c = true) (hs : Trim s) :
    strip (pre ++ s ++ post) = s := by
  unfold strip
  rw [List.append_assoc, lstrip_append h1]
  cases s with
  | nil =>
    rw [List.nil_append]
    have : lstrip post = [] := by
      have := lstrip_append (s := []) h2
      simpa [lstrip] using this
    rw [this]; rfl
  | cons c t => rw [lstrip_of_head (by simpa using hs.1), rstrip_append h2, rstrip_of_last hs.2]

theorem digit_not_space {c : Char} (h : digit c = true) : isSpace c = false := by
  simp only [digit, List.contains_eq_mem, List.mem_cons, List.not_mem_nil, or_false, decide_eq_true_eq] at h
  rcases h with rfl | rfl | rfl | rfl | rfl | rfl | rfl | rfl | rfl | rfl <;> decide

theorem Spec.Digits.chars {s : Str} (h : Digits s) : ∀ c ∈ s, digit c = true ∨ c = '_' := by
  obtain ⟨g, rest, -, h1, h2, rfl⟩ := h
  intro c hc
  simp only [List.mem_append, List.mem_flatMap, List.mem_cons] at hc
  rcases hc with hc | ⟨r, hr, rfl | hc⟩
  · exact Or.inl (h1 c hc)
  · exact Or.inr rfl
  · exact Or.inl ((h2 r hr).2 c hc)

theorem Spec.Digits.ne_nil {s : Str} (h : Digits s) : s ≠ [] := by
  obtain ⟨g, rest, h0, -, -, rfl⟩ := h
  cases g with
  | nil => exact absurd rfl h0
  | cons => simp

theorem Spec.Digits.trim {s sign : Str} (h : Digits s) (hs : sign = [] ∨ sign = ['+'] ∨ sign = ['-']) : Trim (sign ++ s) := by
  have key : ∀ c ∈ sign ++ s, isSpace c = false := by
    intro c hc
    rcases List.mem_append.1 hc with hc | hc
    · rcases hs with rfl | rfl | rfl
      · simp at hc
      · rw [List.mem_singleton.1 hc]; decide
      · rw [List.mem_singleton.1 hc]; decide
    · rcases h.chars c hc with h | rfl
      · exact digit_not_space h
      · decide
  exact ⟨fun c hc => key c (List.mem_of_head? hc), fun c hc => key c (List.mem_of_getLast? hc)⟩

theorem pyInt_isSome (s : Str) : (pyInt s).isSome = true ↔ IntText s := by
  constructor
  · intro h
    obtain ⟨pre, post, h1, h2, e⟩ := strip_decomp s
    unfold pyInt at h
    split at h
    · rename_i t ht
      rw [Option.isSome_map, (digitsGo_isSome t 0).2] at h
      exact ⟨pre, ['-'], t, post, h1, h2, by simp, h, by rw [e, ht]; simp⟩
    · rename_i t ht
      rw [Option.isSome_map, (digitsGo_isSome t 0).2] at h
      exact ⟨pre, ['+'], t, post, h1, h2, by simp, h, by rw [e, ht]; simp⟩
    · rw [Option.isSome_map, (digitsGo_isSome _ 0).2] at h
      exact ⟨pre, [], strip s, post, h1, h2, by simp, h, by simpa using e⟩
  · rintro ⟨pre, sign, ds, post, h1, h2, hs, hd, rfl⟩
    have e : strip (pre ++ sign ++ ds ++ post) = sign ++ ds := by
      rw [List.append_assoc pre sign ds]; exact strip_pad h1 h2 (hd.trim hs)
    unfold pyInt
    rw [e]
    rcases hs with rfl | rfl | rfl
    · rw [List.nil_append]
      cases ds with
      | nil => exact absurd rfl hd.ne_nil
      | cons c t =>
        split
        · rename_i t' ht; cases ht
          rcases hd.chars '-' (by simp) with h | h <;> exact absurd h (by decide)
        · rename_i t' ht; cases ht
          rcases hd.chars '+' (by simp) with h | h <;> exact absurd h (by decide)
        · rw [Option.isSome_map, (digitsGo_isSome _ 0).2]; exact hd
    · simp only [List.singleton_append]
      rw [Option.isSome_map, (digitsGo_isSome _ 0).2]; exact hd
    · simp only [List.singleton_append]
      rw [Option.isSome_map, (digitsGo_isSome _ 0).2]; exact hd

/-! ## Reading a printed number -/

theorem isDigit_iff (c : Char) : c.isDigit = true ↔ digit c = true := by
  rw [digit_iff]
  simp [Char.isDigit, Char.le_def]

theorem digitsGo_value : ∀ (s : Str) (b : Bool) (acc : Nat), (∀ c ∈ s, digit c = true) → (s ≠ [] ∨ b = true) →
    digitsGo b acc s = some (s.foldl (fun a c => a * 10 + (c.toNat - '0'.toNat)) acc)
  | [], b, acc, _, hb => by
    rcases hb with hb | hb
    · exact absurd rfl hb
    · simp [digitsGo, hb]
  | c :: t, b, acc, h, _ => by
    simp only [digitsGo, (digit_iff c).1 (h c (by simp)), and_self, if_true]
    rw [digitsGo_value t true _ (fun x hx => h x (by simp [hx])) (Or.inr rfl)]
    rfl

theorem natToStr_digits (n : Nat) : ∀ c ∈ natToStr n, digit c = true := fun c hc =>
  (isDigit_iff c).1 (Nat.isDigit_of_mem_toDigits (by decide) (by decide) hc)

theorem natToStr_ne_nil (n : Nat) : natToStr n ≠ [] := Nat.toDigits_ne_nil

theorem digitsGo_natToStr (n : Nat) : digitsGo false 0 (natToStr n) = some n := by
  rw [digitsGo_value _ _ _ (natToStr_digits n) (Or.inl (natToStr_ne_nil n))]
  have := Nat.ofDigitChars_ten_toDigits (n := n)
  rw [Nat.ofDigitChars_eq_foldl] at this
  unfold natToStr
  rw [← this]
  congr 1
  rw [this]
  conv_rhs => rw [← this]
  congr 1
  funext a c; omega

theorem natToStr_trim (n : Nat) : Trim (natToStr n) := by
  have key : ∀ c ∈ natToStr n, isSpace c = false := fun c hc => digit_not_space (natToStr_digits n c hc)
  exact ⟨fun c hc => key c (List.mem_of_head? hc), fun c hc => key c (List.mem_of_getLast? hc)⟩

/-- `int(str(n)) == n`. -/
theorem pyInt_intToStr (n : Int) : pyInt (intToStr n) = some n := by
  cases n with
  | ofNat n =>
    simp only [intToStr, pyInt, (natToStr_trim n).strip]
    have h := natToStr_digits n
    have h2 := digitsGo_natToStr n
    cases e : natToStr n with
    | nil => exact absurd e (natToStr_ne_nil n)
    | cons c t =>
      rw [e] at h h2
      have hc := h c (by simp)
      split
      · rename_i ht; cases ht; exact absurd hc (by decide)
      · rename_i ht; cases ht; exact absurd hc (by decide)
      · simp [h2]
  | negSucc n =>
    have ht : Trim ('-' :: natToStr (n + 1)) := by
      have key : ∀ c ∈ '-' :: natToStr (n + 1), isSpace c = false := by
        intro c hc
        rcases List.mem_cons.1 hc with rfl | hc
        · decide
        · exact digit_not_space (natToStr_digits _ c hc)
      exact ⟨fun c hc => key c (List.mem_of_head? hc), fun c hc => key c (List.mem_of_getLast? hc)⟩
    simp only [intToStr, pyInt, ht.strip, digitsGo_natToStr, Option.map_some]
    rfl

end Verif
