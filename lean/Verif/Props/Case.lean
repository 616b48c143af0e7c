import Verif.Generator
import Verif.Spec.Case
import Verif.Lemmas.Script
import Mathlib.Tactic.IntervalCases
/-
Properties C22, C23: case options of the generator.
-/

namespace Verif.Props
open Verif Verif.Spec

theorem letters_upper : ∀ p ∈ letters, isUpperA p.1 = true ∧ isLowerA p.2 = true ∧ lowerC p.1 = p.2 ∧ upperC p.2 = p.1 := by decide

theorem lowerC_eq (c : Char) : lowerC c = small c := by
  unfold small
  cases h : letters.find? (fun p => p.1 = c) with
  | some p =>
    have := List.find?_some h
    simp only [decide_eq_true_eq] at this
    rw [← this]
    exact (letters_upper p (List.mem_of_find?_eq_some h)).2.2.1
  | none =>
    have hn := List.find?_eq_none.1 h
    unfold lowerC
    rw [if_neg]
    intro hu
    simp only [isUpperA, Bool.and_eq_true, decide_eq_true_eq] at hu
    have h1 : 65 ≤ c.toNat := hu.1
    have h2 : c.toNat ≤ 90 := hu.2
    have hc : c = Char.ofNat c.toNat := (Char.ofNat_toNat c).symm
    have : ∀ n, 65 ≤ n → n ≤ 90 → ∃ p ∈ letters, p.1 = Char.ofNat n := by
      intro n a b
      interval_cases n <;> decide
    obtain ⟨p, hp, e⟩ := this _ h1 h2
    exact hn p hp (by simp [e])

theorem upperC_eq (c : Char) : upperC c = big c := by
  unfold big
  cases h : letters.find? (fun p => p.2 = c) with
  | some p =>
    have := List.find?_some h
    simp only [decide_eq_true_eq] at this
    rw [← this]
    exact (letters_upper p (List.mem_of_find?_eq_some h)).2.2.2
  | none =>
    have hn := List.find?_eq_none.1 h
    unfold upperC
    rw [if_neg]
    intro hu
    simp only [isLowerA, Bool.and_eq_true, decide_eq_true_eq] at hu
    have h1 : 97 ≤ c.toNat := hu.1
    have h2 : c.toNat ≤ 122 := hu.2
    have : ∀ n, 97 ≤ n → n ≤ 122 → ∃ p ∈ letters, p.2 = Char.ofNat n := by
      intro n a b
      interval_cases n <;> decide
    obtain ⟨p, hp, e⟩ := this _ h1 h2
    exact hn p hp (by simp [e])

theorem small_small (c : Char) : small (small c) = small c := by
  have hk : ∀ p ∈ letters, small p.2 = p.2 := by decide
  cases h : letters.find? (fun p => p.1 = c) with
  | some p =>
    have e : small c = p.2 := by simp [small, h]
    rw [e]; exact hk p (List.mem_of_find?_eq_some h)
  | none =>
    have e : small c = c := by simp [small, h]
    rw [e, e]

theorem big_big (c : Char) : big (big c) = big c := by
  have hk : ∀ p ∈ letters, big p.1 = p.1 := by decide
  cases h : letters.find? (fun p => p.2 = c) with
  | some p =>
    have e : big c = p.1 := by simp [big, h]
    rw [e]; exact hk p (List.mem_of_find?_eq_some h)
  | none =>
    have e : big c = c := by simp [big, h]
    rw [e, e]

theorem lower_eq (s : Str) : lower s = s.map small := List.map_congr_left (fun c _ => lowerC_eq c)
theorem upper_eq (s : Str) : upper s = s.map big := List.map_congr_left (fun c _ => upperC_eq c)

/-! ## C22 -/

/-- C22.  Precedence lower, upper, camel; the default schema is exempt; nothing raises unless camel case is chosen. -/
theorem C22_case_options (o : GenOpts) (s : Str) :
    toCase o c!"falcon_default_schema" = .ok c!"falcon_default_schema" ∧
    (s ≠ c!"falcon_default_schema" →
      (o.lowercase = true → toCase o s = .ok (s.map small)) ∧
      (o.lowercase = false → o.uppercase = true → toCase o s = .ok (s.map big)) ∧
      (o.lowercase = false → o.uppercase = false → o.camelcase = true → toCase o s = toCamel s) ∧
      (o.lowercase = false → o.uppercase = false → o.camelcase = false → toCase o s = .ok s)) := by
  refine ⟨by simp [toCase, defaultSchema], fun hs => ⟨?_, ?_, ?_, ?_⟩⟩
  · intro h; rw [← lower_eq]; simp [toCase, defaultSchema, hs, h]
  · intro h h'; rw [← upper_eq]; simp [toCase, defaultSchema, hs, h, h']
  · intro h h' h''; simp [toCase, defaultSchema, hs, h, h', h'']
  · intro h h' h''; simp [toCase, defaultSchema, hs, h, h', h'']

/-- C22.  With lower or upper case (or neither and no camel case), applying the options to a generated name changes nothing. -/
theorem C22_idempotent (o : GenOpts) (s s' : Str) (ho : o.lowercase = true ∨ o.uppercase = true ∨ o.camelcase = false)
    (h : toCase o s = .ok s') : toCase o s' = .ok s' := by
  by_cases hs' : s' = c!"falcon_default_schema"
  · rw [hs']; exact (C22_case_options o []).1
  · by_cases hs : s = c!"falcon_default_schema"
    · rw [hs, (C22_case_options o []).1] at h
      cases h; exact absurd rfl hs'
    · have a := (C22_case_options o s).2 hs
      have b := (C22_case_options o s').2 hs'
      cases hl : o.lowercase with
      | true =>
        rw [a.1 hl] at h; cases h
        rw [b.1 hl, List.map_map]
        congr 2; funext c; exact small_small c
      | false =>
        cases hu : o.uppercase with
        | true =>
          rw [a.2.1 hl hu] at h; cases h
          rw [b.2.1 hl hu, List.map_map]
          congr 2; funext c; exact big_big c
        | false =>
          have hc : o.camelcase = false := by simpa [hl, hu] using ho
          exact b.2.2.2 hl hu hc

example : toCase { uppercase := true, lowercase := true } c!"My_Table1" = .ok c!"my_table1" ∧
    toCase { uppercase := true, camelcase := true } c!"My_Table1" = .ok c!"MY_TABLE1" := by decide

/-! ## C23 -/

/-- A word of a snake-case name. -/
def Word (w : Str) : Prop := w ≠ [] ∧ '_' ∉ w

theorem camelTail_plain {w : Str} (h : '_' ∉ w) (r : Str) : camelTail (w ++ r) = w ++ camelTail r := by
  induction w with
  | nil => rfl
  | cons c w ih =>
    simp only [List.mem_cons, not_or] at h
    rw [List.cons_append, camelTail.eq_def]; simp [Ne.symm h.1, ih h.2]

theorem camelTail_snake {ws : List Str} (h : ∀ w ∈ ws, Word w) (hne : ws ≠ []) :
    camelTail ('_' :: snake ws) = ws.flatMap capitalised := by
  induction ws with
  | nil => exact absurd rfl hne
  | cons w ws ih =>
    obtain ⟨h1, h2⟩ := h w (by simp)
    cases w with
    | nil => exact absurd rfl h1
    | cons c w =>
      simp only [List.mem_cons, not_or] at h2
      cases ws with
      | nil =>
        have := camelTail_plain h2.2 []
        simp only [List.append_nil] at this
        simp [snake, camelTail, this, capitalised, upperC_eq]
      | cons v ws =>
        have e : snake ((c :: w) :: v :: ws) = c :: (w ++ '_' :: snake (v :: ws)) := rfl
        rw [e, camelTail, if_neg (by simp), upperC_eq]
        simp only [camelTail_plain h2.2, ih (fun x hx => h x (by simp [hx])) (by simp), List.flatMap_cons, capitalised,
          List.cons_append]

theorem snake_ends {ws : List Str} (h : ∀ w ∈ ws, Word w) (hne : ws ≠ []) :
    (∃ c t, snake ws = c :: t ∧ c ≠ '_') ∧ (∃ c t, snake ws = t ++ [c] ∧ c ≠ '_') := by
  induction ws with
  | nil => exact absurd rfl hne
  | cons w ws ih =>
    obtain ⟨h1, h2⟩ := h w (by simp)
    obtain ⟨c, t, hw⟩ : ∃ c t, w = c :: t := by cases w with | nil => exact absurd rfl h1 | cons c t => exact ⟨c, t, rfl⟩
    have hc : c ≠ '_' := by rintro rfl; exact h2 (by simp [hw])
    cases ws with
    | nil =>
      refine ⟨⟨c, t, by simp [snake, hw], hc⟩, ⟨w.getLast h1, w.dropLast, by simp [snake, List.dropLast_append_getLast], ?_⟩⟩
      intro e
      exact h2 (e ▸ List.getLast_mem h1)
    | cons v ws =>
      obtain ⟨-, d, u, e, hd⟩ := ih (fun x hx => h x (by simp [hx])) (by simp)
      refine ⟨⟨c, t ++ '_' :: snake (v :: ws), by simp [snake, hw], hc⟩, ⟨d, w ++ '_' :: u, by simp [snake, e], hd⟩⟩

theorem dropWhile_nil_iff {α : Type} {p : α → Bool} {l : List α} : l.dropWhile p = [] ↔ ∀ c ∈ l, p c = true := by
  induction l with
  | nil => simp
  | cons a l ih =>
    rw [List.dropWhile_cons]
    split
    · simp_all
    · simp_all

theorem dropWhile_replicate {x : Char} {a : Nat} {c : Char} {t : Str} (h : c ≠ x) :
    (List.replicate a x ++ c :: t).dropWhile (· == x) = c :: t := by
  induction a with
  | zero => simp [List.dropWhile_cons, h]
  | succ a ih => rw [List.replicate_succ, List.cons_append, List.dropWhile_cons]; simpa using ih

theorem strip_pad {s : Str} {a b : Nat} (h1 : ∃ c t, s = c :: t ∧ c ≠ '_') (h2 : ∃ c t, s = t ++ [c] ∧ c ≠ '_') :
    stripChars (· == '_') (List.replicate a '_' ++ s ++ List.replicate b '_') = s := by
  obtain ⟨c, t, e, hc⟩ := h1
  obtain ⟨d, u, e', hd⟩ := h2
  unfold stripChars
  rw [e, List.append_assoc, List.cons_append, dropWhile_replicate hc, ← List.cons_append, ← e, e']
  have : (u ++ [d] ++ List.replicate b '_').reverse = List.replicate b '_' ++ d :: u.reverse := by simp
  rw [this, dropWhile_replicate hd]
  simp

/-- C23.  A snake-case name, with any padding of underscores, becomes the concatenation of its capitalised words; a second
application changes nothing. -/
theorem C23_camel_case (a b : Nat) (ws : List Str) (h : ∀ w ∈ ws, Word w) (hne : ws ≠ []) :
    toCamel (List.replicate a '_' ++ snake ws ++ List.replicate b '_') = .ok (ws.flatMap capitalised) ∧
    toCamel (ws.flatMap capitalised) = .ok (ws.flatMap capitalised) := by
  have key : ∀ (a b : Nat) (ws : List Str), (∀ w ∈ ws, Word w) → ws ≠ [] →
      toCamel (List.replicate a '_' ++ snake ws ++ List.replicate b '_') = .ok (ws.flatMap capitalised) := by
    intro a b ws h hne
    obtain ⟨h1, h2⟩ := snake_ends h hne
    unfold toCamel
    rw [strip_pad h1 h2]
    obtain ⟨c, t, e, -⟩ := h1
    rw [e]
    have := camelTail_snake h hne
    rw [e, camelTail, if_neg (by simp)] at this
    simpa using this
  refine ⟨key a b ws h hne, ?_⟩
  have hb : ∀ c, c ≠ '_' → big c ≠ '_' := by
    intro c hc
    unfold big
    have : ∀ p ∈ letters, p.1 ≠ '_' := by decide
    split
    · rename_i p hp; exact this p (List.mem_of_find?_eq_some hp)
    · exact hc
  have hw : Word (ws.flatMap capitalised) := by
    constructor
    · cases ws with
      | nil => exact absurd rfl hne
      | cons w ws =>
        obtain ⟨h1, -⟩ := h w (by simp)
        cases w with
        | nil => exact absurd rfl h1
        | cons c w => simp [capitalised]
    · intro hm
      obtain ⟨w, hw, hm⟩ := List.mem_flatMap.1 hm
      obtain ⟨h1, h2⟩ := h w hw
      cases w with
      | nil => exact absurd rfl h1
      | cons c w =>
        simp only [List.mem_cons, not_or] at h2
        rcases List.mem_cons.1 hm with e | hm
        · exact hb c (Ne.symm h2.1) e.symm
        · exact h2.2 hm
  have := key 0 0 [ws.flatMap capitalised] (by simpa using hw) (by simp)
  simp only [List.replicate_zero, List.nil_append, List.append_nil, snake, List.flatMap_cons, List.flatMap_nil] at this
  rw [this]
  congr 1
  obtain ⟨w, ws', rfl⟩ : ∃ w ws', ws = w :: ws' := by cases ws with | nil => exact absurd rfl hne | cons w ws' => exact ⟨w, ws', rfl⟩
  obtain ⟨h1, -⟩ := h w (by simp)
  cases w with
  | nil => exact absurd rfl h1
  | cons c w => simp [capitalised, big_big]

/-- C23.  `to_camel` raises exactly on names made of underscores only (among them the empty name), with `IndexError`. -/
theorem C23_raises_exactly (s : Str) :
    (toCamel s = .error .index ↔ ∀ c ∈ s, c = '_') ∧ ((∃ r, toCamel s = .ok r) ↔ ∃ c ∈ s, c ≠ '_') := by
  have hstrip : stripChars (· == '_') s = [] ↔ ∀ c ∈ s, c = '_' := by
    unfold stripChars
    rw [List.reverse_eq_nil_iff, dropWhile_nil_iff]
    constructor
    · intro h c hc
      by_contra hne
      have : s.dropWhile (· == '_') = [] := by
        cases hd : s.dropWhile (· == '_') with
        | nil => rfl
        | cons x l =>
          have h1 := h x (by simp [hd])
          have h2 := List.head?_dropWhile_not (· == '_') s
          rw [hd] at h2
          simp only [List.head?_cons] at h2
          rw [h1] at h2; cases h2
      rw [dropWhile_nil_iff] at this
      exact hne (by simpa using this c hc)
    · intro h x hx
      have := (List.dropWhile_suffix (· == '_')).subset (List.mem_reverse.1 hx)
      simpa using h x this
  have e1 : toCamel s = .error .index ↔ ∀ c ∈ s, c = '_' := by
    rw [← hstrip]; unfold toCamel
    cases stripChars (· == '_') s <;> simp
  refine ⟨e1, ?_⟩
  have : (∃ r, toCamel s = .ok r) ↔ toCamel s ≠ .error .index := by
    unfold toCamel
    cases stripChars (· == '_') s <;> simp
  rw [this, Ne, e1]
  push Not
  rfl

/-- Without words in between, underscores survive, and a second application is no longer harmless. -/
theorem C23_consecutive_underscores : toCamel c!"a__b" = .ok c!"A_b" ∧ toCamel c!"A_b" = .ok c!"AB" := by decide

example : Word c!"first" ∧ Word c!"Name" ∧ toCamel c!"__first_Name_" = .ok c!"FirstName" := by
  refine ⟨?_, ?_, by decide⟩ <;> exact ⟨by simp, by decide⟩

end Verif.Props
