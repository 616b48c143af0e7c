import Verif.Lemmas.Validator
/-
Names as printed in messages can be told apart.
-/

namespace Verif
open Verif.Spec

/-- The value of a hexadecimal digit. -/
def hexVal (c : Char) : Nat := ("0123456789abcdef".toList.idxOf c)

/-- Reads one character of a quoted name. -/
def unshow : Str → Option (Char × Str)
  | '\\' :: 'n' :: r => some ('\n', r)
  | '\\' :: 'r' :: r => some ('\r', r)
  | '\\' :: 't' :: r => some ('\t', r)
  | '\\' :: 'x' :: a :: b :: r => some (Char.ofNat (16 * hexVal a + hexVal b), r)
  | '\\' :: c :: r => some (c, r)
  | c :: r => some (c, r)
  | [] => none

theorem hex_back : ∀ n < 128, 16 * hexVal ("0123456789abcdef".toList.getD (n / 16) '?') + hexVal ("0123456789abcdef".toList.getD (n % 16) '?') = n := by
  decide +kernel

theorem unshow_shown {q : Char} (hq : q = '"' ∨ q = '\'') (c : Char) (r : Str) : unshow (shownChar q c ++ r) = some (c, r) := by
  by_cases h1 : c = '\\'
  · subst h1; rcases hq with rfl | rfl <;> rfl
  by_cases h2 : c = '\n'
  · subst h2; rcases hq with rfl | rfl <;> rfl
  by_cases h3 : c = '\r'
  · subst h3; rcases hq with rfl | rfl <;> rfl
  by_cases h4 : c = '\t'
  · subst h4; rcases hq with rfl | rfl <;> rfl
  rw [shownChar_other h1 h2 h3 h4]
  by_cases e : c = q
  · subst e
    rw [if_pos rfl]
    rcases hq with rfl | rfl <;> rfl
  · rw [if_neg e]
    split
    · rename_i hc
      show some (Char.ofNat (16 * hexVal _ + hexVal _), r) = _
      rw [hex_back _ (by omega), Char.ofNat_toNat]
    · rw [List.singleton_append]
      unfold unshow
      split <;> simp_all

theorem shown_head {q : Char} (hq : q = '"' ∨ q = '\'') (c : Char) : ∃ h t, shownChar q c = h :: t ∧ h ≠ q := by
  have hb : '\\' ≠ q := by rcases hq with rfl | rfl <;> decide
  by_cases h1 : c = '\\'
  · subst h1; exact ⟨_, _, rfl, hb⟩
  by_cases h2 : c = '\n'
  · subst h2; exact ⟨_, _, rfl, hb⟩
  by_cases h3 : c = '\r'
  · subst h3; exact ⟨_, _, rfl, hb⟩
  by_cases h4 : c = '\t'
  · subst h4; exact ⟨_, _, rfl, hb⟩
  rw [shownChar_other h1 h2 h3 h4]
  by_cases e : c = q
  · rw [if_pos e]; exact ⟨_, _, rfl, hb⟩
  · rw [if_neg e]
    split
    · exact ⟨_, _, rfl, hb⟩
    · exact ⟨_, _, rfl, e⟩

theorem shown_inj {q : Char} (hq : q = '"' ∨ q = '\'') {s s' r r' : Str}
    (h : (s.map (shownChar q)).flatten ++ q :: r = (s'.map (shownChar q)).flatten ++ q :: r') : s = s' ∧ r = r' := by
  induction s generalizing s' with
  | nil =>
    cases s' with
    | nil => simp at h; exact ⟨rfl, h⟩
    | cons c s' =>
      obtain ⟨a, t, e, hne⟩ := shown_head hq c
      simp [e] at h
      exact absurd h.1.symm hne
  | cons c s ih =>
    cases s' with
    | nil =>
      obtain ⟨a, t, e, hne⟩ := shown_head hq c
      simp [e] at h
      exact absurd h.1 hne
    | cons d s' =>
      simp only [List.map_cons, List.flatten_cons, List.append_assoc] at h
      have := congrArg unshow h
      rw [unshow_shown hq, unshow_shown hq, Option.some.injEq, Prod.mk.injEq] at this
      obtain ⟨e, h'⟩ := ih this.2
      exact ⟨by rw [this.1, e], h'⟩

theorem showName_inj {s s' r r' : Str} (h : showName s ++ r = showName s' ++ r') : s = s' ∧ r = r' := by
  unfold showName at h
  split at h <;> split at h <;> simp only [List.append_assoc, List.singleton_append, List.cons_append, List.cons.injEq, List.nil_append] at h
  · exact shown_inj (.inl rfl) h.2
  · exact absurd h.1 (by decide)
  · exact absurd h.1 (by decide)
  · exact shown_inj (.inr rfl) h.2

theorem showName_head (s r : Str) : ∃ c t, showName s ++ r = c :: t ∧ c ≠ ']' := by
  unfold showName
  split
  · exact ⟨_, _, rfl, by decide⟩
  · exact ⟨_, _, rfl, by decide⟩

theorem showNames_inj {l l' : List Str} (h : showNames l = showNames l') : l = l' := by
  unfold showNames at h
  simp only [List.append_assoc, List.append_cancel_left_eq] at h
  have key : ∀ (a : Str) (l : List Str) (a' : Str) (l' : List Str),
      (((a :: l).map showName).intersperse [',', ' ']).flatten ++ [']'] = (((a' :: l').map showName).intersperse [',', ' ']).flatten ++ [']'] →
      a :: l = a' :: l' := by
    intro a l
    induction l generalizing a with
    | nil =>
      intro a' l' h
      cases l' with
      | nil =>
        simp only [List.map_cons, List.map_nil, List.intersperse_single, List.flatten_cons, List.flatten_nil, List.append_nil] at h
        rw [(showName_inj h).1]
      | cons b' l' =>
        simp only [List.map_cons, List.map_nil, List.intersperse_single, List.intersperse_cons₂, List.flatten_cons, List.flatten_nil, List.append_nil, List.append_assoc] at h
        exact absurd (showName_inj h).2 (by simp)
    | cons b l ih =>
      intro a' l' h
      cases l' with
      | nil =>
        simp only [List.map_cons, List.map_nil, List.intersperse_single, List.intersperse_cons₂, List.flatten_cons, List.flatten_nil, List.append_nil, List.append_assoc] at h
        exact absurd (showName_inj h).2 (by simp)
      | cons b' l' =>
        simp only [List.map_cons, List.intersperse_cons₂, List.flatten_cons, List.append_assoc] at h
        obtain ⟨e, h⟩ := showName_inj h
        rw [List.append_cancel_left_eq] at h
        rw [e, ih b b' l' (by simpa using h)]
  cases l with
  | nil =>
    cases l' with
    | nil => rfl
    | cons a l' =>
      exfalso
      cases l' with
      | nil =>
        simp only [List.map_cons, List.map_nil, List.intersperse_single, List.flatten_cons, List.flatten_nil, List.append_nil, List.intersperse_nil, List.nil_append] at h
        obtain ⟨c, t, e, hne⟩ := showName_head a [']']
        rw [e] at h; simp at h; exact hne h.1.symm
      | cons b l' =>
        simp only [List.map_cons, List.map_nil, List.intersperse_cons₂, List.flatten_cons, List.flatten_nil, List.intersperse_nil, List.nil_append, List.append_assoc] at h
        obtain ⟨c, t, e, hne⟩ := showName_head a ([',', ' '] ++ ((List.intersperse [',', ' '] (showName b :: List.map showName l')).flatten ++ [']']))
        rw [e] at h; simp at h; exact hne h.1.symm
  | cons a l =>
    cases l' with
    | nil =>
      exfalso
      cases l with
      | nil =>
        simp only [List.map_cons, List.map_nil, List.intersperse_single, List.flatten_cons, List.flatten_nil, List.append_nil, List.intersperse_nil, List.nil_append] at h
        obtain ⟨c, t, e, hne⟩ := showName_head a [']']
        rw [e] at h; simp at h; exact hne h.1
      | cons b l' =>
        simp only [List.map_cons, List.map_nil, List.intersperse_cons₂, List.flatten_cons, List.flatten_nil, List.intersperse_nil, List.nil_append, List.append_assoc] at h
        obtain ⟨c, t, e, hne⟩ := showName_head a ([',', ' '] ++ ((List.intersperse [',', ' '] (showName b :: List.map showName l')).flatten ++ [']']))
        rw [e] at h; simp at h; exact hne h.1
    | cons a' l' => exact key a l a' l' h

end Verif
