import Verif.Parser
import Verif.Lemmas.PyInt
import Verif.Props.Case
/-
C29, C30: conversion of column types.
-/

namespace Verif.Props
open Verif Verif.Spec

/-- The types conversion produces. -/
def converted : List Str :=
  [c!"BIGINT", c!"INT", c!"VARCHAR(0)", c!"BOOL", c!"UNKNOWN", c!"DOUBLE", c!"DATETIME", c!"TIME", c!"DATE"]

theorem head_typeText {d h : Str} (hh : Head d h) : typeText d = lower h := by
  unfold typeText
  congr 1
  cases hh with
  | paren a b ha =>
    rw [if_pos (hasSub_single.2 (by simp)), pySlice_upto ha]
  | blank a b h1 h2 =>
    rw [if_neg (by rw [hasSub_single]; exact h1), if_pos (hasSub_single.2 (by simp)), pySlice_upto h2]
  | whole _ h1 h2 => rw [if_neg (by rw [hasSub_single]; exact h1), if_neg (by rw [hasSub_single]; exact h2)]

theorem head_exists (d : Str) : ∃ h, Head d h := by
  by_cases h1 : ')' ∈ d
  · obtain ⟨a, b, rfl, ha⟩ := split_first h1
    exact ⟨_, .paren a b ha⟩
  · by_cases h2 : ' ' ∈ d
    · obtain ⟨a, b, rfl, ha⟩ := split_first h2
      exact ⟨_, .blank a b h1 ha⟩
    · exact ⟨_, .whole d h1 h2⟩

theorem convertNumber_cases (t : Str) :
    (∃ ty, convertNumber t = .ok ty ∧ ty ∈ converted) ∨ convertNumber t = .error .value := by
  unfold convertNumber
  split
  · dsimp only
    split
    · split
      · split
        · split
          · exact Or.inl ⟨_, rfl, by decide⟩
          · split
            · exact Or.inr rfl
            · split <;> exact Or.inl ⟨_, rfl, by decide⟩
        · exact Or.inl ⟨_, rfl, by decide⟩
      · exact Or.inr rfl
    · exact Or.inl ⟨_, rfl, by decide⟩
  · exact Or.inl ⟨_, rfl, by decide⟩

/-- Conversion without the NUMBER case never fails. -/
theorem convertType_cases (d : Str) :
    (∃ ty, convertType d = .ok ty ∧ ty ∈ converted) ∨
    ((∀ k ∈ beforeNumber, ¬ k <:+: typeText d) ∧ c!"number" <:+: typeText d ∧ convertType d = convertNumber (typeText d)) := by
  by_cases h1 : (hasSub c!"int" (typeText d)) = true
  · exact Or.inl ⟨_, if_pos h1, by decide⟩
  by_cases h2 : (hasSub c!"rowversion" (typeText d)) = true
  · exact Or.inl ⟨_, (if_neg h1).trans (if_pos h2), by decide⟩
  by_cases h3 : (hasSub c!"uniqueidentifier" (typeText d)) = true
  · exact Or.inl ⟨_, (if_neg h1).trans ((if_neg h2).trans (if_pos h3)), by decide⟩
  by_cases h4 : (hasSub c!"sysname" (typeText d)) = true
  · exact Or.inl ⟨_, (if_neg h1).trans ((if_neg h2).trans ((if_neg h3).trans (if_pos h4))), by decide⟩
  by_cases h5 : (hasSub c!"serial" (typeText d)) = true
  · exact Or.inl ⟨_, (if_neg h1).trans ((if_neg h2).trans ((if_neg h3).trans ((if_neg h4).trans (if_pos h5)))), by decide⟩
  by_cases h6 : (hasSub c!"bit" (typeText d)) = true
  · exact Or.inl ⟨_, (if_neg h1).trans ((if_neg h2).trans ((if_neg h3).trans ((if_neg h4).trans ((if_neg h5).trans (if_pos h6))))), by decide⟩
  by_cases h7 : (hasSub c!"blob" (typeText d) || hasSub c!"binary" (typeText d)) = true
  · exact Or.inl ⟨_, (if_neg h1).trans ((if_neg h2).trans ((if_neg h3).trans ((if_neg h4).trans ((if_neg h5).trans ((if_neg h6).trans (if_pos h7)))))), by decide⟩
  by_cases h8 : hasSub c!"number" (typeText d) = true
  · refine Or.inr ⟨?_, hasSub_iff.1 h8, (if_neg h1).trans ((if_neg h2).trans ((if_neg h3).trans ((if_neg h4).trans ((if_neg h5).trans ((if_neg h6).trans ((if_neg h7).trans (if_pos h8)))))))⟩
    rw [Bool.or_eq_true, not_or] at h7
    rw [hasSub_iff] at h1 h2 h3 h4 h5 h6 h7
    rw [hasSub_iff] at h7
    simp only [beforeNumber, List.mem_cons, List.not_mem_nil, or_false]
    rintro k (rfl | rfl | rfl | rfl | rfl | rfl | rfl | rfl)
    · exact h1
    · exact h2
    · exact h3
    · exact h4
    · exact h5
    · exact h6
    · exact h7.1
    · exact h7.2
  refine Or.inl ?_
  by_cases h9 : (hasSub c!"decimal" (typeText d) || hasSub c!"numeric" (typeText d) || hasSub c!"float" (typeText d) || hasSub c!"double" (typeText d) || hasSub c!"money" (typeText d) || hasSub c!"real" (typeText d)) = true
  · exact ⟨_, (if_neg h1).trans ((if_neg h2).trans ((if_neg h3).trans ((if_neg h4).trans ((if_neg h5).trans ((if_neg h6).trans ((if_neg h7).trans ((if_neg h8).trans (if_pos h9)))))))), by decide⟩
  by_cases h10 : (hasSub c!"datetime" (typeText d)) = true
  · exact ⟨_, (if_neg h1).trans ((if_neg h2).trans ((if_neg h3).trans ((if_neg h4).trans ((if_neg h5).trans ((if_neg h6).trans ((if_neg h7).trans ((if_neg h8).trans ((if_neg h9).trans (if_pos h10))))))))), by decide⟩
  by_cases h11 : (hasSub c!"timestamp" (typeText d)) = true
  · exact ⟨_, (if_neg h1).trans ((if_neg h2).trans ((if_neg h3).trans ((if_neg h4).trans ((if_neg h5).trans ((if_neg h6).trans ((if_neg h7).trans ((if_neg h8).trans ((if_neg h9).trans ((if_neg h10).trans (if_pos h11)))))))))), by decide⟩
  by_cases h12 : (hasSub c!"time" (typeText d)) = true
  · exact ⟨_, (if_neg h1).trans ((if_neg h2).trans ((if_neg h3).trans ((if_neg h4).trans ((if_neg h5).trans ((if_neg h6).trans ((if_neg h7).trans ((if_neg h8).trans ((if_neg h9).trans ((if_neg h10).trans ((if_neg h11).trans (if_pos h12))))))))))), by decide⟩
  by_cases h13 : (hasSub c!"date" (typeText d)) = true
  · exact ⟨_, (if_neg h1).trans ((if_neg h2).trans ((if_neg h3).trans ((if_neg h4).trans ((if_neg h5).trans ((if_neg h6).trans ((if_neg h7).trans ((if_neg h8).trans ((if_neg h9).trans ((if_neg h10).trans ((if_neg h11).trans ((if_neg h12).trans (if_pos h13)))))))))))), by decide⟩
  by_cases h14 : (hasSub c!"bool" (typeText d)) = true
  · exact ⟨_, (if_neg h1).trans ((if_neg h2).trans ((if_neg h3).trans ((if_neg h4).trans ((if_neg h5).trans ((if_neg h6).trans ((if_neg h7).trans ((if_neg h8).trans ((if_neg h9).trans ((if_neg h10).trans ((if_neg h11).trans ((if_neg h12).trans ((if_neg h13).trans (if_pos h14))))))))))))), by decide⟩
  by_cases h15 : (hasSub c!"text" (typeText d)) = true
  · exact ⟨_, (if_neg h1).trans ((if_neg h2).trans ((if_neg h3).trans ((if_neg h4).trans ((if_neg h5).trans ((if_neg h6).trans ((if_neg h7).trans ((if_neg h8).trans ((if_neg h9).trans ((if_neg h10).trans ((if_neg h11).trans ((if_neg h12).trans ((if_neg h13).trans ((if_neg h14).trans (if_pos h15)))))))))))))), by decide⟩
  by_cases h16 : (hasSub c!"long" (typeText d)) = true
  · exact ⟨_, (if_neg h1).trans ((if_neg h2).trans ((if_neg h3).trans ((if_neg h4).trans ((if_neg h5).trans ((if_neg h6).trans ((if_neg h7).trans ((if_neg h8).trans ((if_neg h9).trans ((if_neg h10).trans ((if_neg h11).trans ((if_neg h12).trans ((if_neg h13).trans ((if_neg h14).trans ((if_neg h15).trans (if_pos h16))))))))))))))), by decide⟩
  by_cases h17 : (hasSub c!"enum" (typeText d)) = true
  · exact ⟨_, (if_neg h1).trans ((if_neg h2).trans ((if_neg h3).trans ((if_neg h4).trans ((if_neg h5).trans ((if_neg h6).trans ((if_neg h7).trans ((if_neg h8).trans ((if_neg h9).trans ((if_neg h10).trans ((if_neg h11).trans ((if_neg h12).trans ((if_neg h13).trans ((if_neg h14).trans ((if_neg h15).trans ((if_neg h16).trans (if_pos h17)))))))))))))))), by decide⟩
  by_cases h18 : (hasSub c!"xml" (typeText d)) = true
  · exact ⟨_, (if_neg h1).trans ((if_neg h2).trans ((if_neg h3).trans ((if_neg h4).trans ((if_neg h5).trans ((if_neg h6).trans ((if_neg h7).trans ((if_neg h8).trans ((if_neg h9).trans ((if_neg h10).trans ((if_neg h11).trans ((if_neg h12).trans ((if_neg h13).trans ((if_neg h14).trans ((if_neg h15).trans ((if_neg h16).trans ((if_neg h17).trans (if_pos h18))))))))))))))))), by decide⟩
  by_cases h19 : (hasSub c!"char" (typeText d)) = true
  · exact ⟨_, (if_neg h1).trans ((if_neg h2).trans ((if_neg h3).trans ((if_neg h4).trans ((if_neg h5).trans ((if_neg h6).trans ((if_neg h7).trans ((if_neg h8).trans ((if_neg h9).trans ((if_neg h10).trans ((if_neg h11).trans ((if_neg h12).trans ((if_neg h13).trans ((if_neg h14).trans ((if_neg h15).trans ((if_neg h16).trans ((if_neg h17).trans ((if_neg h18).trans (if_pos h19)))))))))))))))))), by decide⟩
  exact ⟨_, (if_neg h1).trans ((if_neg h2).trans ((if_neg h3).trans ((if_neg h4).trans ((if_neg h5).trans ((if_neg h6).trans ((if_neg h7).trans ((if_neg h8).trans ((if_neg h9).trans ((if_neg h10).trans ((if_neg h11).trans ((if_neg h12).trans ((if_neg h13).trans ((if_neg h14).trans ((if_neg h15).trans ((if_neg h16).trans ((if_neg h17).trans ((if_neg h18).trans (if_neg h19)))))))))))))))))), by decide⟩

/-- The argument list between the first parentheses. -/
theorem numsize_eq {w args : Str} (hw : (w = [] ∧ '(' ∉ args) ∨ ∃ v, w = v ++ ['('] ∧ '(' ∉ v) (hp : ')' ∉ w ++ args) :
    pySlice (w ++ args ++ [')']) (pyFind c!"(" (w ++ args ++ [')']) + 1) (pyFind c!")" (w ++ args ++ [')'])) = args := by
  rw [pyFind_char (b := []) hp]
  rcases hw with ⟨rfl, ha⟩ | ⟨v, rfl, hv⟩
  · rw [pyFind_char_none (by simp [ha])]
    have := pySlice_zero ([] ++ args ++ [')']) args.length
    simpa using this
  · have e : v ++ ['('] ++ args ++ [')'] = v ++ '(' :: (args ++ [')']) := by simp
    rw [e, pyFind_char hv, pySlice_succ]
    have : (v ++ '(' :: (args ++ [')'])).take (v ++ ['('] ++ args).length = (v ++ ['(']) ++ args := by
      rw [← e, List.take_left' rfl]
    rw [this, List.drop_left' (by simp)]

theorem splitC_two {c : Char} {s a b : Str} (h : splitC c s = [a, b]) : s = a ++ c :: b ∧ c ∉ a ∧ c ∉ b := by
  have h1 := joinS_splitC c s
  rw [h] at h1
  refine ⟨by simpa [joinS] using h1.symm, not_mem_splitC (s := s) a (by rw [h]; simp), not_mem_splitC (s := s) b (by rw [h]; simp)⟩

theorem isSpace_comma {l : Str} (h : ∀ c ∈ l, isSpace c = true) : ',' ∉ l := fun hc => absurd (h _ hc) (by decide)

/-- NUMBER types fail for the malformed ones. -/
theorem convertNumber_error {w args : Str} (hw : (w = [] ∧ '(' ∉ args) ∨ ∃ v, w = v ++ ['('] ∧ '(' ∉ v)
    (hp : ')' ∉ w ++ args) : convertNumber (w ++ args ++ [')']) = .error .value ↔ BadArgs args := by
  unfold convertNumber
  rw [if_pos (hasSub_single.2 (by simp))]
  dsimp only
  rw [numsize_eq hw hp]
  have two : ∀ b : Str, strip b = ['0'] ↔ ∃ pre post, (∀ c ∈ pre, isSpace c = true) ∧ (∀ c ∈ post, isSpace c = true) ∧
      b = pre ++ '0' :: post := by
    intro b
    constructor
    · intro h
      obtain ⟨pre, post, h1, h2, e⟩ := strip_decomp b
      exact ⟨pre, post, h1, h2, by rw [h] at e; simpa using e⟩
    · rintro ⟨pre, post, h1, h2, rfl⟩
      have := Verif.strip_pad (s := ['0']) h1 h2 (by decide)
      simpa using this
  by_cases hc : ',' ∈ args
  · rw [if_pos (hasSub_single.2 hc)]
    obtain ⟨a, b, rfl, ha⟩ := split_first hc
    by_cases hb : ',' ∈ b
    · obtain ⟨b1, b2, rfl, hb1⟩ := split_first hb
      have hbad : BadArgs (a ++ ',' :: (b1 ++ ',' :: b2)) := by
        have := BadArgs.many a b1 b2
        simpa using this
      rw [splitC_cons ha, splitC_cons hb1]
      cases hs : splitC ',' b2 with
      | nil => exact absurd hs (splitC_ne_nil _ _)
      | cons x l => simp [hbad]
    · rw [splitC_cons ha, splitC_plain hb]
      dsimp only
      have inv : BadArgs (a ++ ',' :: b) ↔ strip b = ['0'] ∧ a ≠ ['*'] ∧ ¬ IntText a := by
        constructor
        · intro h
          generalize hx : a ++ ',' :: b = x at h
          cases h with
          | many a' b' c' =>
            exfalso
            have h1 := congrArg (splitC ',') hx
            rw [splitC_cons ha, splitC_plain hb, List.append_assoc, List.cons_append, splitC_append, splitC_append] at h1
            have h2 := congrArg List.length h1
            have p1 := List.length_pos_of_ne_nil (splitC_ne_nil ',' a')
            have p2 := List.length_pos_of_ne_nil (splitC_ne_nil ',' b')
            have p3 := List.length_pos_of_ne_nil (splitC_ne_nil ',' c')
            simp only [List.length_cons, List.length_nil, List.length_append] at h2
            omega
          | precision a' pre post h1 h2 h3 h4 h5 =>
            have h6 := congrArg (splitC ',') hx
            have h7 : ',' ∉ pre ++ '0' :: post := by
              simp only [List.mem_append, List.mem_cons, not_or]
              exact ⟨isSpace_comma h2, by decide, isSpace_comma h3⟩
            rw [splitC_cons ha, splitC_plain hb, splitC_cons h1, splitC_plain h7] at h6
            simp only [List.cons.injEq, and_true] at h6
            obtain ⟨rfl, rfl⟩ := h6
            exact ⟨(two _).2 ⟨pre, post, h2, h3, rfl⟩, h4, h5⟩
        · rintro ⟨h1, h2, h3⟩
          obtain ⟨pre, post, h4, h5, rfl⟩ := (two b).1 h1
          exact .precision a pre post ha h4 h5 h2 h3
      rw [inv]
      by_cases h1 : strip b = ['0']
      · rw [if_pos h1]
        by_cases h2 : a = ['*']
        · simp [h2]
        · rw [if_neg h2, ← pyInt_isSome]
          cases h3 : pyInt a with
          | none => simp [h1, h2]
          | some n =>
            dsimp only
            split <;> simp
      · rw [if_neg h1]; simp [h1]
  · rw [if_neg (by rw [hasSub_single]; exact hc)]
    constructor
    · intro h; cases h
    · intro h
      exfalso
      apply hc
      cases h <;> simp

theorem lower_paren {s : Str} : ')' ∈ lower s ↔ ')' ∈ s := mem_lower_special (by decide) (by decide)
theorem lower_open {s : Str} : '(' ∈ lower s ↔ '(' ∈ s := mem_lower_special (by decide) (by decide)

/-! ## C29 -/

/-- C29, first half: conversion returns a type for which the column can be built, or raises `ValueError`. -/
theorem C29_type_is_valid (d n : Str) :
    (∃ ty, convertType d = .ok ty ∧ ty ∈ converted ∧ mkColumn (some n) (some ty) = .ok ⟨n, ty⟩) ∨
      convertType d = .error .value := by
  have key : ∀ ty ∈ converted, mkColumn (some n) (some ty) = .ok ⟨n, ty⟩ := by
    intro ty h
    unfold mkColumn
    dsimp only
    rw [if_neg]
    revert ty
    decide
  rcases convertType_cases d with ⟨ty, h1, h2⟩ | ⟨-, -, h⟩
  · exact Or.inl ⟨ty, h1, h2, key ty h2⟩
  · rw [h]
    rcases convertNumber_cases (typeText d) with ⟨ty, h1, h2⟩ | h1
    · exact Or.inl ⟨ty, h1, h2, key ty h2⟩
    · exact Or.inr h1

theorem no_number_in {k : Str} {s : Str} (hk : ∀ c ∈ k, c ≠ ')') (hne : k ≠ []) : k <:+: s ++ [')'] ↔ k <:+: s := by
  constructor
  · rintro ⟨a, b, e⟩
    rcases List.eq_nil_or_concat b with rfl | ⟨b', x, rfl⟩
    · exfalso
      rcases List.eq_nil_or_concat k with rfl | ⟨k', y, rfl⟩
      · exact hne rfl
      · rw [List.concat_eq_append, List.append_nil, ← List.append_assoc] at e
        have := List.append_inj_right' e rfl
        simp only [List.cons.injEq, and_true] at this
        exact hk y (by simp) this
    · rw [List.concat_eq_append, ← List.append_assoc] at e
      have := List.append_inj_left' e rfl
      exact ⟨a, b', this⟩
  · intro h; exact h.trans ⟨[], [')'], by simp⟩

/-- C29, second half: it raises exactly for a NUMBER with a malformed argument list. -/
theorem C29_raises_exactly (d : Str) : convertType d = .error .value ↔ MalformedNumber d := by
  have kwB : ∀ s : Str, (∀ k ∈ beforeNumber, ¬ k <:+: s ++ [')']) ↔ ∀ k ∈ beforeNumber, ¬ k <:+: s := by
    intro s
    constructor
    · intro h k hk
      rw [← no_number_in (by revert k; decide) (by revert k; decide)]
      exact h k hk
    · intro h k hk
      rw [no_number_in (by revert k; decide) (by revert k; decide)]
      exact h k hk
  constructor
  · intro h
    rcases convertType_cases d with ⟨ty, h1, -⟩ | ⟨h1, h2, h3⟩
    · rw [h1] at h; cases h
    · rw [h3] at h
      obtain ⟨hd, hh⟩ := head_exists d
      have ht := head_typeText hh
      rw [ht] at h h1 h2
      have hpar : ')' ∈ lower hd := by
        by_contra hn
        unfold convertNumber at h
        rw [if_neg (by rw [hasSub_single]; exact hn)] at h
        cases h
      rw [lower_paren] at hpar
      cases hh with
      | blank a b n1 n2 => simp at hpar; simp [hpar] at n1
      | whole _ n1 n2 => exact absurd hpar n1
      | paren a b ha =>
        have split : ∃ w args, a = w ++ args ∧ ((w = [] ∧ '(' ∉ args) ∨ ∃ v, w = v ++ ['('] ∧ '(' ∉ v) := by
          by_cases ho : '(' ∈ a
          · obtain ⟨v, r, rfl, hv⟩ := split_first ho
            exact ⟨v ++ ['('], r, by simp, Or.inr ⟨v, rfl, hv⟩⟩
          · exact ⟨[], a, rfl, Or.inl ⟨rfl, ho⟩⟩
        obtain ⟨w, args, rfl, hw⟩ := split
        have hl : lower (w ++ args ++ [')']) = lower w ++ lower args ++ [')'] := by
          rw [lower_append, lower_append]; rfl
        rw [hl] at h h1 h2
        have hw' : (lower w = [] ∧ '(' ∉ lower args) ∨ ∃ v, lower w = v ++ ['('] ∧ '(' ∉ v := by
          rcases hw with ⟨rfl, ho⟩ | ⟨v, rfl, ho⟩
          · exact Or.inl ⟨rfl, by rw [lower_open]; exact ho⟩
          · exact Or.inr ⟨lower v, by rw [lower_append]; rfl, by rw [lower_open]; exact ho⟩
        have hp : ')' ∉ lower w ++ lower args := by rw [← lower_append, lower_paren]; exact ha
        refine ⟨w, args, .paren (w ++ args) b ha, fun hx => ha (by simp [hx]), hw, ?_, ?_, ?_⟩
        · rw [← lower_eq, lower_append, ← no_number_in (by decide) (by decide)]; exact h2
        · rw [← lower_eq, lower_append, ← kwB]; exact h1
        · rw [← lower_eq, ← convertNumber_error hw' hp]; exact h
  · rintro ⟨w, args, hh, hp, hw, h2, h1, hbad⟩
    have hpw : ')' ∉ w ++ args := by
      generalize hx : w ++ args ++ [')'] = x at hh
      cases hh with
      | paren a b ha => rw [List.append_inj_left' hx rfl]; exact ha
      | blank a b n1 n2 => have := List.append_inj_right' hx rfl; simp at this
      | whole _ n1 n2 => rw [← hx] at n1; simp at n1
    rw [← lower_eq, lower_append] at h1 h2
    rw [← lower_eq] at hbad
    have hl : lower (w ++ args ++ [')']) = lower w ++ lower args ++ [')'] := by
      rw [lower_append, lower_append]; rfl
    have hw' : (lower w = [] ∧ '(' ∉ lower args) ∨ ∃ v, lower w = v ++ ['('] ∧ '(' ∉ v := by
      rcases hw with ⟨rfl, ho⟩ | ⟨v, rfl, ho⟩
      · exact Or.inl ⟨rfl, by rw [lower_open]; exact ho⟩
      · exact Or.inr ⟨lower v, by rw [lower_append]; rfl, by rw [lower_open]; exact ho⟩
    have hp' : ')' ∉ lower w ++ lower args := by rw [← lower_append, lower_paren]; exact hpw
    have ht := head_typeText hh
    rw [hl] at ht
    have hnum := (convertNumber_error hw' hp').2 hbad
    have h1' := (kwB _).2 h1
    have h2' := (no_number_in (k := c!"number") (by decide) (by decide)).2 h2
    rw [← ht] at h1' h2' hnum
    have n1 : ∀ k ∈ beforeNumber, ¬ hasSub k (typeText d) = true := fun k hk => by rw [hasSub_iff]; exact h1' k hk
    have e : convertType d = convertNumber (typeText d) :=
      (if_neg (n1 c!"int" (by decide))).trans <| (if_neg (n1 c!"rowversion" (by decide))).trans <|
      (if_neg (n1 c!"uniqueidentifier" (by decide))).trans <| (if_neg (n1 c!"sysname" (by decide))).trans <|
      (if_neg (n1 c!"serial" (by decide))).trans <| (if_neg (n1 c!"bit" (by decide))).trans <|
      (if_neg (by rw [Bool.or_eq_true, not_or]; exact ⟨n1 c!"blob" (by decide), n1 c!"binary" (by decide)⟩)).trans <|
      if_pos (hasSub_iff.2 h2')
    rw [e, hnum]

example : convertType c!"NUMBER(10,0) NOT NULL" = .ok c!"BIGINT" ∧ convertType c!"Number(a,0)" = .error .value ∧
    convertType c!"NUMBER(1,2,3)" = .error .value := by decide

/-! ## C30 -/

/-- C30: letter case does not matter. -/
theorem C30_case_insensitive (d d' : Str) (h : d.map small = d'.map small) : convertType d = convertType d' := by
  rw [← lower_eq, ← lower_eq] at h
  have key : ∀ x : Str, typeText x = typeText (lower x) := by
    intro x
    obtain ⟨t, ht⟩ := head_exists x
    have : Head (lower x) (lower t) := by
      cases ht with
      | paren a b ha =>
        rw [lower_append, lower_append]
        exact .paren (lower a) (lower b) (by rw [lower_paren]; exact ha)
      | blank a b h1 h2 =>
        rw [lower_append, lower_append]
        refine .blank (lower a) (lower b) ?_ ?_
        · have := (lower_paren (s := a ++ ' ' :: b)).not.2 h1
          rw [lower_append] at this; exact this
        · exact (mem_lower_special (by decide) (by decide)).not.2 h2
      | whole _ h1 h2 => exact .whole _ (lower_paren.not.2 h1) ((mem_lower_special (by decide) (by decide)).not.2 h2)
    rw [head_typeText ht, head_typeText this, lower_idem]
  have : typeText d = typeText d' := by rw [key d, key d', h]
  unfold convertType
  rw [this]

/-- C30: nothing after the first closing parenthesis matters. -/
theorem C30_trailing_text (a b b' : Str) : convertType (a ++ ')' :: b) = convertType (a ++ ')' :: b') := by
  have : typeText (a ++ ')' :: b) = typeText (a ++ ')' :: b') := by
    by_cases ha : ')' ∈ a
    · obtain ⟨a1, a2, rfl, h1⟩ := split_first ha
      have e : ∀ b, a1 ++ ')' :: a2 ++ ')' :: b = a1 ++ ')' :: (a2 ++ ')' :: b) := by simp
      rw [e, e, head_typeText (.paren a1 _ h1), head_typeText (.paren a1 _ h1)]
    · rw [head_typeText (.paren a b ha), head_typeText (.paren a b' ha)]
  unfold convertType
  rw [this]

example : convertType c!"VarChar(20) NOT NULL" = convertType c!"VARCHAR(20) DEFAULT 'int'" := by decide

/-! ## C62 -/

/-- A text of which nothing occurs in `k` adds no occurrence of `k`. -/
theorem infix_append_foreign {k : Str} (hne : k ≠ []) : ∀ {b a : Str}, (∀ c ∈ b, c ∉ k) → (k <:+: a ++ b ↔ k <:+: a)
  | [], a, _ => by simp
  | x :: b, a, h => by
    have e : a ++ x :: b = (a ++ [x]) ++ b := by simp
    rw [e, infix_append_foreign hne (fun c hc => h c (by simp [hc]))]
    constructor
    · rintro ⟨u, v, e⟩
      rcases List.eq_nil_or_concat v with rfl | ⟨v', y, rfl⟩
      · exfalso
        rcases List.eq_nil_or_concat k with rfl | ⟨k', y, rfl⟩
        · exact hne rfl
        · rw [List.concat_eq_append, List.append_nil, ← List.append_assoc] at e
          have := List.append_inj_right' e rfl
          simp only [List.cons.injEq, and_true] at this
          exact h x (by simp) (by simp [this])
      · rw [List.concat_eq_append, ← List.append_assoc] at e
        exact ⟨u, v', List.append_inj_left' e rfl⟩
    · intro h; exact h.trans ⟨[], [x], by simp⟩

/-- Type names and what they become, whatever their arguments. -/
def typeTable : List (Str × Str) :=
  [(c!"INT", c!"BIGINT"), (c!"INTEGER", c!"BIGINT"), (c!"BIGINT", c!"BIGINT"), (c!"SMALLINT", c!"BIGINT"),
   (c!"TINYINT", c!"BIGINT"), (c!"SERIAL", c!"INT"), (c!"ROWVERSION", c!"INT"),
   (c!"DECIMAL", c!"DOUBLE"), (c!"NUMERIC", c!"DOUBLE"), (c!"FLOAT", c!"DOUBLE"), (c!"DOUBLE", c!"DOUBLE"),
   (c!"REAL", c!"DOUBLE"), (c!"MONEY", c!"DOUBLE"),
   (c!"BOOL", c!"BOOL"), (c!"BOOLEAN", c!"BOOL"), (c!"BIT", c!"BOOL"),
   (c!"DATE", c!"DATE"), (c!"TIME", c!"TIME"), (c!"DATETIME", c!"DATETIME"), (c!"DATETIME2", c!"DATETIME"),
   (c!"TIMESTAMP", c!"DATETIME"),
   (c!"CHAR", c!"VARCHAR(0)"), (c!"VARCHAR", c!"VARCHAR(0)"), (c!"VARCHAR2", c!"VARCHAR(0)"),
   (c!"NVARCHAR", c!"VARCHAR(0)"), (c!"TEXT", c!"VARCHAR(0)"), (c!"XML", c!"VARCHAR(0)"), (c!"ENUM", c!"VARCHAR(0)"),
   (c!"LONG", c!"VARCHAR(0)"), (c!"SYSNAME", c!"VARCHAR(0)"), (c!"UNIQUEIDENTIFIER", c!"VARCHAR(0)"),
   (c!"BLOB", c!"UNKNOWN"), (c!"BINARY", c!"UNKNOWN"), (c!"VARBINARY", c!"UNKNOWN"), (c!"GEOMETRY", c!"UNKNOWN")]

/-- No ASCII letter. -/
def letterless (s : Str) : Bool := s.all (fun c => !isLowerA c && !isUpperA c)

theorem lower_letterless {s : Str} (h : letterless s = true) : lower s = s := by
  unfold letterless at h
  rw [List.all_eq_true] at h
  unfold lower
  conv_rhs => rw [← List.map_id s]
  apply List.map_congr_left
  intro c hc
  have := h c hc
  simp only [Bool.and_eq_true, Bool.not_eq_true'] at this
  simp [lowerC, this.2]

/-- The words conversion looks for. -/
def typeWords : List Str :=
  [c!"int", c!"rowversion", c!"uniqueidentifier", c!"sysname", c!"serial", c!"bit", c!"blob", c!"binary", c!"number",
   c!"decimal", c!"numeric", c!"float", c!"double", c!"money", c!"real", c!"datetime", c!"timestamp", c!"time", c!"date",
   c!"bool", c!"text", c!"long", c!"enum", c!"xml", c!"char"]

theorem hasSub_args {w args : Str} (ha : letterless args = true) {k : Str} (hk : k ∈ typeWords) :
    hasSub k (w ++ args) = hasSub k w := by
  rw [Bool.eq_iff_iff, hasSub_iff, hasSub_iff]
  apply infix_append_foreign
  · revert k; decide
  · intro c hc hck
    unfold letterless at ha
    have := List.all_eq_true.1 ha c hc
    have h2 : ∀ k ∈ typeWords, ∀ c ∈ k, isLowerA c = true := by decide
    rw [h2 k hk c hck] at this
    simp at this

theorem typeText_args {w args : Str} (hw : ')' ∉ w) (ha : letterless args = true) (hp : ')' ∉ args) :
    typeText (w ++ '(' :: args ++ [')']) = lower w ++ ('(' :: args ++ [')']) := by
  have := head_typeText (.paren (w ++ '(' :: args) [] (by simp [hw, hp]))
  rw [this, lower_append, lower_append, List.append_assoc]
  congr 1
  have h2 : lower ('(' :: args) = '(' :: args := by
    have := lower_letterless ha
    simp only [lower, List.map_cons] at this ⊢
    rw [this]; rfl
  rw [h2]; rfl

/-- C62, sized types: the arguments of a known type do not matter. -/
theorem C62_sized_types {w ty : Str} (h : (w, ty) ∈ typeTable) (args : Str) (ha : letterless args = true) (hp : ')' ∉ args) :
    convertType w = .ok ty ∧ convertType (w ++ '(' :: args ++ [')']) = .ok ty := by
  have h1 : ∀ p ∈ typeTable, convertType p.1 = .ok p.2 ∧ ')' ∉ p.1 ∧ ' ' ∉ p.1 ∧ hasSub c!"number" (lower p.1) = false := by
    decide
  obtain ⟨e, hpar, hbl, hnum⟩ := h1 _ h
  refine ⟨e, ?_⟩
  have ha' : letterless ('(' :: args ++ [')']) = true := by
    unfold letterless at ha ⊢
    simp only [List.cons_append, List.all_cons, List.all_append, ha]
    decide
  have t1 := typeText_args (w := w) hpar ha hp
  have t2 : typeText w = lower w := head_typeText (.whole w hpar hbl)
  have key : ∀ k ∈ typeWords, hasSub k (lower w ++ ('(' :: args ++ [')'])) = hasSub k (lower w) := fun k hk =>
    hasSub_args ha' hk
  rw [← e]
  unfold convertType
  rw [t1, t2]
  dsimp only at hnum ⊢
  rw [key c!"int" (by decide), key c!"rowversion" (by decide), key c!"uniqueidentifier" (by decide),
    key c!"sysname" (by decide), key c!"serial" (by decide), key c!"bit" (by decide), key c!"blob" (by decide),
    key c!"binary" (by decide), key c!"number" (by decide), key c!"decimal" (by decide), key c!"numeric" (by decide),
    key c!"float" (by decide), key c!"double" (by decide), key c!"money" (by decide), key c!"real" (by decide),
    key c!"datetime" (by decide), key c!"timestamp" (by decide), key c!"time" (by decide), key c!"date" (by decide),
    key c!"bool" (by decide), key c!"text" (by decide), key c!"long" (by decide), key c!"enum" (by decide),
    key c!"xml" (by decide), key c!"char" (by decide), hnum]
  rfl

example : (c!"VARCHAR2", c!"VARCHAR(0)") ∈ typeTable ∧ letterless c!"20, 3" = true := by decide

theorem natToStr_letterless (n : Nat) : letterless (natToStr n) = true := by
  unfold letterless
  rw [List.all_eq_true]
  intro c hc
  have : ∀ c ∈ c!"0123456789", (!isLowerA c && !isUpperA c) = true := by decide
  have h := natToStr_digits n c hc
  simp only [digit, List.contains_eq_mem, decide_eq_true_eq] at h
  exact this c h

theorem natToStr_no {c : Char} (n : Nat) (h : digit c = false) : c ∉ natToStr n := by
  intro hc
  rw [natToStr_digits n c hc] at h
  cases h

theorem convertType_number {args : Str} (ha : letterless args = true) (hp : ')' ∉ args) :
    convertType (c!"NUMBER" ++ '(' :: args ++ [')']) = convertNumber (c!"number(" ++ args ++ [')']) := by
  have t1 := typeText_args (w := c!"NUMBER") (by decide) ha hp
  have ha' : letterless ('(' :: args ++ [')']) = true := by
    unfold letterless at ha ⊢
    simp only [List.cons_append, List.all_cons, List.all_append, ha]
    decide
  have key : ∀ k ∈ typeWords, hasSub k (lower c!"NUMBER" ++ ('(' :: args ++ [')'])) = hasSub k (lower c!"NUMBER") :=
    fun k hk => hasSub_args ha' hk
  unfold convertType
  rw [t1]
  dsimp only
  rw [key c!"int" (by decide), key c!"rowversion" (by decide), key c!"uniqueidentifier" (by decide),
    key c!"sysname" (by decide), key c!"serial" (by decide), key c!"bit" (by decide), key c!"blob" (by decide),
    key c!"binary" (by decide), key c!"number" (by decide)]
  rfl

theorem pySlice_number {args : Str} (hp : ')' ∉ args) :
    pySlice (c!"number(" ++ args ++ [')']) (pyFind c!"(" (c!"number(" ++ args ++ [')']) + 1)
      (pyFind c!")" (c!"number(" ++ args ++ [')'])) = args :=
  numsize_eq (Or.inr ⟨c!"number", rfl, by decide⟩) (by simp [hp])

/-- C62, NUMBER with precision and scale: an integer type exactly if the scale is 0, the small one up to nine digits. -/
theorem C62_number_scale (p s : Nat) :
    convertType (c!"NUMBER" ++ '(' :: (natToStr p ++ ',' :: natToStr s) ++ [')']) =
      .ok (if s = 0 then (if 9 < p then c!"BIGINT" else c!"INT") else c!"DOUBLE") := by
  have hl : letterless (natToStr p ++ ',' :: natToStr s) = true := by
    have h1 := natToStr_letterless p
    have h2 := natToStr_letterless s
    unfold letterless at h1 h2 ⊢
    rw [List.all_append, List.all_cons, h1, h2]; decide
  have hp : ')' ∉ natToStr p ++ ',' :: natToStr s := by
    simp [natToStr_no (c := ')') _ (by decide)]
  rw [convertType_number hl hp]
  unfold convertNumber
  rw [if_pos (hasSub_single.2 (by simp))]
  dsimp only
  rw [pySlice_number hp, if_pos (hasSub_single.2 (by simp)), splitC_cons (natToStr_no _ (by decide)),
    splitC_plain (natToStr_no _ (by decide))]
  dsimp only
  rw [(natToStr_trim s).strip]
  have h0 : natToStr s = ['0'] ↔ s = 0 := by
    constructor
    · intro h
      have := digitsGo_natToStr s
      rw [h] at this
      exact (Option.some.inj this).symm
    · rintro rfl; rfl
  by_cases hs : s = 0
  · rw [if_pos (h0.2 hs), if_pos hs, if_neg]
    · rw [show natToStr p = intToStr (Int.ofNat p) from rfl, pyInt_intToStr]
      dsimp only
      by_cases h9 : 9 < p
      · rw [if_pos h9, if_pos (by simp; omega)]
      · rw [if_neg h9, if_neg (by simp; omega)]
    · intro h
      exact natToStr_no (c := '*') p (by decide) (by rw [h]; simp)
  · rw [if_neg (fun h => hs (h0.1 h)), if_neg hs]

/-- C62, NUMBER with precision only, with scale only, and without arguments. -/
theorem C62_number (p : Nat) :
    convertType (c!"NUMBER" ++ '(' :: natToStr p ++ [')']) = .ok c!"INT" ∧
    convertType c!"NUMBER(*,0)" = .ok c!"BIGINT" ∧ convertType c!"NUMBER" = .ok c!"BIGINT" := by
  refine ⟨?_, by decide, by decide⟩
  rw [convertType_number (natToStr_letterless p) (natToStr_no _ (by decide))]
  unfold convertNumber
  rw [if_pos (hasSub_single.2 (by simp))]
  dsimp only
  rw [pySlice_number (natToStr_no _ (by decide)), if_neg (by rw [hasSub_single]; exact natToStr_no _ (by decide))]

end Verif.Props
