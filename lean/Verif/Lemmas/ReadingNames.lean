import Verif.Lemmas.Longest
import Verif.Lemmas.ReadAlter
/-
How names, lists of names and constraints are read, whatever the text is.
-/

namespace Verif
open Spec

theorem written_iff {text n : Str} : Written text n ↔ cleanName text = n := by
  refine ⟨cleanName_written, ?_⟩
  rintro rfl
  obtain ⟨pre, x, rfl, hp, hx⟩ := last_dot text
  obtain ⟨a, b, ha, hb, e⟩ := strip_decomp x
  have ht := trim_strip x
  refine ⟨pre, a, strip x, b, ?_, hp, ha, hb, ?_, ?_, ht.1, ht.2⟩
  · rw [← List.append_assoc a, ← e]
  · unfold cleanName
    rw [splitC_prefixed hp hx, replaces_filter]
  · intro hm
    apply hx
    rw [e]
    simp [hm]

theorem joinS_intercalate {sep : Str} : ∀ l : List Str, joinS sep l = List.intercalate sep l
  | [] => by simp [joinS, List.intercalate]
  | [p] => by simp [joinS, List.intercalate]
  | p :: q :: l => by
    rw [joinS, joinS_intercalate (q :: l)]
    · simp [List.intercalate, List.intersperse]
    · simp

theorem intercalate_splitC (c : Char) (s : Str) : List.intercalate [c] (splitC c s) = s := by
  rw [← joinS_intercalate, joinS_splitC]

theorem columns_iff {text : Str} {ns : List Str} : Columns text ns ↔ cleanNames text = ns := by
  refine ⟨cleanNames_columns, ?_⟩
  rintro rfl
  refine ⟨splitC ',' text, splitC_ne_nil _ _, (intercalate_splitC _ _).symm, ?_⟩
  unfold cleanNames
  rw [List.forall₂_map_right_iff]
  exact List.forall₂_same.2 (fun p hp => ⟨written_iff.2 rfl, not_mem_splitC p hp⟩)

/-- The beginning of a text up to a character. -/
theorem headD_iff {c : Char} {s y : Str} : (splitC c s).headD [] = y ↔ ∃ z, s = y ++ z ∧ c ∉ y ∧ ∀ x, z.head? = some x → x = c := by
  constructor
  · rintro rfl
    by_cases h : c ∈ s
    · obtain ⟨a, b, rfl, ha⟩ := split_first h
      refine ⟨c :: b, ?_, ?_, ?_⟩
      · rw [splitC_cons ha]; rfl
      · rw [splitC_cons ha]; exact ha
      · intro x hx
        exact (Option.some.inj hx).symm
    · rw [splitC_plain h]
      exact ⟨[], by simp, h, by simp⟩
  · rintro ⟨z, rfl, hy, hz⟩
    apply splitC_first hy
    cases z with
    | nil => exact .inl rfl
    | cons x z => exact .inr ⟨z, by rw [hz x rfl]⟩

theorem namesTable_iff {text n : Str} : NamesTable text n ↔ extractTableName text = some n := by
  constructor
  · intro h
    cases h with
    | @quoted pre q y z n hp hd hq hy hz hw =>
      unfold extractTableName
      rw [splitC_prefixed hp hd]
      have hh := headD_iff.2 ⟨z, rfl, hy, hz⟩
      have : q = '"' ∨ q = '\'' := by simpa using hq
      rcases this with rfl | rfl
      · simp only [List.cons_append, extractName]
        rw [hh, Option.map_some, cleanName_written hw]
      · simp only [List.cons_append, extractName]
        rw [hh, Option.map_some, cleanName_written hw]
    | @plain pre y z n hp hd hne hq hy hz hw =>
      unfold extractTableName
      rw [splitC_prefixed hp hd]
      have hh := headD_iff.2 ⟨z, rfl, hy, hz⟩
      generalize y ++ z = s at hne hq hh ⊢
      cases s with
      | nil => exact absurd rfl hne
      | cons c s =>
        have hc : c ∉ c!"\"'" := hq c rfl
        rw [extractName_plain (by rintro rfl; exact hc (by decide)) (by rintro rfl; exact hc (by decide)), hh, Option.map_some, cleanName_written hw]
  · intro h
    obtain ⟨pre, s, rfl, hp, hd⟩ := last_dot text
    unfold extractTableName at h
    rw [splitC_prefixed hp hd] at h
    cases s with
    | nil => cases h
    | cons c s =>
      by_cases hc : c = '"' ∨ c = '\''
      · have he : extractName (c :: s) = some ((splitC c s).headD []) := by rcases hc with rfl | rfl <;> rfl
        rw [he, Option.map_some, Option.some.injEq] at h
        obtain ⟨z, e, hy, hz⟩ := headD_iff.1 (rfl : (splitC c s).headD [] = _)
        generalize (splitC c s).headD [] = y at h e hy
        subst e
        exact .quoted hp hd (by rcases hc with rfl | rfl <;> decide) hy hz (written_iff.2 h)
      · have hc' := not_or.1 hc
        rw [extractName_plain hc'.1 hc'.2, Option.map_some, Option.some.injEq] at h
        obtain ⟨z, e, hy, hz⟩ := headD_iff.1 (rfl : (splitC ' ' (c :: s)).headD [] = _)
        generalize (splitC ' ' (c :: s)).headD [] = y at h e hy
        rw [e] at hd ⊢
        refine .plain hp hd ?_ ?_ hy hz (written_iff.2 h)
        · rw [← e]; simp
        · rw [← e]
          intro x hx
          simp only [List.head?_cons, Option.some.injEq] at hx
          subst hx
          simpa using hc

theorem noName_iff {text : Str} : extractTableName text = none ↔ ∀ n, ¬ NamesTable text n := by
  cases h : extractTableName text with
  | none =>
    simp only [true_iff]
    intro n hn
    rw [namesTable_iff, h] at hn
    cases hn
  | some n => simp [namesTable_iff, h]

theorem dropWhile_pads {p : Char → Bool} : ∀ {a s : Str}, (∀ c ∈ a, p c = true) → (a ++ s).dropWhile p = s.dropWhile p
  | [], _, _ => rfl
  | x :: a, s, h => by
    rw [List.cons_append, List.dropWhile_cons, if_pos (h x (by simp)), dropWhile_pads (fun c hc => h c (by simp [hc]))]

theorem shorn_iff {p : Char → Bool} {s t : Str} : Shorn p s t ↔ stripChars p s = t := by
  constructor
  · rintro ⟨⟨a, b, rfl, hab⟩, h1, h2⟩
    have hb : ∀ c ∈ b, p c = true := fun c hc => hab c (by simp [hc])
    unfold stripChars
    rw [dropWhile_pads (fun c hc => hab c (by simp [hc]))]
    cases t with
    | nil =>
      rw [List.nil_append, show b.dropWhile p = [] by simpa using dropWhile_pads (s := []) hb]
      rfl
    | cons c t =>
      rw [List.cons_append, List.dropWhile_cons, if_neg (by rw [h1 c rfl]; decide), ← List.cons_append, List.reverse_append,
        dropWhile_pads (by simpa using hb)]
      have := stripChars_id h1 h2
      unfold stripChars at this
      rw [List.dropWhile_cons, if_neg (by rw [h1 c rfl]; decide)] at this
      exact this
  · rintro rfl
    obtain ⟨a, b, e, hab⟩ := stripChars_pad p s
    refine ⟨⟨a, b, e, hab⟩, ?_, ?_⟩
    · intro c hc
      have hpre : stripChars p s <+: s.dropWhile p := by
        unfold stripChars
        rw [← List.reverse_suffix, List.reverse_reverse]
        exact List.dropWhile_suffix _
      obtain ⟨u, hu⟩ := hpre
      have := List.head?_dropWhile_not p s
      rw [← hu, List.head?_append, hc] at this
      simpa using this
    · intro c hc
      unfold stripChars at hc
      rw [List.getLast?_reverse] at hc
      have := List.head?_dropWhile_not p (s.dropWhile p).reverse
      rw [hc] at this
      simpa using this

theorem shaved_iff {s t : Str} : Shaved s t ↔ strip (stripChars (· == ';') (stripChars (· == ',') (strip s))) = t := by
  have hs : ∀ s, strip s = stripChars isSpace s := fun _ => rfl
  unfold Shaved
  simp only [shorn_iff, hs]
  constructor
  · rintro ⟨x, y, z, rfl, rfl, rfl, h⟩; exact h
  · intro h; exact ⟨_, _, _, rfl, rfl, rfl, h⟩

theorem lacks_lower {w s : Str} : Lacks w s ↔ ¬ w <:+: lower s := by rw [Lacks, small_lower]

/-- `re.split` at a word. -/
theorem wordCut_iff {w : Str} (hw : w ≠ []) (hl : lower w = w) {s : Str} {l : List Str} : WordCut w s l ↔ splitCi w s = l := by
  have fwd : ∀ {s l}, WordCut w s l → splitCi w s = l := by
    intro s l h
    induction h with
    | last h => exact splitCi_absent (by rw [hl]; exact lacks_lower.1 h)
    | @more p kw r l hk hn _ ih =>
      have hk' : lower kw = lower w := keyword_lower hk hl
      have hkl : kw.length = w.length := by rw [← length_lower kw, hk', length_lower]
      rw [← List.append_assoc, splitCi_first hw hk' ?_, ih]
      intro y z e hz hp
      rw [hl] at hp
      apply hn
      rw [small_lower]
      have hlen : w.length ≤ (z ++ kw).dropLast.length := by
        have := List.length_pos_iff.2 hz
        simp only [List.length_dropLast, List.length_append]
        omega
      have h1 : w <+: lower (z ++ kw).dropLast := by
        have h2 : lower (z ++ kw).dropLast <+: lower (z ++ kw ++ r) := by
          unfold lower
          exact List.IsPrefix.map _ ((List.dropLast_prefix _).trans (List.prefix_append _ _))
        exact List.prefix_of_prefix_length_le hp h2 (by rw [length_lower]; exact hlen)
      have hzk : z ++ kw ≠ [] := by simp [hz]
      rw [e, List.append_assoc, List.dropLast_append_of_ne_nil hzk, lower_append]
      exact h1.isInfix.trans (List.suffix_append _ _).isInfix
  refine ⟨fwd, ?_⟩
  rintro rfl
  have total : ∀ (n : Nat) (s : Str), s.length ≤ n → ∃ l, WordCut w s l := by
    intro n
    induction n with
    | zero =>
      intro s hs
      have : s = [] := List.length_eq_zero_iff.1 (by omega)
      subst this
      refine ⟨_, .last ?_⟩
      intro h
      exact hw (List.infix_nil.1 h)
    | succ n ih =>
      intro s hs
      by_cases h : w <:+: lower s
      · obtain ⟨a, m, r, rfl, hm, ha⟩ := first_word hw h
        have hml : m.length = w.length := by rw [← length_lower m, hm]
        have hpos : 0 < w.length := List.length_pos_iff.2 hw
        have hmn : m ≠ [] := by rintro rfl; simp at hml; omega
        obtain ⟨l, hl'⟩ := ih r (by simp only [List.length_append] at hs; omega)
        rw [List.append_assoc]
        refine ⟨_, .more (by rw [small_lower]; exact hm) ?_ hl'⟩
        rw [lacks_lower]
        rintro ⟨x, y, e⟩
        have hx : x.length < a.length := by
          have := congrArg List.length e
          simp only [List.length_append, length_lower, List.length_dropLast] at this
          omega
        refine ha (a.take x.length) (a.drop x.length) (List.take_append_drop _ _).symm (by simp only [ne_eq, List.drop_eq_nil_iff]; omega) ?_
        have hd : lower ((a ++ m).dropLast.drop x.length) = w ++ y := by
          have := congrArg (List.drop x.length) e
          rw [List.append_assoc, List.drop_left] at this
          rw [this]
          simp only [lower, List.map_drop]
        have h2 : (a ++ m).dropLast.drop x.length <+: a.drop x.length ++ m ++ r := by
          rw [List.dropLast_append_of_ne_nil hmn, List.drop_append_of_le_length (by omega), List.append_assoc]
          exact (List.prefix_append_right_inj _).2 ((List.dropLast_prefix _).trans (List.prefix_append _ _))
        have h3 : w ++ y <+: lower (a.drop x.length ++ m ++ r) := by
          rw [← hd]
          unfold lower
          exact List.IsPrefix.map _ h2
        exact (List.prefix_append _ _).trans h3
      · exact ⟨_, .last (lacks_lower.2 h)⟩
  obtain ⟨l, hl'⟩ := total _ s le_rfl
  rw [fwd hl']
  exact hl'

end Verif
