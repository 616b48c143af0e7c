import Verif.Lemmas.Words
/-
Line comments are cut off.
-/

namespace Verif
open Spec

theorem partition_keep {sub : Str} : ∀ {l : Str} (x : Str), sub <:+: l → (partitionS sub (l ++ x)).1 = (partitionS sub l).1
  | [], x, h => by
    rw [List.infix_nil] at h
    subst h
    cases x <;> rfl
  | c :: t, x, h => by
    simp only [List.cons_append, partitionS]
    by_cases hp : sub <+: c :: t
    · have h2 : sub <+: c :: (t ++ x) := hp.trans ⟨x, rfl⟩
      rw [if_pos (List.isPrefixOf_iff_prefix.2 hp), if_pos (List.isPrefixOf_iff_prefix.2 h2)]
    · have ht : sub <:+: t := (List.infix_cons_iff.1 h).resolve_left hp
      have h2 : ¬ sub <+: c :: (t ++ x) := by
        intro h2
        exact hp (List.prefix_of_prefix_length_le h2 (⟨x, rfl⟩ : c :: t <+: c :: (t ++ x)) (by have := ht.length_le; simp; omega))
      rw [if_neg (fun h => hp (List.isPrefixOf_iff_prefix.1 h)), if_neg (fun h => h2 (List.isPrefixOf_iff_prefix.1 h))]
      simp [partition_keep x ht]

theorem partition_here {l c : Str} (hn : ¬ c!"--" <:+: l) (hl : l.getLast? ≠ some '-') : (partitionS c!"--" (l ++ c!"--" ++ c)).1 = l := by
  induction l with
  | nil => simp [partitionS]
  | cons x t ih =>
    have ih := ih (fun h => hn (h.trans (List.suffix_cons x t).isInfix)) (by
      cases t with
      | nil => simp
      | cons y t => simpa using hl)
    have hp : ¬ c!"--" <+: x :: (t ++ c!"--" ++ c) := by
      rintro ⟨b, e⟩
      cases t with
      | nil =>
        simp at e hl
        exact hl e.1.symm
      | cons y t =>
        simp only [List.cons_append, List.nil_append, List.cons.injEq] at e
        exact hn ⟨[], t, by simp [← e.1, ← e.2.1]⟩
    simp only [List.cons_append, partitionS]
    rw [if_neg (fun h => hp (List.isPrefixOf_iff_prefix.1 h))]
    simp only [ih]

theorem partition_dashes {l c : Str} (h : c!"--" <:+: l ∨ l.getLast? ≠ some '-') :
    (partitionS c!"--" (l ++ c!"--" ++ c)).1 = (partitionS c!"--" l).1 := by
  by_cases hi : c!"--" <:+: l
  · rw [List.append_assoc]; exact partition_keep _ hi
  · rw [partition_here hi (h.resolve_left hi), partitionS_absent hi]

theorem partition_detab : ∀ s : Str, (partitionS c!"--" (detab s)).1 = detab (partitionS c!"--" s).1
  | [] => rfl
  | x :: t => by
    have hd : detab (x :: t) = (if x = '\t' then ' ' else x) :: detab t := rfl
    have hp : (c!"--").isPrefixOf (detab (x :: t)) = (c!"--").isPrefixOf (x :: t) := by
      have key : ∀ y : Char, ('-' == if y = '\t' then ' ' else y) = ('-' == y) := by
        intro y
        by_cases h : y = '\t'
        · subst h; rfl
        · rw [if_neg h]
      cases t with
      | nil => simp only [hd, List.isPrefixOf, key]; rfl
      | cons y t =>
        have : detab (y :: t) = (if y = '\t' then ' ' else y) :: detab t := rfl
        rw [hd, this]
        simp only [List.isPrefixOf, key]
    rw [partitionS]
    simp only [hp]
    rw [hd, partitionS, ← hd, hp]
    split
    · rfl
    · simp only [partition_detab t]
      rfl

theorem sq_codeOf (l : Str) : sq (codeOf l) = sq (detab (partitionS c!"--" (strip l)).1) := by
  rw [← partition_detab]
  exact (partitionS_congr (by decide) (by decide) (sq_cleanLine l)).1

theorem lstrip_spaces {l : Str} (h : ∀ c ∈ l, isSpace c = true) : lstrip l = [] := by
  have := lstrip_append_space (b := []) h
  rw [List.append_nil] at this
  exact this

theorem lstrip_dashes (l c : Str) : lstrip (l ++ c!"--" ++ c) = lstrip l ++ c!"--" ++ c := by
  rcases space_or l with h | h
  · rw [List.append_assoc, lstrip_append_space h, show lstrip l = [] from lstrip_spaces h]
    rfl
  · rw [List.append_assoc, lstrip_append_of h, List.append_assoc]

theorem strip_dashes (l c : Str) : ∃ c', strip (l ++ c!"--" ++ c) = lstrip l ++ c!"--" ++ c' := by
  unfold strip
  rw [lstrip_dashes]
  rcases space_or c with h | h
  · refine ⟨[], ?_⟩
    rw [rstrip_append_space h, show lstrip l ++ c!"--" = (lstrip l ++ c!"-") ++ ['-'] from by simp, rstrip_id (by decide)]
    simp
  · exact ⟨rstrip c, rstrip_append_of h⟩

theorem lstrip_infix_iff {l : Str} : c!"--" <:+: lstrip l ↔ c!"--" <:+: l := by
  constructor
  · exact fun h => h.trans (lstrip_suffix l).isInfix
  · intro h
    induction l with
    | nil => exact h
    | cons x t ih =>
      rw [lstrip_cons]
      split
      · rename_i hx
        apply ih
        rcases List.infix_cons_iff.1 h with h | h
        · obtain ⟨b, e⟩ := h
          simp only [List.cons_append, List.cons.injEq] at e
          rw [← e.1] at hx
          exact absurd hx (by decide)
        · exact h
      · exact h

theorem rstrip_split (k : Str) : ∃ w, k = rstrip k ++ w ∧ ∀ x ∈ w, isSpace x = true := by
  induction k using snocInd with
  | nil => exact ⟨[], rfl, by simp⟩
  | append_singleton s x ih =>
    rw [rstrip_snoc]
    split
    · rename_i hx
      obtain ⟨w, e, hw⟩ := ih
      refine ⟨w ++ [x], by rw [← List.append_assoc, ← e], ?_⟩
      intro y hy
      rcases List.mem_append.1 hy with h | h
      · exact hw y h
      · simp only [List.mem_singleton] at h; rw [h]; exact hx
    · exact ⟨[], by simp, by simp⟩

theorem infix_space {a w : Str} (hw : ∀ x ∈ w, isSpace x = true) (h : c!"--" <:+: a ++ w) : c!"--" <:+: a := by
  induction w using snocInd with
  | nil => simpa using h
  | append_singleton w x ih =>
    apply ih (fun y hy => hw y (by simp [hy]))
    rw [← List.append_assoc] at h
    rcases List.infix_concat_iff.1 h with h | h
    · exfalso
      obtain ⟨b, e⟩ := h
      have := congrArg List.getLast? e
      simp at this
      have hx := hw x (by simp)
      rw [← this] at hx
      exact absurd hx (by decide)
    · exact h

theorem partition_strip {l : Str} (h : c!"--" <:+: l) : (partitionS c!"--" (lstrip l)).1 = (partitionS c!"--" (strip l)).1 := by
  obtain ⟨w, e, hw⟩ := rstrip_split (lstrip l)
  have hi : c!"--" <:+: rstrip (lstrip l) := infix_space hw (by rw [← e]; exact lstrip_infix_iff.2 h)
  conv => lhs; rw [e, partition_keep w hi]
  rfl

theorem last_lstrip {l : Str} {x : Char} (h : (lstrip l).getLast? = some x) : l.getLast? = some x := by
  obtain ⟨a, e⟩ := lstrip_suffix l
  rw [← e, List.getLast?_append, h]
  rfl

/-- The code of a commented line. -/
theorem sq_codeOf_comment {l c : Str} (h : c!"--" <:+: l ∨ l.getLast? ≠ some '-') :
    sq (codeOf (l ++ c!"--" ++ c)) = sq (detab (partitionS c!"--" (lstrip l)).1) := by
  obtain ⟨c', e⟩ := strip_dashes l c
  rw [sq_codeOf, e, partition_dashes]
  rcases h with h | h
  · exact .inl (lstrip_infix_iff.2 h)
  · exact .inr (fun h' => h (last_lstrip h'))

theorem sq_codeOf_attached {l m : Str} (h : Attached l m) : sq (codeOf l) = sq (codeOf m) := by
  cases h with
  | none => rfl
  | added h =>
    rename_i c
    rw [sq_codeOf_comment (h.imp_right (fun h e => (h _ e).2 rfl)), sq_codeOf]
    rcases h with h | h
    · rw [partition_strip h]
    · have : strip l = lstrip l := by
        unfold strip
        apply rstrip_of_last
        intro x hx
        exact (h x (last_lstrip hx)).1
      rw [this]

theorem strip_append_space {l w : Str} (hw : ∀ x ∈ w, isSpace x = true) : strip (l ++ w) = strip l := by
  unfold strip
  rcases space_or l with h | h
  · have e1 : lstrip (l ++ w) = [] := by
      have : ∀ x ∈ l ++ w, isSpace x = true := by
        intro x hx
        rcases List.mem_append.1 hx with h1 | h1
        · exact h x h1
        · exact hw x h1
      exact lstrip_spaces this
    have e2 : lstrip l = [] := lstrip_spaces h
    rw [e1, e2]
  · rw [lstrip_append_of h, rstrip_append_space hw]

theorem sq_blanks (a : Str) (n : Nat) : sq (a ++ (List.replicate n ' ' ++ c!" ")) = sq (a ++ c!" ") := by
  refine sq_append_congr rfl ?_
  induction n with
  | zero => rfl
  | succ n ih =>
    have : sq (' ' :: (List.replicate n ' ' ++ c!" ")) = sq (' ' :: c!" ") := sq_append_congr (x := c!" ") rfl ih
    rw [List.replicate_succ, List.cons_append, this]
    decide

theorem sq_codeOf_commented {l m : Str} (h : Commented l m) (hp : PlainSpace l) (hn : '\n' ∉ l) :
    sq (codeOf l ++ c!" ") = sq (codeOf m ++ c!" ") := by
  cases h with
  | none => rfl
  | added hw h =>
    rename_i w c
    have hws : ∀ x ∈ w, isSpace x = true := fun x hx => gap_space (hw x hx)
    have hcond : c!"--" <:+: l ++ w ∨ (l ++ w).getLast? ≠ some '-' := by
      rcases h with h | h | h
      · exact .inl (h.trans (List.prefix_append l w).isInfix)
      · right
        intro e
        rcases List.eq_nil_or_concat w with rfl | ⟨w', x, rfl⟩
        · exact h rfl
        · simp at e
          have := hws x (by simp)
          rw [e] at this
          exact absurd this (by decide)
      · by_cases hw0 : w = []
        · subst hw0; right; simpa using h
        · right
          intro e
          rcases List.eq_nil_or_concat w with rfl | ⟨w', x, rfl⟩
          · exact hw0 rfl
          · simp at e
            have := hws x (by simp)
            rw [e] at this
            exact absurd this (by decide)
    refine (sq_append_congr (sq_codeOf l) rfl).trans (Eq.trans ?_ (sq_append_congr (sq_codeOf_comment hcond) rfl).symm)
    by_cases hi : c!"--" <:+: l
    · rw [partition_strip (hi.trans (List.prefix_append l w).isInfix), strip_append_space hws]
    · have hi2 : ¬ c!"--" <:+: lstrip (l ++ w) := fun h => hi (infix_space hws (lstrip_infix_iff.1 h))
      have hi3 : ¬ c!"--" <:+: strip l := fun h => hi (h.trans (strip_infix l))
      rw [partitionS_absent hi2, partitionS_absent hi3]
      obtain ⟨v, e, hv⟩ := rstrip_split (lstrip (l ++ w))
      have hs : rstrip (lstrip (l ++ w)) = strip l := strip_append_space hws
      have hd : detab v = List.replicate v.length ' ' := by
        rw [List.eq_replicate_iff]
        refine ⟨by simp [detab], ?_⟩
        intro x hx
        simp only [detab, List.mem_map] at hx
        obtain ⟨y, hy, rfl⟩ := hx
        have hm : y ∈ l ++ w := (lstrip_suffix _).subset (by rw [e]; simp [hy])
        rcases List.mem_append.1 hm with h1 | h1
        · rcases hp y h1 (hv y hy) with rfl | rfl | rfl
          · rfl
          · rfl
          · exact absurd h1 hn
        · rcases hw y h1 with rfl | rfl <;> rfl
      rw [e, hs, detab_append, hd, List.append_assoc, sq_blanks]

theorem prefix_blank {p : Str} (hb : ' ' ∉ p) (s : Str) : p.isPrefixOf (s ++ c!" ") = p.isPrefixOf s := by
  rw [Bool.eq_iff_iff, List.isPrefixOf_iff_prefix, List.isPrefixOf_iff_prefix]
  constructor
  · intro h
    rcases List.prefix_concat_iff.1 h with h | h
    · exact absurd (by rw [h]; simp) hb
    · exact h
  · exact fun h => h.trans (List.prefix_append _ _)

theorem hasSub_blank {p : Str} (hne : p ≠ []) (hb : ' ' ∉ p) (s : Str) : hasSub p (s ++ c!" ") = hasSub p s := by
  rw [Bool.eq_iff_iff, hasSub_iff, hasSub_iff]
  constructor
  · intro h
    rcases List.infix_concat_iff.1 h with h | h
    · exfalso
      rcases List.suffix_concat_iff.1 h with h | ⟨t, h, _⟩
      · exact hne h
      · exact hb (by rw [h]; simp)
    · exact h
  · exact fun h => h.trans (List.prefix_append _ _).isInfix

theorem NearSt.commented {ls ms : List Str} (h : List.Forall₂ Commented ls ms) : ∀ {s t : ReadSt}, (∀ l ∈ ls, ¬ c!"/*" <:+: l) →
    (∀ l ∈ ls, PlainSpace l) → (∀ l ∈ ls, '\n' ∉ l) → NearSt s t → NearSt (ls.foldl Verif.readLine s) (ms.foldl Verif.readLine t) := by
  induction h with
  | nil => intro s t _ _ _ hs; exact hs
  | @cons l m ls ms e _ ih =>
    intro s t h1 h2 h3 hs
    have e' := sq_codeOf_commented e (h2 l (by simp)) (h3 l (by simp))
    have hl := hasSub_codeOf (sub := c!"/*") (by decide) (by decide) (h1 l (by simp))
    refine ih (fun x hx => h1 x (by simp [hx])) (fun x hx => h2 x (by simp [hx])) (fun x hx => h3 x (by simp [hx])) (hs.readLine e' ?_ hl ?_)
    · have := startsWith_congr (pre := c!"GO") (by decide) e'
      unfold startsWith at this ⊢
      rwa [prefix_blank (by decide), prefix_blank (by decide)] at this
    · have := hasSub_congr (sub := c!"/*") (by decide) (by decide) e'
      rw [hasSub_blank (by decide) (by decide), hasSub_blank (by decide) (by decide)] at this
      rw [← this]; exact hl

theorem codeOf_noCode {l : Str} (h : NoCode l) : codeOf l = [] := by
  have key : ∀ s : Str, sq s = [] → s = [] := by
    intro s hs
    cases s with
    | nil => rfl
    | cons x t =>
      exfalso
      unfold sq subRun at hs
      by_cases hx : x = ' '
      · subst hx; simp [subRunGo] at hs
      · simp [subRunGo, hx] at hs
  apply key
  cases h with
  | blank hw =>
    rw [sq_codeOf, show strip l = [] from by
      unfold strip
      rw [show lstrip l = [] from lstrip_spaces hw]; rfl]
    rfl
  | comment hw =>
    rename_i w c
    rw [sq_codeOf_comment, show lstrip w = [] from lstrip_spaces hw]
    · rfl
    · right
      intro e
      have := hw '-' (List.mem_of_getLast? e)
      exact absurd this (by decide)

end Verif
