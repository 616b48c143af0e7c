import Verif.Lemmas.Comment
/-
Block comments on lines of their own leave the reader of DDL files where it was.
-/

namespace Verif
open Verif.Spec

/-- `sub` occurs first where `a` ends. -/
theorem partition_end {x y : Char} (hxy : x ≠ y) : ∀ {a b : Str}, ¬ [x, y] <:+: a → partitionS [x, y] (a ++ [x, y] ++ b) = (a, true, b)
  | [], b, _ => by simp [partitionS]
  | c :: a, b, h => by
    have ha : ¬ [x, y] <:+: a := fun h' => h (h'.trans (List.suffix_cons c a).isInfix)
    have ih := partition_end hxy (b := b) ha
    have hp : ([x, y] : Str).isPrefixOf (c :: (a ++ [x, y] ++ b)) = false := by
      rw [Bool.eq_false_iff]
      intro h'
      rw [List.isPrefixOf_iff_prefix, List.cons_prefix_cons] at h'
      obtain ⟨rfl, h'⟩ := h'
      cases a with
      | nil =>
        simp only [List.nil_append, List.cons_append, List.cons_prefix_cons] at h'
        exact hxy h'.1.symm
      | cons d a =>
        simp only [List.cons_append, List.cons_prefix_cons] at h'
        obtain ⟨rfl, _⟩ := h'
        exact h ⟨[], a, rfl⟩
    simp only [List.cons_append] at hp ⊢
    rw [partitionS, hp]
    simp only [List.append_assoc, List.cons_append, List.nil_append] at ih ⊢
    simp [ih]

/-- No `--` comes from putting `*/` behind a text. -/
theorem noDashes_end {d : Str} (h : ¬ c!"--" <:+: d) : ¬ c!"--" <:+: d ++ c!"*/" := by
  rintro ⟨a, b, e⟩
  rw [List.append_assoc] at e
  rcases List.append_eq_append_iff.1 e with ⟨m, h1, h2⟩ | ⟨m, h1, h2⟩
  · match m, h1, h2 with
    | [], _, h2 => simp at h2
    | [p], h1, h2 => simp at h2
    | p :: q :: m, h1, h2 =>
      simp only [List.cons_append, List.nil_append, List.cons.injEq] at h2
      obtain ⟨rfl, rfl, _⟩ := h2
      exact h ⟨a, m, by rw [h1]; simp⟩
  · have : '-' ∈ c!"*/" := by rw [h2]; simp
    revert this; decide

theorem infix_lstrip {p s : Str} (h : p <:+: lstrip s) : p <:+: s := h.trans (List.dropWhile_suffix _).isInfix

/-- The code of a line that opens a comment. -/
theorem codeOf_open {w c : Str} (hw : AllSpace w) : ∃ r, r <+: c ∧ sq (codeOf (w ++ c!"/*" ++ c)) = sq (c!"/*" ++ detab r) := by
  have e1 : lstrip (w ++ c!"/*" ++ c) = c!"/*" ++ c := by
    rw [List.append_assoc, lstrip_append_space hw]; rfl
  have e2 : ∃ r, r <+: c ∧ strip (w ++ c!"/*" ++ c) = c!"/*" ++ r := by
    unfold strip
    rw [e1]
    rcases space_or c with h | h
    · exact ⟨[], List.nil_prefix, by rw [rstrip_append_space h]; decide⟩
    · exact ⟨rstrip c, rstrip_prefix c, by rw [rstrip_append_of h]⟩
  obtain ⟨r, hr, e2⟩ := e2
  refine ⟨(partitionS c!"--" r).1, (partitionS_fst_prefix _ _).trans hr, ?_⟩
  rw [sq_codeOf, e2]
  have : (partitionS c!"--" (c!"/*" ++ r)).1 = c!"/*" ++ (partitionS c!"--" r).1 := by
    simp [partitionS]
  rw [this, detab_append]
  rfl

/-- The code of a line that ends a comment. -/
theorem codeOf_close {d w' : Str} (hw : AllSpace w') (hd : ¬ c!"--" <:+: d) :
    sq (codeOf (d ++ c!"*/" ++ w')) = sq (detab (lstrip d) ++ c!"*/") := by
  have e : strip (d ++ c!"*/" ++ w') = lstrip d ++ c!"*/" := by
    rw [strip_append_space hw]
    unfold strip
    have : lstrip (d ++ c!"*/") = lstrip d ++ c!"*/" := by
      rcases space_or d with h | h
      · rw [lstrip_append_space h, lstrip_spaces h]; decide
      · exact lstrip_append_of h
    rw [this, rstrip_append_of ⟨'/', by decide, by decide⟩]
    rfl
  rw [sq_codeOf, e, partitionS_absent (noDashes_end (fun h => hd (infix_lstrip h))), detab_append]
  rfl

theorem release_idle {s : ReadSt} (hs : s.buffer.count ';' = 0) : release s = s := by
  unfold release
  rw [if_neg]
  intro h
  exact List.count_eq_zero.1 hs (hasSub_single.1 h)

theorem SameSt.trans {s t u : ReadSt} (h : SameSt s t) (h' : SameSt t u) : SameSt s u :=
  ⟨h.statements.trans h'.statements, h.buffer.trans h'.buffer, h.inComment.trans h'.inComment⟩

theorem SameSt.lines (ls : List Str) {s t : ReadSt} (h : SameSt s t) : SameSt (ls.foldl Verif.readLine s) (ls.foldl Verif.readLine t) :=
  SameSt.foldl (List.forall₂_same.2 fun _ _ => rfl) h

/-- The line that opens a comment. -/
theorem readLine_open {s : ReadSt} (hc : s.inComment = false) (hs : s.buffer.count ';' = 0) {w c : Str} (hw : AllSpace w)
    (h : ¬ c!"*/" <:+: c) : SameSt (readLine s (w ++ c!"/*" ++ c)) { s with inComment := true } := by
  obtain ⟨r, hr, e⟩ := codeOf_open (c := c) hw
  rw [readLine_eq, startsWith_congr (by decide) e, if_neg (by simp [startsWith])]
  refine ((SameSt.refl s).bufferLine e).release.trans ?_
  have hr : hasSub c!"*/" (detab r) = false := hasSub_false_iff.2 fun h' => h ((infix_detab (by decide) h').trans hr.isInfix)
  have hp : partitionS c!"/*" (c!"/*" ++ detab r) = ([], true, detab r) := by simp [partitionS]
  have hb : bufferLine s (c!"/*" ++ detab r) = { s with inComment := true } := by
    unfold bufferLine
    rw [hc, if_neg (by simp), if_pos (hasSub_iff.2 (List.prefix_append c!"/*" (detab r)).isInfix), hp]
    simp [hr]
  rw [hb, release_idle (by exact hs)]
  exact SameSt.refl _

/-- A line within a comment. -/
theorem readLine_inside {s : ReadSt} (hc : s.inComment = true) (hs : s.buffer.count ';' = 0) {l : Str} (h : ¬ c!"*/" <:+: l) :
    readLine s l = s := by
  rw [readLine_eq]
  split
  · rfl
  · unfold bufferLine
    rw [hc, if_pos rfl, if_neg (by rw [hasSub_codeOf (by decide) (by decide) h]; simp), release_idle hs]

theorem foldl_inside {s : ReadSt} (hc : s.inComment = true) (hs : s.buffer.count ';' = 0) : ∀ {ls : List Str},
    (∀ l ∈ ls, ¬ c!"*/" <:+: l) → ls.foldl readLine s = s
  | [], _ => rfl
  | l :: ls, h => by
    rw [List.foldl_cons, readLine_inside hc hs (h l (by simp))]
    exact foldl_inside hc hs fun x hx => h x (by simp [hx])

theorem go_end {d : Str} (h : ¬ c!"GO" <+: d) : startsWith (detab d ++ c!"*/") c!"GO" = false := by
  unfold startsWith
  rw [Bool.eq_false_iff]
  intro h'
  rw [List.isPrefixOf_iff_prefix] at h'
  match d, h with
  | [], _ => simp [detab] at h'
  | [x], _ => simp [detab] at h'
  | x :: y :: d, h =>
    simp only [detab, List.map_cons, List.cons_append, List.cons_prefix_cons, List.nil_prefix, and_true] at h' h
    obtain ⟨h1, h2⟩ := h'
    refine h ⟨?_, ?_⟩
    · split at h1
      · exact absurd h1 (by decide)
      · exact h1
    · split at h2
      · exact absurd h2 (by decide)
      · exact h2

/-- The line that ends a comment. -/
theorem readLine_close {s : ReadSt} (hc : s.inComment = true) (hs : s.buffer.count ';' = 0) {d w' : Str} (hw : AllSpace w')
    (h1 : ¬ c!"*/" <:+: d) (h2 : ¬ c!"--" <:+: d) (h3 : ¬ c!"GO" <+: d.dropWhile isSpace) :
    SameSt (readLine s (d ++ c!"*/" ++ w')) { s with inComment := false } := by
  have e := codeOf_close hw h2
  rw [readLine_eq, startsWith_congr (by decide) e, if_neg (by rw [go_end (d := lstrip d) h3]; simp)]
  refine ((SameSt.refl s).bufferLine e).release.trans ?_
  have hp : partitionS c!"*/" (detab (lstrip d) ++ c!"*/" ++ []) = (detab (lstrip d), true, []) :=
    partition_end (by decide) fun h' => h1 (infix_lstrip (infix_detab (by decide) h'))
  rw [List.append_nil] at hp
  have hb : bufferLine s (detab (lstrip d) ++ c!"*/") = { s with inComment := false } := by
    unfold bufferLine
    rw [hc, if_pos rfl, if_pos (hasSub_iff.2 ⟨detab (lstrip d), [], by simp⟩), hp]
    simp
  rw [hb, release_idle (by exact hs)]
  exact SameSt.refl _

/-- A comment that ends in its line. -/
theorem readLine_whole {s : ReadSt} (hc : s.inComment = false) (hs : s.buffer.count ';' = 0) {w c w' : Str} (hw : AllSpace w)
    (hw' : AllSpace w') (h1 : ¬ c!"*/" <:+: c) (h2 : ¬ c!"--" <:+: c) :
    SameSt (readLine s (w ++ c!"/*" ++ c ++ c!"*/" ++ w')) s := by
  have hd : ¬ c!"--" <:+: w ++ c!"/*" ++ c := by
    intro h
    have h' : c!"--" <:+: lstrip (w ++ c!"/*" ++ c) := lstrip_infix_iff.2 h
    have e1 : lstrip (w ++ c!"/*" ++ c) = c!"/*" ++ c := by
      rw [List.append_assoc, lstrip_append_space hw]; rfl
    rw [e1] at h'
    have h'' : c!"--" <:+: c := by
      simpa [List.infix_cons_iff] using h'
    exact h2 h''
  have e := codeOf_close hw' hd
  have e1 : lstrip (w ++ c!"/*" ++ c) = c!"/*" ++ c := by
    rw [List.append_assoc, lstrip_append_space hw]; rfl
  rw [e1, detab_append] at e
  have e : sq (codeOf (w ++ c!"/*" ++ c ++ c!"*/" ++ w')) = sq (c!"/*" ++ (detab c ++ c!"*/")) := e.trans (by simp [detab])
  rw [readLine_eq, startsWith_congr (by decide) e, if_neg (by simp [startsWith])]
  refine ((SameSt.refl s).bufferLine e).release.trans ?_
  have hp : partitionS c!"*/" (detab c ++ c!"*/" ++ []) = (detab c, true, []) :=
    partition_end (by decide) fun h' => h1 (infix_detab (by decide) h')
  rw [List.append_nil] at hp
  have hp' : partitionS c!"/*" (c!"/*" ++ (detab c ++ c!"*/")) = ([], true, detab c ++ c!"*/") := by simp [partitionS]
  have hb : bufferLine s (c!"/*" ++ (detab c ++ c!"*/")) = s := by
    unfold bufferLine
    rw [hc, if_neg (by simp), if_pos (hasSub_iff.2 (List.prefix_append c!"/*" (detab c ++ c!"*/")).isInfix), hp']
    have : hasSub c!"*/" (detab c ++ c!"*/") = true := hasSub_iff.2 ⟨detab c, [], by simp⟩
    simp only [this, if_true, hp, List.append_nil]
    cases s
    simp_all
  rw [hb, release_idle hs]
  exact SameSt.refl _

/-- A block comment on lines of its own. -/
theorem foldl_blockComment {b : List Str} (h : BlockComment b) {s : ReadSt} (hc : s.inComment = false) (hs : s.buffer.count ';' = 0) :
    SameSt (b.foldl readLine s) s := by
  cases h with
  | one hw hw' h1 h2 => exact readLine_whole hc hs hw hw' h1 h2
  | @many w c mid d w' hw hw' h1 h2 h3 h4 h5 =>
    rw [List.cons_append, List.foldl_cons]
    refine (SameSt.lines _ (readLine_open hc hs hw h1)).trans ?_
    rw [List.foldl_append, foldl_inside (s := { s with inComment := true }) rfl hs h2]
    refine (readLine_close (s := { s with inComment := true }) rfl hs hw' h3 h4 h5).trans ?_
    cases s
    simp only at hc
    subst hc
    exact SameSt.refl _

theorem foldl_uncommented {ls ls' : List Str} (h : Uncommented ls ls') : ∀ {s : ReadSt}, s.inComment = false → s.buffer.count ';' = 0 →
    SameSt (ls.foldl readLine s) (ls'.foldl readLine s) := by
  induction h with
  | nil => intro s _ _; exact SameSt.refl _
  | code hl _ ih =>
    intro s hc hs
    exact ih (readLine_inComment hc hl.noBlockComment)
      (readLine_no_semi hc hs hl.noBlockComment (by rw [List.count_eq_length_filter]; exact hl.oneSemicolon))
  | comment hb _ ih =>
    intro s hc hs
    rw [List.foldl_append]
    exact (SameSt.lines _ (foldl_blockComment hb hc hs)).trans (ih hc hs)

theorem getStatements_uncommented {ls ls' : List Str} (h : Uncommented ls ls') : getStatements ls = getStatements ls' :=
  (foldl_uncommented h (s := {}) rfl rfl).statements

end Verif
