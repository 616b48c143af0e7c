import Verif.Lemmas.Comment
import Verif.Lemmas.BlockComment
import Verif.Props.Parse
/-
C31-C33: comments, white space, statements.
-/

namespace Verif.Props
open Verif Verif.Spec

/-- Files with these lines parse alike: same result, same error, same parser afterwards. -/
def SameParse (ls ls' : List Str) : Prop := ∀ (fs fs' : FS) (p : ParserSt) (f : Str), fs f = some (.text (fileOf ls)) →
  fs' f = some (.text (fileOf ls')) → parseDdl fs p (some f) = parseDdl fs' p (some f)

theorem sameParse {ls ls' : List Str} (h : AreLines ls) (h' : AreLines ls') (e : getStatements ls = getStatements ls') : SameParse ls ls' :=
  fun fs fs' p f h1 h2 => parseDdl_congr p h1 h2 (by rw [fileLines_fileOf h, fileLines_fileOf h', e])

/-! ## C32 -/

/-- C32: white space inside lines does not matter, whatever else is in the file.  Full claim: blank lines do not matter either.
Missing: see `C32_blank_lines_partial`. -/
theorem C32_spacing_partial {ls ls' : List Str} (h : AreLines ls) (h' : AreLines ls') (hr : List.Forall₂ Respaced ls ls') :
    getStatements ls = getStatements ls' ∧ SameParse ls ls' := by
  have e := getStatements_same (hr.imp (fun _ _ => sq_codeOf_respaced))
  exact ⟨e, sameParse h h' e⟩

example : List.Forall₂ Respaced [c!"a b /* c", c!"d", c!"*/ e;"] [c!"\ta  b /* c", c!"d", c!"*/\te;"] ∧
    getStatements [c!"a b /* c", c!"d", c!"*/ e;"] = [c!"a b e"] := by
  refine ⟨.cons ?_ (.cons .refl (.cons ?_ .nil)), by decide +kernel⟩
  · exact .trans (.front (.inr rfl)) (.inside (a := c!"\ta") (b := c!"b /* c") (.inl rfl) (.inl rfl))
  · exact .swap (a := c!"*/") (b := c!"e;") (.inl rfl) (.inr rfl)

theorem noCode_dropped {pre post : List Str} {l : Str} (hl : NoCode l) (h1 : ∀ x ∈ pre ++ post, ¬ c!"/*" <:+: x)
    (h2 : ∀ x ∈ pre, x.count ';' ≤ 1) : getStatements (pre ++ post) = getStatements (pre ++ l :: post) := by
  have hpre : ∀ x ∈ pre, ¬ c!"/*" <:+: x := fun x hx => h1 x (by simp [hx])
  have hn := readLine_empty (foldl_inComment hpre (s := {}) rfl) (foldl_no_semi hpre h2 (s := {}) rfl rfl) (codeOf_noCode hl)
  unfold getStatements
  rw [List.foldl_append, List.foldl_append, List.foldl_cons]
  exact (hn.foldl (fun x hx => h1 x (by simp [hx]))).statements

/-- C32: blank lines do not matter in a file without block comments if no line before them has more than one semicolon.
Full claim: they never matter.  That is false (`C32_blank_line_releases`, `C32_blank_line_separates`). -/
theorem C32_blank_lines_partial {pre post : List Str} {l : Str} (h : AreLines (pre ++ l :: post)) (hl : ∀ c ∈ l, isSpace c = true)
    (h1 : ∀ x ∈ pre ++ post, ¬ c!"/*" <:+: x) (h2 : ∀ x ∈ pre, (x.filter (· == ';')).length ≤ 1) :
    getStatements (pre ++ post) = getStatements (pre ++ l :: post) ∧ SameParse (pre ++ post) (pre ++ l :: post) := by
  have e := noCode_dropped (.blank hl) h1 (fun x hx => by rw [List.count_eq_length_filter]; exact h2 x hx)
  refine ⟨e, sameParse (fun x hx => h x ?_) h e⟩
  simp only [List.mem_append, List.mem_cons] at hx ⊢
  tauto

example : AreLines ([c!"create table", c!"a (b int);"] ++ c!"\t " :: [c!"c", c!"d;"]) ∧
    getStatements ([c!"create table", c!"a (b int);"] ++ c!"\t " :: [c!"c", c!"d;"]) = [c!"create table a (b int)", c!"c d"] := by
  refine ⟨?_, by decide +kernel⟩
  simp only [AreLines]
  decide

/-- A blank line makes the reader find a statement it otherwise loses: two statements on the last line. -/
theorem C32_blank_line_releases : getStatements [c!"a; b;"] = [c!"a"] ∧ getStatements [c!"a; b;", c!""] = [c!"a", c!"b"] := by decide +kernel

/-- A blank line keeps two words apart that a block comment glues together. -/
theorem C32_blank_line_separates : getStatements [c!"a", c!"b /* c */;"] = [c!"ab"] ∧
    getStatements [c!"a", c!"", c!"b /* c */;"] = [c!"a b"] := by decide +kernel

/-! ## C31 -/

/-- C31: comments put directly behind the code of lines do not matter, whatever else is in the file, unless the line ends with a
dash.  Full claim: comments never matter.  Missing: comments after blanks and on lines of their own, see
`C31_line_ends_partial` and `C31_own_line_partial`. -/
theorem C31_attached_partial {ls ls' : List Str} (h : AreLines ls) (h' : AreLines ls') (hc : List.Forall₂ Attached ls ls') :
    SameParse ls ls' :=
  sameParse h h' (getStatements_same (hc.imp (fun _ _ => sq_codeOf_attached)))

example : List.Forall₂ Attached [c!"a /* b", c!"c", c!"*/ d;"] [c!"a /* b-- */;", c!"c", c!"*/ d;--x"] := by
  refine .cons ?_ (.cons .none (.cons ?_ .nil))
  · exact .added (l := c!"a /* b") (c := c!" */;") (.inr (by decide))
  · exact .added (l := c!"*/ d;") (c := c!"x") (.inr (by decide))

/-- C31: comments at the ends of lines, after any blanks, do not matter in a file without block comments, unless they directly
follow a dash.  Full claim: any file, any comment.  That is false (`C31_comment_separates`, `C31_comment_after_dash`). -/
theorem C31_line_ends_partial {ls ls' : List Str} (h : AreLines ls) (h' : AreLines ls') (hc : List.Forall₂ Commented ls ls')
    (hb : ∀ l ∈ ls, ¬ c!"/*" <:+: l) (hs : ∀ l ∈ ls, PlainSpace l) : SameParse ls ls' :=
  sameParse h h' (NearSt.commented hc hb hs (fun l hl => (h l hl).1) ⟨rfl, rfl, rfl, rfl⟩).statements

example : List.Forall₂ Commented [c!"create table a", c!"(b int);"] [c!"create table a -- the /* ; table", c!"(b int); -- x"] ∧
    getStatements [c!"create table a -- the /* ; table", c!"(b int); -- x"] = [c!"create table a (b int)"] := by
  refine ⟨.cons ?_ (.cons ?_ .nil), by decide +kernel⟩
  · exact .added (l := c!"create table a") (w := c!" ") (c := c!" the /* ; table") (by simp [Gap]) (.inr (.inl (by decide)))
  · exact .added (l := c!"(b int);") (w := c!" ") (c := c!" x") (by simp [Gap]) (.inr (.inl (by decide)))

/-- C31: a comment on a line of its own does not matter in a file without block comments if no line before it has more than one
semicolon.  Full claim: it never matters.  That is false (`C31_comment_releases`). -/
theorem C31_own_line_partial {pre post : List Str} {w c : Str} (h : AreLines (pre ++ (w ++ c!"--" ++ c) :: post))
    (hw : ∀ x ∈ w, isSpace x = true) (h1 : ∀ x ∈ pre ++ post, ¬ c!"/*" <:+: x) (h2 : ∀ x ∈ pre, (x.filter (· == ';')).length ≤ 1) :
    SameParse (pre ++ post) (pre ++ (w ++ c!"--" ++ c) :: post) := by
  refine sameParse (fun x hx => h x ?_) h
    (noCode_dropped (.comment hw) h1 (fun x hx => by rw [List.count_eq_length_filter]; exact h2 x hx))
  simp only [List.mem_append, List.mem_cons] at hx ⊢
  tauto

example : AreLines ([c!"a"] ++ (c!" " ++ c!"--" ++ c!" /* x;") :: [c!"b;"]) ∧
    getStatements ([c!"a"] ++ (c!" " ++ c!"--" ++ c!" /* x;") :: [c!"b;"]) = [c!"a b"] := by
  refine ⟨?_, by decide +kernel⟩
  simp only [AreLines]
  decide

/-- A comment makes the reader find a statement it otherwise loses. -/
theorem C31_comment_releases : getStatements [c!"a; b;"] = [c!"a"] ∧ getStatements [c!"a; b;", c!"-- c"] = [c!"a", c!"b"] := by decide +kernel

/-- A comment keeps two words apart that a block comment glues together. -/
theorem C31_comment_separates : getStatements [c!"a", c!"b /* c */;"] = [c!"ab"] ∧
    getStatements [c!"a -- d", c!"b /* c */;"] = [c!"a b"] := by decide +kernel

/-- A comment directly behind a dash takes the dash with it. -/
theorem C31_comment_after_dash : getStatements [c!"a-", c!"b;"] = [c!"a- b"] ∧ getStatements [c!"a--- c", c!"b;"] = [c!"a b"] := by
  decide +kernel

/-! ## C71 -/

/-- C71: block comments on lines of their own, of one line or several, do not matter if no line of code has more than one
semicolon.  Full claim: block comments never matter.  That is false (`C71_glues`, `C71_dashes_hide_end`, `C71_batch_hides_end`,
`C71_second_comment`). -/
theorem C71_block_comments_partial {ls ls' : List Str} (h : AreLines ls) (h' : AreLines ls') (hu : Uncommented ls ls') :
    getStatements ls = getStatements ls' ∧ SameParse ls ls' :=
  ⟨getStatements_uncommented hu, sameParse h h' (getStatements_uncommented hu)⟩

/-- A script with three block comments. -/
def commentedLines : List Str :=
  [c!"/* one; */", c!"create table a", c!"  /* drop table a; -- b", c!" GO /* ;", c!"create table z (y int);", c!"**/ ", c!"(b int);",
   c!"/**", c!"*/"]

theorem commented_uncommented : Uncommented commentedLines [c!"create table a", c!"(b int);"] := by
  refine .comment (b := [c!"/* one; */"])
    (.one (w := []) (c := c!" one; ") (w' := []) (by simp [AllSpace]) (by simp [AllSpace]) (by decide) (by decide)) ?_
  refine .code ⟨by decide, by decide⟩ ?_
  refine .comment (b := [c!"  /* drop table a; -- b", c!" GO /* ;", c!"create table z (y int);", c!"**/ "]) ?_ ?_
  · exact .many (w := c!"  ") (c := c!" drop table a; -- b") (mid := [c!" GO /* ;", c!"create table z (y int);"]) (d := c!"*")
      (w' := c!" ") (by simp only [AllSpace]; decide) (by simp only [AllSpace]; decide) (by decide) (by decide) (by decide) (by decide) (by decide)
  refine .code ⟨by decide, by decide⟩ ?_
  exact .comment (b := [c!"/**", c!"*/"]) (.many (w := []) (c := c!"*") (mid := []) (d := []) (w' := [])
    (by simp [AllSpace]) (by simp [AllSpace]) (by decide) (by simp) (by decide) (by decide) (by decide)) .nil

example : AreLines commentedLines ∧ getStatements commentedLines = [c!"create table a (b int)"] :=
  ⟨by simp only [AreLines]; decide, by decide +kernel⟩

/-- Code before a comment is put directly behind the code of the line before. -/
theorem C71_glues : getStatements [c!"create table", c!"a /* b */ (c int);"] = [c!"create tablea (c int)"] ∧
    getStatements [c!"create table", c!"a (c int);"] = [c!"create table a (c int)"] := by decide +kernel

/-- Two dashes in a comment hide its end: the rest of the file is lost. -/
theorem C71_dashes_hide_end : getStatements [c!"/*----------*/", c!"create table a (b int);"] = [] ∧
    getStatements [c!"create table a (b int);"] = [c!"create table a (b int)"] := by decide +kernel

/-- A comment does not end in a line that begins with GO. -/
theorem C71_batch_hides_end : getStatements [c!"/* run with", c!"GO */", c!"a;"] = [] := by decide +kernel

/-- Only the first comment of a line is left out. -/
theorem C71_second_comment : getStatements [c!"a /* b */ c /* d */ e;"] = [c!"a c /* d */ e"] := by decide +kernel

/-! ## C33 -/

/-- C33: the statements read from plain lines are texts that end with a semicolon, tidied up, from the first on, in order, each
once.  All are read exactly if no part of the file that reaches to its end has more semicolons than lines.
Full claim: all are read from every file without comments.  That is false (`C33_statements_lost`, `C33_batch_lines_lost`). -/
theorem C33_statements_partial {ls : List Str} (hl : AreLines ls) (hp : ∀ l ∈ ls, PlainLine l) (hs : ∀ l ∈ ls, PlainSpace l) :
    getStatements ls <+: (terminated (joinS ['\n'] ls)).map tidy ∧
    (getStatements ls = (terminated (joinS ['\n'] ls)).map tidy ↔ ∀ b, b <:+ ls → semicolons b ≤ b.length) := by
  obtain ⟨rest, h1, h2, h3⟩ := getStatements_plain hl hp hs
  have ht : (terminated (joinS ['\n'] ls)).map tidy = getStatements ls ++ rest.dropLast := by
    unfold terminated
    rw [pieces_eq_splitC, List.map_dropLast, ← h3, List.dropLast_append_of_ne_nil h1]
  rw [ht]
  refine ⟨List.prefix_append _ _, ?_⟩
  have hc := foldl_plain_count hp 0
  simp only [Nat.add_zero] at hc
  rw [← hc]
  have : rest.dropLast.length = (ls.foldl readLine {}).buffer.count ';' := by rw [List.length_dropLast, h2]; omega
  rw [← this, Nat.le_zero, List.length_eq_zero_iff]
  constructor
  · intro h
    exact List.append_cancel_left (as := getStatements ls) (by rw [← h, List.append_nil])
  · intro h
    rw [h, List.append_nil]

/-- C33: with at most one semicolon per line every terminated statement is read, once and in order. -/
theorem C33_one_per_line_partial {ls : List Str} (hl : AreLines ls) (hp : ∀ l ∈ ls, PlainLine l) (hs : ∀ l ∈ ls, PlainSpace l)
    (h1 : ∀ l ∈ ls, (l.filter (· == ';')).length ≤ 1) :
    getStatements (fileLines (fileOf ls)) = (terminated (joinS ['\n'] ls)).map tidy := by
  rw [fileLines_fileOf hl, (C33_statements_partial hl hp hs).2]
  intro b hb
  have h1 : ∀ l ∈ b, (l.filter (· == ';')).length ≤ 1 := fun l hl => h1 l (hb.subset hl)
  clear hb
  induction b with
  | nil => simp [semicolons]
  | cons l b ih =>
    have := ih (fun x hx => h1 x (by simp [hx]))
    have h2 := h1 l (by simp)
    simp only [semicolons, List.flatten_cons, List.filter_append, List.length_append, List.length_cons] at this ⊢
    omega

/-- Lines with two statements over three lines and one unfinished. -/
def plainLines : List Str := [c!"create  table a", c!"\t(b int); alter table", c!"a drop; c; ", c!"", c!"d"]

example : AreLines plainLines ∧ (∀ l ∈ plainLines, PlainLine l) ∧ (∀ l ∈ plainLines, PlainSpace l) ∧
    getStatements plainLines = [c!"create table a (b int)", c!"alter table a drop", c!"c"] := by
  refine ⟨by simp only [AreLines]; decide, ?_, by simp only [PlainSpace]; decide, by decide +kernel⟩
  intro l hl
  simp only [plainLines, List.mem_cons, List.not_mem_nil, or_false] at hl
  rcases hl with rfl | rfl | rfl | rfl | rfl <;> exact ⟨by decide, by decide, by decide⟩

/-- Of several statements on the last line only the first is read. -/
theorem C33_statements_lost : getStatements [c!"a; b; c;"] = [c!"a"] ∧
    (terminated c!"a; b; c;").map tidy = [c!"a", c!"b", c!"c"] := by decide +kernel

/-- Every line that begins with GO is dropped, not only the batch separator. -/
theorem C33_batch_lines_lost : getStatements [c!"create table a (b int,", c!"GOALS int,", c!"c int);"] = [c!"create table a (b int, c int)"] := by
  decide +kernel

end Verif.Props
