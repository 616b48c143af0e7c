import Verif.Spec.Statements
import Verif.Lemmas.Words
import Verif.Lemmas.BlockComment
import Verif.Lemmas.Config
import Verif.Lemmas.Quoted
/-
The statements of a DDL file, for every file.
-/

namespace Verif
open Verif.Spec

/-! ## Lines -/

theorem newlines_append : ∀ {l : Str} (r : Str), '\r' ∉ l → newlines (l ++ r) = l ++ newlines r
  | [], r, _ => rfl
  | c :: l, r, h => by
    simp only [List.mem_cons, not_or] at h
    have ih := newlines_append r h.2
    rw [List.cons_append, List.cons_append, ← ih]
    rw [newlines]
    · rintro x rfl; exact absurd rfl h.1
    · rintro rfl; exact absurd rfl h.1

theorem newlines_cr {r : Str} (h : r.head? ≠ some '\n') : newlines ('\r' :: r) = '\n' :: newlines r := by
  cases r with
  | nil => rfl
  | cons c r =>
    rw [newlines]
    rintro x e
    rw [e] at h
    exact absurd rfl h

theorem newlines_lf (r : Str) : newlines ('\n' :: r) = '\n' :: newlines r := by
  rw [newlines] <;> simp

/-- The lines of a text with all line ends alike. -/
def linesOf (s : Str) : List Str := if (splitC '\n' s).getLast? = some [] then (splitC '\n' s).dropLast else splitC '\n' s

theorem linesOf_cons {l r : Str} (h : '\n' ∉ l) : linesOf (l ++ '\n' :: r) = l :: linesOf r := by
  unfold linesOf
  rw [splitC_cons h]
  have hne := splitC_ne_nil '\n' r
  rw [List.getLast?_cons_of_ne_nil hne]
  split
  · rw [List.dropLast_cons_of_ne_nil hne]
  · rfl

theorem fileLines_of {s : Str} {ls : List Str} (h : TextLines s ls) : fileLines s = ls := by
  have key : ∀ s, fileLines s = linesOf (newlines s) := fun _ => rfl
  induction h with
  | nil => rfl
  | @last l hne h1 h2 =>
    rw [key, newlines_noCR h2]
    unfold linesOf
    rw [splitC_plain h1]
    simp [hne]
  | @lf l r ls h1 h2 _ ih => rw [key, newlines_append _ h2, newlines_lf, linesOf_cons h1, ← key, ih]
  | @crlf l r ls h1 h2 _ ih => rw [key, newlines_append _ h2, newlines, linesOf_cons h1, ← key, ih]
  | @cr l r ls h1 h2 h3 _ ih => rw [key, newlines_append _ h2, newlines_cr h3, linesOf_cons h1, ← key, ih]

theorem first_end : ∀ (s : Str), ('\n' ∉ s ∧ '\r' ∉ s) ∨ ∃ l r, '\n' ∉ l ∧ '\r' ∉ l ∧ (s = l ++ '\n' :: r ∨ s = l ++ '\r' :: r)
  | [] => .inl (by simp)
  | c :: s => by
    by_cases h1 : c = '\n'
    · exact .inr ⟨[], s, by simp, by simp, .inl (by simp [h1])⟩
    by_cases h2 : c = '\r'
    · exact .inr ⟨[], s, by simp, by simp, .inr (by simp [h2])⟩
    rcases first_end s with ⟨h3, h4⟩ | ⟨l, r, h3, h4, h⟩
    · exact .inl (by simp [h3, h4, Ne.symm h1, Ne.symm h2])
    · refine .inr ⟨c :: l, r, by simp [h3, Ne.symm h1], by simp [h4, Ne.symm h2], ?_⟩
      rcases h with rfl | rfl <;> simp

theorem textLines_total : ∀ (n : Nat) (s : Str), s.length ≤ n → ∃ ls, TextLines s ls
  | 0, s, h => by
    have : s = [] := List.length_eq_zero_iff.1 (by omega)
    exact ⟨[], this ▸ .nil⟩
  | n + 1, s, h => by
    rcases first_end s with ⟨h1, h2⟩ | ⟨l, r, h1, h2, rfl | rfl⟩
    · by_cases hs : s = []
      · exact ⟨[], hs ▸ .nil⟩
      · exact ⟨[s], .last hs h1 h2⟩
    · obtain ⟨ls, hl⟩ := textLines_total n r (by simp at h; omega)
      exact ⟨l :: ls, .lf h1 h2 hl⟩
    · by_cases hr : r.head? = some '\n'
      · cases r with
        | nil => simp at hr
        | cons c r =>
          simp only [List.head?_cons, Option.some.injEq] at hr
          subst hr
          obtain ⟨ls, hl⟩ := textLines_total n r (by simp at h; omega)
          exact ⟨l :: ls, .crlf h1 h2 hl⟩
      · obtain ⟨ls, hl⟩ := textLines_total n r (by simp at h; omega)
        exact ⟨l :: ls, .cr h1 h2 hr hl⟩

theorem textLines_iff {s : Str} {ls : List Str} : TextLines s ls ↔ fileLines s = ls := by
  refine ⟨fileLines_of, ?_⟩
  rintro rfl
  obtain ⟨ls, h⟩ := textLines_total s.length s (Nat.le_refl _)
  rwa [fileLines_of h]

theorem areLines_of {s : Str} {ls : List Str} (h : TextLines s ls) : AreLines ls := by
  induction h with
  | nil => intro l hl; cases hl
  | last _ h1 h2 => intro l hl; rw [List.mem_singleton.1 hl]; exact ⟨h1, h2⟩
  | lf h1 h2 _ ih | crlf h1 h2 _ ih =>
    intro l hl
    rcases List.mem_cons.1 hl with rfl | hl
    · exact ⟨h1, h2⟩
    · exact ih l hl
  | cr h1 h2 _ _ ih =>
    intro l hl
    rcases List.mem_cons.1 hl with rfl | hl
    · exact ⟨h1, h2⟩
    · exact ih l hl

/-! ## The code of a line -/

/-- What stands before the first occurrence. -/
theorem partitionS_first {sub : Str} (hne : sub ≠ []) : ∀ {s : Str}, ¬ sub <:+: (partitionS sub s).1 ++ sub.dropLast ∨ ¬ sub <:+: s
  | [] => .inr (by rw [List.infix_nil]; exact hne)
  | x :: t => by
    by_cases hs : sub <:+: x :: t
    · left
      have hlen : ¬ sub <:+: sub.dropLast := by
        intro h
        have := h.length_le
        have : 0 < sub.length := List.length_pos_iff.2 hne
        simp at *
        omega
      rw [partitionS]
      split
      · exact hlen
      · rename_i hp
        rw [List.isPrefixOf_iff_prefix] at hp
        have ht : sub <:+: t := by
          rw [List.infix_cons_iff] at hs
          exact hs.resolve_left hp
        intro h
        simp only [List.cons_append, List.infix_cons_iff] at h
        rcases h with h | h
        · apply hp
          refine h.trans ?_
          rw [List.cons_prefix_cons]
          refine ⟨rfl, ?_⟩
          conv => rhs; rw [partitionS_eq ht]
          rw [List.append_assoc]
          exact (List.prefix_append_right_inj _).2 ((List.dropLast_prefix sub).trans (List.prefix_append _ _))
        · exact (partitionS_first hne (s := t)).elim (fun h' => h' h) (fun h' => h' ht)
    · exact .inr hs

/-- The code of a line. -/
def rcode (l : Str) : Str := (partitionS c!"--" (strip l)).1

theorem lineCode_iff {l c : Str} : LineCode l c ↔ c = rcode l := by
  unfold LineCode rcode
  constructor
  · rintro ⟨m, hm, h⟩
    rw [padded_iff] at hm
    subst hm
    rcases h with ⟨h, rfl⟩ | ⟨b, e, h⟩
    · rw [partitionS_absent h]
    · rw [e, partition_here (fun h' => h (h'.trans (List.prefix_append _ _).isInfix)) ?_]
      intro hl
      obtain ⟨a, rfl⟩ := List.getLast?_eq_some_iff.1 hl
      exact h ⟨a, [], by simp⟩
  · rintro rfl
    refine ⟨_, padded_iff.2 rfl, ?_⟩
    by_cases h : c!"--" <:+: strip l
    · exact .inr ⟨_, partitionS_eq h, (partitionS_first (sub := c!"--") (by decide) (s := strip l)).resolve_right (fun h' => h' h)⟩
    · exact .inl ⟨h, by rw [partitionS_absent h]⟩

/-! ## What it adds -/

/-- What a code adds to the text, and whether a comment is open afterwards. -/
def addOf (o : Bool) (c : Str) : Bool × Str :=
  ((bufferLine { statements := [], buffer := [], inComment := o } c).inComment, (bufferLine { statements := [], buffer := [], inComment := o } c).buffer)

theorem bufferLine_addOf (st : ReadSt) (c : Str) :
    bufferLine st c = { st with inComment := (addOf st.inComment c).1, buffer := st.buffer ++ (addOf st.inComment c).2 } := by
  unfold addOf bufferLine
  cases h : st.inComment <;> simp only [Bool.false_eq_true, if_false, if_true] <;> repeat' split
  all_goals simp_all
  all_goals (cases st; simp_all)

theorem lineAdds_of {o o' : Bool} {c t : Str} (h : LineAdds o c o' t) : addOf o c = (o', t) := by
  cases h with
  | plain h =>
    unfold addOf bufferLine
    simp [hasSub_false_iff.2 h]
  | @whole a b c h1 h2 =>
    have e1 := partition_end (x := '/') (y := '*') (by decide) h1 (b := b ++ c!"*/" ++ c)
    have e2 := partition_end (x := '*') (y := '/') (by decide) h2 (b := c)
    have s1 : hasSub c!"/*" (a ++ c!"/*" ++ (b ++ c!"*/" ++ c)) = true := hasSub_iff.2 ⟨a, _, rfl⟩
    have s2 : hasSub c!"*/" (b ++ c!"*/" ++ c) = true := hasSub_iff.2 ⟨b, _, rfl⟩
    unfold addOf bufferLine
    simp only [Bool.false_eq_true, if_false, s1, if_true, e1, s2, e2, List.nil_append]
  | @opens _ b h1 h2 =>
    have e1 := partition_end (x := '/') (y := '*') (by decide) h1 (b := b)
    have s1 : hasSub c!"/*" (t ++ c!"/*" ++ b) = true := hasSub_iff.2 ⟨t, _, rfl⟩
    unfold addOf bufferLine
    simp only [Bool.false_eq_true, if_false, s1, if_true, e1, hasSub_false_iff.2 h2, List.nil_append]
  | inside h =>
    unfold addOf bufferLine
    simp [hasSub_false_iff.2 h]
  | @closes a _ h =>
    have e1 := partition_end (x := '*') (y := '/') (by decide) h (b := t)
    have s1 : hasSub c!"*/" (a ++ c!"*/" ++ t) = true := hasSub_iff.2 ⟨a, _, rfl⟩
    unfold addOf bufferLine
    simp only [if_true, s1, e1, List.nil_append]

theorem first_before {sub : Str} (hne : sub ≠ []) {s : Str} (h : sub <:+: s) : ¬ sub <:+: (partitionS sub s).1 := fun h' =>
  (partitionS_first hne (s := s)).elim (fun h1 => h1 (h'.trans (List.prefix_append _ _).isInfix)) (fun h1 => h1 h)

theorem lineAdds_total (o : Bool) (c : Str) : ∃ o' t, LineAdds o c o' t := by
  cases o with
  | false =>
    by_cases h : c!"/*" <:+: c
    · have e := partitionS_eq h
      have h1 := first_before (by decide) h
      rw [e]
      by_cases h2 : c!"*/" <:+: (partitionS c!"/*" c).2.2
      · have e2 := partitionS_eq h2
        rw [e2]
        exact ⟨_, _, .whole h1 (first_before (by decide) h2)⟩
      · exact ⟨_, _, .opens h1 h2⟩
    · exact ⟨_, _, .plain h⟩
  | true =>
    by_cases h : c!"*/" <:+: c
    · rw [partitionS_eq h]
      exact ⟨_, _, .closes (first_before (by decide) h)⟩
    · exact ⟨_, _, .inside h⟩

theorem lineAdds_mem {o o' : Bool} {c t : Str} (h : LineAdds o c o' t) {x : Char} (hx : x ∈ t) : x = ' ' ∨ x ∈ c := by
  cases h with
  | plain => exact List.mem_cons.1 hx
  | whole => simp only [List.mem_append] at hx ⊢; tauto
  | opens => simp only [List.mem_append] at hx ⊢; tauto
  | inside => cases hx
  | closes => simp only [List.mem_append] at hx ⊢; tauto

theorem contributes_total : ∀ (o : Bool) (ls : List Str), ∃ o' ts, Contributes o ls o' ts
  | o, [] => ⟨o, [], .nil⟩
  | o, l :: ls => by
    by_cases hg : c!"GO" <+: rcode l
    · obtain ⟨o', ts, h⟩ := contributes_total o ls
      exact ⟨o', ts, .batch (lineCode_iff.2 rfl) hg h⟩
    · obtain ⟨m, t, ha⟩ := lineAdds_total o (rcode l)
      obtain ⟨o', ts, h⟩ := contributes_total m ls
      exact ⟨o', t :: ts, .line (lineCode_iff.2 rfl) hg ha h⟩

theorem contributes_append {o m o' : Bool} {ls ls' ts ts' : List Str} (h : Contributes o ls m ts) (h' : Contributes m ls' o' ts') :
    Contributes o (ls ++ ls') o' (ts ++ ts') := by
  induction h with
  | nil => exact h'
  | batch hc hg _ ih => exact .batch hc hg (ih h')
  | line hc hg ha _ ih => exact .line hc hg ha (ih h')

theorem contributes_no_lf {o o' : Bool} {ls ts : List Str} (h : Contributes o ls o' ts) (hl : ∀ l ∈ ls, '\n' ∉ l) : '\n' ∉ ts.flatten := by
  induction h with
  | nil => simp
  | batch _ _ _ ih => exact ih (fun l h => hl l (by simp [h]))
  | @line o m o' l c t ls ts hc _ ha _ ih =>
    rw [List.flatten_cons, List.mem_append, not_or]
    refine ⟨?_, ih (fun l h => hl l (by simp [h]))⟩
    intro hx
    rcases lineAdds_mem ha hx with h | h
    · exact absurd h (by decide)
    · rw [lineCode_iff.1 hc] at h
      exact hl l (by simp) ((strip_infix l).subset ((partitionS_fst_prefix _ _).subset h))

/-! ## Tabs -/

theorem detab_char {c : Char} (h1 : c ≠ ' ') (h2 : c ≠ '\t') (x : Char) : (c == if x = '\t' then ' ' else x) = (c == x) := by
  by_cases hx : x = '\t'
  · subst hx
    simp only [if_true]
    rw [beq_eq_false_iff_ne.2 h1, beq_eq_false_iff_ne.2 h2]
  · rw [if_neg hx]

theorem isPrefixOf_detab : ∀ {sub : Str}, ' ' ∉ sub → '\t' ∉ sub → ∀ s, sub.isPrefixOf (detab s) = sub.isPrefixOf s
  | [], _, _, s => by simp
  | c :: sub, h1, h2, [] => rfl
  | c :: sub, h1, h2, x :: s => by
    simp only [List.mem_cons, not_or] at h1 h2
    show (c == _ && sub.isPrefixOf (detab s)) = (c == x && sub.isPrefixOf s)
    rw [detab_char (Ne.symm h1.1) (Ne.symm h2.1), isPrefixOf_detab h1.2 h2.2]

theorem detab_drop (n : Nat) (s : Str) : (detab s).drop n = detab (s.drop n) := by simp [detab]

theorem partitionS_detab {sub : Str} (h1 : ' ' ∉ sub) (h2 : '\t' ∉ sub) : ∀ s,
    partitionS sub (detab s) = (detab (partitionS sub s).1, (partitionS sub s).2.1, detab (partitionS sub s).2.2)
  | [] => by
    show partitionS sub [] = _
    unfold partitionS
    split <;> rfl
  | x :: s => by
    have hp := isPrefixOf_detab h1 h2 (x :: s)
    have hd := detab_drop sub.length (x :: s)
    have e : detab (x :: s) = (if x = '\t' then ' ' else x) :: detab s := rfl
    rw [e] at hp hd ⊢
    rw [partitionS, partitionS, hp, hd, partitionS_detab h1 h2 s]
    split <;> rfl

theorem hasSub_detab {sub : Str} (h1 : ' ' ∉ sub) (h2 : '\t' ∉ sub) (s : Str) : hasSub sub (detab s) = hasSub sub s := by
  by_cases h : sub <:+: s
  · rw [hasSub_iff.2 h, hasSub_iff]
    obtain ⟨a, b, rfl⟩ := h
    refine ⟨detab a, detab b, ?_⟩
    rw [detab_append, detab_append]
    congr 2
    clear * - h2
    induction sub with
    | nil => rfl
    | cons c t ih =>
      simp only [List.mem_cons, not_or] at h2
      show _ = (if c = '\t' then ' ' else c) :: detab t
      rw [if_neg (Ne.symm h2.1), ← ih h2.2]
  · rw [hasSub_false_iff.2 h, hasSub_false_iff]
    exact fun h' => h (infix_detab h1 h')

theorem addOf_detab (o : Bool) (c : Str) : addOf o (detab c) = ((addOf o c).1, detab (addOf o c).2) := by
  have p1 := partitionS_detab (sub := c!"*/") (by decide) (by decide) c
  have p2 := partitionS_detab (sub := c!"/*") (by decide) (by decide) c
  have p3 := partitionS_detab (sub := c!"*/") (by decide) (by decide) (partitionS c!"/*" c).2.2
  unfold addOf bufferLine
  cases o with
  | true =>
    simp only [if_true]
    rw [hasSub_detab (by decide) (by decide)]
    split
    · simp only [p1, List.nil_append]
    · rfl
  | false =>
    simp only [Bool.false_eq_true, if_false]
    rw [hasSub_detab (by decide) (by decide)]
    split
    · simp only [p2]
      rw [hasSub_detab (by decide) (by decide)]
      split
      · simp only [p3, List.nil_append, detab_append]
      · rfl
    · rfl

/-! ## Reading -/

/-- Reading a line of which tabs have become blanks. -/
def rawLine (st : ReadSt) (l : Str) : ReadSt :=
  if startsWith (detab (rcode l)) c!"GO" then st else release (bufferLine st (detab (rcode l)))

theorem sameSt_raw (ls : List Str) : ∀ {s t : ReadSt}, SameSt s t → SameSt (ls.foldl readLine s) (ls.foldl rawLine t) := by
  induction ls with
  | nil => intro s t h; exact h
  | cons l ls ih =>
    intro s t h
    refine ih ?_
    rw [readLine_eq]
    unfold rawLine
    have e : sq (codeOf l) = sq (detab (rcode l)) := sq_codeOf l
    rw [startsWith_congr (by decide) e]
    split
    · exact h
    · exact (h.bufferLine e).release

/-- A text is added, and a statement taken off. -/
def addText (p : List Str × Str) (t : Str) : List Str × Str :=
  if ';' ∈ p.2 ++ t then (p.1 ++ [strip (partitionS c!";" (p.2 ++ t)).1], (partitionS c!";" (p.2 ++ t)).2.2) else (p.1, p.2 ++ t)

theorem foldl_rawLine {o o' : Bool} {ls ts : List Str} (h : Contributes o ls o' ts) : ∀ {st : ReadSt}, st.inComment = o →
    ((ls.foldl rawLine st).statements, (ls.foldl rawLine st).buffer) = (ts.map detab).foldl addText (st.statements, st.buffer) := by
  induction h with
  | nil => intro st _; rfl
  | @batch o o' l c ls ts hc hg _ ih =>
    intro st ho
    rw [List.foldl_cons]
    have : rawLine st l = st := by
      unfold rawLine startsWith
      rw [isPrefixOf_detab (by decide) (by decide), ← lineCode_iff.1 hc, if_pos (List.isPrefixOf_iff_prefix.2 hg)]
    rw [this]
    exact ih ho
  | @line o m o' l c t ls ts hc hg ha _ ih =>
    intro st ho
    rw [List.foldl_cons, List.map_cons, List.foldl_cons]
    have e : rawLine st l = release { st with inComment := m, buffer := st.buffer ++ detab t } := by
      unfold rawLine startsWith
      rw [isPrefixOf_detab (by decide) (by decide), ← lineCode_iff.1 hc,
        if_neg (fun h => hg (List.isPrefixOf_iff_prefix.1 h)), bufferLine_addOf, addOf_detab, ho, lineAdds_of ha]
    rw [e, ih (by unfold release; split <;> rfl)]
    congr 1
    unfold release addText
    by_cases hs : ';' ∈ st.buffer ++ detab t
    · rw [if_pos (hasSub_single.2 hs), if_pos hs]
    · rw [if_neg (fun h => hs (hasSub_single.1 h)), if_neg hs]

theorem foldl_addText (ts : List Str) : ∃ raws, (ts.foldl addText ([], [])).1 = raws.map strip ∧
    raws ++ splitC ';' (ts.foldl addText ([], [])).2 = splitC ';' ts.flatten := by
  induction ts using snocInd with
  | nil => exact ⟨[], rfl, rfl⟩
  | append_singleton ts t ih =>
    obtain ⟨raws, h1, h2⟩ := ih
    rw [List.foldl_append, List.foldl_cons, List.foldl_nil]
    have h3 : raws ++ splitC ';' ((ts.foldl addText ([], [])).2 ++ t) = splitC ';' (ts ++ [t]).flatten := by
      rw [List.flatten_append, List.flatten_cons, List.flatten_nil, List.append_nil]
      exact splitC_extend h2 _
    generalize ts.foldl addText ([], []) = p at h1 h2 h3 ⊢
    unfold addText
    by_cases hs : ';' ∈ p.2 ++ t
    · rw [if_pos hs]
      obtain ⟨a, b, e, ha⟩ := split_first hs
      rw [e, partitionS_char ha]
      refine ⟨raws ++ [a], by simp [h1], ?_⟩
      rw [← h3, e, splitC_cons ha]
      simp
    · rw [if_neg hs]
      exact ⟨raws, h1, h3⟩

theorem count_addText (p : List Str × Str) (t : Str) : (addText p t).2.count ';' = p.2.count ';' + t.count ';' - 1 := by
  unfold addText
  split
  · rename_i h
    obtain ⟨a, b, e, ha⟩ := split_first h
    have hc : (p.2 ++ t).count ';' = (a ++ ';' :: b).count ';' := by rw [e]
    rw [e, partitionS_char ha]
    simp only [List.count_append, List.count_cons_self, List.count_eq_zero.2 ha] at hc ⊢
    omega
  · rename_i h
    have := List.count_eq_zero.2 h
    simp only [List.count_append] at this ⊢
    omega

/-- How many semicolons are left at the end. -/
theorem foldl_addText_count (ts : List Str) : ∀ m : Nat,
    (ts.foldl addText ([], [])).2.count ';' ≤ m ↔ ∀ b, b <:+ ts → semicolons b ≤ b.length + m := by
  induction ts using snocInd with
  | nil => intro m; simp [semicolons]
  | append_singleton ts l ih =>
    intro m
    rw [List.foldl_append, List.foldl_cons, List.foldl_nil, count_addText]
    constructor
    · intro hm b hb
      rcases List.eq_nil_or_concat b with rfl | ⟨b', x, rfl⟩
      · simp [semicolons]
      · simp only [List.concat_eq_append] at hb ⊢
        obtain ⟨a, ha⟩ := hb
        rw [← List.append_assoc] at ha
        obtain ⟨h1, h3⟩ := List.append_inj' ha rfl
        cases h3
        have := (ih (m + 1 - l.count ';')).1 (by omega) b' ⟨a, h1⟩
        simp only [semicolons_eq, List.flatten_append, List.count_append, List.length_append, List.flatten_cons, List.flatten_nil,
          List.append_nil, List.length_cons, List.length_nil] at this ⊢
        omega
    · intro hb
      have hc : l.count ';' ≤ m + 1 := by
        have := hb [l] (List.suffix_append ts [l])
        simp [semicolons_eq] at this
        omega
      have := (ih (m + 1 - l.count ';')).2 (by
        intro b hs
        have := hb (b ++ [l]) (by obtain ⟨a, rfl⟩ := hs; exact ⟨a, by simp⟩)
        simp only [semicolons_eq, List.flatten_append, List.count_append, List.length_append, List.flatten_cons, List.flatten_nil,
          List.append_nil, List.length_cons, List.length_nil] at this ⊢
        omega)
      omega

theorem late_iff {ts : List Str} {k : Nat} : Late ts k ↔ k = (ts.foldl addText ([], [])).2.count ';' := by
  have key := foldl_addText_count ts
  generalize (ts.foldl addText ([], [])).2.count ';' = n at key ⊢
  constructor
  · rintro ⟨h1, b, hb, h2⟩
    have := (key k).2 h1
    have := (key n).1 (Nat.le_refl _) b hb
    omega
  · rintro rfl
    refine ⟨(key _).1 (Nat.le_refl _), ?_⟩
    cases k with
    | zero => exact ⟨[], List.nil_suffix, by simp [semicolons]⟩
    | succ k =>
      have hn : ¬ ∀ b, b <:+ ts → semicolons b ≤ b.length + k := fun h => by have := (key k).2 h; omega
      push Not at hn
      obtain ⟨b, hb, h⟩ := hn
      have := (key (k + 1)).1 (Nat.le_refl _) b hb
      exact ⟨b, hb, by omega⟩

theorem count_detab {c : Char} (h1 : c ≠ ' ') (h2 : c ≠ '\t') (s : Str) : (detab s).count c = s.count c := by
  induction s with
  | nil => rfl
  | cons x s ih =>
    show List.count c ((if x = '\t' then ' ' else x) :: detab s) = _
    rw [List.count_cons, List.count_cons, ih, BEq.comm, detab_char h1 h2, BEq.comm]

theorem detab_flatten (ts : List Str) : (ts.map detab).flatten = detab ts.flatten := by
  induction ts with
  | nil => rfl
  | cons t ts ih => rw [List.map_cons, List.flatten_cons, List.flatten_cons, detab_append, ih]

theorem semicolons_detab (ts : List Str) : semicolons (ts.map detab) = semicolons ts := by
  rw [semicolons_eq, semicolons_eq, detab_flatten, count_detab (by decide) (by decide)]

theorem late_detab {ts : List Str} {k : Nat} : Late (ts.map detab) k ↔ Late ts k := by
  unfold Late
  constructor
  · rintro ⟨h1, b, hb, h2⟩
    refine ⟨fun b hb => ?_, ?_⟩
    · have := h1 _ (hb.map detab)
      rwa [semicolons_detab, List.length_map] at this
    · obtain ⟨a, e⟩ := hb
      obtain ⟨x, y, rfl, -, rfl⟩ := List.map_eq_append_iff.1 e.symm
      exact ⟨y, ⟨x, rfl⟩, by rwa [semicolons_detab, List.length_map] at h2⟩
  · rintro ⟨h1, b, hb, h2⟩
    refine ⟨fun b hb => ?_, b.map detab, hb.map detab, by rwa [semicolons_detab, List.length_map]⟩
    obtain ⟨a, e⟩ := hb
    obtain ⟨x, y, rfl, -, rfl⟩ := List.map_eq_append_iff.1 e.symm
    rw [semicolons_detab, List.length_map]
    exact h1 y ⟨x, rfl⟩

theorem splitC_detab {c : Char} (h1 : c ≠ ' ') (h2 : c ≠ '\t') (s : Str) : splitC c (detab s) = (splitC c s).map detab := by
  by_cases h : c ∈ s
  · obtain ⟨a, b, e, ha⟩ := split_first h
    have hlen : b.length < s.length := by rw [e]; simp; omega
    rw [e, splitC_cons ha, detab_append]
    show splitC c (detab a ++ (if c = '\t' then ' ' else c) :: detab b) = _
    rw [if_neg h2, splitC_cons (by rwa [mem_detab c h1 h2]), splitC_detab h1 h2 b, List.map_cons]
  · rw [splitC_plain h, splitC_plain (by rwa [mem_detab c h1 h2])]
    rfl
termination_by s.length

theorem lstrip_detab (s : Str) : lstrip (detab s) = detab (lstrip s) := by
  induction s with
  | nil => rfl
  | cons c s ih =>
    show lstrip ((if c = '\t' then ' ' else c) :: detab s) = _
    rw [lstrip_cons, lstrip_cons]
    by_cases h : c = '\t'
    · subst h
      simp only [if_true]
      rw [if_pos (by decide), if_pos (by decide), ih]
    · rw [if_neg h]
      split
      · exact ih
      · show _ = (if c = '\t' then ' ' else c) :: detab s
        rw [if_neg h]

theorem rstrip_detab (s : Str) : rstrip (detab s) = detab (rstrip s) := by
  induction s using snocInd with
  | nil => rfl
  | append_singleton s c ih =>
    rw [detab_append, show detab [c] = [if c = '\t' then ' ' else c] from rfl, rstrip_snoc, rstrip_snoc]
    by_cases h : c = '\t'
    · subst h
      simp only [if_true]
      rw [if_pos (by decide), if_pos (by decide), ih]
    · rw [if_neg h]
      split
      · exact ih
      · rw [detab_append, show detab [c] = [if c = '\t' then ' ' else c] from rfl, if_neg h]

theorem strip_detab (s : Str) : strip (detab s) = detab (strip s) := by
  unfold strip
  rw [lstrip_detab, rstrip_detab]

theorem sq_strip_tidy {s : Str} (h : '\n' ∉ s) : sq (strip (detab s)) = tidy (strip s) := by
  have ht := strip_trim (detab s)
  have ht' : Trim (sq (strip (detab s))) := by
    have := strip_trim (sq (strip (detab s)))
    rwa [strip_sq, show strip (strip (detab s)) = strip (detab s) from ht.strip] at this
  have hq : ∀ c ∈ sq (strip (detab s)), wgap c = true → c = ' ' := by
    intro c hc hg
    by_contra hn
    rw [mem_sq hn] at hc
    have hc := (strip_infix _).subset hc
    simp only [detab, List.mem_map] at hc
    obtain ⟨x, hx, e⟩ := hc
    split at e
    · exact hn e.symm
    · rename_i hx'
      subst e
      simp only [wgap, Bool.or_eq_true, beq_iff_eq] at hg
      rcases hg with (h' | h') | h'
      · exact hn h'
      · exact hx' h'
      · subst h'; exact h hx
  rw [← joinS_words hq ht'.blanks.1 ht'.blanks.2 (sq_idem _), words_sq, strip_detab, words_detab]
  rfl

theorem statementOf_iff {l ss : List Str} : List.Forall₂ StatementOf l ss ↔ ss = l.map (fun p => tidy (strip p)) := by
  constructor
  · intro h
    induction h with
    | nil => rfl
    | cons h _ ih =>
      obtain ⟨x, hx, rfl⟩ := h
      rw [ih, padded_iff.1 hx]
      rfl
  · rintro rfl
    rw [List.forall₂_map_right_iff]
    exact List.forall₂_same.2 (fun p _ => ⟨_, padded_iff.2 rfl, rfl⟩)

/-- The statements of lines, for all lines. -/
theorem getStatements_contributes {o : Bool} {ls ts : List Str} {k : Nat} (hl : ∀ l ∈ ls, '\n' ∉ l) (h : Contributes false ls o ts) (hk : Late ts k) :
    getStatements ls = ((terminated ts.flatten).take (semicolons ts - k)).map (fun p => tidy (strip p)) := by
  have e1 : getStatements ls = (ls.foldl rawLine {}).statements.map sq := (sameSt_raw ls (SameSt.refl {})).statements
  have e2 := foldl_rawLine h (st := {}) rfl
  obtain ⟨raws, h1, h2⟩ := foldl_addText (ts.map detab)
  have hk := late_iff.1 (late_detab.2 hk)
  rw [detab_flatten, splitC_detab (by decide) (by decide)] at h2
  have e3 : (ls.foldl rawLine {}).statements = ((ts.map detab).foldl addText ([], [])).1 := congrArg Prod.fst e2
  rw [e1, e3, h1]
  have hlen : raws.length + (k + 1) = semicolons ts + 1 := by
    have := congrArg List.length h2
    rw [List.length_append, length_splitC, List.length_map, length_splitC, ← hk, ← semicolons_eq] at this
    exact this
  have hr : raws = ((splitC ';' ts.flatten).take (semicolons ts - k)).map detab := by
    rw [List.map_take, ← h2, List.take_left' (by omega)]
  have ht : (terminated ts.flatten).take (semicolons ts - k) = (splitC ';' ts.flatten).take (semicolons ts - k) := by
    unfold terminated
    rw [pieces_eq_splitC, List.dropLast_eq_take, List.take_take, length_splitC, ← semicolons_eq]
    congr 1
    omega
  rw [ht, hr, List.map_map, List.map_map]
  apply List.map_congr_left
  intro p hp
  exact sq_strip_tidy (fun hx => contributes_no_lf h hl (mem_of_splitC (List.take_subset _ _ hp) hx))

theorem fileStatements_iff {content : Str} {ss : List Str} : FileStatements content ss ↔ getStatements (fileLines content) = ss := by
  constructor
  · rintro ⟨ls, o, ts, k, h1, h2, h3, h4⟩
    rw [fileLines_of h1, statementOf_iff.1 h4]
    exact getStatements_contributes (fun l hl => (areLines_of h1 l hl).1) h2 h3
  · rintro rfl
    obtain ⟨o, ts, h2⟩ := contributes_total false (fileLines content)
    have h1 := textLines_iff.2 (rfl : fileLines content = _)
    have h3 := late_iff.2 (rfl : _ = (ts.foldl addText ([], [])).2.count ';')
    exact ⟨_, o, ts, _, h1, h2, h3, statementOf_iff.2 (getStatements_contributes (fun l hl => (areLines_of h1 l hl).1) h2 h3)⟩

/-! ## Inserting a line -/

theorem pieces_glue (p : Char → Bool) : ∀ {u v : Str} {A B : List Str} {s r : Str}, pieces p u = A ++ [s] → pieces p v = r :: B →
    pieces p (u ++ v) = A ++ (s ++ r) :: B
  | [], v, A, B, s, r, h, h' => by
    have : A = [] ∧ s = [] := by
      cases A with
      | nil => simpa [pieces] using h.symm
      | cons a A =>
        have := congrArg List.length h
        simp [pieces] at this
    rw [this.1, this.2, List.nil_append, h']
    rfl
  | c :: u, v, A, B, s, r, h, h' => by
    rw [List.cons_append]
    rw [pieces] at h ⊢
    split
    · rename_i hc
      rw [if_pos hc] at h
      cases A with
      | nil =>
        simp only [List.nil_append, List.cons.injEq] at h
        exact absurd h.2 (pieces_ne_nil p u)
      | cons a A =>
        simp only [List.cons_append, List.cons.injEq] at h
        rw [pieces_glue p h.2 h', ← h.1]
        rfl
    · rename_i hc
      rw [if_neg hc] at h
      cases hu : pieces p u with
      | nil => exact absurd hu (pieces_ne_nil p u)
      | cons w ws =>
        rw [hu] at h
        simp only at h
        cases A with
        | nil =>
          simp only [List.nil_append, List.cons.injEq] at h
          rw [pieces_glue p (A := []) (s := w) (by rw [hu, h.2]; rfl) h', ← h.1]
          rfl
        | cons a A =>
          simp only [List.cons_append, List.cons.injEq] at h
          rw [pieces_glue p (A := w :: A) (s := s) (by rw [hu, h.2]; rfl) h', ← h.1]
          rfl

theorem pieces_last (p : Char → Bool) (s : Str) {x : Char} (hx : p x = false) : ∃ A t, pieces p (s ++ [x]) = A ++ [t ++ [x]] := by
  rcases List.eq_nil_or_concat (pieces p s) with h | ⟨A, t, h⟩
  · exact absurd h (pieces_ne_nil p s)
  · exact ⟨A, t, pieces_glue p (by simpa using h) (by simp [pieces, hx])⟩

theorem pieces_head (p : Char → Bool) (s : Str) {x : Char} (hx : p x = false) : ∃ t B, pieces p (x :: s) = (x :: t) :: B := by
  rw [pieces, if_neg (by simp [hx])]
  cases h : pieces p s with
  | nil => exact absurd h (pieces_ne_nil p s)
  | cons t B => exact ⟨t, B, rfl⟩

theorem words_joinS : ∀ {ws : List Str}, (∀ w ∈ ws, w ≠ [] ∧ ∀ c ∈ w, wgap c = false) → words (joinS [' '] ws) = ws
  | [], _ => rfl
  | [w], h => words_word (h w (by simp)).1 (h w (by simp)).2
  | w :: v :: ws, h => by
    show words (w ++ [' '] ++ joinS [' '] (v :: ws)) = _
    rw [List.append_assoc, List.singleton_append, words_append rfl, words_word (h w (by simp)).1 (h w (by simp)).2,
      words_joinS (fun x hx => h x (by simp at hx ⊢; tauto))]
    rfl

theorem pieces_mem {p : Char → Bool} : ∀ {s w : Str}, w ∈ pieces p s → ∀ c ∈ w, p c = false
  | [], w, h, c, hc => by
    simp only [pieces, List.mem_singleton] at h
    subst h; cases hc
  | x :: s, w, h, c, hc => by
    rw [pieces] at h
    split at h
    · rcases List.mem_cons.1 h with rfl | h
      · cases hc
      · exact pieces_mem h c hc
    · rename_i hx
      cases hp : pieces p s with
      | nil => exact absurd hp (pieces_ne_nil p s)
      | cons v vs =>
        rw [hp] at h
        rcases List.mem_cons.1 h with rfl | h
        · rcases List.mem_cons.1 hc with rfl | hc
          · simpa using hx
          · exact pieces_mem (s := s) (by rw [hp]; simp) c hc
        · exact pieces_mem (s := s) (by rw [hp]; simp [h]) c hc

theorem words_tidy (s : Str) : words (tidy s) = words s := by
  refine words_joinS (fun w hw => ?_)
  unfold words at hw
  rw [List.mem_filter] at hw
  exact ⟨by simpa using hw.2, pieces_mem hw.1⟩

/-- A blank between two texts changes the words exactly if nothing keeps them apart. -/
theorem tidy_glue {u v : Str} (hu : PlainSpace u) (hv : PlainSpace v) :
    tidy (u ++ v) = tidy (u ++ ' ' :: v) ↔ ¬ ∃ a x y b, u = a ++ [x] ∧ v = y :: b ∧ isSpace x = false ∧ isSpace y = false := by
  constructor
  · rintro e ⟨a, x, y, b, rfl, rfl, hx, hy⟩
    have hx' : wgap x = false := by rw [Bool.eq_false_iff]; intro h; rw [space_wgap h] at hx; cases hx
    have hy' : wgap y = false := by rw [Bool.eq_false_iff]; intro h; rw [space_wgap h] at hy; cases hy
    obtain ⟨A, t, h1⟩ := pieces_last wgap a hx'
    obtain ⟨t', B, h2⟩ := pieces_head wgap b hy'
    have h3 := pieces_glue wgap h1 h2
    have e := congrArg (fun s => (words s).length) e
    simp only [words_tidy] at e
    rw [words_append (g := ' ') rfl] at e
    unfold words at e
    rw [show (fun c => c == ' ' || c == '\t' || c == '\n') = wgap from rfl, h1, h2, h3] at e
    simp at e
  · intro h
    unfold tidy
    congr 1
    rw [words_append (g := ' ') rfl]
    rcases List.eq_nil_or_concat u with rfl | ⟨a, x, rfl⟩
    · simp [words_nil]
    · rw [List.concat_eq_append] at *
      by_cases hx : isSpace x = true
      · have := wgap_of_space hu (by simp) hx
        rw [words_snoc_gap this, List.append_assoc, List.singleton_append, words_append this]
      · cases v with
        | nil => simp [words_nil]
        | cons y b =>
          by_cases hy : isSpace y = true
          · have := wgap_of_space hv (by simp) hy
            rw [words_append this, words_gap this]
          · exact absurd ⟨a, x, y, b, rfl, rfl, by simpa using hx, by simpa using hy⟩ h

theorem late_unique {ts : List Str} {k k' : Nat} (h : Late ts k) (h' : Late ts k') : k = k' := by
  rw [late_iff] at h h'
  rw [h, h']

theorem late_total (ts : List Str) : ∃ k, Late ts k := ⟨_, late_iff.2 rfl⟩

theorem semicolons_append (a b : List Str) : semicolons (a ++ b) = semicolons a + semicolons b := by
  simp [semicolons_eq]

theorem late_le {ts : List Str} {k : Nat} (h : Late ts k) : k ≤ semicolons ts := by
  obtain ⟨-, b, ⟨a, rfl⟩, e⟩ := h
  rw [semicolons_append]
  omega

/-- Entries without semicolons in between take up part of what is found too late, unless that is all behind them. -/
theorem late_insert {ts1 ts0 ts2 : List Str} (h0 : ts0 ≠ []) (hs : semicolons ts0 = 0) {k k' : Nat} (h : Late (ts1 ++ ts2) k) (h' : Late (ts1 ++ ts0 ++ ts2) k') :
    k' = k ↔ Late ts2 k := by
  have hlen : 0 < ts0.length := List.length_pos_iff.2 h0
  have mono : ∀ b, b <:+ ts2 → semicolons b ≤ b.length + k := fun b hb => h.1 b (hb.trans (List.suffix_append _ _))
  have cases0 : ∀ b, b <:+ ts1 ++ ts0 ++ ts2 → b <:+ ts2 ∨ (∃ c, c <:+ ts0 ∧ b = c ++ ts2) ∨ ∃ c, c <:+ ts1 ∧ b = c ++ ts0 ++ ts2 := by
    intro b hb
    rcases List.suffix_or_suffix_of_suffix hb (List.suffix_append (ts1 ++ ts0) ts2) with h1 | ⟨c, rfl⟩
    · exact .inl h1
    · right
      obtain ⟨a, ha⟩ := hb
      rw [← List.append_assoc] at ha
      have hc : c <:+ ts1 ++ ts0 := ⟨a, List.append_cancel_right ha⟩
      rcases List.suffix_or_suffix_of_suffix hc (List.suffix_append ts1 ts0) with h1 | ⟨d, rfl⟩
      · exact .inl ⟨c, h1, rfl⟩
      · refine .inr ⟨d, ?_, rfl⟩
        obtain ⟨a, ha⟩ := hc
        rw [← List.append_assoc] at ha
        exact ⟨a, List.append_cancel_right ha⟩
  constructor
  · rintro rfl
    refine ⟨mono, ?_⟩
    obtain ⟨-, b, hb, e⟩ := h'
    rcases cases0 b hb with h1 | ⟨c, ⟨d, hc⟩, rfl⟩ | ⟨c, hc, rfl⟩
    · exact ⟨b, h1, e⟩
    · have h3 : semicolons c = 0 := by
        have := semicolons_append d c
        rw [hc, hs] at this
        omega
      have := mono ts2 (List.suffix_refl _)
      rw [semicolons_append, List.length_append] at e
      exact ⟨ts2, List.suffix_refl _, by omega⟩
    · have hx := h.1 (c ++ ts2) (by obtain ⟨d, rfl⟩ := hc; exact ⟨d, by simp⟩)
      simp only [semicolons_append, List.length_append] at e hx
      omega
  · rintro ⟨h1, b, hb, e⟩
    have hle : k ≤ k' := by
      have := h'.1 b (hb.trans (List.suffix_append _ _))
      omega
    obtain ⟨-, b', hb', e'⟩ := h'
    rcases cases0 b' hb' with h2 | ⟨c, ⟨d, hc⟩, rfl⟩ | ⟨c, hc, rfl⟩
    · have := h1 b' h2
      omega
    · have h3 : semicolons c = 0 := by
        have := semicolons_append d c
        rw [hc, hs] at this
        omega
      have := h1 ts2 (List.suffix_refl _)
      rw [semicolons_append, List.length_append] at e'
      omega
    · have hx := h.1 (c ++ ts2) (by obtain ⟨d, rfl⟩ := hc; exact ⟨d, by simp⟩)
      simp only [semicolons_append, List.length_append] at e' hx
      omega

theorem length_terminated (ts : List Str) : (terminated ts.flatten).length = semicolons ts := by
  unfold terminated
  rw [pieces_eq_splitC, List.length_dropLast, length_splitC, semicolons_eq]
  rfl

theorem take_map_eq {f : Str → Str} {l l' : List Str} {n n' : Nat} (hn : n ≤ l.length) (hn' : n' ≤ l'.length)
    (h : (l.take n).map f = (l'.take n').map f) : n = n' := by
  have := congrArg List.length h
  simp only [List.length_map, List.length_take] at this
  omega

/-- Lines that add nothing to the text. -/
theorem getStatements_insert_nothing {o o' : Bool} {pre ls0 post ts1 ts0 ts2 : List Str} (hl : ∀ l ∈ pre ++ ls0 ++ post, '\n' ∉ l)
    (h1 : Contributes false pre o ts1) (h0 : Contributes o ls0 o ts0) (h2 : Contributes o post o' ts2) (hne : ts0 ≠ []) (hf : ts0.flatten = []) :
    getStatements (pre ++ post) = getStatements (pre ++ ls0 ++ post) ↔ ∃ k, Late (ts1 ++ ts2) k ∧ Late ts2 k := by
  obtain ⟨k, hk⟩ := late_total (ts1 ++ ts2)
  obtain ⟨k', hk'⟩ := late_total (ts1 ++ ts0 ++ ts2)
  have hs : semicolons ts0 = 0 := by rw [semicolons_eq, hf]; rfl
  have hi := late_insert hne hs hk hk'
  rw [getStatements_contributes (fun l h => hl l (by simp only [List.mem_append] at h ⊢; tauto)) (contributes_append h1 h2) hk,
    getStatements_contributes hl (contributes_append (contributes_append h1 h0) h2) hk']
  have hf' : (ts1 ++ ts0 ++ ts2).flatten = (ts1 ++ ts2).flatten := by simp [hf]
  have hs' : semicolons (ts1 ++ ts0 ++ ts2) = semicolons (ts1 ++ ts2) := by rw [semicolons_eq, semicolons_eq, hf']
  rw [hf', hs']
  have e1 := late_le hk
  have e2 := late_le hk'
  constructor
  · intro h
    have := take_map_eq (by rw [length_terminated]; omega) (by rw [length_terminated]; omega) h
    exact ⟨k, hk, hi.1 (by omega)⟩
  · rintro ⟨k2, h3, h4⟩
    have := late_unique hk h3
    subst this
    rw [hi.2 h4]

theorem contributes_plain {o o' : Bool} {ls ts : List Str} (h : Contributes o ls o' ts) (hl : ∀ l ∈ ls, PlainSpace l) : PlainSpace ts.flatten := by
  induction h with
  | nil => intro c hc; cases hc
  | batch _ _ _ ih => exact ih (fun l h => hl l (by simp [h]))
  | @line o m o' l c t ls ts hc _ ha _ ih =>
    intro x hx hs
    rw [List.flatten_cons, List.mem_append] at hx
    rcases hx with hx | hx
    · rcases lineAdds_mem ha hx with h | h
      · exact .inl h
      · rw [lineCode_iff.1 hc] at h
        exact hl l (by simp) x ((strip_infix l).subset ((partitionS_fst_prefix _ _).subset h)) hs
    · exact ih (fun l h => hl l (by simp [h])) x hx hs

theorem plainSpace_append {a b : Str} (ha : PlainSpace a) (hb : PlainSpace b) : PlainSpace (a ++ b) := fun c hc =>
  (List.mem_append.1 hc).elim (ha c) (hb c)

/-- Lines that add a blank to the text. -/
theorem getStatements_insert_blank {o' : Bool} {pre ls0 post ts1 ts0 ts2 : List Str} (hl : ∀ l ∈ pre ++ ls0 ++ post, '\n' ∉ l)
    (hp : ∀ l ∈ pre ++ post, PlainSpace l) (h1 : Contributes false pre false ts1) (h0 : Contributes false ls0 false ts0) (h2 : Contributes false post o' ts2)
    (hf : ts0.flatten = [' ']) :
    getStatements (pre ++ post) = getStatements (pre ++ ls0 ++ post) ↔
      ∃ k, Late (ts1 ++ ts2) k ∧ Late ts2 k ∧ (Glued ts1 ts2 → semicolons ts2 ≤ k) := by
  obtain ⟨k, hk⟩ := late_total (ts1 ++ ts2)
  obtain ⟨k', hk'⟩ := late_total (ts1 ++ ts0 ++ ts2)
  have hne : ts0 ≠ [] := by rintro rfl; simp at hf
  have hs : semicolons ts0 = 0 := by rw [semicolons_eq, hf]; rfl
  have hi := late_insert hne hs hk hk'
  rw [getStatements_contributes (fun l h => hl l (by simp only [List.mem_append] at h ⊢; tauto)) (contributes_append h1 h2) hk,
    getStatements_contributes hl (contributes_append (contributes_append h1 h0) h2) hk']
  have hs' : semicolons (ts1 ++ ts0 ++ ts2) = semicolons ts1 + semicolons ts2 := by rw [semicolons_append, semicolons_append, hs, Nat.add_zero]
  have e1 := late_le hk
  have e2 := late_le hk'
  have l1 := length_terminated (ts1 ++ ts2)
  have l2 := length_terminated (ts1 ++ ts0 ++ ts2)
  rw [semicolons_append] at e1 l1
  rw [hs'] at e2 l2
  rw [hs', semicolons_append]
  have p1 := contributes_plain h1 (fun l h => hp l (by simp [h]))
  have p2 := contributes_plain h2 (fun l h => hp l (by simp [h]))
  -- the text around the place
  obtain ⟨A, u, hA⟩ : ∃ A u, pieces (· == ';') ts1.flatten = A ++ [u] := by
    rcases List.eq_nil_or_concat (pieces (· == ';') ts1.flatten) with h | ⟨A, t, h⟩
    · exact absurd h (pieces_ne_nil _ _)
    · exact ⟨A, t, by simpa using h⟩
  obtain ⟨v, B, hB⟩ : ∃ v B, pieces (· == ';') ts2.flatten = v :: B := by
    cases h : pieces (· == ';') ts2.flatten with
    | nil => exact absurd h (pieces_ne_nil _ _)
    | cons v B => exact ⟨v, B, rfl⟩
  have hAlen : A.length = semicolons ts1 := by
    have := congrArg List.length hA
    rw [pieces_eq_splitC, length_splitC, ← semicolons_eq] at this
    simpa using this.symm
  have hBlen : B.length = semicolons ts2 := by
    have := congrArg List.length hB
    rw [pieces_eq_splitC, length_splitC, ← semicolons_eq] at this
    simpa using this.symm
  have t1 : pieces (· == ';') (ts1 ++ ts2).flatten = A ++ (u ++ v) :: B := by rw [List.flatten_append]; exact pieces_glue _ hA hB
  have hB' : pieces (· == ';') (' ' :: ts2.flatten) = (' ' :: v) :: B := by
    rw [pieces, if_neg (by decide), hB]
  have t2 : pieces (· == ';') (ts1 ++ ts0 ++ ts2).flatten = A ++ (u ++ ' ' :: v) :: B := by
    rw [List.flatten_append, List.flatten_append, hf, List.append_assoc, List.singleton_append]
    exact pieces_glue _ hA hB'
  have pu : PlainSpace u := fun c hc => p1 c (mem_of_splitC (by rw [← pieces_eq_splitC, hA]; simp) hc)
  have pv : PlainSpace v := fun c hc => p2 c (mem_of_splitC (by rw [← pieces_eq_splitC, hB]; simp) hc)
  have hglue : Glued ts1 ts2 ↔ ∃ a x y b, u = a ++ [x] ∧ v = y :: b ∧ isSpace x = false ∧ isSpace y = false := by
    have hu : ts1.flatten = joinS [';'] (A ++ [u]) := by rw [← hA, pieces_eq_splitC, joinS_splitC]
    constructor
    · rintro ⟨a, x, y, b, ha, hb, hx, hx', hy, hy'⟩
      obtain ⟨A', t, h3⟩ := pieces_last (· == ';') a (x := x) (by simpa using hx')
      obtain ⟨t', B', h4⟩ := pieces_head (· == ';') b (x := y) (by simpa using hy')
      rw [ha, h3] at hA
      rw [hb, h4] at hB
      obtain ⟨-, h5⟩ := List.append_inj' hA rfl
      cases h5
      cases hB
      exact ⟨t, x, y, t', rfl, rfl, hx, hy⟩
    · rintro ⟨a, x, y, b, rfl, rfl, hx, hy⟩
      have hx' : x ≠ ';' := by
        have := pieces_mem (p := (· == ';')) (s := ts1.flatten) (w := a ++ [x]) (by rw [hA]; simp) x (by simp)
        simpa using this
      have hy' : y ≠ ';' := by
        have := pieces_mem (p := (· == ';')) (s := ts2.flatten) (w := y :: b) (by rw [hB]; simp) y (by simp)
        simpa using this
      have e3 : ∃ z, ts1.flatten = z ++ (a ++ [x]) := by
        rw [hu]
        cases A with
        | nil => exact ⟨[], rfl⟩
        | cons w A => exact ⟨_, joinS_append (by simp) (by simp)⟩
      obtain ⟨z, e3⟩ := e3
      have e4 : ∃ z, ts2.flatten = (y :: b) ++ z := by
        have : ts2.flatten = joinS [';'] ((y :: b) :: B) := by rw [← hB, pieces_eq_splitC, joinS_splitC]
        rw [this]
        cases B with
        | nil => exact ⟨[], by simp [joinS]⟩
        | cons w B => exact ⟨[';'] ++ joinS [';'] (w :: B), by simp [joinS]⟩
      obtain ⟨z', e4⟩ := e4
      exact ⟨z ++ a, x, y, b ++ z', by rw [e3, List.append_assoc], e4, hx, hx', hy, hy'⟩
  have hf1 : ∀ s, PlainSpace s → tidy (strip s) = tidy s := fun s hs => by unfold tidy; rw [words_strip hs]
  have hsame := tidy_glue pu pv
  rw [← hglue] at hsame
  have key : ∀ n, n ≤ semicolons ts1 + semicolons ts2 →
      (((terminated (ts1 ++ ts2).flatten).take n).map (fun p => tidy (strip p)) =
        ((terminated (ts1 ++ ts0 ++ ts2).flatten).take n).map (fun p => tidy (strip p)) ↔ (Glued ts1 ts2 → n ≤ semicolons ts1)) := by
    intro n hn
    have dl : ∀ w, (A ++ w :: B).dropLast.take n = (A ++ w :: B).take n := by
      intro w
      rw [List.dropLast_eq_take, List.take_take]
      congr 1
      simp
      omega
    unfold terminated
    rw [t1, t2, dl, dl]
    by_cases hn1 : n ≤ semicolons ts1
    · rw [List.take_append_of_le_length (by omega), List.take_append_of_le_length (by omega)]
      simp [hn1]
    · obtain ⟨m, rfl⟩ : ∃ m, n = A.length + (m + 1) := ⟨n - A.length - 1, by omega⟩
      rw [List.take_length_add_append, List.take_length_add_append, List.take_succ_cons, List.take_succ_cons]
      simp only [List.map_append, List.map_cons]
      rw [hf1 _ (plainSpace_append pu pv), hf1 _ (plainSpace_append pu (fun c hc hs => (List.mem_cons.1 hc).elim .inl (fun h => pv c h hs)))]
      constructor
      · intro h hg
        have := List.append_cancel_left h
        simp only [List.cons.injEq] at this
        exact absurd hg (hsame.1 this.1)
      · intro h
        rw [hsame.2 (fun hg => hn1 (h hg))]
  constructor
  · intro h
    have hn := take_map_eq (by omega) (by omega) h
    have hkk : k' = k := by omega
    refine ⟨k, hk, hi.1 hkk, fun hg => ?_⟩
    rw [hkk] at h
    have := (key _ (by omega)).1 h hg
    omega
  · rintro ⟨k2, h3, h4, h5⟩
    have := late_unique hk h3
    subst this
    rw [hi.2 h4]
    exact (key _ (by omega)).2 (fun hg => by have := h5 hg; omega)

/-! ## Lines without code -/

theorem rcode_noCode {l : Str} (h : NoCode l) : rcode l = [] := by
  unfold rcode
  cases h with
  | blank hw => rw [strip_nil_iff.2 hw]; rfl
  | @comment w c hw =>
    obtain ⟨c', e⟩ := strip_dashes w c
    rw [e, lstrip_spaces hw, List.nil_append]
    simp [partitionS, List.isPrefixOf]

theorem contributes_noCode {l : Str} (h : NoCode l) : Contributes false [l] false [[' ']] ∧ Contributes true [l] true [[]] := by
  have hc := (lineCode_iff (l := l)).2 (rcode_noCode h).symm
  exact ⟨.line hc (by decide) (.plain (by decide)) .nil, .line hc (by decide) (.inside (by decide)) .nil⟩

theorem noDashes_both {c : Str} (h : ¬ c!"--" <:+: c) : ¬ c!"--" <:+: c!"/*" ++ c ++ c!"*/" := by
  refine noDashes_end ?_
  simp only [List.cons_append, List.nil_append, List.infix_cons_iff, not_or]
  refine ⟨by simp, by simp, h⟩

theorem rcode_plain {l : Str} (h : ¬ c!"--" <:+: strip l) : rcode l = strip l := by
  unfold rcode
  rw [partitionS_absent h]

theorem go_close {d : Str} (h : ¬ c!"GO" <+: d) : ¬ c!"GO" <+: d ++ c!"*/" := by
  intro h'
  match d, h, h' with
  | [], _, h' => simp at h'
  | [x], _, h' => simp [List.cons_prefix_cons] at h'
  | x :: y :: d, h, h' =>
    apply h
    simp only [List.cons_append, List.cons_prefix_cons] at h' ⊢
    exact ⟨h'.1, h'.2.1, List.nil_prefix⟩

theorem contributes_inside : ∀ {ls : List Str}, (∀ l ∈ ls, ¬ c!"*/" <:+: l) → ∃ ts, Contributes true ls true ts ∧ ts.flatten = []
  | [], _ => ⟨[], .nil, rfl⟩
  | l :: ls, h => by
    obtain ⟨ts, h1, h2⟩ := contributes_inside (ls := ls) (fun x hx => h x (by simp [hx]))
    by_cases hg : c!"GO" <+: rcode l
    · exact ⟨ts, .batch (lineCode_iff.2 rfl) hg h1, h2⟩
    · refine ⟨[] :: ts, .line (lineCode_iff.2 rfl) hg (.inside ?_) h1, h2⟩
      exact fun h' => h l (by simp) (h'.trans ((partitionS_fst_prefix _ _).isInfix.trans (strip_infix l)))

theorem contributes_blockComment {b : List Str} (h : BlockComment b) : ∃ ts, Contributes false b false ts ∧ ts ≠ [] ∧ ts.flatten = [] := by
  cases h with
  | @one w c w' hw hw' h1 h2 =>
    have e : strip (w ++ c!"/*" ++ c ++ c!"*/" ++ w') = c!"/*" ++ c ++ c!"*/" := by
      have : w ++ c!"/*" ++ c ++ c!"*/" ++ w' = w ++ (c!"/*" ++ c ++ c!"*/") ++ w' := by simp
      rw [this]
      refine strip_pad hw hw' ⟨by intro x hx; simp at hx; subst hx; decide, ?_⟩
      intro x hx
      simp only [List.getLast?_append, List.getLast?_cons_cons, List.getLast?_singleton, Option.some_or, Option.some.injEq] at hx
      subst hx; decide
    have hc : LineCode (w ++ c!"/*" ++ c ++ c!"*/" ++ w') (c!"/*" ++ c ++ c!"*/") :=
      lineCode_iff.2 (by rw [rcode_plain (by rw [e]; exact noDashes_both h2), e])
    refine ⟨[[]], .line hc (by simp [List.cons_prefix_cons]) ?_ .nil, by simp, rfl⟩
    have := LineAdds.whole (a := []) (b := c) (c := []) (by decide) h1
    simpa using this
  | @many w c mid d w' hw hw' h1 h2 h3 h4 h5 =>
    obtain ⟨tm, m1, m2⟩ := contributes_inside h2
    have first : Contributes false [w ++ c!"/*" ++ c] true [[]] := by
      have hs : strip (w ++ c!"/*" ++ c) = c!"/*" ++ rstrip c := by
        unfold strip
        rw [List.append_assoc, lstrip_append_space hw]
        rcases space_or c with h | h
        · rw [show lstrip (c!"/*" ++ c) = c!"/*" ++ c from rfl, rstrip_append_space h]
          have : rstrip c = [] := by
            have := rstrip_append_space (a := []) h
            rw [List.nil_append] at this
            exact this
          rw [this]
          decide
        · rw [show lstrip (c!"/*" ++ c) = c!"/*" ++ c from rfl, rstrip_append_of h]
      have hr : ∃ r, r <+: rstrip c ∧ rcode (w ++ c!"/*" ++ c) = c!"/*" ++ r := by
        unfold rcode
        rw [hs]
        refine ⟨(partitionS c!"--" (rstrip c)).1, partitionS_fst_prefix _ _, ?_⟩
        simp only [List.cons_append, List.nil_append]
        rw [partitionS, if_neg (by simp [List.isPrefixOf]), partitionS, if_neg (by simp [List.isPrefixOf])]
      obtain ⟨r, hr1, hr2⟩ := hr
      refine .line (lineCode_iff.2 hr2.symm) (by simp [List.cons_prefix_cons]) ?_ .nil
      have := LineAdds.opens (a := []) (b := r) (by decide) (fun h => h1 (h.trans (hr1.isInfix.trans (rstrip_prefix c).isInfix)))
      simpa using this
    have last : Contributes true [d ++ c!"*/" ++ w'] false [[]] := by
      have e : strip (d ++ c!"*/" ++ w') = lstrip d ++ c!"*/" := by
        rw [strip_append_space hw']
        unfold strip
        have hl : lstrip (d ++ c!"*/") = lstrip d ++ c!"*/" := by
          rcases space_or d with h | h
          · rw [lstrip_append_space h, lstrip_spaces h]; rfl
          · rw [lstrip_append_of h]
        rw [hl, show lstrip d ++ c!"*/" = (lstrip d ++ c!"*") ++ ['/'] by simp, rstrip_id (by decide)]
      have hd : ¬ c!"--" <:+: lstrip d := fun h => h4 (infix_lstrip h)
      have hc : LineCode (d ++ c!"*/" ++ w') (lstrip d ++ c!"*/") :=
        lineCode_iff.2 (by rw [rcode_plain (by rw [e]; exact noDashes_end hd), e])
      refine .line hc (go_close h5) ?_ .nil
      have := LineAdds.closes (a := lstrip d) (b := []) (fun h => h3 (infix_lstrip h))
      simpa using this
    refine ⟨[[]] ++ tm ++ [[]], contributes_append (contributes_append first m1) last, by simp, by simp [m2]⟩

end Verif
