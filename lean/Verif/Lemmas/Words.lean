import Verif.Lemmas.Lines
/-
Lemmas on words and on the texts between semicolons.
-/

namespace Verif
open Verif Verif.Spec

theorem pieces_ne_nil (p : Char → Bool) (s : Str) : pieces p s ≠ [] := by
  cases s with
  | nil => simp [pieces]
  | cons c t =>
    simp only [pieces]
    split
    · simp
    · split <;> simp

theorem pieces_append (p : Char → Bool) {g : Char} (hg : p g = true) (a b : Str) : pieces p (a ++ g :: b) = pieces p a ++ pieces p b := by
  induction a with
  | nil => simp [pieces, hg]
  | cons c t ih =>
    simp only [List.cons_append, pieces, ih]
    split
    · rfl
    · cases h : pieces p t with
      | nil => exact absurd h (pieces_ne_nil p t)
      | cons w ws => rfl

theorem pieces_plain (p : Char → Bool) {s : Str} (h : ∀ c ∈ s, p c = false) : pieces p s = [s] := by
  induction s with
  | nil => rfl
  | cons c t ih => simp [pieces, h c (by simp), ih (fun x hx => h x (by simp [hx]))]

theorem pieces_eq_splitC (c : Char) (s : Str) : pieces (· == c) s = splitC c s := by
  induction s with
  | nil => rfl
  | cons x t ih =>
    simp only [pieces, splitC, ih]
    split
    · rfl
    · cases splitC c t <;> rfl

/-- Blanks, tabs and line ends. -/
abbrev wgap (c : Char) : Bool := c == ' ' || c == '\t' || c == '\n'

theorem words_append {g : Char} (hg : wgap g = true) (a b : Str) : words (a ++ g :: b) = words a ++ words b := by
  unfold words
  rw [pieces_append _ hg, List.filter_append]

theorem words_nil : words [] = [] := rfl

theorem words_gap {g : Char} (hg : wgap g = true) (s : Str) : words (g :: s) = words s := words_append hg [] s

theorem words_snoc_gap {g : Char} (hg : wgap g = true) (s : Str) : words (s ++ [g]) = words s := by
  rw [words_append hg, words_nil, List.append_nil]

theorem words_word {s : Str} (hne : s ≠ []) (h : ∀ c ∈ s, wgap c = false) : words s = [s] := by
  unfold words
  rw [pieces_plain _ h]
  simp [hne]

theorem words_sqGo (s : Str) : ∀ b : Bool, words (subRunGo ' ' b s) = words s ∧
    (b = false → ∃ h r r', pieces wgap (subRunGo ' ' b s) = h :: r ∧ pieces wgap s = h :: r' ∧
      r.filter (fun w => !w.isEmpty) = r'.filter (fun w => !w.isEmpty)) := by
  induction s with
  | nil => intro b; cases b <;> exact ⟨rfl, fun _ => ⟨_, _, _, rfl, rfl, rfl⟩⟩
  | cons c t ih =>
    intro b
    by_cases hc : c = ' '
    · subst hc
      rw [sqGo_blank]
      have hb : wgap ' ' = true := rfl
      cases b
      · simp only [Bool.false_eq_true, if_false]
        refine ⟨by rw [words_gap hb, words_gap hb, (ih true).1], fun _ => ⟨[], pieces wgap (subRunGo ' ' true t), pieces wgap t, rfl, rfl, ?_⟩⟩
        exact (ih true).1
      · simp only [if_true]
        exact ⟨by rw [words_gap hb, (ih true).1], fun h => (by cases h)⟩
    · rw [sqGo_char hc]
      obtain ⟨h, r, r', e1, e2, e3⟩ := (ih false).2 rfl
      by_cases hg : wgap c = true
      · refine ⟨by rw [words_gap hg, words_gap hg, (ih false).1], fun _ => ⟨[], h :: r, h :: r', ?_, ?_, ?_⟩⟩
        · simp only [pieces, hg, if_true, e1]
        · simp only [pieces, hg, if_true, e2]
        · simp only [List.filter_cons, e3]
      · have f1 : pieces wgap (c :: subRunGo ' ' false t) = (c :: h) :: r := by simp only [pieces, hg, e1]; simp
        have f2 : pieces wgap (c :: t) = (c :: h) :: r' := by simp only [pieces, hg, e2]; simp
        refine ⟨?_, fun _ => ⟨c :: h, r, r', f1, f2, e3⟩⟩
        unfold words
        rw [show (fun c => c == ' ' || c == '\t' || c == '\n') = wgap from rfl, f1, f2, List.filter_cons, List.filter_cons, e3]

theorem words_sq (s : Str) : words (sq s) = words s := (words_sqGo s false).1

theorem pieces_detab (s : Str) : pieces wgap (detab s) = pieces wgap s := by
  induction s with
  | nil => rfl
  | cons c t ih =>
    by_cases h : c = '\t'
    · subst h
      have e : detab ('\t' :: t) = ' ' :: detab t := rfl
      rw [e]
      simp [pieces, ih]
    · have e : detab (c :: t) = c :: detab t := by simp [detab, h]
      rw [e]
      simp only [pieces, ih]

theorem words_detab (s : Str) : words (detab s) = words s := by
  unfold words
  rw [show (fun c => c == ' ' || c == '\t' || c == '\n') = wgap from rfl, pieces_detab]

theorem wgap_of_space {s : Str} (h : PlainSpace s) {c : Char} (hc : c ∈ s) (hs : isSpace c = true) : wgap c = true := by
  rcases h c hc hs with rfl | rfl | rfl <;> rfl

theorem plainSpace_infix {s t : Str} (h : PlainSpace s) (hi : t <:+: s) : PlainSpace t := fun c hc => h c (hi.subset hc)

/-- The words of the texts between semicolons. -/
def toks (s : Str) : List (List Str) := (splitC ';' s).map words

/-- Two lists of texts put one after the other. -/
def glue : List (List Str) → List (List Str) → List (List Str)
  | [], b => b
  | [w], [] => [w]
  | [w], v :: b => (w ++ v) :: b
  | w :: a, b => w :: glue a b

theorem glue_cons {w v : List Str} {a b : List (List Str)} : glue (w :: v :: a) b = w :: glue (v :: a) b := by
  simp [glue]

theorem toks_ne_nil (s : Str) : toks s ≠ [] := by simp [toks, splitC_ne_nil]

theorem toks_semi (a b : Str) : toks (a ++ ';' :: b) = toks a ++ toks b := by simp [toks, splitC_append]

theorem glue_append {a b c : List (List Str)} (hb : b ≠ []) : glue (a ++ b) c = a ++ glue b c := by
  induction a with
  | nil => rfl
  | cons w a ih =>
    cases h : a ++ b with
    | nil => simp at h; exact absurd h.2 hb
    | cons v r => rw [List.cons_append, h, glue_cons, ← h, ih]; rfl

theorem glue_append_right {w : List Str} {v : List Str} {b c : List (List Str)} : glue [w] ((v :: b) ++ c) = glue [w] (v :: b) ++ c := by
  simp [glue]

theorem toks_plain {s : Str} (h : ';' ∉ s) : toks s = [words s] := by simp [toks, splitC_plain h]

theorem toks_glue {g : Char} (hg : wgap g = true) (a b : Str) : toks (a ++ g :: b) = glue (toks a) (toks b) := by
  have hgs : ';' ≠ g := by rintro rfl; revert hg; decide
  have key : ∀ a : Str, ';' ∉ a → toks (a ++ g :: b) = glue [words a] (toks b) := by
    intro a ha
    by_cases hb : ';' ∈ b
    · obtain ⟨b1, b2, rfl, hb1⟩ := split_first hb
      have : ';' ∉ a ++ g :: b1 := by simp [ha, hgs, hb1]
      rw [show a ++ g :: (b1 ++ ';' :: b2) = (a ++ g :: b1) ++ ';' :: b2 by simp, toks_semi, toks_semi, toks_plain this, toks_plain hb1,
        words_append hg]
      simp [glue]
    · have : ';' ∉ a ++ g :: b := by simp [ha, hgs, hb]
      rw [toks_plain this, toks_plain hb, words_append hg]
      simp [glue]
  by_cases ha : ';' ∈ a
  · obtain ⟨a1, a2, rfl, ha2⟩ := split_last ha
    rw [show (a1 ++ ';' :: a2) ++ g :: b = a1 ++ ';' :: (a2 ++ g :: b) by simp, toks_semi, toks_semi, key a2 ha2, toks_plain ha2,
      glue_append (by simp)]
  · rw [key a ha, toks_plain ha]

theorem glue_nil_left (s : Str) : glue [[]] (toks s) = toks s := by
  cases h : toks s with
  | nil => exact absurd h (toks_ne_nil s)
  | cons v b => simp [glue]

theorem glue_nil_right (a : List (List Str)) (ha : a ≠ []) : glue a [[]] = a := by
  induction a with
  | nil => exact absurd rfl ha
  | cons w a ih =>
    cases a with
    | nil => simp [glue]
    | cons v a => rw [glue_cons, ih (by simp)]

theorem toks_gap {g : Char} (hg : wgap g = true) (s : Str) : toks (g :: s) = toks s := by
  have := toks_glue hg [] s
  rw [List.nil_append] at this
  rw [this]
  exact glue_nil_left s

theorem toks_snoc_gap {g : Char} (hg : wgap g = true) (s : Str) : toks (s ++ [g]) = toks s := by
  rw [toks_glue hg s []]
  exact glue_nil_right _ (toks_ne_nil s)

theorem toks_sq (s : Str) : toks (sq s) = toks s := by
  by_cases h : ';' ∈ s
  · obtain ⟨a, b, rfl, ha⟩ := split_first h
    have : ';' ∉ sq a := by rw [mem_sq (by decide)]; exact ha
    rw [sq_append_char (by decide), toks_semi, toks_semi, toks_plain this, toks_plain ha, words_sq, toks_sq b]
  · have : ';' ∉ sq s := by rw [mem_sq (by decide)]; exact h
    rw [toks_plain this, toks_plain h, words_sq]
termination_by s.length
decreasing_by simp_all; omega

theorem mem_detab {s : Str} (c : Char) (h1 : c ≠ ' ') (h2 : c ≠ '\t') : c ∈ detab s ↔ c ∈ s := by
  simp only [detab, List.mem_map]
  constructor
  · rintro ⟨x, hx, e⟩
    split at e
    · exact absurd e.symm h1
    · rw [← e]; exact hx
  · intro h; exact ⟨c, h, by simp [h2]⟩

theorem toks_detab (s : Str) : toks (detab s) = toks s := by
  by_cases h : ';' ∈ s
  · obtain ⟨a, b, rfl, ha⟩ := split_first h
    have : ';' ∉ detab a := by rw [mem_detab _ (by decide) (by decide)]; exact ha
    rw [detab_append, show detab (';' :: b) = ';' :: detab b from rfl, toks_semi, toks_semi, toks_plain this, toks_plain ha, words_detab,
      toks_detab b]
  · have : ';' ∉ detab s := by rw [mem_detab _ (by decide) (by decide)]; exact h
    rw [toks_plain this, toks_plain h, words_detab]
termination_by s.length
decreasing_by simp_all; omega

theorem toks_lstrip {s : Str} (h : PlainSpace s) : toks (lstrip s) = toks s := by
  induction s with
  | nil => rfl
  | cons c t ih =>
    rw [lstrip_cons]
    split
    · rename_i hc
      rw [ih (fun x hx => h x (by simp [hx])), toks_gap (wgap_of_space h (by simp) hc)]
    · rfl

theorem toks_rstrip {s : Str} (h : PlainSpace s) : toks (rstrip s) = toks s := by
  induction s using snocInd with
  | nil => rfl
  | append_singleton s c ih =>
    rw [rstrip_snoc]
    split
    · rename_i hc
      rw [ih (fun x hx => h x (by simp [hx])), toks_snoc_gap (wgap_of_space h (by simp) hc)]
    · rfl

theorem toks_strip {s : Str} (h : PlainSpace s) : toks (strip s) = toks s := by
  unfold strip
  rw [toks_rstrip (plainSpace_infix h (lstrip_suffix s).isInfix), toks_lstrip h]

theorem toks_cleanLine {l : Str} (h : PlainSpace l) : toks (cleanLine l) = toks l := by
  rw [← toks_sq, sq_cleanLine, toks_sq, toks_detab, toks_strip h]

/-! ## Tidy texts -/

theorem space_wgap {c : Char} (h : wgap c = true) : isSpace c = true := by
  simp only [wgap, Bool.or_eq_true, beq_iff_eq] at h
  rcases h with (rfl | rfl) | rfl <;> decide

theorem _root_.Verif.Trim.blanks {s : Str} (h : Trim s) : s.head? ≠ some ' ' ∧ s.getLast? ≠ some ' ' :=
  ⟨fun e => by have := h.1 _ e; revert this; decide, fun e => by have := h.2 _ e; revert this; decide⟩

theorem length_sqGo_le : ∀ (s : Str) (b : Bool), (subRunGo ' ' b s).length ≤ s.length
  | [], b => Nat.le_refl _
  | c :: t, b => by
    by_cases h : c = ' '
    · subst h
      rw [sqGo_blank]
      have := length_sqGo_le t true
      cases b <;> simp <;> omega
    · rw [sqGo_char h]
      have := length_sqGo_le t false
      simp; omega

/-- A trimmed and squeezed text consists of its words. -/
theorem joinS_words {r : Str} (hb : ∀ c ∈ r, wgap c = true → c = ' ') (h1 : r.head? ≠ some ' ') (h2 : r.getLast? ≠ some ' ') (hs : sq r = r) :
    joinS [' '] (words r) = r := by
  have gapb : ∀ c ∈ r, c ≠ ' ' → wgap c = false := by
    intro c hc hn
    by_contra hg
    simp only [Bool.not_eq_false] at hg
    exact hn (hb c hc hg)
  by_cases hbl : ' ' ∈ r
  · obtain ⟨w, r', rfl, hw⟩ := split_first hbl
    have hwne : w ≠ [] := by
      rintro rfl
      exact h1 rfl
    have e1 : sq (w ++ ' ' :: r') = w ++ ' ' :: subRunGo ' ' true r' := by
      have hsw : sq w = w := by
        clear * - hw
        induction w with
        | nil => rfl
        | cons c t ih =>
          simp only [List.mem_cons, not_or] at hw
          have : sq (c :: t) = c :: sq t := sqGo_char (Ne.symm hw.1) false t
          rw [this, ih hw.2]
      have hend : endsBlank false w = false := by
        unfold endsBlank
        cases hl : w.getLast? with
        | none => rfl
        | some d =>
          have : d ∈ w := List.mem_of_getLast? hl
          have : d ≠ ' ' := by rintro rfl; exact hw this
          simpa using this
      unfold sq subRun at hsw ⊢
      rw [sqGo_append, hsw, hend, sqGo_blank]
      simp
    rw [e1] at hs
    have hs' : subRunGo ' ' true r' = r' := by
      have := List.append_cancel_left hs
      simpa using this
    have hhead : ∀ x, r' ≠ ' ' :: x := by
      rintro x rfl
      rw [sqGo_blank] at hs'
      simp only [if_true] at hs'
      have := length_sqGo_le x true
      rw [hs'] at this
      simp at this
      omega
    have hr'ne : r' ≠ [] := by
      rintro rfl
      exact h2 (by simp)
    have hsq : sq r' = r' := by
      cases r' with
      | nil => rfl
      | cons c x =>
        have hc : c ≠ ' ' := by rintro rfl; exact hhead x rfl
        rw [sqGo_char hc] at hs'
        show subRunGo ' ' false (c :: x) = c :: x
        rw [sqGo_char hc]
        exact hs'
    have hh : r'.head? ≠ some ' ' := by
      intro hc
      cases r' with
      | nil => cases hc
      | cons d x =>
        simp only [List.head?_cons, Option.some.injEq] at hc
        subst hc
        exact hhead x rfl
    have hl : r'.getLast? ≠ some ' ' := by
      intro hc
      apply h2
      rw [List.getLast?_append, List.getLast?_cons, hc]
      simp
    have ih := joinS_words (r := r') (fun c hc => hb c (by simp [hc])) hh hl hsq
    have hww : words w = [w] := words_word hwne (fun c hc => gapb c (by simp [hc]) (by rintro rfl; exact hw hc))
    rw [words_append (by rfl), hww]
    cases hwr : words r' with
    | nil =>
      rw [hwr] at ih
      exact absurd ih.symm hr'ne
    | cons v vs =>
      rw [hwr] at ih
      simp only [List.singleton_append, joinS]
      rw [ih]
      simp
  · by_cases hr : r = []
    · subst hr; rfl
    · rw [words_word hr (fun c hc => gapb c hc (by rintro rfl; exact hbl hc))]
      rfl
termination_by r.length
decreasing_by simp_all; omega

theorem words_strip {s : Str} (h : PlainSpace s) : words (strip s) = words s := by
  have hl : ∀ {s : Str}, PlainSpace s → words (lstrip s) = words s := by
    intro s h
    induction s with
    | nil => rfl
    | cons c t ih =>
      rw [lstrip_cons]
      split
      · rename_i hc
        rw [ih (fun x hx => h x (by simp [hx])), words_gap (wgap_of_space h (by simp) hc)]
      · rfl
  have hr : ∀ {s : Str}, PlainSpace s → words (rstrip s) = words s := by
    intro s h
    induction s using snocInd with
    | nil => rfl
    | append_singleton s c ih =>
      rw [rstrip_snoc]
      split
      · rename_i hc
        rw [ih (fun x hx => h x (by simp [hx])), words_snoc_gap (wgap_of_space h (by simp) hc)]
      · rfl
  unfold strip
  rw [hr (plainSpace_infix h (lstrip_suffix s).isInfix), hl h]

theorem strip_trim (s : Str) : Trim (strip s) := by
  unfold strip
  constructor
  · intro c hc
    have hp := rstrip_prefix (lstrip s)
    have : (lstrip s).head? = some c := by
      obtain ⟨t, e⟩ := hp
      rw [← e]
      cases h : rstrip (lstrip s) with
      | nil => rw [h] at hc; cases hc
      | cons x r => rw [h] at hc; simpa using hc
    clear hc hp
    induction s with
    | nil => cases this
    | cons x t ih =>
      rw [lstrip_cons] at this
      split at this
      · exact ih this
      · rename_i hx
        simp only [List.head?_cons, Option.some.injEq] at this
        rw [← this]
        simpa using hx
  · intro c hc
    generalize lstrip s = s at hc
    induction s using snocInd with
    | nil => cases hc
    | append_singleton t x ih =>
      rw [rstrip_snoc] at hc
      split at hc
      · exact ih hc
      · rename_i hx
        simp only [List.getLast?_append, List.getLast?_singleton, Option.some_or, Option.some.injEq] at hc
        rw [← hc]
        simpa using hx

theorem sq_strip_eq {s : Str} (h : ∀ c ∈ s, isSpace c = true → c = ' ') : sq (strip s) = joinS [' '] (words s) := by
  have hp : PlainSpace s := fun c hc hs => .inl (h c hc hs)
  have hq : ∀ c ∈ sq (strip s), wgap c = true → c = ' ' := by
    intro c hc hg
    by_contra hn
    rw [mem_sq hn] at hc
    exact hn (h c ((strip_infix s).subset hc) (space_wgap hg))
  have ht : Trim (sq (strip s)) := by
    have := strip_trim (sq (strip s))
    rwa [strip_sq, show strip (strip s) = strip s from (strip_trim s).strip] at this
  rw [← joinS_words hq ht.blanks.1 ht.blanks.2 (sq_idem _), words_sq, words_strip hp]

/-! ## Reading plain lines -/

/-- What plain lines add to the buffer. -/
def streamOf (ls : List Str) : Str := (ls.map (fun l => ' ' :: cleanLine l)).flatten

theorem codeOf_plain {l : Str} (h : PlainLine l) : codeOf l = cleanLine l := by
  have := hasSub_cleanLine (sub := c!"--") (by decide) (by decide) h.noLineComment
  rw [hasSub_false_iff] at this
  unfold codeOf
  rw [partitionS_absent this]

theorem prefix_detab {sub s : Str} (hb : ' ' ∉ sub) (h : sub <+: detab s) : sub <+: s := by
  obtain ⟨b, e⟩ := h
  unfold detab at e
  obtain ⟨x, y, rfl, hx, hy⟩ := List.map_eq_append_iff.1 e.symm
  refine ⟨y, ?_⟩
  have : x = sub := by
    rw [← hx]
    symm
    have hall : ∀ c ∈ x, (if c = '\t' then ' ' else c) = c := by
      intro c hc
      split
      · rename_i ht
        exfalso
        apply hb
        rw [← hx]
        exact List.mem_map.2 ⟨c, hc, by simp [ht]⟩
      · rfl
    conv => rhs; rw [← List.map_id x]
    exact List.map_congr_left hall
  rw [this]

theorem not_batch {l : Str} (h : PlainLine l) : startsWith (codeOf l) c!"GO" = false := by
  rw [codeOf_plain h]
  unfold startsWith
  rw [← isPrefixOf_sq (by decide), sq_cleanLine, isPrefixOf_sq (by decide), Bool.eq_false_iff]
  intro hp
  exact h.noBatch ((prefix_detab (by decide) (List.isPrefixOf_iff_prefix.1 hp)).trans (rstrip_prefix _))

theorem readLine_plain {s : ReadSt} (hc : s.inComment = false) {l : Str} (h : PlainLine l) :
    readLine s l = release { s with buffer := s.buffer ++ ' ' :: cleanLine l } := by
  rw [readLine_eq, not_batch h, bufferLine_plain hc (hasSub_codeOf (by decide) (by decide) h.noBlockComment), codeOf_plain h]
  simp

theorem splitC_extend {c : Char} : ∀ {raws : List Str} {b t : Str}, raws ++ splitC c b = splitC c t → ∀ x,
    raws ++ splitC c (b ++ x) = splitC c (t ++ x)
  | [], b, t, h, x => by
    have : b = t := by rw [← joinS_splitC c b, ← joinS_splitC c t]; simpa using congrArg (joinS [c]) h
    rw [this]; rfl
  | r :: raws, b, t, h, x => by
    by_cases hc : c ∈ t
    · obtain ⟨t1, t2, rfl, h1⟩ := split_first hc
      rw [splitC_cons h1] at h
      simp only [List.cons_append, List.cons.injEq] at h
      rw [List.append_assoc, List.cons_append, List.cons_append, splitC_cons h1, splitC_extend h.2 x, h.1]
    · rw [splitC_plain hc] at h
      simp only [List.cons_append, List.cons.injEq, List.append_eq_nil_iff] at h
      exact absurd h.2.2 (splitC_ne_nil _ _)

/-- Invariant of reading plain lines. -/
theorem foldl_plain {ls : List Str} (h : ∀ l ∈ ls, PlainLine l) :
    ∃ raws, (ls.foldl readLine {}).statements = raws.map strip ∧ (ls.foldl readLine {}).inComment = false ∧
      raws ++ splitC ';' (ls.foldl readLine {}).buffer = splitC ';' (streamOf ls) := by
  induction ls using snocInd with
  | nil => exact ⟨[], rfl, rfl, rfl⟩
  | append_singleton ls l ih =>
    obtain ⟨raws, h1, h2, h3⟩ := ih (fun x hx => h x (by simp [hx]))
    rw [List.foldl_append, List.foldl_cons, List.foldl_nil, readLine_plain h2 (h l (by simp))]
    have hst : streamOf (ls ++ [l]) = streamOf ls ++ ' ' :: cleanLine l := by simp [streamOf]
    have hsp : raws ++ splitC ';' ((ls.foldl readLine {}).buffer ++ ' ' :: cleanLine l) = splitC ';' (streamOf (ls ++ [l])) := by
      rw [hst]
      exact splitC_extend h3 _
    unfold release
    by_cases hs : ';' ∈ (ls.foldl readLine {}).buffer ++ ' ' :: cleanLine l
    · rw [if_pos (hasSub_single.2 hs)]
      obtain ⟨a, b, e, ha⟩ := split_first hs
      simp only [e]
      rw [partitionS_char ha]
      refine ⟨raws ++ [a], by simp [h1], h2, ?_⟩
      rw [← hsp, e, splitC_cons ha]
      simp
    · rw [if_neg (fun h => hs (hasSub_single.1 h))]
      exact ⟨raws, h1, h2, hsp⟩

theorem toks_streamOf {ls : List Str} (h : ∀ l ∈ ls, PlainSpace l) : toks (streamOf ls) = toks (joinS ['\n'] ls) := by
  induction ls with
  | nil => rfl
  | cons l ls ih =>
    cases ls with
    | nil =>
      have : streamOf [l] = ' ' :: cleanLine l := by simp [streamOf]
      rw [this, toks_gap rfl, toks_cleanLine (h l (by simp))]
      rfl
    | cons m ls =>
      have e1 : streamOf (l :: m :: ls) = ' ' :: (cleanLine l ++ ' ' :: (cleanLine m ++ streamOf ls)) := by simp [streamOf]
      have e2 : streamOf (m :: ls) = ' ' :: (cleanLine m ++ streamOf ls) := by simp [streamOf]
      have e3 : joinS ['\n'] (l :: m :: ls) = l ++ '\n' :: joinS ['\n'] (m :: ls) := by simp [joinS]
      have ih := ih (fun x hx => h x (by simp [hx]))
      rw [e2, toks_gap rfl] at ih
      rw [e1, toks_gap rfl, toks_glue rfl, ih, toks_cleanLine (h l (by simp)), e3, toks_glue rfl]

theorem streamOf_blank {ls : List Str} (hl : AreLines ls) (h : ∀ l ∈ ls, PlainSpace l) : ∀ c ∈ streamOf ls, isSpace c = true → c = ' ' := by
  intro c hc hs
  simp only [streamOf, List.mem_flatten, List.mem_map] at hc
  obtain ⟨_, ⟨l, hlm, rfl⟩, hc⟩ := hc
  rcases List.mem_cons.1 hc with rfl | hc
  · rfl
  · by_contra hn
    have hc : c ∈ sq (cleanLine l) := (mem_sq hn).2 hc
    rw [sq_cleanLine, mem_sq hn] at hc
    simp only [detab, List.mem_map] at hc
    obtain ⟨x, hx, e⟩ := hc
    split at e
    · exact hn e.symm
    · subst e
      have hx := (strip_infix l).subset hx
      rcases h l hlm x hx hs with rfl | rfl | rfl
      · exact hn rfl
      · contradiction
      · exact (hl l hlm).1 hx

theorem mem_joinS {sep : Str} {x : Char} : ∀ {ws : List Str} {w : Str}, w ∈ ws → x ∈ w → x ∈ joinS sep ws
  | [v], w, h, hx => by
    simp only [List.mem_singleton] at h
    subst h
    exact hx
  | v :: u :: ws, w, h, hx => by
    simp only [joinS, List.mem_append]
    rcases List.mem_cons.1 h with rfl | h
    · exact .inl (.inl hx)
    · exact .inr (mem_joinS h hx)

theorem length_splitC (c : Char) (s : Str) : (splitC c s).length = s.count c + 1 := by
  induction s with
  | nil => rfl
  | cons x t ih =>
    simp only [splitC, List.count_cons]
    split
    · simp_all
    · have := splitC_ne_nil c t
      cases h : splitC c t with
      | nil => contradiction
      | cons w ws => simp_all [consHead]

theorem mem_of_splitC {c x : Char} {s w : Str} (h : w ∈ splitC c s) (hx : x ∈ w) : x ∈ s := by
  rw [← joinS_splitC c s]
  exact mem_joinS h hx

/-- The statements of plain lines, and what is left. -/
theorem getStatements_plain {ls : List Str} (hl : AreLines ls) (hp : ∀ l ∈ ls, PlainLine l) (hw : ∀ l ∈ ls, PlainSpace l) :
    ∃ rest, rest ≠ [] ∧ rest.length = (ls.foldl readLine {}).buffer.count ';' + 1 ∧
      getStatements ls ++ rest = (splitC ';' (joinS ['\n'] ls)).map tidy := by
  obtain ⟨raws, h1, h2, h3⟩ := foldl_plain hp
  have ht := toks_streamOf hw
  unfold toks at ht
  rw [← h3] at ht
  have ht := congrArg (List.map (joinS [' '])) ht
  simp only [List.map_map, List.map_append] at ht
  refine ⟨(splitC ';' (ls.foldl readLine {}).buffer).map tidy, by simp [splitC_ne_nil], by simp [length_splitC], ?_⟩
  rw [show tidy = joinS [' '] ∘ words from rfl, ← ht]
  congr 1
  unfold getStatements
  rw [h1, List.map_map]
  apply List.map_congr_left
  intro r hr
  apply sq_strip_eq
  intro c hc
  apply streamOf_blank hl hw
  exact mem_of_splitC (c := ';') (w := r) (by rw [← h3]; simp [hr]) hc

theorem readLine_plain_count {s : ReadSt} (hc : s.inComment = false) {l : Str} (h : PlainLine l) :
    (readLine s l).buffer.count ';' = s.buffer.count ';' + l.count ';' - 1 := by
  rw [readLine_plain hc h, release_buffer_count]
  simp [List.count_cons, count_cleanLine]

theorem semicolons_eq (ls : List Str) : semicolons ls = ls.flatten.count ';' := by
  simp [semicolons, List.count_eq_length_filter]

/-- How many semicolons are left in the buffer at the end. -/
theorem foldl_plain_count {ls : List Str} (h : ∀ l ∈ ls, PlainLine l) : ∀ m : Nat,
    (ls.foldl readLine {}).buffer.count ';' ≤ m ↔ ∀ b, b <:+ ls → semicolons b ≤ b.length + m := by
  induction ls using snocInd with
  | nil =>
    intro m
    simp [semicolons]
  | append_singleton ls l ih =>
    intro m
    have hr : ∀ x ∈ ls, PlainLine x := fun x hx => h x (by simp [hx])
    rw [List.foldl_append, List.foldl_cons, List.foldl_nil]
    obtain ⟨_, _, h2, _⟩ := foldl_plain hr
    rw [readLine_plain_count h2 (h l (by simp))]
    constructor
    · intro hm b hb
      rcases List.eq_nil_or_concat b with rfl | ⟨b', x, rfl⟩
      · simp [semicolons]
      · simp only [List.concat_eq_append] at hb ⊢
        obtain ⟨a, ha⟩ := hb
        rw [← List.append_assoc] at ha
        obtain ⟨h1, h3⟩ := List.append_inj' ha rfl
        cases h3
        have := (ih hr (m + 1 - l.count ';')).1 (by omega) b' ⟨a, h1⟩
        simp only [semicolons_eq, List.flatten_append, List.count_append, List.length_append, List.flatten_cons, List.flatten_nil,
          List.append_nil, List.length_cons, List.length_nil] at this ⊢
        omega
    · intro hb
      have hc : l.count ';' ≤ m + 1 := by
        have := hb [l] (List.suffix_append ls [l])
        simp [semicolons_eq] at this
        omega
      have := (ih hr (m + 1 - l.count ';')).2 (by
        intro b hs
        have := hb (b ++ [l]) (by obtain ⟨a, rfl⟩ := hs; exact ⟨a, by simp⟩)
        simp only [semicolons_eq, List.flatten_append, List.count_append, List.length_append, List.flatten_cons, List.flatten_nil,
          List.append_nil, List.length_cons, List.length_nil] at this ⊢
        omega)
      omega

end Verif
