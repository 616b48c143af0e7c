import Verif.Spec.Lines
import Verif.Lemmas.Squeeze
import Mathlib.Data.List.Forall2
/-
Lemmas on reading statements from lines.
-/

namespace Verif
open Verif Verif.Spec

/-! ## Files and lines -/

theorem newlines_noCR : ∀ {s : Str}, '\r' ∉ s → newlines s = s
  | [], _ => rfl
  | c :: t, h => by
    simp only [List.mem_cons, not_or] at h
    have : newlines (c :: t) = c :: newlines t := by
      rw [newlines]
      · exact fun t' e _ => h.1 e.symm
      · exact fun e => h.1 e.symm
    rw [this, newlines_noCR h.2]

theorem fileLines_fileOf {ls : List Str} (h : AreLines ls) : fileLines (fileOf ls) = ls := by
  have hr : '\r' ∉ fileOf ls := by
    simp only [fileOf, List.mem_flatten, List.mem_map, not_exists, not_and]
    rintro _ ⟨l, hl, rfl⟩
    simp [(h l hl).2]
  have hs : splitC '\n' (fileOf ls) = ls ++ [[]] := by
    clear hr
    induction ls with
    | nil => rfl
    | cons l ls ih =>
      have e : fileOf (l :: ls) = l ++ '\n' :: fileOf ls := by simp [fileOf]
      rw [e, splitC_cons (h l (by simp)).1, ih (fun x hx => h x (by simp [hx]))]
      rfl
  unfold fileLines
  rw [newlines_noCR hr, hs]
  simp

theorem parseDdl_congr {fs fs' : FS} {f c c' : Str} (p : ParserSt) (h : fs f = some (.text c)) (h' : fs' f = some (.text c'))
    (e : getStatements (fileLines c) = getStatements (fileLines c')) : parseDdl fs p (some f) = parseDdl fs' p (some f) := by
  unfold parseDdl
  cases f with
  | nil => rfl
  | cons x t => simp only [h, h', e]

/-! ## Spacing -/

theorem gap_space {c : Char} (h : Gap c) : isSpace c = true := by rcases h with rfl | rfl <;> decide

theorem strip_cons_space {c : Char} (h : isSpace c = true) (s : Str) : strip (c :: s) = strip s := by
  unfold strip; rw [lstrip_cons, if_pos h]

theorem lstrip_append_of {a b : Str} (h : ∃ c ∈ a, isSpace c = false) : lstrip (a ++ b) = lstrip a ++ b := by
  induction a with
  | nil => obtain ⟨c, hc, _⟩ := h; cases hc
  | cons x a ih =>
    rw [List.cons_append, lstrip_cons, lstrip_cons]
    split
    · rename_i hx
      obtain ⟨c, hc, hn⟩ := h
      rcases List.mem_cons.1 hc with rfl | hc
      · rw [hx] at hn; cases hn
      · exact ih ⟨c, hc, hn⟩
    · rfl

theorem lstrip_append_space {a b : Str} (h : ∀ c ∈ a, isSpace c = true) : lstrip (a ++ b) = lstrip b := by
  induction a with
  | nil => rfl
  | cons x a ih =>
    rw [List.cons_append, lstrip_cons, if_pos (h x (by simp)), ih (fun c hc => h c (by simp [hc]))]

theorem rstrip_append_of {a b : Str} (h : ∃ c ∈ b, isSpace c = false) : rstrip (a ++ b) = a ++ rstrip b := by
  induction b using snocInd with
  | nil => obtain ⟨c, hc, _⟩ := h; cases hc
  | append_singleton b x ih =>
    rw [← List.append_assoc, rstrip_snoc, rstrip_snoc]
    split
    · rename_i hx
      obtain ⟨c, hc, hn⟩ := h
      rcases List.mem_append.1 hc with hc | hc
      · exact ih ⟨c, hc, hn⟩
      · simp only [List.mem_singleton] at hc
        rw [hc, hx] at hn; cases hn
    · rw [List.append_assoc]

theorem rstrip_append_space {a b : Str} (h : ∀ c ∈ b, isSpace c = true) : rstrip (a ++ b) = rstrip a := by
  induction b using snocInd with
  | nil => simp
  | append_singleton b x ih =>
    rw [← List.append_assoc, rstrip_snoc, if_pos (h x (by simp)), ih (fun c hc => h c (by simp [hc]))]

theorem space_or (s : Str) : (∀ c ∈ s, isSpace c = true) ∨ ∃ c ∈ s, isSpace c = false := by
  by_cases h : ∀ c ∈ s, isSpace c = true
  · exact .inl h
  · right
    simp only [not_forall, Bool.not_eq_true] at h
    obtain ⟨c, hc, hn⟩ := h
    exact ⟨c, hc, hn⟩

/-- White space in the middle of a text stays there when the text is stripped, or disappears with what is on one of its sides. -/
theorem strip_middle (a b : Str) :
    (∃ a' b', ∀ m, (∀ c ∈ m, isSpace c = true) → strip (a ++ m ++ b) = a' ++ m ++ b') ∨
    (∃ s, ∀ m, (∀ c ∈ m, isSpace c = true) → strip (a ++ m ++ b) = s) := by
  rcases space_or a with ha | ha
  · right
    refine ⟨strip b, fun m hm => ?_⟩
    unfold strip
    rw [lstrip_append_space]
    intro c hc
    rcases List.mem_append.1 hc with hc | hc
    · exact ha c hc
    · exact hm c hc
  · rcases space_or b with hb | hb
    · right
      refine ⟨rstrip (lstrip a), fun m hm => ?_⟩
      unfold strip
      rw [List.append_assoc, lstrip_append_of ha, rstrip_append_space]
      intro c hc
      rcases List.mem_append.1 hc with hc | hc
      · exact hm c hc
      · exact hb c hc
    · left
      refine ⟨lstrip a, rstrip b, fun m hm => ?_⟩
      unfold strip
      rw [List.append_assoc, lstrip_append_of ha, ← List.append_assoc, rstrip_append_of hb]

theorem sq_cleanLine_respaced {l m : Str} (h : Respaced l m) : sq (cleanLine l) = sq (cleanLine m) := by
  have dt : ∀ {g}, Gap g → detab [g] = [' '] := by intro g hg; rcases hg with rfl | rfl <;> rfl
  have mid : ∀ (a b m1 m2 : Str), (∀ c ∈ m1, isSpace c = true) → (∀ c ∈ m2, isSpace c = true) → sq (detab m1) = sq (detab m2) →
      sq (detab (strip (a ++ m1 ++ b))) = sq (detab (strip (a ++ m2 ++ b))) := by
    intro a b m1 m2 h1 h2 e
    rcases strip_middle a b with ⟨a', b', h⟩ | ⟨s, h⟩
    · rw [h _ h1, h _ h2]
      simp only [detab_append]
      exact sq_append_congr (sq_append_congr rfl e) rfl
    · rw [h _ h1, h _ h2]
  induction h with
  | front hg => rw [sq_cleanLine, sq_cleanLine, strip_cons_space (gap_space hg)]
  | @back g l hg =>
    rw [sq_cleanLine, sq_cleanLine]
    have := mid l [] [] [g] (by simp) (by simpa using gap_space hg)
    have e : strip (l ++ [g]) = strip l := by
      unfold strip
      rcases space_or l with hl | hl
      · have h2 : ∀ c ∈ l ++ [g], isSpace c = true := by
          intro c hc
          rcases List.mem_append.1 hc with hc | hc
          · exact hl c hc
          · simp only [List.mem_singleton] at hc; rw [hc]; exact gap_space hg
        have e1 := lstrip_append_space (b := []) hl
        have e2 := lstrip_append_space (b := []) h2
        simp only [List.append_nil] at e1 e2
        rw [e1, e2]
      · rw [lstrip_append_of hl, rstrip_append_space (by simpa using gap_space hg)]
    rw [e]
  | @inside a g g' b hg hg' =>
    rw [sq_cleanLine, sq_cleanLine]
    have := mid a b [g] [g, g'] (by simpa using gap_space hg) (by simp [gap_space hg, gap_space hg'])
      (by rw [show [g, g'] = [g] ++ [g'] from rfl, detab_append, dt hg, dt hg']; rfl)
    simpa using this
  | @swap a g g' b hg hg' =>
    rw [sq_cleanLine, sq_cleanLine]
    have := mid a b [g] [g'] (by simpa using gap_space hg) (by simp [gap_space hg'])
      (by rw [dt hg, dt hg'])
    simpa using this
  | refl => rfl
  | symm _ ih => exact ih.symm
  | trans _ _ ih1 ih2 => exact ih1.trans ih2

/-! ## Simulation up to runs of blanks -/

/-- Two states that differ in the length of runs of blanks only. -/
structure SameSt (s t : ReadSt) : Prop where
  statements : s.statements.map sq = t.statements.map sq
  buffer : sq s.buffer = sq t.buffer
  inComment : s.inComment = t.inComment

theorem SameSt.release {s t : ReadSt} (h : SameSt s t) : SameSt (release s) (release t) := by
  unfold Verif.release
  rw [hasSub_congr (by decide) (by decide) h.buffer]
  have hp := partitionS_congr (sub := c!";") (by decide) (by decide) h.buffer
  split
  · exact ⟨by simp only [List.map_append, List.map_cons, List.map_nil, h.statements]; rw [strip_congr hp.1], hp.2, h.inComment⟩
  · exact h

theorem SameSt.bufferLine {s t : ReadSt} (h : SameSt s t) {l m : Str} (e : sq l = sq m) : SameSt (bufferLine s l) (bufferLine t m) := by
  have p1 := partitionS_congr (sub := c!"*/") (by decide) (by decide) e
  have p2 := partitionS_congr (sub := c!"/*") (by decide) (by decide) e
  have p3 := partitionS_congr (sub := c!"*/") (by decide) (by decide) p2.2
  unfold Verif.bufferLine
  rw [h.inComment]
  split
  · rw [hasSub_congr (by decide) (by decide) e]
    split
    · exact ⟨h.statements, sq_append_congr h.buffer p1.2, rfl⟩
    · exact h
  · rw [hasSub_congr (by decide) (by decide) e]
    split
    · simp only
      rw [hasSub_congr (by decide) (by decide) p2.2]
      split
      · exact ⟨h.statements, sq_append_congr (sq_append_congr h.buffer p2.1) p3.2, rfl⟩
      · exact ⟨h.statements, sq_append_congr h.buffer p2.1, rfl⟩
    · exact ⟨h.statements, sq_append_congr h.buffer (sq_append_congr rfl e), rfl⟩

/-- The part of a line before a line comment, cleaned. -/
def codeOf (l : Str) : Str := (partitionS c!"--" (cleanLine l)).1

theorem readLine_eq (st : ReadSt) (l : Str) :
    readLine st l = if startsWith (codeOf l) c!"GO" then st else release (bufferLine st (codeOf l)) := rfl

theorem SameSt.readLine {s t : ReadSt} (h : SameSt s t) {l m : Str} (e : sq (codeOf l) = sq (codeOf m)) :
    SameSt (readLine s l) (readLine t m) := by
  rw [readLine_eq, readLine_eq, startsWith_congr (by decide) e]
  split
  · exact h
  · exact (h.bufferLine e).release

theorem SameSt.foldl {ls ms : List Str} (h : List.Forall₂ (fun l m => sq (codeOf l) = sq (codeOf m)) ls ms) :
    ∀ {s t : ReadSt}, SameSt s t → SameSt (ls.foldl Verif.readLine s) (ms.foldl Verif.readLine t) := by
  induction h with
  | nil => intro s t hs; exact hs
  | cons e _ ih => intro s t hs; exact ih (hs.readLine e)

theorem SameSt.refl (s : ReadSt) : SameSt s s := ⟨rfl, rfl, rfl⟩

theorem getStatements_same {ls ms : List Str} (h : List.Forall₂ (fun l m => sq (codeOf l) = sq (codeOf m)) ls ms) :
    getStatements ls = getStatements ms := (SameSt.foldl h (SameSt.refl {})).statements

theorem sq_codeOf_respaced {l m : Str} (h : Respaced l m) : sq (codeOf l) = sq (codeOf m) :=
  (partitionS_congr (sub := c!"--") (by decide) (by decide) (sq_cleanLine_respaced h)).1

/-! ## Simulation up to a blank at the end -/

/-- Two states outside of comments that differ in runs of blanks and blanks at the end of the buffer. -/
structure NearSt (s t : ReadSt) : Prop where
  statements : s.statements.map sq = t.statements.map sq
  buffer : sq (s.buffer ++ c!" ") = sq (t.buffer ++ c!" ")
  left : s.inComment = false
  right : t.inComment = false

theorem partition_semi_blank (b : Str) (h : hasSub c!";" b = true) :
    partitionS c!";" (b ++ c!" ") = ((partitionS c!";" b).1, true, (partitionS c!";" b).2.2 ++ c!" ") := by
  obtain ⟨x, y, rfl, hx⟩ := split_first (hasSub_single.1 h)
  rw [List.append_assoc, List.cons_append, partitionS_char hx, partitionS_char hx]

theorem NearSt.release {s t : ReadSt} (h : NearSt s t) : NearSt (release s) (release t) := by
  have hs : ∀ b : Str, hasSub c!";" b = hasSub c!";" (b ++ c!" ") := by
    intro b; rw [Bool.eq_iff_iff, hasSub_single, hasSub_single]; simp
  have e : hasSub c!";" s.buffer = hasSub c!";" t.buffer := by
    rw [hs, hs t.buffer]; exact hasSub_congr (by decide) (by decide) h.buffer
  unfold Verif.release
  rw [e]
  split
  · rename_i ht
    have hp := partitionS_congr (sub := c!";") (by decide) (by decide) h.buffer
    rw [partition_semi_blank _ (e.trans ht), partition_semi_blank _ ht] at hp
    exact ⟨by simp only [List.map_append, List.map_cons, List.map_nil, h.statements]; rw [strip_congr hp.1], hp.2, h.left, h.right⟩
  · exact h

theorem bufferLine_plain {s : ReadSt} (hc : s.inComment = false) {l : Str} (hl : hasSub c!"/*" l = false) :
    bufferLine s l = { s with buffer := s.buffer ++ (c!" " ++ l) } := by
  unfold bufferLine
  rw [hc, hl]
  simp

theorem NearSt.readLine {s t : ReadSt} (h : NearSt s t) {l m : Str} (e : sq (codeOf l ++ c!" ") = sq (codeOf m ++ c!" "))
    (hg : startsWith (codeOf l) c!"GO" = startsWith (codeOf m) c!"GO")
    (hl : hasSub c!"/*" (codeOf l) = false) (hm : hasSub c!"/*" (codeOf m) = false) :
    NearSt (readLine s l) (readLine t m) := by
  rw [readLine_eq, readLine_eq, hg]
  split
  · exact h
  · rw [bufferLine_plain h.left hl, bufferLine_plain h.right hm]
    refine NearSt.release ⟨h.statements, ?_, h.left, h.right⟩
    have := sq_append_congr h.buffer e
    simpa [List.append_assoc] using this

theorem infix_detab {sub s : Str} (hb : ' ' ∉ sub) (h : sub <:+: detab s) : sub <:+: s := by
  obtain ⟨a, b, e⟩ := h
  unfold detab at e
  obtain ⟨x, y, rfl, hx, hy⟩ := List.map_eq_append_iff.1 e.symm
  obtain ⟨x1, x2, rfl, hx1, hx2⟩ := List.map_eq_append_iff.1 hx
  refine ⟨x1, y, ?_⟩
  have : x2 = sub := by
    rw [← hx2]
    symm
    have hall : ∀ c ∈ x2, (if c = '\t' then ' ' else c) = c := by
      intro c hc
      split
      · rename_i ht
        exfalso
        apply hb
        rw [← hx2]
        exact List.mem_map.2 ⟨c, hc, by simp [ht]⟩
      · rfl
    conv => rhs; rw [← List.map_id x2]
    exact List.map_congr_left hall
  rw [this]

theorem hasSub_cleanLine {sub l : Str} (hne : sub ≠ []) (hb : ' ' ∉ sub) (h : ¬ sub <:+: l) : hasSub sub (cleanLine l) = false := by
  rw [← hasSub_sq hne hb, sq_cleanLine, hasSub_sq hne hb, hasSub_false_iff]
  exact fun h' => h ((infix_detab hb h').trans (strip_infix l))

theorem codeOf_prefix (l : Str) : codeOf l <+: cleanLine l := partitionS_fst_prefix _ _

theorem hasSub_codeOf {sub l : Str} (hne : sub ≠ []) (hb : ' ' ∉ sub) (h : ¬ sub <:+: l) : hasSub sub (codeOf l) = false := by
  rw [hasSub_false_iff]
  intro h'
  have := hasSub_cleanLine hne hb h
  rw [hasSub_false_iff] at this
  exact this (h'.trans (codeOf_prefix l).isInfix)

theorem NearSt.foldl {ls : List Str} (h : ∀ l ∈ ls, ¬ c!"/*" <:+: l) :
    ∀ {s t : ReadSt}, NearSt s t → NearSt (ls.foldl Verif.readLine s) (ls.foldl Verif.readLine t) := by
  induction ls with
  | nil => intro s t hs; exact hs
  | cons l ls ih =>
    intro s t hs
    have hl := hasSub_codeOf (sub := c!"/*") (by decide) (by decide) (h l (by simp))
    exact ih (fun x hx => h x (by simp [hx])) (hs.readLine rfl rfl hl hl)

theorem readLine_inComment {s : ReadSt} (hs : s.inComment = false) {l : Str} (hl : ¬ c!"/*" <:+: l) : (readLine s l).inComment = false := by
  rw [readLine_eq]
  split
  · exact hs
  · rw [bufferLine_plain hs (hasSub_codeOf (by decide) (by decide) hl)]
    unfold release
    split <;> exact hs

theorem foldl_inComment {ls : List Str} (h : ∀ l ∈ ls, ¬ c!"/*" <:+: l) : ∀ {s : ReadSt}, s.inComment = false →
    (ls.foldl readLine s).inComment = false := by
  induction ls with
  | nil => intro s hs; exact hs
  | cons l ls ih => intro s hs; exact ih (fun x hx => h x (by simp [hx])) (readLine_inComment hs (h l (by simp)))

/-! ## Counting semicolons -/

theorem count_subRun {c d : Char} (h1 : c ≠ d) (h2 : c ≠ ' ') : ∀ (s : Str) (b : Bool), (subRunGo d b s).count c = s.count c
  | [], b => rfl
  | x :: t, b => by
    by_cases hx : x = d
    · subst hx
      have hn : (x :: t).count c = t.count c := by rw [List.count_cons]; simp [Ne.symm h1]
      rw [hn]
      simp only [subRunGo, if_true]
      cases b
      · simp only [Bool.false_eq_true, if_false]
        rw [List.count_cons, count_subRun h1 h2 t true]; simp [Ne.symm h2]
      · simp only [if_true]; exact count_subRun h1 h2 t true
    · simp only [subRunGo, hx, if_false]
      rw [List.count_cons, List.count_cons, count_subRun h1 h2 t false]

theorem count_lstrip {c : Char} (h : isSpace c = false) (s : Str) : (lstrip s).count c = s.count c := by
  induction s with
  | nil => rfl
  | cons x t ih =>
    rw [lstrip_cons]
    split
    · rename_i hx
      rw [ih, List.count_cons]
      have : x ≠ c := by rintro rfl; rw [hx] at h; cases h
      simp [this]
    · rfl

theorem count_rstrip {c : Char} (h : isSpace c = false) (s : Str) : (rstrip s).count c = s.count c := by
  induction s using snocInd with
  | nil => rfl
  | append_singleton s x ih =>
    rw [rstrip_snoc]
    split
    · rename_i hx
      rw [ih, List.count_append]
      have : x ≠ c := by rintro rfl; rw [hx] at h; cases h
      simp [this]
    · rfl

theorem count_cleanLine (l : Str) : (cleanLine l).count ';' = l.count ';' := by
  unfold cleanLine subRun strip
  rw [count_subRun (by decide) (by decide), count_subRun (by decide) (by decide), count_rstrip (by decide), count_lstrip (by decide)]

theorem count_codeOf_le (l : Str) : (codeOf l).count ';' ≤ l.count ';' := by
  rw [← count_cleanLine l]
  exact (codeOf_prefix l).sublist.count_le _

theorem release_buffer_count (s : ReadSt) : (release s).buffer.count ';' = s.buffer.count ';' - 1 := by
  unfold release
  by_cases h : hasSub c!";" s.buffer = true
  · rw [if_pos h]
    obtain ⟨x, y, e, hx⟩ := split_first (hasSub_single.1 h)
    simp only [e]
    rw [partitionS_char hx]
    simp [List.count_append, List.count_eq_zero.2 hx]
  · rw [if_neg h]
    have : ';' ∉ s.buffer := fun hm => h (hasSub_single.2 hm)
    rw [List.count_eq_zero.2 this]

theorem readLine_no_semi {s : ReadSt} (hc : s.inComment = false) (hs : s.buffer.count ';' = 0) {l : Str} (hl : ¬ c!"/*" <:+: l)
    (h1 : l.count ';' ≤ 1) : (readLine s l).buffer.count ';' = 0 := by
  rw [readLine_eq]
  split
  · exact hs
  · rw [bufferLine_plain hc (hasSub_codeOf (by decide) (by decide) hl), release_buffer_count]
    simp only [List.count_append, hs]
    have := count_codeOf_le l
    have : c!" ".count ';' = 0 := by decide
    omega

theorem foldl_no_semi {ls : List Str} (h : ∀ l ∈ ls, ¬ c!"/*" <:+: l) (h1 : ∀ l ∈ ls, l.count ';' ≤ 1) : ∀ {s : ReadSt},
    s.inComment = false → s.buffer.count ';' = 0 → (ls.foldl readLine s).buffer.count ';' = 0 := by
  induction ls with
  | nil => intro s _ hs; exact hs
  | cons l ls ih =>
    intro s hc hs
    exact ih (fun x hx => h x (by simp [hx])) (fun x hx => h1 x (by simp [hx])) (readLine_inComment hc (h l (by simp)))
      (readLine_no_semi hc hs (h l (by simp)) (h1 l (by simp)))

/-- A line without code adds a blank at most. -/
theorem readLine_empty {s : ReadSt} (hc : s.inComment = false) (hs : s.buffer.count ';' = 0) {l : Str} (hl : codeOf l = []) :
    NearSt s (readLine s l) := by
  rw [readLine_eq, hl, if_neg (by decide), bufferLine_plain hc (by decide)]
  unfold release
  have : hasSub c!";" (s.buffer ++ (c!" " ++ [])) = false := by
    rw [Bool.eq_false_iff]
    intro h
    have := hasSub_single.1 h
    simp only [List.append_nil, List.mem_append, List.mem_singleton] at this
    rcases this with h | h
    · exact List.count_eq_zero.1 hs h
    · revert h; decide
  rw [if_neg (by simpa using this)]
  refine ⟨rfl, ?_, hc, hc⟩
  simp only [List.append_nil]
  rw [List.append_assoc]
  exact sq_append_congr (x := s.buffer) rfl (by decide)

end Verif
