import Verif.Spec.Names
import Verif.Lemmas.Words
import Verif.Lemmas.Quoted
import Verif.Lemmas.Comment
/-
The statements that a file can give (dt/io.py:129-206).
-/

namespace Verif
open Verif.Spec

theorem Spec.Bare.infix {bad s u : Str} (h : Bare bad u) (hs : s <:+: u) : Bare bad s := fun c hc => h c (hs.subset hc)

theorem Spec.Bare.append {bad s u : Str} (h : Bare bad s) (h' : Bare bad u) : Bare bad (s ++ u) := by
  intro c hc
  rcases List.mem_append.1 hc with hc | hc
  · exact h c hc
  · exact h' c hc

/-! ## What a file gives -/

theorem mem_subRunGo {c d : Char} : ∀ {s : Str} {b : Bool}, d ∈ subRunGo c b s → d = ' ' ∨ (d ∈ s ∧ d ≠ c)
  | [], b, h => by simp [subRunGo] at h
  | x :: t, b, h => by
    rw [subRunGo] at h
    split at h
    · rename_i hx
      split at h
      · rcases mem_subRunGo h with h | h
        · exact .inl h
        · exact .inr ⟨by simp [h.1], h.2⟩
      · rcases List.mem_cons.1 h with h | h
        · exact .inl h
        · rcases mem_subRunGo h with h | h
          · exact .inl h
          · exact .inr ⟨by simp [h.1], h.2⟩
    · rename_i hx
      rcases List.mem_cons.1 h with h | h
      · subst h; exact .inr ⟨by simp, hx⟩
      · rcases mem_subRunGo h with h | h
        · exact .inl h
        · exact .inr ⟨by simp [h.1], h.2⟩

theorem single_subRunGo : ∀ (s : Str) (b : Bool), ¬ c!"  " <:+: subRunGo ' ' b s ∧ (b = true → (subRunGo ' ' b s).head? ≠ some ' ')
  | [], b => by simp [subRunGo]
  | x :: t, b => by
    rw [subRunGo]
    split
    · split
      · rename_i hb
        obtain ⟨h1, h2⟩ := single_subRunGo t true
        exact ⟨h1, fun _ => h2 rfl⟩
      · rename_i hb
        obtain ⟨h1, h2⟩ := single_subRunGo t true
        refine ⟨fun h => ?_, fun e => absurd e hb⟩
        rcases List.infix_cons_iff.1 h with h | h
        · rw [List.cons_prefix_cons] at h
          obtain ⟨u, hu⟩ := h.2
          exact h2 rfl (by rw [← hu]; rfl)
        · exact h1 h
    · rename_i hx
      obtain ⟨h1, -⟩ := single_subRunGo t false
      refine ⟨fun h => ?_, fun _ e => hx (by simpa using e)⟩
      rcases List.infix_cons_iff.1 h with h | h
      · rw [List.cons_prefix_cons] at h
        exact hx h.1.symm
      · exact h1 h

theorem bare_strip {bad s : Str} (h : Bare bad s) : Bare bad (strip s) := h.infix (strip_infix s)

/-- A line that was cleaned has no tabs. -/
theorem bare_cleanLine {l : Str} (h : Bare c!"\n\r" l) : Bare c!"\t\n\r" (cleanLine l) := by
  intro c hc
  unfold cleanLine subRun at hc
  rcases mem_subRunGo hc with rfl | ⟨hc, ht⟩
  · decide
  · rcases mem_subRunGo hc with rfl | ⟨hc, -⟩
    · decide
    · have := h c ((strip_infix l).subset hc)
      simp only [List.mem_cons, List.not_mem_nil, or_false, not_or] at this ⊢
      exact ⟨ht, this.1, this.2⟩

theorem partitionS_infix (sub s : Str) : (partitionS sub s).1 <:+: s ∧ (partitionS sub s).2.2 <:+: s := by
  by_cases h : sub <:+: s
  · have e := partitionS_eq h
    exact ⟨(partitionS_fst_prefix sub s).isInfix, ⟨(partitionS sub s).1 ++ sub, [], by rw [List.append_nil]; exact e.symm⟩⟩
  · rw [partitionS_absent h]
    exact ⟨List.infix_refl _, List.nil_infix⟩

/-- What is known of the reader at any moment. -/
structure ReadOk (st : ReadSt) : Prop where
  buffer : Bare c!"\t\n\r" st.buffer
  statements : ∀ s ∈ st.statements, Bare c!";\t\n\r" s ∧ Trim s

theorem ReadOk.bufferLine {st : ReadSt} (h : ReadOk st) {l : Str} (hl : Bare c!"\t\n\r" l) : ReadOk (bufferLine st l) := by
  unfold Verif.bufferLine
  split
  · split
    · exact ⟨h.buffer.append (hl.infix (partitionS_infix _ _).2), h.statements⟩
    · exact h
  · split
    · dsimp only
      have ha : Bare c!"\t\n\r" (partitionS c!"/*" l).2.2 := hl.infix (partitionS_infix _ _).2
      have hb : Bare c!"\t\n\r" (partitionS c!"/*" l).1 := hl.infix (partitionS_infix _ _).1
      split
      · exact ⟨(h.buffer.append hb).append (ha.infix (partitionS_infix _ _).2), h.statements⟩
      · exact ⟨h.buffer.append hb, h.statements⟩
    · exact ⟨h.buffer.append (Bare.append (by unfold Bare; decide) hl), h.statements⟩

theorem ReadOk.release {st : ReadSt} (h : ReadOk st) : ReadOk (release st) := by
  unfold Verif.release
  split
  · rename_i hs
    obtain ⟨a, b, e, ha⟩ := split_first (hasSub_single.1 hs)
    have hp : partitionS c!";" st.buffer = (a, true, b) := by rw [e]; exact partitionS_char ha
    rw [hp]
    refine ⟨h.buffer.infix ⟨a ++ [';'], [], by rw [e]; simp⟩, fun s hs => ?_⟩
    rcases List.mem_append.1 hs with hs | hs
    · exact h.statements s hs
    · rw [List.mem_singleton.1 hs]
      refine ⟨bare_strip (fun c hc hm => ?_), strip_trim a⟩
      rcases List.mem_cons.1 hm with rfl | hm
      · exact ha hc
      · exact h.buffer c (by rw [e]; simp [hc]) hm
  · exact h

theorem ReadOk.readLine {st : ReadSt} (h : ReadOk st) {l : Str} (hl : Bare c!"\n\r" l) : ReadOk (readLine st l) := by
  unfold Verif.readLine
  dsimp only
  split
  · exact h
  · exact (h.bufferLine ((bare_cleanLine hl).infix (partitionS_infix _ _).1)).release

theorem newlines_bare : ∀ (s : Str), '\r' ∉ newlines s
  | [] => by simp [newlines]
  | c :: t => by
    rw [newlines.eq_def]
    split
    · simp
    · rename_i t' e
      simp only [List.mem_cons, not_or]
      exact ⟨by decide, newlines_bare t'⟩
    · rename_i t' _ e
      simp only [List.mem_cons, not_or]
      exact ⟨by decide, newlines_bare t'⟩
    · rename_i c' t' h1 h2 e
      simp only [List.mem_cons, not_or]
      exact ⟨fun e => h2 (by rw [e]), newlines_bare t'⟩
termination_by s => s.length
decreasing_by all_goals (simp_all; try omega)

theorem fileLines_bare (content : Str) : ∀ l ∈ fileLines content, Bare c!"\n\r" l := by
  intro l hl
  have hm : l ∈ splitC '\n' (newlines content) := by
    unfold fileLines at hl
    dsimp only at hl
    split at hl
    · exact List.dropLast_subset _ hl
    · exact hl
  intro c hc hb
  simp only [List.mem_cons, List.not_mem_nil, or_false] at hb
  rcases hb with rfl | rfl
  · exact not_mem_splitC l hm hc
  · exact newlines_bare content ((splitC_infix hm).subset hc)

/-- Every statement of a file is a statement text. -/
theorem statementText_of_mem {content s : Str} (h : s ∈ getStatements (fileLines content)) : StatementText s := by
  have key : ∀ (ls : List Str) (st : ReadSt), (∀ l ∈ ls, Bare c!"\n\r" l) → ReadOk st → ReadOk (ls.foldl Verif.readLine st) := by
    intro ls
    induction ls with
    | nil => exact fun _ _ h => h
    | cons l ls ih => exact fun st hl h => ih _ (fun x hx => hl x (by simp [hx])) (h.readLine (hl l (by simp)))
  have ok := key _ {} (fileLines_bare content) ⟨by simp [Bare], by simp⟩
  unfold getStatements at h
  obtain ⟨x, hx, rfl⟩ := List.mem_map.1 h
  obtain ⟨h1, h2⟩ := ok.statements x hx
  have ht : Trim (sq x) := by
    have := strip_trim (sq x)
    rwa [strip_sq, h2.strip] at this
  refine ⟨fun c hc => ?_, (single_subRunGo x false).1, ht.1, ht.2⟩
  rcases mem_subRunGo hc with rfl | ⟨hc, -⟩
  · decide
  · exact h1 c hc

/-! ## Any statement can be given -/

/-- Lines that give exactly a text: each of its characters after a comment, together with the white space before it. -/
def spelled : Str → Str → List Str
  | _, [] => []
  | ws, c :: t => if isSpace c then spelled (ws ++ [c]) t else (c!"/**/" ++ (ws ++ [c])) :: spelled [] t

theorem subRun_tab : ∀ {s : Str} {b : Bool}, '\t' ∉ s → subRunGo '\t' b s = s
  | [], b, _ => by cases b <;> rfl
  | x :: t, b, h => by
    simp only [List.mem_cons, not_or] at h
    rw [subRunGo, if_neg (fun e => h.1 e.symm), subRun_tab h.2]

theorem readLine_spelled {st : ReadSt} (hc : st.inComment = false) {ws : Str} {c : Char} (hw : ∀ x ∈ ws, isSpace x = true)
    (hs : isSpace c = false) (ht : '\t' ∉ ws) (h2 : ¬ c!"  " <:+: ws) :
    readLine st (c!"/**/" ++ (ws ++ [c])) = release { st with buffer := st.buffer ++ (ws ++ [c]) } := by
  have e1 : strip (c!"/**/" ++ (ws ++ [c])) = c!"/**/" ++ (ws ++ [c]) := by
    apply Trim.strip
    refine ⟨fun x hx => ?_, fun x hx => ?_⟩
    · simp at hx; rw [← hx]; decide
    · rw [← List.append_assoc, List.getLast?_concat] at hx
      simp only [Option.some.injEq] at hx
      rw [← hx]; exact hs
  have hcb : c ≠ ' ' := by rintro rfl; simp [isSpace] at hs
  have e2 : subRun ' ' (c!"/**/" ++ (ws ++ [c])) = c!"/**/" ++ (ws ++ [c]) := by
    apply sq_of_single false _ (by simp)
    intro h
    have := infix_sep (w := c!"  ") (a := c!"/**/" ++ ws) (b := []) (c := c) (by simpa using fun e => hcb e) (by simpa using h)
    rcases this with h | h
    · have := infix_foreign_left (w := c!"  ") (a := c!"/**/") (b := ws) (by simp) (by decide) h
      exact h2 this
    · simp at h
  have e3 : subRun '\t' (c!"/**/" ++ (ws ++ [c])) = c!"/**/" ++ (ws ++ [c]) := by
    apply subRun_tab
    simp only [List.mem_append, List.mem_singleton, not_or]
    exact ⟨by decide, ht, by rintro rfl; simp [isSpace] at hs⟩
  have e4 : partitionS c!"--" (c!"/**/" ++ (ws ++ [c])) = (c!"/**/" ++ (ws ++ [c]), false, []) := by
    apply partitionS_absent
    intro h
    rw [← List.append_assoc] at h
    have := infix_foreign_left (w := c!"--") (a := c!"/**/" ++ ws) (b := [c]) (by simp) (by
      intro x hx hm
      have : x = '-' := by simpa using hm
      subst this
      rcases List.mem_append.1 hx with h | h
      · simp at h
      · exact absurd (hw _ h) (by decide)) h
    have := this.length_le
    simp at this
  unfold readLine cleanLine
  dsimp only
  rw [e1, e2, e3, e4]
  dsimp only
  rw [if_neg (by simp [startsWith])]
  congr 1
  unfold bufferLine
  rw [hc]
  simp only [Bool.false_eq_true, if_false]
  have p1 : partitionS c!"/*" (c!"/**/" ++ (ws ++ [c])) = ([], true, c!"*/" ++ (ws ++ [c])) := rfl
  have p2 : partitionS c!"*/" (c!"*/" ++ (ws ++ [c])) = ([], true, ws ++ [c]) := rfl
  have q1 : hasSub c!"/*" (c!"/**/" ++ (ws ++ [c])) = true := hasSub_iff.2 ⟨[], c!"*/" ++ (ws ++ [c]), rfl⟩
  have q2 : hasSub c!"*/" (c!"*/" ++ (ws ++ [c])) = true := hasSub_iff.2 ⟨[], ws ++ [c], rfl⟩
  rw [if_pos q1, p1]
  dsimp only
  rw [if_pos q2, p2]
  simp

theorem release_none {st : ReadSt} (h : ';' ∉ st.buffer) : release st = st := by
  unfold release
  rw [if_neg]
  rw [hasSub_single]; exact h

theorem foldl_spelled : ∀ (s ws : Str) {st : ReadSt}, st.inComment = false → ';' ∉ st.buffer → (∀ x ∈ ws, isSpace x = true) → Bare c!";\t\n\r" (ws ++ s) →
    ¬ c!"  " <:+: ws ++ s → (∀ c, (ws ++ s).getLast? = some c → isSpace c = false) →
    (spelled ws s).foldl readLine st = { st with buffer := st.buffer ++ (ws ++ s) }
  | [], ws, st, hc, hb, hw, hbare, h2, hl => by
    have : ws = [] := by
      rcases List.eq_nil_or_concat ws with h | ⟨v, x, rfl⟩
      · exact h
      · have := hl x (by simp)
        rw [hw x (by simp)] at this
        cases this
    subst this
    simp [spelled]
  | c :: t, ws, st, hc, hb, hw, hbare, h2, hl => by
    rw [spelled]
    split
    · rename_i hs
      have e : ws ++ c :: t = (ws ++ [c]) ++ t := by simp
      rw [e] at hbare h2 hl ⊢
      exact foldl_spelled t (ws ++ [c]) hc hb (fun x hx => by
        rcases List.mem_append.1 hx with hx | hx
        · exact hw x hx
        · rw [List.mem_singleton.1 hx]; exact hs) hbare h2 hl
    · rename_i hs
      have hs' : isSpace c = false := by simpa using hs
      rw [List.foldl_cons, readLine_spelled hc hw hs' (fun h => hbare '\t' (by simp [h]) (by decide)) (fun h => h2 (h.trans (List.prefix_append _ _).isInfix))]
      have hsemi : ';' ∉ st.buffer ++ (ws ++ [c]) := by
        simp only [List.mem_append, List.mem_singleton, not_or]
        exact ⟨hb, fun h => hbare ';' (by simp [h]) (by decide), fun h => hbare ';' (by simp [← h]) (by decide)⟩
      rw [release_none hsemi]
      rw [foldl_spelled t [] (by exact hc) hsemi (by simp) (fun x hx => hbare x (by simp at hx; simp [hx]))
        (fun h => h2 (h.trans ⟨ws ++ [c], [], by simp⟩)) (fun x hx => hl x (by
          rw [List.nil_append] at hx
          cases t with
          | nil => simp at hx
          | cons y t => rw [List.getLast?_append, List.getLast?_cons_cons, hx]; rfl))]
      simp

/-- The lines of a statement. -/
def statementLines (s : Str) : List Str := spelled [] s ++ [c!"/**/;"]

theorem foldl_statementLines {s : Str} (h : StatementText s) {st : ReadSt} (hc : st.inComment = false) (hb : st.buffer = []) :
    (statementLines s).foldl readLine st = { st with statements := st.statements ++ [s], buffer := [] } := by
  unfold statementLines
  rw [List.foldl_append, foldl_spelled s [] hc (by simp [hb]) (by simp) h.chars h.single h.last]
  rw [List.foldl_cons, List.foldl_nil, show (c!"/**/;") = c!"/**/" ++ ([] ++ [';']) from rfl]
  have hsemi : ';' ∉ s := fun hm => h.chars ';' hm (by decide)
  rw [readLine_spelled (st := { st with buffer := st.buffer ++ ([] ++ s) }) hc (by simp) (by decide) (by simp) (by simp)]
  unfold release
  simp only [hb, List.nil_append]
  have hp : partitionS c!";" (s ++ [';']) = (s, true, []) := partitionS_char hsemi
  rw [if_pos (hasSub_single.2 (by simp)), hp]
  simp only [(Trim.strip ⟨h.first, h.last⟩ : strip s = s)]

theorem bare_spelled : ∀ (s ws : Str), Bare c!"\n\r" (ws ++ s) → ∀ l ∈ spelled ws s, Bare c!"\n\r" l
  | [], ws, _, l, hl => by simp [spelled] at hl
  | c :: t, ws, h, l, hl => by
    rw [spelled] at hl
    split at hl
    · exact bare_spelled t (ws ++ [c]) (by simpa using h) l hl
    · rcases List.mem_cons.1 hl with rfl | hl
      · exact Bare.append (by unfold Bare; decide) (h.infix ⟨[], t, by simp⟩)
      · exact bare_spelled t [] (h.infix ⟨ws ++ [c], [], by simp⟩) l hl

/-- A file with the given statements. -/
def spelledFile (l : List Str) : Str := fileOf (l.flatMap statementLines)

theorem getStatements_spelled {l : List Str} (h : ∀ s ∈ l, StatementText s) : getStatements (fileLines (spelledFile l)) = l := by
  have hl : AreLines (l.flatMap statementLines) := by
    intro x hx
    obtain ⟨s, hs, hx⟩ := List.mem_flatMap.1 hx
    have : Bare c!"\n\r" x := by
      rcases List.mem_append.1 hx with hx | hx
      · exact bare_spelled s [] (fun c hc hm => (h s hs).chars c (by simpa using hc) (by simp at hm ⊢; rcases hm with rfl | rfl <;> simp)) x hx
      · rw [List.mem_singleton.1 hx]; unfold Bare; decide
    exact ⟨fun hm => this _ hm (by decide), fun hm => this _ hm (by decide)⟩
  unfold spelledFile getStatements
  rw [fileLines_fileOf hl]
  have key : ∀ (l : List Str) (st : ReadSt), (∀ s ∈ l, StatementText s) → st.inComment = false → st.buffer = [] →
      (l.flatMap statementLines).foldl readLine st = { st with statements := st.statements ++ l, buffer := [] } := by
    intro l
    induction l with
    | nil => intro st _ _ hb; simp [← hb]
    | cons s l ih =>
      intro st hl hc hb
      rw [List.flatMap_cons, List.foldl_append, foldl_statementLines (hl s (by simp)) hc hb, ih { st with statements := st.statements ++ [s], buffer := [] } (fun x hx => hl x (by simp [hx])) hc rfl]
      simp
  rw [key l {} h rfl rfl]
  simp only [List.nil_append]
  conv_rhs => rw [← List.map_id l]
  apply List.map_congr_left
  intro s hs
  exact sq_of_single false (h s hs).single (by simp)

end Verif
