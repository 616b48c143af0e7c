import Verif.Props.Lines
import Verif.Lemmas.Quoted
/-
Reading a file made of blocks of lines, one statement each.
-/

namespace Verif
open Spec

/-- The lines of one statement: maybe an empty line, then lines with some blanks at the front, then the last one. -/
structure Block where
  blank : Bool
  init : List (Str × Str)
  last : Str

/-- The lines as they stand in the file. -/
def Block.lines (b : Block) : List Str := (if b.blank then [[]] else []) ++ b.init.map (fun p => p.1 ++ p.2) ++ [b.last ++ [';']]

/-- The statement read. -/
def Block.stmt (b : Block) : Str := joinS [' '] (b.init.map (·.2) ++ [b.last])

/-- A text that can be a line. -/
structure LineOk (s : Str) : Prop where
  neat : Neat s
  tame : Tame s
  head : s.head? ≠ some 'G'

structure Block.Ok (b : Block) : Prop where
  pads : ∀ p ∈ b.init, ∀ c ∈ p.1, c = ' '
  lines : ∀ p ∈ b.init, LineOk p.2
  last : LineOk b.last

theorem plainSpace_tame {s : Str} (h : Tame s) : PlainSpace s := fun c hc hs => .inl (h.blanks c hc hs)

theorem words_mem {s : Str} : ∀ w ∈ words s, ∀ c ∈ w, wgap c = false ∧ c ∈ s := by
  have key : ∀ (s : Str), ∀ w ∈ pieces wgap s, ∀ c ∈ w, wgap c = false ∧ c ∈ s := by
    intro s
    induction s with
    | nil => simp [pieces]
    | cons x s ih =>
      intro w hw c hc
      simp only [pieces] at hw
      split at hw
      · rcases List.mem_cons.1 hw with rfl | hw
        · simp at hc
        · have := ih w hw c hc; exact ⟨this.1, by simp [this.2]⟩
      · rename_i hx
        split at hw
        · exact absurd ‹pieces wgap s = []› (pieces_ne_nil _ _)
        · rename_i v vs e
          rcases List.mem_cons.1 hw with rfl | hw
          · rcases List.mem_cons.1 hc with rfl | hc
            · exact ⟨by simpa using hx, by simp⟩
            · have := ih v (by rw [e]; simp) c hc; exact ⟨this.1, by simp [this.2]⟩
          · have := ih w (by rw [e]; simp [hw]) c hc; exact ⟨this.1, by simp [this.2]⟩
  intro w hw
  unfold words at hw
  exact key s w (List.mem_filter.1 hw).1

/-- A neat text begins with something else than a blank. -/
theorem neat_head {s : Str} (h : Neat s) (ht : Tame s) : ∃ c t, s = c :: t ∧ isSpace c = false := by
  have h1 := h.tidy
  cases s with
  | nil => exact absurd rfl h.nonempty
  | cons c t =>
    refine ⟨c, t, rfl, ?_⟩
    by_contra hs
    have hs : isSpace c = true := by simpa using hs
    have hc : c = ' ' := ht.blanks c (by simp) hs
    subst hc
    unfold tidy at h1
    cases hw : words (' ' :: t) with
    | nil => rw [hw] at h1; simp [joinS] at h1
    | cons w ws =>
      have hm := words_mem w (by rw [hw]; simp)
      have hne : w ≠ [] := by
        have : w ∈ words (' ' :: t) := by rw [hw]; simp
        unfold words at this
        have := (List.mem_filter.1 this).2
        rintro rfl
        simp at this
      cases w with
      | nil => exact absurd rfl hne
      | cons x w =>
        rw [hw] at h1
        have : joinS [' '] ((x :: w) :: ws) = x :: (joinS [' '] (w :: ws)) := by
          cases ws <;> simp [joinS]
        rw [this] at h1
        simp only [List.cons.injEq] at h1
        have := (hm x (by simp)).1
        rw [h1.1] at this
        revert this
        decide

theorem neat_dropWhile {p s : Str} (hp : ∀ c ∈ p, c = ' ') (h : Neat s) (ht : Tame s) (x : Str) : (p ++ (s ++ x)).dropWhile isSpace = s ++ x := by
  obtain ⟨c, t, rfl, hc⟩ := neat_head h ht
  induction p with
  | nil => simp [List.dropWhile, hc]
  | cons y p ih =>
    have := hp y (by simp)
    subst this
    rw [List.cons_append, List.dropWhile_cons_of_pos (by decide), ih (fun c hc => hp c (by simp [hc]))]

theorem plainLine_of {p s x : Str} (hp : ∀ c ∈ p, c = ' ') (h : LineOk s) (hx : x = [] ∨ x = [';']) : PlainLine (p ++ (s ++ x)) ∧ PlainSpace (p ++ (s ++ x)) ∧
    (p ++ (s ++ x)).filter (· == ';') = x ∧ '\n' ∉ p ++ (s ++ x) ∧ '\r' ∉ p ++ (s ++ x) := by
  have ht : Tame (p ++ s) := tame_blanks p hp h.tame
  have hmem : ∀ c ∈ p ++ (s ++ x), isSpace c = true → c = ' ' := by
    intro c hc hs
    rw [← List.append_assoc] at hc
    rcases List.mem_append.1 hc with hc | hc
    · exact ht.blanks c hc hs
    · rcases hx with rfl | rfl
      · simp at hc
      · simp only [List.mem_singleton] at hc
        subst hc
        revert hs
        decide
  have inf : ∀ w : Str, w ≠ [] → ';' ∉ w → ¬ w <:+: p ++ s → ¬ w <:+: p ++ (s ++ x) := by
    intro w hne hw hi hi'
    rw [← List.append_assoc] at hi'
    rcases hx with rfl | rfl
    · rw [List.append_nil] at hi'; exact hi hi'
    · rcases infix_sep hw hi' with h | h
      · exact hi h
      · simp only [List.infix_nil] at h; exact hne h
  refine ⟨⟨inf _ (by decide) (by decide) ht.line, inf _ (by decide) (by decide) ht.block, ?_⟩, fun c hc hs => .inl (hmem c hc hs), ?_, ?_, ?_⟩
  · rw [neat_dropWhile hp h.neat h.tame]
    obtain ⟨c, t, rfl, _⟩ := neat_head h.neat h.tame
    intro hg
    have := h.head
    rw [List.cons_append, List.cons_prefix_cons] at hg
    exact this (by rw [← hg.1]; rfl)
  · rw [← List.append_assoc, List.filter_append]
    have : (p ++ s).filter (· == ';') = [] := by
      rw [List.filter_eq_nil_iff]
      intro c hc
      simp only [beq_iff_eq]
      rintro rfl
      exact ht.semi hc
    rw [this]
    rcases hx with rfl | rfl <;> rfl
  · intro hc
    have := hmem _ hc (by decide)
    revert this; decide
  · intro hc
    have := hmem _ hc (by decide)
    revert this; decide

theorem Block.line_cases {b : Block} (h : b.Ok) {l : Str} (hl : l ∈ b.lines) : PlainLine l ∧ PlainSpace l ∧ (l.filter (· == ';')).length ≤ 1 ∧ '\n' ∉ l ∧ '\r' ∉ l := by
  simp only [Block.lines, List.mem_append, List.mem_map, List.mem_singleton] at hl
  rcases hl with (hl | ⟨p, hp, rfl⟩) | rfl
  · split at hl
    · simp only [List.mem_singleton] at hl
      subst hl
      exact ⟨⟨by decide, by decide, by decide⟩, by simp [PlainSpace], by decide, by decide, by decide⟩
    · simp at hl
  · have := plainLine_of (h.pads p hp) (h.lines p hp) (.inl rfl)
    rw [List.append_nil] at this
    refine ⟨this.1, this.2.1, by rw [this.2.2.1]; simp, this.2.2.2⟩
  · have := plainLine_of (p := []) (by simp) h.last (.inr rfl)
    rw [List.nil_append] at this
    refine ⟨this.1, this.2.1, by rw [this.2.2.1]; simp, this.2.2.2⟩

theorem joinS_lines_append (a : List Str) (b : Str) (rest : List Str) :
    joinS ['\n'] (a ++ [b ++ [';']] ++ rest) = joinS ['\n'] (a ++ [b]) ++ ';' :: (if rest = [] then [] else '\n' :: joinS ['\n'] rest) := by
  have key : ∀ a : List Str, joinS ['\n'] (a ++ [b ++ [';']]) = joinS ['\n'] (a ++ [b]) ++ [';'] := by
    intro a
    cases a with
    | nil => simp [joinS]
    | cons x a => rw [joinS_append (by simp) (by simp), joinS_append (by simp) (by simp)]; simp [joinS]
  split
  · rename_i h; subst h; rw [List.append_nil, key]
  · rename_i h
    rw [joinS_append (by simp) h, key]
    simp

theorem Block.words_eq {b : Block} (h : b.Ok) :
    ';' ∉ joinS ['\n'] ((if b.blank then [[]] else []) ++ b.init.map (fun p => p.1 ++ p.2) ++ [b.last]) ∧
    joinS [' '] (words (joinS ['\n'] ((if b.blank then [[]] else []) ++ b.init.map (fun p => p.1 ++ p.2) ++ [b.last]))) = b.stmt := by
  constructor
  · intro hc
    have key : ∀ (ls : List Str), ';' ∈ joinS ['\n'] ls → ∃ l ∈ ls, ';' ∈ l := by
      intro ls
      induction ls with
      | nil => intro h; simp [joinS] at h
      | cons l ls ih =>
        intro h
        cases ls with
        | nil => exact ⟨l, by simp, by simpa [joinS] using h⟩
        | cons m ls =>
          simp only [joinS, List.mem_append, List.mem_singleton] at h
          rcases h with (h | h) | h
          · exact ⟨l, by simp, h⟩
          · exact absurd h (by decide)
          · obtain ⟨x, hx, hx'⟩ := ih h
            exact ⟨x, List.mem_cons_of_mem _ hx, hx'⟩
    obtain ⟨l, hl, hx⟩ := key _ hc
    simp only [List.mem_append, List.mem_map, List.mem_singleton] at hl
    rcases hl with (hl | ⟨p, hp, rfl⟩) | rfl
    · split at hl
      · simp only [List.mem_singleton] at hl; subst hl; simp at hx
      · simp at hl
    · exact (tame_blanks p.1 (h.pads p hp) (h.lines p hp).tame).semi hx
    · exact h.last.tame.semi hx
  · have e := tidy_lines (ls := b.init ++ [([], b.last)]) (by
      intro p hp
      rcases List.mem_append.1 hp with hp | hp
      · exact h.pads p hp
      · simp only [List.mem_singleton] at hp; subst hp; simp) (by
      intro p hp
      rcases List.mem_append.1 hp with hp | hp
      · exact (h.lines p hp).neat
      · simp only [List.mem_singleton] at hp; subst hp; exact h.last.neat)
    simp only [List.map_append, List.map_cons, List.map_nil, List.nil_append] at e
    unfold tidy at e
    unfold Block.stmt
    rw [← e, words_lines, words_lines, List.append_assoc, List.flatMap_append]
    congr 1
    split <;> simp [words_nil]

theorem toks_blocks {bs : List Block} (h : ∀ b ∈ bs, b.Ok) :
    (toks (joinS ['\n'] (bs.flatMap Block.lines))).map (joinS [' ']) = bs.map Block.stmt ++ [[]] := by
  induction bs with
  | nil => rfl
  | cons b bs ih =>
    have ih := ih (fun x hx => h x (by simp [hx]))
    have hw := Block.words_eq (h b (by simp))
    rw [List.flatMap_cons]
    conv => lhs; rw [Block.lines]
    rw [joinS_lines_append, toks_semi, toks_plain hw.1, List.map_append, List.map_cons, List.map_nil, hw.2, List.map_cons]
    simp only [List.cons_append, List.nil_append, List.cons.injEq, true_and]
    split
    · rename_i e
      cases bs with
      | nil => rfl
      | cons c bs =>
        exfalso
        simp [Block.lines] at e
    · rw [toks_gap rfl, ih]

/-- The statements of a file made of blocks. -/
theorem getStatements_blocks {bs : List Block} (h : ∀ b ∈ bs, b.Ok) :
    getStatements (fileLines (fileOf (bs.flatMap Block.lines))) = bs.map Block.stmt := by
  have hc : ∀ l ∈ bs.flatMap Block.lines, PlainLine l ∧ PlainSpace l ∧ (l.filter (· == ';')).length ≤ 1 ∧ '\n' ∉ l ∧ '\r' ∉ l := by
    intro l hl
    obtain ⟨b, hb, hl⟩ := List.mem_flatMap.1 hl
    exact Block.line_cases (h b hb) hl
  rw [Props.C33_one_per_line_partial (fun l hl => (hc l hl).2.2.2) (fun l hl => (hc l hl).1) (fun l hl => (hc l hl).2.1) (fun l hl => (hc l hl).2.2.1)]
  have := toks_blocks h
  unfold toks at this
  unfold terminated
  rw [pieces_eq_splitC]
  rw [List.map_dropLast]
  have e : (splitC ';' (joinS ['\n'] (bs.flatMap Block.lines))).map tidy = bs.map Block.stmt ++ [[]] := by
    rw [← this, List.map_map]
    rfl
  rw [e, List.dropLast_concat]

theorem fileOf_append (a b : List Str) : fileOf (a ++ b) = fileOf a ++ fileOf b := by simp [fileOf]

end Verif
