import Verif.Lemmas.Free
import Verif.Lemmas.Words
import Verif.Lemmas.CreateTable
/-
Texts in which quoted names and fixed phrases alternate.
-/

namespace Verif
open Spec

/-- A phrase, then quoted names, each followed by a phrase. -/
def quoteLine (t : Str) (l : List (Str × Str)) : Str := t ++ l.flatMap (fun p => '"' :: (p.1 ++ '"' :: p.2))

theorem quoteLine_nil (t : Str) : quoteLine t [] = t := by simp [quoteLine]

theorem quoteLine_cons (t : Str) (p : Str × Str) (l : List (Str × Str)) : quoteLine t (p :: l) = t ++ '"' :: (p.1 ++ '"' :: quoteLine p.2 l) := by
  simp [quoteLine]

theorem quoteLine_append (t : Str) (l m : List (Str × Str)) : quoteLine t (l ++ m) = quoteLine t l ++ quoteLine [] m := by
  simp [quoteLine]

theorem append_quoteLine (a t : Str) (l : List (Str × Str)) : a ++ quoteLine t l = quoteLine (a ++ t) l := by
  simp [quoteLine]

theorem quoteLine_small (t : Str) (l : List (Str × Str)) :
    (quoteLine t l).map small = quoteLine (t.map small) (l.map (fun p => (p.1.map small, p.2.map small))) := by
  induction l generalizing t with
  | nil => simp [quoteLine]
  | cons p l ih =>
    rw [quoteLine_cons, List.map_cons, quoteLine_cons, List.map_append, List.map_cons, List.map_append, List.map_cons, ih,
      show small '"' = '"' from by decide]

theorem quoteLine_free {w t : Str} {l : List (Str × Str)} (hq : '"' ∉ w) (h0 : ¬ w <:+: t) (h : ∀ p ∈ l, ¬ w <:+: p.1 ∧ ¬ w <:+: p.2) :
    ¬ w <:+: quoteLine t l := by
  induction l generalizing t with
  | nil => rwa [quoteLine_nil]
  | cons p l ih =>
    rw [quoteLine_cons]
    intro hi
    rcases infix_sep hq hi with hi | hi
    · exact h0 hi
    · rcases infix_sep hq hi with hi | hi
      · exact (h p (by simp)).1 hi
      · exact ih (h p (by simp)).2 (fun q hq => h q (by simp [hq])) hi

theorem quoteLine_without {w t : Str} {l : List (Str × Str)} (hq : '"' ∉ w) (h0 : Lacks w t) (h : ∀ p ∈ l, Lacks w p.1 ∧ Lacks w p.2) :
    Lacks w (quoteLine t l) := by
  unfold Lacks
  rw [quoteLine_small]
  apply quoteLine_free hq h0
  intro p hp
  obtain ⟨q, hq, rfl⟩ := List.mem_map.1 hp
  exact h q hq

theorem mem_quoteLine {t : Str} {l : List (Str × Str)} {c : Char} (h : c ∈ quoteLine t l) :
    c ∈ t ∨ c = '"' ∨ ∃ p ∈ l, c ∈ p.1 ∨ c ∈ p.2 := by
  simp only [quoteLine, List.mem_append, List.mem_flatMap, List.mem_cons] at h
  rcases h with h | ⟨p, hp, h | h | h | h⟩
  · exact .inl h
  · exact .inr (.inl h)
  · exact .inr (.inr ⟨p, hp, .inl h⟩)
  · exact .inr (.inl h)
  · exact .inr (.inr ⟨p, hp, .inr h⟩)

/-- Names with commas in between and a phrase at the end. -/
def nameSegs : List Str → Str → List (Str × Str)
  | [], _ => []
  | [n], e => [(n, e)]
  | n :: m :: ns, e => (n, c!", ") :: nameSegs (m :: ns) e

theorem quoteLine_names {ns : List Str} (h : ns ≠ []) (e t : Str) : quoteLine t (nameSegs ns e) = t ++ (listToString ns true ++ e) := by
  cases ns with
  | nil => exact absurd rfl h
  | cons n ns =>
    rw [listToString_cons]
    induction ns generalizing n t with
    | nil => simp [nameSegs, quoteLine, moreNames]
    | cons m ns ih =>
      simp only [nameSegs]
      rw [quoteLine_cons, ih _ m (by simp)]
      simp [moreNames]

theorem mem_nameSegs {ns : List Str} {e : Str} {p : Str × Str} (h : p ∈ nameSegs ns e) : p.1 ∈ ns ∧ (p.2 = c!", " ∨ p.2 = e) := by
  induction ns with
  | nil => simp [nameSegs] at h
  | cons n ns ih =>
    cases ns with
    | nil =>
      simp only [nameSegs, List.mem_singleton] at h
      subst h
      exact ⟨by simp, .inr rfl⟩
    | cons m ns =>
      simp only [nameSegs, List.mem_cons] at h
      rcases h with rfl | h
      · exact ⟨by simp, .inl rfl⟩
      · have := ih h
        exact ⟨List.mem_cons_of_mem _ this.1, this.2⟩

/-! ## Texts that can stand in a statement -/

/-- A text that can stand in a statement: no white space but blanks, no semicolons, brackets or comment signs. -/
def tame (s : Str) : Bool :=
  s.all (fun c => (!isSpace c || c == ' ') && c != ';') && !hasSub c!"--" s && !hasSub c!"/*" s

structure Tame (s : Str) : Prop where
  blanks : ∀ c ∈ s, isSpace c = true → c = ' '
  semi : ';' ∉ s
  line : ¬ c!"--" <:+: s
  block : ¬ c!"/*" <:+: s

theorem tame_iff {s : Str} : tame s = true ↔ Tame s := by
  simp only [tame, Bool.and_eq_true, List.all_eq_true, Bool.or_eq_true, Bool.not_eq_true', beq_iff_eq, bne_iff_ne, hasSub_false_iff]
  constructor
  · rintro ⟨⟨h1, h2⟩, h3⟩
    refine ⟨fun c hc hs => ?_, fun hc => (h1 _ hc).2 rfl, h2, h3⟩
    rcases (h1 c hc).1 with h | h
    · rw [hs] at h; simp at h
    · exact h
  · rintro ⟨h1, h2, h3, h4⟩
    refine ⟨⟨fun c hc => ⟨?_, by rintro rfl; exact h2 hc⟩, h3⟩, h4⟩
    by_cases hs : isSpace c = true
    · exact .inr (h1 c hc hs)
    · exact .inl (by simpa using hs)

theorem tame_lit {s : Str} (h : tame s = true) : Tame s := tame_iff.1 h

theorem Spec.ReadableName.inline {n : Str} (h : ReadableName n) : InlineName n :=
  ⟨fun c hc => ⟨(h.chars c hc).1, fun hm => (h.chars c hc).2 (by revert hm; simp only [List.mem_cons, List.not_mem_nil]; tauto)⟩, h.single, h.noLineComment, h.noBlockComment⟩

theorem tame_name {n : Str} (h : InlineName n) : Tame n :=
  ⟨fun c hc => (h.chars c hc).1, fun hc => (h.chars _ hc).2 (by decide), h.noLineComment, h.noBlockComment⟩

theorem tame_sep {a b : Str} {c : Char} (h1 : c ≠ ';') (h2 : isSpace c = true → c = ' ') (h3 : c ∉ c!"-/*") (ha : Tame a) (hb : Tame b) :
    Tame (a ++ c :: b) := by
  refine ⟨?_, ?_, fun h => ?_, fun h => ?_⟩
  · intro x hx hs
    rcases List.mem_append.1 hx with hx | hx
    · exact ha.blanks x hx hs
    · rcases List.mem_cons.1 hx with rfl | hx
      · exact h2 hs
      · exact hb.blanks x hx hs
  · simp only [List.mem_append, List.mem_cons, not_or]
    exact ⟨ha.semi, fun e => h1 e.symm, hb.semi⟩
  · rcases infix_sep (fun hc => h3 (by revert hc; simp only [List.mem_cons, List.not_mem_nil]; tauto)) h with h | h
    · exact ha.line h
    · exact hb.line h
  · rcases infix_sep (fun hc => h3 (by revert hc; simp only [List.mem_cons, List.not_mem_nil]; tauto)) h with h | h
    · exact ha.block h
    · exact hb.block h

theorem tame_nil : Tame [] := tame_lit (by decide)

theorem tame_cons {b : Str} {c : Char} (h1 : c ≠ ';') (h2 : isSpace c = true → c = ' ') (h3 : c ∉ c!"-/*") (hb : Tame b) : Tame (c :: b) :=
  tame_sep h1 h2 h3 tame_nil hb

theorem tame_snoc {a : Str} {c : Char} (h1 : c ≠ ';') (h2 : isSpace c = true → c = ' ') (h3 : c ∉ c!"-/*") (ha : Tame a) : Tame (a ++ [c]) :=
  tame_sep h1 h2 h3 ha tame_nil

theorem tame_blanks (a : Str) (h : ∀ c ∈ a, c = ' ') {b : Str} (hb : Tame b) : Tame (a ++ b) := by
  induction a with
  | nil => exact hb
  | cons x a ih =>
    have := h x (by simp)
    subst this
    exact tame_cons (by decide) (by decide) (by decide) (ih (fun c hc => h c (by simp [hc])))

theorem tame_quoteLine {t : Str} {l : List (Str × Str)} (h0 : Tame t) (h : ∀ p ∈ l, InlineName p.1 ∧ Tame p.2) : Tame (quoteLine t l) := by
  induction l generalizing t with
  | nil => rwa [quoteLine_nil]
  | cons p l ih =>
    rw [quoteLine_cons]
    exact tame_sep (by decide) (by decide) (by decide) h0 (tame_sep (by decide) (by decide) (by decide) (tame_name (h p (by simp)).1)
      (ih (h p (by simp)).2 (fun q hq => h q (by simp [hq]))))

/-! ## Neat texts -/

/-- A text without superfluous blanks. -/
structure Neat (s : Str) : Prop where
  nonempty : s ≠ []
  tidy : tidy s = s

theorem words_ne_nil {s : Str} (h : Neat s) : words s ≠ [] := by
  intro e
  have := h.tidy
  unfold Spec.tidy at this
  rw [e] at this
  exact h.nonempty this.symm

theorem sq_of_single : ∀ {s : Str} (b : Bool), ¬ c!"  " <:+: s → (b = true → s.head? ≠ some ' ') → subRunGo ' ' b s = s
  | [], b, _, _ => by cases b <;> rfl
  | x :: s, b, h, hb => by
    have hs : ¬ c!"  " <:+: s := fun h' => h (h'.trans (List.suffix_cons x s).isInfix)
    by_cases hx : x = ' '
    · subst hx
      have : b = false := by
        cases b with
        | false => rfl
        | true => exact absurd rfl (hb rfl)
      subst this
      simp only [subRunGo, if_true]
      rw [sq_of_single true hs]
      · simp
      · intro _ hh
        cases s with
        | nil => simp at hh
        | cons y s =>
          simp only [List.head?_cons, Option.some.injEq] at hh
          subst hh
          exact h ⟨[], s, rfl⟩
    · simp only [subRunGo, if_neg hx]
      rw [sq_of_single false hs (by simp)]

theorem neat_of {s : Str} (hne : s ≠ []) (hb : ∀ c ∈ s, isSpace c = true → c = ' ') (ht : Trim s) (h2 : ¬ c!"  " <:+: s) : Neat s :=
  ⟨hne, joinS_words (fun c hc hg => hb c hc (space_wgap hg)) ht.blanks.1 ht.blanks.2 (sq_of_single false h2 (by simp))⟩

theorem joinS_append {sep : Str} : ∀ {a b : List Str}, a ≠ [] → b ≠ [] → joinS sep (a ++ b) = joinS sep a ++ sep ++ joinS sep b
  | [x], [], _, h => absurd rfl h
  | [x], y :: b, _, _ => by simp [joinS]
  | x :: y :: a, b, _, hb => by
    have := joinS_append (sep := sep) (a := y :: a) (b := b) (by simp) hb
    simp only [List.cons_append, joinS] at this ⊢
    rw [this]
    simp

theorem neat_append {a b : Str} (ha : Neat a) (hb : Neat b) : Neat (a ++ ' ' :: b) := by
  refine ⟨by simp, ?_⟩
  unfold tidy
  rw [words_append (by rfl), joinS_append (words_ne_nil ha) (words_ne_nil hb)]
  have h1 := ha.tidy
  have h2 := hb.tidy
  unfold tidy at h1 h2
  rw [h1, h2]
  simp

theorem words_blanks {a b : Str} (h : ∀ c ∈ a, c = ' ') : words (a ++ b) = words b := by
  induction a with
  | nil => rfl
  | cons x a ih =>
    have := h x (by simp)
    subst this
    rw [List.cons_append, words_gap rfl, ih (fun c hc => h c (by simp [hc]))]

theorem words_lines : ∀ (ls : List Str), words (joinS ['\n'] ls) = ls.flatMap words
  | [] => rfl
  | [l] => by simp [joinS]
  | l :: m :: ls => by
    have := words_lines (m :: ls)
    simp only [joinS]
    rw [show l ++ ['\n'] ++ joinS ['\n'] (m :: ls) = l ++ '\n' :: joinS ['\n'] (m :: ls) from by simp, words_append (by rfl), this]
    rfl

theorem joinS_flatMap_words : ∀ {ns : List Str}, (∀ n ∈ ns, Neat n) → joinS [' '] (ns.flatMap words) = joinS [' '] ns
  | [], _ => rfl
  | [n], h => by
    have := (h n (by simp)).tidy
    unfold tidy at this
    simp [joinS, this]
  | n :: m :: ns, h => by
    have ih := joinS_flatMap_words (ns := m :: ns) (fun x hx => h x (by simp only [List.mem_cons] at hx ⊢; tauto))
    have hn := (h n (by simp)).tidy
    unfold tidy at hn
    rw [List.flatMap_cons, joinS_append (words_ne_nil (h n (by simp))), ih, hn]
    · simp [joinS]
    · rw [List.flatMap_cons]
      have := words_ne_nil (h m (by simp))
      simp [this]

/-- Lines that are neat texts after some blanks. -/
theorem tidy_lines {ls : List (Str × Str)} (hp : ∀ p ∈ ls, ∀ c ∈ p.1, c = ' ') (hn : ∀ p ∈ ls, Neat p.2) :
    tidy (joinS ['\n'] (ls.map (fun p => p.1 ++ p.2))) = joinS [' '] (ls.map (·.2)) := by
  unfold tidy
  rw [words_lines, ← joinS_flatMap_words (ns := ls.map (·.2))]
  · congr 1
    induction ls with
    | nil => rfl
    | cons p ls ih =>
      simp only [List.map_cons, List.flatMap_cons]
      rw [words_blanks (hp p (by simp)), ih (fun q hq => hp q (by simp [hq])) (fun q hq => hn q (by simp [hq]))]
  · intro n hnm
    obtain ⟨p, hpm, rfl⟩ := List.mem_map.1 hnm
    exact hn p hpm

theorem neat_quoteLine {t : Str} {l : List (Str × Str)} (ht : Tame t) (h : ∀ p ∈ l, InlineName p.1 ∧ Tame p.2) (h0 : ¬ c!"  " <:+: t)
    (hd : ∀ p ∈ l, ¬ c!"  " <:+: p.2) (hne : quoteLine t l ≠ []) (htr : Trim (quoteLine t l)) : Neat (quoteLine t l) := by
  apply neat_of hne (tame_quoteLine ht h).blanks htr
  apply quoteLine_free (by decide) h0
  intro p hp
  refine ⟨(h p hp).1.single, hd p hp⟩

end Verif
