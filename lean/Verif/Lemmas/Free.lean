import Verif.Props.Types
import Verif.Lemmas.Words
import Verif.Spec.RoundTrip
/-
Texts in which a phrase does not occur.
-/

namespace Verif
open Spec

/-- A separator outside the phrase. -/
theorem infix_sep {w a b : Str} {c : Char} (hc : c ∉ w) (h : w <:+: a ++ c :: b) : w <:+: a ∨ w <:+: b := by
  obtain ⟨u, v, e⟩ := h
  rw [List.append_assoc] at e
  rcases List.append_eq_append_iff.1 e with ⟨x, h1, h2⟩ | ⟨x, h1, h2⟩
  · -- a = u ++ x, w ++ v = x ++ c :: b
    rcases List.append_eq_append_iff.1 h2 with ⟨y, h3, h4⟩ | ⟨y, h3, h4⟩
    · left
      exact ⟨u, y, by rw [h1, h3]; simp⟩
    · cases y with
      | nil => left; exact ⟨u, [], by rw [h1, h3]; simp⟩
      | cons z y =>
        simp only [List.cons_append, List.cons.injEq] at h4
        exact absurd (by rw [h3, h4.1]; simp) hc
  · -- u = a ++ x, c :: b = x ++ (w ++ v)
    cases x with
    | nil =>
      cases w with
      | nil => left; exact ⟨[], a, by simp⟩
      | cons z w =>
        simp only [List.nil_append, List.cons_append, List.cons.injEq] at h2
        exact absurd (by rw [h2.1]; simp) hc
    | cons z x =>
      simp only [List.cons_append, List.cons.injEq] at h2
      right
      exact ⟨x, v, by rw [h2.2]; simp⟩

/-- A text with no character of the phrase in front. -/
theorem infix_foreign_left {w a b : Str} (hne : w ≠ []) (ha : ∀ c ∈ a, c ∉ w) (h : w <:+: a ++ b) : w <:+: b := by
  induction a with
  | nil => exact h
  | cons x a ih =>
    apply ih (fun c hc => ha c (by simp [hc]))
    have := infix_sep (a := []) (b := a ++ b) (ha x (by simp)) (by simpa using h)
    rcases this with h | h
    · rw [List.infix_nil] at h; exact absurd h hne
    · exact h

theorem without_eq {w s : Str} : Lacks w s ↔ ¬ w <:+: lower s := by rw [Lacks, ← Props.lower_eq]

theorem hasSub_without {w s : Str} (h : Lacks w s) : hasSub w (lower s) = false := by
  rw [hasSub_false_iff]; exact without_eq.1 h

theorem without_sep {w a b : Str} {c : Char} (hc : small c ∉ w) (ha : Lacks w a) (hb : Lacks w b) : Lacks w (a ++ c :: b) := by
  intro h
  rw [List.map_append, List.map_cons] at h
  rcases infix_sep hc h with h | h
  · exact ha h
  · exact hb h

theorem without_nil {w : Str} (h : w ≠ []) : Lacks w [] := by
  intro h'
  simp only [List.map_nil, List.infix_nil] at h'
  exact h h'

theorem without_mem {w s : Str} {c : Char} (hc : c ∈ w) (h : c ∉ s.map small) : Lacks w s := fun h' => h (h'.subset hc)

theorem small_blank {c : Char} : small c = ' ' ↔ c = ' ' := by
  have : lowerC c = ' ' ↔ c = ' ' := lowerC_special (by decide) (by decide)
  rw [← this]
  have h := Props.lower_eq [c]
  simp only [lower, List.map_cons, List.map_nil, List.cons.injEq, and_true] at h
  rw [h]

theorem blank_not_mem {s : Str} (h : ' ' ∉ s) : ' ' ∉ s.map small := by
  simp only [List.mem_map, not_exists, not_and]
  intro c hc e
  rw [small_blank] at e
  exact h (e ▸ hc)

/-- A phrase with a blank does not occur in a word. -/
theorem without_word {w s : Str} (hw : ' ' ∈ w) (h : ' ' ∉ s) : Lacks w s := without_mem hw (blank_not_mem h)

/-- Texts that no readable name contains. -/
def offName (w : Str) : Bool := w.any (fun c => (c!"\"'`[]().,;").contains c) || statementPhrases.any (fun v => hasSub v w)

theorem without_name {w n : Str} (hw : offName w = true) (h : ReadableName n) : Lacks w n := by
  simp only [offName, Bool.or_eq_true, List.any_eq_true] at hw
  rcases hw with ⟨c, hc, hm⟩ | ⟨v, hv, hs⟩
  · rw [List.contains_iff_mem] at hm
    refine without_mem hc (fun hmem => ?_)
    obtain ⟨x, hx, e⟩ := List.mem_map.1 hmem
    have hs : ∀ c ∈ c!"\"'`[]().,;", isUpperA c = false ∧ isLowerA c = false := by decide
    obtain ⟨h1, h2⟩ := hs c hm
    have hx' : x = c := by
      rw [← lowerC_special (c := x) (d := c) h2 h1]
      have h := Props.lower_eq [x]
      simp only [lower, List.map_cons, List.map_nil, List.cons.injEq, and_true] at h
      rw [h, e]
    exact (h.chars x hx).2 (hx' ▸ hm)
  · intro hi
    exact h.phrases v hv ((hasSub_iff.1 hs).trans hi)

/-- The names after the first in a list. -/
def moreNames : List Str → Str
  | [] => []
  | m :: ns => c!", " ++ '"' :: (m ++ '"' :: moreNames ns)

theorem listToString_cons (n : Str) (ns : List Str) : listToString (n :: ns) true = '"' :: (n ++ '"' :: moreNames ns) := by
  simp only [listToString, if_true]
  induction ns generalizing n with
  | nil => simp [joinS, quoted, moreNames]
  | cons m ns ih =>
    have := ih m
    simp only [List.map_cons, joinS] at this ⊢
    rw [this]
    simp [quoted, moreNames]

/-- A list of names in quotes. -/
theorem without_names {w : Str} (hne : w ≠ []) (hq : '"' ∉ w) (hc : ¬ w <:+: c!", ") {ns : List Str} (h : ∀ n ∈ ns, Lacks w n) :
    Lacks w (listToString ns true) := by
  have sq : small '"' ∉ w := by rwa [show small '"' = '"' from by decide]
  have hc' : Lacks w c!", " := by unfold Lacks; rw [show (c!", ").map small = c!", " from by decide]; exact hc
  have more : ∀ {ns : List Str}, (∀ n ∈ ns, Lacks w n) → Lacks w (moreNames ns) := by
    intro ns h
    induction ns with
    | nil => exact without_nil hne
    | cons m ns ih =>
      exact without_sep sq hc' (without_sep sq (h m (by simp)) (ih (fun x hx => h x (by simp [hx]))))
  cases ns with
  | nil => exact without_nil hne
  | cons n ns =>
    rw [listToString_cons]
    exact without_sep (a := []) sq (without_nil hne) (without_sep sq (h n (by simp)) (more (fun x hx => h x (by simp [hx]))))

/-- A property of all characters of a list of names. -/
theorem mem_names {ns : List Str} {c : Char} (h : c ∈ listToString ns true) : c ∈ c!"\", " ∨ ∃ n ∈ ns, c ∈ n := by
  have more : ∀ {ns : List Str}, c ∈ moreNames ns → c ∈ c!"\", " ∨ ∃ n ∈ ns, c ∈ n := by
    intro ns h
    induction ns with
    | nil => simp [moreNames] at h
    | cons m ns ih =>
      simp only [moreNames, List.mem_append, List.mem_cons, List.not_mem_nil, or_false] at h
      rcases h with (rfl | rfl) | rfl | h | rfl | h
      · left; decide
      · left; decide
      · left; decide
      · right; exact ⟨m, by simp, h⟩
      · left; decide
      · rcases ih h with h | ⟨n, hn, hc⟩
        · left; exact h
        · right; exact ⟨n, by simp [hn], hc⟩
  cases ns with
  | nil => simp [listToString, joinS] at h
  | cons n ns =>
    rw [listToString_cons] at h
    simp only [List.mem_append, List.mem_cons] at h
    rcases h with rfl | h | rfl | h
    · left; decide
    · right; exact ⟨n, by simp, h⟩
    · left; decide
    · rcases more h with h | ⟨n, hn, hc⟩
      · left; exact h
      · right; exact ⟨n, by simp [hn], hc⟩

end Verif
