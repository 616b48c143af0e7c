import Verif.Lemmas.Re
import Verif.Lemmas.Free
/-
Greedy matching.
-/

namespace Verif
open Spec

theorem eqCi_iff {a b : Char} : eqCi a b = true ↔ lowerC a = lowerC b := by simp [eqCi]

theorem reMatch_lit : ∀ (w : Str) (ts : List Tok) (s : Str),
    reMatch (lit w ++ ts) s = if lower w <+: lower s then reMatch ts (s.drop w.length) else none
  | [], ts, s => by simp [lit, lower]
  | c :: w, ts, [] => by simp [lit, lower, reMatch]
  | c :: w, ts, x :: s => by
    have ih := reMatch_lit w ts s
    simp only [lit, List.map_cons, List.cons_append, reMatch] at ih ⊢
    rw [ih]
    by_cases h : lowerC c = lowerC x
    · rw [if_pos (eqCi_iff.2 h)]
      by_cases hp : lower w <+: lower s
      · rw [if_pos hp, if_pos]
        · simp
        · simp only [lower, List.map_cons, List.cons_prefix_cons]; exact ⟨h, hp⟩
      · rw [if_neg hp, if_neg]
        simp only [lower, List.map_cons, List.cons_prefix_cons]; exact fun hh => hp hh.2
    · rw [if_neg (by rw [eqCi_iff]; exact h), if_neg]
      simp [lower, h, List.cons_prefix_cons]

/-- The literal stands at the beginning. -/
theorem reMatch_lit_eq {w m : Str} (h : lower m = lower w) (ts : List Tok) (s : Str) : reMatch (lit w ++ ts) (m ++ s) = reMatch ts s := by
  have hl : m.length = w.length := by rw [← length_lower m, ← length_lower w, h]
  rw [reMatch_lit, if_pos, ← hl, List.drop_left]
  rw [lower_append, h]
  exact List.prefix_append _ _

theorem starMatch_none {p : Char → Bool} {k : Str → Option (List Str)} : ∀ {s : Str}, (∀ y, y <:+ s → k y = none) → starMatch p k s = none
  | [], h => by simp [starMatch, h [] (List.suffix_refl _)]
  | x :: xs, h => by
    have ih : starMatch p k xs = none := starMatch_none (fun y hy => h y (hy.trans (List.suffix_cons x xs)))
    have h0 := h (x :: xs) (List.suffix_refl _)
    simp only [starMatch, ih, h0]
    split <;> rfl

/-- The star takes `a` if the rest matches after it and nowhere later. -/
theorem starMatch_max {p : Char → Bool} {k : Str → Option (List Str)} {a b : Str} {r : List Str} (ha : ∀ c ∈ a, p c = true) (hb : k b = some r)
    (hl : ∀ y, y <:+ b → y ≠ b → k y = none) : starMatch p k (a ++ b) = some (a, r) := by
  induction a with
  | nil =>
    cases b with
    | nil => simp [starMatch, hb]
    | cons x xs =>
      have : starMatch p k xs = none := starMatch_none (fun y hy => hl y (hy.trans (List.suffix_cons x xs)) (by
        rintro rfl
        have := hy.length_le
        simp at this))
      simp only [List.nil_append, starMatch, this, hb]
      split <;> rfl
  | cons x a ih =>
    have := ih (fun c hc => ha c (by simp [hc]))
    simp only [List.cons_append, starMatch, ha x (by simp), if_true, this]

/-- The star stops at a character it does not accept. -/
theorem starMatch_stop {p : Char → Bool} {k : Str → Option (List Str)} {a t : Str} {c : Char} {r : List Str} (ha : ∀ c ∈ a, p c = true)
    (hc : p c = false) (hk : k (c :: t) = some r) : starMatch p k (a ++ c :: t) = some (a, r) := by
  induction a with
  | nil => simp [starMatch, hc, hk]
  | cons x a ih =>
    have := ih (fun c hc => ha c (by simp [hc]))
    simp only [List.cons_append, starMatch, ha x (by simp), if_true, this]

/-- A star before a literal that does not occur. -/
theorem reMatch_star_none {d cap : Bool} {w : Str} {ts : List Tok} {s : Str} (h : ¬ lower w <:+: lower s) :
    reMatch (.star d cap :: (lit w ++ ts)) s = none := by
  simp only [reMatch]
  rw [starMatch_none]
  · rfl
  · intro y hy
    rw [reMatch_lit, if_neg]
    intro hp
    apply h
    refine hp.isInfix.trans ?_
    obtain ⟨u, rfl⟩ := hy
    rw [lower_append]
    exact (List.suffix_append _ _).isInfix

/-- A star before a literal, where later occurrences of the literal do not lead to a match. -/
theorem reMatch_star {cap : Bool} {w a m s : Str} {ts : List Tok} {gs : List Str} (ha : '\n' ∉ a) (hm : lower m = lower w) (hs : reMatch ts s = some gs)
    (hl : ∀ y, y <:+ (m ++ s).tail → lower w <+: lower y → reMatch ts (y.drop w.length) = none) :
    reMatch (.star true cap :: (lit w ++ ts)) (a ++ (m ++ s)) = some (starGroups cap (a, gs)) := by
  simp only [reMatch]
  rw [starMatch_max (a := a) (b := m ++ s) (r := gs)]
  · rfl
  · intro c hc
    simp only [starAccepts, if_true]
    exact decide_eq_true (by rintro rfl; exact ha hc)
  · rw [reMatch_lit_eq hm, hs]
  · intro y hy hne
    rw [reMatch_lit]
    split
    · rename_i hp
      apply hl y _ hp
      obtain ⟨u, e⟩ := hy
      cases u with
      | nil => exact absurd (by simpa using e) hne
      | cons x u => rw [← e]; exact ⟨u, by simp⟩
    · rfl

/-- A star before a literal that does not occur later. -/
theorem reMatch_star_last {cap : Bool} {w a m s : Str} {ts : List Tok} {gs : List Str} (ha : '\n' ∉ a) (hm : lower m = lower w) (hs : reMatch ts s = some gs)
    (hl : ¬ lower w <:+: lower (m ++ s).tail) : reMatch (.star true cap :: (lit w ++ ts)) (a ++ (m ++ s)) = some (starGroups cap (a, gs)) := by
  apply reMatch_star ha hm hs
  intro y hy hp
  exfalso
  apply hl
  refine hp.isInfix.trans ?_
  obtain ⟨u, e⟩ := hy
  rw [← e, lower_append]
  exact (List.suffix_append _ _).isInfix

/-- A star of blanks. -/
theorem reMatch_blanks {a t : Str} {c : Char} {ts : List Tok} {gs : List Str} (ha : ∀ x ∈ a, x = ' ') (hc : c ≠ ' ') (hs : reMatch ts (c :: t) = some gs) :
    reMatch (.star false false :: ts) (a ++ c :: t) = some gs := by
  simp only [reMatch]
  rw [starMatch_stop (a := a) (t := t) (c := c) (r := gs)]
  · rfl
  · intro x hx
    simp [starAccepts, ha x hx]
  · simp [starAccepts, hc]
  · exact hs

/-- The last group takes everything. -/
theorem reMatch_rest {s : Str} (h : '\n' ∉ s) : reMatch group s = some [s] := by
  show (starMatch (starAccepts true) (reMatch []) s).map (starGroups true) = some [s]
  have := starMatch_max (p := starAccepts true) (k := reMatch []) (a := s) (b := []) (r := []) (by
    intro c hc
    simp only [starAccepts, if_true]
    exact decide_eq_true (by rintro rfl; exact h hc)) rfl (by
    intro y hy hne
    exact absurd (List.suffix_nil.1 hy) hne)
  rw [List.append_nil] at this
  rw [this]
  rfl

/-- A search succeeds at once. -/
theorem reSearch_first {ts : List Tok} {s : Str} {gs : List Str} (h : reMatch ts s = some gs) : reSearch ts s = some gs := by
  cases s with
  | nil => exact h
  | cons x s => simp [reSearch, h]

/-! ## Splitting -/

theorem startsCi_iff : ∀ {w s : Str}, startsCi w s = true ↔ lower w <+: lower s
  | [], s => by simp [startsCi, lower]
  | c :: w, [] => by simp [startsCi, lower]
  | c :: w, x :: s => by
    have ih := startsCi_iff (w := w) (s := s)
    simp only [startsCi, Bool.and_eq_true, eqCi_iff, ih, lower, List.map_cons, List.cons_prefix_cons]

theorem splitCiGo_skip {sep : Str} : ∀ (m s : Str), splitCiGo sep m.length (m ++ s) = splitCiGo sep 0 s
  | [], s => rfl
  | c :: m, s => by
    simp only [List.length_cons, List.cons_append, splitCiGo]
    exact splitCiGo_skip m s

theorem splitCi_absent {sep : Str} : ∀ {s : Str}, ¬ lower sep <:+: lower s → splitCi sep s = [s]
  | [], _ => rfl
  | c :: s, h => by
    have hs : ¬ lower sep <:+: lower s := fun h' => h (h'.trans (List.suffix_cons (lowerC c) (lower s)).isInfix)
    have ih := splitCi_absent hs
    unfold splitCi at ih ⊢
    simp only [splitCiGo]
    rw [if_neg (by rw [startsCi_iff]; exact fun hp => h hp.isInfix), ih]
    rfl

/-- A text with one occurrence of the separator. -/
theorem splitCi_once {sep a m s : Str} (hne : sep ≠ []) (hm : lower m = lower sep) (ha : ∀ y z, a = y ++ z → z ≠ [] → ¬ lower sep <+: lower (z ++ m ++ s))
    (hs : ¬ lower sep <:+: lower s) : splitCi sep (a ++ m ++ s) = [a, s] := by
  have hml : m.length = sep.length := by rw [← length_lower m, ← length_lower sep, hm]
  have h0 : splitCi sep (m ++ s) = [[], s] := by
    cases m with
    | nil =>
      simp only [List.length_nil] at hml
      exact absurd (List.length_eq_zero_iff.1 hml.symm) hne
    | cons c m =>
      unfold splitCi
      simp only [List.cons_append, splitCiGo]
      rw [if_pos]
      · rw [show sep.length - 1 = m.length from by rw [← hml]; simp, splitCiGo_skip]
        have := splitCi_absent hs
        unfold splitCi at this
        rw [this]
      · rw [startsCi_iff, ← List.cons_append, lower_append, hm]
        exact List.prefix_append _ _
  induction a with
  | nil => simpa using h0
  | cons c a ih =>
    have := ih (fun y z e hz => ha (c :: y) z (by rw [e]; rfl) hz)
    have hn := ha [] (c :: a) rfl (by simp)
    unfold splitCi at this ⊢
    simp only [List.cons_append, splitCiGo]
    rw [if_neg (by rw [startsCi_iff]; simpa using hn), this]
    rfl

end Verif
