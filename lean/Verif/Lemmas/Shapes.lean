import Verif.Spec.Reports
import Verif.Lemmas.AlterText
import Verif.Lemmas.PyInt
import Verif.Lemmas.Validator
import Verif.Lemmas.Config
/-
Lemmas for the truth of the parser's messages: what it means that a pattern does or does not match, and where the pieces of a statement are.
-/

namespace Verif
open Spec

/-! ## Patterns -/

/-- The pattern for a gap. -/
def gapToks (cap : Bool) : Between → List Tok
  | .none => []
  | .blanks => [.star false cap]
  | .anything => [.star true cap]

/-- The pattern for a piece and the gap after it. -/
def toksOf (p : (Str × Between) × Bool) : List Tok := lit p.1.1 ++ gapToks p.2 p.1.2

def pattern (l : List ((Str × Between) × Bool)) : List Tok := l.flatMap toksOf

/-- The text with the captured gaps. -/
def Caught : List ((Str × Between) × Bool) → Str → List Str → Prop
  | [], _, gs => gs = []
  | p :: l, s, gs => ∃ m g r gs', s = m ++ (g ++ r) ∧ m.map small = p.1.1 ∧ (∀ c ∈ g, p.1.2.allows c) ∧ Caught l r gs' ∧
      gs = if p.1.2 ≠ .none ∧ p.2 = true then g :: gs' else gs'

theorem starMatch_isSome {p : Char → Bool} {k : Str → Option (List Str)} : ∀ {g r : Str}, (∀ c ∈ g, p c = true) → (k r).isSome = true → (starMatch p k (g ++ r)).isSome = true
  | [], [], _, hr => by simpa [starMatch] using hr
  | [], x :: xs, _, hr => by
    rw [List.nil_append, starMatch]
    split
    · split
      · rfl
      · simpa using hr
    · simpa using hr
  | c :: g, r, hg, hr => by
    have ih := starMatch_isSome (g := g) (fun c hc => hg c (by simp [hc])) hr
    rw [List.cons_append, starMatch, if_pos (hg c (by simp))]
    obtain ⟨x, hx⟩ := Option.isSome_iff_exists.1 ih
    rw [hx]; rfl

theorem some_star {d cap : Bool} {ts : List Tok} {g r : Str} (hg : ∀ c ∈ g, starAccepts d c = true) (hr : (reMatch ts r).isSome = true) :
    (reMatch (.star d cap :: ts) (g ++ r)).isSome = true := by
  rw [reMatch, Option.isSome_map]
  exact starMatch_isSome hg hr

theorem some_lit {w m : Str} {ts : List Tok} {r : Str} (hm : m.map small = w) (hw : lower w = w) (hr : (reMatch ts r).isSome = true) :
    (reMatch (lit w ++ ts) (m ++ r)).isSome = true := by
  rw [reMatch_lit_eq (keyword_lower hm hw)]; exact hr

/-- Where the text has the shape, the pattern matches. -/
theorem shaped_some : ∀ {l : List ((Str × Between) × Bool)} {s : Str}, (∀ p ∈ l, lower p.1.1 = p.1.1) → HasShape (l.map Prod.fst) s → (reMatch (pattern l) s).isSome = true
  | [], s, _, _ => rfl
  | ((w, b), cap) :: l, s, hl, h => by
    obtain ⟨m, g, r, rfl, hm, hg, hr⟩ := h
    have ih := shaped_some (fun p hp => hl p (List.mem_cons_of_mem _ hp)) hr
    have hw := hl _ List.mem_cons_self
    simp only at hw hm hg
    have e : pattern (((w, b), cap) :: l) = lit w ++ (gapToks cap b ++ pattern l) := by simp [pattern, toksOf]
    rw [e]
    refine some_lit hm hw ?_
    cases b with
    | none =>
      have : g = [] := by
        cases g with
        | nil => rfl
        | cons c g => exact absurd (hg c (by simp)) (by simp [Between.allows])
      subst this; exact ih
    | blanks => exact some_star (fun c hc => by have := hg c hc; simp only [Between.allows] at this; simp [starAccepts, this]) ih
    | anything => exact some_star (fun c hc => by have := hg c hc; simp only [Between.allows] at this; simp [starAccepts, this]) ih

/-- Where the pattern matches, the text has the shape, with the groups in the gaps. -/
theorem caught : ∀ {l : List ((Str × Between) × Bool)} {s : Str} {gs : List Str}, (∀ p ∈ l, lower p.1.1 = p.1.1) → reMatch (pattern l) s = some gs → Caught l s gs
  | [], s, gs, _, h => by simp only [pattern, List.flatMap_nil, reMatch, Option.some.injEq] at h; exact h.symm
  | ((w, b), cap) :: l, s, gs, hl, h => by
    have hw := hl _ List.mem_cons_self
    simp only at hw
    have e : pattern (((w, b), cap) :: l) = lit w ++ (gapToks cap b ++ pattern l) := by simp [pattern, toksOf]
    rw [e, reMatch_lit] at h
    split at h
    · rename_i hp
      have hlen : w.length ≤ s.length := by
        have := hp.length_le
        rwa [length_lower, length_lower] at this
      have hm : (s.take w.length).map small = w := by
        obtain ⟨t, ht⟩ := hp
        have := congrArg (List.take w.length) ht
        rw [List.take_left' (length_lower w), hw] at this
        rw [List.map_take, ← Props.lower_eq, ← this]
      have key : ∀ d, reMatch (.star d cap :: pattern l) (s.drop w.length) = some gs → (∀ c, starAccepts d c = true → b.allows c) → b ≠ .none → Caught (((w, b), cap) :: l) s gs := by
        intro d h hb hn
        rw [reMatch, Option.map_eq_some_iff] at h
        obtain ⟨x, hx, rfl⟩ := h
        obtain ⟨r, hr, hk, hg⟩ := starMatch_some hx
        refine ⟨s.take w.length, x.1, r, x.2, ?_, hm, fun c hc => hb c (hg c hc), caught (fun p hp => hl p (List.mem_cons_of_mem _ hp)) hk, ?_⟩
        · rw [← hr, List.take_append_drop]
        · cases cap <;> simp [starGroups, hn]
      cases b with
      | none => exact ⟨s.take w.length, [], s.drop w.length, gs, by simp, hm, by simp, caught (fun p hp => hl p (List.mem_cons_of_mem _ hp)) h, by simp⟩
      | blanks => exact key false h (fun c hc => by simpa [starAccepts, Between.allows] using hc) (by simp)
      | anything => exact key true h (fun c hc => by simpa [starAccepts, Between.allows] using hc) (by simp)
    · cases h

theorem reSearch_suffix {ts : List Tok} : ∀ {s : Str} {gs : List Str}, reSearch ts s = some gs → ∃ r, r <:+ s ∧ reMatch ts r = some gs
  | [], gs, h => ⟨[], List.suffix_refl _, h⟩
  | x :: xs, gs, h => by
    rw [reSearch] at h
    cases e : reMatch ts (x :: xs) with
    | some g => rw [e] at h; cases h; exact ⟨_, List.suffix_refl _, e⟩
    | none =>
      rw [e] at h
      obtain ⟨r, hr, hm⟩ := reSearch_suffix (s := xs) h
      exact ⟨r, hr.trans (List.suffix_cons x xs), hm⟩

theorem reSearch_none {ts : List Tok} : ∀ {s : Str}, reSearch ts s = none → ∀ r, r <:+ s → reMatch ts r = none
  | [], h, r, hr => by rw [List.suffix_nil.1 hr]; exact h
  | x :: xs, h, r, hr => by
    rw [reSearch] at h
    cases e : reMatch ts (x :: xs) with
    | some g => rw [e] at h; cases h
    | none =>
      rw [e] at h
      rcases List.suffix_cons_iff.1 hr with rfl | hr
      · exact e
      · exact reSearch_none (s := xs) h r hr

/-! ## The patterns of the parser -/

theorem patPK_eq : patPK = pattern (primaryShape.zip [true, false, false, true, false]) := by decide
theorem patAdd_eq : patAdd = pattern (addShape.zip [true, false]) := by decide
theorem patFK_eq : patFK = pattern (namedKeyShape.zip [true, false, true, false, true, true, false]) := by decide
theorem patFKNoName_eq : patFKNoName = pattern (keyShape.zip [false, true, false, true, true, false]) := by decide
theorem patRel_eq : patRel = pattern (namedRelationshipShape.zip [true, true, true, true]) := by decide
theorem patRelNoName_eq : patRelNoName = pattern (relationshipShape.zip [true, true, true]) := by decide
theorem patHash_eq : patHash = pattern (hashShape.zip [false, false, true, false, true, false]) := by decide

/-- Without a match the text does not have the shape. -/
theorem not_shaped {l : List (Str × Between)} {caps : List Bool} {s : Str} (hl : caps.length = l.length) (hw : ∀ p ∈ l.zip caps, lower p.1.1 = p.1.1)
    (h : reMatch (pattern (l.zip caps)) s = none) : ¬ HasShape l s := by
  intro hs
  have e : (l.zip caps).map Prod.fst = l := by rw [List.map_fst_zip]; omega
  have := shaped_some (l := l.zip caps) (s := s) hw (by rw [e]; exact hs)
  rw [h] at this
  cases this

/-! ## Names -/

theorem last_dot : ∀ s : Str, ∃ pre x, s = pre ++ x ∧ Prefixed pre ∧ '.' ∉ x
  | [] => ⟨[], [], rfl, .inl rfl, by simp⟩
  | c :: t => by
    obtain ⟨pre, x, rfl, hp, hx⟩ := last_dot t
    rcases hp with rfl | ⟨p, rfl⟩
    · by_cases hc : c = '.'
      · subst hc; exact ⟨['.'], x, rfl, .inr ⟨[], rfl⟩, hx⟩
      · exact ⟨[], c :: x, rfl, .inl rfl, by simp [hx, Ne.symm hc]⟩
    · exact ⟨c :: (p ++ ['.']), x, rfl, .inr ⟨c :: p, rfl⟩, hx⟩

theorem noName_of {g : Str} (h : extractTableName g = none) : NoName g := by
  obtain ⟨pre, x, rfl, hp, hx⟩ := last_dot g
  rw [extractTableName, splitC_prefixed hp hx] at h
  cases x with
  | nil => rw [List.append_nil]; exact hp
  | cons c x =>
    exfalso
    rw [Option.map_eq_none_iff] at h
    unfold extractName at h
    split at h
    · simp_all
    · cases h
    · cases h
    · cases h

theorem small_id {m w : Str} (h : m.map small = w) (hw : ∀ c ∈ w, ∀ x, small x = c → x = c) : m = w := by
  subst h
  induction m with
  | nil => rfl
  | cons x m ih =>
    rw [List.map_cons]
    congr 1
    · exact hw _ (by simp) x rfl
    · exact ih (fun c hc => hw c (by simp at hc ⊢; exact .inr hc))

theorem small_mark {x c : Char} (h : small x = c) (hc : ∀ p ∈ letters, p.2 ≠ c) : x = c := by
  unfold small at h
  split at h
  · rename_i p hp
    exact absurd h (hc p (List.mem_of_find?_eq_some hp))
  · exact h

/-! ## Constraints -/

theorem first_word {w : Str} (hw : w ≠ []) : ∀ {s : Str}, w <:+: lower s → ∃ a m r, s = a ++ m ++ r ∧ lower m = w ∧ ∀ y z, a = y ++ z → z ≠ [] → ¬ w <+: lower (z ++ m ++ r)
  | [], h => by
    rw [show lower [] = ([] : Str) from rfl, List.infix_nil] at h
    exact absurd h hw
  | c :: t, h => by
    by_cases hp : w <+: lower (c :: t)
    · refine ⟨[], (c :: t).take w.length, (c :: t).drop w.length, by simp, ?_, ?_⟩
      · obtain ⟨x, hx⟩ := hp
        have := congrArg (List.take w.length) hx
        rw [List.take_left] at this
        rw [show lower ((c :: t).take w.length) = (lower (c :: t)).take w.length by simp only [lower, List.map_take]]
        exact this.symm
      · intro y z e hz
        have : y = [] ∧ z = [] := by simpa using e.symm
        exact absurd this.2 hz
    · have hi : w <:+: lower t := by
        rw [lower_cons] at h
        rcases List.infix_cons_iff.1 h with h | h
        · exact absurd h hp
        · exact h
      obtain ⟨a, m, r, rfl, hm, ha⟩ := first_word hw hi
      refine ⟨c :: a, m, r, rfl, hm, ?_⟩
      intro y z e hz
      cases y with
      | nil => simp only [List.nil_append] at e; subst e; exact hp
      | cons d y =>
        simp only [List.cons_append, List.cons.injEq] at e
        exact ha y z e.2 hz

/-- Where the pieces of `re.split` are. -/
theorem pieces {w : Str} (hw : w ≠ []) (hl : lower w = w) : ∀ (n : Nat) {s : Str}, s.length ≤ n → ∀ c ∈ splitCi w s, ∃ pre post, s = pre ++ (c ++ post) ∧
    (pre = [] ∨ ∃ p kw, pre = p ++ kw ∧ kw.map small = w) ∧ (post = [] ∨ w <+: post.map small) ∧ Lacks w c
  | n, s, hn, c, hc => by
    by_cases h : w <:+: lower s
    · obtain ⟨a, m, r, rfl, hm, ha⟩ := first_word hw h
      have hm' : m.map small = w := by rw [← Props.lower_eq]; exact hm
      rw [splitCi_first hw (by rw [hl]; exact hm) (by rw [hl]; exact ha), List.mem_cons] at hc
      rcases hc with rfl | hc
      · refine ⟨[], m ++ r, by simp, .inl rfl, .inr (by rw [List.map_append, hm']; exact List.prefix_append _ _), ?_⟩
        intro hi
        rw [← Props.lower_eq] at hi
        obtain ⟨x, y, e⟩ := hi
        have ex : ∃ u v, c = u ++ v ∧ lower v = w ++ y := by
          refine ⟨c.take x.length, c.drop x.length, (List.take_append_drop _ _).symm, ?_⟩
          have := congrArg (List.drop x.length) e
          rw [List.append_assoc, List.drop_left] at this
          rw [this]
          simp only [lower, List.map_drop]
        obtain ⟨u, v, rfl, hv⟩ := ex
        refine ha u v rfl ?_ ?_
        · rintro rfl
          exact hw (List.append_eq_nil_iff.1 hv.symm).1
        · rw [List.append_assoc, lower_append, hv, List.append_assoc]; exact List.prefix_append _ _
      · have hmn : m ≠ [] := by rintro rfl; exact hw hm.symm
        have hlen : 0 < m.length := List.length_pos_iff.2 hmn
        cases n with
        | zero => rw [List.length_append, List.length_append] at hn; omega
        | succ n =>
        obtain ⟨pre, post, rfl, hp, hq, hlk⟩ := pieces hw hl n (s := r) (by rw [List.length_append, List.length_append] at hn; omega) c hc
        refine ⟨a ++ m ++ pre, post, by simp, .inr ?_, hq, hlk⟩
        rcases hp with rfl | ⟨p, kw, rfl, hk⟩
        · exact ⟨a, m, by simp, hm'⟩
        · exact ⟨a ++ m ++ p, kw, by simp, hk⟩
    · rw [splitCi_absent (by rw [hl]; exact h), List.mem_singleton] at hc
      subst hc
      refine ⟨[], [], by simp, .inl rfl, .inl rfl, ?_⟩
      intro hi
      rw [← Props.lower_eq] at hi
      exact h hi

theorem piece_tail {s c : Str} (hc : c ∈ (splitCi c!"constraint" s).tail) : PieceOf s c := by
  by_cases h : c!"constraint" <:+: lower s
  · obtain ⟨a, m, r, rfl, hm, ha⟩ := first_word (by decide) h
    have hm' : m.map small = c!"constraint" := by rw [← Props.lower_eq]; exact hm
    rw [splitCi_first (by decide) hm ha, List.tail_cons] at hc
    obtain ⟨pre, post, rfl, hp, hq, hlk⟩ := pieces (w := c!"constraint") (by decide) rfl _ (le_refl r.length) c hc
    rcases hp with rfl | ⟨p, kw, rfl, hk⟩
    · exact ⟨a, m, post, by simp, hm', hlk, hq⟩
    · exact ⟨a ++ m ++ p, kw, post, by simp, hk, hlk, hq⟩
  · rw [splitCi_absent (sep := c!"constraint") h] at hc
    cases hc

theorem takeWhile_all {p : Char → Bool} {c : Char} : ∀ {s : Str}, c ∈ s.takeWhile p → p c = true
  | [], h => by cases h
  | x :: s, h => by
    rw [List.takeWhile_cons] at h
    split at h
    · rcases List.mem_cons.1 h with rfl | h
      · assumption
      · exact takeWhile_all h
    · cases h

theorem stripChars_pad (p : Char → Bool) (s : Str) : ∃ a b, s = a ++ (stripChars p s ++ b) ∧ ∀ c ∈ a ++ b, p c = true := by
  refine ⟨s.takeWhile p, ((s.dropWhile p).reverse.takeWhile p).reverse, ?_, ?_⟩
  · rw [stripChars, ← List.reverse_append, List.takeWhile_append_dropWhile, List.reverse_reverse, List.takeWhile_append_dropWhile]
  · intro c hc
    rcases List.mem_append.1 hc with hc | hc
    · exact takeWhile_all hc
    · exact takeWhile_all (List.mem_reverse.1 hc)

theorem strip_padding (s : Str) : ∃ a b, s = a ++ (strip s ++ b) ∧ ∀ c ∈ a ++ b, isSpace c = true := stripChars_pad isSpace s

theorem constraintOf {stmt c : Str} (h : PieceOf stmt c) : ConstraintOf stmt (strip (stripChars (· == ';') (stripChars (· == ',') (strip c)))) := by
  obtain ⟨a1, b1, e1, h1⟩ := strip_padding c
  obtain ⟨a2, b2, e2, h2⟩ := stripChars_pad (· == ',') (strip c)
  obtain ⟨a3, b3, e3, h3⟩ := stripChars_pad (· == ';') (stripChars (· == ',') (strip c))
  obtain ⟨a4, b4, e4, h4⟩ := strip_padding (stripChars (· == ';') (stripChars (· == ',') (strip c)))
  refine ⟨c, a1 ++ a2 ++ a3 ++ a4, b4 ++ b3 ++ b2 ++ b1, h, ?_, ?_, ?_⟩
  · conv_lhs => rw [e1, e2, e3, e4]
    simp
  · intro x hx
    have h1 := h1 x
    have h2 := h2 x
    have h3 := h3 x
    have h4 := h4 x
    simp only [List.mem_append, beq_iff_eq] at hx h1 h2 h3 h4
    rcases hx with (((hx | hx) | hx) | hx) | (((hx | hx) | hx) | hx)
    · exact .inl (h1 (.inl hx))
    · exact .inr (.inl (h2 (.inl hx)))
    · exact .inr (.inr (h3 (.inl hx)))
    · exact .inl (h4 (.inl hx))
    · exact .inl (h4 (.inr hx))
    · exact .inr (.inr (h3 (.inr hx)))
    · exact .inr (.inl (h2 (.inr hx)))
    · exact .inl (h1 (.inr hx))
  · intro x hx
    exact (trim_strip _).1 x hx

end Verif
