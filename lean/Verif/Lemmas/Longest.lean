import Verif.Spec.Reading
import Verif.Lemmas.Shapes
/-
Greedy matching in general: the groups of a pattern are the longest possible ones.
-/

namespace Verif
open Spec

theorem starMatch_none' {p : Char → Bool} {k : Str → Option (List Str)} : ∀ {s : Str}, (∀ g y, s = g ++ y → (∀ c ∈ g, p c = true) → k y = none) → starMatch p k s = none
  | [], h => by simp [starMatch, h [] [] rfl (by simp)]
  | x :: xs, h => by
    have h0 := h [] (x :: xs) rfl (by simp)
    simp only [starMatch, h0]
    split
    · rename_i hx
      rw [starMatch_none' (s := xs) (fun g y e hg => h (x :: g) y (by rw [e]; rfl) (by
        intro c hc
        rcases List.mem_cons.1 hc with rfl | hc
        · exact hx
        · exact hg c hc))]
      rfl
    · rfl

/-- The star takes `g` if the rest matches after it and after no longer one. -/
theorem starMatch_far {p : Char → Bool} {k : Str → Option (List Str)} {r : List Str} : ∀ {g b : Str}, (∀ c ∈ g, p c = true) → k b = some r →
    (∀ g' y, g ++ b = g' ++ y → (∀ c ∈ g', p c = true) → g.length < g'.length → k y = none) → starMatch p k (g ++ b) = some (g, r)
  | [], [], _, hb, _ => by simp [starMatch, hb]
  | [], x :: xs, _, hb, hl => by
    simp only [List.nil_append, starMatch, hb]
    split
    · rename_i hx
      rw [starMatch_none' (s := xs) (fun g y e hg => hl (x :: g) y (by rw [e]; rfl) (by
        intro c hc
        rcases List.mem_cons.1 hc with rfl | hc
        · exact hx
        · exact hg c hc) (by simp))]
      rfl
    · rfl
  | x :: g, b, hg, hb, hl => by
    have hx := hg x (by simp)
    have := starMatch_far (g := g) (b := b) (fun c hc => hg c (by simp [hc])) hb (fun g' y e hg' hlt => hl (x :: g') y (by simp [e]) (by
      intro c hc
      rcases List.mem_cons.1 hc with rfl | hc
      · exact hx
      · exact hg' c hc) (by simpa using hlt))
    simp only [List.cons_append, starMatch, hx, if_true, this]

theorem starMatch_greedy {p : Char → Bool} {k : Str → Option (List Str)} : ∀ {s : Str} {m : Str × List Str}, starMatch p k s = some m →
    ∀ g' r', s = g' ++ r' → (∀ c ∈ g', p c = true) → m.1.length < g'.length → k r' = none
  | [], m, h, g', r', e, hg, hlt => by
    obtain ⟨rfl, rfl⟩ := List.append_eq_nil_iff.1 e.symm
    simp at hlt
  | x :: xs, m, h, g', r', e, hg, hlt => by
    cases g' with
    | nil => simp at hlt
    | cons y g' =>
      simp only [List.cons_append, List.cons.injEq] at e
      obtain ⟨rfl, rfl⟩ := e
      have hx := hg x (by simp)
      have hg' : ∀ c ∈ g', p c = true := fun c hc => hg c (by simp [hc])
      simp only [starMatch, hx, if_true] at h
      cases hs : starMatch p k (g' ++ r') with
      | some m' =>
        rw [hs] at h
        obtain ⟨g, r⟩ := m'
        simp only [Option.some.injEq] at h
        subst h
        exact starMatch_greedy hs g' r' rfl hg' (by simpa using hlt)
      | none =>
        by_contra hk
        have := starMatch_isSome (k := k) (r := r') hg' (by rwa [Option.isSome_iff_ne_none])
        rw [hs] at this
        cases this

theorem Caught.shape : ∀ {l : List ((Str × Between) × Bool)} {s : Str} {gs : List Str}, Caught l s gs → HasShape (l.map Prod.fst) s
  | [], _, _, _ => trivial
  | _ :: _, _, _, ⟨m, g, r, _, e, hm, hg, h, _⟩ => ⟨m, g, r, e, hm, hg, h.shape⟩

theorem shape_iff {l : List ((Str × Between) × Bool)} {s : Str} (hl : ∀ p ∈ l, lower p.1.1 = p.1.1) : reMatch (pattern l) s = none ↔ ¬ HasShape (l.map Prod.fst) s := by
  constructor
  · intro h hs
    have := shaped_some hl hs
    rw [h] at this
    cases this
  · intro h
    cases hm : reMatch (pattern l) s with
    | none => rfl
    | some gs => exact absurd (caught hl hm).shape h

theorem accepted_iff {d : Bool} {c : Char} : starAccepts d c = true ↔ (if d then Between.anything else .blanks).allows c := by
  cases d <;> simp [starAccepts, Between.allows]

theorem gap_none {g : Str} (h : ∀ c ∈ g, Between.none.allows c) : g = [] := by
  cases g with
  | nil => rfl
  | cons c g => exact absurd (h c (by simp)) (by simp [Between.allows])

/-- The groups are the longest ones. -/
theorem longest_iff : ∀ {l : List ((Str × Between) × Bool)} {s : Str} {gs : List Str}, (∀ p ∈ l, lower p.1.1 = p.1.1 ∧ (p.1.2 = .none → p.2 = false)) →
    (Longest l s gs ↔ reMatch (pattern l) s = some gs)
  | [], s, gs, _ => by
    simp only [pattern, List.flatMap_nil, reMatch, Option.some.injEq, Longest]
    exact eq_comm
  | ((w, b), cap) :: l, s, gs, hl => by
    have hw : lower w = w := (hl _ List.mem_cons_self).1
    have hcap : b = .none → cap = false := (hl _ List.mem_cons_self).2
    have hl' : ∀ p ∈ l, lower p.1.1 = p.1.1 ∧ (p.1.2 = .none → p.2 = false) := fun p hp => hl p (List.mem_cons_of_mem _ hp)
    have e : pattern (((w, b), cap) :: l) = lit w ++ (gapToks cap b ++ pattern l) := by simp [pattern, toksOf]
    rw [e]
    constructor
    · rintro ⟨m, g, r, gs', rfl, hm, hg, hmax, hr, rfl⟩
      simp only at hm hg hmax hcap ⊢
      rw [reMatch_lit_eq (keyword_lower hm hw)]
      have hr' := (longest_iff hl').1 hr
      have key : ∀ d : Bool, b = (if d then Between.anything else .blanks) → reMatch (.star d cap :: pattern l) (g ++ r) = some (if cap = true then g :: gs' else gs') := by
        intro d hb
        subst hb
        rw [reMatch, starMatch_far (fun c hc => accepted_iff.2 (hg c hc)) hr' (fun g' y e hg' hlt =>
          (shape_iff (fun p hp => (hl' p hp).1)).2 (hmax g' y e (fun c hc => accepted_iff.1 (hg' c hc)) hlt))]
        rfl
      cases b with
      | none =>
        have := gap_none hg
        subst this
        rw [hcap rfl]
        exact hr'
      | blanks => exact key false rfl
      | anything => exact key true rfl
    · intro h
      rw [reMatch_lit] at h
      split at h
      · rename_i hp
        have hm : (s.take w.length).map small = w := by
          obtain ⟨t, ht⟩ := hp
          have := congrArg (List.take w.length) ht
          rw [List.take_left' (length_lower w), hw] at this
          rw [List.map_take, ← Props.lower_eq, ← this]
        have key : ∀ d : Bool, b = (if d then Between.anything else .blanks) → reMatch (.star d cap :: pattern l) (s.drop w.length) = some gs → Longest (((w, b), cap) :: l) s gs := by
          intro d hb hd
          subst hb
          rw [reMatch, Option.map_eq_some_iff] at hd
          obtain ⟨x, hx, rfl⟩ := hd
          obtain ⟨r, hr, hk, hg⟩ := starMatch_some hx
          refine ⟨s.take w.length, x.1, r, x.2, ?_, hm, fun c hc => accepted_iff.1 (hg c hc), fun g' r' e hg' hlt => ?_, (longest_iff hl').2 hk, ?_⟩
          · rw [← hr, List.take_append_drop]
          · exact (shape_iff (fun p hp => (hl' p hp).1)).1 (starMatch_greedy hx g' r' (by rw [hr, e]) (fun c hc => accepted_iff.2 (hg' c hc)) hlt)
          · rfl
        cases b with
        | none =>
          refine ⟨s.take w.length, [], s.drop w.length, gs, by simp, hm, by simp, fun g' r' _ hg' hlt => ?_, (longest_iff hl').2 h, ?_⟩
          · rw [gap_none hg'] at hlt
            simp at hlt
          · rw [show cap = false from hcap rfl]; rfl
        | blanks => exact key false rfl h
        | anything => exact key true rfl h
      · cases h

/-- What `search` finds is at the first place with a match. -/
theorem search_iff {l : List ((Str × Between) × Bool)} (hl : ∀ p ∈ l, lower p.1.1 = p.1.1 ∧ (p.1.2 = .none → p.2 = false)) : ∀ {s : Str} {gs : List Str},
    reSearch (pattern l) s = some gs ↔ ∃ a r, s = a ++ r ∧ (∀ r', r' <:+ s → r.length < r'.length → ¬ HasShape (l.map Prod.fst) r') ∧ Longest l r gs
  | [], gs => by
    rw [reSearch, ← longest_iff hl]
    constructor
    · intro h
      exact ⟨[], [], rfl, fun r' h hlt => by rw [List.suffix_nil.1 h] at hlt; simp at hlt, h⟩
    · rintro ⟨a, r, e, _, h⟩
      obtain ⟨_, rfl⟩ := List.append_eq_nil_iff.1 e.symm
      exact h
  | x :: xs, gs => by
    rw [reSearch]
    cases hm : reMatch (pattern l) (x :: xs) with
    | some g =>
      constructor
      · intro h
        cases h
        refine ⟨[], x :: xs, rfl, fun r' h hlt => ?_, (longest_iff hl).2 hm⟩
        have := h.length_le
        omega
      · rintro ⟨a, r, e, h1, h2⟩
        cases a with
        | nil =>
          rw [List.nil_append] at e
          rw [← e, longest_iff hl, hm] at h2
          exact h2
        | cons y a =>
          exfalso
          refine h1 _ (List.suffix_refl _) ?_ ((caught (fun p hp => (hl p hp).1) hm).shape)
          rw [e]
          simp
          omega
    | none =>
      have hn := (shape_iff (fun p hp => (hl p hp).1)).1 hm
      dsimp only
      rw [search_iff hl (s := xs)]
      constructor
      · rintro ⟨a, r, rfl, h1, h2⟩
        refine ⟨x :: a, r, rfl, fun r' hr' hlt => ?_, h2⟩
        rcases List.suffix_cons_iff.1 hr' with rfl | hr'
        · exact hn
        · exact h1 r' hr' hlt
      · rintro ⟨a, r, e, h1, h2⟩
        cases a with
        | nil =>
          rw [List.nil_append] at e
          rw [← e, longest_iff hl, hm] at h2
          cases h2
        | cons y a =>
          simp only [List.cons_append, List.cons.injEq] at e
          exact ⟨a, r, e.2, fun r' hr' hlt => h1 r' (hr'.trans (List.suffix_cons x xs)) hlt, h2⟩

end Verif
