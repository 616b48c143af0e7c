import Verif.Lemmas.Text
/-
Lemmas about pattern matching.
-/

namespace Verif

theorem starMatch_some {p : Char → Bool} {k : Str → Option (List Str)} :
    ∀ {s : Str} {m : Str × List Str}, starMatch p k s = some m →
      ∃ rest, s = m.1 ++ rest ∧ k rest = some m.2 ∧ ∀ c ∈ m.1, p c = true
  | [], m, h => by
    simp only [starMatch, Option.map_eq_some_iff] at h
    obtain ⟨r, hr, rfl⟩ := h
    exact ⟨[], rfl, hr, by simp⟩
  | x :: xs, m, h => by
    have stop : (k (x :: xs)).map (fun r => (([] : Str), r)) = some m →
        ∃ rest, x :: xs = m.1 ++ rest ∧ k rest = some m.2 ∧ ∀ c ∈ m.1, p c = true := by
      intro h
      simp only [Option.map_eq_some_iff] at h
      obtain ⟨r, hr, rfl⟩ := h
      exact ⟨x :: xs, rfl, hr, by simp⟩
    simp only [starMatch] at h
    split at h
    · rename_i hp
      cases hs : starMatch p k xs with
      | none => rw [hs] at h; exact stop h
      | some gr =>
        rw [hs] at h
        cases h
        obtain ⟨rest, e, hk, hg⟩ := starMatch_some hs
        refine ⟨rest, by simp [e], hk, ?_⟩
        intro c hc
        rcases List.mem_cons.1 hc with rfl | hc
        · exact hp
        · exact hg c hc
    · exact stop h

/-- Every group is a piece of the text. -/
theorem reMatch_infix : ∀ {ts : List Tok} {s : Str} {gs : List Str}, reMatch ts s = some gs → ∀ g ∈ gs, g <:+: s
  | [], s, gs, h => by simp only [reMatch, Option.some.injEq] at h; subst h; simp
  | .ch c :: ts, [], gs, h => by simp [reMatch] at h
  | .ch c :: ts, x :: xs, gs, h => by
    simp only [reMatch] at h
    split at h
    · intro g hg
      exact (reMatch_infix h g hg).trans (List.suffix_cons x xs).isInfix
    · cases h
  | .star d cap :: ts, s, gs, h => by
    simp only [reMatch, Option.map_eq_some_iff] at h
    obtain ⟨m, hm, rfl⟩ := h
    obtain ⟨rest, e, hk, -⟩ := starMatch_some hm
    have hr : ∀ g ∈ m.2, g <:+: s := fun g hg =>
      (reMatch_infix hk g hg).trans ⟨m.1, [], by rw [e]; simp⟩
    intro g hg
    unfold starGroups at hg
    split at hg
    · rcases List.mem_cons.1 hg with rfl | hg
      · exact ⟨[], rest, by rw [e]; simp⟩
      · exact hr g hg
    · exact hr g hg

end Verif
