import Verif.Lemmas.Graph

/-! What `get_related_paths` does in a map that lists a name without an entry. -/

namespace Verif

theorem collectPaths_key {f : List Str → Except PyErr (List (List Str))} {path : List Str} (l : List Str)
    (h : ∀ r ∈ l, r ∉ path → (∃ ps, f (path ++ [r]) = .ok ps) ∨ f (path ++ [r]) = .error .key) :
    ((∃ ps, collectPaths f path l = .ok ps) ∨ collectPaths f path l = .error .key) ∧
    ((∃ r ∈ l, r ∉ path ∧ f (path ++ [r]) = .error .key) → collectPaths f path l = .error .key) := by
  induction l with
  | nil => exact ⟨.inl ⟨[], rfl⟩, by simp⟩
  | cons x l ih =>
    obtain ⟨i1, i2⟩ := ih (fun r hr => h r (by simp [hr]))
    unfold collectPaths
    by_cases hx : x ∈ path
    · have : path.contains x = true := by simpa using hx
      rw [if_pos this]
      refine ⟨i1, ?_⟩
      rintro ⟨r, hr, hp, e⟩
      rcases List.mem_cons.1 hr with rfl | hr
      · exact absurd hx hp
      · exact i2 ⟨r, hr, hp, e⟩
    · have : ¬ path.contains x = true := by simpa using hx
      rw [if_neg this]
      rcases h x (by simp) hx with ⟨ps, e⟩ | e
      · rw [e]
        refine ⟨?_, ?_⟩
        · rcases i1 with ⟨qs, e'⟩ | e'
          · exact .inl ⟨_, by rw [e']; rfl⟩
          · exact .inr (by rw [e']; rfl)
        · rintro ⟨r, hr, hp, e'⟩
          rcases List.mem_cons.1 hr with rfl | hr
          · rw [e] at e'; cases e'
          · rw [i2 ⟨r, hr, hp, e'⟩]; rfl
      · rw [e]
        exact ⟨.inr rfl, fun _ => rfl⟩

/-- With room for every path the paths are found or the search ends with `KeyError`. -/
theorem relatedPaths_key (m : Dict (List Str)) (d : Nat) (path : List Str) (hne : path ≠ []) (hn : path.Nodup)
    (hin : ∀ n ∈ path.dropLast, n ∈ m.keys) (hd : m.length + 2 ≤ path.length + d) :
    (∃ ps, relatedPaths m d path = .ok ps) ∨ relatedPaths m d path = .error .key := by
  induction d generalizing path with
  | zero =>
    have hs : path.dropLast.length ≤ m.keys.length := ((hn.sublist (List.dropLast_sublist _)).subperm hin).length_le
    have : m.keys.length = m.length := by simp [Dict.keys]
    rw [List.length_dropLast] at hs
    omega
  | succ d ih =>
    obtain ⟨last, hlast⟩ : ∃ last, path.getLast? = some last := ⟨_, List.getLast?_eq_some_getLast hne⟩
    unfold relatedPaths
    simp only [hlast]
    cases hl : m.get? last with
    | none => exact .inr rfl
    | some l =>
      refine (collectPaths_key l ?_).1
      intro r _ hp
      refine ih (path ++ [r]) (by simp) ?_ ?_ ?_
      · rw [List.nodup_append]
        refine ⟨hn, by simp, ?_⟩
        rintro a ha b hb rfl
        simp only [List.mem_singleton] at hb
        exact hp (hb ▸ ha)
      · intro n h
        simp only [List.dropLast_concat] at h
        rcases List.mem_append.1 (by rw [List.dropLast_append_getLast? last hlast]; exact h : n ∈ path.dropLast ++ [last]) with h | h
        · exact hin n h
        · simp only [List.mem_singleton] at h
          exact (Dict.get?_isSome_iff m n).1 (by simp [h, hl])
      · simp only [List.length_append, List.length_cons, List.length_nil]
        omega

/-- If a table of the list names one without an entry the search ends with `KeyError`. -/
theorem allPaths_key (m : Dict (List Str)) (d : Nat) (hd : m.length + 1 ≤ d) (names : List Str) {a b : Str} (he : Edge m a b) (hb : b ∉ m.keys)
    (ha : a ∈ names) : allPaths m d names = .error .key := by
  have key : ∀ n, (∃ ps, relatedPaths m d [n] = .ok ps) ∨ relatedPaths m d [n] = .error .key := fun n =>
    relatedPaths_key m d [n] (by simp) (by simp) (by simp) (by simp only [List.length_cons, List.length_nil]; omega)
  induction names with
  | nil => cases ha
  | cons n names ih =>
    unfold allPaths
    rcases List.mem_cons.1 ha with rfl | ha
    · have : relatedPaths m d [a] = .error .key := by
        obtain ⟨l, hl, hm⟩ := he
        have hab : b ∉ [a] := by
          intro h
          simp only [List.mem_singleton] at h
          exact hb ((Dict.get?_isSome_iff m b).1 (by simp [h, hl]))
        cases d with
        | zero => omega
        | succ d =>
          unfold relatedPaths
          simp only [List.getLast?_singleton, hl]
          have hm1 : 0 < m.length := by
            cases m with
            | nil => cases hl
            | cons => simp
          refine (collectPaths_key l ?_).2 ⟨b, hm, hab, ?_⟩
          · intro r _ hp
            refine relatedPaths_key m d ([a] ++ [r]) (by simp) ?_ ?_ ?_
            · simp only [List.mem_singleton] at hp
              simpa using fun h => hp h.symm
            · intro n h
              simp only [List.cons_append, List.nil_append, List.dropLast_cons_cons, List.dropLast_singleton, List.mem_singleton] at h
              exact (Dict.get?_isSome_iff m n).1 (by simp [h, hl])
            · simp only [List.cons_append, List.nil_append, List.length_cons, List.length_nil]
              omega
          · cases d with
            | zero => omega
            | succ d =>
              have : m.get? b = none := by
                cases h : m.get? b with
                | none => rfl
                | some l' => exact absurd ((Dict.get?_isSome_iff m b).1 (by simp [h])) hb
              unfold relatedPaths
              simp [this]
      rw [this]; rfl
    · rcases key n with ⟨ps, e⟩ | e
      · rw [e, ih ha]; rfl
      · rw [e]; rfl

theorem longIssues_not_key (max : CfgVal) (ps : List (List Str)) : longIssues max ps ≠ .error .key := by
  induction ps with
  | nil => intro h; cases h
  | cons p ps ih =>
    unfold longIssues
    cases max with
    | text s => intro h; cases h
    | int n =>
      cases h : longIssues (.int n) ps with
      | ok l => intro h'; cases h'
      | error e => intro h'; rw [h] at ih; cases h'; exact ih rfl
    | flt n =>
      cases h : longIssues (.flt n) ps with
      | ok l => intro h'; cases h'
      | error e => intro h'; rw [h] at ih; cases h'; exact ih rfl

end Verif
