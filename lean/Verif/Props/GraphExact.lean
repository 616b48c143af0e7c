import Verif.Props.Graph

/-!
C56: exactly when `relates_to_previous` returns, and what.
-/

namespace Verif.Props
open Verif Verif.Spec

theorem anyFound_mono {f g : Str → Except PyErr Bool} {l : List Str} {b : Bool} (h : ∀ n ∈ l, ∀ b, f n = .ok b → g n = .ok b) (hf : anyFound f l = .ok b) : anyFound g l = .ok b := by
  induction l with
  | nil => exact hf
  | cons n l ih =>
    unfold anyFound at hf ⊢
    cases hn : f n with
    | error e => rw [hn] at hf; cases hf
    | ok x =>
      rw [hn] at hf
      rw [h n (by simp) x hn]
      cases x with
      | true => exact hf
      | false => exact ih (fun y hy => h y (by simp [hy])) hf

/-- More room on the stack does not change an answer. -/
theorem relatesToPrevious_mono (m : Dict (List Str)) (d : Nat) (s t : Str) (b : Bool) (h : relatesToPrevious m d s t = .ok b) (k : Nat) : relatesToPrevious m (d + k) s t = .ok b := by
  induction d generalizing s b with
  | zero => cases h
  | succ d ih =>
    rw [Nat.succ_add]
    unfold relatesToPrevious at h ⊢
    cases hl : m.get? s with
    | none => rw [hl] at h; cases h
    | some l =>
      rw [hl] at h
      dsimp only at h ⊢
      split at h
      · rename_i hc; rw [if_pos hc]; exact h
      · rename_i hc; rw [if_neg hc]; exact anyFound_mono (fun n _ b hb => ih n b hb) h

theorem relatesToPrevious_le {m : Dict (List Str)} {d : Nat} {s t : Str} {b : Bool} (h : relatesToPrevious m d s t = .ok b) {d' : Nat} (hd : d ≤ d') : relatesToPrevious m d' s t = .ok b := by
  obtain ⟨k, rfl⟩ := Nat.exists_eq_add_of_le hd
  exact relatesToPrevious_mono m d s t b h k

theorem get_of_mem {m : Dict (List Str)} (hm : (m.map Prod.fst).Nodup) {s : Str} {l : List Str} (h : (s, l) ∈ m) : m.get? s = some l :=
  Dict.get?_of_mem hm h

/-- An answer "no" means that the start is barren. -/
theorem barren_of_false {m : Dict (List Str)} (hm : (m.map Prod.fst).Nodup) {d : Nat} {s t : Str} (h : relatesToPrevious m d s t = .ok false) : Barren m t s := by
  have hen : ∀ x, Relation.ReflTransGen (Listed m) s x → ∃ d', relatesToPrevious m d' x t = .ok false := by
    intro x hx
    induction hx with
    | refl => exact ⟨d, h⟩
    | tail _ he ih =>
      obtain ⟨d', h'⟩ := ih
      obtain ⟨l, hl, hb⟩ := he
      cases d' with
      | zero => cases h'
      | succ d' =>
        unfold relatesToPrevious at h'
        rw [get_of_mem hm hl] at h'
        dsimp only at h'
        split at h'
        · cases h'
        · exact ⟨d', anyFound_false h' _ hb⟩
  refine ⟨fun x hx => ?_, fun x hx hc => ?_, fun hr => ?_⟩
  · obtain ⟨d', h'⟩ := hen x hx
    cases d' with
    | zero => cases h'
    | succ d' =>
      unfold relatesToPrevious at h'
      cases hl : m.get? x with
      | none => rw [hl] at h'; cases h'
      | some l => exact ⟨l, Dict.mem_of_get? hl⟩
  · obtain ⟨d', h'⟩ := hen x hx
    rw [transGen_listed hm] at hc
    obtain ⟨p, hp, hl⟩ := walk_of_cycle hc d'
    have := relatesToPrevious_false_walk m d' x t h' p hp
    omega
  · have := (C56_sound_partial m hm d s t false h).2 hr
    cases this

/-- From a barren name the answer is "no" as soon as there is room for all names. -/
theorem false_of_barren {m : Dict (List Str)} (hm : (m.map Prod.fst).Nodup) {s t : Str} (h : Barren m t s) {d : Nat} (hd : m.length ≤ d) : relatesToPrevious m d s t = .ok false := by
  have key : ∀ (d : Nat) (s : Str), Barren m t s → (∀ p : List Str, (s :: p).IsChain (Edge m) → (s :: p).length ≤ d) → relatesToPrevious m d s t = .ok false := by
    intro d
    induction d with
    | zero => intro s _ hw; have := hw [] (by simp); simp at this
    | succ d ih =>
      intro s hb hw
      obtain ⟨l, hl⟩ := hb.entries s .refl
      have hg := get_of_mem hm hl
      unfold relatesToPrevious
      rw [hg]
      have ht : t ∉ l := fun ht => hb.unreached (.single ⟨l, hl, ht⟩)
      simp only [List.contains_iff_mem, ht, if_false]
      have hall : ∀ n ∈ l, relatesToPrevious m d n t = .ok false := by
        intro n hn
        have he : Listed m s n := ⟨l, hl, hn⟩
        refine ih n ⟨fun x hx => hb.entries x (.head he hx), fun x hx => hb.noCircle x (.head he hx), fun hx => hb.unreached (.head he hx)⟩ (fun p hp => ?_)
        have := hw (n :: p) (List.IsChain.cons_cons ((listed_iff hm s n).1 he) hp)
        simp only [List.length_cons] at this ⊢
        omega
      clear ht hl hg
      induction l with
      | nil => rfl
      | cons n l ihl =>
        unfold anyFound
        rw [hall n (by simp)]
        exact ihl (fun x hx => hall x (by simp [hx]))
  refine key d s h (fun p hp => ?_)
  have hreach : ∀ (p : List Str) (s : Str), (s :: p).IsChain (Edge m) → ∀ x ∈ s :: p, Relation.ReflTransGen (Edge m) s x := by
    intro p
    induction p with
    | nil => intro s _ x hx; simp at hx; subst hx; exact .refl
    | cons y p ihp =>
      intro s hc x hx
      rw [List.isChain_cons_cons] at hc
      rcases List.mem_cons.1 hx with rfl | hx
      · exact .refl
      · exact .head hc.1 (ihp y hc.2 x hx)
  have hedge : ∀ a b, Relation.ReflTransGen (Edge m) a b ↔ Relation.ReflTransGen (Listed m) a b := by
    have : Listed m = Edge m := by funext a b; exact propext (listed_iff hm a b)
    intro a b
    rw [this]
  have hnodup : ∀ (p : List Str) (s : Str), (∀ x, Relation.ReflTransGen (Edge m) s x → ¬ Relation.TransGen (Edge m) x x) → (s :: p).IsChain (Edge m) → (s :: p).Nodup := by
    intro p
    induction p with
    | nil => intro s _ _; simp
    | cons y p ihp =>
      intro s hno hc
      have hc' := hc
      rw [List.isChain_cons_cons] at hc
      rw [List.nodup_cons]
      refine ⟨fun hm' => ?_, ihp y (fun x hx => hno x (.head hc.1 hx)) hc.2⟩
      exact hno s .refl (Relation.TransGen.head' hc.1 (hreach p y hc.2 s hm'))
  have h1 : (s :: p).length ≤ (m.map Prod.fst).length := by
    refine ((hnodup p s (fun x hx => ?_) hp).subperm (fun x hx => ?_)).length_le
    · rw [← transGen_listed hm]
      exact h.noCircle x ((hedge s x).1 hx)
    · obtain ⟨l, hl⟩ := h.entries x ((hedge s x).1 (hreach p s hp x hx))
      exact List.mem_map.2 ⟨_, hl, rfl⟩
  rw [List.length_map] at h1
  omega

/-- C56 with the exact conditions: `relates_to_previous` answers "no", given enough room on the stack, exactly if the start is barren: the target cannot be reached, and neither a circle nor a
name without an entry can.  It answers "yes" exactly if there is a way to the target on which all names listed before the one taken are barren. -/
theorem C56_exactly (m : Dict (List Str)) (hm : (m.map Prod.fst).Nodup) (s t : Str) :
    ((∃ d, relatesToPrevious m d s t = .ok false) ↔ Barren m t s) ∧
    ((∃ d, relatesToPrevious m d s t = .ok true) ↔ FoundFrom m t s) ∧
    (∀ d b, relatesToPrevious m d s t = .ok b → ∀ d', d ≤ d' → relatesToPrevious m d' s t = .ok b) := by
  refine ⟨⟨fun ⟨d, h⟩ => barren_of_false hm h, fun h => ⟨_, false_of_barren hm h (Nat.le_refl _)⟩⟩, ⟨?_, ?_⟩, fun d b h d' hd => relatesToPrevious_le h hd⟩
  · rintro ⟨d, h⟩
    induction d generalizing s with
    | zero => cases h
    | succ d ih =>
      unfold relatesToPrevious at h
      cases hl : m.get? s with
      | none => rw [hl] at h; cases h
      | some l =>
        have hmem := Dict.mem_of_get? hl
        rw [hl] at h
        dsimp only at h
        by_cases ht : t ∈ l
        · exact .direct hmem ht
        · simp only [List.contains_iff_mem, ht, if_false] at h
          have : ∀ l : List Str, anyFound (fun n => relatesToPrevious m d n t) l = .ok true → ∃ before n after, l = before ++ n :: after ∧ (∀ x ∈ before, Barren m t x) ∧ FoundFrom m t n := by
            intro l
            induction l with
            | nil => intro h; cases h
            | cons n l ihl =>
              intro h
              unfold anyFound at h
              cases hn : relatesToPrevious m d n t with
              | error e => rw [hn] at h; cases h
              | ok b =>
                rw [hn] at h
                cases b with
                | true => exact ⟨[], n, l, rfl, by simp, ih n hn⟩
                | false =>
                  obtain ⟨before, x, after, rfl, hb, hf⟩ := ihl h
                  refine ⟨n :: before, x, after, rfl, fun y hy => ?_, hf⟩
                  rcases List.mem_cons.1 hy with rfl | hy
                  · exact barren_of_false hm hn
                  · exact hb y hy
          obtain ⟨before, n, after, rfl, hb, hf⟩ := this l h
          exact .through hmem hb hf
  · intro h
    induction h with
    | direct hl ht =>
      refine ⟨1, ?_⟩
      unfold relatesToPrevious
      rw [get_of_mem hm hl]
      simp only [List.contains_iff_mem, ht, if_true]
    | @through s n before after hl hb _ ih =>
      obtain ⟨d, hd⟩ := ih
      refine ⟨max d m.length + 1, ?_⟩
      unfold relatesToPrevious
      rw [get_of_mem hm hl]
      dsimp only
      split
      · rfl
      · have hb' : ∀ x ∈ before, relatesToPrevious m (max d m.length) x t = .ok false := fun x hx => false_of_barren hm (hb x hx) (Nat.le_max_right _ _)
        have hn := relatesToPrevious_le hd (Nat.le_max_left d m.length)
        clear hl hb
        induction before with
        | nil =>
          rw [List.nil_append]
          unfold anyFound
          rw [hn]
          rfl
        | cons x before ihb =>
          rw [List.cons_append]
          unfold anyFound
          rw [hb' x (by simp)]
          exact ihb (by simp_all) (fun y hy => hb' y (by simp [hy]))

/-- Asked whether `a` leads to `c`, the answer is "yes" if `c` is listed before the circle and none if it is listed after it. -/
example : relatesToPrevious [(c!"a", [c!"x", c!"b"]), (c!"x", [c!"c"]), (c!"b", [c!"b"]), (c!"c", [])] 4 c!"a" c!"c" = .ok true ∧
    relatesToPrevious [(c!"a", [c!"b", c!"x"]), (c!"x", [c!"c"]), (c!"b", [c!"b"]), (c!"c", [])] 4 c!"a" c!"c" = .error .recursion := by decide +kernel

end Verif.Props
