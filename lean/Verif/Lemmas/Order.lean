import Verif.Diff
/-
Python string order and `sorted`.
-/

namespace Verif

theorem strLe_refl (a : Str) : strLe a a = true := by
  induction a with
  | nil => rfl
  | cons c a ih => simp [strLe, ih]

theorem strLe_total (a b : Str) : strLe a b = true ∨ strLe b a = true := by
  induction a generalizing b with
  | nil => simp [strLe]
  | cons c a ih =>
    cases b with
    | nil => simp [strLe]
    | cons d b =>
      simp only [strLe]
      by_cases h1 : c.toNat < d.toNat
      · simp [h1]
      · by_cases h2 : d.toNat < c.toNat
        · simp [h2]
        · simpa [h1, h2] using ih b

theorem strLe_antisymm {a b : Str} (h1 : strLe a b = true) (h2 : strLe b a = true) : a = b := by
  induction a generalizing b with
  | nil => cases b with
    | nil => rfl
    | cons d b => simp [strLe] at h2
  | cons c a ih =>
    cases b with
    | nil => simp [strLe] at h1
    | cons d b =>
      simp only [strLe] at h1 h2
      by_cases h3 : c.toNat < d.toNat
      · simp [h3, Nat.lt_asymm h3] at h2
      · by_cases h4 : d.toNat < c.toNat
        · simp [h3, h4] at h1
        · have : c = d := Char.toNat_inj.1 (by omega)
          subst this
          simp at h1 h2
          rw [ih h1 h2]

theorem strLe_trans {a b c : Str} (h1 : strLe a b = true) (h2 : strLe b c = true) : strLe a c = true := by
  induction a generalizing b c with
  | nil => rfl
  | cons x a ih =>
    cases b with
    | nil => simp [strLe] at h1
    | cons y b =>
      cases c with
      | nil => simp [strLe] at h2
      | cons z c =>
        simp only [strLe] at h1 h2 ⊢
        by_cases hxy : x.toNat < y.toNat
        · by_cases hyz : y.toNat < z.toNat
          · have : x.toNat < z.toNat := by omega
            simp [this]
          · by_cases hzy : z.toNat < y.toNat
            · simp [hyz, hzy] at h2
            · have : x.toNat < z.toNat := by omega
              simp [this]
        · by_cases hyx : y.toNat < x.toNat
          · simp [hxy, hyx] at h1
          · simp [hxy, hyx] at h1
            by_cases hyz : y.toNat < z.toNat
            · have : x.toNat < z.toNat := by omega
              simp [this]
            · by_cases hzy : z.toNat < y.toNat
              · simp [hyz, hzy] at h2
              · simp [hyz, hzy] at h2
                have h3 : ¬ x.toNat < z.toNat := by omega
                have h4 : ¬ z.toNat < x.toNat := by omega
                simp [h3, h4, ih h1 h2]

/-- Strict order. -/
def Lt (a b : Str) : Prop := strLt a b = true

theorem lt_iff {a b : Str} : Lt a b ↔ strLe a b = true ∧ a ≠ b := by
  unfold Lt strLt
  constructor
  · intro h
    have h' : strLe b a = false := by simpa using h
    refine ⟨(strLe_total a b).resolve_right (by simp [h']), ?_⟩
    rintro rfl
    simp [strLe_refl] at h'
  · rintro ⟨h1, h2⟩
    cases h : strLe b a with
    | false => rfl
    | true => exact absurd (strLe_antisymm h1 h) h2

theorem lt_trans {a b c : Str} (h1 : Lt a b) (h2 : Lt b c) : Lt a c := by
  rw [lt_iff] at *
  refine ⟨strLe_trans h1.1 h2.1, ?_⟩
  rintro rfl
  exact h1.2 (strLe_antisymm h1.1 h2.1)

theorem lt_irrefl (a : Str) : ¬ Lt a a := by rw [lt_iff]; simp

theorem not_lt_not_lt {a b : Str} (h1 : ¬ Lt a b) (h2 : ¬ Lt b a) : a = b := by
  unfold Lt strLt at *
  simp at h1 h2
  exact strLe_antisymm h2 h1

theorem insertStr_perm (x : Str) (l : List Str) : (insertStr x l).Perm (x :: l) := by
  induction l with
  | nil => exact List.Perm.refl _
  | cons y ys ih =>
    unfold insertStr
    split
    · exact List.Perm.refl _
    · exact (ih.cons y).trans (List.Perm.swap x y ys)

theorem sortStr_perm (l : List Str) : (sortStr l).Perm l := by
  induction l with
  | nil => exact List.Perm.refl _
  | cons x xs ih => exact (insertStr_perm x _).trans (ih.cons x)

@[simp] theorem mem_sortStr {l : List Str} {x : Str} : x ∈ sortStr l ↔ x ∈ l := (sortStr_perm l).mem_iff

theorem insertStr_sorted {x : Str} {l : List Str} (h : l.Pairwise (fun a b => strLe a b = true)) :
    (insertStr x l).Pairwise (fun a b => strLe a b = true) := by
  induction l with
  | nil => simp [insertStr]
  | cons y ys ih =>
    unfold insertStr
    split
    · rename_i hxy
      refine List.Pairwise.cons ?_ h
      intro z hz
      rcases List.mem_cons.1 hz with rfl | hz
      · exact hxy
      · exact strLe_trans hxy (List.rel_of_pairwise_cons h hz)
    · rename_i hxy
      refine List.Pairwise.cons ?_ (ih h.tail)
      intro z hz
      rcases List.mem_cons.1 ((insertStr_perm x ys).mem_iff.1 hz) with rfl | hz
      · exact (strLe_total _ _).resolve_left hxy
      · exact List.rel_of_pairwise_cons h hz

theorem sortStr_sorted (l : List Str) : (sortStr l).Pairwise (fun a b => strLe a b = true) := by
  induction l with
  | nil => exact List.Pairwise.nil
  | cons x xs ih => exact insertStr_sorted ih

/-- Strictly increasing lists of names. -/
abbrev Incr (l : List Str) : Prop := l.Pairwise Lt

theorem sortStr_incr {l : List Str} (h : l.Nodup) : Incr (sortStr l) := by
  have h1 := sortStr_sorted l
  have h2 : (sortStr l).Nodup := (sortStr_perm l).nodup_iff.2 h
  unfold Incr
  rw [List.nodup_iff_pairwise_ne] at h2
  exact (h1.and h2).imp (fun h => lt_iff.2 h)

theorem Incr.nodup {l : List Str} (h : Incr l) : l.Nodup := by
  rw [List.nodup_iff_pairwise_ne]
  exact h.imp (fun h => (lt_iff.1 h).2)

theorem eq_of_perm_of_sorted {l1 l2 : List Str} (hp : l1.Perm l2)
    (h1 : l1.Pairwise (fun a b => strLe a b = true)) (h2 : l2.Pairwise (fun a b => strLe a b = true)) : l1 = l2 := by
  induction l1 generalizing l2 with
  | nil => exact (List.nil_perm.1 hp).symm
  | cons a l1 ih =>
    cases l2 with
    | nil => exact absurd hp.length_eq (by simp)
    | cons b l2 =>
      have hab : a = b := by
        have ha : a ∈ b :: l2 := hp.mem_iff.1 (by simp)
        have hb : b ∈ a :: l1 := hp.mem_iff.2 (by simp)
        rcases List.mem_cons.1 ha with h | ha
        · exact h
        · rcases List.mem_cons.1 hb with h | hb
          · exact h.symm
          · exact strLe_antisymm (List.rel_of_pairwise_cons h1 hb) (List.rel_of_pairwise_cons h2 ha)
      subst hab
      rw [ih (List.Perm.cons_inv hp) h1.tail h2.tail]

theorem sortStr_eq_iff (l1 l2 : List Str) : sortStr l1 = sortStr l2 ↔ l1.Perm l2 := by
  constructor
  · intro h
    exact ((sortStr_perm l1).symm.trans (h ▸ List.Perm.refl _)).trans (sortStr_perm l2)
  · intro h
    exact eq_of_perm_of_sorted (((sortStr_perm l1).trans h).trans (sortStr_perm l2).symm)
      (sortStr_sorted _) (sortStr_sorted _)

end Verif
