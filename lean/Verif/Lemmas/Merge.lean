import Verif.Lemmas.Order
import Verif.Lemmas.Dict
import Mathlib.Tactic.Tauto
/-
The merge loop of the comparison visits the sorted union of the two name lists.
-/

namespace Verif

/-- Sorted union, inner part. -/
def unionStep (a : Str) (leftover : List Str) (rest : List Str → List Str) : List Str → List Str
  | [] => leftover
  | b :: t2 =>
    if strLt a b then a :: rest (b :: t2)
    else if strLt b a then b :: unionStep a leftover rest t2
    else a :: rest t2

/-- Sorted union of two increasing lists. -/
def unionS : List Str → List Str → List Str
  | [], l2 => l2
  | a :: t1, l2 => unionStep a (a :: t1) (unionS t1) l2

theorem mem_unionS (l1 l2 : List Str) (n : Str) : n ∈ unionS l1 l2 ↔ n ∈ l1 ∨ n ∈ l2 := by
  induction l1 generalizing l2 with
  | nil => simp [unionS]
  | cons a t1 ih =>
    unfold unionS
    induction l2 with
    | nil => simp [unionStep]
    | cons b t2 ih2 =>
      unfold unionStep
      split
      · simp [ih]; tauto
      · split
        · rename_i h1 h2
          simp only [List.mem_cons]
          rw [ih2]; simp; tauto
        · rename_i h1 h2
          have hab : a = b := not_lt_not_lt h1 h2
          subst hab
          simp [ih]; tauto

theorem unionS_incr {l1 l2 : List Str} (h1 : Incr l1) (h2 : Incr l2) : Incr (unionS l1 l2) := by
  induction l1 generalizing l2 with
  | nil => simpa [unionS] using h2
  | cons a t1 ih =>
    have h1' : Incr t1 := (List.pairwise_cons.1 h1).2
    have ha : ∀ x ∈ t1, Lt a x := fun x hx => List.rel_of_pairwise_cons h1 hx
    unfold unionS
    induction l2 with
    | nil => simpa [unionStep] using h1
    | cons b t2 ih2 =>
      have hb : ∀ x ∈ t2, Lt b x := fun x hx => List.rel_of_pairwise_cons h2 hx
      unfold unionStep
      split
      · rename_i hab
        refine List.Pairwise.cons ?_ (ih h1' h2)
        intro x hx
        rcases (mem_unionS _ _ _).1 hx with hx | hx
        · exact ha x hx
        · rcases List.mem_cons.1 hx with rfl | hx
          · exact hab
          · exact lt_trans hab (hb x hx)
      · split
        · rename_i _ hba
          refine List.Pairwise.cons ?_ (ih2 (List.pairwise_cons.1 h2).2)
          intro x hx
          have hx' : x ∈ unionS (a :: t1) t2 := hx
          rcases (mem_unionS _ _ _).1 hx' with hx | hx
          · rcases List.mem_cons.1 hx with rfl | hx
            · exact hba
            · exact lt_trans hba (ha x hx)
          · exact hb x hx
        · rename_i hab hba
          have hab : a = b := not_lt_not_lt hab hba
          subst hab
          refine List.Pairwise.cons ?_ (ih h1' (List.pairwise_cons.1 h2).2)
          intro x hx
          rcases (mem_unionS _ _ _).1 hx with hx | hx
          · exact ha x hx
          · exact hb x hx

theorem Diffs.concat_congr {f g : Str → Diffs} {l : List Str} (h : ∀ n ∈ l, f n = g n) :
    Diffs.concat f l = Diffs.concat g l := by
  induction l with
  | nil => rfl
  | cons a l ih =>
    simp only [Diffs.concat]
    rw [h a (by simp), ih (fun n hn => h n (by simp [hn]))]

/-- What the loop does for one name. -/
def pick (only1 only2 both : Str → Diffs) (l1 l2 : List Str) (n : Str) : Diffs :=
  if n ∈ l1 then (if n ∈ l2 then both n else only1 n) else only2 n

theorem mergeLoop_eq (o1 o2 b : Str → Diffs) {l1 l2 : List Str} (h1 : Incr l1) (h2 : Incr l2) :
    mergeLoop o1 o2 b l1 l2 = Diffs.concat (pick o1 o2 b l1 l2) (unionS l1 l2) := by
  induction l1 generalizing l2 with
  | nil =>
    simp only [mergeLoop, unionS]
    exact Diffs.concat_congr (fun n _ => by simp [pick])
  | cons x t1 ih =>
    have h1' : Incr t1 := (List.pairwise_cons.1 h1).2
    have hx : ∀ z ∈ t1, Lt x z := fun z hz => List.rel_of_pairwise_cons h1 hz
    unfold mergeLoop unionS
    induction l2 with
    | nil =>
      simp only [mergeStep, unionStep]
      refine Diffs.concat_congr (fun n hn => ?_)
      simp [pick, hn]
    | cons y t2 ih2 =>
      have hy : ∀ z ∈ t2, Lt y z := fun z hz => List.rel_of_pairwise_cons h2 hz
      unfold mergeStep unionStep
      by_cases hxy : strLt x y = true
      · have hxn : x ∉ y :: t2 := by
          intro hm
          rcases List.mem_cons.1 hm with h | h
          · exact lt_irrefl x (by rw [← h] at hxy; exact hxy)
          · exact lt_irrefl x (lt_trans hxy (hy x h))
        simp only [hxy, if_true, Diffs.concat]
        rw [ih h1' h2]
        congr 1
        · simp only [pick, List.mem_cons_self, if_true, if_neg hxn]
        · refine Diffs.concat_congr (fun n hn => ?_)
          unfold pick
          by_cases hnx : n = x
          · subst hnx
            have : n ∉ t1 := fun h => lt_irrefl n (hx n h)
            rcases (mem_unionS _ _ _).1 hn with h | h
            · exact absurd h this
            · exact absurd h hxn
          · simp [hnx]
      · by_cases hyx : strLt y x = true
        · have hyn : y ∉ x :: t1 := by
            intro hm
            rcases List.mem_cons.1 hm with h | h
            · exact lt_irrefl x (by rw [h] at hyx; exact hyx)
            · exact lt_irrefl y (lt_trans hyx (hx y h))
          rw [if_neg hxy, if_pos hyx, if_neg hxy, if_pos hyx, Diffs.concat.eq_2 _ y]
          rw [ih2 (List.pairwise_cons.1 h2).2]
          congr 1
          · simp only [pick, if_neg hyn]
          · refine Diffs.concat_congr (fun n hn => ?_)
            unfold pick
            by_cases hny : n = y
            · subst hny
              have hn' : n ∈ unionS (x :: t1) t2 := hn
              rcases (mem_unionS _ _ _).1 hn' with h | h
              · exact absurd h hyn
              · exact absurd (hy n h) (lt_irrefl n)
            · simp [hny]
        · have hxy' : x = y := not_lt_not_lt hxy hyx
          subst hxy'
          rw [if_neg hxy, if_neg hyx, if_neg hxy, if_neg hyx, Diffs.concat.eq_2 _ x]
          rw [ih h1' (List.pairwise_cons.1 h2).2]
          congr 1
          · simp [pick]
          · refine Diffs.concat_congr (fun n hn => ?_)
            unfold pick
            by_cases hnx : n = x
            · subst hnx
              rcases (mem_unionS _ _ _).1 hn with h | h
              · exact absurd (hx n h) (lt_irrefl n)
              · exact absurd (hy n h) (lt_irrefl n)
            · simp [hnx]

theorem Diffs.concat_fst (f : Str → Diffs) (l : List Str) : (Diffs.concat f l).1 = l.flatMap (fun n => (f n).1) := by
  induction l with
  | nil => rfl
  | cons a l ih => simp [Diffs.concat, Diffs.append, ih]

theorem Diffs.concat_snd (f : Str → Diffs) (l : List Str) : (Diffs.concat f l).2 = l.flatMap (fun n => (f n).2) := by
  induction l with
  | nil => rfl
  | cons a l ih => simp [Diffs.concat, Diffs.append, ih]

theorem incr_ext {l1 l2 : List Str} (h1 : Incr l1) (h2 : Incr l2) (h : ∀ n, n ∈ l1 ↔ n ∈ l2) : l1 = l2 :=
  eq_of_perm_of_sorted ((List.perm_ext_iff_of_nodup h1.nodup h2.nodup).2 h)
    (h1.imp fun h => (lt_iff.1 h).1) (h2.imp fun h => (lt_iff.1 h).1)

theorem unionS_comm {l1 l2 : List Str} (h1 : Incr l1) (h2 : Incr l2) : unionS l1 l2 = unionS l2 l1 :=
  incr_ext (unionS_incr h1 h2) (unionS_incr h2 h1) (fun n => by simp [mem_unionS]; tauto)

theorem unionS_self {l : List Str} (h : Incr l) : unionS l l = l :=
  incr_ext (unionS_incr h h) h (fun n => by simp [mem_unionS])

theorem columnNames_eq (t : Table) : t.columnNames = t.cols.keys := by
  have : ∀ (l acc : List Str), l.foldl (fun acc n => acc ++ [n]) acc = acc ++ l := by
    intro l
    induction l with
    | nil => simp
    | cons a l ih => intro acc; simp [ih]
  simp [Table.columnNames, this]

/-- What the merge over the keys of two dictionaries does, in terms of lookups. -/
def dictPick {α : Type} (d1 d2 : Dict α) (o1 o2 : α → Diffs) (b : α → α → Diffs) (n : Str) : Diffs :=
  match d1.get? n, d2.get? n with
  | some x, some y => b x y
  | some x, none => o1 x
  | none, some y => o2 y
  | none, none => ([], [])

/-- All names of two dictionaries, sorted. -/
def allNames {α : Type} (d1 d2 : Dict α) : List Str := unionS (sortStr d1.keys) (sortStr d2.keys)

theorem mem_allNames {α : Type} {d1 d2 : Dict α} {n : Str} : n ∈ allNames d1 d2 ↔ n ∈ d1.keys ∨ n ∈ d2.keys := by
  simp [allNames, mem_unionS]

theorem allNames_incr {α : Type} {d1 d2 : Dict α} (h1 : d1.keys.Nodup) (h2 : d2.keys.Nodup) :
    Incr (allNames d1 d2) := unionS_incr (sortStr_incr h1) (sortStr_incr h2)

theorem mergeLoop_dict {α : Type} {d1 d2 : Dict α} (h1 : d1.keys.Nodup) (h2 : d2.keys.Nodup) (o1 o2 : α → Diffs)
    (b : α → α → Diffs) :
    mergeLoop (fun n => withObj (d1.get? n) o1) (fun n => withObj (d2.get? n) o2)
      (fun n => withObj (d1.get? n) fun x => withObj (d2.get? n) fun y => b x y)
      (sortStr d1.keys) (sortStr d2.keys)
    = Diffs.concat (dictPick d1 d2 o1 o2 b) (allNames d1 d2) := by
  rw [mergeLoop_eq _ _ _ (sortStr_incr h1) (sortStr_incr h2)]
  refine Diffs.concat_congr (fun n _ => ?_)
  unfold pick dictPick
  simp only [mem_sortStr]
  by_cases hn1 : n ∈ d1.keys
  · obtain ⟨x, hx⟩ := Option.isSome_iff_exists.1 ((Dict.get?_isSome_iff d1 n).2 hn1)
    by_cases hn2 : n ∈ d2.keys
    · obtain ⟨y, hy⟩ := Option.isSome_iff_exists.1 ((Dict.get?_isSome_iff d2 n).2 hn2)
      simp [hn1, hn2, hx, hy, withObj]
    · simp [hn1, hn2, hx, (Dict.get?_eq_none_iff d2 n).2 hn2, withObj]
  · rw [(Dict.get?_eq_none_iff d1 n).2 hn1]
    cases hy : d2.get? n <;> simp [hn1, hy, withObj]

end Verif
