import Verif.Lemmas.Merge
import Verif.Lemmas.WellKeyed
import Mathlib.Data.List.Nodup
import Mathlib.Data.List.Flatten
/-
Membership in the two difference lists, level by level.
-/

namespace Verif
open Verif.Spec

section concat
variable {α : Type} {d1 d2 : Dict α} {o1 o2 : α → Diffs} {b : α → α → Diffs}

theorem mem_concat_fst {x : Diff} :
    x ∈ (Diffs.concat (dictPick d1 d2 o1 o2 b) (allNames d1 d2)).1 ↔
      (∃ n u, d1.get? n = some u ∧ d2.get? n = none ∧ x ∈ (o1 u).1) ∨
      (∃ n v, d1.get? n = none ∧ d2.get? n = some v ∧ x ∈ (o2 v).1) ∨
      (∃ n u v, d1.get? n = some u ∧ d2.get? n = some v ∧ x ∈ (b u v).1) := by
  rw [Diffs.concat_fst, List.mem_flatMap]
  constructor
  · rintro ⟨n, _, hx⟩
    unfold dictPick at hx
    cases hu : d1.get? n <;> cases hv : d2.get? n <;> simp only [hu, hv] at hx
    · simp at hx
    · exact .inr (.inl ⟨n, _, hu, hv, hx⟩)
    · exact .inl ⟨n, _, hu, hv, hx⟩
    · exact .inr (.inr ⟨n, _, _, hu, hv, hx⟩)
  · have key : ∀ n u, d1.get? n = some u → n ∈ allNames d1 d2 := fun n u h =>
      mem_allNames.2 (.inl ((Dict.get?_isSome_iff d1 n).1 (by simp [h])))
    have key2 : ∀ n u, d2.get? n = some u → n ∈ allNames d1 d2 := fun n u h =>
      mem_allNames.2 (.inr ((Dict.get?_isSome_iff d2 n).1 (by simp [h])))
    rintro (⟨n, u, hu, hv, hx⟩ | ⟨n, v, hu, hv, hx⟩ | ⟨n, u, v, hu, hv, hx⟩)
    · exact ⟨n, key n u hu, by simpa [dictPick, hu, hv] using hx⟩
    · exact ⟨n, key2 n v hv, by simpa [dictPick, hu, hv] using hx⟩
    · exact ⟨n, key n u hu, by simpa [dictPick, hu, hv] using hx⟩

theorem mem_concat_snd {x : Diff} :
    x ∈ (Diffs.concat (dictPick d1 d2 o1 o2 b) (allNames d1 d2)).2 ↔
      (∃ n u, d1.get? n = some u ∧ d2.get? n = none ∧ x ∈ (o1 u).2) ∨
      (∃ n v, d1.get? n = none ∧ d2.get? n = some v ∧ x ∈ (o2 v).2) ∨
      (∃ n u v, d1.get? n = some u ∧ d2.get? n = some v ∧ x ∈ (b u v).2) := by
  rw [Diffs.concat_snd, List.mem_flatMap]
  constructor
  · rintro ⟨n, _, hx⟩
    unfold dictPick at hx
    cases hu : d1.get? n <;> cases hv : d2.get? n <;> simp only [hu, hv] at hx
    · simp at hx
    · exact .inr (.inl ⟨n, _, hu, hv, hx⟩)
    · exact .inl ⟨n, _, hu, hv, hx⟩
    · exact .inr (.inr ⟨n, _, _, hu, hv, hx⟩)
  · have key : ∀ n u, d1.get? n = some u → n ∈ allNames d1 d2 := fun n u h =>
      mem_allNames.2 (.inl ((Dict.get?_isSome_iff d1 n).1 (by simp [h])))
    have key2 : ∀ n u, d2.get? n = some u → n ∈ allNames d1 d2 := fun n u h =>
      mem_allNames.2 (.inr ((Dict.get?_isSome_iff d2 n).1 (by simp [h])))
    rintro (⟨n, u, hu, hv, hx⟩ | ⟨n, v, hu, hv, hx⟩ | ⟨n, u, v, hu, hv, hx⟩)
    · exact ⟨n, key n u hu, by simpa [dictPick, hu, hv] using hx⟩
    · exact ⟨n, key2 n v hv, by simpa [dictPick, hu, hv] using hx⟩
    · exact ⟨n, key n u hu, by simpa [dictPick, hu, hv] using hx⟩

theorem concat_eq_nil_iff (hk : ∀ n u, d1.get? n = some u → d2.get? n = none → ¬ ((o1 u).1 = [] ∧ (o1 u).2 = []))
    (hk2 : ∀ n v, d1.get? n = none → d2.get? n = some v → ¬ ((o2 v).1 = [] ∧ (o2 v).2 = [])) :
    Diffs.concat (dictPick d1 d2 o1 o2 b) (allNames d1 d2) = ([], []) ↔
      (∀ n, d1.get? n = none ↔ d2.get? n = none) ∧
      ∀ n u v, d1.get? n = some u → d2.get? n = some v → b u v = ([], []) := by
  constructor
  · intro h
    have e1 : ∀ x, x ∉ (Diffs.concat (dictPick d1 d2 o1 o2 b) (allNames d1 d2)).1 := by rw [h]; simp
    have e2 : ∀ x, x ∉ (Diffs.concat (dictPick d1 d2 o1 o2 b) (allNames d1 d2)).2 := by rw [h]; simp
    refine ⟨fun n => ⟨fun hn => ?_, fun hn => ?_⟩, fun n u v hu hv => ?_⟩
    · cases hv : d2.get? n with
      | none => rfl
      | some v =>
        exfalso
        apply hk2 n v hn hv
        exact ⟨List.eq_nil_iff_forall_not_mem.2 fun x hx => e1 x (mem_concat_fst.2 (.inr (.inl ⟨n, v, hn, hv, hx⟩))),
          List.eq_nil_iff_forall_not_mem.2 fun x hx => e2 x (mem_concat_snd.2 (.inr (.inl ⟨n, v, hn, hv, hx⟩)))⟩
    · cases hu : d1.get? n with
      | none => rfl
      | some u =>
        exfalso
        apply hk n u hu hn
        exact ⟨List.eq_nil_iff_forall_not_mem.2 fun x hx => e1 x (mem_concat_fst.2 (.inl ⟨n, u, hu, hn, hx⟩)),
          List.eq_nil_iff_forall_not_mem.2 fun x hx => e2 x (mem_concat_snd.2 (.inl ⟨n, u, hu, hn, hx⟩))⟩
    · exact Prod.ext
        (List.eq_nil_iff_forall_not_mem.2 fun x hx => e1 x (mem_concat_fst.2 (.inr (.inr ⟨n, u, v, hu, hv, hx⟩))))
        (List.eq_nil_iff_forall_not_mem.2 fun x hx => e2 x (mem_concat_snd.2 (.inr (.inr ⟨n, u, v, hu, hv, hx⟩))))
  · rintro ⟨h1, h2⟩
    have key : ∀ n, dictPick d1 d2 o1 o2 b n = ([], []) := by
      intro n
      unfold dictPick
      cases hu : d1.get? n with
      | none => simp [(h1 n).1 hu]
      | some u =>
        cases hv : d2.get? n with
        | none => simp [(h1 n).2 hv] at hu
        | some v => exact h2 n u v hu hv
    have : ∀ l, Diffs.concat (dictPick d1 d2 o1 o2 b) l = ([], []) := by
      intro l
      induction l with
      | nil => rfl
      | cons a l ih => simp [Diffs.concat, key, ih, Diffs.append]
    exact this _

theorem concat_swap (h1 : d1.keys.Nodup) (h2 : d2.keys.Nodup) {o1' o2' : α → Diffs} {b' : α → α → Diffs}
    (e1 : ∀ n u, d1.get? n = some u → (o2' u) = (o1 u).swap) (e2 : ∀ n v, d2.get? n = some v → o1' v = (o2 v).swap)
    (e3 : ∀ n u v, d1.get? n = some u → d2.get? n = some v → b' v u = (b u v).swap) :
    Diffs.concat (dictPick d2 d1 o1' o2' b') (allNames d2 d1) =
      (Diffs.concat (dictPick d1 d2 o1 o2 b) (allNames d1 d2)).swap := by
  have hn : allNames d2 d1 = allNames d1 d2 := unionS_comm (sortStr_incr h2) (sortStr_incr h1)
  have hp : ∀ n, dictPick d2 d1 o1' o2' b' n = (dictPick d1 d2 o1 o2 b n).swap := by
    intro n
    unfold dictPick
    cases hu : d1.get? n <;> cases hv : d2.get? n
    · rfl
    · exact e2 n _ hv
    · exact e1 n _ hu
    · exact e3 n _ _ hu hv
  rw [hn]
  apply Prod.ext
  · rw [Diffs.concat_fst, Prod.fst_swap, Diffs.concat_snd]
    congr 1; funext n; rw [hp]; rfl
  · rw [Diffs.concat_snd, Prod.snd_swap, Diffs.concat_fst]
    congr 1; funext n; rw [hp]; rfl

end concat

/-! ## The comparison functions in terms of lookups -/

theorem compareForeignKeys_eq {t1 t2 : Table} (h1 : TableKeyed t1) (h2 : TableKeyed t2) (db1 db2 : Str) :
    compareForeignKeys db1 t1 db2 t2 = Diffs.concat (dictPick t1.fks t2.fks
      (fun fk => ([.fkDropped db1 t1 fk.name], [.fkAdded db2 t2 fk]))
      (fun fk => ([.fkAdded db1 t1 fk], [.fkDropped db2 t2 fk.name]))
      (fun fk1 fk2 => if ¬ fk1.eq fk2 then
        ([.fkDropped db1 t1 fk1.name, .fkAdded db1 t1 fk2], [.fkDropped db2 t2 fk2.name, .fkAdded db2 t2 fk1])
      else ([], []))) (allNames t1.fks t2.fks) :=
  mergeLoop_dict h1.fks h2.fks _ _ _

theorem compareRelationships_eq {t1 t2 : Table} (h1 : TableKeyed t1) (h2 : TableKeyed t2) (db1 db2 : Str) :
    compareRelationships db1 t1 db2 t2 = Diffs.concat (dictPick t1.rels t2.rels
      (fun fk => ([.relDropped db1 t1 fk.name], [.relAdded db2 t2 fk]))
      (fun fk => ([.relAdded db1 t1 fk], [.relDropped db2 t2 fk.name]))
      (fun fk1 fk2 => if ¬ fk1.eq fk2 then
        ([.relDropped db1 t1 fk1.name, .relAdded db1 t1 fk2], [.relDropped db2 t2 fk2.name, .relAdded db2 t2 fk1])
      else ([], []))) (allNames t1.rels t2.rels) :=
  mergeLoop_dict h1.rels h2.rels _ _ _

theorem compareColumns_eq {t1 t2 : Table} (h1 : TableKeyed t1) (h2 : TableKeyed t2) (db1 db2 : Str) :
    compareColumns db1 t1 db2 t2 = Diffs.concat (dictPick t1.cols t2.cols
      (fun c => ([.colDropped db1 t1 c], [.colAdded db2 t2 c]))
      (fun c => ([.colAdded db1 t1 c], [.colDropped db2 t2 c]))
      (fun c1 c2 => if c1.type ≠ c2.type then ([.colModified db1 t1 c2], [.colModified db2 t2 c1]) else ([], [])))
      (allNames t1.cols t2.cols) := by
  unfold compareColumns
  rw [columnNames_eq, columnNames_eq]
  exact mergeLoop_dict h1.cols h2.cols _ _ _

theorem compareDatabases_eq {db1 db2 : Database} (h1 : WellKeyed db1) (h2 : WellKeyed db2) (shared : Str → Bool) :
    compareDatabases shared db1 db2 = Diffs.concat (dictPick db1.tables db2.tables
      (fun t => ([.tableDropped db1.name t], [.tableCreated db2.name t]))
      (fun t => ([.tableCreated db1.name t], [.tableDropped db2.name t]))
      (fun t1 t2 => compareTables (shared t1.name) db1.name t1 db2.name t2)) (allNames db1.tables db2.tables) := by
  rw [wellKeyed_iff] at h1 h2
  rw [← mergeLoop_dict h1.1 h2.1]
  unfold compareDatabases
  congr 1
  funext n
  unfold withObj Database.getTable
  cases h : db1.tables.get? n with
  | none => rfl
  | some t => have e : n = t.name := h1.2.1 _ (Dict.mem_of_get? h); rw [e]

theorem fkEq_iff (a b : FK) : a.eq b = true ↔ a.name = b.name ∧ a.fromTable = b.fromTable ∧
    a.fromKeys.Perm a.toKeys ∧ a.toTable = b.toTable := by
  unfold FK.eq
  simp only [Bool.and_eq_true, decide_eq_true_eq, sortStr_eq_iff]
  simp [and_assoc]

theorem relEq_iff (a b : Rel) : a.eq b = true ↔ a = b := by
  cases a; cases b; simp [Rel.eq, and_assoc]

theorem tableKeyed_of_get? {db : Database} (h : WellKeyed db) {n : Str} {t : Table} (ht : db.tables.get? n = some t) :
    TableKeyed t := ((wellKeyed_iff db).1 h).2.2 _ (Dict.mem_of_get? ht)

theorem name_of_get? {db : Database} (h : WellKeyed db) {n : Str} {t : Table} (ht : db.tables.get? n = some t) :
    t.name = n := (((wellKeyed_iff db).1 h).2.1 _ (Dict.mem_of_get? ht)).symm

theorem tableOf_iff {db : Database} (h : WellKeyed db) {n : Str} {t : Table} :
    TableOf db n t ↔ db.tables.get? n = some t := Dict.mem_iff_get? h.tables

theorem no_tableOf_iff {db : Database} {n : Str} : (¬ ∃ t, TableOf db n t) ↔ db.tables.get? n = none := by
  rw [Dict.get?_eq_none_iff]
  unfold TableOf Dict.keys
  simp

theorem no_mem_iff {α : Type} {d : Dict α} {n : Str} : (¬ ∃ t, (n, t) ∈ d) ↔ d.get? n = none := by
  rw [Dict.get?_eq_none_iff]
  unfold Dict.keys
  simp

/-- Membership in the report for one common table. -/
theorem mem_compareTables_fst {same : Bool} {m1 m2 : Str} {t1 t2 : Table} {x : Diff} :
    x ∈ (compareTables same m1 t1 m2 t2).1 ↔ x ∈ (comparePrimaryKeys m1 t1 m2 t2).1 ∨
      x ∈ (compareShardKeys same m1 t1 m2 t2).1 ∨ x ∈ (compareForeignKeys m1 t1 m2 t2).1 ∨
      x ∈ (compareRelationships m1 t1 m2 t2).1 ∨ x ∈ (compareColumns m1 t1 m2 t2).1 := by
  simp [compareTables, Diffs.append, or_assoc]

theorem mem_compareTables_snd {same : Bool} {m1 m2 : Str} {t1 t2 : Table} {x : Diff} :
    x ∈ (compareTables same m1 t1 m2 t2).2 ↔ x ∈ (comparePrimaryKeys m1 t1 m2 t2).2 ∨
      x ∈ (compareShardKeys same m1 t1 m2 t2).2 ∨ x ∈ (compareForeignKeys m1 t1 m2 t2).2 ∨
      x ∈ (compareRelationships m1 t1 m2 t2).2 ∨ x ∈ (compareColumns m1 t1 m2 t2).2 := by
  simp [compareTables, Diffs.append, or_assoc]

end Verif
