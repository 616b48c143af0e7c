import Verif.Lemmas.Compare
/-
No difference is reported twice.
-/

namespace Verif
open Verif.Spec

/-- The table an entry is about. -/
def Diff.table : Diff → Table
  | .tableCreated _ t | .tableDropped _ t | .pkAdded _ t _ | .pkDropped _ t | .shardAdded _ t _ _
  | .shardDropped _ t | .fkAdded _ t _ | .fkDropped _ t _ | .relAdded _ t _ | .relDropped _ t _
  | .colAdded _ t _ | .colDropped _ t _ | .colModified _ t _ => t

/-- The column or constraint an entry is about. -/
def Diff.item : Diff → Str
  | .fkAdded _ _ k => k.name
  | .fkDropped _ _ n => n
  | .relAdded _ _ k => k.name
  | .relDropped _ _ n => n
  | .colAdded _ _ c | .colDropped _ _ c | .colModified _ _ c => c.name
  | _ => []

/-- The part of a table an entry is about. -/
def Diff.kind : Diff → Nat
  | .tableCreated .. | .tableDropped .. => 0
  | .pkAdded .. | .pkDropped .. => 1
  | .shardAdded .. | .shardDropped .. => 2
  | .fkAdded .. | .fkDropped .. => 3
  | .relAdded .. | .relDropped .. => 4
  | .colAdded .. | .colDropped .. | .colModified .. => 5

theorem flatMap_nodup_key {α β : Type} (k : α → β) {l : List β} (hl : l.Nodup) {f : β → List α}
    (h1 : ∀ n ∈ l, (f n).Nodup) (h2 : ∀ n ∈ l, ∀ x ∈ f n, k x = n) : (l.flatMap f).Nodup := by
  rw [List.nodup_flatMap]
  refine ⟨h1, ?_⟩
  rw [List.nodup_iff_pairwise_ne] at hl
  refine List.Pairwise.imp_of_mem (fun {a b} ha hb hab => ?_) hl
  intro x hx hy
  exact hab ((h2 a ha x hx).symm.trans (h2 b hb x hy))

theorem concat_nodup {α : Type} {d1 d2 : Dict α} (k1 : d1.keys.Nodup) (k2 : d2.keys.Nodup) {o1 o2 : α → Diffs}
    {b : α → α → Diffs} (k : Diff → Str)
    (h1 : ∀ n u, d1.get? n = some u → ((o1 u).1.Nodup ∧ (o1 u).2.Nodup) ∧ ∀ x ∈ (o1 u).1 ++ (o1 u).2, k x = n)
    (h2 : ∀ n u, d2.get? n = some u → ((o2 u).1.Nodup ∧ (o2 u).2.Nodup) ∧ ∀ x ∈ (o2 u).1 ++ (o2 u).2, k x = n)
    (h3 : ∀ n u v, d1.get? n = some u → d2.get? n = some v →
      ((b u v).1.Nodup ∧ (b u v).2.Nodup) ∧ ∀ x ∈ (b u v).1 ++ (b u v).2, k x = n) :
    (Diffs.concat (dictPick d1 d2 o1 o2 b) (allNames d1 d2)).1.Nodup ∧
    (Diffs.concat (dictPick d1 d2 o1 o2 b) (allNames d1 d2)).2.Nodup := by
  have hl := (allNames_incr k1 k2).nodup
  have key : ∀ n, ((dictPick d1 d2 o1 o2 b n).1.Nodup ∧ (dictPick d1 d2 o1 o2 b n).2.Nodup) ∧
      ∀ x ∈ (dictPick d1 d2 o1 o2 b n).1 ++ (dictPick d1 d2 o1 o2 b n).2, k x = n := by
    intro n
    unfold dictPick
    cases hu : d1.get? n with
    | none => cases hv : d2.get? n with
      | none => simp
      | some v => exact h2 n v hv
    | some u => cases hv : d2.get? n with
      | none => exact h1 n u hu
      | some v => exact h3 n u v hu hv
  rw [Diffs.concat_fst, Diffs.concat_snd]
  exact ⟨flatMap_nodup_key k hl (fun n _ => (key n).1.1) (fun n _ x hx => (key n).2 x (List.mem_append_left _ hx)),
    flatMap_nodup_key k hl (fun n _ => (key n).1.2) (fun n _ x hx => (key n).2 x (List.mem_append_right _ hx))⟩

theorem nodup_append_kind {l1 l2 : List Diff} {i : Nat} (h1 : l1.Nodup) (h2 : l2.Nodup) (k1 : ∀ x ∈ l1, x.kind < i)
    (k2 : ∀ x ∈ l2, x.kind = i) : (l1 ++ l2).Nodup := by
  rw [List.nodup_append']
  refine ⟨h1, h2, fun x hx hy => ?_⟩
  have := k1 x hx
  have := k2 x hy
  omega

/-- Facts about every entry for a common table: kinds and tables. -/
theorem kinds_compare {m1 m2 : Str} {t1 t2 : Table} {same : Bool} (k1 : TableKeyed t1) (k2 : TableKeyed t2) :
    (∀ x ∈ (comparePrimaryKeys m1 t1 m2 t2).1, x.kind = 1 ∧ x.table = t1) ∧
    (∀ x ∈ (comparePrimaryKeys m1 t1 m2 t2).2, x.kind = 1 ∧ x.table = t2) ∧
    (∀ x ∈ (compareShardKeys same m1 t1 m2 t2).1, x.kind = 2 ∧ x.table = t1) ∧
    (∀ x ∈ (compareShardKeys same m1 t1 m2 t2).2, x.kind = 2 ∧ x.table = t2) ∧
    (∀ x ∈ (compareForeignKeys m1 t1 m2 t2).1, x.kind = 3 ∧ x.table = t1) ∧
    (∀ x ∈ (compareForeignKeys m1 t1 m2 t2).2, x.kind = 3 ∧ x.table = t2) ∧
    (∀ x ∈ (compareRelationships m1 t1 m2 t2).1, x.kind = 4 ∧ x.table = t1) ∧
    (∀ x ∈ (compareRelationships m1 t1 m2 t2).2, x.kind = 4 ∧ x.table = t2) ∧
    (∀ x ∈ (compareColumns m1 t1 m2 t2).1, x.kind = 5 ∧ x.table = t1) ∧
    (∀ x ∈ (compareColumns m1 t1 m2 t2).2, x.kind = 5 ∧ x.table = t2) := by
  rw [compareForeignKeys_eq k1 k2, compareRelationships_eq k1 k2, compareColumns_eq k1 k2]
  simp only [mem_concat_fst, mem_concat_snd]
  unfold comparePrimaryKeys compareShardKeys
  refine ⟨?_, ?_, ?_, ?_, ?_, ?_, ?_, ?_, ?_, ?_⟩
  · intro x hx
    split at hx
    · split at hx
      · simp at hx; subst hx; exact ⟨rfl, rfl⟩
      · split at hx <;> simp at hx
        · subst hx; exact ⟨rfl, rfl⟩
        · rcases hx with rfl | rfl <;> exact ⟨rfl, rfl⟩
    · simp at hx
  · intro x hx
    split at hx
    · split at hx
      · simp at hx; subst hx; exact ⟨rfl, rfl⟩
      · split at hx <;> simp at hx
        · subst hx; exact ⟨rfl, rfl⟩
        · rcases hx with rfl | rfl <;> exact ⟨rfl, rfl⟩
    · simp at hx
  · intro x hx
    split at hx
    · simp at hx
    · simp at hx; subst hx; exact ⟨rfl, rfl⟩
    · simp at hx; subst hx; exact ⟨rfl, rfl⟩
    · split at hx <;> simp at hx
      subst hx; exact ⟨rfl, rfl⟩
  · intro x hx
    split at hx
    · simp at hx
    · simp at hx; subst hx; exact ⟨rfl, rfl⟩
    · simp at hx; subst hx; exact ⟨rfl, rfl⟩
    · split at hx <;> simp at hx
      subst hx; exact ⟨rfl, rfl⟩
  all_goals
    rintro x (⟨_, _, _, _, h⟩ | ⟨_, _, _, _, h⟩ | ⟨_, _, _, _, _, h⟩)
    · simp at h; subst h; exact ⟨rfl, rfl⟩
    · simp at h; subst h; exact ⟨rfl, rfl⟩
    · split at h <;> simp at h
      first
        | (subst h; exact ⟨rfl, rfl⟩)
        | (rcases h with rfl | rfl <;> exact ⟨rfl, rfl⟩)

theorem compareTables_nodup {m1 m2 : Str} {t1 t2 : Table} {same : Bool} (k1 : TableKeyed t1) (k2 : TableKeyed t2) :
    (compareTables same m1 t1 m2 t2).1.Nodup ∧ (compareTables same m1 t1 m2 t2).2.Nodup := by
  obtain ⟨a1, a2, a3, a4, a5, a6, a7, a8, a9, a10⟩ := kinds_compare (m1 := m1) (m2 := m2) (same := same) k1 k2
  have hp : (comparePrimaryKeys m1 t1 m2 t2).1.Nodup ∧ (comparePrimaryKeys m1 t1 m2 t2).2.Nodup := by
    unfold comparePrimaryKeys
    split
    · split
      · simp
      · split <;> simp
    · simp
  have hs : (compareShardKeys same m1 t1 m2 t2).1.Nodup ∧ (compareShardKeys same m1 t1 m2 t2).2.Nodup := by
    unfold compareShardKeys
    split <;> first | simp | (split <;> simp)
  have hf : (compareForeignKeys m1 t1 m2 t2).1.Nodup ∧ (compareForeignKeys m1 t1 m2 t2).2.Nodup := by
    rw [compareForeignKeys_eq k1 k2]
    refine concat_nodup k1.fks k2.fks Diff.item ?_ ?_ ?_
    · intro n u hu
      have this := (k1.fkNames _ (Dict.mem_of_get? hu)).symm; dsimp only at this
      simp [Diff.item, this]
    · intro n u hu
      have this := (k2.fkNames _ (Dict.mem_of_get? hu)).symm; dsimp only at this
      simp [Diff.item, this]
    · intro n u v hu hv
      have e1 := (k1.fkNames _ (Dict.mem_of_get? hu)).symm; dsimp only at e1
      have e2 := (k2.fkNames _ (Dict.mem_of_get? hv)).symm; dsimp only at e2
      split <;> simp [Diff.item, e1, e2]
  have hr : (compareRelationships m1 t1 m2 t2).1.Nodup ∧ (compareRelationships m1 t1 m2 t2).2.Nodup := by
    rw [compareRelationships_eq k1 k2]
    refine concat_nodup k1.rels k2.rels Diff.item ?_ ?_ ?_
    · intro n u hu
      have this := (k1.relNames _ (Dict.mem_of_get? hu)).symm; dsimp only at this
      simp [Diff.item, this]
    · intro n u hu
      have this := (k2.relNames _ (Dict.mem_of_get? hu)).symm; dsimp only at this
      simp [Diff.item, this]
    · intro n u v hu hv
      have e1 := (k1.relNames _ (Dict.mem_of_get? hu)).symm; dsimp only at e1
      have e2 := (k2.relNames _ (Dict.mem_of_get? hv)).symm; dsimp only at e2
      split <;> simp [Diff.item, e1, e2]
  have hc : (compareColumns m1 t1 m2 t2).1.Nodup ∧ (compareColumns m1 t1 m2 t2).2.Nodup := by
    rw [compareColumns_eq k1 k2]
    refine concat_nodup k1.cols k2.cols Diff.item ?_ ?_ ?_
    · intro n u hu
      have this := (k1.colNames _ (Dict.mem_of_get? hu)).symm; dsimp only at this
      simp [Diff.item, this]
    · intro n u hu
      have this := (k2.colNames _ (Dict.mem_of_get? hu)).symm; dsimp only at this
      simp [Diff.item, this]
    · intro n u v hu hv
      have e1 := (k1.colNames _ (Dict.mem_of_get? hu)).symm; dsimp only at e1
      have e2 := (k2.colNames _ (Dict.mem_of_get? hv)).symm; dsimp only at e2
      split <;> simp [Diff.item, e1, e2]
  have lift : ∀ {a b : List Diff} {i j : Nat}, (∀ x ∈ a, x.kind < i) → (∀ x ∈ b, x.kind = i) → i < j →
      ∀ x ∈ a ++ b, x.kind < j := by
    intro a b i j ha hb hij x hx
    rcases List.mem_append.1 hx with h | h
    · have := ha x h; omega
    · have := hb x h; omega
  constructor
  · have q1 : ∀ x ∈ (comparePrimaryKeys m1 t1 m2 t2).1, x.kind < 2 := fun x hx => by have := (a1 x hx).1; omega
    have r2 := nodup_append_kind hp.1 hs.1 q1 (fun x hx => (a3 x hx).1)
    have q2 := lift (j := 3) q1 (fun x hx => (a3 x hx).1) (by omega)
    have r3 := nodup_append_kind r2 hf.1 q2 (fun x hx => (a5 x hx).1)
    have q3 := lift (j := 4) q2 (fun x hx => (a5 x hx).1) (by omega)
    have r4 := nodup_append_kind r3 hr.1 q3 (fun x hx => (a7 x hx).1)
    have q4 := lift (j := 5) q3 (fun x hx => (a7 x hx).1) (by omega)
    exact nodup_append_kind r4 hc.1 q4 (fun x hx => (a9 x hx).1)
  · have q1 : ∀ x ∈ (comparePrimaryKeys m1 t1 m2 t2).2, x.kind < 2 := fun x hx => by have := (a2 x hx).1; omega
    have r2 := nodup_append_kind hp.2 hs.2 q1 (fun x hx => (a4 x hx).1)
    have q2 := lift (j := 3) q1 (fun x hx => (a4 x hx).1) (by omega)
    have r3 := nodup_append_kind r2 hf.2 q2 (fun x hx => (a6 x hx).1)
    have q3 := lift (j := 4) q2 (fun x hx => (a6 x hx).1) (by omega)
    have r4 := nodup_append_kind r3 hr.2 q3 (fun x hx => (a8 x hx).1)
    have q4 := lift (j := 5) q3 (fun x hx => (a8 x hx).1) (by omega)
    exact nodup_append_kind r4 hc.2 q4 (fun x hx => (a10 x hx).1)

/-- Every entry for a common table is about that table. -/
theorem table_of_mem_compareTables {m1 m2 : Str} {t1 t2 : Table} {same : Bool} (k1 : TableKeyed t1) (k2 : TableKeyed t2) :
    (∀ x ∈ (compareTables same m1 t1 m2 t2).1, x.table = t1) ∧ ∀ x ∈ (compareTables same m1 t1 m2 t2).2, x.table = t2 := by
  obtain ⟨a1, a2, a3, a4, a5, a6, a7, a8, a9, a10⟩ := kinds_compare (m1 := m1) (m2 := m2) (same := same) k1 k2
  constructor
  · intro x hx
    rcases mem_compareTables_fst.1 hx with h | h | h | h | h
    exacts [(a1 x h).2, (a3 x h).2, (a5 x h).2, (a7 x h).2, (a9 x h).2]
  · intro x hx
    rcases mem_compareTables_snd.1 hx with h | h | h | h | h
    exacts [(a2 x h).2, (a4 x h).2, (a6 x h).2, (a8 x h).2, (a10 x h).2]

theorem compareDatabases_nodup {db1 db2 : Database} (h1 : WellKeyed db1) (h2 : WellKeyed db2) (shared : Str → Bool) :
    (compareDatabases shared db1 db2).1.Nodup ∧ (compareDatabases shared db1 db2).2.Nodup := by
  rw [compareDatabases_eq h1 h2]
  refine concat_nodup h1.tables h2.tables (fun x => x.table.name) ?_ ?_ ?_
  · intro n u hu
    simp [Diff.table, name_of_get? h1 hu]
  · intro n u hu
    simp [Diff.table, name_of_get? h2 hu]
  · intro n u v hu hv
    have k1 := tableKeyed_of_get? h1 hu
    have k2 := tableKeyed_of_get? h2 hv
    refine ⟨compareTables_nodup k1 k2, fun x hx => ?_⟩
    have ht := table_of_mem_compareTables (m1 := db1.name) (m2 := db2.name) (same := shared u.name) k1 k2
    rcases List.mem_append.1 hx with h | h
    · rw [ht.1 x h, name_of_get? h1 hu]
    · rw [ht.2 x h, name_of_get? h2 hv]

end Verif

namespace Verif
open Verif.Spec

/-- Entries about a common table come from the comparison of that table. -/
theorem mem_common {db1 db2 : Database} (h1 : WellKeyed db1) (h2 : WellKeyed db2) (shared : Str → Bool) {n : Str}
    {t1 t2 : Table} (ht1 : db1.tables.get? n = some t1) (ht2 : db2.tables.get? n = some t2) (x : Diff)
    (hk : x.kind ≠ 0) :
    (x.table = t1 → (x ∈ (compareDatabases shared db1 db2).1 ↔ x ∈ (compareTables (shared n) db1.name t1 db2.name t2).1)) ∧
    (x.table = t2 → (x ∈ (compareDatabases shared db1 db2).2 ↔ x ∈ (compareTables (shared n) db1.name t1 db2.name t2).2)) := by
  rw [compareDatabases_eq h1 h2]
  constructor
  · intro hx
    rw [mem_concat_fst]
    constructor
    · rintro (⟨m, u, hu, hv, h⟩ | ⟨m, u, hu, hv, h⟩ | ⟨m, u, v, hu, hv, h⟩)
      · simp at h; subst h; simp [Diff.kind] at hk
      · simp at h; subst h; simp [Diff.kind] at hk
      · have e := (table_of_mem_compareTables (tableKeyed_of_get? h1 hu) (tableKeyed_of_get? h2 hv)).1 x h
        rw [hx] at e; subst e
        have e2 : m = n := (name_of_get? h1 hu).symm.trans (name_of_get? h1 ht1)
        subst e2
        rw [ht2] at hv; cases hv
        rw [name_of_get? h1 ht1] at h
        exact h
    · intro h
      exact .inr (.inr ⟨n, t1, t2, ht1, ht2, by rw [name_of_get? h1 ht1]; exact h⟩)
  · intro hx
    rw [mem_concat_snd]
    constructor
    · rintro (⟨m, u, hu, hv, h⟩ | ⟨m, u, hu, hv, h⟩ | ⟨m, u, v, hu, hv, h⟩)
      · simp at h; subst h; simp [Diff.kind] at hk
      · simp at h; subst h; simp [Diff.kind] at hk
      · have e := (table_of_mem_compareTables (tableKeyed_of_get? h1 hu) (tableKeyed_of_get? h2 hv)).2 x h
        rw [hx] at e; subst e
        have e2 : m = n := (name_of_get? h2 hv).symm.trans (name_of_get? h2 ht2)
        subst e2
        rw [ht1] at hu; cases hu
        rw [name_of_get? h1 ht1] at h
        exact h
    · intro h
      exact .inr (.inr ⟨n, t1, t2, ht1, ht2, by rw [name_of_get? h1 ht1]; exact h⟩)

/-- Entries below table level are about common tables and name the database of their list. -/
theorem common_of_mem {db1 db2 : Database} (h1 : WellKeyed db1) (h2 : WellKeyed db2) (shared : Str → Bool) (x : Diff)
    (hk : x.kind ≠ 0) :
    (x ∈ (compareDatabases shared db1 db2).1 → ∃ n t2, db1.tables.get? n = some x.table ∧ db2.tables.get? n = some t2) ∧
    (x ∈ (compareDatabases shared db1 db2).2 → ∃ n t1, db1.tables.get? n = some t1 ∧ db2.tables.get? n = some x.table) := by
  rw [compareDatabases_eq h1 h2, mem_concat_fst, mem_concat_snd]
  constructor
  · rintro (⟨m, u, hu, hv, h⟩ | ⟨m, u, hu, hv, h⟩ | ⟨m, u, v, hu, hv, h⟩)
    · simp at h; subst h; simp [Diff.kind] at hk
    · simp at h; subst h; simp [Diff.kind] at hk
    · have e := (table_of_mem_compareTables (tableKeyed_of_get? h1 hu) (tableKeyed_of_get? h2 hv)).1 x h
      exact ⟨m, v, by rw [e]; exact hu, hv⟩
  · rintro (⟨m, u, hu, hv, h⟩ | ⟨m, u, hu, hv, h⟩ | ⟨m, u, v, hu, hv, h⟩)
    · simp at h; subst h; simp [Diff.kind] at hk
    · simp at h; subst h; simp [Diff.kind] at hk
    · have e := (table_of_mem_compareTables (tableKeyed_of_get? h1 hu) (tableKeyed_of_get? h2 hv)).2 x h
      exact ⟨m, u, hu, by rw [e]; exact hv⟩

end Verif
