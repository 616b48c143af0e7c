import Verif.Lemmas.Dict
import Verif.Spec.WellFormed
/-
`WellKeyed` is decidable on concrete databases, and preserved by the API.
-/

namespace Verif
open Verif.Spec

/-- Decidable form of `WellKeyed`. -/
def WellKeyedD (db : Database) : Prop :=
  (db.tables.map Prod.fst).Nodup ∧ ∀ p ∈ db.tables, p.1 = p.2.name ∧
    (p.2.cols.map Prod.fst).Nodup ∧ (∀ q ∈ p.2.cols, q.1 = q.2.name) ∧
    (p.2.fks.map Prod.fst).Nodup ∧ (∀ q ∈ p.2.fks, q.1 = q.2.name) ∧
    (p.2.rels.map Prod.fst).Nodup ∧ (∀ q ∈ p.2.rels, q.1 = q.2.name)

instance (db : Database) : Decidable (WellKeyedD db) := by unfold WellKeyedD; infer_instance

theorem WellKeyedD.iff (db : Database) : WellKeyedD db ↔ WellKeyed db := by
  constructor
  · rintro ⟨h, h2⟩
    exact ⟨h, fun n t ht => (h2 _ ht).1, fun n t ht => (h2 _ ht).2.1, fun n t ht m c hc => (h2 _ ht).2.2.1 _ hc,
      fun n t ht => (h2 _ ht).2.2.2.1, fun n t ht m c hc => (h2 _ ht).2.2.2.2.1 _ hc,
      fun n t ht => (h2 _ ht).2.2.2.2.2.1, fun n t ht m c hc => (h2 _ ht).2.2.2.2.2.2 _ hc⟩
  · intro h
    exact ⟨h.tables, fun p hp => ⟨h.tableNames _ _ hp, h.cols _ _ hp, fun q hq => h.colNames _ _ hp _ _ hq,
      h.fks _ _ hp, fun q hq => h.fkNames _ _ hp _ _ hq, h.rels _ _ hp, fun q hq => h.relNames _ _ hp _ _ hq⟩⟩

instance (db : Database) : Decidable (WellKeyed db) := decidable_of_iff _ (WellKeyedD.iff db)

/-- The registries of one table are in order. -/
structure TableKeyed (t : Table) : Prop where
  cols : t.cols.keys.Nodup
  colNames : ∀ q ∈ t.cols, q.1 = q.2.name
  fks : t.fks.keys.Nodup
  fkNames : ∀ q ∈ t.fks, q.1 = q.2.name
  rels : t.rels.keys.Nodup
  relNames : ∀ q ∈ t.rels, q.1 = q.2.name

theorem wellKeyed_iff (db : Database) :
    WellKeyed db ↔ db.tables.keys.Nodup ∧ (∀ p ∈ db.tables, p.1 = p.2.name) ∧ ∀ p ∈ db.tables, TableKeyed p.2 := by
  constructor
  · intro h
    exact ⟨h.tables, fun p hp => h.tableNames _ _ hp, fun p hp => ⟨h.cols _ _ hp, fun q hq => h.colNames _ _ hp _ _ hq,
      h.fks _ _ hp, fun q hq => h.fkNames _ _ hp _ _ hq, h.rels _ _ hp, fun q hq => h.relNames _ _ hp _ _ hq⟩⟩
  · rintro ⟨h1, h2, h3⟩
    exact ⟨h1, fun n t ht => h2 _ ht, fun n t ht => (h3 _ ht).cols, fun n t ht m c hc => (h3 _ ht).colNames _ hc,
      fun n t ht => (h3 _ ht).fks, fun n t ht m c hc => (h3 _ ht).fkNames _ hc,
      fun n t ht => (h3 _ ht).rels, fun n t ht m c hc => (h3 _ ht).relNames _ hc⟩

theorem TableKeyed.addColumn {t : Table} (h : TableKeyed t) (c : Column) : TableKeyed (t.addColumn c) :=
  ⟨Dict.nodup_set h.cols _ _, fun q hq => (Dict.mem_set_of hq).elim (fun e => by rw [e]) (h.colNames q),
   h.fks, h.fkNames, h.rels, h.relNames⟩

theorem TableKeyed.addForeignKeyObj {t : Table} (h : TableKeyed t) (k : FK) : TableKeyed (t.addForeignKeyObj k) :=
  ⟨h.cols, h.colNames, Dict.nodup_set h.fks _ _,
   fun q hq => (Dict.mem_set_of hq).elim (fun e => by rw [e]) (h.fkNames q), h.rels, h.relNames⟩

theorem TableKeyed.addRelationshipObj {t : Table} (h : TableKeyed t) (r : Rel) : TableKeyed (t.addRelationshipObj r) :=
  ⟨h.cols, h.colNames, h.fks, h.fkNames, Dict.nodup_set h.rels _ _,
   fun q hq => (Dict.mem_set_of hq).elim (fun e => by rw [e]) (h.relNames q)⟩

theorem TableKeyed.dropColumn {t : Table} (h : TableKeyed t) (n : Str) : TableKeyed (t.dropColumn n).1 :=
  ⟨Dict.nodup_erase h.cols _, fun q hq => h.colNames q (Dict.mem_of_mem_erase hq), h.fks, h.fkNames, h.rels, h.relNames⟩

theorem Spec.WellKeyed.addTable {db : Database} (h : WellKeyed db) {t : Table} (ht : TableKeyed t) :
    WellKeyed (db.addTable t) := by
  rw [wellKeyed_iff] at h ⊢
  refine ⟨Dict.nodup_set h.1 _ _, fun p hp => ?_, fun p hp => ?_⟩
  · rcases Dict.mem_set_of hp with rfl | hp
    · rfl
    · exact h.2.1 p hp
  · rcases Dict.mem_set_of hp with rfl | hp
    · exact ht
    · exact h.2.2 p hp

theorem wellKeyed_empty (n : Str) : WellKeyed (Database.empty n) := by
  rw [wellKeyed_iff]; simp [Database.empty]

theorem keys_updateTable (db : Database) (n : Str) (f : Table → Table) :
    (db.updateTable n f).tables.keys = db.tables.keys := by
  simp only [Database.updateTable, Dict.keys, List.map_map]
  apply List.map_congr_left
  intro p _
  simp only [Function.comp]
  split <;> rfl

theorem mem_updateTable {db : Database} {n : Str} {f : Table → Table} {p : Str × Table}
    (hp : p ∈ (db.updateTable n f).tables) :
    ∃ q ∈ db.tables, p.1 = q.1 ∧ (p.1 = n ∧ p.2 = f q.2 ∨ p.1 ≠ n ∧ p.2 = q.2) := by
  simp only [Database.updateTable, List.mem_map] at hp
  obtain ⟨q, hq, rfl⟩ := hp
  refine ⟨q, hq, ?_⟩
  by_cases h : q.1 = n <;> simp [h]

theorem Spec.WellKeyed.updateTable {db : Database} (h : WellKeyed db) {n : Str} {f : Table → Table}
    (hf : ∀ t, (n, t) ∈ db.tables → TableKeyed t → TableKeyed (f t) ∧ (f t).name = t.name) :
    WellKeyed (db.updateTable n f) := by
  rw [wellKeyed_iff] at h ⊢
  refine ⟨by rw [keys_updateTable]; exact h.1, fun p hp => ?_, fun p hp => ?_⟩
  · obtain ⟨q, hq, e, h1 | h1⟩ := mem_updateTable hp
    · have hq' : (n, q.2) ∈ db.tables := by rw [← h1.1, e]; exact hq
      rw [h1.2, (hf q.2 hq' (h.2.2 q hq)).2, e]; exact h.2.1 q hq
    · rw [h1.2, e]; exact h.2.1 q hq
  · obtain ⟨q, hq, e, h1 | h1⟩ := mem_updateTable hp
    · have hq' : (n, q.2) ∈ db.tables := by rw [← h1.1, e]; exact hq
      rw [h1.2]; exact (hf q.2 hq' (h.2.2 q hq)).1
    · rw [h1.2]; exact h.2.2 q hq

end Verif
