import Verif.Diff
import Verif.Lemmas.Order
import Verif.Lemmas.Dict
import Verif.Lemmas.Merge
import Verif.Lemmas.Compare
import Verif.Lemmas.WellKeyed
import Verif.Spec.WellFormed
/-
C111: the order of tables, columns, keys and relationships in a comparison.
-/

namespace Verif.Props
open Verif Verif.Spec

/-- The same entries in another order are found in the same way. -/
theorem get?_of_perm {α : Type} {d d' : Dict α} (h : d.Perm d') (hd : d.keys.Nodup) (k : Str) : d.get? k = d'.get? k := by
  have hd' : d'.keys.Nodup := (h.map Prod.fst).nodup_iff.1 hd
  cases e : d.get? k with
  | some v => exact ((Dict.mem_iff_get? hd').1 (h.mem_iff.1 ((Dict.mem_iff_get? hd).2 e))).symm
  | none =>
    cases e' : d'.get? k with
    | none => rfl
    | some v =>
      have := (Dict.mem_iff_get? hd).1 (h.mem_iff.2 ((Dict.mem_iff_get? hd').2 e'))
      rw [e] at this
      cases this

theorem sort_of_perm {α : Type} {d d' : Dict α} (h : d.Perm d') : sortStr d.keys = sortStr d'.keys := (sortStr_eq_iff _ _).2 (h.map Prod.fst)

/-- C111: the differences reported are the same, in the same order, whatever the order of the tables in the two databases. -/
theorem C111_tables (shared : Str → Bool) (db1 db2 db1' db2' : Database) (h1 : WellKeyed db1) (h2 : WellKeyed db2) (n1 : db1'.name = db1.name) (n2 : db2'.name = db2.name)
    (p1 : db1.tables.Perm db1'.tables) (p2 : db2.tables.Perm db2'.tables) : compareDatabases shared db1' db2' = compareDatabases shared db1 db2 := by
  unfold compareDatabases Database.tableNames
  have g1 : ∀ n, db1'.getTable n = db1.getTable n := fun n => (get?_of_perm p1 h1.tables n).symm
  have g2 : ∀ n, db2'.getTable n = db2.getTable n := fun n => (get?_of_perm p2 h2.tables n).symm
  simp only [g1, g2, n1, n2, sort_of_perm p1, sort_of_perm p2]

/-- The same table with its columns, foreign keys and relationships in another order. -/
structure Reordered (t t' : Table) : Prop where
  name : t'.name = t.name
  schema : t'.schema = t.schema
  pk : t'.pk = t.pk
  shard : t'.shard = t.shard
  cols : t.cols.Perm t'.cols
  fks : t.fks.Perm t'.fks
  rels : t.rels.Perm t'.rels

/-- The statements of two lists of differences. -/
def alters (fr : Rat → Str) (d : Diffs) : List (Except PyErr Str) × List (Except PyErr Str) :=
  (d.1.map (Diff.getAlter fr), d.2.map (Diff.getAlter fr))

theorem alters_append (fr : Rat → Str) {a a' b b' : Diffs} (h1 : alters fr a = alters fr a') (h2 : alters fr b = alters fr b') :
    alters fr (a.append b) = alters fr (a'.append b') := by
  simp only [alters, Prod.mk.injEq] at h1 h2
  simp [alters, Diffs.append, h1, h2]

theorem alters_concat (fr : Rat → Str) {f f' : Str → Diffs} (h : ∀ n, alters fr (f n) = alters fr (f' n)) (l : List Str) :
    alters fr (Diffs.concat f l) = alters fr (Diffs.concat f' l) := by
  induction l with
  | nil => rfl
  | cons a l ih => exact alters_append fr (h a) ih

theorem alters_mergeStep (fr : Rat → Str) {f f' g g' h h' : Str → Diffs} (hf : ∀ n, alters fr (f n) = alters fr (f' n))
    (hg : ∀ n, alters fr (g n) = alters fr (g' n)) (hh : ∀ n, alters fr (h n) = alters fr (h' n)) (a : Str) {o o' : Diffs}
    (ho : alters fr o = alters fr o') {r r' : List Str → Diffs} (hr : ∀ l, alters fr (r l) = alters fr (r' l)) (l : List Str) :
    alters fr (mergeStep f g h a o r l) = alters fr (mergeStep f' g' h' a o' r' l) := by
  induction l with
  | nil => exact ho
  | cons b l ih =>
    simp only [mergeStep]
    split
    · exact alters_append fr (hf a) (hr _)
    · split
      · exact alters_append fr (hg b) ih
      · exact alters_append fr (hh a) (hr _)

theorem alters_mergeLoop (fr : Rat → Str) {f f' g g' h h' : Str → Diffs} (hf : ∀ n, alters fr (f n) = alters fr (f' n))
    (hg : ∀ n, alters fr (g n) = alters fr (g' n)) (hh : ∀ n, alters fr (h n) = alters fr (h' n)) (l1 l2 : List Str) :
    alters fr (mergeLoop f g h l1 l2) = alters fr (mergeLoop f' g' h' l1 l2) := by
  induction l1 generalizing l2 with
  | nil => exact alters_concat fr hg l2
  | cons a l1 ih => exact alters_mergeStep fr hf hg hh a (alters_concat fr hf _) ih l2

/-- C111: for two tables present on both sides, the statements written for either side are the same, in the same order,
whatever the order of the columns, foreign keys and relationships in the two tables. -/
theorem C111_inside (fr : Rat → Str) (same : Bool) (d1 d2 : Str) (t1 t2 t1' t2' : Table) (r1 : Reordered t1 t1') (r2 : Reordered t2 t2')
    (c1 : t1.cols.keys.Nodup) (c2 : t2.cols.keys.Nodup) (f1 : t1.fks.keys.Nodup) (f2 : t2.fks.keys.Nodup)
    (e1 : t1.rels.keys.Nodup) (e2 : t2.rels.keys.Nodup) :
    (compareTables same d1 t1' d2 t2').1.map (Diff.getAlter fr) = (compareTables same d1 t1 d2 t2).1.map (Diff.getAlter fr) ∧
    (compareTables same d1 t1' d2 t2').2.map (Diff.getAlter fr) = (compareTables same d1 t1 d2 t2).2.map (Diff.getAlter fr) := by
  suffices h : alters fr (compareTables same d1 t1' d2 t2') = alters fr (compareTables same d1 t1 d2 t2) from Prod.mk.inj h
  have n1 := r1.name
  have n2 := r2.name
  have s1 := r1.schema
  have s2 := r2.schema
  have a1 : alterPrefix {} t1' = alterPrefix {} t1 := by simp [alterPrefix, n1, s1]
  have a2 : alterPrefix {} t2' = alterPrefix {} t2 := by simp [alterPrefix, n2, s2]
  refine alters_append fr (alters_append fr (alters_append fr (alters_append fr ?_ ?_) ?_) ?_) ?_
  · unfold comparePrimaryKeys
    rw [r1.pk, r2.pk]
    repeat' split
    all_goals simp [alters, Diff.getAlter, genAddPrimaryKey, genDropPrimaryKey, n1, n2, s1, s2, a1, a2]
  · unfold compareShardKeys
    rw [r1.shard, r2.shard]
    cases t1.shard <;> cases t2.shard <;> cases same <;>
      simp [alters, Diff.getAlter, genAddHashKey, genDropHashKey, n1, n2, s1, s2, a1, a2]
  · unfold compareForeignKeys Table.getForeignKey
    rw [← sort_of_perm r1.fks, ← sort_of_perm r2.fks]
    simp only [← get?_of_perm r1.fks f1, ← get?_of_perm r2.fks f2]
    apply alters_mergeLoop <;> intro n
    all_goals cases t1.fks.get? n <;> cases t2.fks.get? n <;> simp only [withObj] <;> (try split) <;>
      simp [alters, Diff.getAlter, genAddForeignKey, genDropConstraint, n1, n2, s1, s2, a1, a2]
  · unfold compareRelationships Table.getRelationship
    rw [← sort_of_perm r1.rels, ← sort_of_perm r2.rels]
    simp only [← get?_of_perm r1.rels e1, ← get?_of_perm r2.rels e2]
    apply alters_mergeLoop <;> intro n
    all_goals cases t1.rels.get? n <;> cases t2.rels.get? n <;> simp only [withObj] <;> (try split) <;>
      simp [alters, Diff.getAlter, genAddRelationship, genDropConstraint, n1, n2, s1, s2, a1, a2]
  · unfold compareColumns Table.getColumn
    simp only [Verif.columnNames_eq]
    rw [← sort_of_perm r1.cols, ← sort_of_perm r2.cols]
    simp only [← get?_of_perm r1.cols c1, ← get?_of_perm r2.cols c2]
    apply alters_mergeLoop <;> intro n
    all_goals cases t1.cols.get? n <;> cases t2.cols.get? n <;> simp only [withObj] <;> (try split) <;>
      simp [alters, Diff.getAlter, genAddColumn, genDropColumn, genModifyColumn, n1, n2, s1, s2, a1, a2]

/-- The same database with its tables, and what is in them, in another order. -/
structure ReorderedDb (db db' : Database) : Prop where
  name : db'.name = db.name
  tables : (db.tables.map Prod.fst).Perm (db'.tables.map Prod.fst)
  inside : ∀ n t t', TableOf db n t → TableOf db' n t' → Reordered t t'

theorem ReorderedDb.get? {db db' : Database} (r : ReorderedDb db db') (n : Str) :
    (db.tables.get? n = none ∧ db'.tables.get? n = none) ∨
    ∃ t t', db.tables.get? n = some t ∧ db'.tables.get? n = some t' ∧ Reordered t t' := by
  have h : n ∈ db.tables.keys ↔ n ∈ db'.tables.keys := r.tables.mem_iff
  rw [← Dict.get?_isSome_iff, ← Dict.get?_isSome_iff] at h
  cases e : db.tables.get? n with
  | none =>
    cases e' : db'.tables.get? n with
    | none => exact .inl ⟨rfl, rfl⟩
    | some t' => rw [e, e'] at h; exact absurd (h.2 rfl) (by simp)
  | some t =>
    cases e' : db'.tables.get? n with
    | none => rw [e, e'] at h; exact absurd (h.1 rfl) (by simp)
    | some t' => exact .inr ⟨t, t', rfl, rfl, r.inside n t t' (Dict.mem_of_get? e) (Dict.mem_of_get? e')⟩

/-- C111: the two scripts of ALTER statements are the same text whatever the order of the tables, columns, foreign keys and
relationships, if the tables that are on one side only list their columns as before. -/
theorem C111_scripts (fr : Rat → Str) (shared : Str → Bool) (db1 db2 db1' db2' : Database) (w1 : WellKeyed db1) (w2 : WellKeyed db2)
    (w1' : WellKeyed db1') (w2' : WellKeyed db2') (r1 : ReorderedDb db1 db1') (r2 : ReorderedDb db2 db2')
    (o1 : ∀ n t, TableOf db1 n t → (∀ u, ¬ TableOf db2 n u) → TableOf db1' n t)
    (o2 : ∀ n t, TableOf db2 n t → (∀ u, ¬ TableOf db1 n u) → TableOf db2' n t) :
    writeAlters fr (compareDatabases shared db1' db2').1 = writeAlters fr (compareDatabases shared db1 db2).1 ∧
    writeAlters fr (compareDatabases shared db1' db2').2 = writeAlters fr (compareDatabases shared db1 db2).2 := by
  suffices h : alters fr (compareDatabases shared db1' db2') = alters fr (compareDatabases shared db1 db2) by
    have := Prod.mk.inj h
    exact ⟨congrArg writeAll this.1, congrArg writeAll this.2⟩
  have k1 : sortStr db1'.tables.keys = sortStr db1.tables.keys := (sortStr_eq_iff _ _).2 r1.tables.symm
  have k2 : sortStr db2'.tables.keys = sortStr db2.tables.keys := (sortStr_eq_iff _ _).2 r2.tables.symm
  rw [compareDatabases_eq w1' w2', compareDatabases_eq w1 w2, allNames, allNames, k1, k2]
  apply alters_concat
  intro n
  unfold dictPick
  rcases r1.get? n with ⟨a, a'⟩ | ⟨t, t', a, a', rt⟩ <;> rcases r2.get? n with ⟨b, b'⟩ | ⟨u, u', b, b', ru⟩ <;>
    simp only [a, a', b, b', r1.name, r2.name]
  · have := (Dict.mem_iff_get? w2'.tables).1 (o2 n u (Dict.mem_of_get? b) (fun x hx => by
      have := (Dict.mem_iff_get? w1.tables).1 hx
      rw [a] at this
      cases this))
    rw [b'] at this
    cases this
    rfl
  · have := (Dict.mem_iff_get? w1'.tables).1 (o1 n t (Dict.mem_of_get? a) (fun x hx => by
      have := (Dict.mem_iff_get? w2.tables).1 hx
      rw [b] at this
      cases this))
    rw [a'] at this
    cases this
    rfl
  · rw [rt.name]
    have ht := Dict.mem_of_get? a
    have hu := Dict.mem_of_get? b
    have := C111_inside fr (shared t.name) db1.name db2.name t u t' u' rt ru (w1.cols n t ht) (w2.cols n u hu) (w1.fks n t ht) (w2.fks n u hu)
      (w1.rels n t ht) (w2.rels n u hu)
    exact Prod.ext this.1 this.2

/-- Two columns in the other order, a column retyped and another added: the same three statements. -/
def orderedTable : Table := (Table.addColumn (Table.addColumn ⟨c!"t", c!"s", [], none, [], [], []⟩ ⟨c!"a", c!"INT"⟩) ⟨c!"b", c!"INT"⟩)
/-- See above. -/
def turnedTable : Table := (Table.addColumn (Table.addColumn ⟨c!"t", c!"s", [], none, [], [], []⟩ ⟨c!"b", c!"INT"⟩) ⟨c!"a", c!"INT"⟩)
/-- See above. -/
def widerTable : Table := (Table.addColumn (Table.addColumn ⟨c!"t", c!"s", [], none, [], [], []⟩ ⟨c!"c", c!"INT"⟩) ⟨c!"a", c!"BIGINT"⟩)

example : Reordered orderedTable turnedTable ∧ orderedTable ≠ turnedTable ∧ orderedTable.cols.keys.Nodup ∧ widerTable.cols.keys.Nodup ∧
    (compareTables false c!"d" turnedTable c!"d" widerTable).1.length = 3 ∧
    (compareTables false c!"d" turnedTable c!"d" widerTable).1.map (Diff.getAlter (fun _ => [])) =
      (compareTables false c!"d" orderedTable c!"d" widerTable).1.map (Diff.getAlter (fun _ => [])) :=
  ⟨⟨rfl, rfl, rfl, rfl, .swap _ _ _, .nil, .nil⟩, by decide, by decide, by decide, by decide, by decide⟩

/-- Of a table that is on one side only the order does matter: CREATE TABLE lists the columns as they stand. -/
example : Diff.getAlter (fun _ => []) (.tableCreated c!"d" orderedTable) ≠ Diff.getAlter (fun _ => []) (.tableCreated c!"d" turnedTable) := by decide

/-- Tables in the other order: the databases differ, the four differences are the same. -/
example :
    let x : Table := ⟨c!"x", c!"s", [], none, [], [], []⟩
    let db := ((Database.empty c!"d").addTable orderedTable).addTable x
    let db' := ((Database.empty c!"d").addTable x).addTable orderedTable
    let w := (Database.empty c!"e").addTable widerTable
    WellKeyed db ∧ WellKeyed w ∧ db.tables.Perm db'.tables ∧ db ≠ db' ∧ (compareDatabases (fun _ => false) db w).1.length = 4 ∧
      compareDatabases (fun _ => false) db' w = compareDatabases (fun _ => false) db w :=
  ⟨by decide, by decide, .swap _ _ _, by decide, by decide, by decide⟩

/-- Tables and columns in the other order, and a table that is on one side only: the same script of four statements. -/
example :
    let x : Table := ⟨c!"x", c!"s", [], none, [], [], []⟩
    let db := ((Database.empty c!"d").addTable orderedTable).addTable x
    let db' := ((Database.empty c!"d").addTable x).addTable turnedTable
    let w := (Database.empty c!"e").addTable widerTable
    WellKeyed db ∧ WellKeyed db' ∧ WellKeyed w ∧ ReorderedDb db db' ∧ db ≠ db' ∧ (writeAlters (fun _ => []) (compareDatabases (fun _ => false) db w).1).2 = none ∧
      (compareDatabases (fun _ => false) db' w).1 ≠ (compareDatabases (fun _ => false) db w).1 ∧
      writeAlters (fun _ => []) (compareDatabases (fun _ => false) db' w).1 = writeAlters (fun _ => []) (compareDatabases (fun _ => false) db w).1 := by
  refine ⟨by decide, by decide, by decide, ⟨rfl, .swap _ _ _, ?_⟩, by decide, by decide, by decide, by decide⟩
  intro n t t' h h'
  have h : (n, t) ∈ [(c!"t", orderedTable), (c!"x", (⟨c!"x", c!"s", [], none, [], [], []⟩ : Table))] := h
  have h' : (n, t') ∈ [(c!"x", (⟨c!"x", c!"s", [], none, [], [], []⟩ : Table)), (c!"t", turnedTable)] := h'
  simp only [List.mem_cons, List.not_mem_nil, or_false, Prod.mk.injEq] at h h'
  rcases h with ⟨rfl, rfl⟩ | ⟨rfl, rfl⟩ <;> rcases h' with ⟨e, rfl⟩ | ⟨e, rfl⟩
  · exact absurd e (by decide)
  · exact ⟨rfl, rfl, rfl, rfl, .swap _ _ _, .nil, .nil⟩
  · exact ⟨rfl, rfl, rfl, rfl, .nil, .nil, .nil⟩
  · exact absurd e (by decide)

end Verif.Props
