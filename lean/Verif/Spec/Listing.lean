import Verif.Spec.WellFormed
/-
Specification for the listing of ddldiff: what can differ between two databases, and the line that says so.
-/

namespace Verif.Spec
open Verif

/-- The kinds of differences. -/
inductive Change where
  | tableCreated | tableDropped | columnAdded | columnDropped | columnModified | keyAdded | keyDropped | hashAdded | hashDropped | foreignAdded | foreignDropped
  | relationshipAdded | relationshipDropped
deriving DecidableEq, Repr

/-- The number and the name of a kind. -/
def Change.text : Change → Str
  | .tableCreated => c!" (0): Table Created"
  | .tableDropped => c!" (1): Table Dropped"
  | .columnAdded => c!" (10): Column Added"
  | .columnDropped => c!" (11): Column Dropped"
  | .columnModified => c!" (12): Column Modified"
  | .keyAdded => c!" (20): Primary Key Added"
  | .keyDropped => c!" (21): Primary Key Dropped"
  | .hashAdded => c!" (30): Hash Key Added"
  | .hashDropped => c!" (31): Hash Key Dropped"
  | .foreignAdded => c!" (40): Foreign Key Added"
  | .foreignDropped => c!" (41): Foreign Key Dropped"
  | .relationshipAdded => c!" (50): Generic Relationship Added"
  | .relationshipDropped => c!" (51): Generic Relationship Dropped"

/-- The line for a change of the table `n`. -/
def changeLine (database schema n : Str) (k : Change) : Str := database ++ ('.' :: schema) ++ ('.' :: n) ++ k.text

/-- Two tables differ in this way: the second has something the first lacks, or the other way round.  What has changed counts as dropped and added. -/
def TablesDiffer (t1 t2 : Table) : Change → Prop
  | .tableCreated | .tableDropped => False
  | .columnAdded => ∃ m c, ColumnOf t2 m c ∧ ¬ ∃ c', ColumnOf t1 m c'
  | .columnDropped => ∃ m c, ColumnOf t1 m c ∧ ¬ ∃ c', ColumnOf t2 m c'
  | .columnModified => ∃ m c c', ColumnOf t1 m c ∧ ColumnOf t2 m c' ∧ c.type ≠ c'.type
  | .keyAdded => t1.pk ≠ t2.pk ∧ t2.pk ≠ []
  | .keyDropped => t1.pk ≠ t2.pk ∧ t1.pk ≠ []
  | .hashAdded => t1.shard ≠ t2.shard ∧ t2.shard ≠ none
  | .hashDropped => t1.shard ≠ none ∧ t2.shard = none
  | .foreignAdded => ∃ m k, (m, k) ∈ t2.fks ∧ (m, k) ∉ t1.fks
  | .foreignDropped => ∃ m k, (m, k) ∈ t1.fks ∧ (m, k) ∉ t2.fks
  | .relationshipAdded => ∃ m r, (m, r) ∈ t2.rels ∧ (m, r) ∉ t1.rels
  | .relationshipDropped => ∃ m r, (m, r) ∈ t1.rels ∧ (m, r) ∉ t2.rels

/-- The first database has to change in this way to become the second. -/
def MustChange (db1 db2 : Database) (n : Str) : Change → Prop
  | .tableCreated => (∃ t, TableOf db2 n t) ∧ ¬ ∃ t, TableOf db1 n t
  | .tableDropped => (∃ t, TableOf db1 n t) ∧ ¬ ∃ t, TableOf db2 n t
  | k => ∃ t1 t2, TableOf db1 n t1 ∧ TableOf db2 n t2 ∧ TablesDiffer t1 t2 k

/-- How many changes of a kind turn the first table into the second. -/
def tableChanges (t1 t2 : Table) : Change → Nat
  | .tableCreated | .tableDropped => 0
  | .columnAdded => (t2.cols.filter (fun p => p.1 ∉ t1.cols.map Prod.fst)).length
  | .columnDropped => (t1.cols.filter (fun p => p.1 ∉ t2.cols.map Prod.fst)).length
  | .columnModified => (t2.cols.filter (fun p => ∃ q ∈ t1.cols, q.1 = p.1 ∧ q.2.type ≠ p.2.type)).length
  | .keyAdded => if t1.pk ≠ t2.pk ∧ t2.pk ≠ [] then 1 else 0
  | .keyDropped => if t1.pk ≠ t2.pk ∧ t1.pk ≠ [] then 1 else 0
  | .hashAdded => if t1.shard ≠ t2.shard ∧ t2.shard ≠ none then 1 else 0
  | .hashDropped => if t1.shard ≠ none ∧ t2.shard = none then 1 else 0
  | .foreignAdded => (t2.fks.filter (fun p => p ∉ t1.fks)).length
  | .foreignDropped => (t1.fks.filter (fun p => p ∉ t2.fks)).length
  | .relationshipAdded => (t2.rels.filter (fun p => p ∉ t1.rels)).length
  | .relationshipDropped => (t1.rels.filter (fun p => p ∉ t2.rels)).length

end Verif.Spec
