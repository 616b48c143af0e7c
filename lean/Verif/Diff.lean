import Verif.Generator
/-
Model of dt/diff.py (lines 25-902): database differences, their comparison and the ALTER script writer.
-/

namespace Verif

/-- The `DatabaseDifference` subclasses (dt/diff.py:120-533) with the fields their constructors store.  `db` is the
name of `self.database`, `table` is `self.table`. -/
inductive Diff where
  | tableCreated (db : Str) (table : Table)
  | tableDropped (db : Str) (table : Table)
  | pkAdded (db : Str) (table : Table) (pk : List Str)
  | pkDropped (db : Str) (table : Table)
  | shardAdded (db : Str) (table : Table) (number : ShardCount) (keys : List Str)
  | shardDropped (db : Str) (table : Table)
  | fkAdded (db : Str) (table : Table) (fk : FK)
  | fkDropped (db : Str) (table : Table) (name : Str)
  | relAdded (db : Str) (table : Table) (rel : Rel)
  | relDropped (db : Str) (table : Table) (name : Str)
  | colAdded (db : Str) (table : Table) (col : Column)
  | colDropped (db : Str) (table : Table) (col : Column)
  | colModified (db : Str) (table : Table) (col : Column)
deriving DecidableEq, Repr

/-- The two difference lists `diff1`, `diff2` that the comparison appends to (dt/diff.py:558-559). -/
abbrev Diffs := List Diff × List Diff

/-- Appending to both lists. -/
def Diffs.append (a b : Diffs) : Diffs := (a.1 ++ b.1, a.2 ++ b.2)

/-- Appending the results for a list of names, in order. -/
def Diffs.concat (f : Str → Diffs) : List Str → Diffs
  | [] => ([], [])
  | n :: ns => (f n).append (Diffs.concat f ns)

/-- `a < b` on Python strings (dt/diff.py:568). -/
def strLt (a b : Str) : Bool := !strLe b a

/-- Inner part of the merge loop: the first name list has head `a`; `rest` continues with its tail. -/
def mergeStep (only1 only2 both : Str → Diffs) (a : Str) (leftover1 : Diffs) (rest : List Str → Diffs) :
    List Str → Diffs
  | [] => leftover1
  | b :: t2 =>
    if strLt a b then (only1 a).append (rest (b :: t2))
    else if strLt b a then (only2 b).append (mergeStep only1 only2 both a leftover1 rest t2)
    else (both a).append (rest t2)

/-- The two-pointer merge over two sorted name lists, followed by the two loops for the left-over names.  The same code
stands in dt/diff.py:567-598 (tables), 724-757 (foreign keys), 781-821 (relationships) and 846-876 (columns).  The
remaining suffixes of the lists stand for the counters `cnt1`, `cnt2`. -/
def mergeLoop (only1 only2 both : Str → Diffs) : List Str → List Str → Diffs
  | [], l2 => Diffs.concat only2 l2
  | a :: t1, l2 =>
    mergeStep only1 only2 both a (Diffs.concat only1 (a :: t1)) (mergeLoop only1 only2 both t1) l2

/-- Both sides of a lookup by a name taken from the same dictionary; the missing case cannot occur. -/
def withObj {α : Type} (o : Option α) (f : α → Diffs) : Diffs :=
  match o with
  | some x => f x
  | none => ([], [])

/-- `_compare_primary_keys` (dt/diff.py:627-661). -/
def comparePrimaryKeys (db1 : Str) (t1 : Table) (db2 : Str) (t2 : Table) : Diffs :=
  if t1.pk ≠ t2.pk then
    if t1.pk = [] ∧ t2.pk ≠ [] then ([.pkAdded db1 t1 t2.pk], [.pkDropped db2 t2])
    else if t1.pk ≠ [] ∧ t2.pk = [] then ([.pkDropped db1 t1], [.pkAdded db2 t2 t1.pk])
    else ([.pkDropped db1 t1, .pkAdded db1 t1 t2.pk], [.pkDropped db2 t2, .pkAdded db2 t2 t1.pk])
  else ([], [])

/-- `_compare_shard_keys` (dt/diff.py:664-701).  `ShardKey` has no `__eq__`, so `sk1 != sk2` compares identity; `same`
says whether the two tables hold the same `ShardKey` object. -/
def compareShardKeys (same : Bool) (db1 : Str) (t1 : Table) (db2 : Str) (t2 : Table) : Diffs :=
  match t1.shard, t2.shard with
  | none, none => ([], [])
  | none, some s2 => ([.shardAdded db1 t1 s2.number s2.keys], [.shardDropped db2 t2])
  | some s1, none => ([.shardDropped db1 t1], [.shardAdded db2 t2 s1.number s1.keys])
  | some s1, some s2 =>
    if same then ([], [])
    else ([.shardAdded db1 t1 s2.number s2.keys], [.shardAdded db2 t2 s1.number s1.keys])

/-- `_compare_foreign_keys` (dt/diff.py:704-757). -/
def compareForeignKeys (db1 : Str) (t1 : Table) (db2 : Str) (t2 : Table) : Diffs :=
  mergeLoop
    (fun n => withObj (t1.getForeignKey n) fun fk => ([.fkDropped db1 t1 fk.name], [.fkAdded db2 t2 fk]))
    (fun n => withObj (t2.getForeignKey n) fun fk => ([.fkAdded db1 t1 fk], [.fkDropped db2 t2 fk.name]))
    (fun n => withObj (t1.getForeignKey n) fun fk1 => withObj (t2.getForeignKey n) fun fk2 =>
      if ¬ fk1.eq fk2 then
        ([.fkDropped db1 t1 fk1.name, .fkAdded db1 t1 fk2], [.fkDropped db2 t2 fk2.name, .fkAdded db2 t2 fk1])
      else ([], []))
    (sortStr t1.fks.keys) (sortStr t2.fks.keys)

/-- `_compare_relationships` (dt/diff.py:760-821). -/
def compareRelationships (db1 : Str) (t1 : Table) (db2 : Str) (t2 : Table) : Diffs :=
  mergeLoop
    (fun n => withObj (t1.getRelationship n) fun r => ([.relDropped db1 t1 r.name], [.relAdded db2 t2 r]))
    (fun n => withObj (t2.getRelationship n) fun r => ([.relAdded db1 t1 r], [.relDropped db2 t2 r.name]))
    (fun n => withObj (t1.getRelationship n) fun r1 => withObj (t2.getRelationship n) fun r2 =>
      if ¬ r1.eq r2 then
        ([.relDropped db1 t1 r1.name, .relAdded db1 t1 r2], [.relDropped db2 t2 r2.name, .relAdded db2 t2 r1])
      else ([], []))
    (sortStr t1.rels.keys) (sortStr t2.rels.keys)

/-- `_compare_columns` (dt/diff.py:824-876). -/
def compareColumns (db1 : Str) (t1 : Table) (db2 : Str) (t2 : Table) : Diffs :=
  mergeLoop
    (fun n => withObj (t1.getColumn n) fun c => ([.colDropped db1 t1 c], [.colAdded db2 t2 c]))
    (fun n => withObj (t2.getColumn n) fun c => ([.colAdded db1 t1 c], [.colDropped db2 t2 c]))
    (fun n => withObj (t1.getColumn n) fun c1 => withObj (t2.getColumn n) fun c2 =>
      if c1.type ≠ c2.type then ([.colModified db1 t1 c2], [.colModified db2 t2 c1]) else ([], []))
    (sortStr t1.columnNames) (sortStr t2.columnNames)

/-- `_compare_tables` (dt/diff.py:603-624). -/
def compareTables (same : Bool) (db1 : Str) (t1 : Table) (db2 : Str) (t2 : Table) : Diffs :=
  (((((comparePrimaryKeys db1 t1 db2 t2)
    |>.append (compareShardKeys same db1 t1 db2 t2))
    |>.append (compareForeignKeys db1 t1 db2 t2))
    |>.append (compareRelationships db1 t1 db2 t2))
    |>.append (compareColumns db1 t1 db2 t2))

/-- `DDLCompare.compare_databases` (dt/diff.py:547-600).  `shared n` says whether the two tables called `n` share one
`ShardKey` object: always for `compare_databases(db, db)`, never for two separately parsed databases. -/
def compareDatabases (shared : Str → Bool) (db1 db2 : Database) : Diffs :=
  mergeLoop
    (fun n => withObj (db1.getTable n) fun t => ([.tableDropped db1.name t], [.tableCreated db2.name t]))
    (fun n => withObj (db2.getTable n) fun t => ([.tableCreated db1.name t], [.tableDropped db2.name t]))
    (fun n => withObj (db1.getTable n) fun t1 => withObj (db2.getTable n) fun t2 =>
      compareTables (shared n) db1.name t1 db2.name t2)
    (sortStr db1.tableNames) (sortStr db2.tableNames)

/-- The `get_alter` methods (dt/diff.py:143-149, 175-181, 204-210, 233-239, 267-273, 297-303, 328-334, 358-364, 390-396,
421-427, 456-462, 492-498, 527-533), with the default command generator of dt/diff.py:100. -/
def Diff.getAlter (floatRepr : Rat → Str) : Diff → Except PyErr Str
  | .tableCreated _ t => genCreateTable {} t
  | .tableDropped _ t => genDropTable {} t
  | .pkAdded _ t pk => genAddPrimaryKey {} t pk
  | .pkDropped _ t => genDropPrimaryKey {} t
  | .shardAdded _ t n k => genAddHashKey floatRepr {} t n k
  | .shardDropped _ t => genDropHashKey {} t
  | .fkAdded _ t fk => genAddForeignKey {} t fk
  | .fkDropped _ t n => genDropConstraint {} t n
  | .relAdded _ t r => genAddRelationship {} t r
  | .relDropped _ t n => genDropConstraint {} t n
  | .colAdded _ t c => genAddColumn {} t c
  | .colDropped _ t c => genDropColumn {} t c
  | .colModified _ t c => genModifyColumn {} t c

/-- `TQLAlterWriter.write_alters` (dt/diff.py:891-902). -/
def writeAlters (floatRepr : Rat → Str) (l : List Diff) : Output := writeAll (l.map (Diff.getAlter floatRepr))

end Verif
