import Verif.Py.Dict
/-
Model of dt/model.py, lines 29-908: columns, keys, tables, databases and their operations.
Worksheets (lines 913-1157) are in Verif/Worksheet.lean, the validator in Verif/Validator.lean.

Objects are values: two references to the same Python object are not distinguished here.
-/

namespace Verif

/-- `DatamodelConstants.DEFAULT_SCHEMA` (dt/model.py:33). -/
def defaultSchema : Str := c!"falcon_default_schema"

/-- `Column.VALID_TYPES` (dt/model.py:45-57). -/
def validTypes : List Str :=
  [c!"VARCHAR", c!"DOUBLE", c!"FLOAT", c!"BOOL", c!"INT", c!"BIGINT", c!"DATE", c!"DATETIME",
   c!"TIMESTAMP", c!"TIME", c!"UNKNOWN"]

/-- Instance state of `Column` (dt/model.py:38-75). -/
structure Column where
  name : Str
  type : Str
deriving DecidableEq, Repr

/-- `Column.__init__` (dt/model.py:59-75); `none` stands for Python's `None`. -/
def mkColumn (name type : Option Str) : Except PyErr Column :=
  match name, type with
  | none, _ => .error .assertion
  | some _, none => .error .assertion
  | some n, some t =>
    if ¬ validTypes.contains t ∧ ¬ startsWith t c!"VARCHAR" then .error .value
    else .ok { name := n, type := t }

/-- A key argument: one column name or a list of names (dt/model.py:103, 110, 198, 239, 331). -/
inductive KeyArg where
  | one (c : Str)
  | many (cs : List Str)
deriving DecidableEq, Repr

/-- The list a key argument is normalised to (dt/model.py:102-106, 109-113, 197-201, 237-242). -/
def KeyArg.toList : KeyArg → List Str
  | .one c => [] ++ [c]
  | .many cs => [] ++ cs

/-- Instance state of `ForeignKey` (dt/model.py:81-132). -/
structure FK where
  name : Str
  fromTable : Str
  fromKeys : List Str
  toTable : Str
  toKeys : List Str
deriving DecidableEq, Repr

/-- `ForeignKey.__init__` (dt/model.py:86-121). -/
def mkFK (fromTable : Option Str) (fromKeys : Option KeyArg) (toTable : Option Str) (toKeys : Option KeyArg)
    (name : Option Str) : Except PyErr FK :=
  match fromTable, fromKeys, toTable, toKeys with
  | some ft, some fk, some tt, some tk =>
    if ¬ fk.toList.length = tk.toList.length then .error .value
    else .ok
      { name := match name with
                | none => c!"FK_" ++ ft ++ c!"_to_" ++ tt
                | some n => n
        fromTable := ft, fromKeys := fk.toList, toTable := tt, toKeys := tk.toList }
  | _, _, _, _ => .error .assertion

/-- `ForeignKey.__eq__` (dt/model.py:123-132), which never looks at the other object's keys. -/
def FK.eq (a b : FK) : Bool :=
  a.name = b.name && a.fromTable = b.fromTable && sortStr a.fromKeys = sortStr a.toKeys &&
  a.toTable = b.toTable && sortStr a.toKeys = sortStr a.toKeys

/-- Instance state of `GenericRelationship` (dt/model.py:137-176). -/
structure Rel where
  name : Str
  fromTable : Str
  toTable : Str
  conditions : Str
deriving DecidableEq, Repr

/-- `GenericRelationship.__init__` (dt/model.py:142-164). -/
def mkRel (fromTable toTable conditions name : Option Str) : Except PyErr Rel :=
  match fromTable, toTable, conditions with
  | some ft, some tt, some c => .ok
      { name := match name with
                | none => c!"REL_" ++ ft ++ c!"_to_" ++ tt
                | some n => n
        fromTable := ft, toTable := tt, conditions := c }
  | _, _, _ => .error .assertion

/-- `GenericRelationship.__eq__` (dt/model.py:166-176). -/
def Rel.eq (a b : Rel) : Bool :=
  a.name = b.name && a.fromTable = b.fromTable && a.toTable = b.toTable && a.conditions = b.conditions

/-- An object handed to `add_foreign_key` or `add_relationship`; `isinstance` asks for its class (dt/model.py:360, 411). -/
inductive KeyObj where
  | fk (k : FK)
  | rel (r : Rel)
  | other
deriving DecidableEq, Repr

/-- What `ShardKey.number_shards` can hold (dt/model.py:203): an `int` (TQL, dt/io.py:474), a `float`
(numeric Excel cell, dt/io.py:1180) or a `str` (text Excel cell). -/
inductive ShardCount where
  | int (n : Int)
  | flt (q : Rat)
  | text (s : Str)
deriving DecidableEq, Repr

/-- Instance state of `ShardKey` (dt/model.py:181-203). -/
structure ShardKey where
  keys : List Str
  number : ShardCount
deriving DecidableEq, Repr

/-- `ShardKey.__init__` (dt/model.py:186-203). -/
def mkShardKey (keys : Option KeyArg) (number : Option ShardCount) : Except PyErr ShardKey :=
  match keys, number with
  | some k, some n => .ok { keys := k.toList, number := n }
  | _, _ => .error .assertion

/-- Instance state of `Table` (dt/model.py:209-249). -/
structure Table where
  name : Str
  schema : Str
  pk : List Str
  shard : Option ShardKey
  cols : Dict Column
  fks : Dict FK
  rels : Dict Rel
deriving DecidableEq, Repr

/-- `Table.__init__` (dt/model.py:214-249). The shard key argument is typed, so the `isinstance` assertion
of line 244 is not modelled. -/
def mkTable (name : Option Str) (schema : Option Str) (pk : Option KeyArg) (shard : Option ShardKey) :
    Except PyErr Table :=
  match name, schema with
  | some n, some s => .ok
      { name := n, schema := s
        pk := match pk with
              | none => []
              | some k => k.toList
        shard := shard, cols := [], fks := [], rels := [] }
  | _, _ => .error .assertion

namespace Table

/-- `Table.add_column` (dt/model.py:251-257). -/
def addColumn (t : Table) (c : Column) : Table := { t with cols := t.cols.set c.name c }

/-- `Table.add_columns` (dt/model.py:259-266). -/
def addColumns (t : Table) (cs : List Column) : Table := cs.foldl addColumn t

/-- `Table.drop_column` (dt/model.py:268-276): the new table and the returned column. -/
def dropColumn (t : Table) (n : Str) : Table × Option Column :=
  ({ t with cols := t.cols.erase n }, t.cols.get? n)

/-- `Table.has_column` (dt/model.py:278-285). -/
def hasColumn (t : Table) (n : Str) : Bool := t.cols.keys.contains n

/-- `Table.get_column` (dt/model.py:287-296). -/
def getColumn (t : Table) (n : Str) : Option Column := t.cols.get? n

/-- `Table.get_column_names` (dt/model.py:298-307). -/
def columnNames (t : Table) : List Str := t.cols.keys.foldl (fun acc n => acc ++ [n]) []

/-- `Table.number_columns` (dt/model.py:309-315). -/
def numberColumns (t : Table) : Nat := t.cols.length

/-- `Table.__iter__` (dt/model.py:317-322). -/
def iter (t : Table) : List Column := t.cols.vals

/-- `Table.set_primary_key` (dt/model.py:324-339). -/
def setPrimaryKey (t : Table) (pk : Option KeyArg) : Except PyErr Table :=
  match pk with
  | none => .error .assertion
  | some k => .ok { t with pk := k.toList }

/-- What can be handed to `set_primary_key` (dt/model.py:330-339): nothing, a name, a list of names, or something else (a tuple, say). -/
inductive PkArg where
  | none
  | key (k : KeyArg)
  | other
deriving DecidableEq, Repr

/-- `Table.set_primary_key` (dt/model.py:324-339) with the table it leaves, also if it raises: line 331 empties the key before the class of the
argument is looked at. -/
def setPrimaryKeyCall (t : Table) (pk : PkArg) : Table × Option PyErr :=
  match pk with
  | .none => (t, some .assertion)
  | .key k => ({ t with pk := k.toList }, none)
  | .other => ({ t with pk := [] }, some .value)

/-- `Table.add_foreign_key` with a `ForeignKey` object (dt/model.py:359-361). -/
def addForeignKeyObj (t : Table) (fk : FK) : Table := { t with fks := t.fks.set fk.name fk }

/-- `Table.add_foreign_key` with the details (dt/model.py:368-376). -/
def addForeignKey (t : Table) (fromKeys : Option KeyArg) (toTable : Option Str) (toKeys : Option KeyArg)
    (name : Option Str) : Except PyErr Table := do
  let fk ← mkFK (some t.name) fromKeys toTable toKeys name
  .ok (t.addForeignKeyObj fk)

/-- `Table.add_foreign_key` (dt/model.py:341-376) with an object and the details; the details count only without an object, and an object of
another class raises `ValueError` (dt/model.py:362-366). -/
def addForeignKeyArg (t : Table) (obj : Option KeyObj) (fromKeys : Option KeyArg) (toTable : Option Str) (toKeys : Option KeyArg)
    (name : Option Str) : Except PyErr Table :=
  match obj with
  | some (.fk k) => .ok (t.addForeignKeyObj k)
  | some _ => .error .value
  | none => t.addForeignKey fromKeys toTable toKeys name

/-- `Table.foreign_keys_iter` (dt/model.py:388-394). -/
def foreignKeysIter (t : Table) : List FK := t.fks.vals

/-- `Table.get_foreign_key` (dt/model.py:378-386). -/
def getForeignKey (t : Table) (n : Str) : Option FK := t.fks.get? n

/-- `Table.add_relationship` with a `GenericRelationship` object (dt/model.py:410-412). -/
def addRelationshipObj (t : Table) (r : Rel) : Table := { t with rels := t.rels.set r.name r }

/-- `Table.add_relationship` with the details (dt/model.py:419-426). -/
def addRelationship (t : Table) (toTable name conditions : Option Str) : Except PyErr Table := do
  let r ← mkRel (some t.name) toTable conditions name
  .ok (t.addRelationshipObj r)

/-- `Table.add_relationship` (dt/model.py:398-426) with an object and the details; an object of another class raises `ValueError`
(dt/model.py:413-417). -/
def addRelationshipArg (t : Table) (obj : Option KeyObj) (toTable name conditions : Option Str) : Except PyErr Table :=
  match obj with
  | some (.rel r) => .ok (t.addRelationshipObj r)
  | some _ => .error .value
  | none => t.addRelationship toTable name conditions

/-- `Table.relationships_iter` (dt/model.py:438-444). -/
def relationshipsIter (t : Table) : List Rel := t.rels.vals

/-- `Table.get_relationship` (dt/model.py:428-436). -/
def getRelationship (t : Table) (n : Str) : Option Rel := t.rels.get? n

/-- `Table.get_shard_key_columns` (dt/model.py:446-454). -/
def shardKeyColumns (t : Table) : Option (List Str) := t.shard.map (·.keys)

/-- `Table.get_number_shards` (dt/model.py:456-464). -/
def numberShards (t : Table) : Option ShardCount := t.shard.map (·.number)

/-- `Table.get_all_related_tables` (dt/model.py:466-475). -/
def allRelated (t : Table) : List Str :=
  [] ++ t.fks.vals.map (·.toTable) ++ t.rels.vals.map (·.toTable)

end Table

/-- Instance state of `Database` (dt/model.py:546-562). -/
structure Database where
  name : Str
  tables : Dict Table
  schemas : Dict Int
deriving DecidableEq, Repr

/-- `Database.__init__` (dt/model.py:553-562). -/
def mkDatabase (name : Option Str) : Except PyErr Database :=
  match name with
  | none => .error .assertion
  | some n => .ok { name := n, tables := [], schemas := [] }

namespace Database

/-- A new empty database (dt/model.py:553-562). -/
def empty (n : Str) : Database := { name := n, tables := [], schemas := [] }

/-- `Database.add_table` (dt/model.py:564-575). -/
def addTable (db : Database) (t : Table) : Database :=
  { db with
    tables := db.tables.set t.name t
    schemas := db.schemas.set t.schema ((db.schemas.get? t.schema).getD 0 + 1) }

/-- `Database.get_table` (dt/model.py:577-584). -/
def getTable (db : Database) (n : Str) : Option Table := db.tables.get? n

/-- `Database.get_table_names` (dt/model.py:586-592). -/
def tableNames (db : Database) : List Str := db.tables.keys

/-- `Database.number_tables` (dt/model.py:594-600). -/
def numberTables (db : Database) : Nat := db.tables.keys.length

/-- `Database.__iter__` (dt/model.py:602-607). -/
def iter (db : Database) : List Table := db.tables.vals

/-- `Database.drop_table` (dt/model.py:609-627): the new database and the returned table, or the `KeyError`
line 620 raises if the schema has no counter. -/
def dropTable (db : Database) (n : Str) : Except PyErr (Database × Option Table) :=
  match db.tables.get? n with
  | none => .ok (db, none)
  | some t =>
    match db.schemas.get? t.schema with
    | none => .error .key
    | some k =>
      let k' := k - 1
      let schemas := if k' = 0 then db.schemas.erase t.schema else db.schemas.set t.schema k'
      .ok ({ db with tables := db.tables.erase n, schemas := schemas }, some t)

/-- `Database.get_schema_names` (dt/model.py:629-635). -/
def schemaNames (db : Database) : List Str := db.schemas.keys

/-- `Database.get_number_relationships_from_table` (dt/model.py:645-656). -/
def numberRelsFrom (db : Database) (n : Str) : Except PyErr Nat :=
  match db.getTable n with
  | some t => .ok (t.fks.vals.length + t.rels.vals.length)
  | none => .error .value

/-- `Database.get_number_relationships_to_table` (dt/model.py:658-678). -/
def numberRelsTo (db : Database) (n : Str) : Except PyErr Nat :=
  if ¬ db.tableNames.contains n then .error .value
  else .ok (db.tables.vals.foldl (fun acc t =>
    let acc := t.fks.vals.foldl (fun a (fk : FK) => if fk.toTable = n then a + 1 else a) acc
    t.rels.vals.foldl (fun a (r : Rel) => if r.toTable = n then a + 1 else a) acc) 0)

/-- Changing a table through the reference `get_table` returns (e.g. dt/io.py:1230, 1237): the table object in the
dictionary changes, its position and the schema counters do not. -/
def updateTable (db : Database) (n : Str) (f : Table → Table) : Database :=
  { db with tables := db.tables.map (fun p => if p.1 = n then (p.1, f p.2) else p) }

end Database
end Verif
