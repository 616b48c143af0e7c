import Verif.Diff
/-
Specification: a database server's catalogue and the effect of TQL statements on it.

This is the yardstick for generated scripts; it uses the data structures of the model (`Table`, `Database`, `Diff`) only to
say what a catalogue holding a database looks like and which statement a difference entry stands for.

Assumptions about the server (DESIGN.md): `DROP TABLE` of a missing table is a no-op; creating or adding something that
exists, or dropping or changing something that does not, is refused; a table can only be created in the default schema or one
that was created before; whether a key's columns or target exist is not checked (C20 and C24 say when they do); foreign keys and relationships share one name space
per table; a table reference without a schema means the schema of the altered table.
-/

namespace Verif.Spec
open Verif

/-- A named constraint of a table. -/
inductive Con where
  | fk (cols : List Str) (toSchema toTable : Str) (toCols : List Str)
  | rel (toSchema toTable : Str) (condition : Str)
deriving DecidableEq

/-- A table in the catalogue. The shard count is kept as written. -/
structure CTable where
  cols : List (Str × Str)
  pk : List Str
  shard : Option (Str × List Str)
  cons : Str → Option Con

/-- Tables by schema and name. -/
abbrev Cat := Str → Str → Option CTable

/-- A server. -/
structure Server where
  dbs : List Str := []
  current : Option Str := none
  schemas : List Str := []
  cat : Cat := fun _ _ => none

/-- The `ALTER TABLE` actions. -/
inductive AlterOp where
  | addPK (cols : List Str)
  | dropPK
  | setFact (count : Str) (keys : List Str)
  | setDimension
  | addFK (name : Str) (cols : List Str) (toSchema : Option Str) (toTable : Str) (toCols : List Str)
  | addRel (name : Str) (toSchema : Option Str) (toTable : Str) (condition : Str)
  | dropCon (name : Str)
  | addCol (name type : Str)
  | dropCol (name : Str)
  | modCol (name type : Str)
deriving DecidableEq

/-- The statements. -/
inductive Stmt where
  | createDb (name : Str)
  | useDb (name : Str)
  | createSchema (name : Str)
  | createTable (schema name : Str) (cols : List (Str × Str)) (pk : List Str) (shard : Option (Str × List Str))
  | dropTable (schema name : Str)
  | alter (schema name : Str) (op : AlterOp)
deriving DecidableEq

/-- Effect of an action on a table of schema `s`; `none` if the server refuses. -/
def applyOp (s : Str) (T : CTable) : AlterOp → Option CTable
  | .addPK k => if T.pk = [] ∧ k ≠ [] then some { T with pk := k } else none
  | .dropPK => if T.pk ≠ [] then some { T with pk := [] } else none
  | .setFact n k => some { T with shard := some (n, k) }
  | .setDimension => if T.shard ≠ none then some { T with shard := none } else none
  | .addFK n k ts t tk =>
    if T.cons n = none then some { T with cons := fun m => if m = n then some (.fk k (ts.getD s) t tk) else T.cons m }
    else none
  | .addRel n ts t c =>
    if T.cons n = none then some { T with cons := fun m => if m = n then some (.rel (ts.getD s) t c) else T.cons m }
    else none
  | .dropCon n => if T.cons n ≠ none then some { T with cons := fun m => if m = n then none else T.cons m } else none
  | .addCol n ty => if n ∈ T.cols.map Prod.fst then none else some { T with cols := T.cols ++ [(n, ty)] }
  | .dropCol n => if n ∈ T.cols.map Prod.fst then some { T with cols := T.cols.filter (fun p => p.1 ≠ n) } else none
  | .modCol n ty =>
    if n ∈ T.cols.map Prod.fst then some { T with cols := T.cols.map (fun p => if p.1 = n then (n, ty) else p) } else none

/-- Change one entry of the catalogue. -/
def Server.put (sv : Server) (s n : Str) (T : Option CTable) : Server :=
  { sv with cat := fun s' n' => if s' = s ∧ n' = n then T else sv.cat s' n' }

/-- Effect of a statement; `none` if the server refuses. -/
def exec (sv : Server) : Stmt → Option Server
  | .createDb n => if n ∈ sv.dbs then none else some { sv with dbs := sv.dbs ++ [n] }
  | .useDb n => if n ∈ sv.dbs then some { sv with current := some n } else none
  | .createSchema n => if n ∈ sv.schemas then none else some { sv with schemas := sv.schemas ++ [n] }
  | .createTable s n cols pk shard =>
    if (sv.cat s n).isSome ∨ ¬ (cols.map Prod.fst).Nodup ∨ (s ≠ defaultSchema ∧ s ∉ sv.schemas) then none
    else some (sv.put s n (some { cols := cols, pk := pk, shard := shard, cons := fun _ => none }))
  | .dropTable s n => some (sv.put s n none)
  | .alter s n op =>
    match sv.cat s n with
    | none => none
    | some T => (applyOp s T op).map (fun T' => sv.put s n (some T'))

/-- Execute statements one after the other. -/
def execAll (sv : Server) : List Stmt → Option Server
  | [] => some sv
  | st :: l => (exec sv st).bind (fun sv' => execAll sv' l)

/-! ## Catalogues of model databases -/

/-- A shard count as written. -/
def countText : ShardCount → Str
  | .int n => intToStr n
  | .flt q => intToStr (if q < 0 then -((-q).floor) else q.floor)
  | .text s => s

/-- A foreign key in the catalogue; `s` is the schema of its table. -/
def fkCon (s : Str) (k : FK) : Con := .fk k.fromKeys s k.toTable k.toKeys

/-- A relationship in the catalogue. -/
def relCon (s : Str) (r : Rel) : Con := .rel s r.toTable r.conditions

/-- First entry of an association list. -/
def lookup {α : Type} (l : List (Str × α)) (n : Str) : Option α := (l.find? (fun p => p.1 = n)).map Prod.snd

/-- A table without its foreign keys and relationships. -/
def bareTable (t : Table) : CTable :=
  { cols := t.cols.map (fun p => (p.2.name, p.2.type)), pk := t.pk,
    shard := t.shard.map (fun k => (countText k.number, k.keys)), cons := fun _ => none }

/-- A table as it stands in a catalogue. -/
def ctable (t : Table) : CTable :=
  { bareTable t with
    cons := fun n => ((lookup t.fks n).map (fkCon t.schema)).or ((lookup t.rels n).map (relCon t.schema)) }

/-- The catalogue holding a database. -/
def catOf (db : Database) : Cat := fun s n =>
  match lookup db.tables n with
  | some t => if t.schema = s then some (ctable t) else none
  | none => none

/-- Same table up to the order of the columns. -/
structure CTable.Same (a b : CTable) : Prop where
  cols : a.cols.Perm b.cols
  pk : a.pk = b.pk
  shard : a.shard = b.shard
  cons : a.cons = b.cons

/-- Both absent or both present and the same. -/
def OptSame : Option CTable → Option CTable → Prop
  | none, none => True
  | some a, some b => a.Same b
  | _, _ => False

/-- Same catalogue up to order of columns. -/
def CatSame (c d : Cat) : Prop := ∀ s n, OptSame (c s n) (d s n)

/-- The statement a difference entry stands for. -/
def stmtOf : Diff → Stmt
  | .tableCreated _ t => .createTable t.schema t.name (t.cols.map (fun p => (p.2.name, p.2.type))) t.pk
      (t.shard.map (fun k => (countText k.number, k.keys)))
  | .tableDropped _ t => .dropTable t.schema t.name
  | .pkAdded _ t k => .alter t.schema t.name (.addPK k)
  | .pkDropped _ t => .alter t.schema t.name .dropPK
  | .shardAdded _ t n k => .alter t.schema t.name (.setFact (countText n) k)
  | .shardDropped _ t => .alter t.schema t.name .setDimension
  | .fkAdded _ t k => .alter t.schema t.name (.addFK k.name k.fromKeys none k.toTable k.toKeys)
  | .fkDropped _ t n => .alter t.schema t.name (.dropCon n)
  | .relAdded _ t r => .alter t.schema t.name (.addRel r.name none r.toTable r.conditions)
  | .relDropped _ t n => .alter t.schema t.name (.dropCon n)
  | .colAdded _ t c => .alter t.schema t.name (.addCol c.name c.type)
  | .colDropped _ t c => .alter t.schema t.name (.dropCol c.name)
  | .colModified _ t c => .alter t.schema t.name (.modCol c.name c.type)

end Verif.Spec
