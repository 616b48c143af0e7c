import Verif.Spec.WellFormed
import Verif.Spec.Case
import Mathlib.Data.List.Forall2
/-
Specification for the DDL parser: consistency of what it returns and the reach of an ALTER statement.
-/

namespace Verif.Spec
open Verif

/-- What every parsed database satisfies. -/
structure Consistent (name schema : Str) (db : Database) : Prop where
  name : db.name = name
  keyed : WellKeyed db
  schemas : db.schemas.map Prod.fst = if db.tables = [] then [] else [schema]
  schema : ∀ n t, TableOf db n t → t.schema = schema
  types : ∀ n t, TableOf db n t → ∀ m c, ColumnOf t m c →
    c.type ∈ [c!"DOUBLE", c!"BOOL", c!"INT", c!"BIGINT", c!"DATE", c!"DATETIME", c!"TIME", c!"UNKNOWN", c!"VARCHAR(0)"]
  fks : ∀ n t, TableOf db n t → ∀ m k, (m, k) ∈ t.fks → k.fromTable = n ∧ k.fromKeys.length = k.toKeys.length
  rels : ∀ n t, TableOf db n t → ∀ m r, (m, r) ∈ t.rels → r.fromTable = n
  shards : ∀ n t, TableOf db n t → ∀ k, t.shard = some k → k.keys ≠ [] ∧ ∃ i, k.number = .int i

/-- Characters that may stand in or around a name without being part of it. -/
def noise : List Char := c!"\t\"'[]"

/-- The statement mentions the name, quotes and brackets disregarded. -/
def Mentions (stmt n : Str) : Prop := n <:+: stmt.filter (fun c => !noise.contains c)

/-- The second table is the first with another primary key, other foreign keys or other relationships. -/
def KeyChange (t t' : Table) : Prop :=
  (∃ pk, t' = { t with pk := pk }) ∨ (∃ fks, t' = { t with fks := fks }) ∨ (∃ rels, t' = { t with rels := rels })

/-- Only the table called `n` changes, and only in its keys. -/
structure ChangesKeysOf (n : Str) (db db' : Database) : Prop where
  name : db'.name = db.name
  schemas : db'.schemas = db.schemas
  tables : List.Forall₂ (fun p q => q.1 = p.1 ∧ (p.1 ≠ n → q.2 = p.2) ∧ (p.1 = n → KeyChange p.2 q.2)) db.tables db'.tables

/-- The statement is an ALTER TABLE and has none of the other phrases the parser looks for first. -/
def IsAlter (stmt : Str) : Prop :=
  c!"alter table" <:+: stmt.map small ∧ ¬ c!"create database" <:+: stmt.map small ∧
  ¬ c!"create table" <:+: stmt.map small ∧ ¬ c!"create or replace table" <:+: stmt.map small

end Verif.Spec
