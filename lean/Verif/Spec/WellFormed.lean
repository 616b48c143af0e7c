import Verif.Model
/-
Specification: what a well-formed database is (README "validate", dt/model.py docstrings), and the individual defects.
Uses only the data structures of the model, none of its functions.
-/

namespace Verif.Spec
open Verif

/-- `c` is the column of `t` called `n`. -/
def ColumnOf (t : Table) (n : Str) (c : Column) : Prop := (n, c) ∈ t.cols

/-- `t` is the table of `db` called `n`. -/
def TableOf (db : Database) (n : Str) (t : Table) : Prop := (n, t) ∈ db.tables

/-- The type is some `VARCHAR...`. -/
def Varchar (ty : Str) : Prop := ∃ rest, ty = c!"VARCHAR" ++ rest

/-- Column types that may be joined. -/
def TypesMatch (a b : Str) : Prop := a = b ∨ (Varchar a ∧ Varchar b)

/-- What the API guarantees for every database it builds: each registry lists a name once and files every object under
its own name. -/
structure WellKeyed (db : Database) : Prop where
  tables : (db.tables.map Prod.fst).Nodup
  tableNames : ∀ n t, (n, t) ∈ db.tables → n = t.name
  cols : ∀ n t, (n, t) ∈ db.tables → (t.cols.map Prod.fst).Nodup
  colNames : ∀ n t, (n, t) ∈ db.tables → ∀ m c, (m, c) ∈ t.cols → m = c.name
  fks : ∀ n t, (n, t) ∈ db.tables → (t.fks.map Prod.fst).Nodup
  fkNames : ∀ n t, (n, t) ∈ db.tables → ∀ m k, (m, k) ∈ t.fks → m = k.name
  rels : ∀ n t, (n, t) ∈ db.tables → (t.rels.map Prod.fst).Nodup
  relNames : ∀ n t, (n, t) ∈ db.tables → ∀ m r, (m, r) ∈ t.rels → m = r.name

/-- A foreign key of table `t` is in order. -/
def FKOk (db : Database) (t : Table) (fk : FK) : Prop :=
  ∃ u, TableOf db fk.toTable u ∧ fk.fromKeys.length = fk.toKeys.length ∧ fk.toKeys.length = u.pk.length ∧
    ∀ (i : Nat) (a b : Str), fk.fromKeys[i]? = some a → fk.toKeys[i]? = some b →
      b ∈ u.pk ∧ ∃ ca cb, ColumnOf t a ca ∧ ColumnOf u b cb ∧ TypesMatch ca.type cb.type

/-- The documented well-formedness of a database. -/
structure WellFormed (db : Database) : Prop where
  types : ∀ n t, TableOf db n t → ∀ m c, ColumnOf t m c → c.type ≠ c!"UNKNOWN"
  pk : ∀ n t, TableOf db n t → ∀ k ∈ t.pk, ∃ c, ColumnOf t k c
  shard : ∀ n t, TableOf db n t → ∀ sk, t.shard = some sk → ∀ k ∈ sk.keys,
    (∃ c, ColumnOf t k c) ∧ (t.pk = [] ∨ k ∈ t.pk)
  fks : ∀ n t, TableOf db n t → ∀ m fk, (m, fk) ∈ t.fks → FKOk db t fk
  rels : ∀ n t, TableOf db n t → ∀ m r, (m, r) ∈ t.rels → r.fromTable = t.name ∧ ∃ u, TableOf db r.toTable u

/-- Severity of a defect. -/
inductive Severity where
  | warning | error
deriving DecidableEq

/-- A character inside a quoted name: backslashes, the quote itself and control characters are written with a backslash. -/
def shownChar (q c : Char) : Str :=
  match c with
  | '\\' => ['\\', '\\']
  | '\n' => ['\\', 'n']
  | '\r' => ['\\', 'r']
  | '\t' => ['\\', 't']
  | c =>
    let n := c.toNat
    if c = q then ['\\', q]
    else if n < 32 ∨ n = 127 then ['\\', 'x', "0123456789abcdef".toList.getD (n / 16) '?', "0123456789abcdef".toList.getD (n % 16) '?']
    else [c]

/-- A name in quotes, in double quotes if it has a single quote and no double quote. -/
def showName (s : Str) : Str :=
  if '\'' ∈ s ∧ '"' ∉ s then ['"'] ++ (s.map (shownChar '"')).flatten ++ ['"']
  else ['\''] ++ (s.map (shownChar '\'')).flatten ++ ['\'']

/-- The list of names as printed in messages: `['a', 'b']`. -/
def showNames (l : List Str) : Str :=
  ['['] ++ ((l.map showName).intersperse [',', ' ']).flatten ++ [']']

/-- `Defect db t msg sev`: table `t` of `db` has a defect, to be reported with text `msg`. -/
inductive Defect (db : Database) (t : Table) : Str → Severity → Prop where
  | unknownType (n : Str) (c : Column) : ColumnOf t n c → c.type = c!"UNKNOWN" →
      Defect db t (c!"column " ++ c.name ++ c!" is of type UNKNOWN.") .warning
  | pkMissing (k : Str) : k ∈ t.pk → (¬ ∃ c, ColumnOf t k c) →
      Defect db t (c!"column " ++ k ++ c!" in primary key does not exist in the the table.") .error
  | shardMissing (sk : ShardKey) (k : Str) : t.shard = some sk → k ∈ sk.keys → (¬ ∃ c, ColumnOf t k c) →
      Defect db t (c!"column " ++ k ++ c!" in shard key does not exist in the the table.") .error
  | shardNotPk (sk : ShardKey) (k : Str) : t.shard = some sk → k ∈ sk.keys → t.pk ≠ [] → k ∉ t.pk →
      Defect db t (c!"column " ++ k ++ c!" in shard key not in primary key " ++ showNames t.pk) .error
  | fkNoTable (m : Str) (fk : FK) : (m, fk) ∈ t.fks → (¬ ∃ u, TableOf db fk.toTable u) →
      Defect db t (c!"table " ++ fk.toTable ++ c!" doesn't exist for foreign key " ++ fk.name) .error
  | fkArity (m : Str) (fk : FK) (u : Table) : (m, fk) ∈ t.fks → TableOf db fk.toTable u →
      fk.fromKeys.length ≠ fk.toKeys.length →
      Defect db t (c!"FK " ++ fk.name ++ c!" doesn't have the matching column count from and to keys") .error
  | fkPkCount (m : Str) (fk : FK) (u : Table) : (m, fk) ∈ t.fks → TableOf db fk.toTable u →
      fk.toKeys.length ≠ u.pk.length →
      Defect db t (c!"FK " ++ fk.name ++ c!" doesn't match number of columns in primary key " ++ showNames u.pk) .error
  | fkNotPk (m : Str) (fk : FK) (u : Table) (i : Nat) (b : Str) : (m, fk) ∈ t.fks → TableOf db fk.toTable u →
      i < fk.fromKeys.length → fk.toKeys[i]? = some b → b ∉ u.pk →
      Defect db t (c!"foreign key " ++ fk.name ++ c!" column " ++ b ++ c!" isn't in primary key for " ++ u.name) .error
  | fkFromMissing (m : Str) (fk : FK) (u : Table) (a : Str) : (m, fk) ∈ t.fks → TableOf db fk.toTable u →
      a ∈ fk.fromKeys → (¬ ∃ c, ColumnOf t a c) →
      Defect db t (c!"foreign key " ++ fk.name ++ c!" missing from_column " ++ a ++ c!" from table " ++ t.name) .error
  | fkToMissing (m : Str) (fk : FK) (u : Table) (i : Nat) (b : Str) : (m, fk) ∈ t.fks → TableOf db fk.toTable u →
      i < fk.fromKeys.length → fk.toKeys[i]? = some b → (¬ ∃ c, ColumnOf u b c) →
      Defect db t (c!"foreign key " ++ fk.name ++ c!" missing to_column " ++ b ++ c!" from table " ++ t.name) .error
  | fkTypes (m : Str) (fk : FK) (u : Table) (i : Nat) (a b : Str) (ca cb : Column) : (m, fk) ∈ t.fks →
      TableOf db fk.toTable u → fk.fromKeys[i]? = some a → fk.toKeys[i]? = some b → ColumnOf t a ca →
      ColumnOf u b cb → ¬ TypesMatch ca.type cb.type →
      Defect db t (c!"foreign key " ++ fk.name ++ c!" column " ++ (if ca.type.take 7 = c!"VARCHAR" then b else ca.name) ++
        c!" type " ++ ca.type ++ c!" doesn't match type " ++ cb.type ++ c!" for " ++ u.name ++ c!" column " ++ cb.name)
        .error
  | relFrom (m : Str) (r : Rel) : (m, r) ∈ t.rels → r.fromTable ≠ t.name →
      Defect db t (c!"from table " ++ t.name ++ c!" doesn't exist in relationship " ++ r.name ++ c!".") .error
  | relTo (m : Str) (r : Rel) : (m, r) ∈ t.rels → (¬ ∃ u, TableOf db r.toTable u) →
      Defect db t (c!"to table None doesn't exist in relationship " ++ r.name ++ c!".") .error

end Verif.Spec
