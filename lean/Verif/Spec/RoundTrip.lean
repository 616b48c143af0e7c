import Verif.Spec.Lines
import Verif.Spec.Case
import Verif.Spec.WellFormed
import Verif.Generator
import Mathlib.Data.List.Forall2
/-
Specification of what survives writing TQL and reading it back.
-/

namespace Verif.Spec
open Verif

/-- The text does not occur, whatever the letter case. -/
def Lacks (w s : Str) : Prop := ¬ w <:+: s.map small

/-- Phrases the parser looks for in whole statements. -/
def statementPhrases : List Str :=
  [c!"create database", c!"create table", c!"create or replace table", c!"or replace", c!"alter table", c!"primary key", c!"partition by hash"]

/-- Every comma stands in parentheses; parentheses are closed and not nested. -/
inductive Enclosed : Str → Prop where
  | plain {s} : '(' ∉ s → ',' ∉ s → Enclosed s
  | paren {s a t} : '(' ∉ s → ',' ∉ s → ')' ∉ a → Enclosed t → Enclosed (s ++ '(' :: (a ++ ')' :: t))

/-- A name that can be written between double quotes on one line: single blanks, no other white space, double quotes, brackets, semicolons
and comment signs. -/
structure InlineName (n : Str) : Prop where
  chars : ∀ c ∈ n, (isSpace c = true → c = ' ') ∧ c ∉ c!"\"[];"
  single : ¬ c!"  " <:+: n
  noLineComment : ¬ c!"--" <:+: n
  noBlockComment : ¬ c!"/*" <:+: n

/-- A name of a column that can be read back.  Parentheses must be closed and not nested and commas stand inside them; a declaration with
"key " is taken for a key. -/
structure ReadableColumn (n : Str) : Prop where
  inline : InlineName n
  enclosed : Enclosed n
  phrases : ∀ w ∈ [c!"key ", c!"create database", c!"partition by hash"], Lacks w n

/-- A name in a primary key that can be read back: it loses its blanks, and the list ends at the first closing parenthesis. -/
structure ReadablePrimary (n : Str) : Prop where
  inline : InlineName n
  chars : ∀ c ∈ c!" ),", c ∉ n

/-- A name that can be written between double quotes and read back: single blanks between words, but no other white space, no quotes,
brackets, parentheses, dots, commas, semicolons, comment signs, and none of the phrases of whole statements. -/
structure ReadableName (n : Str) : Prop where
  chars : ∀ c ∈ n, (isSpace c = true → c = ' ') ∧ c ∉ c!"\"'`[]().,;"
  first : n.head? ≠ some ' '
  last : n.getLast? ≠ some ' '
  single : ¬ c!"  " <:+: n
  noLineComment : ¬ c!"--" <:+: n
  noBlockComment : ¬ c!"/*" <:+: n
  phrases : ∀ w ∈ statementPhrases, Lacks w n

/-- A type as the writer prints it: one of the list, or VARCHAR with a length. -/
def ReadableType (ty : Str) : Prop :=
  ty ∈ [c!"VARCHAR", c!"DOUBLE", c!"FLOAT", c!"BOOL", c!"INT", c!"BIGINT", c!"DATE", c!"DATETIME", c!"TIMESTAMP", c!"TIME", c!"UNKNOWN"] ∨
  ∃ ds : Str, (∀ c ∈ ds, c ∈ c!"0123456789") ∧ ty = c!"VARCHAR(" ++ ds ++ c!")"

/-- The type read back. -/
def normalType (ty : Str) : Str :=
  if ty = c!"INT" then c!"BIGINT"
  else if ty = c!"FLOAT" then c!"DOUBLE"
  else if ty = c!"TIMESTAMP" then c!"DATETIME"
  else if c!"VARCHAR" <+: ty then c!"VARCHAR(0)"
  else ty

/-- The number of shards read back. -/
def normalCount : ShardCount → ShardCount
  | .int n => .int n
  | .flt q => .int (if q < 0 then -((-q).floor) else q.floor)
  | .text s => .text s

/-- A shard key that can be read back. -/
structure ReadableShard (k : ShardKey) : Prop where
  keys : k.keys ≠ []
  names : ∀ n ∈ k.keys, ReadableName n
  noKey : ∀ n ∈ k.keys, Lacks c!"key " n
  number : ∀ s, k.number ≠ .text s

/-- A foreign key that can be read back; the word "constraint" cuts the statement in pieces, and " add" and " foreign key" are looked for
from the right. -/
structure ReadableFK (t : Table) (k : FK) : Prop where
  source : k.fromTable = t.name
  keys : k.fromKeys ≠ []
  lengths : k.fromKeys.length = k.toKeys.length
  names : ∀ n ∈ k.name :: k.toTable :: (k.fromKeys ++ k.toKeys), ReadableName n
  noConstraint : ∀ n ∈ t.schema :: t.name :: k.name :: k.toTable :: (k.fromKeys ++ k.toKeys), Lacks c!"constraint" n
  noAdd : ∀ n ∈ t.schema :: k.name :: k.toTable :: (k.fromKeys ++ k.toKeys), Lacks c!" add" n
  noForeignKey : ∀ n ∈ t.schema :: k.toTable :: (k.fromKeys ++ k.toKeys), Lacks c!" foreign key" n

/-- Conditions that can be read back: one line with single blanks, without semicolons, comment signs and the phrases the parser looks for. -/
structure ReadableCondition (s : Str) : Prop where
  nonempty : s ≠ []
  blanks : ∀ c ∈ s, isSpace c = true → c = ' '
  neat : tidy s = s
  noSemicolon : ';' ∉ s
  noLineComment : ¬ c!"--" <:+: s
  noBlockComment : ¬ c!"/*" <:+: s
  phrases : ∀ w ∈ [c!"create table", c!"create or replace table", c!"create database", c!"primary key", c!"foreign"], Lacks w s
  noAs : Lacks c!" as " (' ' :: s)

/-- A relationship that can be read back. -/
structure ReadableRel (t : Table) (r : Rel) : Prop where
  source : r.fromTable = t.name
  names : ∀ n ∈ [r.name, r.toTable], ReadableName n
  noForeign : ∀ n ∈ [t.schema, t.name, r.name, r.toTable], Lacks c!"foreign" n
  noWith : ∀ n ∈ [t.schema, r.toTable], Lacks c!" with " n
  noAdd : ∀ n ∈ [t.schema, r.name, r.toTable], Lacks c!" add relationship " n
  conditions : ReadableCondition r.conditions

/-- A table that can be read back. -/
structure ReadableTable (t : Table) : Prop where
  name : ReadableName t.name
  cols : ∀ p ∈ t.cols, ReadableColumn p.2.name ∧ ReadableType p.2.type
  pk : ∀ n ∈ t.pk, ReadablePrimary n
  shard : ∀ k, t.shard = some k → ReadableShard k
  someColumn : t.pk ≠ [] ∨ t.shard ≠ none → t.cols ≠ []
  fks : ∀ p ∈ t.fks, ReadableFK t p.2
  rels : ∀ p ∈ t.rels, ReadableRel t p.2

/-- A database that can be read back. -/
structure ReadableDb (db : Database) : Prop where
  keyed : WellKeyed db
  name : ReadableName db.name
  schemas : ∀ p ∈ db.schemas, ReadableName p.1
  tableSchemas : ∀ p ∈ db.tables, ReadableName p.2.schema
  tables : ∀ p ∈ db.tables, ReadableTable p.2

/-- A schema for the tables read back. -/
structure ReadableSchema (s : Str) : Prop where
  name : ReadableName s
  noConstraint : Lacks c!"constraint" s
  noForeign : Lacks c!"foreign" s
  noAdd : Lacks c!" add" s
  noWith : Lacks c!" with " s

/-- The table read back by a parser with the given schema. -/
def normalTable (schema : Str) (t : Table) : Table :=
  { t with
    schema := schema
    shard := t.shard.map (fun k => { k with number := normalCount k.number })
    cols := t.cols.map (fun p => (p.1, { p.2 with type := normalType p.2.type })) }

/-- The database read back by a parser for databases called `name` with the given schema. -/
def normalDb (name schema : Str) (db : Database) : Database :=
  { name := name
    tables := db.tables.map (fun p => (p.1, normalTable schema p.2))
    schemas := if db.tables = [] then [] else [(schema, db.tables.length)] }

/-! ## Case options -/

/-- The name as it is printed under the case options: lower case first, then upper case, then camel case; the default schema is exempt.
Camel case is described for names of words separated by single underscores, with any number of underscores around them. -/
def PrintedAs (o : GenOpts) (n m : Str) : Prop :=
  if n = c!"falcon_default_schema" then m = n
  else if o.lowercase then m = n.map small
  else if o.uppercase then m = n.map big
  else if o.camelcase then ∃ a ws b, ws ≠ [] ∧ (∀ w ∈ ws, w ≠ [] ∧ '_' ∉ w) ∧
    n = List.replicate a '_' ++ snake ws ++ List.replicate b '_' ∧ m = ws.flatMap capitalised
  else m = n

/-- The column name as it is printed in a CREATE TABLE: no camel case, no exemption. -/
def ColumnAs (o : GenOpts) (n : Str) : Str := if o.lowercase then n.map small else if o.uppercase then n.map big else n

/-- The foreign key as it is printed: the names of the tables change, the columns and the name of the key do not. -/
structure KeyAs (o : GenOpts) (k k' : FK) : Prop where
  name : k'.name = k.name
  fromTable : PrintedAs o k.fromTable k'.fromTable
  fromKeys : k'.fromKeys = k.fromKeys
  toTable : PrintedAs o k.toTable k'.toTable
  toKeys : k'.toKeys = k.toKeys

/-- The relationship as it is printed. -/
structure RelationshipAs (o : GenOpts) (r r' : Rel) : Prop where
  name : r'.name = r.name
  fromTable : PrintedAs o r.fromTable r'.fromTable
  toTable : PrintedAs o r.toTable r'.toTable
  conditions : r'.conditions = r.conditions

/-- The table as it is printed: key clauses keep the names they have. -/
structure TableAs (o : GenOpts) (t t' : Table) : Prop where
  name : PrintedAs o t.name t'.name
  schema : PrintedAs o t.schema t'.schema
  pk : t'.pk = t.pk
  shard : t'.shard = t.shard
  cols : t'.cols = t.cols.map (fun p => (ColumnAs o p.2.name, ⟨ColumnAs o p.2.name, p.2.type⟩))
  fks : List.Forall₂ (fun p p' => p'.1 = p.1 ∧ KeyAs o p.2 p'.2) t.fks t'.fks
  rels : List.Forall₂ (fun p p' => p'.1 = p.1 ∧ RelationshipAs o p.2 p'.2) t.rels t'.rels

/-- The database as it is printed. -/
structure DatabaseAs (o : GenOpts) (db db' : Database) : Prop where
  name : PrintedAs o db.name db'.name
  tables : List.Forall₂ (fun p p' => PrintedAs o p.1 p'.1 ∧ TableAs o p.2 p'.2) db.tables db'.tables
  schemas : List.Forall₂ (fun p p' => PrintedAs o p.1 p'.1) db.schemas db'.schemas

end Verif.Spec
