import Verif.Spec.RoundTrip
import Verif.Parser
/-
Specification of the texts and names that a DDL file can give, whatever stands in it.
-/

namespace Verif.Spec
open Verif

/-- None of the characters occurs. -/
def Bare (bad s : Str) : Prop := ∀ c ∈ s, c ∉ bad

/-- A text that a file can give as a statement: one line without semicolons and tabs, single blanks, and no white space around it. -/
structure StatementText (s : Str) : Prop where
  chars : Bare c!";\t\n\r" s
  single : ¬ c!"  " <:+: s
  first : ∀ c, s.head? = some c → isSpace c = false
  last : ∀ c, s.getLast? = some c → isSpace c = false

/-- A name that a table can get. -/
def TableName (n : Str) : Prop := Bare c!"(.'`\"[];\t\n\r" n

/-- A name that a column can get: commas stand in parentheses, and the name can be quoted, or it needs no quotes. -/
structure ColumnName (n : Str) : Prop where
  chars : Bare c!"[];\t\n\r" n
  single : ¬ c!"  " <:+: n
  noKey : Lacks c!"key " n
  noDatabase : Lacks c!"create database" n
  commas : ∀ a b, n = a ++ ',' :: b → ∃ x y, a = x ++ '(' :: y ∧ ')' ∉ y
  quotes : (∃ q ∈ c!"\"'`", q ∉ n) ∨ (' ' ∉ n ∧ ∀ c, n.head? = some c → c ∉ c!"\"'`" ∧ isSpace c = false)

/-- A name that can get into a primary key: from a CREATE TABLE, or from an ALTER TABLE. -/
def PrimaryName (n : Str) : Prop := Bare c!",\"[];\t\n\r" n ∧ (Bare c!" )" n ∨ Bare c!"(.'" n)

/-- A condition that a relationship can get: it is the rest of its statement, which must be read as one that adds a relationship. -/
structure ConditionText (s : Str) : Prop where
  chars : Bare c!";\t\n\r" s
  single : ¬ c!"  " <:+: ' ' :: s
  noAs : Lacks c!" as " (' ' :: s)
  phrases : ∀ w ∈ [c!"create database", c!"create table", c!"create or replace table", c!"primary key", c!"foreign"], Lacks w s
  nonempty : s ≠ []
  last : ∀ c, s.getLast? = some c → isSpace c = false

/-- The names of a table that was read. -/
structure Nameable (t : Table) : Prop where
  name : TableName t.name
  columns : ∀ q ∈ t.cols, ColumnName q.2.name
  primary : ∀ n ∈ t.pk, PrimaryName n
  shard : ∀ k, t.shard = some k → ∀ n ∈ k.keys, Bare c!"(,.\"'[];\t\n\r" n
  foreign : ∀ q ∈ t.fks, (∀ n ∈ [q.2.name, q.2.toTable], Bare c!".\"'[];\t\n\r" n) ∧ ∀ n ∈ q.2.fromKeys ++ q.2.toKeys, Bare c!",.\"'[];\t\n\r" n
  relationships : ∀ q ∈ t.rels, (∀ n ∈ [q.2.name, q.2.toTable], Bare c!".\"'[];\t\n\r" n) ∧ ConditionText q.2.conditions

/-- Some file gives the database. -/
def FileGives (p : ParserSt) (db : Database) : Prop := ∃ fs f, (parseDdl fs p f).2 = .ok (some db)

end Verif.Spec
