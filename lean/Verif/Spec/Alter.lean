import Verif.Spec.Parse
import Verif.Spec.CreateTable
import Verif.Spec.RoundTrip
import Verif.Spec.Config
/-
Specification for ALTER TABLE statements: the forms the parser documents (dt/io.py:534-541, 563-571, 617-624) with names written in several ways,
keywords in any letter case, and what each adds to the database.
-/

namespace Verif.Spec
open Verif

/-- What may stand before a name: nothing, or a path with a dot after it. -/
def Prefixed (pre : Str) : Prop := pre = [] ∨ ∃ p, pre = p ++ ['.']

/-- A name with nothing in it that is dropped on reading. -/
structure Tidy (n : Str) : Prop where
  chars : ∀ c ∈ n, c ∉ '.' :: noise
  first : ∀ c, n.head? = some c → isSpace c = false
  last : ∀ c, n.getLast? = some c → isSpace c = false

/-- A spelling of a name: without the quotes and brackets, wherever they stand in it, it is the name. -/
structure Spelling (x n : Str) : Prop where
  name : x.filter (fun c => !noise.contains c) = n
  noDot : '.' ∉ x
  first : ∀ c, x.head? = some c → isSpace c = false
  last : ∀ c, x.getLast? = some c → isSpace c = false

/-- The text is the name in some spelling, with white space around it, after a path. -/
structure Written (text n : Str) : Prop where
  shape : ∃ pre a x b, text = pre ++ (a ++ (x ++ b)) ∧ Prefixed pre ∧ White a ∧ White b ∧ Spelling x n

/-- The text begins with the name, after a path; more text follows after a blank or, if the name is in quotes, anyhow. -/
structure Leading (text n : Str) : Prop where
  shape : ∃ pre x rest, text = pre ++ (x ++ rest) ∧ Prefixed pre ∧ '.' ∉ x ∧ '.' ∉ rest ∧
    ((∃ q y, (q = '"' ∨ q = '\'') ∧ x = q :: (y ++ [q]) ∧ q ∉ y ∧ Written y n) ∨
     (Written x n ∧ (∃ c, x.head? = some c ∧ c ≠ '"' ∧ c ≠ '\'') ∧ ' ' ∉ x ∧ (rest = [] ∨ ∃ r, rest = ' ' :: r)))

/-- The text is a list of names with commas in between. -/
def Columns (text : Str) (ns : List Str) : Prop :=
  ∃ ps : List Str, ps ≠ [] ∧ text = List.intercalate [','] ps ∧ List.Forall₂ (fun p n => Written p n ∧ ',' ∉ p) ps ns

/-- A foreign key as a statement gives it. -/
structure KeyText where
  name : Option Str
  cols : List Str
  table : Str
  refs : List Str
deriving DecidableEq, Repr

/-- The foreign key it adds to the table `tn`. -/
def KeyText.key (k : KeyText) (tn : Str) : FK :=
  { name := k.name.getD (c!"FK_" ++ tn ++ c!"_to_" ++ k.table), fromTable := tn, fromKeys := k.cols, toTable := k.table, toKeys := k.refs }

/-- `(columns) REFERENCES table (columns)`, perhaps with more text after it. -/
structure References (text : Str) (k : KeyText) : Prop where
  shape : ∃ b f kw b' u g tail, text = b ++ ('(' :: (f ++ (kw ++ (b' ++ (u ++ (c!" (" ++ (g ++ (')' :: tail)))))))) ∧
    (∀ c ∈ b, c = ' ') ∧ Columns f k.cols ∧ kw.map small = c!") references" ∧ (∀ c ∈ b', c = ' ') ∧ Leading u k.table ∧ u.head? ≠ some ' ' ∧
    Columns g k.refs ∧ ')' ∉ tail ∧
    Lacks c!") references" (kw ++ (b' ++ (u ++ (c!" (" ++ (g ++ (')' :: tail)))))).tail ∧ Lacks c!" (" ('(' :: (g ++ (')' :: tail)))
  oneLine : '\n' ∉ text
  lengths : k.cols.length = k.refs.length

/-- A constraint, after the word CONSTRAINT: with a name or without. -/
inductive ConstraintText : Str → KeyText → Prop where
  | named {m n kw r k} : Written m n → '\n' ∉ m → kw.map small = c!" foreign key" → References r k → Lacks c!" foreign key" (kw ++ r).tail →
      k.name = some n → ConstraintText (m ++ (kw ++ r)) k
  | unnamed {kw r k} : kw.map small = c!"foreign key" → References r k → Lacks c!" foreign key" (kw ++ r) → k.name = none → ConstraintText (kw ++ r) k

/-- A constraint with white space before it, and white space and commas after it. -/
structure Constraint (text : Str) (k : KeyText) : Prop where
  shape : ∃ a core b commas b', text = a ++ (core ++ (b ++ (commas ++ b'))) ∧ White a ∧ White b ∧ (∀ c ∈ commas, c = ',') ∧ White b' ∧ ConstraintText core k ∧
    (∀ c, core.head? = some c → isSpace c = false ∧ c ≠ ',' ∧ c ≠ ';') ∧ (∀ c, core.getLast? = some c → isSpace c = false ∧ c ≠ ',' ∧ c ≠ ';')
  once : Lacks c!"constraint" text

/-- One or more constraints, each after the word CONSTRAINT. -/
inductive Constraints : Str → List KeyText → Prop where
  | one {kw text k} : kw.map small = c!"constraint" → Constraint text k → Constraints (kw ++ text) [k]
  | more {kw text c rest k ks} : kw.map small = c!"constraint" → Constraint (text ++ [c]) k → c = ' ' ∨ c = ',' → Constraints rest ks →
      Constraints (kw ++ (text ++ c :: rest)) (k :: ks)

/-- None of the phrases that make the parser take the statement for another one. -/
def NotCreate (stmt : Str) : Prop := ∀ w ∈ [c!"create database", c!"create table", c!"create or replace table"], Lacks w stmt

/-- `ALTER TABLE tn ADD CONSTRAINT … [, CONSTRAINT …]`. -/
structure AddsForeignKeys (stmt tn : Str) (ks : List KeyText) : Prop where
  shape : ∃ kw t add gap rest, stmt = kw ++ (t ++ (add ++ (gap ++ rest))) ∧ kw.map small = c!"alter table " ∧ Written t tn ∧ add.map small = c!" add" ∧
    gap ≠ [] ∧ (∀ c ∈ gap, c = ' ') ∧ Constraints rest ks ∧ Lacks c!"constraint" t ∧ Lacks c!" add" (add ++ (gap ++ rest)).tail
  oneLine : '\n' ∉ stmt
  notCreate : NotCreate stmt
  notPrimary : Lacks c!"primary key" stmt

/-- `ALTER TABLE tn … PRIMARY KEY … (columns)`. -/
structure SetsPrimaryKey (stmt tn : Str) (cols : List Str) : Prop where
  shape : ∃ kw t z pk mid f tail, stmt = kw ++ (t ++ (' ' :: (z ++ (pk ++ (mid ++ ('(' :: (f ++ (')' :: tail)))))))) ∧ kw.map small = c!"alter table " ∧ Leading t tn ∧
    ' ' ∉ z ∧ pk.map small = c!"primary key" ∧ Columns f cols ∧ '(' ∉ f ∧ '(' ∉ tail ∧ ')' ∉ tail ∧
    Lacks c!"primary key" (pk ++ (mid ++ ('(' :: (f ++ (')' :: tail))))).tail
  oneLine : '\n' ∉ stmt
  notCreate : NotCreate stmt

/-- A relationship as a statement gives it. -/
structure RelText where
  name : Option Str
  table : Str
  cond : Str
deriving DecidableEq, Repr

/-- The relationship it adds to the table `tn`. -/
def RelText.rel (r : RelText) (tn : Str) : Rel :=
  { name := r.name.getD (c!"REL_" ++ tn ++ c!"_to_" ++ r.table), fromTable := tn, toTable := r.table, conditions := r.cond }

/-- `[name] WITH table AS condition`, after `ADD RELATIONSHIP`. -/
inductive RelationshipText : Str → RelText → Prop where
  | named {r m n w u a c} : Written m n → w.map small = c!" with " → Leading u r.table → a.map small = c!" as " → r.name = some n → r.cond = c →
      Lacks c!" with " (w ++ u).tail → Lacks c!" as " (a ++ c).tail → RelationshipText (m ++ (w ++ (u ++ (a ++ c)))) r
  | unnamed {r w u a c} : w.map small = c!"with " → Leading u r.table → a.map small = c!" as " → r.name = none → r.cond = c →
      Lacks c!" with " (w ++ u) → Lacks c!" as " (a ++ c).tail → RelationshipText (w ++ (u ++ (a ++ c))) r

/-- `ALTER TABLE tn ADD RELATIONSHIP …`. -/
structure AddsRelationship (stmt tn : Str) (r : RelText) : Prop where
  shape : ∃ kw t add rest, stmt = kw ++ (t ++ (add ++ rest)) ∧ kw.map small = c!"alter table " ∧ Leading t tn ∧ add.map small = c!" add relationship " ∧
    RelationshipText rest r ∧ Lacks c!" add relationship" t ∧ Lacks c!" add relationship " (add ++ rest).tail
  oneLine : '\n' ∉ stmt
  notCreate : NotCreate stmt
  notPrimary : Lacks c!"primary key" stmt
  notForeign : Lacks c!"foreign" stmt

/-- The database with one table changed. -/
def changed (db : Database) (n : Str) (f : Table → Table) : Database :=
  { db with tables := db.tables.map (fun p => if p.1 = n then (p.1, f p.2) else p) }

/-- The statement is one of the three, about the table `tn`, and changes it by `f`. -/
inductive Alteration : Str → Str → (Table → Table) → Prop where
  | keys {stmt tn ks} : AddsForeignKeys stmt tn ks →
      Alteration stmt tn (fun t => { t with fks := ks.foldl (fun d k => d.set (k.key tn).name (k.key tn)) t.fks })
  | primary {stmt tn cols} : SetsPrimaryKey stmt tn cols → Alteration stmt tn (fun t => { t with pk := cols })
  | relationship {stmt tn r} : AddsRelationship stmt tn r → Alteration stmt tn (fun t => { t with rels := t.rels.set (r.rel tn).name (r.rel tn) })

end Verif.Spec
