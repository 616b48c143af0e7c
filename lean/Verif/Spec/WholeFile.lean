import Verif.Spec.CreateKeys
import Verif.Spec.Lines
import Verif.Spec.Reports
/-
Specification of a whole DDL file: statements that create tables, statements that change them, and statements without a meaning for the parser.
-/

namespace Verif.Spec
open Verif

/-- The table with the given fields. -/
def tableWith (schema n : Str) (fs : List Field) (tys : List Str) (shard : Option ShardKey) : Table :=
  { name := n, schema := schema, pk := primaryOf fs, shard := shard, fks := [], rels := [],
    cols := ((columnsOf fs).zip tys).map (fun p => (p.1.name, ⟨p.1.name, p.2⟩)) }

/-- The statement creates the table: the forms of C79.  What becomes of the types is the matter of C29 and C62. -/
inductive Creates (schema : Str) : Str → Table → Prop where
  | plain {k path n w body tail fs tys} : CreateHead k → TablePath path n → White w → FieldList (fs.map Field.text) body → (∀ f ∈ fs, FieldOk f) → ')' ∉ tail →
      (columnsOf fs).map (fun d => convertType d.type) = tys.map .ok → ((columnsOf fs).map (·.name)).Nodup →
      Lacks c!"create database" (k ++ path ++ w ++ '(' :: body ++ ')' :: tail) → Lacks c!"partition by hash" (k ++ path ++ w ++ '(' :: body ++ ')' :: tail) →
      Creates schema (k ++ path ++ w ++ '(' :: body ++ ')' :: tail) (tableWith schema n fs tys none)
  | sharded {k path n w body tail fs last tys number keys} : k.map small = c!"create table " → TablePath path n → White w →
      FieldList ((fs ++ [last]).map Field.text) body → (∀ f ∈ fs ++ [last], FieldOk f) → LastOk tail last → PartitionText tail number keys →
      (columnsOf (fs ++ [last])).map (fun d => convertType d.type) = tys.map .ok → ((columnsOf (fs ++ [last])).map (·.name)).Nodup →
      Lacks c!"create database" (k ++ path ++ w ++ '(' :: body ++ ')' :: tail) → '\n' ∉ k ++ path ++ w ++ '(' :: body ++ ')' :: tail →
      Creates schema (k ++ path ++ w ++ '(' :: body ++ ')' :: tail) (tableWith schema n (fs ++ [last]) tys (some { keys := keys, number := .int number }))

/-- What a statement stands for: a new table, a change of a table, or nothing the parser keeps. -/
inductive Effect where
  | table (t : Table)
  | change (n : Str) (f : Table → Table)
  | nothing

/-- A statement and its effect.  Ignored are CREATE DATABASE and all that neither creates nor alters a table. -/
inductive Means (schema : Str) : Str → Effect → Prop where
  | creates {stmt t} : Creates schema stmt t → Means schema stmt (.table t)
  | alters {stmt n f} : Alteration stmt n f → Means schema stmt (.change n f)
  | database {stmt} : ¬ Lacks c!"create database" stmt → Means schema stmt .nothing
  | other {stmt} : NotCreate stmt → Lacks c!"alter table" stmt → Means schema stmt .nothing

/-- What the later statements make of a table: those about it, in their order. -/
def later (n : Str) (es : List Effect) (t : Table) : Table :=
  es.foldl (fun t e => match e with | .change m f => if m = n then f t else t | _ => t) t

/-- The tables a script describes: in the order of their creation, each with the changes that come after it. -/
def describes : List Effect → List Table
  | [] => []
  | .table t :: es => later t.name es t :: describes es
  | _ :: es => describes es

/-- The names of the tables that are created. -/
def createdNames (es : List Effect) : List Str := es.filterMap (fun e => match e with | .table t => some t.name | _ => none)

/-- Every change is about a table that was created before it. -/
def InOrder (es : List Effect) : Prop := ∀ pre n f post, es = pre ++ .change n f :: post → n ∈ createdNames pre

/-- The database with these tables. -/
def databaseOf (name schema : Str) (ts : List Table) : Database :=
  { name := name, tables := ts.map (fun t => (t.name, t)), schemas := if ts = [] then [] else [(schema, (ts.length : Int))] }

/-- The statements of a file without comments, given by its lines. -/
def statementsOf (ls : List Str) : List Str := (terminated (joinS ['\n'] ls)).map tidy

/-- The lines of a file that can be read without loss: no comments, no batch separators, at most one semicolon each. -/
structure SimpleLines (ls : List Str) : Prop where
  lines : AreLines ls
  plain : ∀ l ∈ ls, PlainLine l
  space : ∀ l ∈ ls, PlainSpace l
  single : ∀ l ∈ ls, (l.filter (· == ';')).length ≤ 1

end Verif.Spec
