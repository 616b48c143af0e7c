import Verif.Spec.WholeFile
import Verif.Spec.Cli
import Verif.Spec.Catalog
import Verif.Spec.TQL
import Verif.Spec.StrictServer
/-
Specification of whole runs: the arguments and the file a run starts from.
-/

namespace Verif.Spec
open Verif

/-- The text of a DDL file that stands for these effects, statement by statement: lines of the simple kind, with comments at the ends of lines and block comments on
lines of their own added, no table created twice. -/
def FileMeans (schema content : Str) (es : List Effect) : Prop :=
  ∃ ls ls1 ls2, SimpleLines ls ∧ List.Forall₂ Commented ls ls1 ∧ Uncommented ls2 ls1 ∧ AreLines ls2 ∧ content = fileOf ls2 ∧
    List.Forall₂ (Means schema) (statementsOf ls) es ∧ (createdNames es).Nodup

/-- No foreign key of a table has the name of one of its relationships. -/
def DistinctKeyNames (ts : List Table) : Prop := ∀ t ∈ ts, ∀ p ∈ t.fks, ∀ q ∈ t.rels, p.1 ≠ q.1

/-- The arguments `--from_ddl f --database n`; `--schema`, `--create_db`, `--validate` and options for the case of names may be there, too. -/
structure FromFile (a : ConvertArgs) (f n : Str) : Prop where
  version : a.version = false
  source : a.fromDdl = some f ∧ f ≠ []
  database : a.database = some n ∧ n ≠ []
  noExcel : ¬ Given a.toExcel

/-- `--to_tql g` besides. -/
structure FileToFile (a : ConvertArgs) (f n g : Str) : Prop extends FromFile a f n where
  target : a.toTql = some g ∧ g ≠ [] ∧ g ≠ c!"-"
  noServer : ¬ Given a.toTs

/-- `--to_ts host` besides. -/
structure FileToServer (a : ConvertArgs) (f n host : Str) : Prop extends FromFile a f n where
  target : a.toTs = some host ∧ host ≠ []
  noFile : ¬ Given a.toTql

/-- The file that holds this text. -/
def TextAt (d : Disk) (f content : Str) : Prop := d f = some (.file (.text content))

/-- The options for the case of names. -/
def caseOf (a : ConvertArgs) : GenOpts := ⟨a.uppercase, a.lowercase, a.camelcase⟩

/-- The script makes a new database with this content, on every server without one of that name; a server that checks what a statement refers to accepts it if the database is
well-formed. -/
def Builds (script : Str) (db : Database) : Prop :=
  ∃ sts, readScript script = some sts ∧ ∀ dbs : List Str, db.name ∉ dbs → ∃ sv, execAll { dbs := dbs } sts = some sv ∧ sv.cat = catOf db ∧ sv.dbs = dbs ++ [db.name] ∧
    sv.current = some db.name ∧ (∀ s, s ∈ sv.schemas ↔ s ≠ c!"falcon_default_schema" ∧ ∃ n t, TableOf db n t ∧ t.schema = s) ∧ (WellFormed db → Accepts { dbs := dbs } sts sv)

/-- The script replaces the tables of a database that exists, on every server that has it and the schemas: the tables are those of `db`, others stay; a server that checks what a
statement refers to accepts it if the database is well-formed. -/
def Replaces (script : Str) (db : Database) : Prop :=
  ∃ sts, readScript script = some sts ∧ ∀ sv : Server, db.name ∈ sv.dbs → (∀ n t, TableOf db n t → t.schema = c!"falcon_default_schema" ∨ t.schema ∈ sv.schemas) →
    ∃ sv', execAll sv sts = some sv' ∧ sv'.current = some db.name ∧ sv'.dbs = sv.dbs ∧ sv'.schemas = sv.schemas ∧ (∀ s n, sv'.cat s n = (catOf db s n).or (sv.cat s n)) ∧
      (WellFormed db → Accepts sv sts sv')

end Verif.Spec
