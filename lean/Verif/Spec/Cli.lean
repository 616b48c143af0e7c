import Verif.Cli
/-
Specification for the command line tools: which argument combinations are documented, which files a run may change.
-/

namespace Verif.Spec
open Verif

/-- The option was given with a text. -/
def Given (o : Option Str) : Prop := ∃ s, o = some s ∧ s ≠ []

/-- The file exists. -/
def OnDisk (d : Disk) (f : Str) : Prop := ∃ i, d f = some i

/-- convert_ddl has something to read from (or is only asked for its version or an empty workbook), and a database name if it needs one. -/
structure ConvertDocumented (a : ConvertArgs) : Prop where
  source : a.version = true ∨ a.empty = true ∨ Given a.fromDdl ∨ Given a.fromExcel ∨ Given a.fromTs ∨ Given a.toExcel
  named : Given a.fromDdl ∨ Given a.fromTs → Given a.database

/-- ddldiff has two files that exist. -/
def DiffDocumented (d : Disk) (a : DiffArgs) : Prop :=
  ∃ f g, a.ddl1 = some f ∧ f ≠ [] ∧ OnDisk d f ∧ a.ddl2 = some g ∧ g ≠ [] ∧ OnDisk d g

/-- review_model lists its tests, or has a database name and a source; it has one source at most; the worksheet and the configuration exist. -/
structure ReviewDocumented (d : Disk) (a : ReviewArgs) : Prop where
  needs : a.showTests = true ∨ (Given a.database ∧ (Given a.databaseFile ∨ Given a.tsIp))
  single : ¬ (Given a.databaseFile ∧ Given a.tsIp)
  worksheet : ∀ f, a.worksheetFile = some f → f ≠ [] → OnDisk d f
  config : ∀ f, a.configFile = some f → f ≠ [] → OnDisk d f

/-- The name of a workbook: the ending is added unless it is there. -/
def WorkbookName (f g : Str) : Prop := (c!".xlsx" <:+ f ∧ g = f) ∨ (¬ c!".xlsx" <:+ f ∧ g = f ++ c!".xlsx")

/-- The files a run of convert_ddl may change, given the database it read. -/
inductive MayChange (a : ConvertArgs) (db : Except PyErr (Option Database)) : Str → Prop where
  | tql {f} : a.toTql = some f → f ≠ [] → MayChange a db f
  | excel {f g} : a.toExcel = some f → f ≠ [] → WorkbookName f g → MayChange a db g
  | answer {n} : Given a.fromTs → ¬ Given a.fromDdl → ¬ Given a.fromExcel → a.database = some n → MayChange a db (n ++ c!".tmp")
  | command {d} : Given a.toTs → db = .ok (some d) → MayChange a db (d.name ++ c!".tmp")

end Verif.Spec
