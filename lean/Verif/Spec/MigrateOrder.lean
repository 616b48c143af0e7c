import Verif.Spec.Catalog
import Verif.Spec.WellFormed
/-
Specification: the order of names.
-/

namespace Verif.Spec
open Verif

/-- The name comes first in the order of the character codes, character by character. -/
def Earlier (a b : Str) : Prop := a.map Char.toNat < b.map Char.toNat

instance (a b : Str) : Decidable (Earlier a b) := by unfold Earlier; infer_instance

/-- The server has a table of this schema and name with all these columns. -/
def OnServer (sv : Server) (s n : Str) (l : List Str) : Prop :=
  ∃ T, sv.cat s n = some T ∧ ∀ c ∈ l, c ∈ T.cols.map Prod.fst

/-- The database has a table of this schema and name with all these columns. -/
def InDatabase (db : Database) (s n : Str) (l : List Str) : Prop :=
  ∃ t, TableOf db n t ∧ t.schema = s ∧ ∀ c ∈ l, ∃ col, ColumnOf t c col

/-- The columns foreign key `k` of table `t` refers to are there at the moment the key is added, when the script turns
`old` into `new` table by table in the order of the names: tables with earlier names already are the new ones, tables
with later names and the table of the key itself still are the old ones. -/
def TargetThere (old new : Database) (t : Table) (k : FK) : Prop :=
  if Earlier k.toTable t.name then InDatabase new t.schema k.toTable k.toKeys
  else InDatabase old t.schema k.toTable k.toKeys

end Verif.Spec
