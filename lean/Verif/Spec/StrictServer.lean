import Verif.Spec.Catalog
import Verif.Spec.WellFormed
import Verif.Spec.RoundTrip
/-
Specification: a server that also checks what a statement refers to, and printed databases.
-/

namespace Verif.Spec
open Verif

/-- The column of a table in the catalogue has this type. -/
def CTable.HasCol (T : CTable) (n ty : Str) : Prop := (n, ty) ∈ T.cols

/-- Everything a statement refers to is there: key columns are declared, the columns of a shard key belong to the primary key if there is one, a foreign key leads from columns of the
table to the primary key of a table that exists, column by column of matching types, and a relationship leads to a table that exists. -/
def RefsOk (sv : Server) : Stmt → Prop
  | .createTable _ _ cols pk shard =>
    (∀ k ∈ pk, k ∈ cols.map Prod.fst) ∧ ∀ n ks, shard = some (n, ks) → ∀ k ∈ ks, k ∈ cols.map Prod.fst ∧ (pk = [] ∨ k ∈ pk)
  | .alter s n (.addFK _ cols ts t tk) =>
    ∃ T U, sv.cat s n = some T ∧ sv.cat (ts.getD s) t = some U ∧ cols.length = tk.length ∧ tk.length = U.pk.length ∧
      ∀ (i : Nat) (a b : Str), cols[i]? = some a → tk[i]? = some b → b ∈ U.pk ∧ ∃ ta tb, T.HasCol a ta ∧ U.HasCol b tb ∧ TypesMatch ta tb
  | .alter s n (.addRel _ ts t _) => (∃ T, sv.cat s n = some T) ∧ ∃ U, sv.cat (ts.getD s) t = some U
  | .alter s n (.addPK cols) => ∃ T, sv.cat s n = some T ∧ ∀ k ∈ cols, k ∈ T.cols.map Prod.fst
  | .alter s n (.setFact _ keys) => ∃ T, sv.cat s n = some T ∧ ∀ k ∈ keys, k ∈ T.cols.map Prod.fst ∧ (T.pk = [] ∨ k ∈ T.pk)
  | _ => True

/-- A server that refuses statements that are not in order comes from `sv` to `sv'`. -/
inductive Accepts : Server → List Stmt → Server → Prop where
  | nil (sv : Server) : Accepts sv [] sv
  | cons (sv sv' sv'' : Server) (st : Stmt) (l : List Stmt) : RefsOk sv st → exec sv st = some sv' → Accepts sv' l sv'' → Accepts sv (st :: l) sv''

/-- No two tables, columns of a table or schemas are printed alike, and no schema is printed like the default schema. -/
structure NoCollision (o : GenOpts) (db db' : Database) : Prop where
  tables : (db'.tables.map Prod.fst).Nodup
  cols : ∀ n t, (n, t) ∈ db'.tables → (t.cols.map Prod.fst).Nodup
  schemas : db'.schemaNames.Nodup
  default : ∀ s ∈ db.schemaNames, PrintedAs o s c!"falcon_default_schema" → s = c!"falcon_default_schema"

/-- Foreign keys and relationships lead to tables of the same schema. -/
def WithinSchemas (db : Database) : Prop :=
  ∀ n t, TableOf db n t → (∀ m k, (m, k) ∈ t.fks → ∀ u, TableOf db k.toTable u → u.schema = t.schema) ∧
    ∀ m r, (m, r) ∈ t.rels → ∀ u, TableOf db r.toTable u → u.schema = t.schema

end Verif.Spec
