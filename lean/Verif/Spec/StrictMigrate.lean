import Verif.Spec.StrictServer
import Verif.Spec.MigrateOrder
/-
Specification: when a checking server accepts the entries of a difference list.
-/

namespace Verif.Spec
open Verif

/-- Table `m` looks like `u` while the script is working on the keys of table `n`, on its way from `old` to `new`: a table with an earlier name is the new one,
a table with a later name the old one, and the table itself has the new primary key but the old columns. -/
def AtMoment (old new : Database) (n m : Str) (u : Table) : Prop :=
  if Earlier m n then TableOf new m u
  else if m = n then ∃ uo un, TableOf old m uo ∧ TableOf new m un ∧ u = { uo with pk := un.pk }
  else TableOf old m u

/-- What an entry refers to is there when its statement is executed. -/
def EntryOk (old new : Database) : Diff → Prop
  | .tableCreated _ t => (∀ k ∈ t.pk, ∃ c, ColumnOf t k c) ∧
      ∀ sh, t.shard = some sh → ∀ k ∈ sh.keys, (∃ c, ColumnOf t k c) ∧ (t.pk = [] ∨ k ∈ t.pk)
  | .pkAdded _ t ks => ∀ k ∈ ks, ∃ c, ColumnOf t k c
  | .shardAdded _ t _ ks => ∀ k ∈ ks, (∃ c, ColumnOf t k c) ∧ ∀ u, TableOf new t.name u → u.pk = [] ∨ k ∈ u.pk
  | .fkAdded _ t fk => ∃ u, AtMoment old new t.name fk.toTable u ∧ u.schema = t.schema ∧
      fk.fromKeys.length = fk.toKeys.length ∧ fk.toKeys.length = u.pk.length ∧
      ∀ (i : Nat) (a b : Str), fk.fromKeys[i]? = some a → fk.toKeys[i]? = some b →
        b ∈ u.pk ∧ ∃ ca cb, ColumnOf t a ca ∧ ColumnOf u b cb ∧ TypesMatch ca.type cb.type
  | .relAdded _ t r => ∃ u, AtMoment old new t.name r.toTable u ∧ u.schema = t.schema
  | _ => True

/-- From `old` to `new` no table is new, no table gains a column or changes the type of one, and primary keys stay: only shard keys, foreign keys and
relationships are new, and anything may disappear. -/
structure NothingToReferTo (old new : Database) : Prop where
  tables : ∀ n u, TableOf new n u → ∃ t, TableOf old n t
  cols : ∀ n t u, TableOf old n t → TableOf new n u → ∀ c col, ColumnOf u c col → ColumnOf t c col
  pk : ∀ n t u, TableOf old n t → TableOf new n u → t.pk = u.pk

end Verif.Spec
