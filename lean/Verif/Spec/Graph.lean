import Verif.Spec.WellFormed
import Verif.Config
import Mathlib.Data.List.Chain
import Mathlib.Logic.Relation
/-
Specification: tables as a graph.  Foreign keys and relationships are the edges.  Uses only the data structures of the model, none of
its functions.
-/

namespace Verif.Spec
open Verif

/-- Table `a` of the database has a foreign key or relationship to `b`. -/
def Refers (db : Database) (a b : Str) : Prop :=
  ∃ t, TableOf db a t ∧ ((∃ m k, (m, k) ∈ t.fks ∧ k.toTable = b) ∨ (∃ m r, (m, r) ∈ t.rels ∧ r.toTable = b))

/-- Some table refers to `b`, which is not a table of the database. -/
def Dangling (db : Database) : Prop := ∃ a b, Refers db a b ∧ ¬ ∃ t, TableOf db b t

/-- One or more steps lead from `a` to `b`. -/
def Leads (db : Database) (a b : Str) : Prop := Relation.TransGen (Refers db) a b

/-- The tables of `p` are pairwise distinct, all in the database, and each refers to the next. -/
structure SimplePath (db : Database) (p : List Str) : Prop where
  tables : ∀ n ∈ p, ∃ t, TableOf db n t
  steps : p.IsChain (Refers db)
  distinct : p.Nodup

/-- In a map from names to lists of names, `a` lists `b`. -/
def Listed (m : Dict (List Str)) (a b : Str) : Prop := ∃ l, (a, l) ∈ m ∧ b ∈ l

/-- Every name listed has an entry. -/
def ClosedMap (m : Dict (List Str)) : Prop := ∀ a b, Listed m a b → ∃ l, (b, l) ∈ m

/-- From `s` the name `t` cannot be reached, nor a name without an entry, nor a circle. -/
structure Barren (m : Dict (List Str)) (t s : Str) : Prop where
  entries : ∀ x, Relation.ReflTransGen (Listed m) s x → ∃ l, (x, l) ∈ m
  noCircle : ∀ x, Relation.ReflTransGen (Listed m) s x → ¬ Relation.TransGen (Listed m) x x
  unreached : ¬ Relation.TransGen (Listed m) s t

/-- There is a way from `s` to a name that lists `t` on which all names listed before the one taken are barren. -/
inductive FoundFrom (m : Dict (List Str)) (t : Str) : Str → Prop where
  | direct {s l} : (s, l) ∈ m → t ∈ l → FoundFrom m t s
  | through {s n before after} : (s, before ++ n :: after) ∈ m → (∀ x ∈ before, Barren m t x) → FoundFrom m t n → FoundFrom m t s

/-- The number a configuration value stands for, if it is a number. -/
inductive Number : CfgVal → Rat → Prop where
  | int (n : Int) : Number (.int n) n
  | flt (q : Rat) : Number (.flt q) q

/-- The value a review uses: the setting if there is one, otherwise the default. -/
inductive Setting (cfg : Config) (name : Str) (default : CfgVal) : CfgVal → Prop where
  | given (v : CfgVal) : (name, v) ∈ cfg → Setting cfg name default v
  | missing : (∀ v, (name, v) ∉ cfg) → Setting cfg name default default

end Verif.Spec
