import Verif.Spec.Alter
import Verif.Spec.Types
import Verif.Spec.WellFormed
import Verif.Reports
/-
Specification for what the parser tells the user: what it means that a statement was carried out.
-/

namespace Verif.Spec
open Verif

/-- How often a word occurs in a text, in any letter case. -/
def occurrences (w : Str) : Str → Nat
  | [] => 0
  | c :: s => (if w <+: (c :: s).map small then 1 else 0) + occurrences w s

/-- The second database is the first with the table `n`, so far `t`, replaced by `t'`. -/
structure Replaced (n : Str) (t t' : Table) (db db' : Database) : Prop where
  there : TableOf db n t
  result : db' = changed db n (fun _ => t')

/-- The foreign keys are stored in the table `n`, one after the other. -/
inductive KeysStored (n : Str) : Database → List FK → Database → Prop where
  | nil {db} : KeysStored n db [] db
  | cons {db mid db' t k ks} : k.fromTable = t.name → Replaced n t { t with fks := t.fks.set k.name k } db mid → KeysStored n mid ks db' →
      KeysStored n db (k :: ks) db'

/-- The statement was carried out: the table it is about is there, and now has what the statement was to add; with foreign keys, one for every constraint. -/
inductive CarriedOut (stmt : Str) (db db' : Database) : Prop where
  | primary {n t cols} : ¬ Lacks c!"primary key" stmt → TableOf db n t → db' = changed db n (fun t => { t with pk := cols }) → CarriedOut stmt db db'
  | foreign {n ks} : ¬ Lacks c!"foreign" stmt → ks ≠ [] → ks.length = occurrences c!"constraint" stmt → KeysStored n db ks db' → CarriedOut stmt db db'
  | relationship {n t r} : ¬ Lacks c!"relationship" stmt → r.fromTable = t.name → Replaced n t { t with rels := t.rels.set r.name r } db db' → CarriedOut stmt db db'

/-- Some of it was left out: nothing happened at all, or fewer foreign keys were stored than there are constraints. -/
inductive LeftOut (stmt : Str) (db db' : Database) : Prop where
  | all : db' = db → LeftOut stmt db db'
  | some {n ks} : ks.length < occurrences c!"constraint" stmt → KeysStored n db ks db' → LeftOut stmt db db'

/-- An ALTER TABLE statement, for the parser. -/
structure Alters (stmt : Str) : Prop where
  alter : ¬ Lacks c!"alter table" stmt
  notCreate : NotCreate stmt

/-- It adds a primary key, foreign keys with the word CONSTRAINT, or a relationship. -/
inductive AddsSomething (stmt : Str) : Prop where
  | primary : ¬ Lacks c!"primary key" stmt → AddsSomething stmt
  | foreign : ¬ Lacks c!"foreign" stmt → ¬ Lacks c!"constraint" stmt → AddsSomething stmt
  | relationship : ¬ Lacks c!"relationship" stmt → Lacks c!"foreign" stmt → AddsSomething stmt

/-- The words of a statement that is to add something. -/
def phrase : Wanted → Str
  | .primaryKey => c!"primary key"
  | .foreignKey => c!"foreign"
  | .relationship => c!"relationship"
  | .shardKey => c!"hash"
  | .hashKey => c!"partition by hash"

/-! ## Messages -/

/-- What may stand between two fixed pieces of a text: nothing, blanks, or anything on the same line. -/
inductive Between where
  | none | blanks | anything
deriving DecidableEq, Repr

/-- The characters a gap may have. -/
def Between.allows : Between → Char → Prop
  | .none, _ => False
  | .blanks, c => c = ' '
  | .anything, c => c ≠ '\n'

/-- The text begins with these pieces, in any letter case and with these gaps after them. -/
def HasShape : List (Str × Between) → Str → Prop
  | [], _ => True
  | p :: l, s => ∃ m g r, s = m ++ (g ++ r) ∧ m.map small = p.1 ∧ (∀ c ∈ g, p.2.allows c) ∧ HasShape l r

/-- `alter table … primary key … ( … )`. -/
def primaryShape : List (Str × Between) :=
  [(c!"alter table ", .anything), (c!" ", .anything), (c!"primary key", .anything), (c!"(", .anything), (c!")", .none)]

/-- `alter table … add …`. -/
def addShape : List (Str × Between) := [(c!"alter table ", .anything), (c!" add", .anything)]

/-- `foreign key ( … ) references … ( … )`. -/
def keyShape : List (Str × Between) :=
  [(c!"foreign key", .blanks), (c!"(", .anything), (c!") references", .blanks), ([], .anything), (c!" (", .anything), (c!")", .none)]

/-- The same after a name. -/
def namedKeyShape : List (Str × Between) :=
  [([], .anything), (c!" foreign key", .blanks), (c!"(", .anything), (c!") references", .blanks), ([], .anything), (c!" (", .anything), (c!")", .none)]

/-- `alter table … add relationship … with … as …`. -/
def namedRelationshipShape : List (Str × Between) :=
  [(c!"alter table ", .anything), (c!" add relationship ", .anything), (c!" with ", .anything), (c!" as ", .anything)]

/-- The same without a name. -/
def relationshipShape : List (Str × Between) := [(c!"alter table ", .anything), (c!" add relationship with ", .anything), (c!" as ", .anything)]

/-- `create table … partition by hash … ( … ) key … ( … )`. -/
def hashShape : List (Str × Between) :=
  [(c!"create table", .anything), (c!"partition by hash", .anything), (c!"(", .anything), (c!") key", .anything), (c!"(", .anything), (c!")", .none)]

/-- The text between one CONSTRAINT and the next, or the end. -/
def PieceOf (stmt p : Str) : Prop :=
  ∃ a kw b, stmt = a ++ (kw ++ (p ++ b)) ∧ kw.map small = c!"constraint" ∧ Lacks c!"constraint" p ∧ (b = [] ∨ c!"constraint" <+: b.map small)

/-- A constraint of the statement: such a piece without white space, commas and semicolons around it. -/
def ConstraintOf (stmt c : Str) : Prop :=
  ∃ p a b, PieceOf stmt p ∧ p = a ++ (c ++ b) ∧ (∀ x ∈ a ++ b, isSpace x = true ∨ x = ',' ∨ x = ';') ∧ (∀ x, c.head? = some x → isSpace x = false)

/-- No name where a table is to be named: nothing at all, or a dot with nothing after it. -/
def NoName (g : Str) : Prop := g = [] ∨ ∃ p, g = p ++ ['.']

/-- Square brackets, as SQL Server uses them, replaced by quotes. -/
def bracketsQuoted (s : Str) : Str := s.map (fun c => if c = '[' ∨ c = ']' then '"' else c)

/-- The reason given for a failure is true. -/
inductive TrueReason (stmt : Str) (db : Database) : Wanted → Str → Prop where
  /-- There is no complete clause for the shard key. -/
  | noClause : (∀ r, r <:+ bracketsQuoted stmt → ¬ HasShape hashShape r) → TrueReason stmt db .hashKey c!"'NoneType' object has no attribute 'group'"
  /-- The number of shards is no number. -/
  | noNumber {n} : c!"(" ++ n ++ c!")" <:+: bracketsQuoted stmt → ¬ IntText n →
      TrueReason stmt db .hashKey (c!"invalid literal for int() with base 10: " ++ showName n)
  /-- The table to change has no name. -/
  | noName {w kw g b} : stmt = kw ++ (g ++ b) → kw.map small = c!"alter table " → NoName g → c!" " <+: b.map small → w = .primaryKey ∨ w = .relationship →
      TrueReason stmt db w c!"string index out of range"
  /-- The table to refer to has no name. -/
  | noTarget {w a kw g b} : stmt = a ++ (kw ++ (g ++ b)) → NoName g →
      (w = .foreignKey ∧ (∃ n, kw.map small = c!") references" ++ List.replicate n ' ') ∧ c!" (" <+: b.map small) ∨ (w = .relationship ∧ kw.map small = c!" with " ∧ c!" as " <+: b.map small) →
      TrueReason stmt db w c!"string index out of range"
  /-- The statement does not say that something is to be added. -/
  | noAdd : ¬ HasShape addShape stmt → TrueReason stmt db .foreignKey c!"'NoneType' object is not subscriptable"
  /-- The numbers of columns differ. -/
  | lengths {n t cols target refs} {name : Option Str} : TableOf db n t → cols.length ≠ refs.length →
      TrueReason stmt db .foreignKey (name.getD c!"None" ++ c!" has different length keys:  " ++ t.name ++ c!":" ++ showNames cols ++ c!" -- " ++ target ++ c!":" ++ showNames refs)

/-- The statement does not have the form it should have. -/
inductive Misshaped (stmt : Str) : Wanted → Prop where
  | primary : ¬ HasShape primaryShape stmt → Misshaped stmt .primaryKey
  | foreign {c} : ConstraintOf stmt c → ¬ HasShape namedKeyShape c → ¬ HasShape keyShape c → Misshaped stmt .foreignKey
  | relationship : ¬ HasShape namedRelationshipShape stmt → ¬ HasShape relationshipShape stmt → Misshaped stmt .relationship

/-- A message about a statement is true: the statement was to add what the message says, a table called unknown is not there, a statement from which something could not
be extracted does not have the right form, the reason of a failure is the true one, and the statement is quoted as it is, for CREATE TABLE with quotes for brackets. -/
inductive TrueReport (stmt : Str) (db : Database) : Report → Prop where
  | notFound {w} : ¬ Lacks (phrase w) stmt → Misshaped stmt w → TrueReport stmt db (.notFound w stmt)
  | failed {w why} : ¬ Lacks (phrase w) stmt → TrueReason stmt db w why → TrueReport stmt db (.failed w why (if w = .hashKey then bracketsQuoted stmt else stmt))
  | noTable {w n} : ¬ Lacks (phrase w) stmt → (∀ t, ¬ TableOf db n t) → TrueReport stmt db (.noTable w n)

end Verif.Spec
