import Verif.Spec.Reading
/-
Specification for the messages of the parser: what is said about every statement, and so about every file.
-/

namespace Verif.Spec
open Verif

/-- What is said about the shard key of a CREATE TABLE; the reasons are the texts of Python's exceptions. -/
inductive HashTold (s : Str) : List Report → Prop where
  | fine {k} : ShardOf s k → HashTold s []
  | noClause : (∀ r, r <:+ s → ¬ HasShape hashShape r) → HashTold s [.failed .hashKey c!"'NoneType' object has no attribute 'group'" s]
  | noNumber {a r n keys} : s = a ++ r → (∀ r', r' <:+ s → r.length < r'.length → ¬ HasShape hashShape r') →
      Longest (marked hashShape [false, false, true, false, true, false]) r [n, keys] → (∀ m, ¬ IntValue n m) →
      HashTold s [.failed .hashKey (c!"invalid literal for int() with base 10: " ++ showName n) s]

/-- What is said about a primary key. -/
inductive PrimaryTold (s : Str) (db : Database) : List Report → Prop where
  | notFound : ¬ HasShape primaryShape s → PrimaryTold s db [.notFound .primaryKey s]
  | noName {g f} : Longest (marked primaryShape [true, false, false, true, false]) s [g, f] → NoName g →
      PrimaryTold s db [.failed .primaryKey c!"string index out of range" s]
  | noTable {g f tn} : Longest (marked primaryShape [true, false, false, true, false]) s [g, f] → NamesTable g tn → (∀ t, ¬ TableOf db tn t) →
      PrimaryTold s db [.noTable .primaryKey tn]
  | fine {g f tn t} : Longest (marked primaryShape [true, false, false, true, false]) s [g, f] → NamesTable g tn → TableOf db tn t → PrimaryTold s db []

/-- The target of a constraint has no name. -/
inductive NoTarget (c : Str) : Prop where
  | named {x n f u g} : Shaved c x → Longest (marked namedKeyShape [true, false, true, false, true, true, false]) x [n, f, u, g] → NoName u → NoTarget c
  | unnamed {x f u g} : Shaved c x → ¬ HasShape namedKeyShape x → Longest (marked keyShape [false, true, false, true, true, false]) x [f, u, g] → NoName u → NoTarget c

/-- What is said about the constraints of a statement, one after the other: the first that is not of the right form, names no table or has lists of different lengths is
the last one that is looked at; a table that is not there is reported for each of them. -/
inductive ConstraintsTold (s : Str) (db : Database) (tn : Str) : List Str → List Report → Prop where
  | nil : ConstraintsTold s db tn [] []
  | notFound {c l x} : Shaved c x → ¬ HasShape namedKeyShape x → ¬ HasShape keyShape x → ConstraintsTold s db tn (c :: l) [.notFound .foreignKey s]
  | noName {c l} : NoTarget c → ConstraintsTold s db tn (c :: l) [.failed .foreignKey c!"string index out of range" s]
  | noTable {c l k ms} : GivesKey c k → (∀ t, ¬ TableOf db tn t) → ConstraintsTold s db tn l ms → ConstraintsTold s db tn (c :: l) (.noTable .foreignKey tn :: ms)
  | lengths {c l k t} : GivesKey c k → TableOf db tn t → k.cols.length ≠ k.refs.length → ConstraintsTold s db tn (c :: l) [.failed .foreignKey
      (k.name.getD c!"None" ++ c!" has different length keys:  " ++ t.name ++ c!":" ++ showNames k.cols ++ c!" -- " ++ k.table ++ c!":" ++ showNames k.refs) s]
  | fine {c l k t ms} : GivesKey c k → TableOf db tn t → k.cols.length = k.refs.length → ConstraintsTold s db tn l ms → ConstraintsTold s db tn (c :: l) ms

/-- What is said about foreign keys. -/
inductive ForeignTold (s : Str) (db : Database) : List Report → Prop where
  | noAdd : ¬ HasShape addShape s → ForeignTold s db [.failed .foreignKey c!"'NoneType' object is not subscriptable" s]
  | constraints {g tn p parts ms} : Longest (marked addShape [true, false]) s [g] → Written g tn → WordCut c!"constraint" s (p :: parts) →
      ConstraintsTold s db tn parts ms → ForeignTold s db ms

/-- What is said about a relationship. -/
inductive RelationshipTold (s : Str) (db : Database) : List Report → Prop where
  | notFound : ¬ HasShape namedRelationshipShape s → ¬ HasShape relationshipShape s → RelationshipTold s db [.notFound .relationship s]
  | noName {t m u c} : Longest (marked namedRelationshipShape [true, true, true, true]) s [t, m, u, c] → NoName t ∨ NoName u →
      RelationshipTold s db [.failed .relationship c!"string index out of range" s]
  | noNameEither {t u c} : ¬ HasShape namedRelationshipShape s → Longest (marked relationshipShape [true, true, true]) s [t, u, c] → NoName t ∨ NoName u →
      RelationshipTold s db [.failed .relationship c!"string index out of range" s]
  | noTable {tn r} : GivesRelationship s tn r → (∀ t, ¬ TableOf db tn t) → RelationshipTold s db [.noTable .relationship tn]
  | fine {tn r t} : GivesRelationship s tn r → TableOf db tn t → RelationshipTold s db []

/-- What is said about a statement. -/
inductive Tells (s : Str) (db : Database) : List Report → Prop where
  | create : CreatesTable s → Lacks c!"partition by hash" s → Tells s db []
  | sharded {ms} : CreatesTable s → ¬ Lacks c!"partition by hash" s → HashTold (asQuotes s) ms → Tells s db ms
  | primary {ms} : Alters s → ¬ Lacks c!"primary key" s → PrimaryTold s db ms → Tells s db ms
  | foreign {ms} : Alters s → Lacks c!"primary key" s → ¬ Lacks c!"foreign" s → ForeignTold s db ms → Tells s db ms
  | relationship {ms} : Alters s → Lacks c!"primary key" s → Lacks c!"foreign" s → ¬ Lacks c!"relationship" s → RelationshipTold s db ms → Tells s db ms
  | hash : Alters s → (∀ w ∈ [c!"primary key", c!"foreign", c!"relationship"], Lacks w s) → ¬ Lacks c!"hash" s → (∀ t, ¬ TableOf db [] t) →
      Tells s db [.noTable .shardKey []]
  | hashSilent {t} : Alters s → (∀ w ∈ [c!"primary key", c!"foreign", c!"relationship"], Lacks w s) → ¬ Lacks c!"hash" s → TableOf db [] t → Tells s db []
  | unknown : Alters s → (∀ w ∈ [c!"primary key", c!"foreign", c!"relationship", c!"hash"], Lacks w s) → Tells s db []
  | other : ¬ CreatesTable s → ¬ Alters s → Tells s db []

/-- What is said about statements, one after the other, up to the first that raises. -/
inductive TellAll (schema : Str) : List Str → Database → List Report → Prop where
  | nil {db} : TellAll schema [] db []
  | cons {s l db db' ms ms'} : Does schema s db db' → Tells s db ms → TellAll schema l db' ms' → TellAll schema (s :: l) db (ms ++ ms')
  | stop {s l db e} : Breaks s e → TellAll schema (s :: l) db []

end Verif.Spec
