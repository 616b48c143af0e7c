import Verif.Spec.Catalog
/-
Specification: reading TQL text.  A reader for the statements ThoughtSpot's TQL shell accepts, independent of the generator
(dt/generator.py) and of the DDL parser of the repository (dt/io.py).

Key words are upper case.  Both foreign key forms are read: `ADD CONSTRAINT "n" FOREIGN KEY (..)` and
`ADD CONSTRAINT FOREIGN KEY "n" (..)`, as well as `SET DIMENSIONS`; whether the server accepts them is outside the model
(DESIGN.md).
-/

namespace Verif.Spec
open Verif

/-! ## Cutting a script into statements -/

/-- Text up to each `;` outside quotes; what follows the last `;` is no statement.  First argument: the open quote, if any;
second: the current statement, reversed. -/
def cut : Option Char → Str → Str → List Str
  | _, _, [] => []
  | none, cur, c :: r =>
    if c = ';' then cur.reverse :: cut none [] r
    else cut (if c = '"' ∨ c = '\'' then some c else none) (c :: cur) r
  | some q, cur, c :: r => cut (if c = q then none else some q) (c :: cur) r

/-! ## Reading one statement -/

/-- White space between tokens. -/
def blankC (c : Char) : Bool := c = ' ' || c = '\n' || c = '\t' || c = '\r'

/-- Skip white space. -/
def skip (s : Str) : Str := s.dropWhile blankC

/-- Skip white space, then exactly `k`. -/
def eat (k s : Str) : Option Str := if k.isPrefixOf (skip s) then some ((skip s).drop k.length) else none

/-- A character of a word. -/
def wordC (c : Char) : Bool := ! (blankC c || c = '(' || c = ')' || c = ',' || c = ';' || c = '"' || c = '\'')

/-- The text does not go on with a word character. -/
def endOfWord : Str → Bool
  | [] => true
  | c :: _ => ! wordC c

/-- A key word: a whole word. -/
def kw (k s : Str) : Option Str := (eat k s).bind (fun r => if endOfWord r then some r else none)

/-- The rest is white space. -/
def atEnd (s : Str) : Option Unit := if skip s = [] then some () else none

/-- Text up to a closing character, which is required. -/
def upTo (q : Char) (s : Str) : Option (Str × Str) :=
  match s.dropWhile (· ≠ q) with
  | [] => none
  | _ :: r => some (s.takeWhile (· ≠ q), r)

/-- A name in double quotes. -/
def name (s : Str) : Option (Str × Str) := (eat c!"\"" s).bind (upTo '"')

/-- `"schema"."table"`. -/
def qname (s : Str) : Option (Str × Str × Str) := do
  let (a, s) ← name s
  let s ← eat c!"." s
  let (b, s) ← name s
  some (a, b, s)

/-- Where a list of names is: before a name (with or without one before), inside a name, after a name. -/
inductive LSt where
  | start | before | inside (cur : Str) | after
deriving DecidableEq

/-- A list `"a", "b", ...)` up to its closing parenthesis; `acc` is what was read, reversed. -/
def listGo : LSt → List Str → Str → Option (List Str × Str)
  | _, _, [] => none
  | .start, acc, c :: r =>
    if blankC c then listGo .start acc r
    else if c = '"' then listGo (.inside []) acc r
    else if c = ')' then some (acc.reverse, r) else none
  | .before, acc, c :: r =>
    if blankC c then listGo .before acc r else if c = '"' then listGo (.inside []) acc r else none
  | .inside cur, acc, c :: r =>
    if c = '"' then listGo .after (cur.reverse :: acc) r else listGo (.inside (c :: cur)) acc r
  | .after, acc, c :: r =>
    if blankC c then listGo .after acc r
    else if c = ',' then listGo .before acc r
    else if c = ')' then some (acc.reverse, r) else none

/-- `("a", "b", ...)`. -/
def names (s : Str) : Option (List Str × Str) := (eat c!"(" s).bind (listGo .start [])

/-- A column type: a word, or a word and arguments in parentheses. -/
def ctype (s : Str) : Option (Str × Str) :=
  let w := (skip s).takeWhile wordC
  let r := (skip s).dropWhile wordC
  if w = [] then none
  else match r with
    | '(' :: r' => (upTo ')' r').map (fun p => (w ++ c!"(" ++ p.1 ++ c!")", p.2))
    | _ => some (w, r)

/-- The items of a CREATE TABLE up to the closing parenthesis: columns, then possibly the primary key.  The counter bounds the
number of items. -/
def items : Nat → Str → Option (List (Str × Str) × List Str × Str)
  | 0, _ => none
  | k + 1, s =>
    match kw c!"CONSTRAINT" s with
    | some s => do
      let s ← kw c!"PRIMARY" s
      let s ← kw c!"KEY" s
      let (l, s) ← names s
      let s ← eat c!")" s
      some ([], l, s)
    | none => do
      let (n, s) ← name s
      let (ty, s) ← ctype s
      match eat c!"," s with
      | some s => do
        let (cs, l, s) ← items k s
        some ((n, ty) :: cs, l, s)
      | none => do
        let s ← eat c!")" s
        some ([(n, ty)], [], s)

/-- `PARTITION BY HASH (n) KEY (..)`. -/
def partition (s : Str) : Option ((Str × List Str) × Str) := do
  let s ← kw c!"PARTITION" s
  let s ← kw c!"BY" s
  let s ← kw c!"HASH" s
  let s ← eat c!"(" s
  let (n, s) ← upTo ')' s
  let s ← kw c!"KEY" s
  let (l, s) ← names s
  some ((n, l), s)

/-- After `CREATE TABLE`. -/
def createRest (s : Str) : Option Stmt := do
  let (sch, t, s) ← qname s
  let s ← eat c!"(" s
  let (cs, pk, s) ← match eat c!")" s with
    | some s => some ([], [], s)
    | none => items s.length s
  match atEnd s with
  | some () => some (.createTable sch t cs pk none)
  | none => do
    let (sh, s) ← partition s
    let _ ← atEnd s
    some (.createTable sch t cs pk (some sh))

/-- A table with or without schema. -/
def target (s : Str) : Option (Option Str × Str × Str) := do
  let (a, s) ← name s
  match eat c!"." s with
  | none => some (none, a, s)
  | some s => do
    let (b, s) ← name s
    some (some a, b, s)

/-- `"n" FOREIGN KEY` or `FOREIGN KEY "n"`. -/
def fkHead (s : Str) : Option (Str × Str) :=
  match kw c!"FOREIGN" s with
  | some s => (kw c!"KEY" s).bind name
  | none => do
    let (n, s) ← name s
    let s ← kw c!"FOREIGN" s
    let s ← kw c!"KEY" s
    some (n, s)

/-- After `ADD CONSTRAINT`. -/
def addConstraint (s : Str) : Option AlterOp :=
  match kw c!"PRIMARY" s with
  | some s => do
    let s ← kw c!"KEY" s
    let (l, s) ← names s
    let _ ← atEnd s
    some (.addPK l)
  | none => do
    let (n, s) ← fkHead s
    let (l, s) ← names s
    let s ← kw c!"REFERENCES" s
    let (ts, t, s) ← target s
    let (m, s) ← names s
    let _ ← atEnd s
    some (.addFK n l ts t m)

/-- After `ADD RELATIONSHIP`.  The condition is the rest without surrounding white space. -/
def addRelationship (s : Str) : Option AlterOp := do
  let (n, s) ← name s
  let s ← kw c!"WITH" s
  let (ts, t, s) ← target s
  let s ← kw c!"AS" s
  some (.addRel n ts t ((skip (skip s).reverse).reverse))

/-- The default value of a new column. -/
def default? (s : Str) : Option Unit :=
  match kw c!"DEFAULT" s with
  | none => atEnd s
  | some s =>
    match eat c!"''" s with
    | some s => atEnd s
    | none => (eat c!"0" s).bind atEnd

/-- After `ADD COLUMN`. -/
def addColumn (s : Str) : Option AlterOp := do
  let (n, s) ← name s
  let (ty, s) ← ctype s
  let _ ← default? s
  some (.addCol n ty)

/-- After `MODIFY COLUMN`. -/
def modifyColumn (s : Str) : Option AlterOp := do
  let (n, s) ← name s
  let (ty, s) ← ctype s
  let _ ← atEnd s
  some (.modCol n ty)

/-- After `DROP CONSTRAINT`. -/
def dropConstraint (s : Str) : Option AlterOp :=
  match kw c!"PRIMARY" s with
  | some s => do
    let s ← kw c!"KEY" s
    let _ ← atEnd s
    some .dropPK
  | none => do
    let (n, s) ← name s
    let _ ← atEnd s
    some (.dropCon n)

/-- After `DROP COLUMN`. -/
def dropColumn (s : Str) : Option AlterOp := do
  let (n, s) ← name s
  let _ ← atEnd s
  some (.dropCol n)

/-- After `SET`. -/
def setKind (s : Str) : Option AlterOp :=
  match (kw c!"DIMENSION" s).or (kw c!"DIMENSIONS" s) with
  | some s => do
    let _ ← atEnd s
    some .setDimension
  | none => do
    let s ← kw c!"FACT" s
    let ((n, l), s) ← partition s
    let _ ← atEnd s
    some (.setFact n l)

/-- After the table of an `ALTER TABLE`. -/
def alterRest (s : Str) : Option AlterOp :=
  match kw c!"ADD" s with
  | some s =>
    match kw c!"CONSTRAINT" s with
    | some s => addConstraint s
    | none =>
      match kw c!"RELATIONSHIP" s with
      | some s => addRelationship s
      | none => (kw c!"COLUMN" s).bind addColumn
  | none =>
    match kw c!"DROP" s with
    | some s =>
      match kw c!"CONSTRAINT" s with
      | some s => dropConstraint s
      | none => (kw c!"COLUMN" s).bind dropColumn
    | none =>
      match kw c!"MODIFY" s with
      | some s => (kw c!"COLUMN" s).bind modifyColumn
      | none => (kw c!"SET" s).bind setKind

/-- A name and nothing else. -/
def lone (f : Str → Stmt) (s : Str) : Option Stmt := do
  let (n, s) ← name s
  let _ ← atEnd s
  some (f n)

/-- Read one statement (without its `;`). -/
def readStmt (s : Str) : Option Stmt :=
  match kw c!"CREATE" s with
  | some s =>
    match kw c!"TABLE" s with
    | some s => createRest s
    | none =>
      match kw c!"DATABASE" s with
      | some s => lone .createDb s
      | none => (kw c!"SCHEMA" s).bind (lone .createSchema)
  | none =>
    match kw c!"USE" s with
    | some s => lone .useDb s
    | none =>
      match kw c!"DROP" s with
      | some s => do
        let s ← kw c!"TABLE" s
        let (sch, t, s) ← qname s
        let _ ← atEnd s
        some (.dropTable sch t)
      | none => do
        let s ← kw c!"ALTER" s
        let s ← kw c!"TABLE" s
        let (sch, t, s) ← qname s
        let op ← alterRest s
        some (.alter sch t op)

/-- All of them, if every one is there. -/
def allSome {α : Type} : List (Option α) → Option (List α)
  | [] => some []
  | none :: _ => none
  | some a :: l => (allSome l).map (a :: ·)

/-- Read a script. -/
def readScript (s : Str) : Option (List Stmt) := allSome ((cut none [] s).map readStmt)

end Verif.Spec

/-! ## Texts that survive being embedded in a script -/

namespace Verif
open Verif.Spec

/-- Run the quote state over a text; `none` if a `;` occurs outside quotes. -/
def scan : Option Char → Str → Option (Option Char)
  | m, [] => some m
  | none, c :: r => if c = ';' then none else scan (if c = '"' ∨ c = '\'' then some c else none) r
  | some q, c :: r => scan (if c = q then none else some q) r

/-- The text has no `;` outside quotes and leaves no quote open. -/
def Closed (s : Str) : Prop := scan none s = some none

instance (s : Str) : Decidable (Closed s) := inferInstanceAs (Decidable (_ = _))

/-- A column type as it can be read back: a word, possibly with arguments in parentheses. -/
def PlainType (ty : Str) : Prop :=
  ∃ w, w ≠ [] ∧ (∀ c ∈ w, wordC c = true) ∧
    (ty = w ∨ ∃ a, (∀ c ∈ a, c ≠ ')' ∧ c ≠ ';' ∧ c ≠ '"' ∧ c ≠ '\'') ∧ ty = w ++ c!"(" ++ a ++ c!")")

/-- A number as it can be written in `HASH (..)`. -/
def PlainCount (s : Str) : Prop := ∀ c ∈ s, c ≠ ')' ∧ c ≠ ';' ∧ c ≠ '"' ∧ c ≠ '\''

/-- A relationship condition as it can be read back. -/
structure PlainCondition (s : Str) : Prop where
  closed : Closed s
  left : skip s = s
  right : skip s.reverse = s.reverse

/-- A table whose CREATE TABLE statement can be read back. -/
structure PlainTable (t : Table) : Prop where
  hname : '"' ∉ t.name
  hschema : '"' ∉ t.schema
  hcols : ∀ p ∈ t.cols, '"' ∉ p.2.name ∧ PlainType p.2.type
  hpk : ∀ k ∈ t.pk, '"' ∉ k
  /-- without columns the key clause would start with a comma -/
  hempty : t.cols = [] → t.pk = []
  hshard : ∀ sk, t.shard = some sk → (∀ s, sk.number ≠ .text s) ∧ ∀ k ∈ sk.keys, '"' ∉ k

/-- A foreign key whose statement can be read back. -/
structure PlainFK (k : FK) : Prop where
  hname : '"' ∉ k.name
  hfrom : '"' ∉ k.fromTable
  hfromKeys : ∀ x ∈ k.fromKeys, '"' ∉ x
  hto : '"' ∉ k.toTable
  htoKeys : ∀ x ∈ k.toKeys, '"' ∉ x

/-- A relationship whose statement can be read back. -/
structure PlainRel (r : Rel) : Prop where
  hname : '"' ∉ r.name
  hfrom : '"' ∉ r.fromTable
  hto : '"' ∉ r.toTable
  hcond : PlainCondition r.conditions

/-- A database whose script can be read back. -/
structure PlainDb (db : Database) : Prop where
  hname : '"' ∉ db.name
  hschemas : ∀ p ∈ db.schemas, '"' ∉ p.1
  htables : ∀ p ∈ db.tables, PlainTable p.2
  hfks : ∀ p ∈ db.tables, ∀ q ∈ p.2.fks, PlainFK q.2
  hrels : ∀ p ∈ db.tables, ∀ q ∈ p.2.rels, PlainRel q.2

/-- The foreign keys and relationships of a table are stored on the table they start from and have different names. -/
structure KeysInPlace (t : Table) : Prop where
  fkFrom : ∀ p ∈ t.fks, p.2.fromTable = t.name
  relFrom : ∀ p ∈ t.rels, p.2.fromTable = t.name
  clash : ∀ p ∈ t.fks, ∀ q ∈ t.rels, p.1 ≠ q.1

end Verif
