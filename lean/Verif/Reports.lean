import Verif.Parser
import Verif.Validator
/-
What the parser writes to the standard error stream while it reads a script: the messages of `eprint` (dt/util.py) and of `logging.error`, which Python
prints there unless logging is set up otherwise.  The functions here do the same as those of Parser.lean and also return the messages; that the databases
agree is proved in Lemmas/Reports.lean.  The messages of `logging.debug` are left out.
-/

namespace Verif

/-- What a statement was to add. -/
inductive Wanted where
  | primaryKey | foreignKey | relationship | shardKey | hashKey
deriving DecidableEq, Repr

/-- A message of the parser. -/
inductive Report where
  /-- "Possible parsing error: unable to extract … from …" (dt/io.py:548, 597, 639). -/
  | notFound (w : Wanted) (stmt : Str)
  /-- "Error … extracting … from: …", after an exception, with its text (dt/io.py:479, 561, 615, 653, 671). -/
  | failed (w : Wanted) (why : Str) (stmt : Str)
  /-- "Attempting to add … to table …, which is not in the database." (dt/io.py:559, 612-613, 651, 669). -/
  | noTable (w : Wanted) (n : Str)
  /-- "Input file … doesn't exist for parsing." (dt/io.py:95). -/
  | noFile (f : Str)
  /-- The message of the exception when a file cannot be decoded (dt/io.py:183-184). -/
  | decoding (message : Str)
deriving DecidableEq, Repr

/-- The words for what was to be added (dt/io.py:479, 559, 561, 613, 615, 651, 653, 669, 671). -/
def Wanted.words : Wanted → Str
  | .primaryKey => c!"primary key"
  | .foreignKey => c!"foreign key"
  | .relationship => c!"relationship"
  | .shardKey => c!"shard key"
  | .hashKey => c!"hash key"

/-- A line on the standard error stream.  `logging.error` puts the level and the name of the logger before the message. -/
def Report.text : Report → Str
  | .notFound .relationship stmt => c!"Possible parsing error: unable to extract generic relationship from " ++ stmt ++ c!"."
  | .notFound w stmt => c!"Possible parsing error: unable to extract " ++ w.words ++ c!" from " ++ stmt ++ c!"."
  | .failed w why stmt => c!"Error \"" ++ why ++ c!"\" extracting " ++ w.words ++ c!" from: " ++ stmt
  | .noTable w n => c!"ERROR:root:Attempting to add a " ++ w.words ++ c!" to table " ++ n ++ c!", which is not in the database."
  | .noFile f => c!"Input file " ++ f ++ c!" doesn't exist for parsing."
  | .decoding message => message

/-- All the lines. -/
def reportLines (ms : List Report) : Str := ms.flatMap (fun m => m.text ++ c!"\n")

/-- The text of the exception when `matches` is `None` and a group is asked for (dt/io.py:474). -/
def noGroup : Str := c!"'NoneType' object has no attribute 'group'"
/-- The same for an element (dt/io.py:580). -/
def noItem : Str := c!"'NoneType' object is not subscriptable"
/-- The text of the `IndexError` for the first character of an empty text (dt/io.py:504). -/
def noChar : Str := c!"string index out of range"
/-- The text of the `ValueError` of `int` (dt/io.py:474). -/
def badInt (n : Str) : Str := c!"invalid literal for int() with base 10: " ++ pyRepr n

/-- The text of the exception with which `ForeignKey.__init__` ends (dt/model.py:94-116); an assertion has none. -/
def keyFailure (tn : Str) (k : Option Str × List Str × Str × List Str) : PyErr → Str
  | .value => k.1.getD c!"None" ++ c!" has different length keys:  " ++ tn ++ c!":" ++ reprList k.2.1 ++ c!" -- " ++ k.2.2.1 ++ c!":" ++ reprList k.2.2.2
  | _ => []

/-- `_add_hashkey` (dt/io.py:461-479).  Without a match, `matches.group` raises `AttributeError`. -/
def addHashKeyTold (t : Table) (stmt : Str) : Table × List Report :=
  match reSearch patHash stmt with
  | some [n, keys] =>
    match pyInt n with
    | some n => ({ t with shard := some { keys := cleanNames keys, number := .int n } }, [])
    | none => (t, [.failed .hashKey (badInt n) stmt])
  | _ => (t, [.failed .hashKey noGroup stmt])

/-- `_parse_create_table` (dt/io.py:208-224). -/
def parseCreateTableTold (schema : Str) (db : Database) (stmt : Str) : Except PyErr (Database × List Report) := do
  let stmt := replace c!"]" c!"\"" (replace c!"[" c!"\"" stmt)
  let t ← mkTable (some (getTableName stmt)) (some schema) none none
  let t ← addColumnsOf t stmt
  let r := if hasSub c!"partition by hash" (lower stmt) then addHashKeyTold t stmt else (t, [])
  .ok (db.addTable r.1, r.2)

/-- `_add_primary_key` (dt/io.py:534-561). -/
def addPrimaryKeyTold (db : Database) (stmt : Str) : Database × List Report :=
  match reMatch patPK stmt with
  | some [tn, keys] =>
    match extractTableName tn with
    | none => (db, [.failed .primaryKey noChar stmt])
    | some tn =>
      match db.getTable tn with
      | some _ => (db.updateTable tn (fun t => { t with pk := cleanNames keys }), [])
      | none => (db, [.noTable .primaryKey tn])
  | _ => (db, [.notFound .primaryKey stmt])

/-- What the body of the loop of `_add_foreign_key` reads from a constraint (dt/io.py:582-605), or the message with which it gives up. -/
def readConstraintTold (stmt c : Str) : Except Report (Option Str × List Str × Str × List Str) :=
  let c := strip (stripChars (· == ';') (stripChars (· == ',') (strip c)))
  match reMatch patFK c with
  | some [n, fk, tt, tk] =>
    match extractTableName tt with
    | some tt => .ok (some (cleanName n), cleanNames fk, tt, cleanNames tk)
    | none => .error (.failed .foreignKey noChar stmt)
  | _ =>
    match reMatch patFKNoName c with
    | some [fk, tt, tk] =>
      match extractTableName tt with
      | some tt => .ok (none, cleanNames fk, tt, cleanNames tk)
      | none => .error (.failed .foreignKey noChar stmt)
    | _ => .error (.notFound .foreignKey stmt)

/-- The loop of `_add_foreign_key` (dt/io.py:581-613).  A table that is not there is reported and the loop goes on. -/
def addConstraintsTold (stmt tn : Str) : Database → List Str → Database × List Report
  | db, [] => (db, [])
  | db, c :: cs =>
    match readConstraintTold stmt c with
    | .error m => (db, [m])
    | .ok k =>
      match db.getTable tn with
      | none =>
        let r := addConstraintsTold stmt tn db cs
        (r.1, .noTable .foreignKey tn :: r.2)
      | some t =>
        match t.addForeignKey (some (.many k.2.1)) (some k.2.2.1) (some (.many k.2.2.2)) k.1 with
        | .error e => (db, [.failed .foreignKey (keyFailure t.name k e) stmt])
        | .ok t' => addConstraintsTold stmt tn (db.updateTable tn (fun _ => t')) cs

/-- `_add_foreign_key` (dt/io.py:563-615).  Without a match, `matches[0]` raises `TypeError`. -/
def addForeignKeyTold (db : Database) (stmt : Str) : Database × List Report :=
  match reMatch patAdd stmt with
  | some [tn] => addConstraintsTold stmt (cleanName tn) db (splitCi c!"constraint" stmt).tail
  | _ => (db, [.failed .foreignKey noItem stmt])

/-- What `_add_generic_relationship` reads (dt/io.py:627-645), or the message with which it gives up. -/
def readRelationshipTold (stmt : Str) : Except Report (Str × Option Str × Str × Str) :=
  match reMatch patRel stmt with
  | some [tn, n, tt, c] =>
    match extractTableName tn, extractTableName tt with
    | some tn, some tt => .ok (tn, some (cleanName n), tt, c)
    | _, _ => .error (.failed .relationship noChar stmt)
  | _ =>
    match reMatch patRelNoName stmt with
    | some [tn, tt, c] =>
      match extractTableName tn, extractTableName tt with
      | some tn, some tt => .ok (tn, none, tt, c)
      | _, _ => .error (.failed .relationship noChar stmt)
    | _ => .error (.notFound .relationship stmt)

/-- `_add_generic_relationship` (dt/io.py:617-653).  `GenericRelationship.__init__` can only end with an assertion, which has no text. -/
def addRelationshipTold (db : Database) (stmt : Str) : Database × List Report :=
  match readRelationshipTold stmt with
  | .error m => (db, [m])
  | .ok (tn, n, tt, c) =>
    match db.getTable tn with
    | none => (db, [.noTable .relationship tn])
    | some t =>
      match t.addRelationship (some tt) n (some c) with
      | .ok t' => (db.updateTable tn (fun _ => t'), [])
      | .error _ => (db, [.failed .relationship [] stmt])

/-- `_add_shard_key` (dt/io.py:655-671): it looks for a table with an empty name and never changes anything. -/
def addShardKeyTold (db : Database) : Database × List Report :=
  match db.getTable [] with
  | some _ => (db, [])
  | none => (db, [.noTable .shardKey []])

/-- One round of the loop of `parse_ddl` (dt/io.py:103-127). -/
def parseStatementTold (schema : Str) (db : Database) (stmt : Str) : Except PyErr (Database × List Report) :=
  let l := lower stmt
  if hasSub c!"create database" l then .ok (db, [])
  else if hasSub c!"create table" l || hasSub c!"create or replace table" l then parseCreateTableTold schema db stmt
  else if hasSub c!"alter table" l then
    if hasSub c!"primary key" l then .ok (addPrimaryKeyTold db stmt)
    else if hasSub c!"foreign" l then .ok (addForeignKeyTold db stmt)
    else if hasSub c!"relationship" l then .ok (addRelationshipTold db stmt)
    else if hasSub c!"hash" l then .ok (addShardKeyTold db)
    else .ok (db, [])
  else .ok (db, [])

/-- The loop of `parse_ddl` (dt/io.py:102-127): the database so far, the messages, and the exception that ended it, if any. -/
def parseStatementsTold (schema : Str) : Database → List Str → Database × List Report × Option PyErr
  | db, [] => (db, [], none)
  | db, s :: l =>
    match parseStatementTold schema db s with
    | .ok (db, ms) =>
      let r := parseStatementsTold schema db l
      (r.1, ms ++ r.2.1, r.2.2)
    | .error e => (db, [], some e)

/-- The messages of `DDLParser.parse_ddl` (dt/io.py:84-129); what it returns is `parseDdl`. -/
def parseReports (fs : FS) (p : ParserSt) (filename : Option Str) : List Report :=
  match filename with
  | none | some [] => []
  | some f =>
    match fs f with
    | none => [.noFile f]
    | some .unreadable => []
    | some (.text content) => (parseStatementsTold p.schemaName (Database.empty p.databaseName) (getStatements (fileLines content))).2.1
    | some (.undecodable before message) =>
      .decoding message :: (parseStatementsTold p.schemaName (Database.empty p.databaseName) (getStatements (fileLines before))).2.1

end Verif
