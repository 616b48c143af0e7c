import Verif.Excel
import Verif.Diff
import Verif.Validator
import Verif.Config
/-
Model of the three command line tools: ddltools/convert_ddl.py, ddltools/ddldiff.py, ddltools/review_model.py.

Arguments come parsed; how command lines are parsed is modelled in Argparse.lean and CommandLine.lean, messages to the terminal in Console.lean, DiffConsole.lean and
ReviewConsole.lean.  Left out: logging.  Errors of the operating system and of the
libraries (no such file, no permission, not a workbook) are `PyErr.unmodelled`.  openpyxl refuses texts with control characters; that is left
out, too.
-/

namespace Verif

/-- A file: a text file (or one that cannot be opened or decoded), or an Excel workbook. -/
inductive Item where
  | file (s : FileState)
  | book (wb : Workbook)

/-- The files that exist. -/
abbrev Disk := Str → Option Item

/-- The message when a workbook is read as a text.  Simplified: the number of the byte and its position, which come next, depend on the file. -/
def bookMessage : Str := c!"'utf-8' codec can't decode byte"

/-- The files as text files; a workbook is not a text: simplified, nothing of it can be decoded (the first piece Python decodes has 8192 bytes). -/
def Disk.fs (d : Disk) : FS := fun f => (d f).map (fun i => match i with
  | .file s => s
  | .book _ => .undecodable [] bookMessage)

/-- A disk after a file was written (`some`) or removed (`none`). -/
def Disk.put (d : Disk) (f : Str) (i : Option Item) : Disk := fun g => if g = f then i else d g

/-- What the tools change: the files, and the commands sent to servers, as host and command. -/
structure World where
  disk : Disk
  sent : List (Str × Str)

/-- What the tools depend on: which files `open(f, "w")` can open, what a server answers to a command (lines, or an exception), what
comes back of unusual cells (`stored`). -/
structure Env where
  writable : Str → Bool
  answer : Str → Str → Except PyErr (List Str)
  other : PyCell → XCell

/-- A program: the world afterwards and what is returned or raised. -/
def Act (α : Type) : Type := World → World × Except PyErr α

/-- Running one program after the other; an exception stops. -/
instance : Monad Act where
  pure a := fun w => (w, .ok a)
  bind x f := fun w => match x w with
    | (w, .error e) => (w, .error e)
    | (w, .ok a) => f a w

/-- Raise an exception or return. -/
def Act.lift {α : Type} (x : Except PyErr α) : Act α := fun w => (w, x)

/-- `if c:` without an `else`. -/
def Act.when (c : Bool) (x : Act Unit) : Act Unit := if c then x else pure ()

/-- Truth of an optional argument: given and not empty. -/
def given (o : Option Str) : Bool := match o with
  | none => false
  | some s => decide (s ≠ [])

/-! ## convert_ddl -/

/-- The arguments of convert_ddl (ddltools/convert_ddl.py:88-157). -/
structure ConvertArgs where
  version : Bool := false
  empty : Bool := false
  fromDdl : Option Str := none
  toTql : Option Str := none
  fromTs : Option Str := none
  toTs : Option Str := none
  fromExcel : Option Str := none
  toExcel : Option Str := none
  database : Option Str := none
  schema : Str := defaultSchema
  createDb : Bool := false
  lowercase : Bool := false
  uppercase : Bool := false
  camelcase : Bool := false
  validate : Bool := false
deriving DecidableEq, Repr

/-- `valid_args` (ddltools/convert_ddl.py:160-177). -/
def validConvert (a : ConvertArgs) : Bool :=
  if !a.empty && !a.version && !given a.fromDdl && !given a.fromExcel && !given a.toExcel && !given a.fromTs then false
  else if (given a.fromDdl || given a.fromTs) && !given a.database then false
  else true

/-- `DDLParser(name, schema).parse_ddl(f)` (dt/io.py:67-129) where the name may be missing: `Database(None)` raises unless the file does not
exist (dt/io.py:93-99, dt/model.py:553-559). -/
def parseFor (fs : FS) (name : Option Str) (schema : Str) (f : Option Str) : Except PyErr (Option Database) :=
  match name with
  | some n => (parseDdl fs { databaseName := n, schemaName := schema } f).2
  | none => if given f && (fs (f.getD [])).isNone then .ok none else .error .assertion

/-- `read_ddl` (ddltools/convert_ddl.py:180-188). -/
def readDdl (database : Option Str) (schema : Str) (f : Option Str) : Act (Option Database) := fun w =>
  (w, parseFor w.disk.fs database schema f)

/-- `read_excel` (ddltools/convert_ddl.py:191-214). -/
def readExcel (f : Str) : Act (Option Database) := fun w =>
  (w, match w.disk f with
    | some (.book wb) => (readXls wb).map (fun dbs => if dbs.length = 0 then none else dbs.vals.head?)
    | _ => .error .unmodelled)

/-- The temporary file of a database (ddltools/convert_ddl.py:228, 280, ddltools/review_model.py:192). -/
def tmpFile (database : Str) : Str := database ++ c!".tmp"

/-- The text written to the temporary file (ddltools/convert_ddl.py:230-231). -/
def answerText (lines : List Str) : Str := (lines.map (· ++ c!"\n")).flatten

/-- `read_from_ts` (ddltools/convert_ddl.py:217-238, ddltools/review_model.py:181-201). -/
def readFromTs (env : Env) (host : Str) (name : Option Str) : Act (Option Database) := fun w =>
  let database := name.getD c!"None"
  let cmd := c!"script database " ++ database ++ c!";"
  let w := { w with sent := w.sent ++ [(host, cmd)] }
  match env.answer host cmd with
  | .error e => (w, .error e)
  | .ok out =>
    let f := tmpFile database
    if env.writable f then
      let w := { w with disk := w.disk.put f (some (.file (.text (answerText out)))) }
      match parseFor w.disk.fs name defaultSchema (some f) with
      | .error e => (w, .error e)
      | .ok db => ({ w with disk := w.disk.put f none }, .ok db)
    else (w, .error .unmodelled)

/-- The options of the writer (ddltools/convert_ddl.py:248-250, 282-284). -/
def tqlOpts (a : ConvertArgs) : TqlOpts :=
  { uppercase := a.uppercase, lowercase := a.lowercase, camelcase := a.camelcase, createDb := a.createDb }

/-- `TQLWriter.write_tql` to a file (dt/io.py:36-50, 698-730): the file is opened before the database is looked at. -/
def tqlToFile (env : Env) (o : TqlOpts) (db : Option Database) (f : Str) : Act Unit := fun w =>
  let r : Output := match db with
    | none => ([], some .attribute)
    | some db => writeTql o db
  let res : Except PyErr Unit := match r.2 with
    | none => .ok ()
    | some e => .error e
  if f = [] ∨ f = c!"-" then (w, res)
  else if env.writable f then ({ w with disk := w.disk.put f (some (.file (.text r.1))) }, res)
  else (w, .error .unmodelled)

/-- `write_excel` (ddltools/convert_ddl.py:254-267) with a file name. -/
def excelToFile (env : Env) (db : Option Database) (f : Str) : Act Unit := fun w =>
  match db with
  | none => (w, .error .type)
  | some db =>
    if env.writable (xlsFile f) then
      ({ w with disk := w.disk.put (xlsFile f) (some (.book (saved env.other (writeXls db)))) }, .ok ())
    else (w, .error .unmodelled)

/-- Reading the temporary file and sending its text (ddltools/convert_ddl.py:288-293). -/
def sendFile (env : Env) (host f : Str) : Act Unit := fun w =>
  match w.disk.fs f with
  | some (.text data) =>
    let data := newlines data
    let w := { w with sent := w.sent ++ [(host, data)] }
    match env.answer host data with
    | .error e => (w, .error e)
    | .ok _ => ({ w with disk := w.disk.put f none }, .ok ())
  | _ => (w, .error .unmodelled)

/-- `write_to_ts` (ddltools/convert_ddl.py:270-294). -/
def writeToTs (env : Env) (o : TqlOpts) (db : Option Database) (host : Str) : Act Unit :=
  match db with
  | none => Act.lift (.error .attribute)
  | some d => do
    tqlToFile env o db (tmpFile d.name)
    sendFile env host (tmpFile d.name)

/-- Where the database comes from (ddltools/convert_ddl.py:55-65). -/
def convertRead (env : Env) (a : ConvertArgs) : Act (Option Database) :=
  if given a.fromDdl then readDdl a.database a.schema a.fromDdl
  else if given a.fromExcel then readExcel (a.fromExcel.getD [])
  else if given a.fromTs then readFromTs env (a.fromTs.getD []) a.database
  else Act.lift ((mkDatabase a.database).map some)

/-- `database.validate()` with its report (ddltools/convert_ddl.py:67-73). -/
def convertValidate (db : Option Database) : Act Unit :=
  match db with
  | none => Act.lift (.error .attribute)
  | some db => Act.lift (db.validate.map (fun _ => ()))

/-- What is done with the database (ddltools/convert_ddl.py:67-85). -/
def convertWrite (env : Env) (a : ConvertArgs) (db : Option Database) : Act Unit := do
  Act.when a.validate (convertValidate db)
  Act.when (given a.toTql) (tqlToFile env (tqlOpts a) db (a.toTql.getD []))
  Act.when (given a.toExcel) (excelToFile env db (a.toExcel.getD []))
  Act.when (given a.toTs) (writeToTs env (tqlOpts a) db (a.toTs.getD []))

/-- `main` (ddltools/convert_ddl.py:40-85). -/
def convertMain (env : Env) (a : ConvertArgs) : Act Unit :=
  if validConvert a then
    if a.version then pure ()
    else do
      let db ← convertRead env a
      convertWrite env a db
  else pure ()

/-! ## ddldiff -/

/-- The arguments of ddldiff (ddltools/ddldiff.py:74-114). -/
structure DiffArgs where
  ddl1 : Option Str := none
  ddl2 : Option Str := none
  database : Str := c!"MY_DATABASE"
  schema : Str := defaultSchema
  alter1 : Bool := false
  alter2 : Bool := false
  ignoreCase : Bool := false
deriving DecidableEq, Repr

/-- `valid_args` (ddltools/ddldiff.py:117-139). -/
def validDiff (d : Disk) (a : DiffArgs) : Bool :=
  if !given a.ddl1 || !given a.ddl2 then false
  else
    let ret := true
    let ret := if (d (a.ddl1.getD [])).isSome then ret else false
    if (d (a.ddl2.getD [])).isSome then ret else false

/-- What ddldiff prints: the text of the ALTER scripts, or the two lists of differences. -/
inductive DiffOut where
  | invalid
  | alters (text : Str)
  | lists (l1 l2 : List Diff)
deriving DecidableEq, Repr

/-- `main` (ddltools/ddldiff.py:39-71): what is printed, and the exception that stopped it, if any. -/
def diffMain (floatRepr : Rat → Str) (d : Disk) (a : DiffArgs) : DiffOut × Option PyErr :=
  if validDiff d a then
    match parseFor d.fs (some a.database) a.schema a.ddl1 with
    | .error e => (.alters [], some e)
    | .ok db1 =>
      match parseFor d.fs (some a.database) a.schema a.ddl2 with
      | .error e => (.alters [], some e)
      | .ok db2 =>
        match db1, db2 with
        | some db1, some db2 =>
          let diffs := compareDatabases (fun _ => false) db1 db2
          if !a.alter1 && !a.alter2 then (.lists diffs.1 diffs.2, none)
          else
            let r := writeAll (
              (if a.alter1 then .ok c!"-- changes needed for first schema to match the second\n" :: diffs.1.map (Diff.getAlter floatRepr) else []) ++
              (if a.alter2 then .ok c!"-- changes needed for second schema to match the first\n" :: diffs.2.map (Diff.getAlter floatRepr) else []))
            (.alters r.1, r.2)
        | _, _ => (.alters [], some .attribute)
  else (.invalid, none)

/-! ## review_model -/

/-- The arguments of review_model (ddltools/review_model.py:104-142). -/
structure ReviewArgs where
  version : Bool := false
  showTests : Bool := false
  databaseFile : Option Str := none
  worksheetFile : Option Str := none
  tsIp : Option Str := none
  database : Option Str := none
  configFile : Option Str := none
deriving DecidableEq, Repr

/-- `valid_args` (ddltools/review_model.py:145-178). -/
def validReview (d : Disk) (a : ReviewArgs) : Bool :=
  let v := true
  let v := if !a.showTests then
      let v := if !given a.database then false else v
      if !given a.databaseFile && !given a.tsIp then false else v
    else v
  let v := if given a.databaseFile && given a.tsIp then false else v
  let v := if given a.worksheetFile then (if (d (a.worksheetFile.getD [])).isSome then v else false) else v
  if given a.configFile then (if (d (a.configFile.getD [])).isSome then v else false) else v

/-- How review_model ends. -/
inductive ReviewOut where
  | help
  | version
  | listed
  | results (r : Dict (List Str))
deriving DecidableEq, Repr

/-- What the reviewer does with its inputs: the database, the worksheet file, the host and the configuration (`DataModelReviewer`,
dt/review/review.py:29-106, `YAMLWorksheetReader`). -/
abbrev Reviewer := Option Database → Option Str → Option Str → Config → Except PyErr (Dict (List Str))

/-- An optional argument that is given. -/
def argOf (o : Option Str) : Option Str := if given o then o else none

/-- `main` (ddltools/review_model.py:40-101).  `DataModelReviewer()` gets no file name, so its configuration is empty
(ddltools/review_model.py:94, dt/review/review.py:38-45). -/
def reviewMain (env : Env) (rev : Reviewer) (a : ReviewArgs) : Act ReviewOut := fun w =>
  if !validReview w.disk a then (w, .ok .help)
  else if a.version then (w, .ok .version)
  else if given a.tsIp then
    match readFromTs env (a.tsIp.getD []) a.database w with
    | (w, .error e) => (w, .error e)
    | (w, .ok db) => (w, (rev db (argOf a.worksheetFile) (argOf a.tsIp) []).map .results)
  else if given a.databaseFile then
    match parseFor w.disk.fs a.database defaultSchema a.databaseFile with
    | .error e => (w, .error e)
    | .ok db => (w, (rev db (argOf a.worksheetFile) none []).map .results)
  else (w, .ok .listed)

end Verif
