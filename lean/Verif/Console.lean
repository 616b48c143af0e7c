import Verif.Cli
import Verif.Reports
import Verif.ExcelReports
/-
What convert_ddl (ddltools/convert_ddl.py) writes to the terminal.  The actions are those of Cli.lean; here what is printed on the way is added, in order.  That world
and result are the same is proved in Lemmas/Console.lean.

The text of `print(args)` is in CommandLine.lean.  Left out: the usage message of argparse; debug logging.
-/

namespace Verif

/-- Something written to the terminal. -/
inductive Said where
  /-- `print(args)` (ddltools/convert_ddl.py:45). -/
  | args
  /-- A line on the standard output. -/
  | out (line : Str)
  /-- A line on the standard error stream (`eprint`, dt/util.py:24-30). -/
  | err (line : Str)
  /-- A script written to the standard output (`smart_open`, dt/io.py:35-50). -/
  | script (text : Str)
  /-- The answer of a server (ddltools/convert_ddl.py:294). -/
  | response (lines : List Str)
  /-- A message of the DDL parser. -/
  | parser (r : Report)
  /-- A message of the workbook reader. -/
  | book (r : XReport)
  /-- `Error in query: ...` on the standard error stream, with the text of the exception (dt/review/review_tests.py:505). -/
  | queryError
deriving DecidableEq, Repr

/-- A program that also says something. -/
def Talk (α : Type) : Type := World → World × List Said × Except PyErr α

/-- Running one program after the other; an exception stops, what was said before it stays. -/
instance : Monad Talk where
  pure a := fun w => (w, [], .ok a)
  bind x f := fun w => match x w with
    | (w, l, .error e) => (w, l, .error e)
    | (w, l, .ok a) => ((f a w).1, l ++ (f a w).2.1, (f a w).2.2)

/-- Say something. -/
def Talk.say (s : Said) : Talk Unit := fun w => (w, [s], .ok ())

/-- A program that says nothing. -/
def Talk.act {α : Type} (x : Act α) : Talk α := fun w => ((x w).1, [], (x w).2)

/-- `if c:` without an `else`. -/
def Talk.when (c : Bool) (x : Talk Unit) : Talk Unit := if c then x else pure ()

/-- The messages of `parse_ddl` where the database name may be missing (`parseFor`). -/
def parserSays (fs : FS) (name : Option Str) (schema : Str) (f : Option Str) : List Said :=
  match name with
  | some n => (parseReports fs { databaseName := n, schemaName := schema } f).map .parser
  | none => if given f && (fs (f.getD [])).isNone then [.parser (.noFile (f.getD []))] else []

/-- `read_ddl` (ddltools/convert_ddl.py:180-188). -/
def readDdlTalk (database : Option Str) (schema : Str) (f : Option Str) : Talk (Option Database) := fun w =>
  (w, parserSays w.disk.fs database schema f, parseFor w.disk.fs database schema f)

/-- `read_excel` (ddltools/convert_ddl.py:191-214). -/
def readExcelTalk (f : Str) : Talk (Option Database) := fun w =>
  match w.disk f with
  | some (.book wb) =>
    let r := readXlsTold wb
    match r.2 with
    | .error e => (w, r.1.map .book, .error e)
    | .ok dbs =>
      if dbs.length = 0 then (w, r.1.map .book ++ [.err c!"ERROR:  No databases read."], .ok none)
      else
        let name := (dbs.vals.head?.map (·.name)).getD []
        (w, r.1.map .book ++ (if 1 < dbs.length then [.err (c!"WARNING:  multiple databases read.  Only using " ++ name)] else []), .ok dbs.vals.head?)
  | _ => (w, [], .error .unmodelled)

/-- `read_from_ts` (ddltools/convert_ddl.py:217-238). -/
def readFromTsTalk (env : Env) (host : Str) (name : Option Str) : Talk (Option Database) := fun w =>
  let database := name.getD c!"None"
  let cmd := c!"script database " ++ database ++ c!";"
  let w := { w with sent := w.sent ++ [(host, cmd)] }
  match env.answer host cmd with
  | .error e => (w, [], .error e)
  | .ok out =>
    let f := tmpFile database
    if env.writable f then
      let w := { w with disk := w.disk.put f (some (.file (.text (answerText out)))) }
      match parseFor w.disk.fs name defaultSchema (some f) with
      | .error e => (w, parserSays w.disk.fs name defaultSchema (some f), .error e)
      | .ok db => ({ w with disk := w.disk.put f none }, parserSays w.disk.fs name defaultSchema (some f), .ok db)
    else (w, [], .error .unmodelled)

/-- The names of the levels (dt/model.py:489-491). -/
def Level.text : Level → Str
  | .info => c!"Information"
  | .warning => c!"Warning"
  | .error => c!"Error"

/-- `ValidationResult.eprint_issues` (dt/model.py:535-540). -/
def ValidationResult.lines (r : ValidationResult) : List Str := r.issues.map (fun p => p.2.text ++ c!":  " ++ p.1)

/-- The report on the validity (ddltools/convert_ddl.py:69-73). -/
def validateTalk (db : Option Database) : Talk Unit := fun w =>
  match db with
  | none => (w, [], .error .attribute)
  | some db =>
    match db.validate with
    | .error e => (w, [], .error e)
    | .ok r => (w, if !r.isValid then r.lines.map .err else [.out c!"Database is valid."], .ok ())

/-- `TQLWriter.write_tql` (dt/io.py:698-730), to a file or to the standard output (dt/io.py:35-50). -/
def tqlTalk (env : Env) (o : TqlOpts) (db : Option Database) (f : Str) : Talk Unit := fun w =>
  let r := tqlToFile env o db f w
  let said : List Said := match db with
    | some d => if f = [] ∨ f = c!"-" then [.script (writeTql o d).1] else []
    | none => []
  (r.1, said, r.2)

/-- Sending the temporary file and printing the answer (ddltools/convert_ddl.py:288-294). -/
def sendTalk (env : Env) (host f : Str) : Talk Unit := fun w =>
  match w.disk.fs f with
  | some (.text data) =>
    let data := newlines data
    let w := { w with sent := w.sent ++ [(host, data)] }
    match env.answer host data with
    | .error e => (w, [], .error e)
    | .ok l => ({ w with disk := w.disk.put f none }, [.response l], .ok ())
  | _ => (w, [], .error .unmodelled)

/-- `write_to_ts` (ddltools/convert_ddl.py:270-294). -/
def writeToTsTalk (env : Env) (o : TqlOpts) (db : Option Database) (host : Str) : Talk Unit :=
  match db with
  | none => Talk.act (Act.lift (.error .attribute))
  | some d => do
    tqlTalk env o db (tmpFile d.name)
    sendTalk env host (tmpFile d.name)

/-- Reading (ddltools/convert_ddl.py:55-65). -/
def readTalk (env : Env) (a : ConvertArgs) : Talk (Option Database) :=
  if given a.fromDdl then do
    Talk.say (.out c!"Reading DDL ...")
    readDdlTalk a.database a.schema a.fromDdl
  else if given a.fromExcel then do
    Talk.say (.out c!"Reading Excel ...")
    readExcelTalk (a.fromExcel.getD [])
  else if given a.fromTs then do
    Talk.say (.out c!"Reading DDL from ThoughtSpot")
    readFromTsTalk env (a.fromTs.getD []) a.database
  else Talk.act (Act.lift ((mkDatabase a.database).map some))

/-- Validating and writing (ddltools/convert_ddl.py:67-85). -/
def writeTalk (env : Env) (a : ConvertArgs) (db : Option Database) : Talk Unit := do
  Talk.when a.validate (do
    Talk.say (.out c!"Validating database")
    validateTalk db)
  Talk.when (given a.toTql) (do
    Talk.say (.out c!"Writing TQL ...")
    tqlTalk env (tqlOpts a) db (a.toTql.getD []))
  Talk.when (given a.toExcel) (do
    Talk.say (.out c!"Writing Excel ...")
    Talk.act (excelToFile env db (a.toExcel.getD [])))
  Talk.when (given a.toTs) (do
    Talk.say (.out c!"Writing to ThoughtSpot ...")
    writeToTsTalk env (tqlOpts a) db (a.toTs.getD []))

/-- `main` (ddltools/convert_ddl.py:40-85) with the messages of `valid_args` (ddltools/convert_ddl.py:168-175).  The directory the program is in is a parameter. -/
def convertTalk (env : Env) (directory : Str) (a : ConvertArgs) : Talk Unit :=
  if validConvert a then do
    Talk.say .args
    if a.version then Talk.say (.out (c!"convert_ddl (v2.0):  " ++ directory ++ c!"/convert_ddl"))
    else do
      let db ← readTalk env a
      writeTalk env a db
  else if !a.empty && !a.version && !given a.fromDdl && !given a.fromExcel && !given a.toExcel && !given a.fromTs then
    Talk.say (.err c!"--version, --empty, --from_ddl, --from_excel, or from_ts must be provided as arguments.")
  else Talk.say (.err c!"--from_ddl and --from_ts require the --database parameter.")

end Verif
