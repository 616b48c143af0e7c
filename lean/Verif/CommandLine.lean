import Verif.Argparse
import Verif.DiffConsole
import Verif.ReviewConsole
/-
The command lines of the three programs: the options as they are declared, the namespaces as arguments of the programs, and the programs from the command line to the text on the two
output streams and the exit status.
-/

namespace Verif

/-- The name of an option in the namespace: the first name with two dashes, otherwise the first name, without the dashes (`_get_optional_kwargs`, Lib/argparse.py:1565-1597). -/
def destOf (names : List Str) : Str :=
  (((names.find? (fun n => startsWith n c!"--")).getD (names.headD [])).dropWhile (· = '-')).map (fun c => if c = '-' then '_' else c)

/-- The option every parser has. -/
def helpOpt : OptDecl := { names := [c!"-h", c!"--help"], dest := c!"help", kind := .help }

/-- A flag. -/
def flagOpt (names : List Str) : OptDecl := { names := names, dest := destOf names, kind := .flag, default := .flag false }

/-- An option with a value. -/
def valueOpt (names : List Str) (default : ArgVal := .none) : OptDecl := { names := names, dest := destOf names, kind := .value, default := default }

/-- The options of convert_ddl (ddltools/convert_ddl.py:90-154). -/
def convertOpts : List OptDecl :=
  [helpOpt,
   flagOpt [c!"--version"],
   flagOpt [c!"--empty"],
   valueOpt [c!"--from_ddl"],
   valueOpt [c!"--to_tql"],
   valueOpt [c!"--from_ts"],
   valueOpt [c!"--to_ts"],
   valueOpt [c!"--username"] (.text c!"admin"),
   valueOpt [c!"--password"] (.text c!"th0ughtSp0t"),
   valueOpt [c!"--from_excel"],
   valueOpt [c!"--to_excel"],
   valueOpt [c!"-d", c!"--database"],
   valueOpt [c!"-s", c!"--schema"] (.text c!"falcon_default_schema"),
   flagOpt [c!"-c", c!"--create_db"],
   flagOpt [c!"-l", c!"--lowercase"],
   flagOpt [c!"-u", c!"--uppercase"],
   flagOpt [c!"--camelcase"],
   flagOpt [c!"-v", c!"--validate"],
   flagOpt [c!"--debug"]]

/-- The options of ddldiff (ddltools/ddldiff.py:79-111). -/
def diffOpts : List OptDecl :=
  [helpOpt,
   valueOpt [c!"--ddl1"],
   valueOpt [c!"--ddl2"],
   valueOpt [c!"--database"] (.text c!"MY_DATABASE"),
   valueOpt [c!"--schema"] (.text c!"falcon_default_schema"),
   flagOpt [c!"--alter1"],
   flagOpt [c!"--alter2"],
   flagOpt [c!"--ignore_case"]]

/-- The options of review_model (ddltools/review_model.py:111-140). -/
def reviewOpts : List OptDecl :=
  [helpOpt,
   flagOpt [c!"--version"],
   flagOpt [c!"--show_tests"],
   valueOpt [c!"--database_file"],
   valueOpt [c!"--worksheet_file"],
   valueOpt [c!"--ts_ip"],
   valueOpt [c!"--username"] (.text c!"admin"),
   valueOpt [c!"--password"] (.text c!"th0ughtSp0t"),
   valueOpt [c!"-d", c!"--database"],
   flagOpt [c!"--debug"],
   valueOpt [c!"--config_file"]]

/-- The flag of a name in the namespace. -/
def flagOf (ns : Dict ArgVal) (n : Str) : Bool := match ns.get? n with
  | some (.flag b) => b
  | _ => false

/-- The text of a name in the namespace. -/
def textOf (ns : Dict ArgVal) (n : Str) : Option Str := match ns.get? n with
  | some (.text s) => some s
  | _ => none

/-- The arguments of convert_ddl in a namespace.  User, password and the debug flag are not used by the model of the program. -/
def convertArgs (ns : Dict ArgVal) : ConvertArgs :=
  { version := flagOf ns c!"version", empty := flagOf ns c!"empty", fromDdl := textOf ns c!"from_ddl", toTql := textOf ns c!"to_tql", fromTs := textOf ns c!"from_ts",
    toTs := textOf ns c!"to_ts", fromExcel := textOf ns c!"from_excel", toExcel := textOf ns c!"to_excel", database := textOf ns c!"database",
    schema := (textOf ns c!"schema").getD [], createDb := flagOf ns c!"create_db", lowercase := flagOf ns c!"lowercase", uppercase := flagOf ns c!"uppercase",
    camelcase := flagOf ns c!"camelcase", validate := flagOf ns c!"validate" }

/-- The arguments of ddldiff in a namespace. -/
def diffArgs (ns : Dict ArgVal) : DiffArgs :=
  { ddl1 := textOf ns c!"ddl1", ddl2 := textOf ns c!"ddl2", database := (textOf ns c!"database").getD [], schema := (textOf ns c!"schema").getD [],
    alter1 := flagOf ns c!"alter1", alter2 := flagOf ns c!"alter2", ignoreCase := flagOf ns c!"ignore_case" }

/-- The arguments of review_model in a namespace. -/
def reviewArgs (ns : Dict ArgVal) : ReviewArgs :=
  { version := flagOf ns c!"version", showTests := flagOf ns c!"show_tests", databaseFile := textOf ns c!"database_file", worksheetFile := textOf ns c!"worksheet_file",
    tsIp := textOf ns c!"ts_ip", database := textOf ns c!"database", configFile := textOf ns c!"config_file" }

/-! ## Runs -/

/-- What `argparse` prints about a program: its name, the usage message and the help message (parameters). -/
structure Manual where
  prog : Str
  usage : Str
  help : Str

/-- What a run leaves besides the changed files: the text on the standard output, what was said on the standard error stream, and the exit status. -/
structure Ended where
  out : Str
  err : List Said
  status : Nat

/-- What something that is said adds to the standard output. -/
def Said.printed (ns : Dict ArgVal) : Said → Str
  | .args => namespaceText ns ++ c!"\n"
  | .out line => line ++ c!"\n"
  | .script text => text
  | .response lines => reprList lines ++ c!"\n"
  | _ => []

/-- Said on the standard error stream (Python's traceback is left out). -/
def Said.onErr : Said → Bool
  | .err _ => true
  | .parser _ => true
  | .book _ => true
  | .queryError => true
  | _ => false

/-- The exit status of a Python program: 1 after an exception, otherwise 0. -/
def exitStatus {α : Type} : Except PyErr α → Nat
  | .ok _ => 0
  | .error _ => 1

/-- An exception or none, as a result. -/
def raised : Option PyErr → Except PyErr Unit
  | some e => .error e
  | none => .ok ()

/-- The end of a program that said this and returned or raised that. -/
def ended {α : Type} (ns : Dict ArgVal) (said : List Said) (r : Except PyErr α) : Ended := ⟨said.flatMap (Said.printed ns), said.filter Said.onErr, exitStatus r⟩

/-- The end of a program whose command line is refused: the help and status 0, or usage, error and status 2 (Lib/argparse.py:2624-2640). -/
def stopped (m : Manual) : ArgStop → Ended
  | .help => ⟨m.help, [], 0⟩
  | .error e => ⟨[], [.err (m.usage ++ m.prog ++ c!": error: " ++ e.text)], 2⟩

/-- `python -m ddltools.convert_ddl …` (ddltools/convert_ddl.py:40-42, 297-298). -/
def convertRun (env : Env) (m : Manual) (directory : Str) (argv : List Str) (w : World) : World × Ended :=
  match parseArgs convertOpts argv with
  | .error e => (w, stopped m e)
  | .ok ns =>
    let r := convertTalk env directory (convertArgs ns) w
    (r.1, ended ns r.2.1 r.2.2)

/-- `python -m ddltools.ddldiff …` (ddltools/ddldiff.py:39-41, 142-143); it changes nothing. -/
def diffRun (floatRepr : Rat → Str) (m : Manual) (argv : List Str) (d : Disk) : Ended :=
  match parseArgs diffOpts argv with
  | .error e => stopped m e
  | .ok ns =>
    let r := diffTalk floatRepr d (diffArgs ns)
    ended ns r.1 (raised r.2)

/-- What `print_help` adds to the standard output (ddltools/review_model.py:45-46). -/
def helpPart (m : Manual) : Except PyErr ReviewOut → Str
  | .ok .help => m.help
  | _ => []

/-- `python -m ddltools.review_model …` (ddltools/review_model.py:40-46, 204-205). -/
def reviewRun (env : Env) (r : ReviewEnv) (tests : List (TestItem × Str)) (m : Manual) (directory : Str) (argv : List Str) (w : World) : World × Ended :=
  match parseArgs reviewOpts argv with
  | .error e => (w, stopped m e)
  | .ok ns =>
    let x := reviewTalk env r tests directory (reviewArgs ns) w
    let e := ended ns x.2.1 x.2.2
    (x.1, { e with out := e.out ++ helpPart m x.2.2 })

end Verif
