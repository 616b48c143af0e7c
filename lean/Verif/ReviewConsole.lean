import Verif.Console
import Verif.Review
/-
What review_model (ddltools/review_model.py) and the reviews (dt/review/review.py, dt/review/review_tests.py) write to the terminal.  The actions and results are those of Cli.lean
and Review.lean; here what is printed on the way is added, in order.  That the results are the same is proved in Lemmas/ReviewConsole.lean.

The text of `print(args)` is in CommandLine.lean.  Left out: the text of exceptions and of the usage message of argparse; debug logging.
-/

namespace Verif

/-! ## Reviews that talk -/

/-- A review that asks a server: from the queries asked so far to those asked in the end, what is said, and the result. -/
def Rv (α : Type) : Type := List Str → List Str × List Said × Except PyErr α

/-- One step after the other; an exception stops, what was asked and said before it stays. -/
instance : Monad Rv where
  pure a := fun asked => (asked, [], .ok a)
  bind x f := fun asked => match x asked with
    | (asked, l, .error e) => (asked, l, .error e)
    | (asked, l, .ok a) => ((f a asked).1, l ++ (f a asked).2.1, (f a asked).2.2)

/-- Say something. -/
def Rv.say (s : Said) : Rv Unit := fun asked => (asked, [s], .ok ())

/-- A computation that asks and says nothing. -/
def Rv.lift {α : Type} (x : Except PyErr α) : Rv α := fun asked => (asked, [], x)

/-- Print a query and ask the server (dt/review/review_tests.py:499-502, 623-625, 639-641). -/
def Rv.ask (srv : QueryServer) (q : Str) : Rv (Except PyErr (List (Option Str))) := fun asked => (asked ++ [q], [.out q], .ok (srv asked q))

/-- The number in the first row of an answer, if there is one (dt/review/review_tests.py:503). -/
def countIn (r : Except PyErr (List (Option Str))) : Option Int :=
  match r with
  | .ok (some t :: _) => pyInt t
  | _ => none

/-- `query_for_cardinality` (dt/review/review_tests.py:491-507). -/
def cardinalityTalk (srv : QueryServer) (q : Str) : Rv Int := do
  let r ← Rv.ask srv q
  match countIn r with
  | some n => pure n
  | none => do
    Rv.say .queryError
    pure (-1)

/-- The inner loop of `review_table_joins` (dt/review/review_tests.py:323-339). -/
def runJoinsTalk (srv : QueryServer) : List QueryParts → Rv (List Str)
  | [] => pure []
  | p :: ps => do
    Rv.say (.out (c!"-- comparing " ++ p.name ++ c!" between " ++ p.fromTable ++ c!" and " ++ p.toTable))
    let q1 ← Rv.lift (toQuery p)
    let countTo ← cardinalityTalk srv q1
    let q2 ← Rv.lift (fromQuery p)
    let countFrom ← cardinalityTalk srv q2
    let rest ← runJoinsTalk srv ps
    pure (joinIssue p.name countFrom countTo ++ rest)

/-- The outer loop of `review_table_joins` (dt/review/review_tests.py:307-339). -/
def joinTablesTalk (srv : QueryServer) (db : Database) : List Table → Rv (List Str)
  | [] => pure []
  | t :: ts => do
    let joins ← Rv.lift (joinsOf db t)
    let a ← runJoinsTalk srv joins
    let b ← joinTablesTalk srv db ts
    pure (a ++ b)

/-- `review_table_joins` (dt/review/review_tests.py:290-356). -/
def reviewTableJoinsTalk (srv : QueryServer) (db : Database) : Rv (List Str) := do
  Rv.say (.out (c!"reviewing table joins for the \"" ++ db.name ++ c!"\" database"))
  joinTablesTalk srv db db.iter

/-- How Python prints a value of a worksheet (dt/review/review_tests.py:563, 577, 586); for sequences and mappings this is the parameter. -/
def Yaml.print (nested : Yaml → Str) : Yaml → Str
  | .null => c!"None"
  | .str s => s
  | .other _ r => r
  | v => nested v

/-- The part of the loop after the foreign key was found (dt/review/review_tests.py:598-653). -/
def runWsJoinTalk (srv : QueryServer) (db s1 t1 s2 t2 name actual : Str) (fk : FK) : Rv (List Str) := do
  let on ← Rv.lift (wsCondition db s1 t1 s2 t2 fk)
  match fk.fromKeys, fk.toKeys with
  | left :: _, right :: _ => do
    let a ← Rv.ask srv (missingQuery db s1 t1 s2 t2 fk on t2 left)
    let r1 ← Rv.lift a
    let b ← Rv.ask srv (missingQuery db s1 t1 s2 t2 fk on t1 right)
    let r2 ← Rv.lift b
    pure (wsJoinIssue name actual (suggestedJoin (decide (r1.length > 0)) (decide (r2.length > 0))))
  | _, _ => Rv.lift (.error .index)

/-- The part of the loop after both tables were found (dt/review/review_tests.py:592-597).  The message has `None` where it means to name the key. -/
def withForeignKeyTalk (name : Str) (k : Option FK) (f : FK → Rv (List Str)) : Rv (List Str) :=
  match k with
  | none => do
    Rv.say (.err (c!"Unable to access None for join " ++ name ++ c!".  Only foreign keys supported."))
    pure []
  | some fk => f fk

/-- One round of the loop of `review_worksheet_joins` (dt/review/review_tests.py:572-655). -/
def wsJoinTalk (nested : Yaml → Str) (srv : QueryServer) (db : Database) (w : Worksheet) (j : WsJoin) : Rv (List Str) := do
  let source ← Rv.lift j.source.text
  let type1 ← Rv.lift (wsTableType w source)
  if ¬ type1.isStr c!"table" then do
    Rv.say (.err (c!"Table " ++ source ++ c!" of type " ++ type1.print nested ++ c!" not supported.  Only 'table' type supported."))
    pure []
  else do
    let s1 ← Rv.lift (schemaOf (db.getTable source))
    let dest ← Rv.lift j.destination.text
    let type2 ← Rv.lift (wsTableType w dest)
    if ¬ type2.isStr c!"table" then do
      Rv.say (.err (c!"Table " ++ dest ++ c!" of type " ++ type2.print nested ++ c!" not supported. Only 'table' type supported."))
      pure []
    else do
      let s2 ← Rv.lift (schemaOf (db.getTable dest))
      let name ← Rv.lift j.name.text
      let actual ← Rv.lift j.type.text
      withForeignKeyTalk name ((db.getTable source).bind (·.getForeignKey name)) (runWsJoinTalk srv db.name s1 source s2 dest name actual)

/-- The loop of `review_worksheet_joins` (dt/review/review_tests.py:572-657). -/
def wsJoinsTalk (nested : Yaml → Str) (srv : QueryServer) (db : Database) (w : Worksheet) : List WsJoin → Rv (List Str)
  | [] => pure []
  | j :: js => do
    let a ← wsJoinTalk nested srv db w j
    let b ← wsJoinsTalk nested srv db w js
    pure (a ++ b)

/-- `review_worksheet_joins` (dt/review/review_tests.py:546-657). -/
def reviewWorksheetJoinsTalk (nested : Yaml → Str) (srv : QueryServer) (db : Database) (w : Worksheet) : Rv (List Str) := do
  Rv.say (.out (c!"reviewing worksheet joins for worksheet " ++ w.name.print nested ++ c!" using " ++ db.name ++ c!" database"))
  wsJoinsTalk nested srv db w w.getJoins

/-! ## The reviewer -/

/-- What the reviews get from outside: the order of sets, how floats and nested values are printed, the room on the stack, the YAML parser, and the answers of the server with the
given address to the three reviews that ask it. -/
structure ReviewEnv where
  order : List Str → List Str
  floatRepr : Rat → Str
  nested : Yaml → Str
  depth : Nat
  yaml : Str → Except PyErr Yaml
  stats : Str → Except PyErr (List StatRow)
  joins : Str → QueryServer
  sheets : Str → QueryServer

/-- A call of a review by its name (dt/review/review.py:102): what it says and returns.  The `while` loop of `review_circular_relationships` ends after at most as many rounds as there
are tables, plus two (C47, C48). -/
def callReview (r : ReviewEnv) (db : Database) (ws : Option Worksheet) (host : Option Str) (cfg : Config) (name : Str) : List Said × Except PyErr (List Str) :=
  if name = c!"review_circular_relationships" then
    ([.out (c!"reviewing circular relationships for " ++ db.name ++ c!" database")], (reviewCircular r.order (db.tables.length + 2) db).getD (.error .unmodelled))
  else if name = c!"review_long_chain_relationships" then
    ([.out (c!"reviewing long chain (> 2) relationships for " ++ db.name ++ c!" database")], reviewLongChain r.order r.depth db cfg)
  else if name = c!"review_pks" then ([.out (c!"reviewing primary keys for " ++ db.name ++ c!" database")], .ok (reviewPks db))
  else if name = c!"review_relationships" then ([.out (c!"reviewing relationships vs. foreign keys for " ++ db.name ++ c!" database")], .ok [])
  else
    match host with
    | none => ([], .error .unmodelled)
    | some h =>
      if name = c!"review_sharding" then ([.out (c!"reviewing sharding for " ++ db.name)], reviewSharding r.floatRepr db (r.stats h) cfg)
      else if name = c!"review_table_joins" then (reviewTableJoinsTalk (r.joins h) db []).2
      else
        match ws with
        | none => ([], .error .unmodelled)
        | some w => if name = c!"review_worksheet_joins" then (reviewWorksheetJoinsTalk r.nested (r.sheets h) db w []).2 else ([], .error .unmodelled)

/-- What is said about a review that lacks an input (dt/review/review.py:84-97). -/
def skipLine (i : Inputs) (t : TestItem) : List Said :=
  if (t.params.contains c!"rtql" ∧ ¬ i.rtql) ∨ (t.params.contains c!"worksheet" ∧ ¬ i.worksheet) then
    [.out (c!"Skipping " ++ t.name ++ c!"(" ++ joinS c!", " t.params ++ c!")")]
  else []

/-- The loop of `review_model` (dt/review/review.py:66-105) with what is said. -/
def reviewItemsTalk (names : List Str) (i : Inputs) (run : Str → List Str → List Said × Except PyErr (List Str)) :
    Dict (List Str) → List TestItem → List Said × Except PyErr (Dict (List Str))
  | recs, [] => ([], .ok recs)
  | recs, t :: ts =>
    if names ≠ [] ∧ ¬ names.contains t.name then reviewItemsTalk names i run recs ts
    else if startsWith t.name c!"review_" then
      match callArgs i t with
      | none =>
        let rest := reviewItemsTalk names i run recs ts
        (skipLine i t ++ rest.1, rest.2)
      | some args =>
        match run t.name args with
        | (l, .error e) => (l, .error e)
        | (l, .ok r) =>
          let rest := reviewItemsTalk names i run (if r ≠ [] then recs.set t.name r else recs) ts
          (l ++ rest.1, rest.2)
    else reviewItemsTalk names i run recs ts

/-- Reading the worksheet, if one is given (ddltools/review_model.py:87-88, dt/io.py:1337-1349). -/
def readWsFile (r : ReviewEnv) (fs : FS) (f : Option Str) : Except PyErr (Option Worksheet) :=
  match f with
  | none => .ok none
  | some f =>
    match fs f with
    | some (.text content) => do
      let y ← r.yaml (worksheetText content)
      let w ← createWorksheet y
      .ok (some w)
    | some (.undecodable _ _) => .error .value
    | _ => .error .unmodelled

/-- Worksheet, reviewer and reviews (ddltools/review_model.py:86-95). -/
def reviewerTalk (r : ReviewEnv) (fs : FS) (db : Option Database) (ws host : Option Str) (cfg : Config) : List Said × Except PyErr (Dict (List Str)) :=
  match readWsFile r fs ws with
  | .error e => ([], .error e)
  | .ok w =>
    match db with
    | none => ([], .error .assertion)
    | some db => reviewItemsTalk [] ⟨host.isSome, w.isSome⟩ (fun n _ => callReview r db w host cfg n) [] reviewFunctions

/-- The reviewer of dt/review with the reviews of dt/review/review_tests.py, without what it says; an instance for `reviewMain`. -/
def theReviewer (r : ReviewEnv) (fs : FS) : Reviewer := fun db ws host cfg =>
  match readWsFile r fs ws with
  | .error e => .error e
  | .ok w =>
    match db with
    | none => .error .assertion
    | some db => (reviewModel reviewFunctions true [] ⟨host.isSome, w.isSome⟩ (fun n _ => (callReview r db w host cfg n).2)).result

/-! ## The list of tests -/

/-- The lines of the description of a test (dt/review/review.py:129-134). -/
def describeGo : List Str → List Str
  | [] => []
  | d :: ds => if d = [] then describeGo ds else if startsWith d c!":" then [] else d :: describeGo ds

/-- The description of a test from its documentation (dt/review/review.py:126-134). -/
def describe (doc : Str) : List Str := describeGo ((splitC '\n' doc).map strip)

/-- `get_test_descriptions` (dt/review/review.py:108-138), for attributes with their documentation. -/
def testDescriptions (tests : List (TestItem × Str)) : Dict (List Str) :=
  tests.foldl (fun d p => if startsWith p.1.name c!"review_" then d.set (p.1.name ++ c!"(" ++ joinS c!", " p.1.params ++ c!")") (describe p.2) else d) []

/-- The list of tests (ddltools/review_model.py:67-75). -/
def listTests (tests : List (TestItem × Str)) : List Said :=
  let d := testDescriptions tests
  .out (c!"Found " ++ natToStr d.length ++ c!" tests.") :: d.flatMap (fun p => .out [] :: .out (p.1 ++ c!":") :: p.2.map (fun x => .out ('\t' :: x))) ++ [.out []]

/-! ## review_model -/

/-- The messages of `valid_args` (ddltools/review_model.py:145-178). -/
def reviewMistakes (d : Disk) (a : ReviewArgs) : List Said :=
  (if !a.showTests then
    (if !given a.database then [.err c!"A database name must be provided."] else []) ++
    (if !given a.databaseFile && !given a.tsIp then [.err c!"Either a database file or ThoughtSpot IP must be provided."] else [])
  else []) ++
  (if given a.databaseFile && given a.tsIp then [.err c!"Only database_file or ts_ip can be provided."] else []) ++
  (if given a.worksheetFile then (if (d (a.worksheetFile.getD [])).isSome then [] else [.err (c!"Worksheet file " ++ a.worksheetFile.getD [] ++ c!" doesn't exist.")]) else []) ++
  (if given a.configFile then (if (d (a.configFile.getD [])).isSome then [] else [.err (c!"Configuration file " ++ a.configFile.getD [] ++ c!" doesn't exist.")]) else [])

/-- Printing the results (ddltools/review_model.py:97-101). -/
def resultLines (r : Dict (List Str)) : List Said := r.flatMap (fun p => .out (p.1 ++ c!":") :: p.2.map (fun x => .out ('\t' :: x)))

/-- The review and its results (ddltools/review_model.py:86-101). -/
def reviewPart (r : ReviewEnv) (a : ReviewArgs) (db : Option Database) (host : Option Str) : Talk ReviewOut := fun w =>
  match reviewerTalk r w.disk.fs db (argOf a.worksheetFile) host [] with
  | (l, .error e) => (w, l, .error e)
  | (l, .ok res) => (w, l ++ resultLines res, .ok (.results res))

/-- Say several things. -/
def Talk.sayAll (l : List Said) : Talk Unit := fun w => (w, l, .ok ())

/-- `main` (ddltools/review_model.py:40-101).  The directory the program is in and the documentation of the tests are parameters. -/
def reviewTalk (env : Env) (r : ReviewEnv) (tests : List (TestItem × Str)) (directory : Str) (a : ReviewArgs) : Talk ReviewOut := fun w =>
  if !validReview w.disk a then (w, reviewMistakes w.disk a, .ok .help)
  else (do
    Talk.say .args
    if a.version then do
      Talk.say (.out (c!"convert_ddl (v1.0):  " ++ directory ++ c!"/convert_ddl"))
      pure .version
    else do
      Talk.when a.showTests (Talk.sayAll (listTests tests))
      if given a.tsIp then do
        let db ← readFromTsTalk env (a.tsIp.getD []) a.database
        reviewPart r a db (argOf a.tsIp)
      else if given a.databaseFile then do
        let db ← readDdlTalk a.database defaultSchema a.databaseFile
        reviewPart r a db none
      else pure .listed : Talk ReviewOut) w

end Verif
