import Verif.Py.Float
import Verif.Config
import Verif.Generator
import Verif.Validator
import Verif.Worksheet
/-
Model of dt/review/review_tests.py and dt/review/review.py.

Progress messages (`print`) are in ReviewConsole.lean.  `review_relationships` (review_tests.py:63-73) always returns an empty list.

A Python `set` of names is a list without duplicates.  The order in which Python iterates over a set is not specified, so every
iteration goes through the parameter `order`; the theorems assume only that it permutes the elements.
-/

namespace Verif

/-- `s.add(x)` (dt/review/review_tests.py:54, 58, 133). -/
def setAdd (s : List Str) (x : Str) : List Str := if s.contains x then s else s ++ [x]

/-- `set(l)` (dt/review/review_tests.py:120). -/
def setOf (l : List Str) : List Str := l.foldl setAdd []

/-! ## Relationships between tables -/

/-- `get_relationships` (dt/review/review_tests.py:41-60). -/
def getRelationships (order : List Str → List Str) (db : Database) : Dict (List Str) :=
  db.tables.vals.foldl (fun m t =>
    let related := t.fks.vals.foldl (fun s (k : FK) => setAdd s k.toTable) []
    let related := t.rels.vals.foldl (fun s (r : Rel) => setAdd s r.toTable) related
    m.set t.name (order related)) []

/-- The second loop of `relates_to_previous` (dt/review/review_tests.py:95-99). -/
def anyFound (f : Str → Except PyErr Bool) : List Str → Except PyErr Bool
  | [] => .ok false
  | n :: ns => do
    let found ← f n
    if found then .ok true else anyFound f ns

/-- `relates_to_previous` (dt/review/review_tests.py:76-101).  The number is the room left on the Python stack: a call without room
raises `RecursionError`. -/
def relatesToPrevious (m : Dict (List Str)) : Nat → Str → Str → Except PyErr Bool
  | 0, _, _ => .error .recursion
  | d + 1, source, target =>
    match m.get? source with
    | none => .error .key
    | some l => if l.contains target then .ok true else anyFound (fun n => relatesToPrevious m d n target) l

/-- The map of `review_circular_relationships` (dt/review/review_tests.py:118-120). -/
def relatedSets (db : Database) : Dict (List Str) :=
  db.iter.foldl (fun m t => m.set t.name (setOf t.allRelated)) []

/-- One round of the `while` loop (dt/review/review_tests.py:129-134): the related tables and the tables related to those. -/
def circularStep (order : List Str → List Str) (m : Dict (List Str)) (related : List Str) : Except PyErr (List Str) :=
  (order related).foldlM (fun acc r =>
    match m.get? r with
    | none => .error .key
    | some l => .ok ((order l).foldl setAdd acc)) related

/-- The `while` loop (dt/review/review_tests.py:126-139): whether the table is reported.  `none` means that the loop has not ended within
the given number of rounds. -/
def circularLoop (order : List Str → List Str) (m : Dict (List Str)) (name : Str) : Nat → List Str → Option (Except PyErr Bool)
  | 0, _ => none
  | n + 1, related =>
    match circularStep order m related with
    | .error e => some (.error e)
    | .ok new =>
      if new.contains name then some (.ok true)
      else if new.length = related.length then some (.ok false)
      else circularLoop order m name n new

/-- The message (dt/review/review_tests.py:136). -/
def circularIssue (n : Str) : Str := n ++ c!" has circular relationship back to itself."

/-- The `for` loop (dt/review/review_tests.py:125-141) over the names still to do. -/
def circularTables (order : List Str → List Str) (m : Dict (List Str)) (rounds : Nat) :
    List (Str × List Str) → Option (Except PyErr (List Str))
  | [] => some (.ok [])
  | (n, related) :: rest =>
    match circularLoop order m n rounds related with
    | none => none
    | some (.error e) => some (.error e)
    | some (.ok b) =>
      match circularTables order m rounds rest with
      | none => none
      | some (.error e) => some (.error e)
      | some (.ok l) => some (.ok ((if b then [circularIssue n] else []) ++ l))

/-- `review_circular_relationships` (dt/review/review_tests.py:104-141); `none` means that some loop has not ended after `rounds` rounds. -/
def reviewCircular (order : List Str → List Str) (rounds : Nat) (db : Database) : Option (Except PyErr (List Str)) :=
  circularTables order (relatedSets db) rounds (relatedSets db)

/-- The loop of `get_related_paths` (dt/review/review_tests.py:160-166). -/
def collectPaths (f : List Str → Except PyErr (List (List Str))) (path : List Str) : List Str → Except PyErr (List (List Str))
  | [] => .ok []
  | r :: rs =>
    if path.contains r then collectPaths f path rs
    else do
      let added ← f (path ++ [r])
      let rest ← collectPaths f path rs
      .ok ((path ++ [r]) :: added ++ rest)

/-- `get_related_paths` (dt/review/review_tests.py:144-167).  The number is the room left on the Python stack. -/
def relatedPaths (m : Dict (List Str)) : Nat → List Str → Except PyErr (List (List Str))
  | 0, _ => .error .recursion
  | d + 1, path =>
    match path.getLast? with
    | none => .error .index
    | some last =>
      match m.get? last with
      | none => .error .key
      | some l => collectPaths (relatedPaths m d) path l

/-- The loop of `review_long_chain_relationships` over the tables (dt/review/review_tests.py:188-191). -/
def allPaths (m : Dict (List Str)) (depth : Nat) : List Str → Except PyErr (List (List Str))
  | [] => .ok []
  | n :: ns => do
    let added ← relatedPaths m depth [n]
    let rest ← allPaths m depth ns
    .ok (added ++ rest)

/-- `n > value` for a number and a configuration value (dt/review/review_tests.py:195, 239, 248, 253): comparing with a text raises. -/
def gtCfg (q : Rat) : CfgVal → Except PyErr Bool
  | .int n => .ok (decide ((n : Rat) < q))
  | .flt r => .ok (decide (r < q))
  | .text _ => .error .type

/-- `n < value` (dt/review/review_tests.py:245). -/
def ltCfg (q : Rat) : CfgVal → Except PyErr Bool
  | .int n => .ok (decide (q < (n : Rat)))
  | .flt r => .ok (decide (q < r))
  | .text _ => .error .type

/-- The message (dt/review/review_tests.py:196). -/
def longPathIssue (p : List Str) : Str := c!"Long path (" ++ natToStr p.length ++ c!"):  " ++ reprList p ++ c!"."

/-- The last loop of `review_long_chain_relationships` (dt/review/review_tests.py:194-198). -/
def longIssues (max : CfgVal) : List (List Str) → Except PyErr (List Str)
  | [] => .ok []
  | p :: ps => do
    let long ← gtCfg ((p.length - 1 : Nat) : Rat) max
    let rest ← longIssues max ps
    .ok ((if long then [longPathIssue p] else []) ++ rest)

/-- `review_long_chain_relationships` (dt/review/review_tests.py:173-198).  `depth` is the room on the Python stack. -/
def reviewLongChain (order : List Str → List Str) (depth : Nat) (db : Database) (cfg : Config) : Except PyErr (List Str) := do
  let m := getRelationships order db
  let paths ← allPaths m depth m.keys
  longIssues (cfg.value c!"max_reference_chain" (.int 3)) paths

/-! ## Primary keys -/

/-- `review_pks` (dt/review/review_tests.py:259-274). -/
def reviewPks (db : Database) : List Str :=
  db.iter.flatMap (fun t =>
    if t.pk = [] then [c!"No primary key on table " ++ db.name ++ c!"." ++ t.schema ++ c!"." ++ t.name] else [])

/-! ## Sharding -/

/-- A row of `show statistics for server` (dt/review/review_tests.py:230-235): the texts of the columns the review reads. -/
structure StatRow where
  database : Str
  schema : Str
  table : Str
  rowCount : Str
  shards : Str
  skew : Str
deriving DecidableEq, Repr

/-- Thousands separators, on reversed digits: the number says how many digits until the next separator. -/
def commaGo : Nat → Str → Str
  | _, [] => []
  | 0, c :: t => ',' :: c :: commaGo 2 t
  | k + 1, c :: t => c :: commaGo k t

/-- Separators in the digits a text begins with. -/
def groupDigits (s : Str) : Str := (commaGo 3 (s.takeWhile (·.isDigit)).reverse).reverse ++ s.dropWhile (·.isDigit)

/-- Python's `,` for the text of a float: separators in the digits before the point or the exponent. -/
def groupFloat : Str → Str
  | '-' :: s => '-' :: groupDigits s
  | s => groupDigits s

/-- `f"{value:,}"` (dt/review/review_tests.py:241, 247, 250); how Python prints a float without separators is the parameter. -/
def fmtComma (floatRepr : Rat → Str) : CfgVal → Except PyErr Str
  | .int n => .ok ((if n < 0 then c!"-" else []) ++ (commaGo 3 (natToStr n.natAbs).reverse).reverse)
  | .flt q => .ok (groupFloat (floatRepr q))
  | .text _ => .error .value

/-- The start of the messages (dt/review/review_tests.py:240, 246, 249, 254). -/
def StatRow.label (r : StatRow) : Str := r.database ++ c!"." ++ r.schema ++ c!"." ++ r.table

/-- The message about rows per shard of a sharded table (dt/review/review_tests.py:245-250). -/
def rowsPerShard (floatRepr : Rat → Str) (maxRows minRows : CfgVal) (r : StatRow) (perShard : Rat) : Except PyErr (List Str) := do
  let few ← ltCfg perShard minRows
  if few then
    let s ← fmtComma floatRepr minRows
    .ok [r.label ++ c!" is sharded and has less than " ++ s ++ c!" rows per shard"]
  else
    let many ← gtCfg perShard maxRows
    if many then
      let s ← fmtComma floatRepr maxRows
      .ok [r.label ++ c!" is sharded and has more than " ++ s ++ c!" rows per shard"]
    else .ok []

/-- The skew ratio (dt/review/review_tests.py:252). -/
def skewRatio (rows skew : Int) (perShard : Rat) : Except PyErr Rat := if rows > 0 then intFloatDiv skew perShard else .ok 0

/-- The message about skew (dt/review/review_tests.py:252-254). -/
def skewIssue (floatRepr : Rat → Str) (minSkew : CfgVal) (r : StatRow) (rows : Int) (skew : Int) (perShard : Rat) :
    Except PyErr (List Str) := do
  let ratio ← skewRatio rows skew perShard
  let high ← gtCfg ratio minSkew
  .ok (if high then [r.label ++ c!" has a high skew of " ++ (if rows > 0 then floatRepr ratio else c!"0")] else [])

/-- The messages for a row with its numbers (dt/review/review_tests.py:237-254).  The code computes the rows per shard up to three times. -/
def shardingCase (floatRepr : Rat → Str) (maxRows minRows minSkew : CfgVal) (r : StatRow) (rows shards skew : Int) :
    Except PyErr (List Str) :=
  if shards = 1 then do
    let big ← gtCfg (rows : Rat) maxRows
    if big then
      let s ← fmtComma floatRepr maxRows
      .ok [r.label ++ c!" is not sharded and has more than " ++ s ++ c!" rows total"]
    else .ok []
  else do
    let perShard ← intDiv rows shards
    let a ← rowsPerShard floatRepr maxRows minRows r perShard
    let b ← skewIssue floatRepr minSkew r rows skew perShard
    .ok (a ++ b)

/-- One round of the loop of `review_sharding` (dt/review/review_tests.py:229-254). -/
def shardingRow (floatRepr : Rat → Str) (maxRows minRows minSkew : CfgVal) (db : Str) (r : StatRow) : Except PyErr (List Str) :=
  if r.database = db then
    match pyInt r.rowCount, pyInt r.shards, pyInt r.skew with
    | some rows, some shards, some skew => shardingCase floatRepr maxRows minRows minSkew r rows shards skew
    | _, _, _ => .error .value
  else .ok []

/-- The loop of `review_sharding` (dt/review/review_tests.py:229-256). -/
def shardingRows (f : StatRow → Except PyErr (List Str)) : List StatRow → Except PyErr (List Str)
  | [] => .ok []
  | r :: rs => do
    let a ← f r
    let b ← shardingRows f rs
    .ok (a ++ b)

/-- `MIN_SKEW_RATIO = 0.01` (dt/review/review_tests.py:203): the value of the float. -/
def minSkewRatio : Rat := 5764607523034235 / 576460752303423488

/-- `review_sharding` (dt/review/review_tests.py:201-256); the server's answer to the statistics query is a parameter. -/
def reviewSharding (floatRepr : Rat → Str) (db : Database) (stats : Except PyErr (List StatRow)) (cfg : Config) :
    Except PyErr (List Str) := do
  let rows ← stats
  shardingRows (shardingRow floatRepr (cfg.value c!"max_rows_per_shard" (.int 50000000))
    (cfg.value c!"min_rows_per_shard" (.int 20000000)) (cfg.value c!"min_skew_ratio" (.flt minSkewRatio)) db.name) rows

/-! ## Joins -/

/-- `QueryParts` (dt/review/review_tests.py:278-288). -/
structure QueryParts where
  name : Str
  fromDb : Str
  fromSchema : Str
  fromTable : Str
  toDb : Str
  toSchema : Str
  toTable : Str
  fromCols : List Str
  toCols : List Str
  condition : Str
deriving DecidableEq, Repr

/-- `table.primary_key` or all column names (dt/review/review_tests.py:375-381, 432-438). -/
def keyCols (t : Table) : List Str := if t.pk = [] then t.cols.keys else t.pk

/-- One equation of the join condition (dt/review/review_tests.py:372-373). -/
def fkEquation (fromTable toTable : Table) (fk : FK) (i : Nat) : Except PyErr Str :=
  match fk.fromKeys[i]?, fk.toKeys[i]? with
  | some a, some b =>
    .ok (c!"\"" ++ fromTable.name ++ c!"\".\"" ++ a ++ c!"\" = \"" ++ toTable.name ++ c!"\".\"" ++ b ++ c!"\")")
  | _, _ => .error .index

/-- The loop that builds the join condition (dt/review/review_tests.py:368-373). -/
def fkCondition (fromTable toTable : Table) (fk : FK) : Except PyErr Str :=
  (List.range fk.fromKeys.length).foldlM (fun acc i => do
    let e ← fkEquation fromTable toTable fk i
    .ok (acc ++ (if i > 0 then c!" AND " else []) ++ e)) (List.replicate fk.fromKeys.length '(')

/-- `get_fk_join_parts` (dt/review/review_tests.py:359-394). -/
def fkJoinParts (db : Database) (fromTable : Table) (fk : FK) : Except PyErr QueryParts :=
  match db.getTable fk.toTable with
  | none => .error .attribute
  | some toTable => do
    let cond ← fkCondition fromTable toTable fk
    .ok { name := fk.name, fromDb := db.name, fromSchema := fromTable.schema, fromTable := fromTable.name, toDb := db.name,
          toSchema := toTable.schema, toTable := toTable.name, fromCols := keyCols fromTable, toCols := keyCols toTable,
          condition := cond }

/-- `get_rel_join_parts` (dt/review/review_tests.py:397-451). -/
def relJoinParts (db : Database) (fromTable : Table) (r : Rel) : Except PyErr QueryParts :=
  match db.getTable r.toTable with
  | none => .error .attribute
  | some toTable =>
    .ok { name := r.name, fromDb := db.name, fromSchema := fromTable.schema, fromTable := fromTable.name, toDb := db.name,
          toSchema := toTable.schema, toTable := toTable.name, fromCols := keyCols fromTable, toCols := keyCols toTable,
          condition := r.conditions }

/-- `"db"."schema"` (dt/review/review_tests.py:464-465, 520-521). -/
def dbSchema (db schema : Str) : Str := quoted db ++ c!"." ++ quoted schema

/-- The text both cardinality queries share (dt/review/review_tests.py:464-488, 520-543): group by the columns of one table, count the
rows of the other. -/
def cardinalityQuery (gSchema gTable : Str) (gCols : List Str) (cSchema cTable cCol cond : Str) : Str :=
  c!"select " ++ joinS c!"," (gCols.map (fun c => gSchema ++ c!"." ++ quoted gTable ++ c!"." ++ quoted c)) ++ c!", count(" ++
  (cSchema ++ c!"." ++ quoted cTable ++ c!"." ++ quoted cCol) ++ c!") as c1 from " ++ gSchema ++ c!"." ++ quoted gTable ++ c!", " ++
  cSchema ++ c!"." ++ quoted cTable ++ c!" where " ++ cond ++ c!" group by " ++
  joinS c!"," (gCols.map (fun c => quoted gTable ++ c!"." ++ quoted c)) ++ c!" order by c1 desc limit 1;"

/-- `get_to_table_cardinality_query` (dt/review/review_tests.py:454-488). -/
def toQuery (p : QueryParts) : Except PyErr Str :=
  match p.toCols with
  | [] => .error .index
  | c :: _ => .ok (cardinalityQuery (dbSchema p.fromDb p.fromSchema) p.fromTable p.fromCols (dbSchema p.toDb p.toSchema) p.toTable c
      p.condition)

/-- `get_from_table_cardinality_query` (dt/review/review_tests.py:510-543). -/
def fromQuery (p : QueryParts) : Except PyErr Str :=
  match p.fromCols with
  | [] => .error .index
  | c :: _ => .ok (cardinalityQuery (dbSchema p.toDb p.toSchema) p.toTable p.toCols (dbSchema p.fromDb p.fromSchema) p.fromTable c
      p.condition)

/-- A server: from the queries asked before and a query to its answer, an exception or rows.  Of a row only the text of the column `c1` matters,
if it has one.  Stands for `RemoteTQL.execute_tql_query` of the package pytql, which is not part of the repository. -/
abbrev QueryServer := List Str → Str → Except PyErr (List (Option Str))

/-- `query_for_cardinality` (dt/review/review_tests.py:491-507): every exception gives -1. -/
def cardinality (srv : QueryServer) (asked : List Str) (query : Str) : Int :=
  match srv asked query with
  | .ok (some t :: _) => (pyInt t).getD (-1)
  | _ => -1

/-- The message for a pair of counts (dt/review/review_tests.py:331-338). -/
def joinIssue (name : Str) (countFrom countTo : Int) : List Str :=
  if countFrom ≤ 0 ∨ countTo ≤ 0 then [name ++ c!" didn't return data."]
  else if countTo > 1 then
    if countFrom = 1 then [name ++ c!" is a 1:M join."] else [name ++ c!" is a M:M join."]
  else []

/-- The inner loop of `review_table_joins` (dt/review/review_tests.py:323-339); the result carries the queries asked so far. -/
def runJoins (srv : QueryServer) : List Str → List QueryParts → Except PyErr (List Str × List Str)
  | asked, [] => .ok (asked, [])
  | asked, p :: ps => do
    let q1 ← toQuery p
    let countTo := cardinality srv asked q1
    let q2 ← fromQuery p
    let countFrom := cardinality srv (asked ++ [q1]) q2
    let r ← runJoins srv (asked ++ [q1, q2]) ps
    .ok (r.1, joinIssue p.name countFrom countTo ++ r.2)

/-- The joins of a table (dt/review/review_tests.py:307-316). -/
def joinsOf (db : Database) (t : Table) : Except PyErr (List QueryParts) := do
  let a ← t.fks.vals.mapM (fkJoinParts db t)
  let b ← t.rels.vals.mapM (relJoinParts db t)
  .ok (a ++ b)

/-- The outer loop of `review_table_joins` (dt/review/review_tests.py:307-339). -/
def joinTables (srv : QueryServer) (db : Database) : List Str → List Table → Except PyErr (List Str × List Str)
  | asked, [] => .ok (asked, [])
  | asked, t :: ts => do
    let joins ← joinsOf db t
    let r ← runJoins srv asked joins
    let rest ← joinTables srv db r.1 ts
    .ok (rest.1, r.2 ++ rest.2)

/-- `review_table_joins` (dt/review/review_tests.py:290-356). -/
def reviewTableJoins (srv : QueryServer) (db : Database) : Except PyErr (List Str) := do
  let r ← joinTables srv db [] db.iter
  .ok r.2

/-! ## Worksheet joins -/

/-- The text of a name in a worksheet; the model leaves out worksheets whose names are not texts. -/
def Yaml.text : Yaml → Except PyErr Str
  | .str s => .ok s
  | _ => .error .unmodelled

/-- `worksheet.get_table(name).table_type` (dt/review/review_tests.py:575, 584). -/
def wsTableType (w : Worksheet) (n : Str) : Except PyErr Yaml := do
  let t ← w.getTable n
  match t with
  | none => .error .attribute
  | some t => .ok t.type

/-- A qualified column (dt/review/review_tests.py:602-610). -/
def fullCol (db schema table col : Str) : Str := dbSchema db schema ++ c!"." ++ quoted table ++ c!"." ++ quoted col

/-- One round of the loop below (dt/review/review_tests.py:600-603). -/
def wsEquation (db s1 t1 s2 t2 : Str) (fk : FK) (acc : Str) (i : Nat) : Except PyErr Str :=
  match fk.fromKeys[i]?, fk.toKeys[i]? with
  | some a, some b => .ok (acc ++ (if i > 0 then c!" AND " else []) ++ c!"(" ++ fullCol db s1 t1 a ++ c!" = " ++ fullCol db s2 t2 b ++ c!")")
  | _, _ => .error .index

/-- The ON condition (dt/review/review_tests.py:598-603). -/
def wsCondition (db s1 t1 s2 t2 : Str) (fk : FK) : Except PyErr Str :=
  (List.range fk.fromKeys.length).foldlM (wsEquation db s1 t1 s2 t2 fk) []

/-- The query for missing keys (dt/review/review_tests.py:612-622, 628-638): `nullTable` and `nullCol` are what its WHERE clause tests. -/
def missingQuery (db s1 t1 s2 t2 : Str) (fk : FK) (on : Str) (nullTable nullCol : Str) : Str :=
  c!"select " ++ joinS c!"," (fk.fromKeys.map (fullCol db s1 t1)) ++ c!", " ++ joinS c!"," (fk.toKeys.map (fullCol db s2 t2)) ++
  c!" FROM " ++ dbSchema db s1 ++ c!"." ++ quoted t1 ++ c!" full outer join " ++ dbSchema db s2 ++ c!"." ++ quoted t2 ++ c!" ON " ++ on ++
  c!" WHERE " ++ quoted nullTable ++ c!"." ++ quoted nullCol ++ c!" = NULL;"

/-- The join type the answers suggest (dt/review/review_tests.py:643-649). -/
def suggestedJoin (leftOuter rightOuter : Bool) : Str :=
  if rightOuter && leftOuter then c!"OUTER"
  else if rightOuter then c!"RIGHT_OUTER"
  else if leftOuter then c!"LEFT_OUTER"
  else c!"INNER"

/-- The message for a join (dt/review/review_tests.py:651-653). -/
def wsJoinIssue (name actual should : Str) : List Str :=
  if actual ≠ should then
    [c!"Join " ++ name ++ c!" is type " ++ actual ++ c!", but should probably be " ++ should ++ c!"."] else []

/-- The part of the loop after the foreign key was found (dt/review/review_tests.py:598-653). -/
def runWsJoin (srv : QueryServer) (asked : List Str) (db s1 t1 s2 t2 name actual : Str) (fk : FK) : Except PyErr (List Str × List Str) := do
  let on ← wsCondition db s1 t1 s2 t2 fk
  match fk.fromKeys, fk.toKeys with
  | left :: _, right :: _ =>
    let q1 := missingQuery db s1 t1 s2 t2 fk on t2 left
    let r1 ← srv asked q1
    let q2 := missingQuery db s1 t1 s2 t2 fk on t1 right
    let r2 ← srv (asked ++ [q1]) q2
    .ok (asked ++ [q1, q2], wsJoinIssue name actual (suggestedJoin (decide (r1.length > 0)) (decide (r2.length > 0))))
  | _, _ => .error .index

/-- The part of the loop after both tables were found (dt/review/review_tests.py:592-597): joins that are not foreign keys are skipped. -/
def withForeignKey (asked : List Str) (k : Option FK) (f : FK → Except PyErr (List Str × List Str)) :
    Except PyErr (List Str × List Str) :=
  match k with
  | none => .ok (asked, [])
  | some fk => f fk

/-- The schema of a table, which must exist (dt/review/review_tests.py:580, 590). -/
def schemaOf (t : Option Table) : Except PyErr Str :=
  match t with
  | none => .error .attribute
  | some t => .ok t.schema

/-- One round of the loop of `review_worksheet_joins` (dt/review/review_tests.py:572-655). -/
def wsJoin (srv : QueryServer) (db : Database) (w : Worksheet) (asked : List Str) (j : WsJoin) : Except PyErr (List Str × List Str) := do
  let source ← j.source.text
  let type1 ← wsTableType w source
  if ¬ type1.isStr c!"table" then .ok (asked, [])
  else
    let s1 ← schemaOf (db.getTable source)
    let dest ← j.destination.text
    let type2 ← wsTableType w dest
    if ¬ type2.isStr c!"table" then .ok (asked, [])
    else
      let s2 ← schemaOf (db.getTable dest)
      let name ← j.name.text
      let actual ← j.type.text
      withForeignKey asked ((db.getTable source).bind (·.getForeignKey name)) (runWsJoin srv asked db.name s1 source s2 dest name actual)

/-- The loop of `review_worksheet_joins` (dt/review/review_tests.py:572-657). -/
def wsJoins (srv : QueryServer) (db : Database) (w : Worksheet) : List Str → List WsJoin → Except PyErr (List Str × List Str)
  | asked, [] => .ok (asked, [])
  | asked, j :: js => do
    let r ← wsJoin srv db w asked j
    let rest ← wsJoins srv db w r.1 js
    .ok (rest.1, r.2 ++ rest.2)

/-- `review_worksheet_joins` (dt/review/review_tests.py:546-657). -/
def reviewWorksheetJoins (srv : QueryServer) (db : Database) (w : Worksheet) : Except PyErr (List Str) := do
  let r ← wsJoins srv db w [] w.getJoins
  .ok r.2

/-! ## The reviewer -/

/-- An attribute of the module of tests (dt/review/review.py:68-80): its name and the names of its parameters, if it is a function. -/
structure TestItem where
  name : Str
  params : List Str
deriving DecidableEq, Repr

/-- Which optional inputs are given to `review_model` (dt/review/review.py:47). -/
structure Inputs where
  rtql : Bool
  worksheet : Bool
deriving DecidableEq, Repr

/-- The arguments a test is called with, or `none` if it is skipped (dt/review/review.py:80-101). -/
def callArgs (i : Inputs) (t : TestItem) : Option (List Str) :=
  let a := if t.params.contains c!"database" then [c!"database"] else []
  if t.params.contains c!"rtql" ∧ ¬ i.rtql then none
  else
    let a := if t.params.contains c!"rtql" then a ++ [c!"rtql"] else a
    if t.params.contains c!"worksheet" ∧ ¬ i.worksheet then none
    else
      let a := if t.params.contains c!"worksheet" then a ++ [c!"worksheet"] else a
      let a := if t.params.contains c!"config_file" then a ++ [c!"config_file"] else a
      if a.length ≠ 0 then some a else none

/-- What a run of the reviewer does: the calls it makes with their arguments, and what it returns or raises. -/
structure ReviewRun where
  calls : List (Str × List Str)
  result : Except PyErr (Dict (List Str))
deriving DecidableEq, Repr

/-- The loop of `review_model` (dt/review/review.py:66-105) over the attributes in the order of `dir`.  `run` is what a test returns or
raises when called. -/
def reviewItems (names : List Str) (i : Inputs) (run : Str → List Str → Except PyErr (List Str)) :
    Dict (List Str) → List TestItem → ReviewRun
  | recs, [] => { calls := [], result := .ok recs }
  | recs, t :: ts =>
    if names ≠ [] ∧ ¬ names.contains t.name then reviewItems names i run recs ts
    else if startsWith t.name c!"review_" then
      match callArgs i t with
      | none => reviewItems names i run recs ts
      | some args =>
        match run t.name args with
        | .error e => { calls := [(t.name, args)], result := .error e }
        | .ok r =>
          let rest := reviewItems names i run (if r ≠ [] then recs.set t.name r else recs) ts
          { rest with calls := (t.name, args) :: rest.calls }
    else reviewItems names i run recs ts

/-- `DataModelReviewer.review_model` (dt/review/review.py:47-106); `hasDb` says whether a database is given. -/
def reviewModel (items : List TestItem) (hasDb : Bool) (names : List Str) (i : Inputs)
    (run : Str → List Str → Except PyErr (List Str)) : ReviewRun :=
  if hasDb then reviewItems names i run [] items else { calls := [], result := .error .assertion }

/-- The functions of dt/review/review_tests.py in the order of `dir`, as far as their names start with `get_` or `review_`. -/
def reviewFunctions : List TestItem :=
  [⟨c!"get_relationships", [c!"database"]⟩, ⟨c!"review_circular_relationships", [c!"database"]⟩,
   ⟨c!"review_long_chain_relationships", [c!"database", c!"config_file"]⟩, ⟨c!"review_pks", [c!"database"]⟩,
   ⟨c!"review_relationships", [c!"database"]⟩, ⟨c!"review_sharding", [c!"database", c!"rtql", c!"config_file"]⟩,
   ⟨c!"review_table_joins", [c!"database", c!"rtql"]⟩, ⟨c!"review_worksheet_joins", [c!"database", c!"rtql", c!"worksheet"]⟩]

end Verif
