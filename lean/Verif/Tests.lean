import Verif.Config
import Verif.Diff
import Verif.Excel
import Verif.Parser
import Verif.Review
import Verif.Validator
/-
The unit tests of the repository (dt/tests, dt/review/tests), carried out on the model: each `assert` of a test becomes a conjunct.
These are tests of the translation from Python to Lean, not proofs of properties.  Left out are tests that need a server or a file that is not
in the repository (test_review.py:37-47, 69-80, test_io.py:362-367) and tests that assert nothing (test_io.py:319, test_model.py:420).
-/

namespace Verif.Tests
open Verif

/-- A call that returned. -/
def got {α : Type} : Except PyErr α → Option α
  | .ok a => some a
  | .error _ => none

/-- A call that raised `AssertionError`. -/
def asserts {α : Type} : Except PyErr α → Bool
  | .error .assertion => true
  | _ => false

/-- A call that raised `ValueError`. -/
def invalid {α : Type} : Except PyErr α → Bool
  | .error .value => true
  | _ => false

/-! ## dt/tests/test_model.py -/

/-- 11-24. -/
example : [(c!"column_1", c!"INT"), (c!"column_2", c!"DOUBLE"), (c!"column_3", c!"DATETIME")].map (fun p => got (mkColumn (some p.1) (some p.2))) =
    [some ⟨c!"column_1", c!"INT"⟩, some ⟨c!"column_2", c!"DOUBLE"⟩, some ⟨c!"column_3", c!"DATETIME"⟩] := by decide

/-- 27-37. -/
example : asserts (mkColumn (some c!"column_1") none) ∧ asserts (mkColumn none (some c!"INT")) ∧ invalid (mkColumn (some c!"column_1") (some c!"bit")) := by decide

/-- 46-75. -/
example : got (mkFK (some c!"tableA") (some (.one c!"colA")) (some c!"tableB") (some (.one c!"colB")) (some c!"TestFK")) =
      some ⟨c!"TestFK", c!"tableA", [c!"colA"], c!"tableB", [c!"colB"]⟩ ∧
    got (mkFK (some c!"tableA") (some (.one c!"colA")) (some c!"tableB") (some (.one c!"colB")) none) =
      some ⟨c!"FK_tableA_to_tableB", c!"tableA", [c!"colA"], c!"tableB", [c!"colB"]⟩ := by decide

/-- 77-106. -/
example : asserts (mkFK none (some (.one c!"colA")) (some c!"tableB") (some (.one c!"colB")) none) ∧
    asserts (mkFK (some c!"tableA") none (some c!"tableB") (some (.one c!"colB")) none) ∧
    asserts (mkFK (some c!"tableA") (some (.one c!"colA")) none (some (.one c!"colB")) none) ∧
    asserts (mkFK (some c!"tableA") (some (.one c!"colA")) (some c!"tableB") none none) := by decide

/-- 108-128. -/
example : (got (mkFK (some c!"tableA") (some (.many [c!"colA", c!"colB"])) (some c!"tableB") (some (.many [c!"colA", c!"colB"])) none)).map (fun k => (k.fromKeys, k.toKeys)) =
      some ([c!"colA", c!"colB"], [c!"colA", c!"colB"]) ∧
    invalid (mkFK (some c!"tableA") (some (.one c!"colA")) (some c!"tableB") (some (.many [c!"colA", c!"colB"])) none) := by decide

/-- 140-164. -/
example : (got (mkRel (some c!"tableA") (some c!"tableB") (some c!"col1 = col2") (some c!"REL_test"))).map (·.name) = some c!"REL_test" ∧
    (got (mkRel (some c!"tableA") (some c!"tableB") (some c!"col1 = col2") none)).map (·.name) = some c!"REL_tableA_to_tableB" ∧
    (got (mkRel (some c!"tableA") (some c!"tableB") (some c!"tableA.colA > tableB.colB") none)).map (·.conditions) = some c!"tableA.colA > tableB.colB" := by decide

/-- `Table(...)` with the default for the schema (dt/model.py:214-220). -/
def table (name : Str) (schema : Str := defaultSchema) (pk : Option KeyArg := none) (shard : Option ShardKey := none) : Option Table :=
  got (mkTable (some name) (some schema) pk shard)

/-- 172-203. -/
example : (table c!"Table1").map (·.name) = some c!"Table1" ∧ asserts (mkTable none (some defaultSchema) none none) ∧ asserts (mkTable (some c!"Table1") none none none) ∧
    (table c!"Table1" (pk := some (.one c!"column_1"))).map (·.pk) = some [c!"column_1"] ∧
    (table c!"Table2" (pk := some (.many [c!"column_1", c!"column_2"]))).map (·.pk) = some [c!"column_1", c!"column_2"] ∧
    (table c!"Table").map (·.schema) = some c!"falcon_default_schema" ∧ (table c!"Table" c!"some_other_schema").map (·.schema) = some c!"some_other_schema" := by decide

/-- Columns added one after the other. -/
def with_ (t : Option Table) (cols : List (Str × Str)) : Option Table :=
  cols.foldl (fun t p => t.bind (fun t => (got (mkColumn (some p.1) (some p.2))).map t.addColumn)) t

/-- 205-220. -/
def testTable : Option Table := with_ (table c!"Table" c!"test") [(c!"column_1", c!"INT"), (c!"column_2", c!"DOUBLE"), (c!"column_3", c!"DATETIME"), (c!"column_4", c!"BOOL")]

/-- 222-249. -/
example : testTable.map (·.numberColumns) = some 4 ∧ (testTable.map (fun t => (t.dropColumn c!"column_3").1)).map (fun t => (t.numberColumns, t.hasColumn c!"column_3")) = some (3, false) ∧
    testTable.map (fun t => [c!"column_1", c!"column_2", c!"column_3", c!"column_4", c!"column_5"].map t.hasColumn) = some [true, true, true, true, false] ∧
    testTable.map (fun t => t.iter.map (·.name)) = some [c!"column_1", c!"column_2", c!"column_3", c!"column_4"] := by decide

/-- 251-258. -/
example : (table c!"table1" (pk := some (.one c!"pk1"))).map (·.pk) = some [c!"pk1"] ∧
    ((table c!"table1" (pk := some (.one c!"pk1"))).bind (fun t => got (t.setPrimaryKey (some (.one c!"pk2"))))).map (·.pk) = some [c!"pk2"] ∧
    (((table c!"table1" (pk := some (.one c!"pk1"))).bind (fun t => got (t.setPrimaryKey (some (.one c!"pk2"))))).bind
      (fun t => got (t.setPrimaryKey (some (.many [c!"pk1", c!"pk2"]))))).map (·.pk) = some [c!"pk1", c!"pk2"] := by decide

/-- 260-285. -/
def withKeys : Option Table := do
  let t ← table c!"table1" (pk := some (.one c!"pk1"))
  let k ← got (mkFK (some c!"table1") (some (.one c!"col1")) (some c!"table2") (some (.one c!"col2")) (some c!"fk1"))
  got ((t.addForeignKeyObj k).addForeignKey (some (.one c!"col3")) (some c!"table3") (some (.one c!"col4")) (some c!"fk2"))

example : withKeys.map (fun t => (t.getForeignKey c!"fk1").map (·.fromTable)) = some (some c!"table1") ∧
    withKeys.map (fun t => t.getForeignKey c!"fk2") = some (some ⟨c!"fk2", c!"table1", [c!"col3"], c!"table3", [c!"col4"]⟩) ∧
    withKeys.map (fun t => t.getForeignKey c!"fkx") = some none := by decide

/-- 287-316. -/
def withRels : Option Table := do
  let t ← table c!"table1" (pk := some (.one c!"pk1"))
  let r ← got (mkRel (some c!"table1") (some c!"table2") (some c!"table1.col1 = table2.col2") (some c!"rel1"))
  got ((t.addRelationshipObj r).addRelationship (some c!"table3") (some c!"rel2") (some c!"table1.col1 = table3.col3"))

example : withRels.map (fun t => (t.getRelationship c!"rel1").map (·.name)) = some (some c!"rel1") ∧
    withRels.map (fun t => t.getRelationship c!"rel2") = some (some ⟨c!"rel2", c!"table1", c!"table3", c!"table1.col1 = table3.col3"⟩) ∧
    withRels.map (fun t => t.getRelationship c!"foo") = some none := by decide

/-- A database with these tables. -/
def database (name : Str) (ts : List (Option Table)) : Option Database :=
  ts.foldl (fun db t => db.bind (fun db => t.map db.addTable)) (got (mkDatabase (some name)))

/-- 323-328. -/
def testDatabase : Option Database := database c!"database1" [table c!"table1" c!"schema1", table c!"table2"]

/-- The database after `drop_table("table1")`. -/
def dropped : Option Database := testDatabase.bind (fun db => (got (db.dropTable c!"table1")).map Prod.fst)

/-- 330-381. -/
example : testDatabase.map (fun db => [c!"table1", c!"table2"].map (fun n => (db.getTable n).map (fun t => (t.name, t.schema)))) =
      some [some (c!"table1", c!"schema1"), some (c!"table2", c!"falcon_default_schema")] ∧
    testDatabase.map (fun db => [c!"table1", c!"table2", c!"table3"].map db.tableNames.contains) = some [true, true, false] ∧
    dropped.map (fun db => [c!"table1", c!"table2"].map db.tableNames.contains) = some [false, true] ∧
    testDatabase.map (fun db => [c!"schema1", c!"falcon_default_schema"].map db.schemaNames.contains) = some [true, true] ∧
    dropped.map (fun db => [c!"schema1", c!"falcon_default_schema"].map db.schemaNames.contains) = some [false, true] ∧
    testDatabase.map (fun db => db.iter.map (·.name)) = some [c!"table1", c!"table2"] := by decide

/-- `ShardKey(keys, number)`. -/
def shard (keys : KeyArg) (n : Int) : Option ShardKey := got (mkShardKey (some keys) (some (.int n)))

/-- 389-412. -/
def goodDb : Option Database :=
  let t1 := with_ (table c!"table1" (pk := some (.many [c!"col1", c!"col2"])) (shard := shard (.one c!"col1") 128)) [(c!"col1", c!"INT"), (c!"col2", c!"INT")]
  let t2 := (table c!"table2" (pk := some (.many [c!"col3", c!"col4"])) (shard := shard (.one c!"col3") 128)).bind (fun t =>
    got (t.addForeignKey (some (.many [c!"col3", c!"col4"])) (some c!"table1") (some (.many [c!"col1", c!"col2"])) none))
  database c!"good_db" [t1, with_ t2 [(c!"col3", c!"INT"), (c!"col4", c!"INT")]]

/-- 414-417. -/
example : goodDb.map (fun db => (got db.validate).map (fun r => (r.isValid, r.issues))) = some (some (true, [])) := by decide

/-! ## dt/tests/test_io.py -/

/-- 24-62. -/
example : [c!"integer", c!"rowversion", c!"uniqueidentifier", c!"serial", c!"bit", c!"blob", c!"binary", c!"number", c!"number(1)", c!"NUMBER(1)", c!"NUMBER(3,0)", c!"NUMBER(10,0)",
      c!"NUMBER(*,0)", c!"NUMBER(4,2)", c!"decimal", c!"numeric", c!"float", c!"double", c!"money", c!"real", c!"datetime", c!"time", c!"date", c!"text", c!"varchar", c!"char",
      c!"varchar(88)", c!"long", c!"enum", c!"xml", c!"something_new"].map (fun t => got (convertType t)) =
    [c!"BIGINT", c!"INT", c!"VARCHAR(0)", c!"INT", c!"BOOL", c!"UNKNOWN", c!"UNKNOWN", c!"BIGINT", c!"INT", c!"INT", c!"INT", c!"BIGINT", c!"BIGINT", c!"DOUBLE", c!"DOUBLE", c!"DOUBLE",
      c!"DOUBLE", c!"DOUBLE", c!"DOUBLE", c!"DOUBLE", c!"DATETIME", c!"TIME", c!"DATE", c!"VARCHAR(0)", c!"VARCHAR(0)", c!"VARCHAR(0)", c!"VARCHAR(0)", c!"VARCHAR(0)", c!"VARCHAR(0)",
      c!"VARCHAR(0)", c!"UNKNOWN"].map some := by decide +kernel

/-- 68-81. -/
def simpleDb : Option Database := database c!"database1" [with_ (table c!"table1") [(c!"col1", c!"INT"), (c!"Col2", c!"DOUBLE"), (c!"COL3", c!"FLOAT")]]

/-- The script contains the texts of `yes` and not those of `no`. -/
def holds (o : TqlOpts) (db : Option Database) (yes no : List Str) : Bool :=
  match db with
  | some db => (writeTql o db).2 == none && yes.all (fun x => hasSub x (writeTql o db).1) && no.all (fun x => !hasSub x (writeTql o db).1)
  | none => false

/-- 83-100. -/
example : holds {} simpleDb [c!"USE \"database1\"", c!"DROP TABLE \"falcon_default_schema\".\"table1\"", c!"CREATE TABLE \"falcon_default_schema\".\"table1\"", c!"\"col1\" INT",
    c!"\"Col2\" DOUBLE", c!"\"COL3\" FLOAT"] [c!"PRIMARY KEY"] := by decide +kernel

/-- 102-119. -/
example : holds { uppercase := true } simpleDb [c!"USE \"DATABASE1\"", c!"DROP TABLE \"falcon_default_schema\".\"TABLE1\"",
    c!"CREATE TABLE \"falcon_default_schema\".\"TABLE1\"", c!"\"COL1\" INT", c!"\"COL2\" DOUBLE", c!"\"COL3\" FLOAT"] [c!"PRIMARY KEY"] := by decide +kernel

/-- 121-138. -/
example : holds { lowercase := true } simpleDb [c!"USE \"database1\"", c!"DROP TABLE \"falcon_default_schema\".\"table1\"",
    c!"CREATE TABLE \"falcon_default_schema\".\"table1\"", c!"\"col1\" INT", c!"\"col2\" DOUBLE", c!"\"col3\" FLOAT"] [c!"PRIMARY KEY"] := by decide +kernel

/-- 140-175. -/
def complexDb : Option Database :=
  let t1 := (with_ (table c!"table1" (pk := some (.one c!"col1")) (shard := shard (.one c!"col1") 128)) [(c!"col1", c!"INT"), (c!"Col2", c!"DOUBLE"), (c!"COL3", c!"FLOAT")]).bind
    (fun t => got (t.addRelationship (some c!"table2") none (some c!"(\"table1\".\"col1\" == \"table2.\"COL6\")")))
  let t2 := (with_ (table c!"table2" (pk := some (.many [c!"col4", c!"Col5"])) (shard := shard (.many [c!"col4", c!"Col5"]) 96))
    [(c!"col4", c!"VARCHAR(0)"), (c!"Col5", c!"DATE"), (c!"COL6", c!"BOOL")]).bind (fun t => got (t.addForeignKey (some (.one c!"Col5")) (some c!"table1") (some (.one c!"COL3")) none))
  database c!"database2" [t1, t2]

/-- 177-206. -/
example : holds { createDb := true } complexDb [c!"CONSTRAINT PRIMARY KEY (\"col1\")", c!"CONSTRAINT PRIMARY KEY (\"col4\", \"Col5\")", c!"PARTITION BY HASH(128) KEY(\"col1\")",
    c!"PARTITION BY HASH(96) KEY(\"col4\", \"Col5\")",
    c!"ALTER TABLE \"falcon_default_schema\".\"table2\" ADD CONSTRAINT \"FK_table2_to_table1\" FOREIGN KEY (\"Col5\") REFERENCES \"falcon_default_schema\".\"table1\" (\"COL3\");",
    c!"ALTER TABLE \"falcon_default_schema\".\"table1\" ADD RELATIONSHIP \"REL_table1_to_table2\" WITH \"falcon_default_schema\".\"table2\" AS (\"table1\".\"col1\" == \"table2.\"COL6\");"]
    [] := by decide +kernel

/-- 214-245. -/
def excelDb : Option Database :=
  let t1 := with_ (table c!"table1" c!"s1" (some (.one c!"column_1")) (shard (.one c!"column_1") 128)) [(c!"column_1", c!"INT"), (c!"column_2", c!"DOUBLE"), (c!"column_3", c!"FLOAT")]
  let t2 := ((with_ (table c!"table2" c!"s1" (some (.one c!"column_1"))) [(c!"column_1", c!"INT"), (c!"column_2", c!"DATETIME"), (c!"column_3", c!"BOOL"), (c!"column_4", c!"DOUBLE")]).bind
    (fun t => got (t.addForeignKey (some (.one c!"column_1")) (some c!"table_1") (some (.one c!"column_1")) none))).bind
    (fun t => got (t.addRelationship (some c!"table1") none (some c!"table2.column_4 = table1.column_2")))
  database c!"xdb" [t1, t2]

/-- dt/tests/test_excel.xlsx, the workbook an older version of the writer made in 247: cells with a formula hold its text. -/
def excelFile : List (Str × List (List PyCell)) :=
  [(c!"Columns", [[.text c!"Database", .text c!"Schema", .text c!"Table", .text c!"Column", .text c!"Name", .text c!"Type"],
    [.text c!"xdb", .text c!"s1", .text c!"table1", .count (.int 1), .text c!"column_1", .text c!"INT"],
    [.text c!"xdb", .text c!"s1", .text c!"table1", .count (.int 2), .text c!"column_2", .text c!"DOUBLE"],
    [.text c!"xdb", .text c!"s1", .text c!"table1", .count (.int 3), .text c!"column_3", .text c!"FLOAT"],
    [.text c!"xdb", .text c!"s1", .text c!"table2", .count (.int 1), .text c!"column_1", .text c!"INT"],
    [.text c!"xdb", .text c!"s1", .text c!"table2", .count (.int 2), .text c!"column_2", .text c!"DATETIME"],
    [.text c!"xdb", .text c!"s1", .text c!"table2", .count (.int 3), .text c!"column_3", .text c!"BOOL"],
    [.text c!"xdb", .text c!"s1", .text c!"table2", .count (.int 4), .text c!"column_4", .text c!"DOUBLE"]]),
  (c!"Tables", [[.text c!"Database", .text c!"Schema", .text c!"Table", .text c!"Updated", .text c!"Update Type", .text c!"# Rows", .text c!"# Columns", .text c!"Primary Key", .text c!"Shard Key", .text c!"# Shards", .text c!"RLS Column", .text c!"# FKs From", .text c!"# FKs To"],
    [.text c!"xdb", .text c!"s1", .text c!"table1", .text c!"daily", .text c!"partial", .text c!"", .text c!"=COUNTIFS(Columns!A:A,Tables!A2, Columns!B:B,Tables!B2, Columns!C:C,Tables!C2)", .text c!"column_1", .text c!"column_1", .count (.int 128), .text c!"", .text c!"=IF(COUNTIF('Foreign Keys'!$D:$D,\"=\"&$C2)>0,COUNTIF('Foreign Keys'!$D:$D,\"=\"&$C2),\"\")", .text c!"=IF(COUNTIF('Foreign Keys'!$F:$F,\"=\"&$C2)>0,COUNTIF('Foreign Keys'!$F:$F,\"=\"&$C2),\"\")"],
    [.text c!"xdb", .text c!"s1", .text c!"table2", .text c!"daily", .text c!"partial", .text c!"", .text c!"=COUNTIFS(Columns!A:A,Tables!A3, Columns!B:B,Tables!B3, Columns!C:C,Tables!C3)", .text c!"column_1", .text c!"", .text c!"", .text c!"", .text c!"=IF(COUNTIF('Foreign Keys'!$D:$D,\"=\"&$C3)>0,COUNTIF('Foreign Keys'!$D:$D,\"=\"&$C3),\"\")", .text c!"=IF(COUNTIF('Foreign Keys'!$F:$F,\"=\"&$C3)>0,COUNTIF('Foreign Keys'!$F:$F,\"=\"&$C3),\"\")"]]),
  (c!"Foreign Keys", [[.text c!"Name", .text c!"Database", .text c!"Schema", .text c!"From Table", .text c!"From Columns", .text c!"To Table", .text c!"To Columns"],
    [.text c!"FK_table2_to_table_1", .text c!"xdb", .text c!"s1", .text c!"table2", .text c!"column_1", .text c!"table_1", .text c!"column_1"]]),
  (c!"Relationships", [[.text c!"Name", .text c!"Database", .text c!"Schema", .text c!"From Table", .text c!"To Table", .text c!"Conditions"],
    [.text c!"REL_table2_to_table1", .text c!"xdb", .text c!"s1", .text c!"table2", .text c!"table1", .text c!"table2.column_4 = table1.column_2"]])]

/-- 247-248: the model writes the same workbook, with two more columns in the sheet "Tables". -/
example : excelDb.map (fun db => (writeXls db).map (fun p => (p.1, if p.1 = c!"Tables" then p.2.map (·.take 13) else p.2))) = some excelFile := by decide +kernel

/-- dt/tests/test_excel_reader.xlsx, as xlrd shows it. -/
def readerFile : Workbook :=
  [(c!"Columns", [[.text c!"Database", .text c!"Schema", .text c!"Table", .text c!"Column", .text c!"Name", .text c!"Type"],
    [.text c!"xdb", .text c!"s1", .text c!"table1", .num 2, .text c!"column_1", .text c!"INT"],
    [.text c!"xdb", .text c!"s1", .text c!"table1", .num 3, .text c!"column_2", .text c!"DOUBLE"],
    [.text c!"xdb", .text c!"s1", .text c!"table1", .num 4, .text c!"column_3", .text c!"FLOAT"],
    [.text c!"xdb", .text c!"s1", .text c!"table2", .num 2, .text c!"column_1", .text c!"INT"],
    [.text c!"xdb", .text c!"s1", .text c!"table2", .num 3, .text c!"column_2", .text c!"DATETIME"],
    [.text c!"xdb", .text c!"s1", .text c!"table2", .num 4, .text c!"column_3", .text c!"BOOL"],
    [.text c!"xdb", .text c!"s1", .text c!"table2", .num 5, .text c!"column_4", .text c!"DOUBLE"],
    [.text c!"xdb", .text c!"s1", .text c!"table3", .num 1, .text c!"column_1", .text c!"INT"],
    [.text c!"xdb", .text c!"s1", .text c!"table3", .num 2, .text c!"column_2", .text c!"VARCHAR(0)"],
    [.text c!"xdb", .text c!"s1", .text c!"table3", .num 3, .text c!"column_3", .text c!"DOUBLE"],
    [.text c!"xdb", .text c!"s1", .text c!"table4", .num 1, .text c!"column_1", .text c!"INT"],
    [.text c!"xdb", .text c!"s1", .text c!"table4", .num 2, .text c!"column_2", .text c!"BOOL"],
    [.text c!"xdb", .text c!"s1", .text c!"table4", .num 3, .text c!"column_3", .text c!"VARCHAR(0)"]]),
  (c!"Tables", [[.text c!"Database", .text c!"Schema", .text c!"Table", .text c!"Updated", .text c!"Update Type", .text c!"# Rows", .text c!"# Columns", .text c!"Primary Key", .text c!"Shard Key", .text c!"# Shards", .text c!"RLS Column"],
    [.text c!"xdb", .text c!"s1", .text c!"table1", .text c!"daily", .text c!"partial", .text c!"", .num 3, .text c!"column_1", .text c!"column_1", .num 128, .text c!""],
    [.text c!"xdb", .text c!"s1", .text c!"table2", .text c!"daily", .text c!"partial", .text c!"", .num 4, .text c!"column_1", .text c!"column_1,column_2", .num 128, .text c!""],
    [.text c!"xdb", .text c!"s1", .text c!"table3", .text c!"daily", .text c!"partial", .text c!"", .num 3, .text c!"column_1, column_2", .text c!"", .text c!"", .text c!""],
    [.text c!"xdb", .text c!"s1", .text c!"table4", .text c!"daily", .text c!"partial", .text c!"", .num 3, .text c!"column1, column_3", .text c!"", .text c!"", .text c!""]]),
  (c!"Foreign Keys", [[.text c!"Name", .text c!"Database", .text c!"Schema", .text c!"From Table", .text c!"From Columns", .text c!"To Table", .text c!"To Columns"],
    [.text c!"FK_table2_to_table1", .text c!"xdb", .text c!"s1", .text c!"table2", .text c!"column_1", .text c!"table1", .text c!"column_1"],
    [.text c!"FK_table3_to_table4", .text c!"xdb", .text c!"s1", .text c!"table3", .text c!"column_1, column_2", .text c!"table4", .text c!"column_1,column_3"]]),
  (c!"Relationships", [[.text c!"Name", .text c!"Database", .text c!"Schema", .text c!"From Table", .text c!"To Table", .text c!"Conditions"],
    [.text c!"REL_table2_to_table1", .text c!"xdb", .text c!"s1", .text c!"table2", .text c!"table1", .text c!"table2.column_4 = table1.column_2"]])]

/-- A table of the database read from the file. -/
def readTable (n : Str) : Option Table := ((got (readXls readerFile)).bind (fun d => d.get? c!"xdb")).bind (fun db => db.getTable n)

/-- 258-304. -/
example : (readTable c!"table1").map (fun t => (t.name :: t.schema :: t.pk, t.shard)) = some ([c!"table1", c!"s1", c!"column_1"], some ⟨[c!"column_1"], .flt 128⟩) ∧
    (readTable c!"table1").map (fun t => [c!"column_1", c!"column_3"].map (fun n => (t.getColumn n).map (·.type))) = some [some c!"INT", some c!"FLOAT"] ∧
    (readTable c!"table2").map (fun t => (t.name :: t.schema :: t.pk, t.shard)) = some ([c!"table2", c!"s1", c!"column_1"], some ⟨[c!"column_1", c!"column_2"], .flt 128⟩) ∧
    (readTable c!"table2").map (fun t => [c!"column_1", c!"column_4"].map (fun n => (t.getColumn n).map (·.type))) = some [some c!"INT", some c!"DOUBLE"] ∧
    (readTable c!"table2").bind (fun t => t.getForeignKey c!"FK_table2_to_table1") = some ⟨c!"FK_table2_to_table1", c!"table2", [c!"column_1"], c!"table1", [c!"column_1"]⟩ ∧
    (readTable c!"table2").bind (fun t => t.getRelationship c!"REL_table2_to_table1") =
      some ⟨c!"REL_table2_to_table1", c!"table2", c!"table1", c!"table2.column_4 = table1.column_2"⟩ ∧
    (readTable c!"table3").bind (fun t => t.getForeignKey c!"FK_table3_to_table4") =
      some ⟨c!"FK_table3_to_table4", c!"table3", [c!"column_1", c!"column_2"], c!"table4", [c!"column_1", c!"column_3"]⟩ := by decide +kernel

/-! ## dt/tests/test_diff.py -/

/-- The two lists for databases `database1` and `database2` with one table each, or none. -/
def compared (t1 t2 : Option (Option Table)) : Option Diffs := do
  let a ← database c!"database1" t1.toList
  let b ← database c!"database2" t2.toList
  some (compareDatabases (fun _ => false) a b)

/-- 12-25. -/
example : (compared (some (table c!"table_from_1")) none).map (fun d => (d.1.map (fun x => match x with | .tableDropped _ t => t.name | _ => []),
    d.2.map (fun x => match x with | .tableCreated _ t => t.name | _ => []))) = some ([c!"table_from_1"], [c!"table_from_1"]) := by decide

/-- 27-51. -/
example : (compared (some (table c!"table1")) (some (with_ (table c!"table1") [(c!"column1", c!"INT")]))).map (fun d =>
      (d.1.map (fun x => match x with | .colAdded _ t c => [t.name, c.name, c.type] | _ => []),
       d.2.map (fun x => match x with | .colDropped _ t c => [t.name, c.name, c.type] | _ => []))) =
    some ([[c!"table1", c!"column1", c!"INT"]], [[c!"table1", c!"column1", c!"INT"]]) := by decide

/-- 53-78. -/
example : (compared (some (with_ (table c!"table1") [(c!"column1", c!"INT")])) (some (with_ (table c!"table1") [(c!"column1", c!"FLOAT")]))).map (fun d =>
      (d.1.map (fun x => match x with | .colModified _ t c => [t.name, c.name, c.type] | _ => []),
       d.2.map (fun x => match x with | .colModified _ t c => [t.name, c.name, c.type] | _ => []))) =
    some ([[c!"table1", c!"column1", c!"FLOAT"]], [[c!"table1", c!"column1", c!"INT"]]) := by decide

/-- 80-101 and 125-145. -/
example : (compared (some (table c!"table1" (pk := some (.one c!"column1")))) (some (table c!"table1"))).map (fun d =>
      (d.1.map (fun x => match x with | .pkDropped _ t => (t.name, t.pk) | _ => ([], [])), d.2.map (fun x => match x with | .pkAdded _ t _ => t.name | _ => []))) =
    some ([(c!"table1", [c!"column1"])], [c!"table1"]) := by decide

/-- 103-122. -/
example : (compared (some (table c!"table1" (shard := shard (.one c!"column1") 16))) (some (table c!"table1"))).map (fun d =>
      (d.1.map (fun x => match x with | .shardDropped _ t => t.name | _ => []), d.2.map (fun x => match x with | .shardAdded _ t _ _ => t.name | _ => []))) =
    some ([c!"table1"], [c!"table1"]) := by decide

/-- 147-168. -/
example : (compared (some ((table c!"table1").bind (fun t => (got (mkRel (some c!"table_1") (some c!"table_2") (some c!"table1.col1 = table2.col2") none)).map t.addRelationshipObj)))
      (some (table c!"table1"))).map (fun d =>
      (d.1.map (fun x => match x with | .relDropped _ t _ => t.name | _ => []), d.2.map (fun x => match x with | .relAdded _ t _ => t.name | _ => []))) =
    some ([c!"table1"], [c!"table1"]) := by decide

/-! ## dt/tests/test_util.py -/

/-- 27-37. -/
def testCfg : Str :=
  c!"# this is a test file.\n" ++ c!"key1=val1 # no spaces.\n" ++ c!"key2 =val2 # space before.\n" ++ c!"key3= val3 # space after.\n" ++ c!" key4 = val4# space before key.\n" ++
  c!" key5 = # missing value.\n" ++ c!" = val6 # missing key.\n" ++ c!" key7 is val7 # no equal, so ignore..\n"

/-- 45-58. -/
example : (loadConfig (fun f => if f = c!"test.cfg" then some (.text testCfg) else none) [] c!"test.cfg").1 =
    [(c!"key1", .text c!"val1"), (c!"key2", .text c!"val2"), (c!"key3", .text c!"val3"), (c!"key4", .text c!"val4")] := by decide

/-- 60-72. -/
example : Config.eq [(c!"key1", .text c!"val1"), (c!"key2", .text c!"val2"), (c!"key3", .text c!"val3")]
    (loadConfig (writeConfig (fun _ => []) (fun _ => none) true [(c!"key1", .text c!"val1"), (c!"key2", .text c!"val2"), (c!"key3", .text c!"val3")] c!"test_write.cf").1 []
      c!"test_write.cf").1 = true := by decide

/-- 74-81. -/
example : let cfg : Config := [(c!"k1", .text c!"v1")]
    Dict.get? cfg c!"k1" = some (.text c!"v1") ∧ Dict.get? cfg c!"k2" = none ∧ Config.value cfg c!"k3" (.int 3) = .int 3 := by decide

/-! ## dt/review/tests/test_review.py -/

/-- The database read from a file with these lines. -/
def parsed (n : Str) (lines : List Str) : Option Database :=
  match parseDdl (fun _ => some (.text (lines.flatMap (· ++ ['\n'])))) { databaseName := n } (some c!"test.tql") with
  | (_, .ok db) => db
  | _ => none

/-- dt/review/tests/circular.tql. -/
def circularLines : List Str :=
  [c!"-- database for testing circular references.",
   c!"",
   c!"create table table1 (pk1 bigint, fk1_to_2 bigint, primary key pk1);",
   c!"create table table2 (pk2 bigint, fk2_to_3 bigint, primary key pk2);",
   c!"create table table3 (pk3 bigint, fk3_to_1 bigint, fk_3_to_4, primary key pk3);",
   c!"create table table4 (pk4 bigint, primary key pk4);",
   c!"create table table5 (pk5 bigint, fk5_to_5 bigint, primary key pk5);",
   c!"create table table6 (pk6 bigint, fk6_to_7 bigint, primary key pk6);",
   c!"create table table7 (pk7 bigint, fk7_to_6 bigint, primary key pk7);",
   c!"",
   c!"alter table table1 add constraint \"fk_table1_to_table2\" foreign key (fk1_to_2) references table2 (pk2);",
   c!"alter table table2 add constraint \"fk_table2_to_table3\" foreign key (fk2_to_3) references table3 (pk3);",
   c!"alter table table3 add relationship \"rel_table3_to_table1\" with table1 as table3.fk3_to_fk1 = table1.pk1;",
   c!"alter table table3 add constraint \"fk_table3_to_table4\" foreign key (fk3_to_4) references table4 (pk4);",
   c!"alter table table5 add constraint \"fk_table5_to_table5\" foreign key (fk5_to_5) references table5 (pk5);",
   c!"alter table table6 add constraint \"fk_table6_to_table7\" foreign key (fk6_to_7) references table7 (pk7);",
   c!"alter table table7 add relationship \"rel_table7_to_table6\" with table6 as table7.fk7_to_6 = table6.pk6;"]

/-- dt/review/tests/long_chain.tql. -/
def longChainLines : List Str :=
  [c!"-- use for review_long_chain_relationships test.",
   c!"",
   c!"create table table1 (pk1, fk1, primary key pk1);",
   c!"create table table2 (pk2, fk2, primary key pk2);",
   c!"create table table3 (pk3, fk3, primary key pk3);",
   c!"create table table4 (pk4, fk4, primary key pk4);",
   c!"create table table5 (pk5, fk5, primary key pk5);",
   c!"create table table6 (pk6, fk6, primary key pk6);",
   c!"create table table7 (pk7, fk7, primary key pk7);",
   c!"create table table8 (pk8, fk8, primary key pk8);",
   c!"create table table9 (pk9, fk9, primary key pk9);",
   c!"",
   c!"alter table table1 add constraint \"fk_1_to_2\" foreign key (fk1) references table2 (pk2);",
   c!"alter table table1 add constraint \"fk_1_to_3\" foreign key (fk1) references table3 (pk3);",
   c!"alter table table1 add constraint \"fk_1_to_4\" foreign key (fk1) references table4 (pk4);",
   c!"",
   c!"alter table table2 add constraint \"fk_2_to_5\" foreign key (fk2) references table5 (pk5);",
   c!"alter table table2 add constraint \"fk_2_to_6\" foreign key (fk2) references table6 (pk6);",
   c!"",
   c!"-- also capture relationships.",
   c!"alter table table5 add constraint \"fk_5_to_7\" foreign key (fk5) references table7 (pk7);",
   c!"alter table table5 add relationship \"rel_5_to_8\" with table8 as table5.fk5 = table8.pk8;",
   c!"",
   c!"-- circular reference",
   c!"alter table table6 add constraint \"fk_6_to_1\" foreign key (fk6) references table1 (pk1);",
   c!"",
   c!"-- two ways to reach table 9, both long.",
   c!"alter table table7 add constraint \"fk_7_to_9\" foreign key (fk7) references table9 (pk9);",
   c!"alter table table8 add constraint \"fk_8_to_9\" foreign key (fk8) references table9 (pk9);"]

/-- dt/review/tests/no_pks.tql. -/
def noPksLines : List Str :=
  [c!"-- have a table with a PK and one without.",
   c!"",
   c!"create table table_with_pk (col1 bigint, primary key (col1));",
   c!"create table table_without_pk (col1 bigint);"]

/-- dt/review/tests/table_joins.tql. -/
def tableJoinsLines : List Str :=
  [c!"-- database and data for testing table join cardinality and direction.  This data doesn't support missing keys.",
   c!"",
   c!"drop database table_join_test;",
   c!"create database table_join_test;",
   c!"use table_join_test;",
   c!"",
   c!"-- relationships -- will have both foreign keys and generic relationships.  Both should be OK.",
   c!"",
   c!"-- table1 -> table2 -- 1:1",
   c!"create table table1 (",
   c!"  col1 bigint,",
   c!"  col2 bigint,",
   c!"  col3 bigint,",
   c!"  col4 varchar(0),",
   c!"  constraint primary key (col1, col2, col3)",
   c!");",
   c!"",
   c!"insert into table1 values (1, 1, 1, 'one');",
   c!"insert into table1 values (2, 2, 2, 'two');",
   c!"insert into table1 values (3, 3, 3, 'three');",
   c!"insert into table1 values (4, 4, 4, 'four');",
   c!"",
   c!"create table table2 (",
   c!"  col1 bigint,",
   c!"  col2 bigint,",
   c!"  col3 bigint,",
   c!"  col4 varchar(0),",
   c!"  constraint primary key (col1, col2, col3)",
   c!");",
   c!"",
   c!"alter table table1 add constraint \"fk_table1_to_table2\" foreign key (col1, col2, col3) references table2 (col1, col2, col3);",
   c!"alter table table1 add relationship \"rel_table1_to_table2\" with table2 as ((\"table1\".\"col1\" = \"table2\".\"col1\" and \"table1\".\"col2\" = \"table2\".\"col2\") and table1.col3 = table2.col3);",
   c!"",
   c!"insert into table2 values (1, 1, 1, 'one');",
   c!"insert into table2 values (2, 2, 2, 'two');",
   c!"insert into table2 values (3, 3, 3, 'three');",
   c!"insert into table2 values (4, 4, 4, 'four');",
   c!"",
   c!"-- table3 -> table4 -- M:1",
   c!"create table table3 (",
   c!"  col1 bigint,",
   c!"  col2 varchar(0),",
   c!"  col3 bigint,",
   c!"  constraint primary key (col1)",
   c!");",
   c!"",
   c!"insert into table3 values (1, 'one', 1);",
   c!"insert into table3 values (2, 'two', 1);",
   c!"insert into table3 values (3, 'three', 2);",
   c!"insert into table3 values (4, 'four', 2);",
   c!"insert into table3 values (5, 'five', 3);",
   c!"insert into table3 values (6, 'six', 3);",
   c!"",
   c!"create table table4 (",
   c!"  col1 bigint,",
   c!"  col2 varchar(0),",
   c!"  constraint primary key (col1)",
   c!");",
   c!"",
   c!"alter table table3 add constraint \"fk_table3_to_table4\" foreign key (col3) references table4 (col1);",
   c!"alter table table3 add relationship \"rel_table3_to_table4\" with table4 as table3.col3 = table4.col1;",
   c!"",
   c!"insert into table4 values (1, 'one');",
   c!"insert into table4 values (2, 'two');",
   c!"insert into table4 values (3, 'three');",
   c!"",
   c!"-- table5 -> table6 -- 1:M",
   c!"create table table5 (",
   c!"  col1 bigint,",
   c!"  col2 varchar(0),",
   c!"  constraint primary key (col1)",
   c!");",
   c!"",
   c!"insert into table5 values (1, 'one');",
   c!"insert into table5 values (2, 'two');",
   c!"insert into table5 values (3, 'three');",
   c!"",
   c!"create table table6 (",
   c!"  col1 bigint,",
   c!"  col2 varchar(0),",
   c!"  col3 bigint,",
   c!"  constraint primary key (col1)",
   c!");",
   c!"",
   c!"insert into table6 values (1, 'one', 1);",
   c!"insert into table6 values (2, 'two', 1);",
   c!"insert into table6 values (3, 'three', 2);",
   c!"insert into table6 values (4, 'four', 2);",
   c!"insert into table6 values (5, 'five', 3);",
   c!"insert into table6 values (6, 'six', 3);",
   c!"",
   c!"alter table table5 add relationship \"rel_table5_to_table6\" with table6 as table5.col1 = table6.col3;",
   c!"",
   c!"-- table7 -> table8 -- M:M",
   c!"-- also use long joins to verify join logic works.",
   c!"",
   c!"create table table7 (",
   c!"  col1 bigint,",
   c!"  col2 varchar(0)",
   c!");",
   c!"",
   c!"insert into table7 values (1, 'one');",
   c!"insert into table7 values (1, 'two');",
   c!"insert into table7 values (2, 'three');",
   c!"insert into table7 values (2, 'four');",
   c!"insert into table7 values (3, 'five');",
   c!"insert into table7 values (3, 'six');",
   c!"",
   c!"create table table8 (",
   c!"  col1 bigint,",
   c!"  col2 varchar(0)",
   c!");",
   c!"",
   c!"-- can't have M:M with FK.",
   c!"alter table table7 add relationship \"rel_table7_to_table8\" with table8 as table7.col1 = table8.col1;",
   c!"",
   c!"insert into table8 values (1, 'one');",
   c!"insert into table8 values (1, 'two');",
   c!"insert into table8 values (2, 'three');",
   c!"insert into table8 values (2, 'four');",
   c!"insert into table8 values (3, 'five');",
   c!"insert into table8 values (3, 'six');"]

/-- 17-25: six circular relationships. -/
example : (parsed c!"test_db" circularLines).map (fun db => (reviewCircular id 20 db).map (fun r => (got r).map List.length)) = some (some (some 6)) := by decide +kernel

/-- 27-35: six long chains. -/
example : (parsed c!"test_db" longChainLines).map (fun db => (got (reviewLongChain id 20 db [])).map List.length) = some (some 6) := by decide +kernel

/-- 49-57: one table without a primary key. -/
example : (parsed c!"review_pks" noPksLines).map (fun db => (reviewPks db).length) = some 1 := by decide +kernel

/-- A server that holds the data of the file: the largest group has two rows if the rows of table3 are counted per row of table4, those of table6 per row of table5, and those of
table7 and table8 per row of the other; otherwise one. -/
def dataServer : QueryServer := fun _ query =>
  .ok [some (if [c!"table4", c!"table5", c!"table7", c!"table8"].any (fun t => hasSub (c!" group by " ++ quoted t) query) then c!"2" else c!"1")]

/-- 59-67: two joins are reported, the one from table5 to table6 and the one from table7 to table8. -/
example : (parsed c!"table_join_test" tableJoinsLines).map (fun db => got (reviewTableJoins dataServer db)) =
    some (some [c!"rel_table5_to_table6 is a 1:M join.", c!"rel_table7_to_table8 is a M:M join."]) := by decide +kernel

end Verif.Tests
