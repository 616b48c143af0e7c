import Verif.Excel
/-
What `XLSReader` (dt/io.py:1031-1322) writes to the standard error stream while it reads a workbook.  The rows are read by the functions of Excel.lean; here
the messages of each step are added, and those of the steps before an exception are kept.  The message on a foreign key without a name (dt/io.py:1275-1279)
is left out: xlrd gives an empty text for an empty cell, never `None`.
-/

namespace Verif

/-- A message of the reader. -/
inductive XReport where
  /-- A sheet is missing (dt/io.py:1105). -/
  | noSheet (sheet : Str)
  /-- A column is missing (dt/io.py:1114-1117). -/
  | noColumn (column sheet : Str)
  /-- A table has a shard key without a number of shards or the other way round (dt/io.py:1185-1188). -/
  | shardHalf (table : XCell)
  /-- A row names an unknown database (dt/io.py:1223-1226, 1259-1262, 1306-1309). -/
  | noDatabase (sheet : Str) (database : XCell)
  /-- A row names an unknown table (dt/io.py:1232-1235, 1268-1271, 1315-1318). -/
  | noTable (sheet : Str) (table : XCell)
deriving DecidableEq, Repr

/-- `"%s" % v` for a cell; how Python writes a float is the parameter. -/
def XCell.shown (float : Rat → Str) : XCell → Str
  | .text s => s
  | .num q => float q

/-- The line printed (the lines cited at the messages). -/
def XReport.line (float : Rat → Str) : XReport → Str
  | .noSheet s => c!"Error:  missing sheet " ++ s ++ c!"!"
  | .noColumn c s => c!"Error:  missing column " ++ c ++ c!" in sheet " ++ s ++ c!"!"
  | .shardHalf t => c!"ERROR:  " ++ t.shown float ++ c!" need to provide both a shard key name and number of shards."
  | .noDatabase s d => c!"ERROR:  Database " ++ d.shown float ++ c!" from the " ++ s ++ c!" tab is not known."
  | .noTable s t => c!"ERROR:  Table " ++ t.shown float ++ c!" from the " ++ s ++ c!" tab is not known."

/-- A result with the messages printed before it. -/
abbrev XTold (α : Type) := List XReport × Except PyErr α

/-- One step after the other, unless the first raises. -/
def XTold.andThen {α β : Type} (x : XTold α) (f : α → XTold β) : XTold β :=
  match x.2 with
  | .error e => (x.1, .error e)
  | .ok a => (x.1 ++ (f a).1, (f a).2)

/-- A loop over rows. -/
def foldTold {S R : Type} (f : S → R → XTold S) : List R → S → XTold S
  | [], s => ([], .ok s)
  | r :: rows, s => (f s r).andThen (fun s => foldTold f rows s)

/-- The check of one required sheet in `_verify_file_format` (dt/io.py:1104-1119). -/
def verifySheetTold (wb : Workbook) (p : Str × List Str) : XTold Bool :=
  match wb.get? p.1 with
  | none => ([.noSheet p.1], .ok false)
  | some [] => ([], .error .index)
  | some (header :: _) =>
    ((p.2.filter (fun c => !header.contains (.text c))).map (fun c => .noColumn c p.1), .ok (p.2.all (fun c => header.contains (.text c))))

/-- `_verify_file_format` (dt/io.py:1093-1120). -/
def verifyFormatTold (wb : Workbook) : XTold Bool :=
  foldTold (fun valid p => (verifySheetTold wb p).andThen (fun ok => ([], .ok (valid && ok)))) required true

/-- The message of a round of `_read_tables_from_workbook` (dt/io.py:1163-1188), unless it raises before. -/
def shardReports (header row : List XCell) : List XReport :=
  let r : Except PyErr (List XReport) := do
    let d ← cell header row c!"Database"
    if d = .text [] then .ok []
    else
      let pk ← cell header row c!"Primary Key"
      let _ ← pk.str
      let sk ← cell header row c!"Shard Key"
      let sk ← sk.str
      let n ← cell header row c!"# Shards"
      let t ← cell header row c!"Table"
      .ok (if (strip sk = [] ∧ n ≠ .text []) ∨ (strip sk ≠ [] ∧ n = .text []) then [.shardHalf t] else [])
  match r with
  | .ok l => l
  | .error _ => []

/-- The message of a round of the other readers (dt/io.py:1220-1235, 1256-1271, 1303-1318): `col` is the header of the table. -/
def rowReports (sheet col : Str) (header : List XCell) (dbs : Dict Database) (row : List XCell) : List XReport :=
  match cell header row c!"Database" with
  | .error _ => []
  | .ok (.num q) => [.noDatabase sheet (.num q)]
  | .ok (.text d) =>
    match dbs.get? d with
    | none => [.noDatabase sheet (.text d)]
    | some db =>
      match cell header row col with
      | .error _ => []
      | .ok (.num q) => [.noTable sheet (.num q)]
      | .ok (.text n) =>
        match db.getTable n with
        | none => [.noTable sheet (.text n)]
        | some _ => []

/-- The loop over the rows of a sheet (dt/io.py:1160-1161, 1217-1218, 1253-1254, 1300-1301). -/
def readSheetTold (wb : Workbook) (name : Str) (told : List XCell → Dict Database → List XCell → List XReport)
    (f : List XCell → Dict Database → List XCell → Except PyErr (Dict Database)) (dbs : Dict Database) : XTold (Dict Database) :=
  match wb.get? name with
  | none => ([], .error .key)
  | some [] => ([], .error .key)
  | some (header :: rows) => foldTold (fun s row => (told header s row, f header s row)) rows dbs

/-- `_read_databases_from_workbook` (dt/io.py:1138-1148). -/
def readDatabasesTold (wb : Workbook) : XTold (Dict Database) :=
  (readSheetTold wb c!"Tables" (fun h _ row => shardReports h row) readTableRow []).andThen (fun dbs =>
  (readSheetTold wb c!"Columns" (rowReports c!"Columns" c!"Table") readColumnRow dbs).andThen (fun dbs =>
  (readSheetTold wb c!"Foreign Keys" (rowReports c!"Foreign Keys" c!"From Table") readFKRow dbs).andThen (fun dbs =>
  readSheetTold wb c!"Relationships" (rowReports c!"Relationships" c!"From Table") readRelRow dbs)))

/-- `XLSReader.read_xls` (dt/io.py:1080-1091) with its messages. -/
def readXlsTold (wb : Workbook) : XTold (Dict Database) :=
  (verifyFormatTold wb).andThen (fun ok => if ok then readDatabasesTold wb else ([], .ok []))

end Verif
