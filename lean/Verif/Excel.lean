import Verif.Generator
/-
Model of `XLSWriter` (dt/io.py:768-1025) and `XLSReader` (dt/io.py:1031-1322).

The packages openpyxl and xlrd are outside the repository: what a cell written by the one is when read by the other is described by
`stored`, with everything unusual left to an arbitrary function.  Messages on the error stream are left out.
-/

namespace Verif

/-- A value given to openpyxl (dt/io.py:1015). -/
inductive PyCell where
  | text (s : Str)
  | count (n : ShardCount)
deriving DecidableEq, Repr

/-- A value returned by xlrd (dt/io.py:1161, 1218, 1254, 1301): a text, empty for an empty cell, or a number. -/
inductive XCell where
  | text (s : Str)
  | num (q : Rat)
deriving DecidableEq, Repr

/-- A sheet as xlrd shows it: the header row and the other rows.  xlrd fills short rows with empty cells. -/
abbrev Sheet := List (List XCell)

/-- A workbook: its sheets by name, in order. -/
abbrev Workbook := Dict Sheet

/-! ## Writer -/

/-- The header of the sheet "Columns" (dt/io.py:807). -/
def columnsHeader : List Str := [c!"Database", c!"Schema", c!"Table", c!"Column", c!"Name", c!"Type"]

/-- The rows of a table in the sheet "Columns" (dt/io.py:813-828); the number is `col_idx`. -/
def columnRows (db : Str) (t : Table) : Nat → List Column → List (List PyCell)
  | _, [] => []
  | i, c :: cs =>
    [.text db, .text t.schema, .text t.name, .count (.int (i + 1 : Nat)), .text c.name, .text c.type] :: columnRows db t (i + 1) cs

/-- `_write_columns_worksheet` (dt/io.py:794-828). -/
def columnsSheet (db : Database) : List (List PyCell) :=
  columnsHeader.map .text :: db.iter.flatMap (fun t => columnRows db.name t 0 t.iter)

/-- The header of the sheet "Tables" (dt/io.py:840-856). -/
def tablesHeader : List Str :=
  [c!"Database", c!"Schema", c!"Table", c!"Updated", c!"Update Type", c!"# Rows", c!"# Columns", c!"Primary Key", c!"Shard Key",
   c!"# Shards", c!"RLS Column", c!"# FKs From", c!"# FKs To", c!"# Rels From", c!"# Rels To"]

/-- The formulas counting the mentions of a table in a column of another sheet (dt/io.py:877-890). -/
def countFormula (sheet col : Str) (row : Nat) : Str :=
  let c := c!"COUNTIF('" ++ sheet ++ c!"'!$" ++ col ++ c!":$" ++ col ++ c!",\"=\"&$C" ++ natToStr row ++ c!")"
  c!"=IF(" ++ c ++ c!">0," ++ c ++ c!",\"\")"

/-- The formula counting the columns of a table (dt/io.py:862-864). -/
def lookupFormula (row : Nat) : Str :=
  c!"=COUNTIFS(Columns!A:A,Tables!A" ++ natToStr row ++ c!", Columns!B:B,Tables!B" ++ natToStr row ++ c!", Columns!C:C,Tables!C" ++
  natToStr row ++ c!")"

/-- The rows of the sheet "Tables" (dt/io.py:859-913); the number is `row_cnt`. -/
def tableRows (db : Str) : Nat → List Table → List (List PyCell)
  | _, [] => []
  | i, t :: ts =>
    let row := i + 1
    let sk := match t.shard with
      | some k => [.text (listToString k.keys false), .count k.number]
      | none => [.text [], .text []]
    ([.text db, .text t.schema, .text t.name, .text c!"daily", .text c!"partial", .text [], .text (lookupFormula row),
      .text (listToString t.pk false)] ++ sk ++
     [.text [], .text (countFormula c!"Foreign Keys" c!"D" row), .text (countFormula c!"Foreign Keys" c!"F" row),
      .text (countFormula c!"Relationships" c!"D" row), .text (countFormula c!"Relationships" c!"E" row)]) :: tableRows db row ts

/-- `_write_tables_worksheet` (dt/io.py:830-913). -/
def tablesSheet (db : Database) : List (List PyCell) := tablesHeader.map .text :: tableRows db.name 1 db.iter

/-- The header of the sheet "Foreign Keys" (dt/io.py:923-934). -/
def fksHeader : List Str := [c!"Name", c!"Database", c!"Schema", c!"From Table", c!"From Columns", c!"To Table", c!"To Columns"]

/-- `_write_foreign_keys_worksheet` (dt/io.py:915-954). -/
def fksSheet (db : Database) : List (List PyCell) :=
  fksHeader.map .text :: db.iter.flatMap (fun t => t.fks.vals.map (fun k =>
    [.text k.name, .text db.name, .text t.schema, .text k.fromTable, .text (listToString k.fromKeys false), .text k.toTable,
     .text (listToString k.toKeys false)]))

/-- The header of the sheet "Relationships" (dt/io.py:964-974). -/
def relsHeader : List Str := [c!"Name", c!"Database", c!"Schema", c!"From Table", c!"To Table", c!"Conditions"]

/-- `_write_relationships_worksheet` (dt/io.py:956-992). -/
def relsSheet (db : Database) : List (List PyCell) :=
  relsHeader.map .text :: db.iter.flatMap (fun t => t.rels.vals.map (fun r =>
    [.text r.name, .text db.name, .text t.schema, .text r.fromTable, .text r.toTable, .text r.conditions]))

/-- `XLSWriter.write_database` (dt/io.py:780-792). -/
def writeXls (db : Database) : List (Str × List (List PyCell)) :=
  [(c!"Columns", columnsSheet db), (c!"Tables", tablesSheet db), (c!"Foreign Keys", fksSheet db), (c!"Relationships", relsSheet db)]

/-- The name of the file written (dt/io.py:1022-1025). -/
def xlsFile (filename : Str) : Str := if c!".xlsx".isSuffixOf filename then filename else filename ++ c!".xlsx"

/-! ## From openpyxl to xlrd -/

/-- The texts openpyxl writes as errors. -/
def errorCodes : List Str := [c!"#NULL!", c!"#DIV/0!", c!"#VALUE!", c!"#REF!", c!"#NAME?", c!"#NUM!", c!"#N/A"]

/-- Texts that survive the way through the file: no formula, no error code, at most 32767 characters, no control characters, no escape `_x`
and no blanks around them (xlrd strips some texts). -/
def plainText (s : Str) : Bool :=
  (!startsWith s c!"=") && (!errorCodes.contains s) && decide (s.length ≤ 32767) && (!hasSub c!"_x" s) &&
  decide (strip s = s) && s.all (fun c => (32 ≤ c.toNat || c == '\t' || c == '\n') && c.toNat != 0xFFFE && c.toNat != 0xFFFF)

/-- What xlrd returns for a cell written by openpyxl.  Whole numbers up to 2^53 and floats come back as numbers; what comes back of
unusual texts, such as formulas, is the parameter. -/
def stored (other : PyCell → XCell) : PyCell → XCell
  | .text s => if plainText s then .text s else other (.text s)
  | .count (.int n) => if n.natAbs ≤ 2 ^ 53 then .num n else other (.count (.int n))
  | .count (.flt q) => .num q
  | .count (.text s) => if plainText s then .text s else other (.text s)

/-- The workbook as xlrd sees it. -/
def saved (other : PyCell → XCell) (wb : List (Str × List (List PyCell))) : Workbook :=
  wb.map (fun p => (p.1, p.2.map (·.map (stored other))))

/-! ## Reader -/

/-- `XLSReader.required_columns` in the order of `required_sheets` (dt/io.py:1038-1071). -/
def required : List (Str × List Str) :=
  [(c!"Columns", columnsHeader),
   (c!"Tables", [c!"Database", c!"Schema", c!"Table", c!"Updated", c!"Update Type", c!"# Rows", c!"# Columns", c!"Primary Key",
     c!"Shard Key", c!"# Shards", c!"RLS Column"]),
   (c!"Foreign Keys", fksHeader), (c!"Relationships", relsHeader)]

/-- The check of one required sheet in `_verify_file_format` (dt/io.py:1104-1118). -/
def verifySheet (wb : Workbook) (p : Str × List Str) : Except PyErr Bool :=
  match wb.get? p.1 with
  | none => .ok false
  | some [] => .error .index
  | some (header :: _) => .ok (p.2.all (fun c => header.contains (.text c)))

/-- `_verify_file_format` (dt/io.py:1093-1120). -/
def verifyFormat (wb : Workbook) : Except PyErr Bool :=
  required.foldlM (fun valid p => do
    let ok ← verifySheet wb p
    .ok (valid && ok)) true

/-- The index of a header, the last one if it is there more than once (dt/io.py:1131-1136). -/
def headerIndex (header : List XCell) (name : Str) : Option Nat :=
  (header.zipIdx.foldl (fun acc p => if p.1 = .text name then some p.2 else acc) none)

/-- `row[indices[name]]` (for example dt/io.py:1163, 1321). -/
def cell (header : List XCell) (row : List XCell) (name : Str) : Except PyErr XCell :=
  match headerIndex header name with
  | none => .error .key
  | some i => .ok (row.getD i (.text []))

/-- A cell used as a name; names that are numbers are outside the model. -/
def XCell.name : XCell → Except PyErr Str
  | .text s => .ok s
  | .num _ => .error .unmodelled

/-- A cell on which a method of `str` is called (dt/io.py:1173, 1179, 1282, 1284). -/
def XCell.str : XCell → Except PyErr Str
  | .text s => .ok s
  | .num _ => .error .attribute

/-- `[x.strip() for x in s.split(",")]` (dt/io.py:1177, 1193, 1282, 1284). -/
def splitNames (s : Str) : List Str := (splitC ',' s).map strip

/-- `if sk_nbr_shards` and the number of shards (dt/io.py:1180, 1196-1199). -/
def XCell.count : XCell → Option ShardCount
  | .text s => if s = [] then none else some (.text s)
  | .num q => if q = 0 then none else some (.flt q)

/-- The shard key of a row (dt/io.py:1179-1199). -/
def rowShard (name : Str) (n : XCell) : Option ShardKey :=
  if name = [] then none
  else n.count.map (fun c => { keys := splitNames name, number := c })

/-- The table of a row (dt/io.py:1173-1206). -/
def rowTable (header row : List XCell) : Except PyErr Table := do
  let pk ← cell header row c!"Primary Key"
  let pk ← pk.str
  let sk ← cell header row c!"Shard Key"
  let sk ← sk.str
  let n ← cell header row c!"# Shards"
  let name ← cell header row c!"Table"
  let schema ← cell header row c!"Schema"
  let name ← name.name
  let schema ← schema.name
  mkTable (some name) (some schema) (if strip pk = [] then none else some (.many (splitNames (strip pk)))) (rowShard (strip sk) n)

/-- One round of `_read_tables_from_workbook` (dt/io.py:1161-1207). -/
def readTableRow (header : List XCell) (dbs : Dict Database) (row : List XCell) : Except PyErr (Dict Database) := do
  let d ← cell header row c!"Database"
  if d = .text [] then .ok dbs
  else
    let d ← d.name
    let t ← rowTable header row
    .ok (dbs.set d (((dbs.get? d).getD (Database.empty d)).addTable t))

/-- The part the readers of the other sheets share (dt/io.py:1220-1237, 1256-1273, 1303-1319): find the database and the table, change it.
`missing` is what happens if the table is unknown. -/
def onTable (dbs : Dict Database) (d n : XCell) (missing : Except PyErr (Dict Database)) (f : Table → Except PyErr Table) :
    Except PyErr (Dict Database) :=
  match d with
  | .num _ => .ok dbs
  | .text d =>
    match dbs.get? d with
    | none => .ok dbs
    | some db =>
      match n with
      | .num _ => missing
      | .text n =>
        match db.getTable n with
        | none => missing
        | some t => do
          let t ← f t
          .ok (dbs.set d (db.updateTable n (fun _ => t)))

/-- The column of a row (dt/io.py:1238-1241); the type is checked before the name is kept. -/
def rowColumn (header row : List XCell) : Except PyErr Column := do
  let name ← cell header row c!"Name"
  let type ← cell header row c!"Type"
  let type ← type.str
  let c ← mkColumn (some []) (some type)
  let name ← name.name
  .ok { c with name := name }

/-- One round of `_read_columns_from_workbook` (dt/io.py:1218-1242). -/
def readColumnRow (header : List XCell) (dbs : Dict Database) (row : List XCell) : Except PyErr (Dict Database) := do
  let d ← cell header row c!"Database"
  let n ← cell header row c!"Table"
  onTable dbs d n (.ok dbs) (fun t => do
    let c ← rowColumn header row
    .ok (t.addColumn c))

/-- The new foreign key of a row (dt/io.py:1274-1290); the lengths are checked before the names are kept. -/
def rowFK (header row : List XCell) (t : Table) : Except PyErr Table := do
  let name ← cell header row c!"Name"
  let fk ← cell header row c!"From Columns"
  let fk ← fk.str
  let tk ← cell header row c!"To Columns"
  let tk ← tk.str
  let to ← cell header row c!"To Table"
  if (splitNames fk).length ≠ (splitNames tk).length then .error .value
  else
    let name ← name.name
    let to ← to.name
    t.addForeignKey (some (.many (splitNames fk))) (some to) (some (.many (splitNames tk))) (some name)

/-- One round of `_read_foreign_keys_from_workbook` (dt/io.py:1254-1290). -/
def readFKRow (header : List XCell) (dbs : Dict Database) (row : List XCell) : Except PyErr (Dict Database) := do
  let d ← cell header row c!"Database"
  let n ← cell header row c!"From Table"
  onTable dbs d n (.ok dbs) (rowFK header row)

/-- The new relationship of a row (dt/io.py:1319-1322); the name is not passed on. -/
def rowRel (header row : List XCell) (t : Table) : Except PyErr Table := do
  let to ← cell header row c!"To Table"
  let cond ← cell header row c!"Conditions"
  let to ← to.name
  let cond ← cond.name
  t.addRelationship (some to) none (some cond)

/-- One round of `_read_relationships_from_workbook` (dt/io.py:1301-1322): with an unknown table, `None` has no `add_relationship`. -/
def readRelRow (header : List XCell) (dbs : Dict Database) (row : List XCell) : Except PyErr (Dict Database) := do
  let d ← cell header row c!"Database"
  let n ← cell header row c!"From Table"
  onTable dbs d n (.error .attribute) (rowRel header row)

/-- The loop over the rows of a sheet after the header (dt/io.py:1160-1161, 1217-1218, 1253-1254, 1300-1301). -/
def readSheet (wb : Workbook) (name : Str) (f : List XCell → Dict Database → List XCell → Except PyErr (Dict Database))
    (dbs : Dict Database) : Except PyErr (Dict Database) :=
  match wb.get? name with
  | none => .error .key
  | some [] => .error .key
  | some (header :: rows) => rows.foldlM (f header) dbs

/-- `_read_databases_from_workbook` (dt/io.py:1138-1148). -/
def readDatabases (wb : Workbook) : Except PyErr (Dict Database) := do
  let dbs ← readSheet wb c!"Tables" readTableRow []
  let dbs ← readSheet wb c!"Columns" readColumnRow dbs
  let dbs ← readSheet wb c!"Foreign Keys" readFKRow dbs
  readSheet wb c!"Relationships" readRelRow dbs

/-- `XLSReader.read_xls` (dt/io.py:1080-1091) of a new reader. -/
def readXls (wb : Workbook) : Except PyErr (Dict Database) := do
  let ok ← verifyFormat wb
  if ok then readDatabases wb else .ok []

end Verif
