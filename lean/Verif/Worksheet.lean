import Verif.Parser
/-
Model of the worksheet classes (dt/model.py:913-1157) and of `YAMLWorksheetReader` (dt/io.py:1325-1404).

The input is the document `yaml.safe_load` returns; the YAML syntax itself is not modelled.  `deepcopy` needs no model because values
here are immutable.
-/

namespace Verif

/-- A value `yaml.safe_load` can return (dt/io.py:1360).  Numbers, truth values and dates are `other`: the model only needs whether
they count as true and how they print.  Mapping keys are texts. -/
inductive Yaml where
  | null
  | str (s : Str)
  | other (truthy : Bool) (repr : Str)
  | seq (l : List Yaml)
  | map (m : List (Str × Yaml))
deriving Repr

namespace Yaml

/-- `bool(v)` (dt/model.py:924, 991-992, 1014, dt/io.py:1376, 1395-1397). -/
def truthy : Yaml → Bool
  | null => false
  | str s => s ≠ []
  | other t _ => t
  | seq l => !l.isEmpty
  | map m => !m.isEmpty

/-- `v[key]` with a text key (dt/io.py:1360-1401). -/
def item (v : Yaml) (key : Str) : Except PyErr Yaml :=
  match v with
  | map m => match Dict.get? m key with
    | some x => .ok x
    | none => .error .key
  | _ => .error .type

/-- `v.get(key, default)` (dt/io.py:1362, 1366, 1375, 1384, 1394, 1396). -/
def getD (v : Yaml) (key : Str) (default : Yaml) : Except PyErr Yaml :=
  match v with
  | map m => .ok ((Dict.get? m key).getD default)
  | _ => .error .attribute

/-- `for x in v` (dt/io.py:1365-1388): a mapping yields its keys, a text its characters. -/
def iter : Yaml → Except PyErr (List Yaml)
  | seq l => .ok l
  | map m => .ok (m.map (fun p => .str p.1))
  | str s => .ok (s.map (fun c => .str [c]))
  | _ => .error .type

/-- `v.items()` (dt/io.py:1390). -/
def items : Yaml → Except PyErr (List (Str × Yaml))
  | map m => .ok m
  | _ => .error .attribute

/-- `v == "text"` (dt/model.py:925, 1107). -/
def isStr : Yaml → Str → Bool
  | str s, t => s = t
  | _, _ => false

end Yaml

/-- Instance state of `WorksheetTable` (dt/model.py:913-928). -/
structure WsTable where
  name : Yaml
  type : Yaml

/-- `WorksheetTable.__init__` (dt/model.py:916-928). -/
def mkWsTable (name type : Yaml) : Except PyErr WsTable :=
  if ¬ name.truthy then .error .assertion
  else if ¬ (type.isStr c!"table" ∨ type.isStr c!"alias" ∨ type.isStr c!"fqn") then .error .assertion
  else .ok { name := name, type := type }

/-- Instance state of `WorksheetJoin` (dt/model.py:931-952). -/
structure WsJoin where
  name : Yaml
  source : Yaml
  destination : Yaml
  type : Yaml
  oneToOne : Yaml

/-- Instance state of `WorksheetTablePath` (dt/model.py:955-975). -/
structure WsPath where
  id : Yaml
  table : Yaml
  joins : List Yaml

/-- Instance state of `WorksheetFormula` (dt/model.py:978-996). -/
structure WsFormula where
  name : Yaml
  expr : Yaml
  id : Yaml

/-- `WorksheetFormula.__init__` (dt/model.py:981-996). -/
def mkWsFormula (name expr id : Yaml) : Except PyErr WsFormula :=
  if ¬ name.truthy then .error .assertion
  else if ¬ expr.truthy then .error .assertion
  else .ok { name := name, expr := expr, id := id }

/-- Instance state of `WorksheetColumn` (dt/model.py:999-1020). -/
structure WsColumn where
  name : Yaml
  columnId : Yaml
  properties : List (Str × Yaml)
  isFormula : Bool

/-- `WorksheetColumn.__init__` (dt/model.py:1002-1020); the properties are typed, so line 1015 needs no check. -/
def mkWsColumn (name columnId : Yaml) (properties : List (Str × Yaml)) (isFormula : Bool) : Except PyErr WsColumn :=
  if ¬ name.truthy then .error .assertion
  else .ok { name := name, columnId := columnId, properties := properties, isFormula := isFormula }

/-- The parts of the column id (dt/model.py:1029, 1039): only a text has `split`. -/
def WsColumn.idParts (c : WsColumn) : Except PyErr (List Str) :=
  match c.columnId with
  | .str s => .ok (splitS c!"::" s)
  | _ => .error .attribute

/-- `WorksheetColumn.get_path` (dt/model.py:1022-1030). -/
def WsColumn.getPath (c : WsColumn) : Except PyErr (Option Str) :=
  if ¬ c.isFormula then do
    let parts ← c.idParts
    match parts[0]? with
    | some p => .ok (some p)
    | none => .error .index
  else .ok none

/-- `WorksheetColumn.get_source` (dt/model.py:1032-1040). -/
def WsColumn.getSource (c : WsColumn) : Except PyErr (Option Str) :=
  if ¬ c.isFormula then do
    let parts ← c.idParts
    match parts[1]? with
    | some p => .ok (some p)
    | none => .error .index
  else .ok none

/-- `WorksheetColumn.get_property` (dt/model.py:1042-1051). -/
def WsColumn.getProperty (c : WsColumn) (n : Str) : Option Yaml := Dict.get? c.properties n

/-- Instance state of `Worksheet` (dt/model.py:1054-1077). -/
structure Worksheet where
  name : Yaml
  description : Yaml
  properties : List (Str × Yaml)
  tables : List WsTable := []
  joins : List WsJoin := []
  paths : List WsPath := []
  formulas : List WsFormula := []
  columns : List WsColumn := []

/-- One element of the iterable given to `dict` (dt/model.py:1071): it must have two elements itself, a key that can be hashed and a value.
Keys that are no texts are outside the model. -/
def pairStep (d : List (Str × Yaml)) (e : Yaml) : Except PyErr (List (Str × Yaml)) :=
  match e.iter with
  | .error _ => .error .type
  | .ok [k, v] =>
    match k with
    | .str s => .ok (Dict.set d s v)
    | .seq _ => .error .type
    | .map _ => .error .type
    | _ => .error .unmodelled
  | .ok _ => .error .value

/-- `dict(properties)` (dt/model.py:1071): the copy of a mapping, or the mapping made of pairs. -/
def Yaml.toDict (v : Yaml) : Except PyErr (List (Str × Yaml)) :=
  match v with
  | .map m => .ok m
  | v => do
    let l ← v.iter
    l.foldlM pairStep []

/-- `Worksheet.__init__` (dt/model.py:1057-1077). -/
def mkWorksheet (name description properties : Yaml) : Except PyErr Worksheet :=
  if ¬ name.truthy then .error .assertion
  else
    match if properties.truthy then properties.toDict else .ok [] with
    | .error e => .error e
    | .ok props =>
      .ok { name := name, description := if description.truthy then description else .str [], properties := props }

namespace Worksheet

/-- `Worksheet.add_table` (dt/model.py:1079-1087); the objects added are never false. -/
def addTable (w : Worksheet) (t : WsTable) : Worksheet := { w with tables := w.tables ++ [t] }

/-- `Worksheet.get_tables` (dt/model.py:1089-1095). -/
def getTables (w : Worksheet) : List WsTable := w.tables

/-- `Worksheet.get_table` (dt/model.py:1097-1109) for a text. -/
def getTable (w : Worksheet) (n : Str) : Except PyErr (Option WsTable) :=
  if n = [] then .error .assertion else .ok (w.tables.find? (fun t => t.name.isStr n))

/-- `Worksheet.add_join` (dt/model.py:1111-1119). -/
def addJoin (w : Worksheet) (j : WsJoin) : Worksheet := { w with joins := w.joins ++ [j] }

/-- `Worksheet.get_joins` (dt/model.py:1121-1127). -/
def getJoins (w : Worksheet) : List WsJoin := w.joins

/-- `Worksheet.add_table_path` (dt/model.py:1129-1137). -/
def addPath (w : Worksheet) (p : WsPath) : Worksheet := { w with paths := w.paths ++ [p] }

/-- `Worksheet.add_formula` (dt/model.py:1139-1147). -/
def addFormula (w : Worksheet) (f : WsFormula) : Worksheet := { w with formulas := w.formulas ++ [f] }

/-- `Worksheet.add_column` (dt/model.py:1149-1157). -/
def addColumn (w : Worksheet) (c : WsColumn) : Worksheet := { w with columns := w.columns ++ [c] }

end Worksheet

/-- One round of the loop over the tables (dt/io.py:1365-1366). -/
def readWsTable (w : Worksheet) (t : Yaml) : Except PyErr Worksheet := do
  let name ← t.item c!"name"
  let type ← t.getD c!"type" (.str c!"table")
  let x ← mkWsTable name type
  .ok (w.addTable x)

/-- One round of the loop over the joins (dt/io.py:1368-1370). -/
def readWsJoin (w : Worksheet) (j : Yaml) : Except PyErr Worksheet := do
  let name ← j.item c!"name"
  let source ← j.item c!"source"
  let destination ← j.item c!"destination"
  let type ← j.item c!"type"
  let one ← j.item c!"is_one_to_one"
  .ok (w.addJoin { name := name, source := source, destination := destination, type := type, oneToOne := one })

/-- The inner loop over the join paths (dt/io.py:1374-1377). -/
def readJoinPath (acc : List Yaml) (jp : Yaml) : Except PyErr (List Yaml) := do
  let joins ← jp.getD c!"join" .null
  if joins.truthy then do
    let l ← joins.iter
    .ok (acc ++ l)
  else .ok acc

/-- One round of the loop over the table paths (dt/io.py:1372-1379). -/
def readWsPath (w : Worksheet) (tp : Yaml) : Except PyErr Worksheet := do
  let jp ← tp.item c!"join_path"
  let l ← jp.iter
  let joins ← l.foldlM readJoinPath []
  let id ← tp.item c!"id"
  let table ← tp.item c!"table"
  .ok (w.addPath { id := id, table := table, joins := joins })

/-- One round of the loop over the formulas (dt/io.py:1382-1384). -/
def readWsFormula (w : Worksheet) (f : Yaml) : Except PyErr Worksheet := do
  let name ← f.item c!"name"
  let expr ← f.item c!"expr"
  let id ← f.getD c!"id" .null
  let x ← mkWsFormula name expr id
  .ok (w.addFormula x)

/-- The loop over the formulas with its `except KeyError: pass` (dt/io.py:1381-1386): the formulas added before a `KeyError` stay. -/
def readFormulas (w : Worksheet) : List Yaml → Except PyErr Worksheet
  | [] => .ok w
  | f :: fs =>
    match readWsFormula w f with
    | .ok w => readFormulas w fs
    | .error .key => .ok w
    | .error e => .error e

/-- The formulas part of `create_worksheet` (dt/io.py:1381-1386). -/
def readFormulasOf (w : Worksheet) (doc : Yaml) : Except PyErr Worksheet :=
  match doc.item c!"formulas" with
  | .error .key => .ok w
  | .error e => .error e
  | .ok fs =>
    match fs.iter with
    | .error e => .error e
    | .ok l => readFormulas w l

/-- One round of the loop over the columns (dt/io.py:1388-1402). -/
def readWsColumn (w : Worksheet) (c : Yaml) : Except PyErr Worksheet := do
  let p ← c.item c!"properties"
  let props ← p.items
  let cid ← c.getD c!"column_id" .null
  let fid ← c.getD c!"formula_id" .null
  let name ← c.item c!"name"
  let x ← mkWsColumn name (if cid.truthy then cid else fid) props (!cid.truthy && fid.truthy)
  .ok (w.addColumn x)

/-- `YAMLWorksheetReader.create_worksheet` (dt/io.py:1352-1404) on the loaded document. -/
def createWorksheet (document : Yaml) : Except PyErr Worksheet := do
  let doc ← document.item c!"worksheet"
  let name ← doc.item c!"name"
  let description ← doc.getD c!"description" .null
  let properties ← doc.item c!"properties"
  let w ← mkWorksheet name description properties
  let tables ← doc.item c!"tables"
  let l ← tables.iter
  let w ← l.foldlM readWsTable w
  let joins ← doc.item c!"joins"
  let l ← joins.iter
  let w ← l.foldlM readWsJoin w
  let paths ← doc.item c!"table_paths"
  let l ← paths.iter
  let w ← l.foldlM readWsPath w
  let w ← readFormulasOf w doc
  let columns ← doc.item c!"worksheet_columns"
  let l ← columns.iter
  l.foldlM readWsColumn w

/-- `yaml_file.readlines()` on the text after universal newlines (dt/io.py:1347): the lines with their ends. -/
def readLines : Str → List Str
  | [] => []
  | c :: t => if c = '\n' then [c] :: readLines t else
    match readLines t with
    | [] => [[c]]
    | l :: ls => (c :: l) :: ls

/-- The text `YAMLWorksheetReader.read_from_file` gives to the YAML parser (dt/io.py:1345-1349), from the content of the file. -/
def worksheetText (content : Str) : Str := joinS c!" " (readLines (newlines content))

end Verif
