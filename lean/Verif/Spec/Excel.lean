import Verif.Excel
import Verif.Spec.WellFormed
import Mathlib.Data.List.Forall2
/-
Specification of workbooks: what a sheet says, which databases survive the way through a workbook.
-/

namespace Verif.Spec
open Verif

/-- In a sheet with header `h`, `row` has the value `v` under the header `col` (the last one of that name). -/
def Under (h row : List XCell) (col : Str) (v : XCell) : Prop :=
  ∃ i : Nat, h[i]? = some (.text col) ∧ (∀ j, i < j → h[j]? ≠ some (.text col)) ∧ v = (row[i]?).getD (.text [])

/-- The sheets a workbook needs, with their headers (README, "Excel format"). -/
def needed : List (Str × List Str) :=
  [(c!"Columns", [c!"Database", c!"Schema", c!"Table", c!"Column", c!"Name", c!"Type"]),
   (c!"Tables", [c!"Database", c!"Schema", c!"Table", c!"Updated", c!"Update Type", c!"# Rows", c!"# Columns", c!"Primary Key",
     c!"Shard Key", c!"# Shards", c!"RLS Column"]),
   (c!"Foreign Keys", [c!"Name", c!"Database", c!"Schema", c!"From Table", c!"From Columns", c!"To Table", c!"To Columns"]),
   (c!"Relationships", [c!"Name", c!"Database", c!"Schema", c!"From Table", c!"To Table", c!"Conditions"])]

/-- The sheet called `name` has header `h` and rows `rows`. -/
def SheetIs (wb : Workbook) (name : Str) (h : List XCell) (rows : List (List XCell)) : Prop := wb.get? name = some (h :: rows)

/-- The workbook has all sheets and headers. -/
def Shaped (wb : Workbook) : Prop :=
  ∀ p ∈ needed, ∃ h rows, SheetIs wb p.1 h rows ∧ ∀ c ∈ p.2, XCell.text c ∈ h

/-- Every needed sheet that exists has a header row. -/
def Headed (wb : Workbook) : Prop := ∀ p ∈ needed, wb.get? p.1 ≠ some []

/-- Some row of the sheet "Tables" is about the table `n` of the database `d`. -/
def Known (wb : Workbook) (d n : Str) : Prop :=
  d ≠ [] ∧ ∃ h rows, SheetIs wb c!"Tables" h rows ∧ ∃ row ∈ rows, Under h row c!"Database" (.text d) ∧ Under h row c!"Table" (.text n)

/-- A column name that can stand in a list of names in a cell. -/
def KeyName (s : Str) : Prop := s ≠ [] ∧ ',' ∉ s ∧ strip s = s

/-- A list of names that a cell can hold. -/
def CellList (l : List Str) : Prop := (∀ s ∈ l, KeyName s) ∧ plainText (l.intersperse c!", ").flatten = true

/-- A number of shards that survives. -/
def CellCount : ShardCount → Prop
  | .int n => n ≠ 0 ∧ n.natAbs ≤ 2 ^ 53
  | .flt q => q ≠ 0
  | .text s => s ≠ [] ∧ plainText s = true

/-- A table that survives the way through a workbook. -/
structure CellTable (t : Table) : Prop where
  name : plainText t.name = true
  schema : plainText t.schema = true
  pk : CellList t.pk
  shard : ∀ k, t.shard = some k → k.keys ≠ [] ∧ CellList k.keys ∧ CellCount k.number
  cols : ∀ n c, (n, c) ∈ t.cols → plainText c.name = true ∧ plainText c.type = true ∧ (c.type ∈ validTypes ∨ Varchar c.type)
  fks : ∀ n k, (n, k) ∈ t.fks → plainText k.name = true ∧ k.fromTable = t.name ∧ plainText k.toTable = true ∧ k.fromKeys ≠ [] ∧
    k.fromKeys.length = k.toKeys.length ∧ CellList k.fromKeys ∧ CellList k.toKeys
  rels : ∀ n r, (n, r) ∈ t.rels → r.name = c!"REL_" ++ t.name ++ c!"_to_" ++ r.toTable ∧ plainText r.name = true ∧ r.fromTable = t.name ∧
    plainText r.toTable = true ∧ plainText r.conditions = true

/-- A database that survives the way through a workbook. -/
structure CellDb (db : Database) : Prop where
  keyed : WellKeyed db
  name : db.name ≠ [] ∧ plainText db.name = true
  some : db.tables ≠ []
  tables : ∀ n t, (n, t) ∈ db.tables → CellTable t

/-- Whole numbers come back as floats of the same value. -/
def backCount : ShardCount → ShardCount
  | .int n => .flt n
  | c => c

/-- A table as it comes back: the same but for the kind of the number of shards. -/
def backTable (t : Table) : Table := { t with shard := t.shard.map (fun k => { k with number := backCount k.number }) }

/-- The names in the order of their first use. -/
def firstUses : List Str → List Str
  | [] => []
  | s :: l => s :: (firstUses l).filter (fun x => decide (x ≠ s))

/-- A number of shards a cell can hold. -/
def HoldCount : ShardCount → Prop
  | .int n => n.natAbs ≤ 2 ^ 53
  | .flt _ => True
  | .text s => plainText s = true

/-- A table whose texts and numbers cells can hold. -/
structure HoldTable (t : Table) : Prop where
  name : plainText t.name = true
  schema : plainText t.schema = true
  pk : CellList t.pk
  shard : ∀ k, t.shard = some k → CellList k.keys ∧ HoldCount k.number
  cols : ∀ n c, (n, c) ∈ t.cols → plainText c.name = true ∧ plainText c.type = true ∧ (c.type ∈ validTypes ∨ Varchar c.type)
  fks : ∀ n k, (n, k) ∈ t.fks → plainText k.name = true ∧ k.fromTable = t.name ∧ plainText k.toTable = true ∧
    k.fromKeys.length = k.toKeys.length ∧ CellList k.fromKeys ∧ CellList k.toKeys
  rels : ∀ n r, (n, r) ∈ t.rels → r.fromTable = t.name ∧ plainText r.toTable = true ∧ plainText r.conditions = true

/-- A database whose texts and numbers cells can hold. -/
structure HoldDb (db : Database) : Prop where
  keyed : WellKeyed db
  name : db.name ≠ [] ∧ plainText db.name = true
  tables : ∀ n t, (n, t) ∈ db.tables → HoldTable t

/-- A number of shards that is taken for none. -/
def NoCount : ShardCount → Prop
  | .int n => n = 0
  | .flt q => q = 0
  | .text s => s = []

/-- The shard key `k` comes back as `k'`. -/
def ShardBack (k k' : Option ShardKey) : Prop :=
  match k with
  | none => k' = none
  | some k => ((k.keys = [] ∨ NoCount k.number) ∧ k' = none) ∨
      (k.keys ≠ [] ∧ ¬ NoCount k.number ∧ k' = some { k with number := backCount k.number })

/-- The foreign key `k` comes back as `k'`: no columns come back as one without a name. -/
def FKBack (k k' : FK) : Prop :=
  k'.name = k.name ∧ k'.fromTable = k.fromTable ∧ k'.toTable = k.toTable ∧
    (k.fromKeys = [] ∧ k'.fromKeys = [[]] ∧ k'.toKeys = [[]] ∨ k.fromKeys ≠ [] ∧ k'.fromKeys = k.fromKeys ∧ k'.toKeys = k.toKeys)

/-- The name the reader gives to a relationship. -/
def relName (t u : Str) : Str := c!"REL_" ++ t ++ c!"_to_" ++ u

/-- The relationships `rs` of the table `t` come back as `rs'`: one for each target, in the order in which the targets are first named, with
the condition of the last one. -/
structure RelsBack (t : Str) (rs rs' : Dict Rel) : Prop where
  names : rs'.keys = firstUses (rs.vals.map (fun r => relName t r.toTable))
  each : ∀ n r, (n, r) ∈ rs' → n = r.name ∧ r.fromTable = t ∧ r.name = relName t r.toTable ∧ ∃ pre x post, rs.vals = pre ++ x :: post ∧
    x.toTable = r.toTable ∧ x.conditions = r.conditions ∧ ∀ y ∈ post, y.toTable ≠ r.toTable

/-- The table `t` comes back from a workbook as `t'`. -/
structure TableBack (t t' : Table) : Prop where
  name : t'.name = t.name
  schema : t'.schema = t.schema
  pk : t'.pk = t.pk
  cols : t'.cols = t.cols
  shard : ShardBack t.shard t'.shard
  fks : List.Forall₂ (fun p q => q.1 = p.1 ∧ FKBack p.2 q.2) t.fks t'.fks
  rels : RelsBack t.name t.rels t'.rels

/-- Nothing about the table gets lost on the way through a workbook. -/
structure Keeps (t : Table) : Prop where
  shard : ∀ k, t.shard = some k → k.keys ≠ [] ∧ ¬ NoCount k.number
  fks : ∀ n k, (n, k) ∈ t.fks → k.fromKeys ≠ []
  rels : ∀ n r, (n, r) ∈ t.rels → r.name = relName t.name r.toTable

/-- The headers under which the reader looks; the others must only be there. -/
def usedHeaders (sheet : Str) : List Str :=
  if sheet = c!"Tables" then [c!"Database", c!"Schema", c!"Table", c!"Primary Key", c!"Shard Key", c!"# Shards"]
  else if sheet = c!"Columns" then [c!"Database", c!"Table", c!"Name", c!"Type"]
  else if sheet = c!"Foreign Keys" then [c!"Name", c!"Database", c!"From Table", c!"From Columns", c!"To Table", c!"To Columns"]
  else if sheet = c!"Relationships" then [c!"Database", c!"From Table", c!"To Table", c!"Conditions"]
  else []

/-- Two sheets that both have or lack each of the headers `cols` and say the same under the headers `used`. -/
def Rearranged (cols used : List Str) (s s' : Sheet) : Prop :=
  ∃ h rows h' rows', s = h :: rows ∧ s' = h' :: rows' ∧ (∀ c ∈ cols, XCell.text c ∈ h ↔ XCell.text c ∈ h') ∧
    List.Forall₂ (fun r r' => ∀ c ∈ used, ∀ v, Under h r c v ↔ Under h' r' c v) rows rows'

/-- Two workbooks whose needed sheets say the same. -/
def SameSheets (wb wb' : Workbook) : Prop :=
  ∀ p ∈ needed, wb.get? p.1 = wb'.get? p.1 ∨ ∃ s s', wb.get? p.1 = some s ∧ wb'.get? p.1 = some s' ∧ Rearranged p.2 (usedHeaders p.1) s s'

/-- The columns of a sheet in another order: column `k` of the result is column `σ[k]`. -/
def permuted (σ : List Nat) (s : Sheet) : Sheet := s.map (fun r => σ.map (fun i => (r[i]?).getD (.text [])))

/-- A sheet with a new column before column `k`; `x` gives its cells, the header being cell 0. -/
def inserted (k : Nat) (x : Nat → XCell) (s : Sheet) : Sheet := s.zipIdx.map (fun p => p.1.take k ++ x p.2 :: p.1.drop k)

/-- The databases and tables the rows name, in order, without the rows that name no database. -/
inductive RowsName (h : List XCell) : List (List XCell) → List (Str × Str) → Prop where
  | nil : RowsName h [] []
  | blank {row rows l} : Under h row c!"Database" (.text []) → RowsName h rows l → RowsName h (row :: rows) l
  | row {row rows l d n} : d ≠ [] → Under h row c!"Database" (.text d) → Under h row c!"Table" (.text n) → RowsName h rows l →
      RowsName h (row :: rows) ((d, n) :: l)

/-- A workbook without the rows that `keep` rejects, given the sheet, its header and the row; the headers stay. -/
def restrict (keep : Str → List XCell → List XCell → Bool) (wb : Workbook) : Workbook :=
  wb.map (fun p => (p.1, match p.2 with
    | [] => []
    | h :: rows => h :: rows.filter (keep p.1 h)))

/-- The header under which a sheet names the table a row is about. -/
def tableHeader (sheet : Str) : Str := if sheet = c!"Tables" ∨ sheet = c!"Columns" then c!"Table" else c!"From Table"

/-- The names in a cell: separated by commas, without the blanks around them; a blank cell has none. -/
def NamesIn (s : Str) (l : List Str) : Prop :=
  (strip s = [] ∧ l = []) ∨
  (strip s ≠ [] ∧ ∃ ps : List Str, ps ≠ [] ∧ (ps.intersperse [',']).flatten = strip s ∧ (∀ p ∈ ps, ',' ∉ p) ∧ l = ps.map strip)

/-- The number of shards in a cell: none if it is empty or zero. -/
def CountIn : XCell → Option ShardCount → Prop
  | .text s, c => (s = [] ∧ c = none) ∨ (s ≠ [] ∧ c = some (.text s))
  | .num q, c => (q = 0 ∧ c = none) ∨ (q ≠ 0 ∧ c = some (.flt q))

/-- The table a row of the sheet "Tables" describes. -/
structure TableFrom (h row : List XCell) (t : Table) : Prop where
  name : Under h row c!"Table" (.text t.name)
  schema : Under h row c!"Schema" (.text t.schema)
  pk : ∃ s, Under h row c!"Primary Key" (.text s) ∧ NamesIn s t.pk
  shard : ∃ s v l c, Under h row c!"Shard Key" (.text s) ∧ Under h row c!"# Shards" v ∧ NamesIn s l ∧ CountIn v c ∧
    ((l = [] ∨ c = none) ∧ t.shard = none ∨ ∃ n, l ≠ [] ∧ c = some n ∧ t.shard = some { keys := l, number := n })
  fresh : t.cols = [] ∧ t.fks = [] ∧ t.rels = []

/-- The names in a cell of the sheet "Foreign Keys": separated by commas, without the blanks around them. -/
def PiecesIn (s : Str) (l : List Str) : Prop :=
  ∃ ps : List Str, ps ≠ [] ∧ (ps.intersperse [',']).flatten = s ∧ (∀ p ∈ ps, ',' ∉ p) ∧ l = ps.map strip

/-- The column a row of the sheet "Columns" describes. -/
def ColumnFrom (h row : List XCell) (c : Column) : Prop :=
  Under h row c!"Name" (.text c.name) ∧ Under h row c!"Type" (.text c.type) ∧ (c.type ∈ validTypes ∨ Varchar c.type)

/-- The foreign key of the table `n` a row of the sheet "Foreign Keys" describes. -/
def FKFrom (n : Str) (h row : List XCell) (k : FK) : Prop :=
  Under h row c!"Name" (.text k.name) ∧ k.fromTable = n ∧ Under h row c!"To Table" (.text k.toTable) ∧
  (∃ s, Under h row c!"From Columns" (.text s) ∧ PiecesIn s k.fromKeys) ∧ (∃ s, Under h row c!"To Columns" (.text s) ∧ PiecesIn s k.toKeys) ∧
  k.fromKeys.length = k.toKeys.length

/-- The relationship of the table `n` a row of the sheet "Relationships" describes. -/
def RelFrom (n : Str) (h row : List XCell) (r : Rel) : Prop :=
  r.name = c!"REL_" ++ n ++ c!"_to_" ++ r.toTable ∧ r.fromTable = n ∧ Under h row c!"To Table" (.text r.toTable) ∧
  Under h row c!"Conditions" (.text r.conditions)

/-- The row is about the table `n` of the database `d`. -/
def Names (h row : List XCell) (sheet d n : Str) : Prop := Under h row c!"Database" (.text d) ∧ Under h row (tableHeader sheet) (.text n)

/-- The dictionary that holds the items of a list by name: in the order of their first use, the last one for each name. -/
def Filled {α : Type} (name : α → Str) (l : List α) (d : Dict α) : Prop :=
  d.keys = firstUses (l.map name) ∧ ∀ k v, d.get? k = some v ↔ ∃ pre post, l = pre ++ v :: post ∧ name v = k ∧ ∀ x ∈ post, name x ≠ k

end Verif.Spec
