import Verif.Spec.ExcelReports
/-
Specification of what is made of every workbook: which row ends the reading with which exception, what is read if none does.
-/

namespace Verif.Spec
open Verif

/-- What a row of one of the sheets ends in, if the rows before it do not end in an exception.  Names that are numbers are outside the model. -/
inductive RowFails (wb : Workbook) (h row : List XCell) : Str → PyErr → Prop where
  /-- "Tables": the database is a number. -/
  | database {q} : Under h row c!"Database" (.num q) → RowFails wb h row c!"Tables" .unmodelled
  /-- "Tables": the primary key is a number: it has no `strip`. -/
  | primaryKey {d q} : d ≠ [] → Under h row c!"Database" (.text d) → Under h row c!"Primary Key" (.num q) →
      RowFails wb h row c!"Tables" .attribute
  /-- "Tables": so is the shard key. -/
  | shardKey {d p q} : d ≠ [] → Under h row c!"Database" (.text d) → Under h row c!"Primary Key" (.text p) →
      Under h row c!"Shard Key" (.num q) → RowFails wb h row c!"Tables" .attribute
  /-- "Tables": the table or the schema is a number. -/
  | tableName {d p s c q} : d ≠ [] → Under h row c!"Database" (.text d) → Under h row c!"Primary Key" (.text p) →
      Under h row c!"Shard Key" (.text s) → c ∈ [c!"Table", c!"Schema"] → Under h row c (.num q) → RowFails wb h row c!"Tables" .unmodelled
  /-- "Columns": the type of a column of a known table is a number. -/
  | numberType {d n q} : Names h row c!"Columns" d n → Known wb d n → Under h row c!"Type" (.num q) → RowFails wb h row c!"Columns" .attribute
  /-- "Columns": it is no type. -/
  | noType {d n ty} : Names h row c!"Columns" d n → Known wb d n → Under h row c!"Type" (.text ty) → ty ∉ validTypes → ¬ Varchar ty →
      RowFails wb h row c!"Columns" .value
  /-- "Columns": the name of the column is a number. -/
  | columnName {d n ty q} : Names h row c!"Columns" d n → Known wb d n → Under h row c!"Type" (.text ty) → ty ∈ validTypes ∨ Varchar ty →
      Under h row c!"Name" (.num q) → RowFails wb h row c!"Columns" .unmodelled
  /-- "Foreign Keys": the columns of a known table are a number. -/
  | fromColumns {d n q} : Names h row c!"Foreign Keys" d n → Known wb d n → Under h row c!"From Columns" (.num q) →
      RowFails wb h row c!"Foreign Keys" .attribute
  /-- "Foreign Keys": the columns they refer to are a number. -/
  | toColumns {d n s q} : Names h row c!"Foreign Keys" d n → Known wb d n → Under h row c!"From Columns" (.text s) →
      Under h row c!"To Columns" (.num q) → RowFails wb h row c!"Foreign Keys" .attribute
  /-- "Foreign Keys": there are not as many of these as of those. -/
  | lengths {d n s s' l l'} : Names h row c!"Foreign Keys" d n → Known wb d n → Under h row c!"From Columns" (.text s) →
      Under h row c!"To Columns" (.text s') → PiecesIn s l → PiecesIn s' l' → l.length ≠ l'.length → RowFails wb h row c!"Foreign Keys" .value
  /-- "Foreign Keys": the name or the other table is a number. -/
  | keyName {d n s s' l l' c q} : Names h row c!"Foreign Keys" d n → Known wb d n → Under h row c!"From Columns" (.text s) →
      Under h row c!"To Columns" (.text s') → PiecesIn s l → PiecesIn s' l' → l.length = l'.length → c ∈ [c!"Name", c!"To Table"] →
      Under h row c (.num q) → RowFails wb h row c!"Foreign Keys" .unmodelled
  /-- "Relationships": the database is known, the table is not. -/
  | noTable {d m n} : Under h row c!"Database" (.text d) → Known wb d m → Under h row c!"From Table" n → NoTable wb d n →
      RowFails wb h row c!"Relationships" .attribute
  /-- "Relationships": the other table or the conditions are a number. -/
  | relationship {d n c q} : Names h row c!"Relationships" d n → Known wb d n → c ∈ [c!"To Table", c!"Conditions"] → Under h row c (.num q) →
      RowFails wb h row c!"Relationships" .unmodelled

/-- None of the rows ends in an exception. -/
def RowsPass (wb : Workbook) (sheet : Str) (h : List XCell) (rows : List (List XCell)) : Prop := ∀ row ∈ rows, ∀ e, ¬ RowFails wb h row sheet e

/-- The sheets in the order in which they are read. -/
def readingOrder : List Str := [c!"Tables", c!"Columns", c!"Foreign Keys", c!"Relationships"]

/-- The first row that ends in an exception ends in `e`. -/
def Fails (wb : Workbook) (e : PyErr) : Prop :=
  ∃ before sheet after, readingOrder = before ++ sheet :: after ∧ (∀ s ∈ before, ∀ h rows, SheetIs wb s h rows → RowsPass wb s h rows) ∧
    ∃ h pre row post, SheetIs wb sheet h (pre ++ row :: post) ∧ RowsPass wb sheet h pre ∧ RowFails wb h row sheet e

/-- No row ends in an exception. -/
def Passes (wb : Workbook) : Prop := ∀ s ∈ readingOrder, ∀ h rows, SheetIs wb s h rows → RowsPass wb s h rows

/-- What the rows chosen by `about` describe, in order. -/
inductive ItemsOf {α : Type} (about : List XCell → Prop) (tells : List XCell → α → Prop) : List (List XCell) → List α → Prop where
  | nil : ItemsOf about tells [] []
  | skip {row rows as} : ¬ about row → ItemsOf about tells rows as → ItemsOf about tells (row :: rows) as
  | take {row rows a as} : about row → tells row a → ItemsOf about tells rows as → ItemsOf about tells (row :: rows) (a :: as)

/-- The sheets describe the table `t`, which is the table `n` of the database `d`. -/
structure DescribesTable (wb : Workbook) (d n : Str) (t : Table) : Prop where
  table : ∃ h pre row post, SheetIs wb c!"Tables" h (pre ++ row :: post) ∧ Names h row c!"Tables" d n ∧
    (∀ r ∈ post, ¬ Names h r c!"Tables" d n) ∧ TableFrom h row { t with cols := [], fks := [], rels := [] }
  cols : ∃ h rows l, SheetIs wb c!"Columns" h rows ∧ ItemsOf (fun r => Names h r c!"Columns" d n) (ColumnFrom h) rows l ∧
    Filled Column.name l t.cols
  fks : ∃ h rows l, SheetIs wb c!"Foreign Keys" h rows ∧ ItemsOf (fun r => Names h r c!"Foreign Keys" d n) (FKFrom n h) rows l ∧
    Filled FK.name l t.fks
  rels : ∃ h rows l, SheetIs wb c!"Relationships" h rows ∧ ItemsOf (fun r => Names h r c!"Relationships" d n) (RelFrom n h) rows l ∧
    Filled Rel.name l t.rels

/-- The sheets describe the database `db`, which is called `d`; `l` are the databases and tables the rows of "Tables" name.  The schemas
count the rows, not the tables. -/
structure DescribesDb (wb : Workbook) (l : List (Str × Str)) (d : Str) (db : Database) : Prop where
  name : db.name = d
  tables : db.tables.keys = firstUses ((l.filter (fun p => decide (p.1 = d))).map Prod.snd)
  each : ∀ n t, db.tables.get? n = some t → DescribesTable wb d n t
  schemas : ∃ h rows ss, SheetIs wb c!"Tables" h rows ∧
    ItemsOf (fun r => Under h r c!"Database" (.text d)) (fun r s => Under h r c!"Schema" (.text s)) rows ss ∧
    db.schemas.keys = firstUses ss ∧ ∀ s k, db.schemas.get? s = some k ↔ s ∈ ss ∧ k = (ss.count s : Int)

/-- The sheets describe the databases `dbs`. -/
def DescribesAll (wb : Workbook) (dbs : Dict Database) : Prop :=
  ∃ h rows l, SheetIs wb c!"Tables" h rows ∧ RowsName h rows l ∧ dbs.keys = firstUses (l.map Prod.fst) ∧
    ∀ d db, dbs.get? d = some db → DescribesDb wb l d db

/-- What is made of a workbook. -/
inductive Makes (wb : Workbook) : Except PyErr (Dict Database) → Prop where
  /-- A needed sheet has no header row. -/
  | headless : ¬ Headed wb → Makes wb (.error .index)
  /-- A sheet or a header is missing. -/
  | misshaped : Headed wb → ¬ Shaped wb → Makes wb (.ok [])
  /-- A row ends in an exception. -/
  | fails {e} : Shaped wb → Fails wb e → Makes wb (.error e)
  /-- All rows are read. -/
  | read {dbs} : Shaped wb → Passes wb → DescribesAll wb dbs → Makes wb (.ok dbs)

end Verif.Spec
