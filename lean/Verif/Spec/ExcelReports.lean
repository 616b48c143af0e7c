import Verif.ExcelReports
import Verif.Spec.Excel
/-
Specification of the messages of the workbook reader: what a workbook gives cause to complain about.
-/

namespace Verif.Spec
open Verif

/-- The sheets and headers that are missing, in the order of `needed`. -/
def missing (wb : Workbook) : List XReport :=
  needed.flatMap (fun p => match wb.get? p.1 with
    | none => [.noSheet p.1]
    | some s => (p.2.filter (fun c => !(s.headD []).contains (XCell.text c))).map (fun c => .noColumn c p.1))

/-- The complaints about the rows of "Tables": one for each row with a database that has only one of shard key and number of shards. -/
inductive ShardComplaints (h : List XCell) : List (List XCell) → List XReport → Prop where
  | nil : ShardComplaints h [] []
  | blank {row rows ms} : Under h row c!"Database" (.text []) → ShardComplaints h rows ms → ShardComplaints h (row :: rows) ms
  | fine {row rows ms s v} : Under h row c!"Shard Key" (.text s) → Under h row c!"# Shards" v → (strip s = [] ↔ v = .text []) →
      ShardComplaints h rows ms → ShardComplaints h (row :: rows) ms
  | half {row rows ms s v n} : ¬ Under h row c!"Database" (.text []) → Under h row c!"Shard Key" (.text s) → Under h row c!"# Shards" v →
      ¬ (strip s = [] ↔ v = .text []) → Under h row c!"Table" n → ShardComplaints h rows ms → ShardComplaints h (row :: rows) (.shardHalf n :: ms)

/-- The database in the cell `d` is named by no row of "Tables". -/
def NoDatabase (wb : Workbook) (d : XCell) : Prop := ∀ s, d = .text s → ∀ n, ¬ Known wb s n

/-- The table in the cell `n` of the database `d` is named by no row of "Tables". -/
def NoTable (wb : Workbook) (d : Str) (n : XCell) : Prop := ∀ s, n = .text s → ¬ Known wb d s

/-- The complaints about the rows of another sheet: one for each row that names no known table. -/
inductive Complaints (wb : Workbook) (sheet : Str) (h : List XCell) : List (List XCell) → List XReport → Prop where
  | nil : Complaints wb sheet h [] []
  | fine {row rows ms d n} : Names h row sheet d n → Known wb d n → Complaints wb sheet h rows ms → Complaints wb sheet h (row :: rows) ms
  | database {row rows ms d} : Under h row c!"Database" d → NoDatabase wb d → Complaints wb sheet h rows ms →
      Complaints wb sheet h (row :: rows) (.noDatabase sheet d :: ms)
  | table {row rows ms d m n} : Under h row c!"Database" (.text d) → Known wb d m → Under h row (tableHeader sheet) n → NoTable wb d n →
      Complaints wb sheet h rows ms → Complaints wb sheet h (row :: rows) (.noTable sheet n :: ms)

/-- A message says something true about the workbook. -/
inductive Justified (wb : Workbook) : XReport → Prop where
  | noSheet {s} : s ∈ needed.map Prod.fst → wb.get? s = none → Justified wb (.noSheet s)
  | noColumn {s c cols h rows} : (s, cols) ∈ needed → c ∈ cols → SheetIs wb s h rows → XCell.text c ∉ h → Justified wb (.noColumn c s)
  | shardHalf {h rows row s v n} : SheetIs wb c!"Tables" h rows → row ∈ rows → ¬ Under h row c!"Database" (.text []) →
      Under h row c!"Shard Key" (.text s) → Under h row c!"# Shards" v → ¬ (strip s = [] ↔ v = .text []) → Under h row c!"Table" n →
      Justified wb (.shardHalf n)
  | noDatabase {sheet h rows row d} : sheet ∈ [c!"Columns", c!"Foreign Keys", c!"Relationships"] → SheetIs wb sheet h rows → row ∈ rows →
      Under h row c!"Database" d → NoDatabase wb d → Justified wb (.noDatabase sheet d)
  | noTable {sheet h rows row d m n} : sheet ∈ [c!"Columns", c!"Foreign Keys", c!"Relationships"] → SheetIs wb sheet h rows → row ∈ rows →
      Under h row c!"Database" (.text d) → Known wb d m → Under h row (tableHeader sheet) n → NoTable wb d n → Justified wb (.noTable sheet n)

end Verif.Spec
