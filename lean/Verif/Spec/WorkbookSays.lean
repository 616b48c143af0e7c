import Verif.Spec.Workbook
/-
Specification of what the workbook reader says about every workbook, also about those it does not read to the end.
-/

namespace Verif.Spec
open Verif

/-- The messages about the rows of a sheet. -/
def SheetSays (wb : Workbook) (sheet : Str) (h : List XCell) (rows : List (List XCell)) (ms : List XReport) : Prop :=
  (sheet = c!"Tables" ∧ ShardComplaints h rows ms) ∨ (sheet ≠ c!"Tables" ∧ Complaints wb sheet h rows ms)

/-- What is missing of some of the needed sheets. -/
def missingOf (wb : Workbook) (ps : List (Str × List Str)) : List XReport :=
  ps.flatMap (fun p => match wb.get? p.1 with
    | none => [.noSheet p.1]
    | some s => (p.2.filter (fun c => !(s.headD []).contains (XCell.text c))).map (fun c => .noColumn c p.1))

/-- The rows of a sheet that are looked at until one ends in an exception: a row of "Tables" does so before anything is said about it. -/
def rowsSeen (sheet : Str) (pre : List (List XCell)) (row : List XCell) : List (List XCell) := if sheet = c!"Tables" then pre else pre ++ [row]

/-- What is said about a workbook. -/
inductive BookSays (wb : Workbook) : List XReport → Prop where
  /-- A needed sheet has no header row: what is missing of those before it. -/
  | headless {pre p post} : needed = pre ++ p :: post → wb.get? p.1 = some [] → (∀ q ∈ pre, wb.get? q.1 ≠ some []) → BookSays wb (missingOf wb pre)
  /-- A sheet or a header is missing: all that is missing. -/
  | misshaped : Headed wb → ¬ Shaped wb → BookSays wb (missingOf wb needed)
  /-- All rows are read: the messages about them. -/
  | read {f : Str → List XReport} : Shaped wb → Passes wb → (∀ s ∈ readingOrder, ∀ h rows, SheetIs wb s h rows → SheetSays wb s h rows (f s)) →
      BookSays wb (readingOrder.flatMap f)
  /-- A row ends in an exception: the messages about the sheets before and about the rows seen. -/
  | fails {before sheet after f h pre row post e ms} : Shaped wb → readingOrder = before ++ sheet :: after →
      (∀ s ∈ before, ∀ h rows, SheetIs wb s h rows → RowsPass wb s h rows ∧ SheetSays wb s h rows (f s)) →
      SheetIs wb sheet h (pre ++ row :: post) → RowsPass wb sheet h pre → RowFails wb h row sheet e → e ≠ .unmodelled →
      SheetSays wb sheet h (rowsSeen sheet pre row) ms → BookSays wb (before.flatMap f ++ ms)

end Verif.Spec
