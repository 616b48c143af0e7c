import Verif.Excel
import Verif.Spec.WellFormed
/-
Specification of the formulas of a spreadsheet, as far as the sheet "Tables" needs them.  What COUNTIF and COUNTIFS take for a match is a
parameter: the rules of spreadsheet programs for numbers, dates, operators and wildcards are not described here.
-/

namespace Verif.Spec
open Verif

/-- A spreadsheet program: does a cell fit the criterion? -/
abbrev Program := Str → PyCell → Bool

/-- A condition of COUNTIFS: the cells in the column `col` of the sheet `sheet` are compared with the cell in the column `colOf` and the row
`row` of the sheet `sheetOf`. -/
structure Condition where
  sheet : Str
  col : Char
  sheetOf : Str
  colOf : Char
  row : Nat

/-- A formula: the number of cells in a column that equal a cell of the sheet the formula is in, the number of rows that meet all conditions,
or a formula whose zero is shown as nothing. -/
inductive Formula where
  | countIf (sheet : Str) (col : Char) (colHere : Char) (row : Nat)
  | countIfs (l : List Condition)
  | unlessZero (f : Formula)

/-- A decimal number. -/
def decimal (n : Nat) : Str := Nat.toDigits 10 n

/-- A condition as typed into a spreadsheet, for sheets whose names need no quotes. -/
def Condition.typed (c : Condition) : Str :=
  c.sheet ++ ['!', c.col, ':', c.col, ','] ++ c.sheetOf ++ ['!', c.colOf] ++ decimal c.row

/-- A formula as typed into a spreadsheet, after the equals sign. -/
def Formula.typed : Formula → Str
  | .countIf sheet col colHere row =>
    c!"COUNTIF('" ++ sheet ++ ['\'', '!', '$', col, ':', '$', col, ',', '"', '=', '"', '&', '$', colHere] ++ decimal row ++ c!")"
  | .countIfs l => c!"COUNTIFS(" ++ ((l.map Condition.typed).intersperse c!", ").flatten ++ c!")"
  | .unlessZero f => c!"IF(" ++ f.typed ++ c!">0," ++ f.typed ++ c!",\"\")"

/-- The cell holds the formula. -/
def HoldsFormula (c : PyCell) (f : Formula) : Prop := c = .text ('=' :: f.typed)

/-- The rows of the sheet of that name. -/
def rowsOf (wb : List (Str × List (List PyCell))) (sheet : Str) : List (List PyCell) := ((wb.find? (fun p => p.1 == sheet)).map Prod.snd).getD []

/-- The number of a column: A is 0. -/
def columnNumber (c : Char) : Nat := c.toNat - 'A'.toNat

/-- The text in a cell; rows are counted from 1. -/
def textIn (wb : List (Str × List (List PyCell))) (sheet : Str) (col : Char) (row : Nat) : Str :=
  match (((rowsOf wb sheet)[row - 1]?).bind (·[columnNumber col]?)) with
  | some (.text s) => s
  | _ => []

/-- The cell of a row in that column fits the criterion. -/
def fitsAt (P : Program) (crit : Str) (col : Char) (row : List PyCell) : Bool :=
  match row[columnNumber col]? with
  | some c => P crit c
  | none => false

/-- The number of rows of a sheet with a property, as long as all conditions are about the same sheet. -/
def rowsMeeting (P : Program) (wb : List (Str × List (List PyCell))) (l : List Condition) : Nat :=
  match l with
  | [] => 0
  | c :: _ => (rowsOf wb c.sheet).countP (fun r => l.all (fun c => fitsAt P (textIn wb c.sheetOf c.colOf c.row) c.col r))

/-- The number a formula in the sheet `here` shows; nothing for the zero of `unlessZero`. -/
def Formula.shows (P : Program) (wb : List (Str × List (List PyCell))) (here : Str) : Formula → Option Nat
  | .countIf sheet col colHere row => some ((rowsOf wb sheet).countP (fitsAt P ('=' :: textIn wb here colHere row) col))
  | .countIfs l => some (rowsMeeting P wb l)
  | .unlessZero f => match f.shows P wb here with
    | some 0 => none
    | v => v

/-- The row `row` of a sheet has the cell `v` under the header `col`, which stands there once. -/
def InRow (sheet : List (List PyCell)) (row : Nat) (col : Str) (v : PyCell) : Prop :=
  ∃ (h r : List PyCell) (j : Nat), sheet[0]? = some h ∧ sheet[row - 1]? = some r ∧ h[j]? = some (.text col) ∧ (∀ k, h[k]? = some (.text col) → k = j) ∧ r[j]? = some v

/-- In that row of the sheet there is a formula under the header `col`, and it shows `v`. -/
def ShowsAt (P : Program) (wb : List (Str × List (List PyCell))) (sheet : Str) (row : Nat) (col : Str) (v : Option Nat) : Prop :=
  ∃ c f, InRow (rowsOf wb sheet) row col c ∧ HoldsFormula c f ∧ f.shows P wb sheet = v

/-- The foreign keys of a database. -/
def allKeys (db : Database) : List FK := db.tables.flatMap (fun p => p.2.fks.map Prod.snd)

/-- The relationships of a database. -/
def allRels (db : Database) : List Rel := db.tables.flatMap (fun p => p.2.rels.map Prod.snd)

/-- The names that are compared: those of the database and of its schemas and tables, and those foreign keys and relationships mention. -/
def comparedNames (db : Database) : List Str :=
  db.name :: db.tables.flatMap (fun p => [p.2.schema, p.2.name]) ++ (allKeys db).flatMap (fun k => [k.fromTable, k.toTable]) ++
  (allRels db).flatMap (fun r => [r.fromTable, r.toTable])

/-- The headers that are compared with names, since whole columns are. -/
def comparedHeaders : List Str := [c!"Database", c!"Schema", c!"Table", c!"From Table", c!"To Table"]

/-- The program compares the names with each other and with the headers as texts without regard to letter case. -/
def ComparesNames (P : Program) (db : Database) : Prop :=
  ∀ n ∈ comparedNames db, ∀ s ∈ comparedNames db ++ comparedHeaders,
    P n (.text s) = decide (s.map Char.toLower = n.map Char.toLower) ∧ P ('=' :: n) (.text s) = decide (s.map Char.toLower = n.map Char.toLower)

/-- No two names differ in letter case only. -/
def CaseDistinct (db : Database) : Prop :=
  ∀ n ∈ comparedNames db, ∀ s ∈ comparedNames db, s.map Char.toLower = n.map Char.toLower → s = n

/-- A number, shown as nothing if it is zero. -/
def shownCount (n : Nat) : Option Nat := if n = 0 then none else some n

end Verif.Spec
