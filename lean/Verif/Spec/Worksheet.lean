import Verif.Worksheet
import Mathlib.Data.List.Forall2
/-
Specification of worksheets and of what a YAML document says about one.  Uses the data structures of the model, none of its functions.
-/

namespace Verif.Spec
open Verif

/-- Something added to a worksheet. -/
inductive Part where
  | table (t : WsTable)
  | join (j : WsJoin)
  | path (p : WsPath)
  | formula (f : WsFormula)
  | column (c : WsColumn)

/-- The text `s` does not occur in `t`. -/
def Without (s t : Str) : Prop := ¬ ∃ a b, t = a ++ s ++ b

/-- `s` consists of these lines: each but the last ends with its only line feed, and so may the last one. -/
inductive LinesOf : Str → List Str → Prop where
  | nil : LinesOf [] []
  | last (l : Str) : l ≠ [] → '\n' ∉ l → LinesOf l [l]
  | cons (l rest : Str) (ls : List Str) : '\n' ∉ l → LinesOf rest ls → LinesOf (l ++ '\n' :: rest) ((l ++ ['\n']) :: ls)

/-! ## Documents -/

/-- The mapping `v` has the value `x` under the key. -/
def HasKey (v : Yaml) (key : Str) (x : Yaml) : Prop :=
  ∃ pre post, v = .map (pre ++ (key, x) :: post) ∧ key ∉ pre.map Prod.fst

/-- `v` is a mapping without this key. -/
def NoKey (v : Yaml) (key : Str) : Prop := ∃ m, v = .map m ∧ key ∉ m.map Prod.fst

/-- The value under the key, or the default if the key is missing. -/
def KeyOr (v : Yaml) (key : Str) (default x : Yaml) : Prop := HasKey v key x ∨ (NoKey v key ∧ x = default)

/-- The values that count as empty. -/
inductive Falsy : Yaml → Prop where
  | null : Falsy .null
  | str : Falsy (.str [])
  | other (r : Str) : Falsy (.other false r)
  | seq : Falsy (.seq [])
  | map : Falsy (.map [])

/-- What a loop over the value sees: the entries of a list, the keys of a mapping, the characters of a text. -/
inductive Elements : Yaml → List Yaml → Prop where
  | seq (l : List Yaml) : Elements (.seq l) l
  | keys (m : List (Str × Yaml)) : Elements (.map m) (m.map (fun p => .str p.1))
  | chars (s : Str) : Elements (.str s) (s.map (fun c => .str [c]))

/-- The entry of a table. -/
def TableEntry (e : Yaml) (t : WsTable) : Prop :=
  HasKey e c!"name" t.name ∧ KeyOr e c!"type" (.str c!"table") t.type ∧ ¬ Falsy t.name ∧
    (t.type = .str c!"table" ∨ t.type = .str c!"alias" ∨ t.type = .str c!"fqn")

/-- The entry of a join. -/
def JoinEntry (e : Yaml) (j : WsJoin) : Prop :=
  HasKey e c!"name" j.name ∧ HasKey e c!"source" j.source ∧ HasKey e c!"destination" j.destination ∧ HasKey e c!"type" j.type ∧
    HasKey e c!"is_one_to_one" j.oneToOne

/-- The joins named by one entry of a join path; there may be none. -/
def StepEntry (e : Yaml) (joins : List Yaml) : Prop :=
  ∃ v, KeyOr e c!"join" .null v ∧ ((Falsy v ∧ joins = []) ∨ (¬ Falsy v ∧ Elements v joins))

/-- The entry of a table path. -/
def PathEntry (e : Yaml) (p : WsPath) : Prop :=
  HasKey e c!"id" p.id ∧ HasKey e c!"table" p.table ∧
    ∃ v steps joins, HasKey e c!"join_path" v ∧ Elements v steps ∧ List.Forall₂ StepEntry steps joins ∧ p.joins = joins.flatten

/-- The entry of a formula. -/
def FormulaEntry (e : Yaml) (f : WsFormula) : Prop :=
  HasKey e c!"name" f.name ∧ HasKey e c!"expr" f.expr ∧ KeyOr e c!"id" .null f.id ∧ ¬ Falsy f.name ∧ ¬ Falsy f.expr

/-- An entry that lacks the name or the expression of a formula. -/
def BadFormula (e : Yaml) : Prop := NoKey e c!"name" ∨ ((∃ x, HasKey e c!"name" x) ∧ NoKey e c!"expr")

/-- The entry of a column: with a column id it is a column, otherwise with a formula id it is a formula. -/
def ColumnEntry (e : Yaml) (c : WsColumn) : Prop :=
  HasKey e c!"name" c.name ∧ ¬ Falsy c.name ∧ HasKey e c!"properties" (.map c.properties) ∧
    ∃ cid fid, KeyOr e c!"column_id" .null cid ∧ KeyOr e c!"formula_id" .null fid ∧
      ((¬ Falsy cid ∧ c.columnId = cid ∧ c.isFormula = false) ∨ (Falsy cid ∧ ¬ Falsy fid ∧ c.columnId = fid ∧ c.isFormula = true) ∨
       (Falsy cid ∧ Falsy fid ∧ c.columnId = fid ∧ c.isFormula = false))

/-- Not a mapping. -/
def NoMap (v : Yaml) : Prop := ∀ m, v ≠ .map m

/-- A key and a value. -/
def PairEntry (e : Yaml) (p : Str × Yaml) : Prop := Elements e [.str p.1, p.2]

/-- The mapping made of pairs: each key once, in the place where it is first named, with the value it is named with last. -/
inductive Collects : List (Str × Yaml) → List (Str × Yaml) → Prop where
  | nil : Collects [] []
  | fresh {ps d : List (Str × Yaml)} (k : Str) (v : Yaml) : Collects ps d → k ∉ d.map Prod.fst → Collects (ps ++ [(k, v)]) (d ++ [(k, v)])
  | again {ps a b : List (Str × Yaml)} (k : Str) (u v : Yaml) : Collects ps (a ++ (k, u) :: b) → k ∉ a.map Prod.fst →
      Collects (ps ++ [(k, v)]) (a ++ (k, v) :: b)

/-- The properties of a worksheet: nothing, a mapping, or a list of pairs. -/
def PropertiesEntry (p : Yaml) (props : List (Str × Yaml)) : Prop :=
  (Falsy p ∧ props = []) ∨ (props ≠ [] ∧ p = .map props) ∨
    (¬ Falsy p ∧ NoMap p ∧ ∃ es ps, Elements p es ∧ List.Forall₂ PairEntry es ps ∧ Collects ps props)

/-- The head of a worksheet. -/
def HeadEntry (e : Yaml) (w : Worksheet) : Prop :=
  HasKey e c!"name" w.name ∧ ¬ Falsy w.name ∧
    (∃ d, KeyOr e c!"description" .null d ∧ ((¬ Falsy d ∧ w.description = d) ∨ (Falsy d ∧ w.description = .str []))) ∧
    ∃ p, HasKey e c!"properties" p ∧ PropertiesEntry p w.properties

/-- The list under a key, entry by entry. -/
def EntriesOf {α : Type} (e : Yaml) (key : Str) (R : Yaml → α → Prop) (l : List α) : Prop :=
  ∃ v es, HasKey e key v ∧ Elements v es ∧ List.Forall₂ R es l

/-- The formulas of a worksheet: none if there is no such key. -/
def FormulasOf (e : Yaml) (l : List WsFormula) : Prop := (NoKey e c!"formulas" ∧ l = []) ∨ EntriesOf e c!"formulas" FormulaEntry l

/-- The formulas before the first entry that lacks a name or an expression, where there is one. -/
def CutFormulasOf (e : Yaml) (l : List WsFormula) : Prop :=
  ∃ v es bad rest, HasKey e c!"formulas" v ∧ Elements v (es ++ bad :: rest) ∧ List.Forall₂ FormulaEntry es l ∧ BadFormula bad

/-- The document describes this worksheet, with the formulas given by the last argument. -/
def Describes (document : Yaml) (w : Worksheet) (formulas : Yaml → List WsFormula → Prop) : Prop :=
  ∃ e, HasKey document c!"worksheet" e ∧ HeadEntry e w ∧ EntriesOf e c!"tables" TableEntry w.tables ∧
    EntriesOf e c!"joins" JoinEntry w.joins ∧ EntriesOf e c!"table_paths" PathEntry w.paths ∧ formulas e w.formulas ∧
    EntriesOf e c!"worksheet_columns" ColumnEntry w.columns

end Verif.Spec
