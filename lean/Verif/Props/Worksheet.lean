import Verif.Lemmas.Worksheet
/-
Properties of worksheets and of their reader: C57, C58, C63.
-/

namespace Verif.Props
open Verif Verif.Spec

/-! ## C57 -/

/-- Adding to a worksheet. -/
def addPart (w : Worksheet) : Part → Worksheet
  | .table t => w.addTable t
  | .join j => w.addJoin j
  | .path p => w.addPath p
  | .formula f => w.addFormula f
  | .column c => w.addColumn c

/-- C57: whatever is added in whatever order, each list of the worksheet holds what was added to it, in order, after what it held before,
and nothing else changes. -/
theorem C57_keeps_order (w : Worksheet) (parts : List Part) :
    let w' := parts.foldl addPart w
    w'.getTables = w.tables ++ parts.filterMap (fun p => match p with | .table t => some t | _ => none) ∧
    w'.getJoins = w.joins ++ parts.filterMap (fun p => match p with | .join j => some j | _ => none) ∧
    w'.paths = w.paths ++ parts.filterMap (fun p => match p with | .path x => some x | _ => none) ∧
    w'.formulas = w.formulas ++ parts.filterMap (fun p => match p with | .formula f => some f | _ => none) ∧
    w'.columns = w.columns ++ parts.filterMap (fun p => match p with | .column c => some c | _ => none) ∧
    w'.name = w.name ∧ w'.description = w.description ∧ w'.properties = w.properties := by
  induction parts generalizing w with
  | nil => simp [Worksheet.getTables, Worksheet.getJoins]
  | cons p ps ih =>
    have := ih (addPart w p)
    cases p <;> simpa [addPart, Worksheet.addTable, Worksheet.addJoin, Worksheet.addPath, Worksheet.addFormula, Worksheet.addColumn] using this

example : (([Part.table ⟨.str c!"a", .str c!"table"⟩, .formula ⟨.str c!"f", .str c!"1", .null⟩, .table ⟨.str c!"b", .str c!"alias"⟩].foldl addPart
    { name := .str c!"w", description := .null, properties := [] }).getTables.map (fun t => t.name.text)) = [.ok c!"a", .ok c!"b"] := by decide

/-- C57: `get_table` returns the first table of the name, or `None` if there is none. -/
theorem C57_get_table (w : Worksheet) (n : Str) (hn : n ≠ []) :
    (∃ pre t post, w.tables = pre ++ t :: post ∧ t.name = .str n ∧ (∀ u ∈ pre, u.name ≠ .str n) ∧ w.getTable n = .ok (some t)) ∨
    ((∀ u ∈ w.tables, u.name ≠ .str n) ∧ w.getTable n = .ok none) := by
  unfold Worksheet.getTable
  rw [if_neg hn]
  cases h : w.tables.find? (fun t => t.name.isStr n) with
  | none =>
    right
    rw [List.find?_eq_none] at h
    refine ⟨fun u hu e => h u hu ((isStr_iff _ _).2 e), rfl⟩
  | some t =>
    left
    obtain ⟨ht, pre, post, e, hpre⟩ := List.find?_eq_some_iff_append.1 h
    refine ⟨pre, t, post, e, (isStr_iff _ _).1 ht, ?_, rfl⟩
    intro u hu hname
    have := hpre u hu
    rw [(isStr_iff _ _).2 hname] at this
    cases this

theorem splitS_here (p rest : Str) (h : Without c!"::" (p ++ c!":")) : splitS c!"::" (p ++ c!"::" ++ rest) = p :: splitS c!"::" rest := by
  unfold splitS
  induction p with
  | nil => simp [splitSGo]
  | cons c p ih =>
    have hp : Without c!"::" (p ++ c!":") := by
      rintro ⟨a, b, e⟩
      exact h ⟨c :: a, b, by simpa using e⟩
    have hno : ¬ ((c!"::").isPrefixOf (c :: (p ++ c!"::" ++ rest)) = true) := by
      rw [List.isPrefixOf_iff_prefix]
      rintro ⟨b, e⟩
      cases p with
      | nil =>
        cases e
        exact h ⟨[], [], rfl⟩
      | cons d p =>
        cases e
        exact h ⟨[], p ++ c!":", rfl⟩
    have : (c :: p) ++ c!"::" ++ rest = c :: (p ++ c!"::" ++ rest) := rfl
    rw [this, splitSGo, if_neg hno, ih hp]
    rfl

theorem splitS_none (s : Str) (h : Without c!"::" s) : splitS c!"::" s = [s] := by
  unfold splitS
  induction s with
  | nil => rfl
  | cons c s ih =>
    have hno : ¬ ((c!"::").isPrefixOf (c :: s) = true) := by
      rw [List.isPrefixOf_iff_prefix]
      rintro ⟨b, e⟩
      exact h ⟨[], b, by simpa using e.symm⟩
    rw [splitSGo, if_neg hno, ih]
    · rfl
    · rintro ⟨a, b, e⟩
      exact h ⟨c :: a, b, by simp [e]⟩

/-- C57: the id `path::source` is split into its parts. -/
theorem C57_column_id (c : WsColumn) (p s : Str) (hp : Without c!"::" (p ++ c!":")) (hs : Without c!"::" s) (hf : c.isFormula = false)
    (hid : c.columnId = .str (p ++ c!"::" ++ s)) : c.getPath = .ok (some p) ∧ c.getSource = .ok (some s) := by
  unfold WsColumn.getPath WsColumn.getSource WsColumn.idParts
  rw [hid]
  dsimp only
  rw [splitS_here p s hp, splitS_none s hs, hf]
  exact ⟨rfl, rfl⟩

/-- C57: formulas have neither path nor source. -/
theorem C57_formula_id (c : WsColumn) (hf : c.isFormula = true) : c.getPath = .ok none ∧ c.getSource = .ok none := by
  unfold WsColumn.getPath WsColumn.getSource
  rw [hf]
  exact ⟨rfl, rfl⟩

/-- C57: a column id without `::` has a path but `get_source` raises `IndexError`. -/
theorem C57_no_source (c : WsColumn) (s : Str) (hs : Without c!"::" s) (hf : c.isFormula = false) (hid : c.columnId = .str s) :
    c.getPath = .ok (some s) ∧ c.getSource = .error .index := by
  unfold WsColumn.getPath WsColumn.getSource WsColumn.idParts
  rw [hid]
  dsimp only
  rw [splitS_none s hs, hf]
  exact ⟨rfl, rfl⟩

/-- C57: `get_property` returns the value of the property, or `None` if the column has no such property. -/
theorem C57_property (c : WsColumn) (n : Str) :
    (∀ v, c.getProperty n = some v ↔ HasKey (.map c.properties) n v) ∧ (c.getProperty n = none ↔ NoKey (.map c.properties) n) := by
  unfold WsColumn.getProperty HasKey NoKey
  refine ⟨fun v => ?_, ?_⟩
  · rw [get?_split]
    simp only [Yaml.map.injEq]
  · rw [Dict.get?_eq_none_iff]
    simp [Dict.keys]

example : HasKey (.map [(c!"a", .null), (c!"b", .str c!"x"), (c!"b", .null)]) c!"b" (.str c!"x") := ⟨[(c!"a", .null)], [(c!"b", .null)], rfl, by decide⟩

/-- A text without the separator, from its pieces. -/
theorem without_of_hasSub {sub s : Str} (h : hasSub sub s = false) : Without sub s := by
  rintro ⟨a, b, rfl⟩
  have : hasSub sub (a ++ sub ++ b) = true := by
    unfold hasSub
    rw [Option.isSome_iff_ne_none, ne_eq, findIdx_none_iff, not_not]
    exact ⟨a, b, rfl⟩
  rw [this] at h
  cases h

example : Without c!"::" (c!"orders_1" ++ c!":") ∧ Without c!"::" c!"a:b" :=
  ⟨without_of_hasSub (by decide), without_of_hasSub (by decide)⟩

/-! ## C58 -/

/-- C58, exactly: the document is read if and only if it describes a worksheet, and the result is that worksheet; but from the first formula
without name or expression on, formulas are left out. -/
theorem C58_exact_partial (document : Yaml) (w : Worksheet) :
    createWorksheet document = .ok w ↔ Describes document w FormulasOf ∨ Describes document w CutFormulasOf :=
  createWorksheet_ok_iff document w

theorem elements_unique {v : Yaml} {l l' : List Yaml} (h : Elements v l) (h' : Elements v l') : l = l' := by
  rw [← iter_ok_iff] at h h'
  rw [h] at h'
  exact Except.ok.inj h'

theorem hasKey_unique {v : Yaml} {k : Str} {x y : Yaml} (h : HasKey v k x) (h' : HasKey v k y) : x = y := by
  rw [← item_ok_iff] at h h'
  rw [h] at h'
  exact Except.ok.inj h'

/-- C58, in part: if every entry under `formulas` has a name and an expression, the document is read if and only if it describes a worksheet,
and the result is that worksheet, with one table, join, path, formula and column per entry. -/
theorem C58_complete_partial (document : Yaml) (w : Worksheet)
    (h : ∀ e v es, HasKey document c!"worksheet" e → HasKey e c!"formulas" v → Elements v es → ∀ f ∈ es, ¬ BadFormula f) :
    createWorksheet document = .ok w ↔ Describes document w FormulasOf := by
  rw [createWorksheet_ok_iff]
  constructor
  · rintro (h' | ⟨e, h0, -, -, -, -, ⟨v, es, bad, rest, hv, hl, -, hb⟩, -⟩)
    · exact h'
    · exact absurd hb (h e v _ h0 hv hl bad (by simp))
  · exact .inl

/-- An entry of the examples. -/
def entry (l : List (Str × Str)) : Yaml := .map (l.map (fun p => (p.1, .str p.2)))

/-- A small document with these formulas. -/
def sampleDoc (formulas : List Yaml) : Yaml :=
  .map [(c!"worksheet", .map [(c!"name", .str c!"w"), (c!"properties", .map []),
    (c!"tables", .seq [entry [(c!"name", c!"a")], entry [(c!"name", c!"b"), (c!"type", c!"alias")]]),
    (c!"joins", .seq [entry [(c!"name", c!"j"), (c!"source", c!"a"), (c!"destination", c!"b"), (c!"type", c!"INNER"), (c!"is_one_to_one", c!"false")]]),
    (c!"table_paths", .seq [.map [(c!"id", .str c!"a_1"), (c!"table", .str c!"a"), (c!"join_path", .seq [.map []])],
      .map [(c!"id", .str c!"b_1"), (c!"table", .str c!"b"), (c!"join_path", .seq [.map [(c!"join", .seq [.str c!"j"])]])]]),
    (c!"formulas", .seq formulas),
    (c!"worksheet_columns", .seq [.map [(c!"name", .str c!"x"), (c!"column_id", .str c!"a_1::x"), (c!"properties", .map [])],
      .map [(c!"name", .str c!"f"), (c!"formula_id", .str c!"f1"), (c!"properties", .map [])]])])]

/-- How many of each part a document yields, and the paths of its columns. -/
def sizes (d : Yaml) : Except PyErr (List Nat × List (Except PyErr (Option Str))) :=
  (createWorksheet d).map (fun w => ([w.tables.length, w.joins.length, w.paths.length, w.formulas.length, w.columns.length],
    w.columns.map WsColumn.getPath))

example : sizes (sampleDoc [entry [(c!"name", c!"f"), (c!"expr", c!"1+1"), (c!"id", c!"f1")]]) =
    .ok ([2, 1, 2, 1, 2], [.ok (some c!"a_1"), .ok none]) := by decide +kernel

example : ∀ e v es, HasKey (sampleDoc [entry [(c!"name", c!"f"), (c!"expr", c!"1+1")]]) c!"worksheet" e → HasKey e c!"formulas" v →
    Elements v es → ∀ f ∈ es, ¬ BadFormula f := by
  intro e v es he hv hes f hf
  rw [← item_ok_iff] at he hv
  cases he
  cases hv
  cases hes
  simp only [List.mem_singleton] at hf
  subst hf
  rw [← readWsFormula_key_iff { name := .null, description := .null, properties := [] }]
  intro h
  cases h

/-- C58 fails: a formula without expression, and every formula after it, is left out without any message. -/
theorem C58_formulas_dropped : sizes (sampleDoc [entry [(c!"name", c!"f"), (c!"expr", c!"1")], entry [(c!"name", c!"g")],
    entry [(c!"name", c!"h"), (c!"expr", c!"2")]]) = .ok ([2, 1, 2, 1, 2], [.ok (some c!"a_1"), .ok none]) := by decide +kernel

/-! ## C63 -/

theorem readLines_line (l rest : Str) (h : '\n' ∉ l) : readLines (l ++ '\n' :: rest) = (l ++ ['\n']) :: readLines rest := by
  induction l with
  | nil => simp [readLines]
  | cons c l ih =>
    simp only [List.mem_cons, not_or] at h
    simp only [List.cons_append]
    rw [readLines, if_neg (Ne.symm h.1), ih h.2]

theorem readLines_last (l : Str) (hne : l ≠ []) (h : '\n' ∉ l) : readLines l = [l] := by
  induction l with
  | nil => exact absurd rfl hne
  | cons c l ih =>
    simp only [List.mem_cons, not_or] at h
    rw [readLines, if_neg (Ne.symm h.1)]
    cases l with
    | nil => rfl
    | cons d l => rw [ih (by simp) h.2]

theorem readLines_of {s : Str} {ls : List Str} (h : LinesOf s ls) : readLines s = ls := by
  induction h with
  | nil => rfl
  | last l hne h => exact readLines_last l hne h
  | cons l rest ls h _ ih => rw [readLines_line l rest h, ih]

theorem LinesOf.flatten_eq {s : Str} {ls : List Str} (h : LinesOf s ls) : ls.flatten = s := by
  induction h with
  | nil => rfl
  | last l _ _ => simp
  | cons l rest ls _ _ ih => simp [ih]

theorem joinS_blank (l : Str) (ls : List Str) : joinS c!" " (l :: ls) = l ++ (ls.map (' ' :: ·)).flatten := by
  induction ls generalizing l with
  | nil => simp [joinS]
  | cons m ls ih =>
    rw [joinS, ih]
    · simp
    · simp

/-- C63, what holds: the YAML parser gets the lines of the file, with one more blank in front of every line but the first. -/
theorem C63_shifted_partial (content l : Str) (ls : List Str) (h : LinesOf (newlines content) (l :: ls)) :
    worksheetText content = l ++ (ls.map (' ' :: ·)).flatten := by
  unfold worksheetText
  rw [readLines_of h, joinS_blank]

/-- C63: the YAML parser gets the text of the file if and only if the file has at most one line. -/
theorem C63_unchanged_iff (content : Str) (ls : List Str) (h : LinesOf (newlines content) ls) :
    worksheetText content = newlines content ↔ ls.length ≤ 1 := by
  have e := LinesOf.flatten_eq h
  cases ls with
  | nil =>
    unfold worksheetText
    rw [readLines_of h, ← e]
    simp [joinS]
  | cons l ls =>
    rw [C63_shifted_partial content l ls h, ← e]
    constructor
    · intro h'
      cases ls with
      | nil => simp
      | cons m ls =>
        have := congrArg List.length h'
        have key : ∀ xs : List Str, xs.flatten.length ≤ (xs.map (' ' :: ·)).flatten.length := by
          intro xs
          induction xs with
          | nil => simp
          | cons x xs ih => simp only [List.map_cons, List.flatten_cons, List.length_append, List.length_cons]; omega
        have k := key ls
        simp only [List.map_cons, List.flatten_cons, List.length_append, List.length_cons] at this
        omega
    · intro h'
      cases ls with
      | nil => simp
      | cons m ls => simp at h'

/-- C63 fails: the second key of a document comes out indented under the first. -/
theorem C63_second_key_shifted : worksheetText c!"guid: 1\nworksheet:\n name: w\n" = c!"guid: 1\n worksheet:\n  name: w\n" := by decide

example : LinesOf (newlines c!"guid: 1\nworksheet:\n name: w\n") [c!"guid: 1\n", c!"worksheet:\n", c!" name: w\n"] :=
  .cons c!"guid: 1" _ _ (by decide) (.cons c!"worksheet:" _ _ (by decide) (.cons c!" name: w" _ _ (by decide) .nil))

end Verif.Props
