import Verif.Lemmas.Formulas
import Verif.Props.Excel
import Verif.Props.Validation
/-
C75: the counts in the sheet "Tables".
-/

namespace Verif.Props
open Verif Verif.Spec

/-- A program that takes `*` for any text and `?` for any character. -/
def wildFits : Str → Str → Bool
  | [], s => s.isEmpty
  | a :: p, s =>
    if a = '*' then (List.range (s.length + 1)).any (fun k => wildFits p (s.drop k))
    else match s with
      | [] => false
      | c :: s => (a == '?' || a == c) && wildFits p s

/-- A program with wildcards that drops the equals sign at the start of a criterion and ignores letter case. -/
def wildProgram : Program := fun crit c => match c with
  | .text s => wildFits ((match crit with | '=' :: k => k | k => k).map Char.toLower) (s.map Char.toLower)
  | .count _ => false

/-- **C75.** In the sheet "Tables" of the workbook written for a database, the row of a table names the database, the schema and the table, and
the formulas in it show the number of its columns and how many foreign keys and relationships of the database start and end at the table,
nothing standing for zero.
Partial: the program must compare the names in the workbook as texts without regard to letter case (no wildcards, numbers, operators), no two
names may differ in letter case only, and no table may have the name of one of the headers it is compared with; see the witnesses. -/
theorem C75_counts_partial (db : Database) (hk : WellKeyed db) (P : Program) (hP : ComparesNames P db) (hc : CaseDistinct db) (i : Nat)
    (n : Str) (t : Table) (hi : db.tables[i]? = some (n, t))
    (hn : ∀ h ∈ [c!"Table", c!"From Table", c!"To Table"], h.map Char.toLower ≠ t.name.map Char.toLower) :
    InRow (rowsOf (writeXls db) c!"Tables") (i + 2) c!"Database" (.text db.name) ∧
    InRow (rowsOf (writeXls db) c!"Tables") (i + 2) c!"Schema" (.text t.schema) ∧
    InRow (rowsOf (writeXls db) c!"Tables") (i + 2) c!"Table" (.text t.name) ∧
    ShowsAt P (writeXls db) c!"Tables" (i + 2) c!"# Columns" (some t.cols.length) ∧
    ShowsAt P (writeXls db) c!"Tables" (i + 2) c!"# FKs From" (shownCount ((allKeys db).countP (fun k => k.fromTable = t.name))) ∧
    ShowsAt P (writeXls db) c!"Tables" (i + 2) c!"# FKs To" (shownCount ((allKeys db).countP (fun k => k.toTable = t.name))) ∧
    ShowsAt P (writeXls db) c!"Tables" (i + 2) c!"# Rels From" (shownCount ((allRels db).countP (fun r => r.fromTable = t.name))) ∧
    ShowsAt P (writeXls db) c!"Tables" (i + 2) c!"# Rels To" (shownCount ((allRels db).countP (fun r => r.toTable = t.name))) := by
  have ht : (n, t) ∈ db.tables := List.mem_of_getElem? hi
  have cellC : textIn (writeXls db) c!"Tables" 'C' (i + 2) = t.name := textIn_row hi rfl
  have cellB : textIn (writeXls db) c!"Tables" 'B' (i + 2) = t.schema := textIn_row hi rfl
  have cellA : textIn (writeXls db) c!"Tables" 'A' (i + 2) = db.name := textIn_row hi rfl
  have htn := (compared_table ht).2
  have head : ∀ s ∈ [c!"Table", c!"From Table", c!"To Table"], P t.name (.text s) = false ∧ P ('=' :: t.name) (.text s) = false := by
    intro s hs
    have h := hP t.name htn s (List.mem_append_right _ (by
      simp only [comparedHeaders, List.mem_cons, List.not_mem_nil, or_false] at hs ⊢; tauto))
    rw [h.1, h.2]
    simp only [decide_eq_false_iff_not, and_self]
    exact hn s hs
  refine ⟨inRow_of hi 0 rfl (by decide) rfl, inRow_of hi 1 rfl (by decide) rfl, inRow_of hi 2 rfl (by decide) rfl,
    ⟨_, _, inRow_of hi 6 rfl (by decide) rfl, lookup_holds _, ?_⟩,
    ⟨_, _, inRow_of hi 11 rfl (by decide) (by unfold tableRow; cases t.shard <;> rfl), count_holds _ 'D' _, shows_count ?_⟩,
    ⟨_, _, inRow_of hi 12 rfl (by decide) (by unfold tableRow; cases t.shard <;> rfl), count_holds _ 'F' _, shows_count ?_⟩,
    ⟨_, _, inRow_of hi 13 rfl (by decide) (by unfold tableRow; cases t.shard <;> rfl), count_holds _ 'D' _, shows_count ?_⟩,
    ⟨_, _, inRow_of hi 14 rfl (by decide) (by unfold tableRow; cases t.shard <;> rfl), count_holds _ 'E' _, shows_count ?_⟩⟩
  · simp only [Formula.shows, rowsMeeting, rowsOf_columns, Option.some.injEq, List.all_cons, List.all_nil, Bool.and_true, cellA, cellB, cellC]
    refine countP_columns hk hP hc ht _ ?_ (head _ (by simp)).1
    intro a b c r
    simp [fitsAt, columnNumber, Bool.and_assoc]
  · rw [cellC, rowsOf_fks]
    exact countP_sheet (fun t => t.fks.vals) (fun t k => [.text k.name, .text db.name, .text t.schema, .text k.fromTable, .text (listToString k.fromKeys false), .text k.toTable,
      .text (listToString k.toKeys false)]) P _ 'D' (fksHeader.map .text) (head c!"From Table" (by simp)).2 _ db (fun m u hu k hk =>
      (fits_name hP hc htn (compared_fk (mem_allKeys hu hk)).1).2)
  · rw [cellC, rowsOf_fks]
    exact countP_sheet (fun t => t.fks.vals) (fun t k => [.text k.name, .text db.name, .text t.schema, .text k.fromTable, .text (listToString k.fromKeys false), .text k.toTable,
      .text (listToString k.toKeys false)]) P _ 'F' (fksHeader.map .text) (head c!"To Table" (by simp)).2 _ db (fun m u hu k hk =>
      (fits_name hP hc htn (compared_fk (mem_allKeys hu hk)).2).2)
  · rw [cellC, rowsOf_rels]
    exact countP_sheet (fun t => t.rels.vals) (fun t r => [.text r.name, .text db.name, .text t.schema, .text r.fromTable, .text r.toTable,
      .text r.conditions]) P _ 'D' (relsHeader.map .text) (head c!"From Table" (by simp)).2 _ db (fun m u hu k hk =>
      (fits_name hP hc htn (compared_rel (mem_allRels hu hk)).1).2)
  · rw [cellC, rowsOf_rels]
    exact countP_sheet (fun t => t.rels.vals) (fun t r => [.text r.name, .text db.name, .text t.schema, .text r.fromTable, .text r.toTable,
      .text r.conditions]) P _ 'E' (relsHeader.map .text) (head c!"To Table" (by simp)).2 _ db (fun m u hu k hk =>
      (fits_name hP hc htn (compared_rel (mem_allRels hu hk)).2).2)

/-- The foreign keys and relationships of a table start at it. -/
def StartHere (db : Database) : Prop :=
  ∀ n t, (n, t) ∈ db.tables → (∀ k ∈ t.fks.map Prod.snd, k.fromTable = t.name) ∧ ∀ r ∈ t.rels.map Prod.snd, r.fromTable = t.name

theorem countP_own {α : Type} (db : Database) (hk : WellKeyed db) (f : Table → List α) (src : α → Str)
    (hs : ∀ n t, (n, t) ∈ db.tables → ∀ k ∈ f t, src k = t.name) {n : Str} {t : Table} (ht : (n, t) ∈ db.tables) :
    (db.tables.flatMap (fun p => f p.2)).countP (fun k => decide (src k = t.name)) = (f t).length := by
  have hnd := hk.tables
  have hname := hk.tableNames
  generalize db.tables = l at *
  induction l with
  | nil => cases ht
  | cons p l ih =>
    simp only [List.map_cons, List.nodup_cons] at hnd
    rw [List.flatMap_cons, List.countP_append]
    rcases List.mem_cons.1 ht with e | hm
    · subst e
      rw [List.countP_eq_length.2 (fun k q => by simpa using hs n t (by simp) k q), List.countP_eq_zero.2, Nat.add_zero]
      intro k q
      rw [List.mem_flatMap] at q
      obtain ⟨p, hp, hq⟩ := q
      rw [hs p.1 p.2 (by simp [hp]) k hq, ← hname _ _ ht, ← hname p.1 p.2 (by simp [hp])]
      simp only [decide_eq_true_eq]
      exact fun e => hnd.1 (List.mem_map.2 ⟨p, hp, e⟩)
    · rw [List.countP_eq_zero.2, ih (fun m u hu => hs m u (by simp [hu])) hm hnd.2 (fun m u hu => hname m u (by simp [hu])), Nat.zero_add]
      intro k q
      rw [hs p.1 p.2 (by simp) k q, ← hname _ _ ht, ← hname p.1 p.2 (by simp)]
      simp only [decide_eq_true_eq]
      exact fun e => hnd.1 (List.mem_map.2 ⟨_, hm, e.symm⟩)

/-- **C75.** What the row of a table shows under "# FKs From" and "# Rels From" adds up to the number of relationships from the table that the
database reports, and what it shows under "# FKs To" and "# Rels To" to the number of relationships to the table.
Partial: as for `C75_counts_partial`. -/
theorem C75_agrees_partial (db : Database) (hk : WellKeyed db) (hs : StartHere db) (P : Program) (hP : ComparesNames P db)
    (hc : CaseDistinct db) (i : Nat) (n : Str) (t : Table) (hi : db.tables[i]? = some (n, t))
    (hn : ∀ h ∈ [c!"Table", c!"From Table", c!"To Table"], h.map Char.toLower ≠ t.name.map Char.toLower) :
    ∃ a b c d, ShowsAt P (writeXls db) c!"Tables" (i + 2) c!"# FKs From" a ∧ ShowsAt P (writeXls db) c!"Tables" (i + 2) c!"# Rels From" b ∧
      ShowsAt P (writeXls db) c!"Tables" (i + 2) c!"# FKs To" c ∧ ShowsAt P (writeXls db) c!"Tables" (i + 2) c!"# Rels To" d ∧
      db.numberRelsFrom t.name = .ok (a.getD 0 + b.getD 0) ∧ db.numberRelsTo t.name = .ok (c.getD 0 + d.getD 0) := by
  obtain ⟨-, -, -, -, h1, h2, h3, h4⟩ := C75_counts_partial db hk P hP hc i n t hi hn
  have ht : (n, t) ∈ db.tables := List.mem_of_getElem? hi
  have hnt := hk.tableNames _ _ ht
  have shown : ∀ k, (shownCount k).getD 0 = k := by
    intro k
    unfold shownCount
    split
    · simp_all
    · rfl
  refine ⟨_, _, _, _, h1, h3, h2, h4, ?_, ?_⟩
  · rw [shown, shown, allKeys, allRels, countP_own db hk (fun t => t.fks.map Prod.snd) (fun k => k.fromTable) (fun n t ht => (hs n t ht).1) ht,
      countP_own db hk (fun t => t.rels.map Prod.snd) (fun k => k.fromTable) (fun n t ht => (hs n t ht).2) ht]
    simp only [Database.numberRelsFrom, Database.getTable, ← hnt, Dict.get?_of_mem hk.tables ht, Dict.vals]
  · have hm : t.name ∈ db.tableNames := by
      rw [← hnt]
      exact List.mem_map.2 ⟨_, ht, rfl⟩
    rw [numberRelsTo_eq db _ hm, shown, shown]
    congr 1
    unfold allTargets allKeys allRels
    clear hm ht hn hi h1 h2 h3 h4 hs hk hP hc
    induction db.tables with
    | nil => rfl
    | cons p l ih =>
      simp only [List.flatMap_cons, List.count_append, List.countP_append, ih]
      simp only [List.count, List.countP_map, Function.comp_def, beq_eq_decide]
      omega

/-- **C75.** When a count is right, for every program that finds a name in a cell with that name: the row of a table shows the right number of
columns iff the program takes neither the header nor another table with columns for the table, and the right number of foreign keys and
relationships iff it takes neither the header nor another name they mention for the name of the table. -/
theorem C75_exactly (db : Database) (hk : WellKeyed db) (P : Program) (i : Nat) (n : Str) (t : Table) (hi : db.tables[i]? = some (n, t))
    (hd : P db.name (.text db.name) = true) (hsc : P t.schema (.text t.schema) = true) (hn : P t.name (.text t.name) = true)
    (he : P ('=' :: t.name) (.text t.name) = true) :
    (∃ v, ShowsAt P (writeXls db) c!"Tables" (i + 2) c!"# Columns" (some v) ∧ (v = t.cols.length ↔
      ¬ (P db.name (.text c!"Database") = true ∧ P t.schema (.text c!"Schema") = true ∧ P t.name (.text c!"Table") = true) ∧
      ∀ m u, (m, u) ∈ db.tables → u.cols ≠ [] → P t.schema (.text u.schema) = true → P t.name (.text u.name) = true → m = n)) ∧
    (∃ v, ShowsAt P (writeXls db) c!"Tables" (i + 2) c!"# FKs From" v ∧ (v = shownCount ((allKeys db).countP (fun k => k.fromTable = t.name)) ↔
      P ('=' :: t.name) (.text c!"From Table") = false ∧ ∀ k ∈ allKeys db, P ('=' :: t.name) (.text k.fromTable) = true → k.fromTable = t.name)) ∧
    (∃ v, ShowsAt P (writeXls db) c!"Tables" (i + 2) c!"# FKs To" v ∧ (v = shownCount ((allKeys db).countP (fun k => k.toTable = t.name)) ↔
      P ('=' :: t.name) (.text c!"To Table") = false ∧ ∀ k ∈ allKeys db, P ('=' :: t.name) (.text k.toTable) = true → k.toTable = t.name)) ∧
    (∃ v, ShowsAt P (writeXls db) c!"Tables" (i + 2) c!"# Rels From" v ∧ (v = shownCount ((allRels db).countP (fun k => k.fromTable = t.name)) ↔
      P ('=' :: t.name) (.text c!"From Table") = false ∧ ∀ k ∈ allRels db, P ('=' :: t.name) (.text k.fromTable) = true → k.fromTable = t.name)) ∧
    (∃ v, ShowsAt P (writeXls db) c!"Tables" (i + 2) c!"# Rels To" v ∧ (v = shownCount ((allRels db).countP (fun k => k.toTable = t.name)) ↔
      P ('=' :: t.name) (.text c!"To Table") = false ∧ ∀ k ∈ allRels db, P ('=' :: t.name) (.text k.toTable) = true → k.toTable = t.name)) := by
  have ht : (n, t) ∈ db.tables := List.mem_of_getElem? hi
  have hnt := hk.tableNames _ _ ht
  have cellC : textIn (writeXls db) c!"Tables" 'C' (i + 2) = t.name := textIn_row hi rfl
  have cellB : textIn (writeXls db) c!"Tables" 'B' (i + 2) = t.schema := textIn_row hi rfl
  have cellA : textIn (writeXls db) c!"Tables" 'A' (i + 2) = db.name := textIn_row hi rfl
  refine ⟨⟨_, ⟨_, _, inRow_of hi 6 rfl (by decide) rfl, lookup_holds _, rfl⟩, ?_⟩,
    ⟨_, ⟨_, _, inRow_of hi 11 rfl (by decide) (by unfold tableRow; cases t.shard <;> rfl), count_holds _ 'D' _, shows_count rfl⟩, ?_⟩,
    ⟨_, ⟨_, _, inRow_of hi 12 rfl (by decide) (by unfold tableRow; cases t.shard <;> rfl), count_holds _ 'F' _, shows_count rfl⟩, ?_⟩,
    ⟨_, ⟨_, _, inRow_of hi 13 rfl (by decide) (by unfold tableRow; cases t.shard <;> rfl), count_holds _ 'D' _, shows_count rfl⟩, ?_⟩,
    ⟨_, ⟨_, _, inRow_of hi 14 rfl (by decide) (by unfold tableRow; cases t.shard <;> rfl), count_holds _ 'E' _, shows_count rfl⟩, ?_⟩⟩
  · simp only [rowsMeeting, rowsOf_columns, List.all_cons, List.all_nil, Bool.and_true, cellA, cellB, cellC]
    rw [countP_columns_any db _ (fun a b c => P db.name (.text a) && (P t.schema (.text b) && P t.name (.text c))) (by
      intro a b c r
      simp [fitsAt, columnNumber])]
    have own := countP_own db hk (fun u => u.cols.map (fun _ => u)) (fun u => u.name) (fun m u _ k hk => by
      simp only [List.mem_map] at hk
      obtain ⟨_, _, rfl⟩ := hk
      rfl) ht
    rw [List.length_map] at own
    rw [← own, shown_exact _ (by
      intro u hu hp
      simp only [List.mem_flatMap, List.mem_map] at hu
      obtain ⟨⟨m, u⟩, hm, _, _, rfl⟩ := hu
      have e : u.name = t.name := by simpa using hp
      have e2 : m = n := by rw [hnt, hk.tableNames _ _ hm, e]
      have : u = t := by
        have h1 := Dict.get?_of_mem hk.tables hm
        have h2 := Dict.get?_of_mem hk.tables ht
        rw [e2, h2] at h1
        exact (Option.some.inj h1).symm
      subst this
      simp [hd, hsc, hn])]
    refine and_congr ?_ ⟨?_, ?_⟩
    · cases P db.name (.text c!"Database") <;> cases P t.schema (.text c!"Schema") <;> cases P t.name (.text c!"Table") <;> simp
    · intro h m u hm hc h1 h2
      have := h u (List.mem_flatMap.2 ⟨_, hm, by
        obtain ⟨x, hx⟩ := List.exists_mem_of_ne_nil _ hc
        exact List.mem_map.2 ⟨x, hx, rfl⟩⟩) (by simp [hd, h1, h2])
      rw [hnt, hk.tableNames _ _ hm]
      simpa using this
    · intro h u hu hq
      simp only [List.mem_flatMap, List.mem_map] at hu
      obtain ⟨⟨m, u⟩, hm, x, hx, rfl⟩ := hu
      simp only [Bool.and_eq_true] at hq
      have := h m u hm (by intro e; simp only at hx; rw [e] at hx; cases hx) hq.2.1 hq.2.2
      simp only [decide_eq_true_eq]
      rw [← hnt, ← this]
      exact (hk.tableNames _ _ hm).symm
  · rw [cellC, rowsOf_fks, shownCount_inj]
    unfold fksSheet
    rw [countP_rows (fun t => t.fks.vals) (fun t k => [.text k.name, .text db.name, .text t.schema, .text k.fromTable, .text (listToString k.fromKeys false), .text k.toTable,
      .text (listToString k.toKeys false)]) P _ 'D' _ (fun k => P ('=' :: t.name) (.text k.fromTable)) db (fun _ _ _ _ _ => rfl)]
    exact (shown_exact _ (by intro k _ hk; simp only [decide_eq_true_eq] at hk; rw [hk]; exact he)).trans (by simp [allKeys, Dict.vals, fitsAt, fksHeader, columnNumber])
  · rw [cellC, rowsOf_fks, shownCount_inj]
    unfold fksSheet
    rw [countP_rows (fun t => t.fks.vals) (fun t k => [.text k.name, .text db.name, .text t.schema, .text k.fromTable, .text (listToString k.fromKeys false), .text k.toTable,
      .text (listToString k.toKeys false)]) P _ 'F' _ (fun k => P ('=' :: t.name) (.text k.toTable)) db (fun _ _ _ _ _ => rfl)]
    exact (shown_exact _ (by intro k _ hk; simp only [decide_eq_true_eq] at hk; rw [hk]; exact he)).trans (by simp [allKeys, Dict.vals, fitsAt, fksHeader, columnNumber])
  · rw [cellC, rowsOf_rels, shownCount_inj]
    unfold relsSheet
    rw [countP_rows (fun t => t.rels.vals) (fun t r => [.text r.name, .text db.name, .text t.schema, .text r.fromTable, .text r.toTable,
      .text r.conditions]) P _ 'D' _ (fun k => P ('=' :: t.name) (.text k.fromTable)) db (fun _ _ _ _ _ => rfl)]
    exact (shown_exact _ (by intro k _ hk; simp only [decide_eq_true_eq] at hk; rw [hk]; exact he)).trans (by simp [allRels, Dict.vals, fitsAt, relsHeader, columnNumber])
  · rw [cellC, rowsOf_rels, shownCount_inj]
    unfold relsSheet
    rw [countP_rows (fun t => t.rels.vals) (fun t r => [.text r.name, .text db.name, .text t.schema, .text r.fromTable, .text r.toTable,
      .text r.conditions]) P _ 'E' _ (fun k => P ('=' :: t.name) (.text k.toTable)) db (fun _ _ _ _ _ => rfl)]
    exact (shown_exact _ (by intro k _ hk; simp only [decide_eq_true_eq] at hk; rw [hk]; exact he)).trans (by simp [allRels, Dict.vals, fitsAt, relsHeader, columnNumber])

/-- The hypotheses hold of the shop and a program with wildcards; the table `item` is in row 3. -/
example : WellKeyed shopDb ∧ StartHere shopDb ∧ ComparesNames wildProgram shopDb ∧ CaseDistinct shopDb ∧
    shopDb.tables[1]? = some (c!"item", itemTable) ∧
    (∀ h ∈ [c!"Table", c!"From Table", c!"To Table"], h.map Char.toLower ≠ itemTable.name.map Char.toLower) ∧
    ShowsAt wildProgram (writeXls shopDb) c!"Tables" 3 c!"# FKs To" (some 1) ∧
    ShowsAt wildProgram (writeXls shopDb) c!"Tables" 3 c!"# FKs From" none :=
  ⟨shop_cells.keyed, fun n t h => (by decide : ∀ p ∈ shopDb.tables,
      (∀ k ∈ p.2.fks.map Prod.snd, k.fromTable = p.2.name) ∧ ∀ r ∈ p.2.rels.map Prod.snd, r.fromTable = p.2.name) (n, t) h, by unfold ComparesNames; decide, by unfold CaseDistinct; decide, rfl, by decide,
    ⟨_, _, inRow_of (n := c!"item") (t := itemTable) rfl 12 rfl (by decide) rfl, count_holds _ 'F' _, by decide⟩,
    ⟨_, _, inRow_of (n := c!"item") (t := itemTable) rfl 11 rfl (by decide) rfl, count_holds _ 'D' _, by decide⟩⟩

/-- A table with one column. -/
def narrowTable (n : Str) : Table :=
  { name := n, schema := defaultSchema, pk := [], shard := none, cols := [(c!"x", { name := c!"x", type := c!"INT" })], fks := [], rels := [] }

/-- Tables whose names differ in letter case only. -/
def caseDb : Database := [narrowTable c!"item", narrowTable c!"ITEM"].foldl Database.addTable (Database.empty c!"d")

/-- C75 needs names that differ in more than letter case: a table with one column is said to have two. -/
theorem C75_letter_case : WellKeyed caseDb ∧ ComparesNames wildProgram caseDb ∧ caseDb.tables[0]? = some (c!"item", narrowTable c!"item") ∧
    (narrowTable c!"item").cols.length = 1 ∧ ShowsAt wildProgram (writeXls caseDb) c!"Tables" 2 c!"# Columns" (some 2) :=
  ⟨by decide, by unfold ComparesNames; decide, rfl, rfl,
    ⟨_, _, inRow_of (n := c!"item") (t := narrowTable c!"item") rfl 6 rfl (by decide) rfl, lookup_holds _, by decide⟩⟩

/-- The hypotheses of `C75_exactly` hold there, and the program takes the other table for the table. -/
example : P = wildProgram → P caseDb.name (.text caseDb.name) = true ∧ P (narrowTable c!"item").schema (.text (narrowTable c!"item").schema) = true ∧
    P (narrowTable c!"item").name (.text (narrowTable c!"item").name) = true ∧ P ('=' :: (narrowTable c!"item").name) (.text (narrowTable c!"item").name) = true ∧
    P (narrowTable c!"item").name (.text (narrowTable c!"ITEM").name) = true := by
  rintro rfl
  decide

/-- A table with the name of a header. -/
def headerDb : Database := [narrowTable c!"From Table"].foldl Database.addTable (Database.empty c!"d")

/-- C75 needs table names other than the headers: the formulas look at whole columns, so a table called "From Table" is said to have a foreign
key when there is none. -/
theorem C75_header_name : WellKeyed headerDb ∧ ComparesNames wildProgram headerDb ∧ CaseDistinct headerDb ∧ allKeys headerDb = [] ∧
    headerDb.tables[0]? = some (c!"From Table", narrowTable c!"From Table") ∧
    ShowsAt wildProgram (writeXls headerDb) c!"Tables" 2 c!"# FKs From" (some 1) :=
  ⟨by decide, by unfold ComparesNames; decide, by unfold CaseDistinct; decide, rfl, rfl,
    ⟨_, _, inRow_of (n := c!"From Table") (t := narrowTable c!"From Table") rfl 11 rfl (by decide) rfl, count_holds _ 'D' _, by decide⟩⟩

/-- A table with a star in its name. -/
def starDb : Database := [narrowTable c!"item", narrowTable c!"it*"].foldl Database.addTable (Database.empty c!"d")

/-- C75 needs names without wildcards: the columns of another table are counted. -/
theorem C75_wildcard : WellKeyed starDb ∧ CaseDistinct starDb ∧ starDb.tables[1]? = some (c!"it*", narrowTable c!"it*") ∧
    (narrowTable c!"it*").cols.length = 1 ∧ ShowsAt wildProgram (writeXls starDb) c!"Tables" 3 c!"# Columns" (some 2) :=
  ⟨by decide, by unfold CaseDistinct; decide, rfl, rfl,
    ⟨_, _, inRow_of (n := c!"it*") (t := narrowTable c!"it*") rfl 6 rfl (by decide) rfl, lookup_holds _, by decide⟩⟩

end Verif.Props
