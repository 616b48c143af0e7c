import Verif.Spec.Formulas
import Verif.Lemmas.Excel
/-
The formulas of the sheet "Tables".
-/

namespace Verif
open Spec

theorem rowsOf_columns (db : Database) : rowsOf (writeXls db) c!"Columns" = columnsSheet db := rfl
theorem rowsOf_tables (db : Database) : rowsOf (writeXls db) c!"Tables" = tablesSheet db := rfl
theorem rowsOf_fks (db : Database) : rowsOf (writeXls db) c!"Foreign Keys" = fksSheet db := rfl
theorem rowsOf_rels (db : Database) : rowsOf (writeXls db) c!"Relationships" = relsSheet db := rfl

theorem tablesSheet_row {db : Database} {i : Nat} {n : Str} {t : Table} (h : db.tables[i]? = some (n, t)) :
    (tablesSheet db)[i + 1]? = some (tableRow db.name t (i + 2)) := by
  unfold tablesSheet Database.iter Dict.vals
  rw [List.getElem?_cons_succ, tableRows_eq, List.getElem?_map, List.getElem?_zipIdx, List.getElem?_map, h]
  simp only [Option.map_some, Option.some.injEq]
  congr 1
  omega

/-- A cell in the row of a table. -/
theorem inRow_of {db : Database} {i : Nat} {n : Str} {t : Table} (h : db.tables[i]? = some (n, t)) {col : Str} {v : PyCell} (j : Nat)
    (hj : (tablesHeader.map PyCell.text)[j]? = some (.text col)) (hu : ∀ k < 15, tablesHeader[k]? = some col → k = j)
    (hv : (tableRow db.name t (i + 2))[j]? = some v) : InRow (rowsOf (writeXls db) c!"Tables") (i + 2) col v := by
  refine ⟨_, _, j, rfl, tablesSheet_row h, hj, ?_, hv⟩
  intro k hk
  rw [List.getElem?_map, Option.map_eq_some_iff] at hk
  obtain ⟨s, hs, he⟩ := hk
  cases he
  refine hu k ?_ hs
  obtain ⟨hl, -⟩ := List.getElem?_eq_some_iff.1 hs
  exact hl

theorem textIn_row {db : Database} {i : Nat} {n : Str} {t : Table} (h : db.tables[i]? = some (n, t)) {c : Char} {s : Str}
    (hv : (tableRow db.name t (i + 2))[columnNumber c]? = some (.text s)) : textIn (writeXls db) c!"Tables" c (i + 2) = s := by
  unfold textIn
  rw [rowsOf_tables, show i + 2 - 1 = i + 1 from rfl, tablesSheet_row h, Option.bind_some, hv]

theorem lookup_holds (row : Nat) :
    HoldsFormula (.text (lookupFormula row)) (.countIfs [⟨c!"Columns", 'A', c!"Tables", 'A', row⟩, ⟨c!"Columns", 'B', c!"Tables", 'B', row⟩,
      ⟨c!"Columns", 'C', c!"Tables", 'C', row⟩]) := by
  simp [HoldsFormula, lookupFormula, Formula.typed, Condition.typed, decimal, natToStr]

theorem count_holds (sheet : Str) (col : Char) (row : Nat) :
    HoldsFormula (.text (countFormula sheet [col] row)) (.unlessZero (.countIf sheet col 'C' row)) := by
  simp [HoldsFormula, countFormula, Formula.typed, decimal, natToStr]

/-- Counting the rows in a sheet with one row for each key of each table. -/
theorem countP_rows {α : Type} (f : Table → List α) (g : Table → α → List PyCell) (P : Program) (crit : Str) (c : Char) (h : List PyCell)
    (q : α → Bool) (db : Database) (hq : ∀ n t, (n, t) ∈ db.tables → ∀ k ∈ f t, fitsAt P crit c (g t k) = q k) :
    (h :: db.iter.flatMap (fun t => (f t).map (g t))).countP (fitsAt P crit c) =
      (if fitsAt P crit c h = true then 1 else 0) + (db.tables.flatMap (fun p => f p.2)).countP q := by
  rw [List.countP_cons, Nat.add_comm]
  congr 1
  unfold Database.iter Dict.vals
  generalize db.tables = l at hq
  induction l with
  | nil => rfl
  | cons p l ih =>
    simp only [List.map_cons, List.flatMap_cons, List.countP_append]
    rw [ih (fun n t ht => hq n t (by simp [ht])), List.countP_map]
    congr 1
    refine List.countP_congr ?_
    intro k hk
    rw [Function.comp, hq p.1 p.2 (by simp) k hk]

/-- Counting the rows below the header in a sheet with one row for each key of each table. -/
theorem countP_sheet {α : Type} (f : Table → List α) (g : Table → α → List PyCell) (P : Program) (crit : Str) (c : Char) (h : List PyCell)
    (hh : fitsAt P crit c h = false) (q : α → Bool) (db : Database)
    (hq : ∀ n t, (n, t) ∈ db.tables → ∀ k ∈ f t, fitsAt P crit c (g t k) = q k) :
    (h :: db.iter.flatMap (fun t => (f t).map (g t))).countP (fitsAt P crit c) = (db.tables.flatMap (fun p => f p.2)).countP q := by
  rw [countP_rows f g P crit c h q db hq, hh]
  simp

/-- Counting with a weaker condition gives the same number iff the conditions agree. -/
theorem countP_exact {α : Type} {p q : α → Bool} : ∀ {l : List α}, (∀ x ∈ l, p x = true → q x = true) →
    l.countP p ≤ l.countP q ∧ (l.countP q = l.countP p ↔ ∀ x ∈ l, q x = true → p x = true)
  | [], _ => by simp
  | x :: l, h => by
    obtain ⟨h1, h2⟩ := countP_exact (p := p) (q := q) (l := l) fun y hy => h y (by simp [hy])
    have hx := h x (by simp)
    simp only [List.countP_cons, List.forall_mem_cons]
    rw [← h2]
    cases hp : p x <;> cases hq : q x <;> simp_all <;> omega

theorem shownCount_inj {m n : Nat} : shownCount m = shownCount n ↔ m = n := by
  unfold shownCount
  constructor
  · split <;> split <;> simp_all
  · rintro rfl; rfl

theorem shown_exact {α : Type} {p q : α → Bool} {l : List α} (hit : Bool) (h : ∀ x ∈ l, p x = true → q x = true) :
    (if hit = true then 1 else 0) + l.countP q = l.countP p ↔ hit = false ∧ ∀ x ∈ l, q x = true → p x = true := by
  obtain ⟨h1, h2⟩ := countP_exact h
  rw [← h2]
  cases hit <;> simp
  omega

/-- Counting the rows of the sheet "Columns". -/
theorem countP_columns_any (db : Database) (q : List PyCell → Bool) (g : Str → Str → Str → Bool)
    (hq : ∀ a b c r, q (.text a :: .text b :: .text c :: r) = g a b c) :
    (columnsSheet db).countP q = (if g c!"Database" c!"Schema" c!"Table" = true then 1 else 0) +
      (db.tables.flatMap (fun p => p.2.cols.map (fun _ => p.2))).countP (fun u => g db.name u.schema u.name) := by
  unfold columnsSheet
  rw [List.countP_cons, Nat.add_comm,
    show (columnsHeader.map PyCell.text) = .text c!"Database" :: .text c!"Schema" :: .text c!"Table" :: _ from rfl, hq]
  congr 1
  unfold Database.iter Dict.vals
  generalize db.tables = l
  induction l with
  | nil => rfl
  | cons p l ih =>
    simp only [List.map_cons, List.flatMap_cons, List.countP_append]
    rw [ih]
    congr 1
    rw [columnRows_eq, List.countP_map, List.countP_map]
    have : (q ∘ fun x : Column × Nat => [PyCell.text db.name, .text p.2.schema, .text p.2.name, .count (.int (x.2 + 1 : Nat)), .text x.1.name, .text x.1.type])
        = fun _ => g db.name p.2.schema p.2.name := by
      funext x
      exact hq _ _ _ _
    rw [this]
    cases hg : g db.name p.2.schema p.2.name with
    | false => simp [hg, Function.comp_def]
    | true => simp [hg, Function.comp_def, Table.iter, Dict.vals]

theorem compared_table {db : Database} {n : Str} {t : Table} (h : (n, t) ∈ db.tables) :
    t.schema ∈ comparedNames db ∧ t.name ∈ comparedNames db := by
  simp only [comparedNames, List.mem_append, List.mem_cons, List.mem_flatMap]
  exact ⟨.inl (.inl (.inr ⟨_, h, by simp⟩)), .inl (.inl (.inr ⟨_, h, by simp⟩))⟩

theorem compared_name (db : Database) : db.name ∈ comparedNames db := by simp [comparedNames]

theorem compared_fk {db : Database} {k : FK} (h : k ∈ allKeys db) : k.fromTable ∈ comparedNames db ∧ k.toTable ∈ comparedNames db := by
  simp only [comparedNames, List.mem_append, List.mem_cons, List.mem_flatMap]
  exact ⟨.inl (.inr ⟨_, h, by simp⟩), .inl (.inr ⟨_, h, by simp⟩)⟩

theorem compared_rel {db : Database} {k : Rel} (h : k ∈ allRels db) : k.fromTable ∈ comparedNames db ∧ k.toTable ∈ comparedNames db := by
  simp only [comparedNames, List.mem_append, List.mem_cons, List.mem_flatMap]
  exact ⟨.inr ⟨_, h, by simp⟩, .inr ⟨_, h, by simp⟩⟩

theorem mem_allKeys {db : Database} {n : Str} {t : Table} (h : (n, t) ∈ db.tables) {k : FK} (hk : k ∈ t.fks.vals) : k ∈ allKeys db :=
  List.mem_flatMap.2 ⟨_, h, hk⟩

theorem mem_allRels {db : Database} {n : Str} {t : Table} (h : (n, t) ∈ db.tables) {k : Rel} (hk : k ∈ t.rels.vals) : k ∈ allRels db :=
  List.mem_flatMap.2 ⟨_, h, hk⟩

/-- Names are compared as they should be. -/
theorem fits_name {P : Program} {db : Database} (hP : ComparesNames P db) (hc : CaseDistinct db) {n s : Str} (hn : n ∈ comparedNames db)
    (hs : s ∈ comparedNames db) : P n (.text s) = decide (s = n) ∧ P ('=' :: n) (.text s) = decide (s = n) := by
  have h := hP n hn s (List.mem_append_left _ hs)
  have e : (s.map Char.toLower = n.map Char.toLower) ↔ s = n := ⟨hc n hn s hs, fun e => by rw [e]⟩
  rw [h.1, h.2]
  simp only [e, and_self]

theorem shows_count {P : Program} {wb : List (Str × List (List PyCell))} {here sheet : Str} {col c : Char} {row n : Nat}
    (h : (rowsOf wb sheet).countP (fitsAt P ('=' :: textIn wb here c row) col) = n) :
    (Formula.unlessZero (.countIf sheet col c row)).shows P wb here = shownCount n := by
  simp only [Formula.shows, h, shownCount]
  cases n <;> simp

/-- The rows of the sheet "Columns" that belong to a table. -/
theorem countP_columns {P : Program} {db : Database} (hk : WellKeyed db) (hP : ComparesNames P db) (hc : CaseDistinct db) {n : Str} {t : Table}
    (ht : (n, t) ∈ db.tables) (q : List PyCell → Bool)
    (hq : ∀ a b c r, q (.text a :: .text b :: .text c :: r) = (P db.name (.text a) && P t.schema (.text b) && P t.name (.text c)))
    (hh : P t.name (.text c!"Table") = false) : (columnsSheet db).countP q = t.cols.length := by
  unfold columnsSheet
  rw [List.countP_cons_of_neg (by
    rw [show (columnsHeader.map PyCell.text) = .text c!"Database" :: .text c!"Schema" :: .text c!"Table" :: _ from rfl, hq, hh]; simp)]
  have hrow : ∀ m u, (m, u) ∈ db.tables → (columnRows db.name u 0 u.iter).countP q = if m = n then u.cols.length else 0 := by
    intro m u hu
    have key : ∀ p ∈ columnRows db.name u 0 u.iter, q p = decide (m = n) := by
      intro p hp
      rw [columnRows_eq, List.mem_map] at hp
      obtain ⟨x, -, rfl⟩ := hp
      rw [hq, (fits_name hP hc (compared_name db) (compared_name db)).1, (fits_name hP hc (compared_table ht).1 (compared_table hu).1).1,
        (fits_name hP hc (compared_table ht).2 (compared_table hu).2).1, ← hk.tableNames _ _ ht, ← hk.tableNames _ _ hu]
      by_cases e : m = n
      · subst e
        have : u = t := by
          have h1 := Dict.get?_of_mem hk.tables hu
          have h2 := Dict.get?_of_mem hk.tables ht
          rw [h1] at h2
          exact Option.some.inj h2
        simp [this]
      · simp [e]
    by_cases e : m = n
    · rw [if_pos e, List.countP_eq_length.2 (fun p hp => by rw [key p hp]; simp [e]), columnRows_eq]
      simp [Table.iter, Dict.vals]
    · rw [if_neg e, List.countP_eq_zero]
      intro p hp
      rw [key p hp]; simp [e]
  unfold Database.iter Dict.vals
  have hnd := hk.tables
  generalize db.tables = l at hrow ht hnd
  clear hk hP hc hq hh
  induction l with
  | nil => cases ht
  | cons p l ih =>
    simp only [List.map_cons, List.flatMap_cons, List.countP_append]
    simp only [List.map_cons, List.nodup_cons] at hnd
    rw [hrow p.1 p.2 (by simp)]
    rcases List.mem_cons.1 ht with e | hm
    · subst e
      rw [if_pos rfl]
      suffices h0 : ((l.map Prod.snd).flatMap (fun t => columnRows db.name t 0 t.iter)).countP q = 0 by simp only [h0]; rfl
      rw [List.countP_eq_zero]
      intro r hr
      simp only [List.mem_flatMap, List.mem_map] at hr
      obtain ⟨u, ⟨p, hp, rfl⟩, hr⟩ := hr
      have h := hrow p.1 p.2 (by simp [hp])
      rw [if_neg (fun e => hnd.1 (List.mem_map.2 ⟨p, hp, e⟩)), List.countP_eq_zero] at h
      exact h r hr
    · rw [if_neg (fun e => hnd.1 (List.mem_map.2 ⟨_, hm, e.symm⟩)), ih (fun m u hu => hrow m u (by simp [hu])) hm hnd.2]
      omega

end Verif
