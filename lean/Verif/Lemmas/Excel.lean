import Verif.Spec.Excel
import Verif.Lemmas.Dict
import Verif.Lemmas.Text
import Verif.Lemmas.Validator
import Verif.Lemmas.WellKeyed
import Mathlib.Tactic.ByContra
import Mathlib.Tactic.Tauto
/-
Lemmas on the workbook writer and reader.
-/

namespace Verif
open Spec

/-! ## Headers and cells -/

theorem headerIndex_snoc (l : List XCell) (x : XCell) (name : Str) :
    headerIndex (l ++ [x]) name = if x = .text name then some l.length else headerIndex l name := by
  simp [headerIndex, List.zipIdx_append]

theorem headerIndex_some_iff (name : Str) (h : List XCell) (i : Nat) :
    headerIndex h name = some i ↔ h[i]? = some (.text name) ∧ ∀ j, i < j → h[j]? ≠ some (.text name) := by
  induction h using snocInd with
  | nil => simp [headerIndex]
  | append_singleton l x ih =>
    rw [headerIndex_snoc]
    by_cases hx : x = .text name
    · subst hx
      simp only [if_true, Option.some.injEq]
      constructor
      · rintro rfl
        refine ⟨by simp, fun j hj => ?_⟩
        rw [List.getElem?_eq_none (by simp; omega)]; simp
      · rintro ⟨h1, h2⟩
        have hlt : i < (l ++ [XCell.text name]).length := by
          by_contra hc
          rw [List.getElem?_eq_none (by omega)] at h1; simp at h1
        simp only [List.length_append, List.length_singleton] at hlt
        by_contra hne
        exact h2 l.length (by omega) (by simp)
    · simp only [hx, if_false]
      rw [ih]
      have key : ∀ j : Nat, (l ++ [x])[j]? = some (XCell.text name) ↔ l[j]? = some (XCell.text name) := by
        intro j
        by_cases hj : j < l.length
        · rw [List.getElem?_append_left hj]
        · rw [List.getElem?_append_right (by omega), List.getElem?_eq_none (l := l) (by omega)]
          rcases Nat.eq_or_lt_of_le (Nat.le_of_not_lt hj) with e | e
          · subst e; simp [hx]
          · rw [List.getElem?_eq_none (by simp; omega)]
      simp only [ne_eq, key]

theorem headerIndex_none_iff (name : Str) (h : List XCell) : headerIndex h name = none ↔ XCell.text name ∉ h := by
  induction h using snocInd with
  | nil => simp [headerIndex]
  | append_singleton l x ih =>
    rw [headerIndex_snoc]
    by_cases hx : x = .text name
    · simp [hx]
    · simp [hx, ih, Ne.symm hx]

theorem cell_ok_iff (h row : List XCell) (col : Str) (v : XCell) : cell h row col = .ok v ↔ Under h row col v := by
  unfold cell Under
  cases hi : headerIndex h col with
  | none =>
    simp only [reduceCtorEq, false_iff, not_exists]
    rintro i ⟨h1, h2, _⟩
    rw [(headerIndex_some_iff col h i).2 ⟨h1, h2⟩] at hi
    simp at hi
  | some i =>
    simp only [Except.ok.injEq]
    constructor
    · rintro rfl
      obtain ⟨h1, h2⟩ := (headerIndex_some_iff col h i).1 hi
      exact ⟨i, h1, h2, by simp [List.getD_eq_getElem?_getD]⟩
    · rintro ⟨j, h1, h2, rfl⟩
      have := (headerIndex_some_iff col h j).2 ⟨h1, h2⟩
      rw [hi] at this
      obtain rfl := Option.some.inj this
      simp [List.getD_eq_getElem?_getD]

theorem cell_of_mem {h row : List XCell} {col : Str} (hc : XCell.text col ∈ h) : ∃ v, cell h row col = .ok v := by
  unfold cell
  cases hi : headerIndex h col with
  | none => exact absurd hc ((headerIndex_none_iff col h).1 hi)
  | some i => exact ⟨_, rfl⟩

/-! ## The shape -/

theorem required_eq : required = needed := rfl

theorem verify_fold (wb : Workbook) : ∀ (l : List (Str × List Str)) (b : Bool), (∀ p ∈ l, wb.get? p.1 ≠ some []) →
    ∃ r, l.foldlM (fun valid p => do
      let ok ← verifySheet wb p
      Except.ok (valid && ok)) b = .ok r ∧
      (r = true ↔ b = true ∧ ∀ p ∈ l, ∃ h rows, SheetIs wb p.1 h rows ∧ ∀ c ∈ p.2, XCell.text c ∈ h)
  | [], b, _ => ⟨b, rfl, by simp⟩
  | p :: l, b, hh => by
    have hp := hh p (by simp)
    have hs : ∃ ok, verifySheet wb p = .ok ok ∧
        (ok = true ↔ ∃ h rows, SheetIs wb p.1 h rows ∧ ∀ c ∈ p.2, XCell.text c ∈ h) := by
      unfold verifySheet SheetIs
      cases hg : wb.get? p.1 with
      | none => exact ⟨false, rfl, by simp⟩
      | some s =>
        cases s with
        | nil => exact absurd hg hp
        | cons h rows =>
          refine ⟨_, rfl, ?_⟩
          simp only [List.all_eq_true, List.contains_iff_mem, Option.some.injEq, List.cons.injEq]
          constructor
          · intro ha; exact ⟨h, rows, ⟨rfl, rfl⟩, ha⟩
          · rintro ⟨h', rows', ⟨rfl, rfl⟩, ha⟩; exact ha
    obtain ⟨ok, ho, hi⟩ := hs
    obtain ⟨r, hr, hri⟩ := verify_fold wb l (b && ok) (fun q hq => hh q (by simp [hq]))
    refine ⟨r, ?_, ?_⟩
    · rw [List.foldlM_cons]
      simp only [ho]
      exact hr
    · rw [hri]
      simp [hi, and_assoc]

theorem verifyFormat_spec {wb : Workbook} (hh : Headed wb) : ∃ r, verifyFormat wb = .ok r ∧ (r = true ↔ Shaped wb) := by
  obtain ⟨r, h1, h2⟩ := verify_fold wb required true hh
  exact ⟨r, h1, by rw [h2]; simp [Shaped, required_eq]⟩

theorem Spec.Shaped.headed {wb : Workbook} (h : Shaped wb) : Headed wb := by
  intro p hp e
  obtain ⟨_, _, hs, _⟩ := h p hp
  rw [SheetIs, e] at hs
  simp at hs

theorem readXls_shaped {wb : Workbook} (h : Shaped wb) : readXls wb = readDatabases wb := by
  obtain ⟨r, h1, h2⟩ := verifyFormat_spec h.headed
  unfold readXls
  rw [h1, h2.2 h]
  rfl

theorem readXls_misshaped {wb : Workbook} (hh : Headed wb) (h : ¬ Shaped wb) : readXls wb = .ok [] := by
  obtain ⟨r, h1, h2⟩ := verifyFormat_spec hh
  unfold readXls
  rw [h1]
  cases r with
  | true => exact absurd (h2.1 rfl) h
  | false => rfl

/-! ## Lists of names in a cell -/

theorem plainText_strip {s : Str} (h : plainText s = true) : strip s = s := by
  unfold plainText at h
  simp only [Bool.and_eq_true, decide_eq_true_eq] at h
  exact h.1.2

theorem strip_blank (s : Str) : strip (' ' :: s) = strip s := by
  simp [strip, lstrip, isSpace]

theorem splitC_joinS : ∀ (l : List Str), l ≠ [] → (∀ s ∈ l, ',' ∉ s) → (∀ s ∈ l, strip s = s) →
    (splitC ',' (joinS c!", " l)).map strip = l
  | [], h, _, _ => absurd rfl h
  | [a], _, h, hs => by
    simp [joinS, splitC_plain (h a (by simp)), hs a (by simp)]
  | a :: b :: l, _, h, hs => by
    have e : joinS c!", " (a :: b :: l) = a ++ ',' :: (' ' :: joinS c!", " (b :: l)) := by simp [joinS]
    have ih := splitC_joinS (b :: l) (by simp) (fun s q => h s (by simp [q])) (fun s q => hs s (by simp [q]))
    rw [e, splitC_cons (h a (by simp)), List.map_cons, hs a (by simp)]
    congr 1
    have hc : splitC ',' (' ' :: joinS c!", " (b :: l)) = consHead ' ' (splitC ',' (joinS c!", " (b :: l))) := by
      conv => lhs; unfold splitC
      simp
    rw [hc]
    cases hq : splitC ',' (joinS c!", " (b :: l)) with
    | nil => exact absurd hq (splitC_ne_nil _ _)
    | cons x xs =>
      rw [hq] at ih
      simpa [consHead, strip_blank] using ih

theorem splitNames_list {l : List Str} (hne : l ≠ []) (h : CellList l) : splitNames (listToString l false) = l := by
  unfold splitNames listToString
  exact splitC_joinS l hne (fun s q => (h.1 s q).2.1) (fun s q => (h.1 s q).2.2)

theorem plainText_list {l : List Str} (h : CellList l) : plainText (listToString l false) = true := by
  have := h.2
  rwa [← joinS_intersperse] at this

theorem listToString_nil : listToString [] false = [] := rfl

theorem listToString_ne {l : List Str} (hne : l ≠ []) (h : CellList l) : listToString l false ≠ [] := by
  intro e
  have := splitNames_list hne h
  rw [e] at this
  have h1 : l = [[]] := by rw [← this]; decide
  have := (h.1 [] (by simp [h1])).1
  exact this rfl

/-! ## What is written, as it is read -/

theorem stored_text {other : PyCell → XCell} {s : Str} (h : plainText s = true) : stored other (.text s) = .text s := by
  simp [stored, h]

theorem stored_header (other : PyCell → XCell) {l : List Str} (h : ∀ s ∈ l, plainText s = true) :
    (l.map PyCell.text).map (stored other) = l.map XCell.text := by
  rw [List.map_map]
  exact List.map_congr_left (fun s q => stored_text (h s q))

theorem columnsHeader_plain : ∀ s ∈ columnsHeader, plainText s = true := by decide
theorem tablesHeader_plain : ∀ s ∈ tablesHeader, plainText s = true := by decide
theorem fksHeader_plain : ∀ s ∈ fksHeader, plainText s = true := by decide
theorem relsHeader_plain : ∀ s ∈ relsHeader, plainText s = true := by decide

theorem columnRows_eq (db : Str) (t : Table) : ∀ (cs : List Column) (i : Nat),
    columnRows db t i cs = (cs.zipIdx i).map (fun p => [.text db, .text t.schema, .text t.name, .count (.int (p.2 + 1 : Nat)),
      .text p.1.name, .text p.1.type])
  | [], _ => rfl
  | c :: cs, i => by rw [columnRows, columnRows_eq db t cs (i + 1)]; rfl

/-- The cells of a shard key in the sheet "Tables". -/
def shardCells : Option ShardKey → List PyCell
  | some k => [.text (listToString k.keys false), .count k.number]
  | none => [.text [], .text []]

/-- A row of the sheet "Tables". -/
def tableRow (db : Str) (t : Table) (row : Nat) : List PyCell :=
  [.text db, .text t.schema, .text t.name, .text c!"daily", .text c!"partial", .text [], .text (lookupFormula row),
    .text (listToString t.pk false)] ++ shardCells t.shard ++
   [.text [], .text (countFormula c!"Foreign Keys" c!"D" row), .text (countFormula c!"Foreign Keys" c!"F" row),
    .text (countFormula c!"Relationships" c!"D" row), .text (countFormula c!"Relationships" c!"E" row)]

theorem tableRows_eq (db : Str) : ∀ (ts : List Table) (i : Nat),
    tableRows db i ts = (ts.zipIdx i).map (fun p => tableRow db p.1 (p.2 + 1))
  | [], _ => rfl
  | t :: ts, i => by
    rw [tableRows, tableRows_eq db ts (i + 1)]
    simp only [List.zipIdx_cons, List.map_cons, tableRow]
    cases t.shard <;> rfl

/-! ## Reading the written sheet "Tables" -/

/-- What comes back of a shard key. -/
def throughShard : Option ShardKey → Option ShardKey
  | none => none
  | some k => if k.keys = [] then none else
    match k.number with
    | .int n => if n = 0 then none else some { k with number := .flt n }
    | .flt q => if q = 0 then none else some k
    | .text s => if s = [] then none else some k

/-- What comes back of a list of names. -/
def throughKeys (l : List Str) : List Str := if l = [] then [[]] else l

/-- What comes back of a foreign key. -/
def throughFK (k : FK) : FK := { k with fromKeys := throughKeys k.fromKeys, toKeys := throughKeys k.toKeys }

/-- What comes back of a relationship. -/
def throughRel (t : Str) (r : Rel) : Rel := { r with name := relName t r.toTable }

/-- What comes back of a table. -/
def through (t : Table) : Table :=
  { t with shard := throughShard t.shard, fks := t.fks.map (fun p => (p.1, throughFK p.2)),
           rels := t.rels.vals.foldl (fun e r => Dict.set e (throughRel t.name r).name (throughRel t.name r)) [] }

/-- What the row of the sheet "Tables" says. -/
def bare (t : Table) : Table := { through t with cols := [], fks := [], rels := [] }

theorem rowShard_written {other : PyCell → XCell} {k : ShardKey} (hk : CellList k.keys) (hc : HoldCount k.number) :
    rowShard (strip (listToString k.keys false)) (stored other (.count k.number)) = throughShard (some k) := by
  by_cases hne : k.keys = []
  · rw [hne]
    simp only [throughShard, hne, if_true]
    rfl
  rw [plainText_strip (plainText_list hk), rowShard, if_neg (listToString_ne hne hk), splitNames_list hne hk]
  obtain ⟨ks, nb⟩ := k
  simp only at hne hc
  cases nb with
  | int n =>
    have hc : n.natAbs ≤ 2 ^ 53 := hc
    by_cases h0 : n = 0 <;> simp [stored, hc, XCell.count, throughShard, hne, h0]
  | flt q =>
    by_cases h0 : q = 0 <;> simp [stored, XCell.count, throughShard, hne, h0]
  | text s =>
    have hc : plainText s = true := hc
    have h1 : plainText [] = true := by decide
    by_cases h0 : s = [] <;> simp [stored, h1, hc, XCell.count, throughShard, hne, h0]

theorem tables_cells (a b c d e f g h i j k l m n o : XCell) :
    let hd := tablesHeader.map XCell.text
    let r := [a, b, c, d, e, f, g, h, i, j, k, l, m, n, o]
    cell hd r c!"Database" = .ok a ∧ cell hd r c!"Schema" = .ok b ∧ cell hd r c!"Table" = .ok c ∧ cell hd r c!"Primary Key" = .ok h ∧
    cell hd r c!"Shard Key" = .ok i ∧ cell hd r c!"# Shards" = .ok j := by
  have h1 : headerIndex (tablesHeader.map XCell.text) c!"Database" = some 0 := by decide
  have h2 : headerIndex (tablesHeader.map XCell.text) c!"Schema" = some 1 := by decide
  have h3 : headerIndex (tablesHeader.map XCell.text) c!"Table" = some 2 := by decide
  have h4 : headerIndex (tablesHeader.map XCell.text) c!"Primary Key" = some 7 := by decide
  have h5 : headerIndex (tablesHeader.map XCell.text) c!"Shard Key" = some 8 := by decide
  have h6 : headerIndex (tablesHeader.map XCell.text) c!"# Shards" = some 9 := by decide
  simp only [cell, h1, h2, h3, h4, h5, h6]
  exact ⟨rfl, rfl, rfl, rfl, rfl, rfl⟩

theorem pk_written {l : List Str} (h : CellList l) :
    (match (if strip (listToString l false) = [] then none else some (KeyArg.many (splitNames (strip (listToString l false))))) with
      | none => []
      | some k => k.toList) = l := by
  by_cases hl : l = []
  · subst hl; rfl
  · rw [plainText_strip (plainText_list h), if_neg (listToString_ne hl h), splitNames_list hl h]
    rfl

theorem plain_nil : plainText [] = true := by decide

theorem rowTable_written {other : PyCell → XCell} {d : Str} {t : Table} (ht : HoldTable t) (row : Nat) :
    rowTable (tablesHeader.map XCell.text) ((tableRow d t row).map (stored other)) = .ok (bare t) := by
  have hpk := stored_text (other := other) (plainText_list ht.pk)
  have hn := stored_text (other := other) ht.name
  have hs := stored_text (other := other) ht.schema
  have h0 := stored_text (other := other) plain_nil
  have hp := pk_written ht.pk
  cases hsh : t.shard with
  | none =>
    have e : (tableRow d t row).map (stored other) = [stored other (.text d), .text t.schema, .text t.name, stored other (.text c!"daily"),
        stored other (.text c!"partial"), .text [], stored other (.text (lookupFormula row)), .text (listToString t.pk false), .text [], .text [],
        .text [], stored other (.text (countFormula c!"Foreign Keys" c!"D" row)), stored other (.text (countFormula c!"Foreign Keys" c!"F" row)),
        stored other (.text (countFormula c!"Relationships" c!"D" row)), stored other (.text (countFormula c!"Relationships" c!"E" row))] := by
      simp only [tableRow, hsh, shardCells, List.map_append, List.map_cons, List.map_nil, hpk, hn, hs, h0]
      rfl
    rw [e]
    obtain ⟨c1, c2, c3, c4, c5, c6⟩ := tables_cells (stored other (.text d)) (.text t.schema) (.text t.name) (stored other (.text c!"daily"))
        (stored other (.text c!"partial")) (.text []) (stored other (.text (lookupFormula row))) (.text (listToString t.pk false)) (.text []) (.text [])
        (.text []) (stored other (.text (countFormula c!"Foreign Keys" c!"D" row))) (stored other (.text (countFormula c!"Foreign Keys" c!"F" row)))
        (stored other (.text (countFormula c!"Relationships" c!"D" row))) (stored other (.text (countFormula c!"Relationships" c!"E" row)))
    simp only [rowTable, c1, c2, c3, c4, c5, c6, bind, Except.bind, XCell.str, XCell.name, mkTable]
    rw [Except.ok.injEq]
    simp only [bare, through, hsh, throughShard, Table.mk.injEq, true_and]
    refine ⟨?_, rfl, trivial⟩
    exact hp
  | some k =>
    obtain ⟨k2, k3⟩ := ht.shard k hsh
    have hkk := stored_text (other := other) (plainText_list k2)
    have e : (tableRow d t row).map (stored other) = [stored other (.text d), .text t.schema, .text t.name, stored other (.text c!"daily"),
        stored other (.text c!"partial"), .text [], stored other (.text (lookupFormula row)), .text (listToString t.pk false),
        .text (listToString k.keys false), stored other (.count k.number),
        .text [], stored other (.text (countFormula c!"Foreign Keys" c!"D" row)), stored other (.text (countFormula c!"Foreign Keys" c!"F" row)),
        stored other (.text (countFormula c!"Relationships" c!"D" row)), stored other (.text (countFormula c!"Relationships" c!"E" row))] := by
      simp only [tableRow, hsh, shardCells, List.map_append, List.map_cons, List.map_nil, hpk, hn, hs, h0, hkk]
      rfl
    rw [e]
    obtain ⟨c1, c2, c3, c4, c5, c6⟩ := tables_cells (stored other (.text d)) (.text t.schema) (.text t.name) (stored other (.text c!"daily"))
        (stored other (.text c!"partial")) (.text []) (stored other (.text (lookupFormula row))) (.text (listToString t.pk false))
        (.text (listToString k.keys false)) (stored other (.count k.number))
        (.text []) (stored other (.text (countFormula c!"Foreign Keys" c!"D" row))) (stored other (.text (countFormula c!"Foreign Keys" c!"F" row)))
        (stored other (.text (countFormula c!"Relationships" c!"D" row))) (stored other (.text (countFormula c!"Relationships" c!"E" row)))
    simp only [rowTable, c1, c2, c3, c4, c5, c6, bind, Except.bind, XCell.str, XCell.name, mkTable]
    rw [Except.ok.injEq]
    simp only [bare, through, hsh, Table.mk.injEq, true_and]
    exact ⟨hp, rowShard_written k2 k3, trivial⟩

theorem database_written {other : PyCell → XCell} {d : Str} (hd : plainText d = true) (t : Table) (row : Nat) :
    cell (tablesHeader.map XCell.text) ((tableRow d t row).map (stored other)) c!"Database" = .ok (.text d) := by
  have h1 : headerIndex (tablesHeader.map XCell.text) c!"Database" = some 0 := by decide
  simp only [cell, h1, tableRow, List.cons_append, List.map_cons, stored_text hd]
  rfl

theorem readTableRow_written {other : PyCell → XCell} {d : Str} {t : Table} (hd : plainText d = true) (hne : d ≠ []) (ht : HoldTable t)
    (row : Nat) (dbs : Dict Database) :
    readTableRow (tablesHeader.map XCell.text) dbs ((tableRow d t row).map (stored other)) =
      .ok (dbs.set d (((dbs.get? d).getD (Database.empty d)).addTable (bare t))) := by
  simp only [readTableRow, database_written hd, rowTable_written ht, bind, Except.bind, XCell.name, XCell.text.injEq, hne, if_false]

theorem readTables_written {other : PyCell → XCell} {d : Str} (hd : plainText d = true) (hne : d ≠ []) :
    ∀ (ts : List Table) (i : Nat) (D : Database), (∀ t ∈ ts, HoldTable t) →
    ((ts.zipIdx i).map (fun p => (tableRow d p.1 (p.2 + 1)).map (stored other))).foldlM (readTableRow (tablesHeader.map XCell.text)) [(d, D)] =
      .ok [(d, (ts.map bare).foldl Database.addTable D)]
  | [], _, _, _ => rfl
  | t :: ts, i, D, h => by
    rw [List.zipIdx_cons, List.map_cons, List.foldlM_cons, readTableRow_written hd hne (h t (by simp))]
    have e : Dict.set [(d, D)] d (((Dict.get? [(d, D)] d).getD (Database.empty d)).addTable (bare t)) = [(d, D.addTable (bare t))] := by
      simp [Dict.set, Dict.get?]
    rw [e]
    exact readTables_written hd hne ts (i + 1) _ (fun u hu => h u (by simp [hu]))

theorem readTables_written_nil {other : PyCell → XCell} {d : Str} (hd : plainText d = true) (hne : d ≠ []) (ts : List Table) (hts : ts ≠ [])
    (i : Nat) (h : ∀ t ∈ ts, HoldTable t) :
    ((ts.zipIdx i).map (fun p => (tableRow d p.1 (p.2 + 1)).map (stored other))).foldlM (readTableRow (tablesHeader.map XCell.text)) [] =
      .ok [(d, (ts.map bare).foldl Database.addTable (Database.empty d))] := by
  cases ts with
  | nil => exact absurd rfl hts
  | cons t ts =>
    rw [List.zipIdx_cons, List.map_cons, List.foldlM_cons, readTableRow_written hd hne (h t (by simp))]
    exact readTables_written hd hne ts (i + 1) _ (fun u hu => h u (by simp [hu]))

/-- Adding tables with new names appends them. -/
theorem tables_addTables : ∀ (ts : List Table) (D : Database), (D.tables.keys ++ ts.map (·.name)).Nodup →
    (ts.foldl Database.addTable D).tables = D.tables ++ ts.map (fun t => (t.name, t))
  | [], D, _ => by simp
  | t :: ts, D, h => by
    have hn : t.name ∉ D.tables.keys := by
      intro hc
      exact (List.nodup_append.1 h).2.2 _ hc _ (by simp) rfl
    have e : (D.addTable t).tables = D.tables ++ [(t.name, t)] := Dict.set_of_not_mem _ hn
    rw [List.foldl_cons, tables_addTables ts]
    · rw [e]; simp
    · rw [e]
      have h2 : D.tables.keys ++ (t :: ts).map (·.name) = Dict.keys (D.tables ++ [(t.name, t)]) ++ ts.map (·.name) := by
        simp
      rwa [← h2]

theorem name_addTables : ∀ (ts : List Table) (D : Database), (ts.foldl Database.addTable D).name = D.name
  | [], _ => rfl
  | t :: ts, D => by rw [List.foldl_cons, name_addTables ts]; rfl

/-! ## Reading the other written sheets -/

theorem getTable_mid {D : Database} {pre post : Dict Table} {n : Str} {u : Table} (h : D.tables = pre ++ (n, u) :: post) (hn : n ∉ pre.keys) :
    D.getTable n = some u := by
  unfold Database.getTable
  rw [h]
  clear h
  induction pre with
  | nil => simp [Dict.get?]
  | cons p pre ih =>
    simp only [Dict.keys_cons, List.mem_cons, not_or] at hn
    rw [List.cons_append, Dict.get?_cons, if_neg (Ne.symm hn.1)]
    exact ih hn.2

theorem map_update_absent {n : Str} {f : Table → Table} {d : Dict Table} (h : n ∉ d.keys) :
    d.map (fun p => if p.1 = n then (p.1, f p.2) else p) = d := by
  rw [show d = d.map id by simp]
  rw [List.map_map]
  apply List.map_congr_left
  intro p hp
  have : p.1 ≠ n := fun e => h (by rw [← e]; exact List.mem_map_of_mem hp)
  simp [this]

theorem updateTable_mid {D : Database} {pre post : Dict Table} {n : Str} {u : Table} (f : Table → Table)
    (h : D.tables = pre ++ (n, u) :: post) (hn : n ∉ pre.keys) (hn2 : n ∉ post.keys) :
    D.updateTable n f = { D with tables := pre ++ (n, f u) :: post } := by
  unfold Database.updateTable
  rw [h, List.map_append, List.map_cons, map_update_absent hn, map_update_absent hn2]
  simp

/-- Rows that all change one table. -/
theorem fold_one {ι : Type} {d : Str} {n : Str} {step : Dict Database → List XCell → Except PyErr (Dict Database)}
    {r : ι → List XCell} {miss : ι → Dict Database → Except PyErr (Dict Database)} {f : ι → Table → Except PyErr Table} {g : ι → Table → Table} :
    ∀ (xs : List ι) (D : Database) (pre post : Dict Table) (u : Table),
    (∀ x ∈ xs, ∀ dbs, step dbs (r x) = onTable dbs (.text d) (.text n) (miss x dbs) (f x)) →
    (∀ x ∈ xs, ∀ u : Table, u.name = n → f x u = .ok (g x u) ∧ (g x u).name = n) →
    D.tables = pre ++ (n, u) :: post → n ∉ pre.keys → n ∉ post.keys → u.name = n →
    (xs.map r).foldlM step [(d, D)] = .ok [(d, { D with tables := pre ++ (n, xs.foldl (fun u x => g x u) u) :: post })]
  | [], D, pre, post, u, _, _, h, _, _, _ => by
    simp only [List.map_nil, List.foldlM_nil, List.foldl_nil, ← h]
    rfl
  | x :: xs, D, pre, post, u, hs, hf, h, h1, h2, hu => by
    obtain ⟨f1, f2⟩ := hf x (by simp) u hu
    rw [List.map_cons, List.foldlM_cons, hs x (by simp)]
    have e : onTable [(d, D)] (.text d) (.text n) (miss x [(d, D)]) (f x) =
        .ok [(d, { D with tables := pre ++ (n, g x u) :: post })] := by
      simp only [onTable, Dict.get?, if_true, getTable_mid h h1, f1, bind, Except.bind, Dict.set]
      rw [updateTable_mid _ h h1 h2]
    rw [e]
    exact fold_one xs { D with tables := pre ++ (n, g x u) :: post } pre post (g x u) (fun y hy => hs y (by simp [hy]))
      (fun y hy => hf y (by simp [hy])) rfl h1 h2 f2

/-- A sheet with rows for every table. -/
theorem fold_all {ι : Type} {d : Str} {step : Dict Database → List XCell → Except PyErr (Dict Database)} {items : Table → List ι}
    {r : Table → ι → List XCell} {miss : ι → Dict Database → Except PyErr (Dict Database)} {f : Table → ι → Table → Except PyErr Table}
    {g : Table → ι → Table → Table} {b : Table → Table} (hb : ∀ t, (b t).name = t.name) :
    ∀ (ts : List Table) (D : Database) (pre : Dict Table),
    (∀ t ∈ ts, ∀ x ∈ items t, ∀ dbs, step dbs (r t x) = onTable dbs (.text d) (.text t.name) (miss x dbs) (f t x)) →
    (∀ t ∈ ts, ∀ x ∈ items t, ∀ u : Table, u.name = t.name → f t x u = .ok (g t x u) ∧ (g t x u).name = t.name) →
    D.tables = pre ++ ts.map (fun t => (t.name, b t)) → (pre.keys ++ ts.map (·.name)).Nodup →
    (ts.flatMap (fun t => (items t).map (r t))).foldlM step [(d, D)] =
      .ok [(d, { D with tables := pre ++ ts.map (fun t => (t.name, (items t).foldl (fun u x => g t x u) (b t))) })]
  | [], D, pre, _, _, h, _ => by
    simp only [List.flatMap_nil, List.foldlM_nil, List.map_nil, List.append_nil] at h ⊢
    rw [← h]
    rfl
  | t :: ts, D, pre, hs, hf, h, hn => by
    have hnp : t.name ∉ pre.keys := by
      intro hc
      exact (List.nodup_append.1 hn).2.2 _ hc _ (by simp) rfl
    have hnt : t.name ∉ Dict.keys (ts.map (fun t => (t.name, b t))) := by
      have := (List.nodup_append.1 hn).2.1
      rw [List.map_cons, List.nodup_cons] at this
      simpa [Dict.keys, Function.comp_def] using this.1
    have one := fold_one (items t) D pre (ts.map (fun t : Table => (t.name, b t))) (b t) (hs t (by simp)) (hf t (by simp)) h hnp hnt (hb t)
    rw [List.flatMap_cons, List.foldlM_append, one]
    simp only [bind, Except.bind]
    have all := fold_all hb ts { D with tables := pre ++ (t.name, (items t).foldl (fun u x => g t x u) (b t)) :: ts.map (fun t => (t.name, b t)) }
      (pre ++ [(t.name, (items t).foldl (fun u x => g t x u) (b t))])
      (fun u hu => hs u (by simp [hu])) (fun u hu => hf u (by simp [hu])) (by simp) (by simpa using hn)
    rw [all]
    simp

theorem columns_cells (a b c d e f : XCell) :
    let hd := columnsHeader.map XCell.text
    let r := [a, b, c, d, e, f]
    cell hd r c!"Database" = .ok a ∧ cell hd r c!"Table" = .ok c ∧ cell hd r c!"Name" = .ok e ∧ cell hd r c!"Type" = .ok f := by
  have h1 : headerIndex (columnsHeader.map XCell.text) c!"Database" = some 0 := by decide
  have h3 : headerIndex (columnsHeader.map XCell.text) c!"Table" = some 2 := by decide
  have h4 : headerIndex (columnsHeader.map XCell.text) c!"Name" = some 4 := by decide
  have h5 : headerIndex (columnsHeader.map XCell.text) c!"Type" = some 5 := by decide
  simp only [cell, h1, h3, h4, h5]
  exact ⟨rfl, rfl, rfl, rfl⟩

theorem fks_cells (a b c d e f g : XCell) :
    let hd := fksHeader.map XCell.text
    let r := [a, b, c, d, e, f, g]
    cell hd r c!"Name" = .ok a ∧ cell hd r c!"Database" = .ok b ∧ cell hd r c!"From Table" = .ok d ∧ cell hd r c!"From Columns" = .ok e ∧
    cell hd r c!"To Table" = .ok f ∧ cell hd r c!"To Columns" = .ok g := by
  have h1 : headerIndex (fksHeader.map XCell.text) c!"Name" = some 0 := by decide
  have h2 : headerIndex (fksHeader.map XCell.text) c!"Database" = some 1 := by decide
  have h3 : headerIndex (fksHeader.map XCell.text) c!"From Table" = some 3 := by decide
  have h4 : headerIndex (fksHeader.map XCell.text) c!"From Columns" = some 4 := by decide
  have h5 : headerIndex (fksHeader.map XCell.text) c!"To Table" = some 5 := by decide
  have h6 : headerIndex (fksHeader.map XCell.text) c!"To Columns" = some 6 := by decide
  simp only [cell, h1, h2, h3, h4, h5, h6]
  exact ⟨rfl, rfl, rfl, rfl, rfl, rfl⟩

theorem rels_cells (a b c d e f : XCell) :
    let hd := relsHeader.map XCell.text
    let r := [a, b, c, d, e, f]
    cell hd r c!"Database" = .ok b ∧ cell hd r c!"From Table" = .ok d ∧ cell hd r c!"To Table" = .ok e ∧ cell hd r c!"Conditions" = .ok f := by
  have h2 : headerIndex (relsHeader.map XCell.text) c!"Database" = some 1 := by decide
  have h3 : headerIndex (relsHeader.map XCell.text) c!"From Table" = some 3 := by decide
  have h4 : headerIndex (relsHeader.map XCell.text) c!"To Table" = some 4 := by decide
  have h5 : headerIndex (relsHeader.map XCell.text) c!"Conditions" = some 5 := by decide
  simp only [cell, h2, h3, h4, h5]
  exact ⟨rfl, rfl, rfl, rfl⟩

theorem mkColumn_valid {n ty : Str} (h : ty ∈ validTypes ∨ Varchar ty) : mkColumn (some n) (some ty) = .ok { name := n, type := ty } := by
  unfold mkColumn
  have : ¬ (¬ validTypes.contains ty ∧ ¬ startsWith ty c!"VARCHAR") := by
    rintro ⟨h1, h2⟩
    rcases h with h | ⟨rest, rfl⟩
    · exact h1 (by simpa using h)
    · exact h2 (by rw [startsWith, List.isPrefixOf_iff_prefix]; exact List.prefix_append _ _)
  simp only [if_neg this]

/-- Putting the values of a dictionary one by one, each changed, into an empty one changes the values of the dictionary. -/
theorem refill {α : Type} {name : α → Str} (f : α → α) : ∀ (d e : Dict α), (∀ k v, (k, v) ∈ d → k = name v) → (e.keys ++ d.keys).Nodup →
    d.vals.foldl (fun e v => e.set (name v) (f v)) e = e ++ d.map (fun p => (p.1, f p.2))
  | [], e, _, _ => by simp
  | (k, v) :: d, e, hn, hd => by
    obtain rfl := hn k v (by simp)
    have hne : name v ∉ e.keys := by
      intro hc
      exact (List.nodup_append.1 hd).2.2 _ hc _ (by simp) rfl
    rw [Dict.vals_cons, List.foldl_cons, Dict.set_of_not_mem _ hne, refill f d]
    · simp
    · intro k2 v2 h2; exact hn k2 v2 (by simp [h2])
    · simpa using hd

/-- The table with the columns added. -/
theorem addColumns_fold : ∀ (cs : List (Column × Nat)) (t : Table),
    cs.foldl (fun u x => u.addColumn x.1) t = { t with cols := (cs.map (·.1)).foldl (fun e v => Dict.set e v.name v) t.cols }
  | [], t => rfl
  | c :: cs, t => by rw [List.foldl_cons, addColumns_fold cs]; rfl

theorem addFKs_fold : ∀ (ks : List FK) (t : Table),
    ks.foldl (fun u x => u.addForeignKeyObj (throughFK x)) t = { t with fks := ks.foldl (fun e v => Dict.set e v.name (throughFK v)) t.fks }
  | [], t => rfl
  | c :: cs, t => by rw [List.foldl_cons, addFKs_fold cs]; rfl

theorem addRels_fold (n : Str) : ∀ (ks : List Rel) (t : Table),
    ks.foldl (fun u x => u.addRelationshipObj (throughRel n x)) t =
      { t with rels := ks.foldl (fun e v => Dict.set e (throughRel n v).name (throughRel n v)) t.rels }
  | [], t => rfl
  | c :: cs, t => by rw [List.foldl_cons, addRels_fold n cs]; rfl

/-- The row of a column as read. -/
def columnCells (other : PyCell → XCell) (d : Str) (t : Table) (p : Column × Nat) : List XCell :=
  [stored other (.text d), stored other (.text t.schema), stored other (.text t.name), stored other (.count (.int (p.2 + 1 : Nat))),
    stored other (.text p.1.name), stored other (.text p.1.type)]

/-- The row of a foreign key as read. -/
def fkCells (other : PyCell → XCell) (d : Str) (t : Table) (k : FK) : List XCell :=
  [stored other (.text k.name), stored other (.text d), stored other (.text t.schema), stored other (.text k.fromTable),
    stored other (.text (listToString k.fromKeys false)), stored other (.text k.toTable), stored other (.text (listToString k.toKeys false))]

/-- The row of a relationship as read. -/
def relCells (other : PyCell → XCell) (d : Str) (t : Table) (r : Rel) : List XCell :=
  [stored other (.text r.name), stored other (.text d), stored other (.text t.schema), stored other (.text r.fromTable),
    stored other (.text r.toTable), stored other (.text r.conditions)]

theorem readColumnRow_written {other : PyCell → XCell} {d : Str} (hd : plainText d = true) {t : Table} (ht : plainText t.name = true)
    (p : Column × Nat) (dbs : Dict Database) :
    readColumnRow (columnsHeader.map XCell.text) dbs (columnCells other d t p) =
      onTable dbs (.text d) (.text t.name) (.ok dbs) (fun u => do
        let c ← rowColumn (columnsHeader.map XCell.text) (columnCells other d t p)
        .ok (u.addColumn c)) := by
  obtain ⟨c1, c2, _, _⟩ := columns_cells (stored other (.text d)) (stored other (.text t.schema)) (stored other (.text t.name))
    (stored other (.count (.int (p.2 + 1 : Nat)))) (stored other (.text p.1.name)) (stored other (.text p.1.type))
  simp only [readColumnRow, columnCells, c1, c2, bind, Except.bind]
  rw [stored_text hd, stored_text ht]

theorem rowColumn_written {other : PyCell → XCell} {d : Str} {t : Table} {p : Column × Nat} (h1 : plainText p.1.name = true)
    (h2 : plainText p.1.type = true) (h3 : p.1.type ∈ validTypes ∨ Varchar p.1.type) :
    rowColumn (columnsHeader.map XCell.text) (columnCells other d t p) = .ok p.1 := by
  obtain ⟨_, _, c3, c4⟩ := columns_cells (stored other (.text d)) (stored other (.text t.schema)) (stored other (.text t.name))
    (stored other (.count (.int (p.2 + 1 : Nat)))) (stored other (.text p.1.name)) (stored other (.text p.1.type))
  simp only [rowColumn, columnCells, c3, c4, bind, Except.bind]
  rw [stored_text h1, stored_text h2]
  simp only [XCell.str, XCell.name, mkColumn_valid h3]

theorem readFKRow_written {other : PyCell → XCell} {d : Str} (hd : plainText d = true) {t : Table} (ht : plainText t.name = true)
    {k : FK} (hk : k.fromTable = t.name) (dbs : Dict Database) :
    readFKRow (fksHeader.map XCell.text) dbs (fkCells other d t k) =
      onTable dbs (.text d) (.text t.name) (.ok dbs) (rowFK (fksHeader.map XCell.text) (fkCells other d t k)) := by
  obtain ⟨_, c1, c2, _, _, _⟩ := fks_cells (stored other (.text k.name)) (stored other (.text d)) (stored other (.text t.schema))
    (stored other (.text k.fromTable)) (stored other (.text (listToString k.fromKeys false))) (stored other (.text k.toTable))
    (stored other (.text (listToString k.toKeys false)))
  simp only [readFKRow, fkCells, c1, c2, bind, Except.bind]
  rw [stored_text hd, hk, stored_text ht]

theorem splitNames_any {l : List Str} (h : CellList l) : splitNames (listToString l false) = throughKeys l := by
  by_cases hl : l = []
  · subst hl; rfl
  · rw [splitNames_list hl h, throughKeys, if_neg hl]

theorem rowFK_written {other : PyCell → XCell} {d : Str} {t : Table} {k : FK} (h1 : plainText k.name = true) (h2 : k.fromTable = t.name)
    (h3 : plainText k.toTable = true) (h5 : k.fromKeys.length = k.toKeys.length) (h6 : CellList k.fromKeys)
    (h7 : CellList k.toKeys) (u : Table) (hu : u.name = t.name) :
    rowFK (fksHeader.map XCell.text) (fkCells other d t k) u = .ok (u.addForeignKeyObj (throughFK k)) := by
  have h5 : (throughKeys k.fromKeys).length = (throughKeys k.toKeys).length := by
    unfold throughKeys
    by_cases hf : k.fromKeys = []
    · have ht : k.toKeys = [] := by rw [hf] at h5; exact List.length_eq_zero_iff.1 h5.symm
      rw [if_pos hf, if_pos ht]
    · have ht : k.toKeys ≠ [] := by intro e; rw [e] at h5; exact hf (List.length_eq_zero_iff.1 h5)
      rw [if_neg hf, if_neg ht, h5]
  obtain ⟨c1, _, _, c2, c3, c4⟩ := fks_cells (stored other (.text k.name)) (stored other (.text d)) (stored other (.text t.schema))
    (stored other (.text k.fromTable)) (stored other (.text (listToString k.fromKeys false))) (stored other (.text k.toTable))
    (stored other (.text (listToString k.toKeys false)))
  simp only [rowFK, fkCells, c1, c2, c3, c4, bind, Except.bind]
  rw [stored_text h1, stored_text h3, stored_text (plainText_list h6), stored_text (plainText_list h7)]
  simp only [XCell.str, XCell.name, splitNames_any h6, splitNames_any h7, h5, ne_eq, not_true_eq_false, if_false,
    Table.addForeignKey, mkFK, KeyArg.toList, List.nil_append, bind, Except.bind, hu, ← h2]
  rfl

theorem readRelRow_written {other : PyCell → XCell} {d : Str} (hd : plainText d = true) {t : Table} (ht : plainText t.name = true)
    {r : Rel} (hr : r.fromTable = t.name) (dbs : Dict Database) :
    readRelRow (relsHeader.map XCell.text) dbs (relCells other d t r) =
      onTable dbs (.text d) (.text t.name) (.error .attribute) (rowRel (relsHeader.map XCell.text) (relCells other d t r)) := by
  obtain ⟨c1, c2, _, _⟩ := rels_cells (stored other (.text r.name)) (stored other (.text d)) (stored other (.text t.schema))
    (stored other (.text r.fromTable)) (stored other (.text r.toTable)) (stored other (.text r.conditions))
  simp only [readRelRow, relCells, c1, c2, bind, Except.bind]
  rw [stored_text hd, hr, stored_text ht]

theorem rowRel_written {other : PyCell → XCell} {d : Str} {t : Table} {r : Rel}
    (h2 : r.fromTable = t.name) (h3 : plainText r.toTable = true) (h4 : plainText r.conditions = true) (u : Table) (hu : u.name = t.name) :
    rowRel (relsHeader.map XCell.text) (relCells other d t r) u = .ok (u.addRelationshipObj (throughRel t.name r)) := by
  obtain ⟨_, _, c1, c2⟩ := rels_cells (stored other (.text r.name)) (stored other (.text d)) (stored other (.text t.schema))
    (stored other (.text r.fromTable)) (stored other (.text r.toTable)) (stored other (.text r.conditions))
  simp only [rowRel, relCells, c1, c2, bind, Except.bind]
  rw [stored_text h3, stored_text h4]
  simp only [XCell.name, Table.addRelationship, mkRel, bind, Except.bind, hu]
  rw [← h2]
  rfl

/-! ## The way through the workbook -/

theorem saved_shape (other : PyCell → XCell) (db : Database) : saved other (writeXls db) =
    [(c!"Columns", columnsHeader.map .text :: db.iter.flatMap (fun t => t.iter.zipIdx.map (columnCells other db.name t))),
     (c!"Tables", tablesHeader.map .text :: (db.iter.zipIdx 1).map (fun p => (tableRow db.name p.1 (p.2 + 1)).map (stored other))),
     (c!"Foreign Keys", fksHeader.map .text :: db.iter.flatMap (fun t => t.fks.vals.map (fkCells other db.name t))),
     (c!"Relationships", relsHeader.map .text :: db.iter.flatMap (fun t => t.rels.vals.map (relCells other db.name t)))] := by
  simp only [saved, writeXls, columnsSheet, tablesSheet, fksSheet, relsSheet, List.map_cons, List.map_nil,
    stored_header other columnsHeader_plain, stored_header other tablesHeader_plain, stored_header other fksHeader_plain,
    stored_header other relsHeader_plain, columnRows_eq, tableRows_eq, List.map_flatMap, List.map_map]
  rfl

theorem shaped_written (other : PyCell → XCell) (db : Database) : Shaped (saved other (writeXls db)) := by
  rw [saved_shape]
  intro p hp
  simp only [needed, List.mem_cons, List.not_mem_nil, or_false] at hp
  rcases hp with rfl | rfl | rfl | rfl
  · exact ⟨_, _, rfl, by decide⟩
  · exact ⟨_, _, rfl, by decide⟩
  · exact ⟨_, _, rfl, by decide⟩
  · exact ⟨_, _, rfl, by decide⟩

theorem readXls_held {other : PyCell → XCell} {db : Database} (h : HoldDb db) (hsome : db.tables ≠ []) :
    readXls (saved other (writeXls db)) = 
      .ok [(db.name, { (db.iter.map bare).foldl Database.addTable (Database.empty db.name) with
        tables := db.tables.map (fun p => (p.1, through p.2)) })] := by
  rw [readXls_shaped (shaped_written other db)]
  have gC : (saved other (writeXls db)).get? c!"Columns" =
      some (columnsHeader.map .text :: db.iter.flatMap (fun t => t.iter.zipIdx.map (columnCells other db.name t))) := by rw [saved_shape]; rfl
  have gT : (saved other (writeXls db)).get? c!"Tables" =
      some (tablesHeader.map .text :: (db.iter.zipIdx 1).map (fun p => (tableRow db.name p.1 (p.2 + 1)).map (stored other))) := by
    rw [saved_shape]; rfl
  have gF : (saved other (writeXls db)).get? c!"Foreign Keys" =
      some (fksHeader.map .text :: db.iter.flatMap (fun t => t.fks.vals.map (fkCells other db.name t))) := by rw [saved_shape]; rfl
  have gR : (saved other (writeXls db)).get? c!"Relationships" =
      some (relsHeader.map .text :: db.iter.flatMap (fun t => t.rels.vals.map (relCells other db.name t))) := by rw [saved_shape]; rfl
  have hm : ∀ t ∈ db.iter, (t.name, t) ∈ db.tables := by
    intro t ht
    simp only [Database.iter, Dict.vals, List.mem_map] at ht
    obtain ⟨⟨n, u⟩, hp, rfl⟩ := ht
    have := h.keyed.tableNames n u hp
    rwa [this] at hp
  have hct : ∀ t ∈ db.iter, HoldTable t := fun t ht => h.tables _ t (hm t ht)
  have hnames : db.iter.map (·.name) = db.tables.map Prod.fst := by
    simp only [Database.iter, Dict.vals, List.map_map]
    exact List.map_congr_left (fun p hp => (h.keyed.tableNames p.1 p.2 hp).symm)
  have hnd : (db.iter.map (·.name)).Nodup := by rw [hnames]; exact h.keyed.tables
  have hne : db.iter ≠ [] := by
    intro e
    apply hsome
    have := congrArg List.length e
    simpa [Database.iter, Dict.vals] using this
  -- the tables
  have e1 := readTables_written_nil (other := other) h.name.2 h.name.1 db.iter hne 1 hct
  let D0 := (db.iter.map bare).foldl Database.addTable (Database.empty db.name)
  have hD0 : D0.tables = db.iter.map (fun t => (t.name, bare t)) := by
    have := tables_addTables (db.iter.map bare) (Database.empty db.name) (by
      simp only [Database.empty, Dict.keys_nil, List.nil_append, List.map_map]
      exact hnd)
    rw [show D0 = (db.iter.map bare).foldl Database.addTable (Database.empty db.name) from rfl, this]
    simp only [Database.empty, List.nil_append, List.map_map]
    rfl
  -- the columns
  have e2 := fold_all (d := db.name) (step := readColumnRow (columnsHeader.map XCell.text)) (items := fun t => t.iter.zipIdx)
    (r := columnCells other db.name) (miss := fun _ dbs => .ok dbs)
    (f := fun t p u => do
        let c ← rowColumn (columnsHeader.map XCell.text) (columnCells other db.name t p)
        .ok (u.addColumn c))
    (g := fun _ p u => u.addColumn p.1) (b := bare) (fun _ => rfl) db.iter D0 []
    (fun t ht x _ dbs => readColumnRow_written h.name.2 (hct t ht).name x dbs)
    (fun t ht x hx u hu => by
      have hc : x.1 ∈ t.iter := by
        have := (List.mem_zipIdx' hx)
        rw [this.2]
        exact List.getElem_mem _
      simp only [Table.iter, Dict.vals, List.mem_map] at hc
      obtain ⟨⟨n, c⟩, hp, hpc⟩ := hc
      simp only at hpc
      obtain ⟨a1, a2, a3⟩ := (hct t ht).cols n c hp
      subst hpc
      refine ⟨?_, hu⟩
      rw [rowColumn_written a1 a2 a3]
      rfl)
    (by rw [hD0]; rfl) (by simpa using hnd)
  let b1 : Table → Table := fun t => t.iter.zipIdx.foldl (fun u x => u.addColumn x.1) (bare t)
  have hb1 : ∀ t ∈ db.iter, b1 t = { through t with fks := [], rels := [] } := by
    intro t ht
    show t.iter.zipIdx.foldl (fun u x => u.addColumn x.1) (bare t) = _
    rw [addColumns_fold]
    have : t.iter.zipIdx.map (·.1) = t.cols.vals := by
      rw [List.zipIdx_map_fst]; rfl
    rw [this]
    have hr := refill (name := Column.name) id t.cols [] (fun k v hkv => h.keyed.colNames _ t (hm t ht) k v hkv) (by
      simpa [Dict.keys] using h.keyed.cols _ t (hm t ht))
    simp only [bare]
    rw [show (fun (e : Dict Column) v => Dict.set e v.name v) = fun e v => Dict.set e v.name (id v) from rfl, hr]
    simp [through]
  have hb1n : ∀ t, (b1 t).name = t.name := by
    intro t
    show (t.iter.zipIdx.foldl (fun u x => u.addColumn x.1) (bare t)).name = _
    rw [addColumns_fold]; rfl
  let D1 : Database := { D0 with tables := db.iter.map (fun t => (t.name, b1 t)) }
  -- the foreign keys
  have e3 := fold_all (d := db.name) (step := readFKRow (fksHeader.map XCell.text)) (items := fun t => t.fks.vals)
    (r := fkCells other db.name) (miss := fun _ dbs => .ok dbs)
    (f := fun t k => rowFK (fksHeader.map XCell.text) (fkCells other db.name t k))
    (g := fun _ k u => u.addForeignKeyObj (throughFK k)) (b := b1) hb1n db.iter D1 []
    (fun t ht k hk dbs => by
      simp only [Dict.vals, List.mem_map] at hk
      obtain ⟨⟨n, c⟩, hp, rfl⟩ := hk
      exact readFKRow_written h.name.2 (hct t ht).name ((hct t ht).fks n c hp).2.1 dbs)
    (fun t ht k hk u hu => by
      simp only [Dict.vals, List.mem_map] at hk
      obtain ⟨⟨n, c⟩, hp, rfl⟩ := hk
      obtain ⟨a1, a2, a3, a5, a6, a7⟩ := (hct t ht).fks n c hp
      exact ⟨rowFK_written a1 a2 a3 a5 a6 a7 u hu, hu⟩)
    rfl (by simpa using hnd)
  let b2 : Table → Table := fun t => t.fks.vals.foldl (fun u x => u.addForeignKeyObj (throughFK x)) (b1 t)
  have hb2 : ∀ t ∈ db.iter, b2 t = { through t with rels := [] } := by
    intro t ht
    show t.fks.vals.foldl (fun u x => u.addForeignKeyObj (throughFK x)) (b1 t) = _
    rw [addFKs_fold, hb1 t ht]
    have hr := refill (name := FK.name) throughFK t.fks [] (fun k v hkv => h.keyed.fkNames _ t (hm t ht) k v hkv) (by
      simpa [Dict.keys] using h.keyed.fks _ t (hm t ht))
    simp only
    rw [hr]
    rfl
  have hb2n : ∀ t, (b2 t).name = t.name := by
    intro t
    show (t.fks.vals.foldl (fun u x => u.addForeignKeyObj (throughFK x)) (b1 t)).name = _
    rw [addFKs_fold]; exact hb1n t
  let D2 : Database := { D0 with tables := db.iter.map (fun t => (t.name, b2 t)) }
  -- the relationships
  have e4 := fold_all (d := db.name) (step := readRelRow (relsHeader.map XCell.text)) (items := fun t => t.rels.vals)
    (r := relCells other db.name) (miss := fun _ _ => .error .attribute)
    (f := fun t k => rowRel (relsHeader.map XCell.text) (relCells other db.name t k))
    (g := fun t k u => u.addRelationshipObj (throughRel t.name k)) (b := b2) hb2n db.iter D2 []
    (fun t ht k hk dbs => by
      simp only [Dict.vals, List.mem_map] at hk
      obtain ⟨⟨n, c⟩, hp, rfl⟩ := hk
      exact readRelRow_written h.name.2 (hct t ht).name ((hct t ht).rels n c hp).1 dbs)
    (fun t ht k hk u hu => by
      simp only [Dict.vals, List.mem_map] at hk
      obtain ⟨⟨n, c⟩, hp, rfl⟩ := hk
      obtain ⟨a2, a3, a4⟩ := (hct t ht).rels n c hp
      exact ⟨rowRel_written a2 a3 a4 u hu, hu⟩)
    rfl (by simpa using hnd)
  have hb3 : ∀ t ∈ db.iter, t.rels.vals.foldl (fun u x => u.addRelationshipObj (throughRel t.name x)) (b2 t) = through t := by
    intro t ht
    rw [addRels_fold, hb2 t ht]
    rfl
  have hlast : db.iter.map (fun t => (t.name, t.rels.vals.foldl (fun u x => u.addRelationshipObj (throughRel t.name x)) (b2 t))) =
      db.tables.map (fun p => (p.1, through p.2)) := by
    have : db.iter.map (fun t => (t.name, t.rels.vals.foldl (fun u x => u.addRelationshipObj (throughRel t.name x)) (b2 t))) =
        db.iter.map (fun t => (t.name, through t)) := List.map_congr_left (fun t ht => by rw [hb3 t ht])
    rw [this]
    simp only [Database.iter, Dict.vals, List.map_map]
    exact List.map_congr_left (fun p hp => by simp [← h.keyed.tableNames p.1 p.2 hp])
  simp only [readDatabases, readSheet, gT, gC, gF, gR]
  rw [e1]
  simp only [bind, Except.bind]
  rw [e2]
  simp only [List.nil_append]
  have e3' := e3
  simp only [List.nil_append] at e3'
  rw [e3']
  have e4' := e4
  simp only [List.nil_append] at e4'
  simp only
  rw [e4', hlast]

end Verif
