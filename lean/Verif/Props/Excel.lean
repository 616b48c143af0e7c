import Verif.Lemmas.ExcelSame
import Verif.Lemmas.ExcelBack
/-
Properties of the Excel writer and reader: C38-C43.
-/

namespace Verif.Props
open Verif Verif.Spec

/-! ## Samples -/

/-- A table of a shop. -/
def saleTable : Table :=
  { name := c!"sale", schema := c!"shop", pk := [c!"id", c!"day"], shard := some { keys := [c!"id"], number := .int 128 },
    cols := [(c!"id", { name := c!"id", type := c!"BIGINT" }), (c!"day", { name := c!"day", type := c!"DATE" }),
      (c!"item", { name := c!"item", type := c!"VARCHAR(20)" })],
    fks := [(c!"f1", { name := c!"f1", fromTable := c!"sale", fromKeys := [c!"item"], toTable := c!"item", toKeys := [c!"code"] })],
    rels := [(c!"REL_sale_to_item", { name := c!"REL_sale_to_item", fromTable := c!"sale", toTable := c!"item", conditions := c!"\"sale\".\"id\" = 1" })] }

/-- Another table of the shop. -/
def itemTable : Table :=
  { name := c!"item", schema := defaultSchema, pk := [c!"code"], shard := none,
    cols := [(c!"code", { name := c!"code", type := c!"VARCHAR(20)" })], fks := [], rels := [] }

/-- A database built with the API. -/
def shopDb : Database := [saleTable, itemTable].foldl Database.addTable (Database.empty c!"shop_db")

/-- It can go through a workbook. -/
theorem shop_cells : CellDb shopDb where
  keyed := by decide
  name := by decide
  some := by decide
  tables := by
    have h : shopDb.tables = [(c!"sale", saleTable), (c!"item", itemTable)] := rfl
    intro n t ht
    rw [h] at ht
    simp only [List.mem_cons, Prod.mk.injEq, List.not_mem_nil, or_false] at ht
    rcases ht with ⟨_, rfl⟩ | ⟨_, rfl⟩
    · refine ⟨by decide, by decide, ⟨by unfold KeyName; decide, by decide⟩, ?_, ?_, ?_, ?_⟩
      · intro k hk
        cases hk
        exact ⟨by decide, ⟨by unfold KeyName; decide, by decide⟩, by unfold CellCount; decide⟩
      · intro n c hc
        simp only [saleTable, List.mem_cons, Prod.mk.injEq, List.not_mem_nil, or_false] at hc
        rcases hc with ⟨_, rfl⟩ | ⟨_, rfl⟩ | ⟨_, rfl⟩
        · exact ⟨by decide, by decide, .inl (by decide)⟩
        · exact ⟨by decide, by decide, .inl (by decide)⟩
        · exact ⟨by decide, by decide, .inr ⟨c!"(20)", rfl⟩⟩
      · intro n k hk
        simp only [saleTable, List.mem_cons, Prod.mk.injEq, List.not_mem_nil, or_false] at hk
        obtain ⟨_, rfl⟩ := hk
        exact ⟨by decide, by decide, by decide, by decide, by decide, ⟨by unfold KeyName; decide, by decide⟩, ⟨by unfold KeyName; decide, by decide⟩⟩
      · intro n r hr
        simp only [saleTable, List.mem_cons, Prod.mk.injEq, List.not_mem_nil, or_false] at hr
        obtain ⟨_, rfl⟩ := hr
        exact ⟨by decide, by decide, by decide, by decide, by decide⟩
    · refine ⟨by decide, by decide, ⟨by unfold KeyName; decide, by decide⟩, ?_, ?_, ?_, ?_⟩
      · intro k hk; cases hk
      · intro n c hc
        simp only [itemTable, List.mem_cons, Prod.mk.injEq, List.not_mem_nil, or_false] at hc
        obtain ⟨_, rfl⟩ := hc
        exact ⟨by decide, by decide, .inr ⟨c!"(20)", rfl⟩⟩
      · intro n k hk; cases hk
      · intro n r hr; cases hr

/-! ## C38 -/

/-- C38: reading the workbook written for a database gives one database of that name, with the same tables in the same order, each with the
same schema, columns, primary key, shard key, foreign keys and relationships; whole shard counts come back as floats of the same value and
the schemas are those of the tables, in the order of the tables, with the numbers of their tables.
Partial: the database must have a table, relationships must have the names the reader gives them, and shard counts must not be zero. -/
theorem C38_round_trip_partial {db : Database} (h : CellDb db) (other : PyCell → XCell) :
    ∃ back, readXls (saved other (writeXls db)) = .ok [(db.name, back)] ∧ back.name = db.name ∧
      back.tables = db.tables.map (fun p => (p.1, backTable p.2)) ∧ back.schemas.keys = firstUses (db.iter.map (·.schema)) ∧
      ∀ s, (back.schemas.get? s).getD 0 = (db.iter.countP (fun t => decide (t.schema = s)) : Nat) := by
  have hmap : (db.iter.map bare).map (·.schema) = db.iter.map (·.schema) := by
    rw [List.map_map]; rfl
  refine ⟨_, readXls_written h, name_addTables _ _, rfl, ?_, ?_⟩
  · show ((db.iter.map bare).foldl Database.addTable (Database.empty db.name)).schemas.keys = _
    rw [keys_schemas_addTables, hmap]
    exact appendNew_fold_nil _
  · intro s
    show (((db.iter.map bare).foldl Database.addTable (Database.empty db.name)).schemas.get? s).getD 0 = _
    rw [schemas_addTables]
    rw [List.countP_map]
    simp only [Database.empty, Dict.get?_nil, Option.getD_none, Int.zero_add, Function.comp_def]
    rfl

example : CellDb shopDb := shop_cells
example : (readXls (saved (fun _ => .num 0) (writeXls shopDb))).map (fun d => d.map (fun p => p.2.tables.vals.map (·.cols.keys))) =
    .ok [[[c!"id", c!"day", c!"item"], [c!"code"]]] := by decide +kernel

/-- C38: every relationship that comes out of a workbook is called after its tables, so other names are lost. -/
theorem C38_relationship_names {wb : Workbook} {dbs : Dict Database} (hs : Shaped wb) (hr : readXls wb = .ok dbs) {d n k : Str} {db : Database}
    {t : Table} {r : Rel} (hd : dbs.get? d = some db) (ht : db.getTable n = some t) (hk : t.rels.get? k = some r) :
    r.name = c!"REL_" ++ n ++ c!"_to_" ++ r.toTable ∧ k = r.name := by
  obtain ⟨hT, rT, hC, rC, hF, rF, hR, rR, S⟩ := shaped_sheets hs
  obtain ⟨_, _, _, rs, h1, h2⟩ := S.contents hr (d := d) (n := n) (t := t) (by simp [tableAt, hd, ht])
  obtain ⟨pre, post, rfl, hv, _⟩ := (h2.2 k r).1 hk
  obtain ⟨row, _, hrow⟩ : ∃ row, row ∈ _ ∧ RelFrom n hR row r := by
    obtain ⟨i, hi⟩ := List.getElem?_of_mem (show r ∈ pre ++ r :: post by simp)
    obtain ⟨hi1, hi2⟩ := List.getElem?_eq_some_iff.1 hi
    have hl := h1.length_eq
    have := (List.forall₂_iff_get.1 h1).2 i (by rw [hl]; exact hi1) hi1
    exact ⟨_, List.getElem_mem (by rw [hl]; exact hi1), by simpa [hi2] using this⟩
  exact ⟨hrow.1, hv.symm⟩

/-- A table with a relationship of its own name. -/
def namedRel : Table :=
  { name := c!"a", schema := defaultSchema, pk := [], shard := none, cols := [], fks := [],
    rels := [(c!"mine", { name := c!"mine", fromTable := c!"a", toTable := c!"a", conditions := c!"1 = 1" })] }

/-- C38, violated: the name of a relationship is lost. -/
theorem C38_relationship_renamed : (readXls (saved (fun _ => .num 0) (writeXls ((Database.empty c!"d").addTable namedRel)))).map (fun dbs =>
    dbs.map (fun p => p.2.tables.vals.map (·.rels.keys))) = .ok [[[c!"REL_a_to_a"]]] := by decide +kernel

/-- C38, violated: a database without tables is lost, whatever its name. -/
theorem C38_empty_lost (n : Str) (other : PyCell → XCell) : readXls (saved other (writeXls (Database.empty n))) = .ok [] := by
  rw [readXls_shaped (shaped_written other _), saved_shape]
  rfl

/-- C38, violated: a shard key with no shards is lost. -/
theorem C38_no_shards_lost : (readXls (saved (fun _ => .num 0) (writeXls ((Database.empty c!"d").addTable
    { name := c!"a", schema := defaultSchema, pk := [], shard := some { keys := [c!"x"], number := .int 0 }, cols := [], fks := [], rels := [] })))).map (fun dbs =>
    dbs.map (fun p => p.2.tables.vals.map (·.shard))) = .ok [[none]] := by decide +kernel

/-- C38: what comes back in any case, for every database whose texts and numbers cells can hold: nothing of a database without tables;
otherwise one database of that name with the same tables in the same order, each with the same schema, columns and primary key.  Its shard key is
lost if it has no columns or no shards; a foreign key without columns gets one without a name; of the relationships to the same table
the last one is left, called after the tables. -/
theorem C38_comes_back {db : Database} (h : HoldDb db) (other : PyCell → XCell) :
    (db.tables = [] → readXls (saved other (writeXls db)) = .ok []) ∧
    (db.tables ≠ [] → ∃ back, readXls (saved other (writeXls db)) = .ok [(db.name, back)] ∧ back.name = db.name ∧
      List.Forall₂ (fun p q => q.1 = p.1 ∧ TableBack p.2 q.2) db.tables back.tables) := by
  refine ⟨readXls_held_nil, fun hs => ⟨_, readXls_held h hs, name_addTables _ _, ?_⟩⟩
  simp only
  rw [List.forall₂_map_right_iff, List.forall₂_same]
  exact fun p hp => ⟨rfl, through_back (h.tables p.1 p.2 hp)⟩

/-- C38: exactly these databases come back with the same tables: those with a table whose shard keys have columns and shards, whose foreign keys
have columns and whose relationships are called after their tables. -/
theorem C38_exactly {db : Database} (h : HoldDb db) (other : PyCell → XCell) :
    (∃ back, readXls (saved other (writeXls db)) = .ok [(db.name, back)] ∧ back.tables = db.tables.map (fun p => (p.1, backTable p.2))) ↔
      db.tables ≠ [] ∧ ∀ n t, (n, t) ∈ db.tables → Keeps t := by
  constructor
  · rintro ⟨back, h1, h2⟩
    have hs : db.tables ≠ [] := by
      intro e
      rw [readXls_held_nil e] at h1
      cases h1
    refine ⟨hs, fun n t ht => (through_back_iff h ht).1 ?_⟩
    rw [readXls_held h hs] at h1
    simp only [Except.ok.injEq, List.cons.injEq, Prod.mk.injEq, true_and, and_true] at h1
    rw [← h1] at h2
    exact (Prod.mk.inj (List.map_inj_left.1 h2 (n, t) ht)).2
  · rintro ⟨hs, hk⟩
    refine ⟨_, readXls_held h hs, List.map_congr_left fun p hp => ?_⟩
    rw [(through_back_iff h hp).2 (hk p.1 p.2 hp)]

/-- A table with a shard key without shards, a foreign key without columns and two relationships to one table. -/
def lossy : Table :=
  { name := c!"a", schema := defaultSchema, pk := [], shard := some { keys := [c!"x"], number := .int 0 }, cols := [],
    fks := [(c!"f", { name := c!"f", fromTable := c!"a", fromKeys := [], toTable := c!"b", toKeys := [] })],
    rels := [(c!"r", { name := c!"r", fromTable := c!"a", toTable := c!"b", conditions := c!"1 = 1" }),
      (c!"s", { name := c!"s", fromTable := c!"a", toTable := c!"b", conditions := c!"2 = 2" })] }

example : HoldDb ((Database.empty c!"d").addTable lossy) where
  keyed := by decide
  name := by decide
  tables := by
    have h : ((Database.empty c!"d").addTable lossy).tables = [(c!"a", lossy)] := rfl
    intro n t ht
    rw [h] at ht
    simp only [List.mem_cons, Prod.mk.injEq, List.not_mem_nil, or_false] at ht
    obtain ⟨_, rfl⟩ := ht
    refine ⟨by decide, by decide, ⟨by unfold KeyName; decide, by decide⟩, ?_, ?_, ?_, ?_⟩
    · intro k hk
      cases hk
      exact ⟨⟨by unfold KeyName; decide, by decide⟩, by unfold HoldCount; decide⟩
    · intro n c hc; cases hc
    · intro n k hk
      simp only [lossy, List.mem_cons, Prod.mk.injEq, List.not_mem_nil, or_false] at hk
      obtain ⟨_, rfl⟩ := hk
      exact ⟨by decide, by decide, by decide, by decide, ⟨by unfold KeyName; decide, by decide⟩, ⟨by unfold KeyName; decide, by decide⟩⟩
    · intro n r hr
      simp only [lossy, List.mem_cons, Prod.mk.injEq, List.not_mem_nil, or_false] at hr
      rcases hr with ⟨_, rfl⟩ | ⟨_, rfl⟩ <;> exact ⟨by decide, by decide, by decide⟩
example : (readXls (saved (fun _ => .num 0) (writeXls ((Database.empty c!"d").addTable lossy)))).map (fun dbs => dbs.map (fun p =>
    p.2.tables.vals.map (fun t => t.fks.vals.map (·.fromKeys) ++ t.rels.vals.map (fun r => [r.name, r.conditions])))) =
    .ok [[[[[]], [c!"REL_a_to_b", c!"2 = 2"]]]] := by decide +kernel

/-! ## C39 -/

/-- C39: the reader depends only on which of the needed headers are there and on what the sheets say under the headers it looks under:
workbooks that agree there are read alike, errors included. -/
theorem C39_same_cells {wb wb' : Workbook} (h : SameSheets wb wb') : readXls wb = readXls wb' := readXls_same h

/-- C39: the order of the columns of a sheet does not matter.  Partial: the headers the reader looks under must
not be there twice. -/
theorem C39_reordered_partial {pre post : Workbook} {name : Str} {h : List XCell} {rows : List (List XCell)} {σ : List Nat}
    (hσ : σ.Perm (List.range h.length))
    (hu : ∀ c ∈ usedHeaders name, ∀ i j : Nat, h[i]? = some (XCell.text c) → h[j]? = some (XCell.text c) → i = j) :
    readXls (pre ++ (name, permuted σ (h :: rows)) :: post) = readXls (pre ++ (name, h :: rows) :: post) := by
  refine (readXls_same fun p hp => ?_).symm
  have key : ∀ (pre : Workbook) (s : Sheet), Dict.get? (pre ++ (name, s) :: post) p.1 =
      match Dict.get? pre p.1 with
      | some x => some x
      | none => if name = p.1 then some s else Dict.get? post p.1 := by
    intro pre s
    induction pre with
    | nil => simp [Dict.get?_cons]
    | cons q pre ih =>
      rw [List.cons_append, Dict.get?_cons, Dict.get?_cons, ih]
      by_cases hq : q.1 = p.1 <;> simp [hq]
  rw [key, key]
  cases hg : Dict.get? pre p.1 with
  | some x => exact .inl rfl
  | none =>
    by_cases hn : name = p.1
    · subst hn
      simp only [if_true]
      exact .inr ⟨_, _, rfl, rfl, rearranged_permuted hσ hu⟩
    · simp [hn]

/-- C39: a new column, at any place up to the ends of the rows, does not matter, if its header is none of those the reader looks under and
none of those it needs and does not have yet. -/
theorem C39_added {pre post : Workbook} {name : Str} {h : List XCell} {rows : List (List XCell)} {k : Nat} {x : Nat → XCell}
    (hk : k ≤ h.length) (hr : ∀ r ∈ rows, k ≤ r.length) (hx : ∀ c ∈ usedHeaders name, x 0 ≠ .text c)
    (hold : ∀ cols, (name, cols) ∈ needed → ∀ c ∈ cols, x 0 = .text c → XCell.text c ∈ h) :
    readXls (pre ++ (name, inserted k x (h :: rows)) :: post) = readXls (pre ++ (name, h :: rows) :: post) := by
  refine (readXls_same fun p hp => ?_).symm
  have key : ∀ (pre : Workbook) (s : Sheet), Dict.get? (pre ++ (name, s) :: post) p.1 =
      match Dict.get? pre p.1 with
      | some x => some x
      | none => if name = p.1 then some s else Dict.get? post p.1 := by
    intro pre s
    induction pre with
    | nil => simp [Dict.get?_cons]
    | cons q pre ih =>
      rw [List.cons_append, Dict.get?_cons, Dict.get?_cons, ih]
      by_cases hq : q.1 = p.1 <;> simp [hq]
  rw [key, key]
  cases hg : Dict.get? pre p.1 with
  | some x => exact .inl rfl
  | none =>
    by_cases hn : name = p.1
    · subst hn
      simp only [if_true]
      exact .inr ⟨_, _, rfl, rfl, rearranged_inserted hk hr hx (hold p.2 hp)⟩
    · simp [hn]

/-- Cells with texts. -/
def txt (l : List Str) : List XCell := l.map .text

/-- A workbook with two databases, several tables and rows that name nothing known. -/
def sampleBook : Workbook :=
  [(c!"Columns", [txt [c!"Database", c!"Schema", c!"Table", c!"Column", c!"Name", c!"Type"],
      txt [c!"d", c!"s", c!"a", c!"", c!"x", c!"INT"], txt [c!"e", c!"s", c!"b", c!"", c!"y", c!"DATE"], txt [c!"d", c!"s", c!"zz", c!"", c!"y", c!"DATE"],
      txt [c!"d", c!"s", c!"a", c!"", c!"y", c!"DATE"], txt [c!"d", c!"s", c!"a", c!"", c!"x", c!"BIGINT"]]),
   (c!"Tables", [txt [c!"Database", c!"Schema", c!"Table", c!"Updated", c!"Update Type", c!"# Rows", c!"# Columns", c!"Primary Key",
      c!"Shard Key", c!"# Shards", c!"RLS Column"],
      txt [c!"d", c!"s", c!"a", c!"", c!"", c!"", c!"", c!"x , y", c!"", c!"", c!""], txt [c!"", c!"", c!"", c!"", c!"", c!"", c!"", c!"", c!"", c!"", c!""],
      txt [c!"e", c!"s", c!"b", c!"", c!"", c!"", c!"", c!"", c!"y", c!"", c!""] , txt [c!"d", c!"s", c!"b", c!"", c!"", c!"", c!"", c!"", c!"", c!"", c!""]]),
   (c!"Foreign Keys", [txt [c!"Name", c!"Database", c!"Schema", c!"From Table", c!"From Columns", c!"To Table", c!"To Columns"],
      txt [c!"f", c!"d", c!"s", c!"a", c!"x", c!"b", c!"u"], txt [c!"g", c!"zz", c!"s", c!"a", c!"x", c!"b", c!"u"]]),
   (c!"Relationships", [txt [c!"Name", c!"Database", c!"Schema", c!"From Table", c!"To Table", c!"Conditions"],
      txt [c!"r", c!"d", c!"s", c!"b", c!"a", c!"1 = 1"], txt [c!"r", c!"zz", c!"s", c!"b", c!"a", c!"1 = 1"]])]

instance (wb : Workbook) : Decidable (Shaped wb) := by
  unfold Shaped
  have : ∀ p : Str × List Str, Decidable (∃ h rows, SheetIs wb p.1 h rows ∧ ∀ c ∈ p.2, XCell.text c ∈ h) := by
    intro p
    cases hg : wb.get? p.1 with
    | none => exact isFalse (by rintro ⟨h, rows, h1, _⟩; rw [SheetIs, hg] at h1; cases h1)
    | some s =>
      cases s with
      | nil => exact isFalse (by rintro ⟨h, rows, h1, _⟩; rw [SheetIs, hg] at h1; cases h1)
      | cons h rows =>
        exact decidable_of_iff (∀ c ∈ p.2, XCell.text c ∈ h) ⟨fun hh => ⟨h, rows, hg, hh⟩, by
          rintro ⟨h', rows', h1, h2⟩
          rw [SheetIs, hg] at h1
          cases h1
          exact h2⟩
  exact inferInstance

example : Shaped sampleBook := by decide +kernel
example : (readXls sampleBook).map (fun dbs => dbs.map (fun p => (p.1, p.2.tables.vals.map (fun t => [[t.name], t.pk, t.cols.keys, t.fks.keys, t.rels.keys])))) =
    .ok [(c!"d", [[[c!"a"], [c!"x", c!"y"], [c!"x", c!"y"], [c!"f"], []], [[c!"b"], [], [], [], [c!"REL_b_to_a"]]]),
      (c!"e", [[[c!"b"], [], [c!"y"], [], []]])] := by decide +kernel
example : readXls ([] ++ (c!"Columns", permuted [5, 4, 0, 1, 2, 3] (sampleBook.head!.2.head! :: sampleBook.head!.2.tail)) :: sampleBook.tail) =
    readXls ([] ++ (c!"Columns", sampleBook.head!.2.head! :: sampleBook.head!.2.tail) :: sampleBook.tail) :=
  C39_reordered_partial (by decide) (by
    intro c _ i j hi hj
    have nd : (sampleBook.head!.2.head!).Nodup := by decide
    exact (List.getElem?_inj (List.getElem?_eq_some_iff.1 hi).1 nd).1 (hi.trans hj.symm))
/-- The header "Column" twice, which does no harm. -/
example (rows : List (List XCell)) :
    readXls ([] ++ (c!"Columns", permuted [6, 5, 4, 0, 1, 2, 3] (txt [c!"Column", c!"Database", c!"Schema", c!"Table", c!"Column", c!"Name", c!"Type"] :: rows)) ::
      sampleBook.tail) =
    readXls ([] ++ (c!"Columns", txt [c!"Column", c!"Database", c!"Schema", c!"Table", c!"Column", c!"Name", c!"Type"] :: rows) :: sampleBook.tail) :=
  C39_reordered_partial (by decide) (fun c hc => place_unique (by revert c; decide))
/-- A second column "Column" in front. -/
example : readXls ([] ++ (c!"Columns", inserted 0 (fun i => if i = 0 then .text c!"Column" else .num i) (sampleBook.head!.2.head! :: sampleBook.head!.2.tail)) ::
      sampleBook.tail) =
    readXls ([] ++ (c!"Columns", sampleBook.head!.2.head! :: sampleBook.head!.2.tail) :: sampleBook.tail) :=
  C39_added (by decide) (fun _ _ => Nat.zero_le _) (by decide) (fun cols hc => by
    have : ∀ p ∈ needed, p.1 = c!"Columns" → ∀ c ∈ p.2, XCell.text c!"Column" = .text c → XCell.text c ∈ sampleBook.head!.2.head! := by decide +kernel
    exact this _ hc rfl)

/-- A workbook whose sheet "Columns" has the header "Name" twice. -/
def doubleBook : Workbook :=
  (c!"Columns", [txt [c!"Database", c!"Schema", c!"Table", c!"Column", c!"Name", c!"Type", c!"Name"],
    txt [c!"d", c!"s", c!"a", c!"", c!"x", c!"INT", c!"y"]]) :: sampleBook.tail

/-- C39, violated: with a needed header twice, the order of the columns matters: the last one is used. -/
theorem C39_double_header : (readXls doubleBook).map (fun dbs => dbs.map (fun p => p.2.tables.vals.map (·.cols.keys))) = .ok [[[c!"y"], []], [[]]] ∧
    (readXls ((c!"Columns", permuted [0, 1, 2, 3, 6, 5, 4] doubleBook.head!.2) :: doubleBook.tail)).map (fun dbs =>
      dbs.map (fun p => p.2.tables.vals.map (·.cols.keys))) = .ok [[[c!"x"], []], [[]]] := by decide +kernel

/-- A workbook with a single row in each sheet. -/
def soleBook : Workbook :=
  [(c!"Tables", [txt [c!"Database", c!"Schema", c!"Table", c!"Updated", c!"Update Type", c!"# Rows", c!"# Columns", c!"Primary Key",
      c!"Shard Key", c!"# Shards", c!"RLS Column"],
      txt [c!"d", c!"s", c!"a", c!"", c!"", c!"", c!"", c!"x", c!"x", c!"4", c!""]]),
   (c!"Columns", [txt [c!"Database", c!"Schema", c!"Table", c!"Column", c!"Name", c!"Type"], txt [c!"d", c!"s", c!"a", c!"", c!"x", c!"INT"]]),
   (c!"Foreign Keys", [txt [c!"Name", c!"Database", c!"Schema", c!"From Table", c!"From Columns", c!"To Table", c!"To Columns"],
      txt [c!"f", c!"d", c!"s", c!"a", c!"x", c!"b", c!"u"]]),
   (c!"Relationships", [txt [c!"Name", c!"Database", c!"Schema", c!"From Table", c!"To Table", c!"Conditions"],
      txt [c!"r", c!"d", c!"s", c!"a", c!"b", c!"1 = 1"]])]

/-- Its headers in one sheet, with one more at the end. -/
def soleHead (sheet c : Str) : List XCell := ((soleBook.get? sheet).getD []).head?.getD [] ++ [.text c]

/-- Its row in one sheet, with one more cell at the end. -/
def soleRow (sheet : Str) : List XCell := ((soleBook.get? sheet).getD []).tail.head?.getD [] ++ [.text c!"zz"]

/-- The places in which the last one and the first one with the same header change places. -/
def swapLast (h : List XCell) (c : Str) : List Nat :=
  (List.range h.length).map (fun i => if i = h.idxOf (.text c) then h.length - 1 else if i = h.length - 1 then h.idxOf (.text c) else i)

/-- C39: with the other headers the reader looks under at most once, the order of the columns of a sheet can matter exactly if a header may
be there twice under which the reader looks. -/
theorem C39_exactly (sheet c : Str) : c ∈ usedHeaders sheet ↔
    ∃ (pre post : Workbook) (h : List XCell) (rows : List (List XCell)) (σ : List Nat), σ.Perm (List.range h.length) ∧
      (∀ c' ∈ usedHeaders sheet, c' ≠ c → h.count (.text c') ≤ 1) ∧
      readXls (pre ++ (sheet, permuted σ (h :: rows)) :: post) ≠ readXls (pre ++ (sheet, h :: rows) :: post) := by
  constructor
  · intro hc
    have key : ∀ s ∈ soleBook.keys, ∀ c ∈ usedHeaders s, (swapLast (soleHead s c) c).Perm (List.range (soleHead s c).length) ∧
        (∀ c' ∈ usedHeaders s, c' ≠ c → (soleHead s c).count (.text c') ≤ 1) ∧
        readXls ([] ++ (s, permuted (swapLast (soleHead s c) c) (soleHead s c :: [soleRow s])) :: soleBook.filter (·.1 ≠ s)) ≠
          readXls ([] ++ (s, soleHead s c :: [soleRow s]) :: soleBook.filter (·.1 ≠ s)) := by decide +kernel
    have hs : sheet ∈ soleBook.keys := by
      unfold usedHeaders at hc
      split_ifs at hc with h1 h2 h3 h4
      · subst h1; decide
      · subst h2; decide
      · subst h3; decide
      · subst h4; decide
      · cases hc
    exact ⟨[], soleBook.filter (·.1 ≠ sheet), _, _, _, key sheet hs c hc⟩
  · rintro ⟨pre, post, h, rows, σ, hσ, hu, hne⟩
    by_contra hc
    exact hne (C39_reordered_partial hσ (fun c' hc' => place_unique (hu c' hc' (fun e => hc (e ▸ hc')))))

/-! ## C40 -/

/-- C40: without one of the sheets or headers nothing is read. -/
theorem C40_misshaped {wb : Workbook} (hh : Headed wb) (h : ¬ Shaped wb) : readXls wb = .ok [] := readXls_misshaped hh h

example : Headed sampleBook.tail := by unfold Headed; decide
example : ¬ Shaped sampleBook.tail := by decide +kernel

/-- C40: otherwise the databases read and their tables are exactly those the sheet "Tables" names. -/
theorem C40_shaped {wb : Workbook} {dbs : Dict Database} (hs : Shaped wb) (hr : readXls wb = .ok dbs) (d : Str) :
    (d ∈ dbs.keys ↔ ∃ n, Known wb d n) ∧ ∀ db, dbs.get? d = some db → ∀ n, n ∈ db.tables.keys ↔ Known wb d n := by
  obtain ⟨hT, rT, hC, rC, hF, rF, hR, rR, S⟩ := shaped_sheets hs
  obtain ⟨a, b, c, h1, h2, h3, h4⟩ := S.steps.1 hr
  obtain ⟨_, hk, ht⟩ := S.frame h1 h2 h3 h4
  obtain ⟨n1, n2⟩ := tables_named S.tables h1
  refine ⟨by rw [hk]; exact n1 d, fun db hd n => ?_⟩
  rw [← n2 d n, ← ht d]
  simp [tablesIn, hd]

/-- C40: a sheet without a header row is an error instead (outside the quantifier of C40: the first row is taken without a check). -/
theorem C40_empty_sheet : readXls ((c!"Columns", []) :: sampleBook.tail) = .error .index := by decide +kernel

/-! ## C41 -/

/-- C41: the TQL of the database that went through a workbook is the TQL of the database, for all options.
Partial: as C38, and with `create_db` the schemas of the database must be those of its tables. -/
theorem C41_same_tql_partial {db : Database} (h : CellDb db) (other : PyCell → XCell) (o : TqlOpts)
    (ho : o.createDb = false ∨ db.schemas.keys = firstUses (db.iter.map (·.schema))) :
    ∃ back, readXls (saved other (writeXls db)) = .ok [(db.name, back)] ∧ writeTql o back = writeTql o db := by
  obtain ⟨back, h1, h2, h3, h4, _⟩ := C38_round_trip_partial h other
  refine ⟨back, h1, ?_⟩
  have hi : back.iter = db.iter.map backTable := by
    simp only [Database.iter, h3, Dict.vals, List.map_map]
    rfl
  have p1 : ∀ t, writeCreateTable o.toGenOpts (backTable t) = writeCreateTable o.toGenOpts t := by
    intro t
    unfold writeCreateTable
    rw [genCreateTable_back]
    rfl
  have p2 : ∀ t, writeForeignKeys o.toGenOpts (backTable t) = writeForeignKeys o.toGenOpts t := fun _ => rfl
  have p3 : ∀ t, writeRelationships o.toGenOpts (backTable t) = writeRelationships o.toGenOpts t := fun _ => rfl
  unfold writeTql tqlPieces
  rw [hi, h2, List.flatMap_map, List.flatMap_map, List.flatMap_map]
  simp only [p1, p2, p3]
  rcases ho with ho | ho
  · simp [ho]
  · simp [Database.schemaNames, h4, ho]

/-- C41 for a database built by adding tables with different names: all options. -/
theorem C41_built_partial {ts : List Table} {n : Str} (hn : (ts.map (·.name)).Nodup) (h : CellDb (ts.foldl Database.addTable (Database.empty n)))
    (other : PyCell → XCell) (o : TqlOpts) :
    ∃ back, readXls (saved other (writeXls (ts.foldl Database.addTable (Database.empty n)))) = .ok [(n, back)] ∧
      writeTql o back = writeTql o (ts.foldl Database.addTable (Database.empty n)) := by
  have hname : (ts.foldl Database.addTable (Database.empty n)).name = n := name_addTables _ _
  have hiter : (ts.foldl Database.addTable (Database.empty n)).iter = ts := by
    have := tables_addTables ts (Database.empty n) (by simpa [Database.empty] using hn)
    rw [Database.iter, this]
    simp [Dict.vals, Database.empty, Function.comp_def]
  have := C41_same_tql_partial h other o (.inr (by
    rw [hiter, keys_schemas_addTables]
    exact appendNew_fold_nil _))
  rwa [hname] at this

example (other : PyCell → XCell) (o : TqlOpts) : ∃ back, readXls (saved other (writeXls shopDb)) = .ok [(c!"shop_db", back)] ∧
    writeTql o back = writeTql o shopDb := C41_built_partial (ts := [saleTable, itemTable]) (by decide) shop_cells other o

/-- A database whose table moved to another schema: the old schema stays (C07). -/
def movedDb : Database := [{ itemTable with schema := c!"old" }, itemTable].foldl Database.addTable (Database.empty c!"d")

/-- C41, violated: a schema without tables is not in the workbook, so its CREATE SCHEMA is lost. -/
theorem C41_schema_lost : (readXls (saved (fun _ => .num 0) (writeXls movedDb))).map (fun dbs => dbs.map (fun p => p.2.schemaNames)) =
      .ok [[defaultSchema]] ∧ movedDb.schemaNames = [c!"old", defaultSchema] ∧
    (readXls (saved (fun _ => .num 0) (writeXls movedDb))).map (fun dbs => dbs.map (fun p => decide (writeTql { createDb := true } p.2 =
      writeTql { createDb := true } movedDb))) = .ok [false] := by decide +kernel

/-! ## C42 -/

/-- C42: each row of "Tables" with a database creates a table in exactly that database: databases and tables stand in the order in which the
rows first name them, nothing else is there, each object is filed under its own name. -/
theorem C42_created {wb : Workbook} {dbs : Dict Database} (hs : Shaped wb) (hr : readXls wb = .ok dbs) {h : List XCell}
    {rows : List (List XCell)} (hsheet : SheetIs wb c!"Tables" h rows) :
    ∃ l, RowsName h rows l ∧ dbs.keys = firstUses (l.map Prod.fst) ∧
      ∀ d db, dbs.get? d = some db → db.name = d ∧ WellKeyed db ∧
        db.tables.keys = firstUses ((l.filter (fun p => decide (p.1 = d))).map Prod.snd) := by
  obtain ⟨hT, rT, hC, rC, hF, rF, hR, rR, S⟩ := shaped_sheets hs
  have e := S.tables
  rw [SheetIs] at e hsheet
  rw [hsheet] at e
  cases e
  obtain ⟨a, b, c, h1, h2, h3, h4⟩ := S.steps.1 hr
  obtain ⟨hok, hk, ht⟩ := S.frame h1 h2 h3 h4
  obtain ⟨l, hl, lk, lt⟩ := tables_listed rows [] a h1
  refine ⟨l, hl, by rw [hk, lk]; exact appendNew_fold_nil _, fun d db hd => ⟨hok.name d db hd, hok.keyed d db hd, ?_⟩⟩
  have e1 := (ht d).trans (lt d)
  have e2 : tablesIn dbs d = db.tables.keys := by simp [tablesIn, hd]
  rw [← e2, e1]
  exact appendNew_fold_nil _

/-- C42: a table read has exactly what the rows naming it say: schema, primary key and shard key of the last such row of "Tables"; the
columns, foreign keys and relationships of the rows of the other sheets that name it and its database, in order, the last one of a name. -/
theorem C42_contents {wb : Workbook} {dbs : Dict Database} (hs : Shaped wb) (hr : readXls wb = .ok dbs)
    {hT : List XCell} {rT : List (List XCell)} {hC : List XCell} {rC : List (List XCell)} {hF : List XCell} {rF : List (List XCell)}
    {hR : List XCell} {rR : List (List XCell)} (sT : SheetIs wb c!"Tables" hT rT) (sC : SheetIs wb c!"Columns" hC rC)
    (sF : SheetIs wb c!"Foreign Keys" hF rF) (sR : SheetIs wb c!"Relationships" hR rR)
    {d n : Str} {db : Database} {t : Table} (hd : dbs.get? d = some db) (ht : db.getTable n = some t) :
    (∃ pre row post, rT = pre ++ row :: post ∧ Names hT row c!"Tables" d n ∧ (∀ r ∈ post, ¬ Names hT r c!"Tables" d n) ∧
      TableFrom hT row { t with cols := [], fks := [], rels := [] }) ∧
    (∃ cs, List.Forall₂ (ColumnFrom hC) (rC.filter (fun r => decide (Names hC r c!"Columns" d n))) cs ∧ Filled Column.name cs t.cols) ∧
    (∃ ks, List.Forall₂ (FKFrom n hF) (rF.filter (fun r => decide (Names hF r c!"Foreign Keys" d n))) ks ∧ Filled FK.name ks t.fks) ∧
    (∃ rs, List.Forall₂ (RelFrom n hR) (rR.filter (fun r => decide (Names hR r c!"Relationships" d n))) rs ∧ Filled Rel.name rs t.rels) :=
  (sheets_of hs sT sC sF sR).contents hr (by simp [tableAt, hd, ht])

/-- C42: the rows that name a database are enough for it: without all other rows, on all sheets, the workbook can be read and gives the same
database and no other. -/
theorem C42_local {wb : Workbook} {dbs : Dict Database} (hs : Shaped wb) (hr : readXls wb = .ok dbs) (d : Str) :
    ∃ dbs', readXls (restrict (fun _ h row => decide (Under h row c!"Database" (.text d))) wb) = .ok dbs' ∧
      dbs'.get? d = dbs.get? d ∧ ∀ e ∈ dbs'.keys, e = d := by
  obtain ⟨dbs', h1, h2, h3⟩ := readXls_only hs hr d
  exact ⟨dbs', h1, h2.symm, h3⟩

/-- C42: rows of the other sheets that name a database without a row in "Tables" change nothing, not even an error. -/
theorem C42_unknown_database {wb : Workbook} (hs : Shaped wb) (keep : Str → List XCell → List XCell → Bool)
    (hT : ∀ h row, keep c!"Tables" h row = true)
    (hk : ∀ sheet ∈ [c!"Columns", c!"Foreign Keys", c!"Relationships"], ∀ h rows, SheetIs wb sheet h rows → ∀ row ∈ rows,
      keep sheet h row = false → ∀ d, Under h row c!"Database" (.text d) → ∀ n, ¬ Known wb d n) :
    readXls (restrict keep wb) = readXls wb :=
  readXls_skip hs keep hT (fun s hs' h rows hsh row hrow hf d n hn => hk s (by
    simp only [List.mem_cons, List.not_mem_nil, or_false] at hs' ⊢
    rcases hs' with h | h
    · exact .inl h
    · exact .inr (.inl h)) h rows hsh row hrow hf d hn.1 n)
    (fun h rows hsh row hrow hf d hd n => hk c!"Relationships" (by simp) h rows hsh row hrow hf d hd n)

example : readXls (restrict (fun _ h row => decide (Under h row c!"Database" (.text c!"e"))) sampleBook) =
    (readXls sampleBook).map (fun dbs => dbs.filter (fun p => decide (p.1 = c!"e"))) := by decide +kernel

/-! ## C43 -/

/-- C43: rows of "Columns" and "Foreign Keys" that name a table without a row in "Tables" are skipped: without them the result is the same.
Partial: "Relationships" only for unknown databases. -/
theorem C43_skipped_partial {wb : Workbook} (hs : Shaped wb) (keep : Str → List XCell → List XCell → Bool)
    (hT : ∀ h row, keep c!"Tables" h row = true)
    (hC : ∀ sheet ∈ [c!"Columns", c!"Foreign Keys"], ∀ h rows, SheetIs wb sheet h rows → ∀ row ∈ rows, keep sheet h row = false →
      ∀ d n, Names h row sheet d n → ¬ Known wb d n)
    (hR : ∀ h rows, SheetIs wb c!"Relationships" h rows → ∀ row ∈ rows, keep c!"Relationships" h row = false →
      ∀ d, Under h row c!"Database" (.text d) → ∀ n, ¬ Known wb d n) :
    readXls (restrict keep wb) = readXls wb := readXls_skip hs keep hT hC hR

/-- C43, violated: a row of "Relationships" that names a known database and an unknown table always makes the reader fail. -/
theorem C43_relationships_raise {wb : Workbook} (hs : Shaped wb) {h : List XCell} {rows : List (List XCell)}
    (hsheet : SheetIs wb c!"Relationships" h rows) {row : List XCell} (hrow : row ∈ rows) {d m : Str} (hd : Under h row c!"Database" (.text d))
    (hk : Known wb d m) (hn : ∀ n, Under h row c!"From Table" (.text n) → ¬ Known wb d n) : ∃ e, readXls wb = .error e := by
  cases hr : readXls wb with
  | error e => exact ⟨e, rfl⟩
  | ok dbs =>
    obtain ⟨hT, rT, hC, rC, hF, rF, hR, rR, S⟩ := shaped_sheets hs
    have e := S.rels
    rw [SheetIs] at e hsheet
    rw [hsheet] at e
    cases e
    obtain ⟨a, b, c, h1, h2, h3, h4⟩ := S.steps.1 hr
    obtain ⟨n1, n2⟩ := tables_named S.tables h1
    obtain ⟨k2, e2, f2⟩ := rowSteps_dbsOk S.cStep (fun _ _ _ x => x.grows) (tables_dbsOk h1) h2
    obtain ⟨k3, e3, f3⟩ := rowSteps_dbsOk S.fStep (fun _ _ _ x => x.grows) k2 h3
    obtain ⟨n, u1, u2⟩ := rels_known S.rStep (fun _ _ _ x => x.grows) rows c dbs k3 h4 row hrow d hd (by
      rw [e3, e2]; exact (n1 d).2 ⟨m, hk⟩)
    rw [f3, f2] at u2
    exact absurd ((n2 d n).1 u2) (hn n u1)

/-- The sample with one more relationship, from a table that is not there. -/
def danglingBook : Workbook :=
  sampleBook.take 3 ++ [(c!"Relationships", [txt [c!"Name", c!"Database", c!"Schema", c!"From Table", c!"To Table", c!"Conditions"],
    txt [c!"r", c!"d", c!"s", c!"zz", c!"a", c!"1 = 1"]])]

/-- C43, violated: an instance, which fails with an AttributeError. -/
theorem C43_attribute_error : Shaped danglingBook ∧ readXls danglingBook = .error .attribute := by decide +kernel

/-- The rows of the sample that name tables of its sheet "Tables". -/
def keepKnown (sheet : Str) (h row : List XCell) : Bool :=
  decide (sheet = c!"Tables" ∨ sheet = c!"Relationships") || decide (Names h row sheet c!"d" c!"a") || decide (Names h row sheet c!"d" c!"b") ||
    decide (Names h row sheet c!"e" c!"b")

example : readXls (restrict keepKnown sampleBook) = readXls sampleBook ∧ restrict keepKnown sampleBook ≠ sampleBook := by decide +kernel

end Verif.Props
