import Verif.Lemmas.ReadBack
/-
C27, C28: reading back written TQL.
-/

namespace Verif.Props
open Verif Verif.Spec

/-- C27: what the parser reads from the text `write_tql` writes under any case options.  `db'` is the database with the names as they
are printed.  The tables, columns, keys and relationships are those printed, in the same order; types and shard counts come back in
normal form, and every table is in the parser's schema.  Full claim: the same for every database.  Missing: the claim fails for
the words "constraint" and "foreign", " add" and "key " inside some names, blanks in primary keys, parentheses in the columns of foreign
keys, parentheses that are not closed in columns, " as " inside conditions, and tables with a primary key but no column
(`C27_constraint_lost`, `C27_foreign_lost`, `C27_address_lost`, `C27_key_lost`, `C27_blank_in_key`, `C27_parenthesis_lost`, `C27_open_lost`,
`C27_condition_cut`, `C27_no_column_raises`); `C27_needed` gives conditions no file can do without; a table keeps its schema only if it is the parser's (`C27_schema_lost`). -/
theorem C27_printed_partial (fs : FS) (p : ParserSt) (o : TqlOpts) {db db' : Database} (hp : DatabaseAs o.toGenOpts db db') (h : ReadableDb db') {f : Str} (hf : f ≠ [])
    (ht : fs f = some (.text (writeTql o db).1)) :
    (writeTql o db).2 = none ∧ (parseDdl fs p (some f)).2 = .ok (some (normalDb p.databaseName p.schemaName db')) := by
  obtain ⟨ss, hss, e⟩ := writeTql_blocks hp h
  rw [e] at ht ⊢
  refine ⟨rfl, ?_⟩
  have hb := read_blocks h o.createDb hss p.databaseName p.schemaName
  unfold Leads at hb
  rw [← getStatements_blocks (dbBlocks_ok h o.createDb hss)] at hb
  cases f with
  | nil => exact absurd rfl hf
  | cons c f =>
    unfold parseDdl
    simp only [ht, hb]

/-- C27 without case options: the names come back as they are.  Missing: as for `C27_printed_partial`. -/
theorem C27_round_trip_partial (fs : FS) (p : ParserSt) (o : TqlOpts) (ho : o.toGenOpts = {}) {db : Database} (h : ReadableDb db) {f : Str} (hf : f ≠ [])
    (ht : fs f = some (.text (writeTql o db).1)) :
    (writeTql o db).2 = none ∧ (parseDdl fs p (some f)).2 = .ok (some (normalDb p.databaseName p.schemaName db)) :=
  C27_printed_partial fs p o (by rw [ho]; exact database_default h.keyed) h hf ht

/-! ## C28 -/

theorem readable_normalType {ty : Str} (h : ReadableType ty) : ReadableType (normalType ty) ∧ normalType (normalType ty) = normalType ty := by
  have hv : ReadableType c!"VARCHAR(0)" := .inr ⟨c!"0", by decide, by decide⟩
  rcases h with h | ⟨ds, hd, rfl⟩
  · simp only [List.mem_cons, List.not_mem_nil, or_false] at h
    rcases h with rfl | rfl | rfl | rfl | rfl | rfl | rfl | rfl | rfl | rfl | rfl
    · exact ⟨hv, by decide⟩
    all_goals exact ⟨.inl (by decide), by decide⟩
  · have hn : normalType (c!"VARCHAR(" ++ ds ++ c!")") = c!"VARCHAR(0)" := by
      unfold normalType
      rw [if_neg (by simp), if_neg (by simp), if_neg (by simp), if_pos ⟨'(' :: (ds ++ [')']), by simp⟩]
    rw [hn]
    exact ⟨hv, by decide⟩

theorem normalCount_normal (k : ShardCount) : normalCount (normalCount k) = normalCount k := by
  cases k <;> rfl

theorem normalTable_normal {schema : Str} {t : Table} (h : ReadableTable t) : normalTable schema (normalTable schema t) = normalTable schema t := by
  simp only [normalTable, Option.map_map, List.map_map]
  congr 1
  · cases t.shard with
    | none => rfl
    | some k => simp [normalCount_normal]
  · apply List.map_congr_left
    intro p hp
    simp only [Function.comp, (readable_normalType (h.cols p hp).2).2]

theorem lacks_longer {w v s : Str} (h : Lacks w s) (hw : w <:+: v) : Lacks v s := fun hv => h (hw.trans hv)

theorem lacks_prefix {w : Str} {a b : Str} {l : List Str} (ha : ∀ n ∈ a :: l, Lacks w n) (hb : Lacks w b) : ∀ n ∈ b :: l, Lacks w n := by
  intro n hn
  rcases List.mem_cons.1 hn with rfl | hn
  · exact hb
  · exact ha n (List.mem_cons_of_mem _ hn)

theorem readable_normalTable {schema : Str} (hs : ReadableSchema schema) {t : Table} (h : ReadableTable t) :
    ReadableTable (normalTable schema t) := by
  refine ⟨h.name, ?_, h.pk, ?_, ?_, fun p hp => ?_, fun p hp => ?_⟩
  · intro p hp
    simp only [normalTable, List.mem_map] at hp
    obtain ⟨q, hq, rfl⟩ := hp
    exact ⟨(h.cols q hq).1, (readable_normalType (h.cols q hq).2).1⟩
  · intro k hk
    simp only [normalTable, Option.map_eq_some_iff] at hk
    obtain ⟨k', hk', rfl⟩ := hk
    have := h.shard k' hk'
    refine ⟨this.keys, this.names, this.noKey, fun s => ?_⟩
    cases e : k'.number with
    | int n => simp [normalCount]
    | flt q => simp [normalCount]
    | text s => exact absurd e (this.number s)
  · intro hh
    have : t.cols ≠ [] := h.someColumn (by
      rcases hh with hh | hh
      · exact .inl hh
      · refine .inr (fun e => hh ?_)
        simp [normalTable, e])
    simpa [normalTable] using this
  · have := h.fks p hp
    exact ⟨this.source, this.keys, this.lengths, this.names, lacks_prefix this.noConstraint hs.noConstraint, lacks_prefix this.noAdd hs.noAdd,
      lacks_prefix this.noForeignKey (lacks_longer hs.noForeign ⟨c!" ", c!" key", rfl⟩)⟩
  · have := h.rels p hp
    exact ⟨this.source, this.names, lacks_prefix this.noForeign hs.noForeign, lacks_prefix this.noWith hs.noWith,
      lacks_prefix this.noAdd (lacks_longer hs.noAdd ⟨[], c!" relationship ", rfl⟩), this.conditions⟩

theorem readable_normalDb {name schema : Str} {db : Database} (h : ReadableDb db) (hn : ReadableName name) (hs : ReadableSchema schema) :
    ReadableDb (normalDb name schema db) := by
  have mem : ∀ {n t}, (n, t) ∈ (normalDb name schema db).tables → ∃ u, (n, u) ∈ db.tables ∧ t = normalTable schema u := by
    intro n t ht
    simp only [normalDb, List.mem_map, Prod.mk.injEq] at ht
    obtain ⟨p, hp, rfl, rfl⟩ := ht
    exact ⟨p.2, hp, rfl⟩
  refine ⟨⟨?_, ?_, ?_, ?_, ?_, ?_, ?_, ?_⟩, hn, ?_, ?_, ?_⟩
  · have := h.keyed.tables
    simp only [normalDb, List.map_map]
    exact this
  · intro n t ht
    obtain ⟨u, hu, rfl⟩ := mem ht
    exact h.keyed.tableNames n u hu
  · intro n t ht
    obtain ⟨u, hu, rfl⟩ := mem ht
    have := h.keyed.cols n u hu
    simp only [normalTable, List.map_map]
    exact this
  · intro n t ht m c hc
    obtain ⟨u, hu, rfl⟩ := mem ht
    simp only [normalTable, List.mem_map, Prod.mk.injEq] at hc
    obtain ⟨q, hq, rfl, rfl⟩ := hc
    exact h.keyed.colNames n u hu q.1 q.2 hq
  · intro n t ht
    obtain ⟨u, hu, rfl⟩ := mem ht
    exact h.keyed.fks n u hu
  · intro n t ht
    obtain ⟨u, hu, rfl⟩ := mem ht
    exact h.keyed.fkNames n u hu
  · intro n t ht
    obtain ⟨u, hu, rfl⟩ := mem ht
    exact h.keyed.rels n u hu
  · intro n t ht
    obtain ⟨u, hu, rfl⟩ := mem ht
    exact h.keyed.relNames n u hu
  · intro p hp
    simp only [normalDb] at hp
    split at hp
    · simp at hp
    · simp only [List.mem_singleton] at hp
      subst hp
      exact hs.name
  · intro p hp
    obtain ⟨u, hu, e⟩ := mem hp
    rw [e]
    exact hs.name
  · intro p hp
    obtain ⟨u, hu, e⟩ := mem hp
    rw [e]
    exact readable_normalTable hs (h.tables (p.1, u) hu)

theorem normalDb_normal {name schema : Str} {db : Database} (h : ReadableDb db) : normalDb name schema (normalDb name schema db) = normalDb name schema db := by
  simp only [normalDb, List.map_map, List.length_map, List.map_eq_nil_iff]
  congr 1
  apply List.map_congr_left
  intro p hp
  simp only [Function.comp, normalTable_normal (h.tables p hp)]

/-- C28: a second trip through a file changes neither the database nor the text.  Full claim: for every database.  Missing: as for
`C27_printed_partial`; the names of the database and of the schema must be ones that can be written between quotes.  Without such conditions the
claim is false (`C28_type_text`). -/
theorem C28_second_trip_partial (fs : FS) (p : ParserSt) (o : TqlOpts) (ho : o.toGenOpts = {}) (hn : ReadableName p.databaseName) (hs : ReadableSchema p.schemaName)
    {db d1 : Database}
    (h : ReadableDb db) {f g : Str} (hf : f ≠ []) (hg : g ≠ []) (ht : fs f = some (.text (writeTql o db).1))
    (h1 : (parseDdl fs p (some f)).2 = .ok (some d1)) (ht' : fs g = some (.text (writeTql o d1).1)) :
    (parseDdl fs p (some g)).2 = .ok (some d1) ∧ ∀ d2, (parseDdl fs p (some g)).2 = .ok (some d2) → writeTql o d2 = writeTql o d1 := by
  have e1 := (C27_round_trip_partial fs p o ho h hf ht).2
  rw [e1, Except.ok.injEq, Option.some.injEq] at h1
  subst h1
  have e2 := (C27_round_trip_partial fs p o ho (readable_normalDb h hn hs) hg ht').2
  rw [normalDb_normal h] at e2
  refine ⟨e2, fun d2 h2 => ?_⟩
  rw [e2, Except.ok.injEq, Option.some.injEq] at h2
  rw [h2]

/-! ## A database -/

/-- Tables in two schemas with all kinds of types, keys, a foreign key and a relationship; some names have blanks. -/
def tripDb : Database :=
  { name := c!"shop"
    tables :=
      [(c!"customer", { name := c!"customer", schema := c!"falcon", pk := [c!"id", c!"Region"], shard := some ⟨[c!"id"], .flt (7/2)⟩
                        cols := [(c!"id", ⟨c!"id", c!"INT"⟩), (c!"Region", ⟨c!"Region", c!"VARCHAR(20)"⟩), (c!"e-mail address", ⟨c!"e-mail address", c!"VARCHAR"⟩),
                          (c!"Revenue (USD, net)", ⟨c!"Revenue (USD, net)", c!"FLOAT"⟩), (c!" a.b's", ⟨c!" a.b's", c!"BOOL"⟩), (c!"born", ⟨c!"born", c!"TIMESTAMP"⟩)]
                        fks := [], rels := [] }),
       (c!"order line", { name := c!"order line", schema := c!"sales data", pk := [], shard := some ⟨[c!"customer id", c!"n"], .int 96⟩
                          cols := [(c!"customer id", ⟨c!"customer id", c!"BIGINT"⟩), (c!"region", ⟨c!"region", c!"VARCHAR"⟩), (c!"n", ⟨c!"n", c!"FLOAT"⟩)]
                          fks := [(c!"FK 1", ⟨c!"FK 1", c!"order line", [c!"customer id", c!"region"], c!"customer", [c!"id", c!"Region"]⟩)]
                          rels := [(c!"REL 1", ⟨c!"REL 1", c!"order line", c!"customer", c!"(\"order line\".\"n\" >= \"customer\".\"id\")"⟩)] }),
       (c!"empty", { name := c!"empty", schema := c!"falcon", pk := [], shard := none, cols := [], fks := [], rels := [] })]
    schemas := [(c!"falcon", 2), (c!"sales data", 1)] }

/-- A parser. -/
def tripParser : ParserSt := { databaseName := c!"copy", schemaName := c!"new schema" }

/-- The hypotheses hold for it. -/
theorem trip_readable : ReadableDb tripDb := by decide +kernel

/-- The trip of the sample, by the theorem. -/
example : (parseDdl (oneFile c!"f" (writeTql { createDb := true } tripDb).1) tripParser (some c!"f")).2 =
    .ok (some (normalDb c!"copy" c!"new schema" tripDb)) :=
  (C27_round_trip_partial _ tripParser { createDb := true } rfl trip_readable (by decide) (by simp [oneFile])).2

/-- What comes back. -/
example : (normalDb c!"copy" c!"new schema" tripDb).tables.map (fun p => (p.1, p.2.schema, p.2.cols.vals.map (·.type), p.2.shard)) =
    [(c!"customer", c!"new schema", [c!"BIGINT", c!"VARCHAR(0)", c!"VARCHAR(0)", c!"DOUBLE", c!"BOOL", c!"DATETIME"], some ⟨[c!"id"], .int 3⟩),
     (c!"order line", c!"new schema", [c!"BIGINT", c!"VARCHAR(0)", c!"DOUBLE"], some ⟨[c!"customer id", c!"n"], .int 96⟩), (c!"empty", c!"new schema", [], none)] := by
  decide +kernel

/-- The second trip of the sample. -/
example : ∃ d1, (parseDdl (oneFile c!"f" (writeTql {} tripDb).1) tripParser (some c!"f")).2 = .ok (some d1) ∧
    (parseDdl (oneFile c!"g" (writeTql {} d1).1) tripParser (some c!"g")).2 = .ok (some d1) := by
  refine ⟨_, (C27_round_trip_partial _ tripParser {} rfl trip_readable (by decide) (by simp [oneFile])).2, ?_⟩
  have := C28_second_trip_partial (fun n => if n = c!"f" then some (.text (writeTql {} tripDb).1)
      else some (.text (writeTql {} (normalDb tripParser.databaseName tripParser.schemaName tripDb)).1)) tripParser {} rfl (by decide) (by decide)
    trip_readable (f := c!"f") (g := c!"g") (by decide) (by decide) (by simp) (C27_round_trip_partial _ tripParser {} rfl trip_readable (by decide) (by simp)).2 (by simp)
  have e := (C27_round_trip_partial (oneFile c!"g" (writeTql {} (normalDb tripParser.databaseName tripParser.schemaName tripDb)).1) tripParser {} rfl
    (readable_normalDb trip_readable (name := c!"copy") (schema := c!"new schema") (by decide) (by decide)) (f := c!"g") (by decide) (by simp [oneFile]; rfl)).2
  rw [e]
  exact congrArg _ (congrArg _ (normalDb_normal trip_readable))

/-- A database in snake case. -/
def snakeDb : Database :=
  { name := c!"web_shop"
    tables :=
      [(c!"customer", { name := c!"customer", schema := c!"falcon_default_schema", pk := [c!"id"], shard := none
                        cols := [(c!"id", ⟨c!"id", c!"INT"⟩)], fks := [], rels := [] }),
       (c!"order_line_", { name := c!"order_line_", schema := c!"falcon_default_schema", pk := [], shard := none
                           cols := [(c!"customer_id", ⟨c!"customer_id", c!"INT"⟩)]
                           fks := [(c!"fk_1", ⟨c!"fk_1", c!"order_line_", [c!"customer_id"], c!"customer", [c!"id"]⟩)], rels := [] })]
    schemas := [(c!"falcon_default_schema", 2)] }

/-- The same in camel case. -/
def camelDb : Database :=
  { name := c!"WebShop"
    tables :=
      [(c!"Customer", { name := c!"Customer", schema := c!"falcon_default_schema", pk := [c!"id"], shard := none
                        cols := [(c!"id", ⟨c!"id", c!"INT"⟩)], fks := [], rels := [] }),
       (c!"OrderLine", { name := c!"OrderLine", schema := c!"falcon_default_schema", pk := [], shard := none
                         cols := [(c!"customer_id", ⟨c!"customer_id", c!"INT"⟩)]
                         fks := [(c!"fk_1", ⟨c!"fk_1", c!"OrderLine", [c!"customer_id"], c!"Customer", [c!"id"]⟩)], rels := [] })]
    schemas := [(c!"falcon_default_schema", 2)] }

theorem snake_camel : DatabaseAs { camelcase := true } snakeDb camelDb := by
  have w1 : PrintedAs { camelcase := true } c!"web_shop" c!"WebShop" := ⟨0, [c!"web", c!"shop"], 0, by decide, by decide, by decide, by decide⟩
  have w2 : PrintedAs { camelcase := true } c!"customer" c!"Customer" := ⟨0, [c!"customer"], 0, by decide, by decide, by decide, by decide⟩
  have w3 : PrintedAs { camelcase := true } c!"order_line_" c!"OrderLine" := ⟨0, [c!"order", c!"line"], 1, by decide, by decide, by decide, by decide⟩
  have w4 : PrintedAs { camelcase := true } c!"falcon_default_schema" c!"falcon_default_schema" := rfl
  exact ⟨w1, .cons ⟨w2, w2, w4, rfl, rfl, rfl, .nil, .nil⟩ (.cons ⟨w3, w3, w4, rfl, rfl, rfl, .cons ⟨rfl, rfl, w3, rfl, w2, rfl⟩ .nil, .nil⟩ .nil), .cons w4 .nil⟩

/-- The trip under a case option, by the theorem. -/
example : (parseDdl (oneFile c!"f" (writeTql { camelcase := true } snakeDb).1) tripParser (some c!"f")).2 =
    .ok (some (normalDb c!"copy" c!"new schema" camelDb)) :=
  (C27_printed_partial _ tripParser { camelcase := true } snake_camel (by decide +kernel) (by decide) (by simp [oneFile])).2

/-! ## Where it fails -/

/-- The trip of a database through a file. -/
def trip (db : Database) : Except PyErr (Option Database) := (parseDdl (oneFile c!"f" (writeTql {} db).1) { databaseName := db.name, schemaName := c!"s" } (some c!"f")).2

/-- A database with one table. -/
def soleDb (t : Table) : Database := { name := c!"d", tables := [(t.name, t)], schemas := [(t.schema, 1)] }

def wordFK : Table := { name := c!"t", schema := c!"s", pk := [], shard := none, cols := [(c!"a", ⟨c!"a", c!"INT"⟩)], rels := []
                        fks := [(c!"my_constraint", ⟨c!"my_constraint", c!"t", [c!"a"], c!"t", [c!"a"]⟩)] }

/-- C27 fails: a foreign key whose name contains the word "constraint" is lost. -/
theorem C27_constraint_lost : ∃ db, trip (soleDb wordFK) = .ok (some db) ∧ db.tables.map (fun p => p.2.fks) = [[]] :=
  ⟨soleDb { wordFK with fks := [], cols := [(c!"a", ⟨c!"a", c!"BIGINT"⟩)] }, by decide +kernel, by decide⟩

def wordRel : Table := { name := c!"foreign_sales", schema := c!"s", pk := [], shard := none, cols := [(c!"a", ⟨c!"a", c!"INT"⟩)], fks := []
                         rels := [(c!"r", ⟨c!"r", c!"foreign_sales", c!"u", c!"(a = b)"⟩)] }

/-- C27 fails: a relationship of a table whose name contains the word "foreign" is lost. -/
theorem C27_foreign_lost : ∃ db, trip (soleDb wordRel) = .ok (some db) ∧ db.tables.map (fun p => p.2.rels) = [[]] :=
  ⟨soleDb { wordRel with rels := [], cols := [(c!"a", ⟨c!"a", c!"BIGINT"⟩)] }, by decide +kernel, by decide⟩

def wordCond : Table := { name := c!"t", schema := c!"s", pk := [], shard := none, cols := [], fks := []
                          rels := [(c!"r", ⟨c!"r", c!"t", c!"u", c!"(cast(a as int) = b)"⟩)] }

/-- C27 fails: a condition with the word "as" is cut. -/
theorem C27_condition_cut : ∃ db, trip (soleDb wordCond) = .ok (some db) ∧ db.tables.map (fun p => p.2.rels.vals.map (fun r => (r.toTable, r.conditions))) ≠
    [[(c!"u", c!"(cast(a as int) = b)")]] :=
  ⟨soleDb { wordCond with rels := [(c!"r", ⟨c!"r", c!"t", c!"u", c!"int) = b)"⟩)] }, by decide +kernel, by decide⟩

/-- Its only column has a type that `Column` accepts, as it begins with VARCHAR. -/
def typeText : Table := { name := c!"t", schema := c!"s", pk := [], shard := none, fks := [], rels := []
                          cols := [(c!"a", ⟨c!"a", c!"VARCHAR(0), b NUMBER(5)"⟩)] }

/-- C28 fails: with plain names a second column hidden in a type has the type INT after the first trip and BIGINT after the second. -/
theorem C28_type_text : mkColumn (some c!"a") (some c!"VARCHAR(0), b NUMBER(5)") = .ok ⟨c!"a", c!"VARCHAR(0), b NUMBER(5)"⟩ ∧
    ∃ d1 d2, trip (soleDb typeText) = .ok (some d1) ∧ trip d1 = .ok (some d2) ∧
      d1.tables.map (fun p => p.2.cols.vals) = [[⟨c!"a", c!"VARCHAR(0)"⟩, ⟨c!"b", c!"INT"⟩]] ∧
      d2.tables.map (fun p => p.2.cols.vals) = [[⟨c!"a", c!"VARCHAR(0)"⟩, ⟨c!"b", c!"BIGINT"⟩]] :=
  ⟨by decide, soleDb { typeText with cols := [(c!"a", ⟨c!"a", c!"VARCHAR(0)"⟩), (c!"b", ⟨c!"b", c!"INT"⟩)] },
    soleDb { typeText with cols := [(c!"a", ⟨c!"a", c!"VARCHAR(0)"⟩), (c!"b", ⟨c!"b", c!"BIGINT"⟩)] }, by decide +kernel, by decide +kernel, by decide, by decide⟩

/-- C27 fails: the text of a table with a primary key but no column cannot be read. -/
theorem C27_no_column_raises : trip (soleDb { name := c!"t", schema := c!"s", pk := [c!"a"], shard := none, cols := [], fks := [], rels := [] }) = .error .index := by
  decide +kernel

def blankKey : Table := { name := c!"t", schema := c!"s", pk := [c!"my id"], shard := none, cols := [(c!"my id", ⟨c!"my id", c!"INT"⟩)], fks := [], rels := [] }

/-- C27 fails: the names in a primary key lose their blanks. -/
theorem C27_blank_in_key : ∃ db, trip (soleDb blankKey) = .ok (some db) ∧ db.tables.map (fun p => (p.2.pk, p.2.cols.vals.map (·.name))) = [([c!"myid"], [c!"my id"])] :=
  ⟨soleDb { blankKey with pk := [c!"myid"], cols := [(c!"my id", ⟨c!"my id", c!"BIGINT"⟩)] }, by decide +kernel, by decide⟩

def addressFK : Table := { name := c!"t", schema := c!"s", pk := [], shard := none, cols := [(c!"mail address", ⟨c!"mail address", c!"INT"⟩)], rels := []
                           fks := [(c!"fk", ⟨c!"fk", c!"t", [c!"mail address"], c!"t", [c!"mail address"]⟩)] }

/-- C27 fails: a foreign key with the text " add" in the name of a column is lost. -/
theorem C27_address_lost : ∃ db, trip (soleDb addressFK) = .ok (some db) ∧ db.tables.map (fun p => p.2.fks) = [[]] :=
  ⟨soleDb { addressFK with fks := [], cols := [(c!"mail address", ⟨c!"mail address", c!"BIGINT"⟩)] }, by decide +kernel, by decide⟩

def keyColumn : Table := { name := c!"t", schema := c!"s", pk := [], shard := none, cols := [(c!"monkey house", ⟨c!"monkey house", c!"INT"⟩), (c!"n", ⟨c!"n", c!"INT"⟩)], fks := [], rels := [] }

/-- C27 fails: a column whose name contains the text "key " is lost. -/
theorem C27_key_lost : ∃ db, trip (soleDb keyColumn) = .ok (some db) ∧ db.tables.map (fun p => p.2.cols.vals.map (·.name)) = [[c!"n"]] :=
  ⟨soleDb { keyColumn with cols := [(c!"n", ⟨c!"n", c!"BIGINT"⟩)] }, by decide +kernel, by decide⟩

def openColumn : Table := { name := c!"t", schema := c!"s", pk := [], shard := none, cols := [(c!"a (b", ⟨c!"a (b", c!"BIGINT"⟩), (c!"n", ⟨c!"n", c!"BIGINT"⟩)], fks := [], rels := [] }

/-- C27 fails: a column whose name has an open parenthesis swallows the columns after it. -/
theorem C27_open_lost : ∃ db, trip (soleDb openColumn) = .ok (some db) ∧ db.tables.map (fun p => p.2.cols.vals.map (·.name)) = [[c!"a (b"]] :=
  ⟨soleDb { openColumn with cols := [(c!"a (b", ⟨c!"a (b", c!"BIGINT"⟩)] }, by decide +kernel, by decide⟩

def parenFK : Table := { name := c!"t", schema := c!"s", pk := [], shard := none, cols := [(c!"a (b)", ⟨c!"a (b)", c!"BIGINT"⟩)], rels := []
                         fks := [(c!"fk", ⟨c!"fk", c!"t", [c!"a (b)"], c!"t", [c!"a (b)"]⟩)] }

/-- C27 fails: a foreign key to a column with a blank and a parenthesis in its name comes back with another column. -/
theorem C27_parenthesis_lost : ∃ db, trip (soleDb parenFK) = .ok (some db) ∧ db.tables.map (fun p => p.2.fks.vals.map (·.toKeys)) = [[[c!"b)"]]] :=
  ⟨soleDb { parenFK with fks := [(c!"fk", ⟨c!"fk", c!"t", [c!"a (b)"], c!"t", [c!"b)"]⟩)] }, by decide +kernel, by decide⟩

/-- C27 fails: a table in another schema comes back in the schema of the parser. -/
theorem C27_schema_lost : ∃ db, trip (soleDb { wordFK with schema := c!"other", fks := [] }) = .ok (some db) ∧ db.tables.map (fun p => p.2.schema) = [c!"s"] :=
  ⟨soleDb { wordFK with fks := [], cols := [(c!"a", ⟨c!"a", c!"BIGINT"⟩)] }, by decide +kernel, by decide⟩

end Verif.Props
