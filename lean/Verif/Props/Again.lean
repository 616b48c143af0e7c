import Verif.Lemmas.Again
import Verif.Props.Cli
import Verif.Props.RoundTrip
/-
C72, C73: converting a converted file, and comparing a file with its conversion.
-/

namespace Verif.Props
open Verif Verif.Spec

/-- The file a conversion writes. -/
theorem converted_text {env : Env} {a : ConvertArgs} {w w1 : World} {f n g : Str} {db : Database} (ha : ConvertDocumented a) (hav : a.version = false)
    (hf : a.fromDdl = some f) (hfn : f ≠ []) (hn : a.database = some n) (hg : a.toTql = some g) (hgn : g ≠ []) (hgs : g ≠ c!"-")
    (hx : ∀ x, a.toExcel = some x → x ≠ [] → ¬ WorkbookName x g) (hts : Given a.toTs → g ≠ n ++ c!".tmp")
    (hdb : (parseDdl w.disk.fs { databaseName := n, schemaName := a.schema } (some f)).2 = .ok (some db))
    (h1 : convertMain env a w = (w1, .ok ())) :
    w1.disk g = some (.file (.text (writeTql ⟨⟨a.uppercase, a.lowercase, a.camelcase⟩, a.createDb⟩ db).1)) := by
  obtain ⟨d, hd, -, e⟩ := C65_to_tql ha hav hg hgn hgs h1
  rw [C65_from_ddl hf hfn hn] at hd
  simp only [hdb, Except.ok.injEq, Option.some.injEq] at hd
  subst hd
  have : db.name = n := ((C36_parsed_database_consistent _ _ _).1 db hdb).1.name
  exact e hx (by rw [this]; exact hts)

/-! ## C72 -/

/-- C72: converting a file that convert_ddl wrote, with the same options, leaves the same text; the second file may be the first.  `db'` is
the database with the names as they are printed.  Full claim: for every DDL file.  Missing: names and conditions that are not read back
(C27), and columns of type INT, which become BIGINT (`C72_int`). -/
theorem C72_again_partial {env : Env} {a b : ConvertArgs} {w w1 w2 : World} {f n g h : Str} {db db' : Database}
    (ha : ConvertDocumented a) (hav : a.version = false)
    (hf : a.fromDdl = some f) (hfn : f ≠ []) (hn : a.database = some n) (hg : a.toTql = some g) (hgn : g ≠ []) (hgs : g ≠ c!"-")
    (hhn : h ≠ []) (hhs : h ≠ c!"-") (hb : b = { a with fromDdl := some g, toTql := some h })
    (hx : ∀ x, a.toExcel = some x → x ≠ [] → ¬ WorkbookName x g ∧ ¬ WorkbookName x h)
    (hts : Given a.toTs → g ≠ n ++ c!".tmp" ∧ h ≠ n ++ c!".tmp")
    (hdb : (parseDdl w.disk.fs { databaseName := n, schemaName := a.schema } (some f)).2 = .ok (some db))
    (hp : DatabaseAs ⟨a.uppercase, a.lowercase, a.camelcase⟩ db db') (hr : ReadableDb db')
    (hi : ∀ m t, TableOf db m t → ∀ q c, ColumnOf t q c → c.type ≠ c!"INT")
    (h1 : convertMain env a w = (w1, .ok ())) (h2 : convertMain env b w1 = (w2, .ok ())) :
    (∃ text, w1.disk g = some (.file (.text text))) ∧ w2.disk h = w1.disk g := by
  have e1 := converted_text ha hav hf hfn hn hg hgn hgs (fun x h1 h2 => (hx x h1 h2).1) (fun h => (hts h).1) hdb h1
  refine ⟨⟨_, e1⟩, ?_⟩
  have hfs : w1.disk.fs g = some (.text (writeTql ⟨⟨a.uppercase, a.lowercase, a.camelcase⟩, a.createDb⟩ db).1) := by simp [Disk.fs, e1]
  have hdb2 := (C27_printed_partial w1.disk.fs { databaseName := n, schemaName := a.schema } ⟨⟨a.uppercase, a.lowercase, a.camelcase⟩, a.createDb⟩ hp hr hgn hfs).2
  subst hb
  have hb : ConvertDocumented { a with fromDdl := some g, toTql := some h } :=
    ⟨.inr (.inr (.inl ⟨g, rfl, hgn⟩)), fun _ => ha.named (.inl ⟨f, hf, hfn⟩)⟩
  have e2 := converted_text hb hav rfl hgn hn rfl hhn hhs (fun x h1 h2 => (hx x h1 h2).2) (fun h => (hts h).2) hdb2 h2
  rw [e1, e2]
  have hc := ((C36_parsed_database_consistent _ _ _).1 db hdb).1
  rw [writeTql_same (databaseAs_again hp hc hi) hp (schemaNames_again hp hc) hr]

theorem pair_of_snd {α β : Type} {p : α × β} {b : β} (h : p.2 = b) : p = (p.1, b) := by rw [← h]

/-- A file to convert. -/
def againText : Str := c!"create table [dbo].[web_shop] ([Shop Id] int not null, [Name] varchar(40), [Code] char(3), primary key ([Code]));
create table sale (shop bigint, sold timestamp, amount decimal(10,2)) partition by hash (16) key(shop);
alter table sale add constraint fk1 foreign key (shop) references web_shop (Code);
alter table sale add relationship with web_shop as (sale.amount > 1);"

/-- What it describes. -/
def againDb : Database :=
  { name := c!"my_data"
    tables :=
      [(c!"web_shop", { name := c!"web_shop", schema := c!"falcon_default_schema", pk := [c!"Code"], shard := none
                        cols := [(c!"Shop Id", ⟨c!"Shop Id", c!"BIGINT"⟩), (c!"Name", ⟨c!"Name", c!"VARCHAR(0)"⟩), (c!"Code", ⟨c!"Code", c!"VARCHAR(0)"⟩)]
                        fks := [], rels := [] }),
       (c!"sale", { name := c!"sale", schema := c!"falcon_default_schema", pk := [], shard := some ⟨[c!"shop"], .int 16⟩
                    cols := [(c!"shop", ⟨c!"shop", c!"BIGINT"⟩), (c!"sold", ⟨c!"sold", c!"DATETIME"⟩), (c!"amount", ⟨c!"amount", c!"DOUBLE"⟩)]
                    fks := [(c!"fk1", ⟨c!"fk1", c!"sale", [c!"shop"], c!"web_shop", [c!"Code"]⟩)]
                    rels := [(c!"REL_sale_to_web_shop", ⟨c!"REL_sale_to_web_shop", c!"sale", c!"web_shop", c!"(sale.amount > 1)"⟩)] })]
    schemas := [(c!"falcon_default_schema", 2)] }

/-- The same with the names as they are printed in camel case. -/
def againCamel : Database :=
  { name := c!"MyData"
    tables :=
      [(c!"WebShop", { name := c!"WebShop", schema := c!"falcon_default_schema", pk := [c!"Code"], shard := none
                       cols := [(c!"Shop Id", ⟨c!"Shop Id", c!"BIGINT"⟩), (c!"Name", ⟨c!"Name", c!"VARCHAR(0)"⟩), (c!"Code", ⟨c!"Code", c!"VARCHAR(0)"⟩)]
                       fks := [], rels := [] }),
       (c!"Sale", { name := c!"Sale", schema := c!"falcon_default_schema", pk := [], shard := some ⟨[c!"shop"], .int 16⟩
                    cols := [(c!"shop", ⟨c!"shop", c!"BIGINT"⟩), (c!"sold", ⟨c!"sold", c!"DATETIME"⟩), (c!"amount", ⟨c!"amount", c!"DOUBLE"⟩)]
                    fks := [(c!"fk1", ⟨c!"fk1", c!"Sale", [c!"shop"], c!"WebShop", [c!"Code"]⟩)]
                    rels := [(c!"REL_sale_to_web_shop", ⟨c!"REL_sale_to_web_shop", c!"Sale", c!"WebShop", c!"(sale.amount > 1)"⟩)] })]
    schemas := [(c!"falcon_default_schema", 2)] }

theorem again_camel : DatabaseAs { camelcase := true } againDb againCamel := by
  have w1 : PrintedAs { camelcase := true } c!"my_data" c!"MyData" := ⟨0, [c!"my", c!"data"], 0, by decide, by decide, by decide, by decide⟩
  have w2 : PrintedAs { camelcase := true } c!"web_shop" c!"WebShop" := ⟨0, [c!"web", c!"shop"], 0, by decide, by decide, by decide, by decide⟩
  have w3 : PrintedAs { camelcase := true } c!"sale" c!"Sale" := ⟨0, [c!"sale"], 0, by decide, by decide, by decide, by decide⟩
  have w4 : PrintedAs { camelcase := true } c!"falcon_default_schema" c!"falcon_default_schema" := rfl
  exact ⟨w1, .cons ⟨w2, w2, w4, rfl, rfl, rfl, .nil, .nil⟩ (.cons ⟨w3, w3, w4, rfl, rfl, rfl, .cons ⟨rfl, rfl, w3, rfl, w2, rfl⟩ .nil,
    .cons ⟨rfl, rfl, w3, w2, rfl⟩ .nil⟩ .nil), .cons w4 .nil⟩

/-- A conversion of the file. -/
def againArgs : ConvertArgs := { fromDdl := some c!"f", database := some c!"my_data", toTql := some c!"g", camelcase := true, createDb := true }

theorem again_parses : (parseDdl (disk [(c!"f", .file (.text againText))]).fs { databaseName := c!"my_data", schemaName := againArgs.schema } (some c!"f")).2 =
    .ok (some againDb) := by
  decide +kernel

/-- Two conversions of the sample, the second over its own input, by the theorem. -/
example : ∃ w1 w2, convertMain (sayEnv []) againArgs ⟨disk [(c!"f", .file (.text againText))], []⟩ = (w1, .ok ()) ∧
    convertMain (sayEnv []) { againArgs with fromDdl := some c!"g" } w1 = (w2, .ok ()) ∧ w2.disk c!"g" = w1.disk c!"g" := by
  have h1 : (convertMain (sayEnv []) againArgs ⟨disk [(c!"f", .file (.text againText))], []⟩).2 = .ok () := by decide +kernel
  have h2 : (convertMain (sayEnv []) { againArgs with fromDdl := some c!"g" }
      (convertMain (sayEnv []) againArgs ⟨disk [(c!"f", .file (.text againText))], []⟩).1).2 = .ok () := by decide +kernel
  have hi : ∀ p ∈ againDb.tables, ∀ q ∈ p.2.cols, q.2.type ≠ c!"INT" := by decide
  have key : ∀ w1 w2, convertMain (sayEnv []) againArgs ⟨disk [(c!"f", .file (.text againText))], []⟩ = (w1, .ok ()) →
      convertMain (sayEnv []) { againArgs with fromDdl := some c!"g" } w1 = (w2, .ok ()) → w2.disk c!"g" = w1.disk c!"g" := fun w1 w2 e1 e2 =>
    (C72_again_partial (a := againArgs) (db := againDb) (n := c!"my_data") (w := ⟨disk [(c!"f", .file (.text againText))], []⟩) (f := c!"f") (g := c!"g") (h := c!"g")
      ((C60_convert _).1 (by decide +kernel)) rfl rfl
      (by decide) rfl rfl (by decide) (by decide) (by decide) (by decide) rfl (by intro x hx; cases hx) (by rintro ⟨s, hs, -⟩; cases hs) again_parses again_camel
      (by decide +kernel) (fun m t ht q c hc => hi (m, t) ht (q, c) hc) e1 e2).2
  exact ⟨_, _, pair_of_snd h1, pair_of_snd h2, key _ _ (pair_of_snd h1) (pair_of_snd h2)⟩

/-- C72 fails: a small NUMBER becomes INT in the first file and BIGINT in the second. -/
theorem C72_int : ∃ w1 w2, convertMain (sayEnv []) copyArgs ⟨disk [(c!"f", .file (.text c!"create table a (x number(5));"))], []⟩ = (w1, .ok ()) ∧
    convertMain (sayEnv []) { copyArgs with fromDdl := some c!"g", toTql := some c!"h" } w1 = (w2, .ok ()) ∧
    textAt w1 c!"g" = some c!"USE \"d\";\n\nDROP TABLE \"falcon_default_schema\".\"a\";\n\nCREATE TABLE \"falcon_default_schema\".\"a\" (\n    \"x\" INT\n);\n" ∧
    textAt w2 c!"h" = some c!"USE \"d\";\n\nDROP TABLE \"falcon_default_schema\".\"a\";\n\nCREATE TABLE \"falcon_default_schema\".\"a\" (\n    \"x\" BIGINT\n);\n" := by
  have h1 : (convertMain (sayEnv []) copyArgs ⟨disk [(c!"f", .file (.text c!"create table a (x number(5));"))], []⟩).2 = .ok () := by decide +kernel
  have h2 : (convertMain (sayEnv []) { copyArgs with fromDdl := some c!"g", toTql := some c!"h" }
    (convertMain (sayEnv []) copyArgs ⟨disk [(c!"f", .file (.text c!"create table a (x number(5));"))], []⟩).1).2 = .ok () := by decide +kernel
  exact ⟨_, _, pair_of_snd h1, pair_of_snd h2, by decide +kernel, by decide +kernel⟩

/-! ## C73 -/

/-- C73: ddldiff of a DDL file and of the TQL file convert_ddl made of it lists no differences exactly if no table is sharded and all
foreign keys name the same columns on both sides, as for a file and itself (C70).  Full claim: for every DDL file, none are listed.
Missing: names and conditions that are not read back (C27), sharded tables and other foreign keys, where the right side is false, and
columns of type INT (`C73_int`). -/
theorem C73_converted_partial (fr : Rat → Str) {env : Env} {a : ConvertArgs} {b : DiffArgs} {w w1 : World} {f n g : Str} {db : Database}
    (ha : ConvertDocumented a) (hav : a.version = false)
    (hf : a.fromDdl = some f) (hfn : f ≠ []) (hn : a.database = some n) (hg : a.toTql = some g) (hgn : g ≠ []) (hgs : g ≠ c!"-") (hfg : f ≠ g)
    (hx : ∀ x, a.toExcel = some x → ¬ WorkbookName x f ∧ ¬ WorkbookName x g) (hts : ¬ Given a.toTs)
    (hcase : a.uppercase = false ∧ a.lowercase = false ∧ a.camelcase = false)
    (hdb : (parseDdl w.disk.fs { databaseName := n, schemaName := a.schema } (some f)).2 = .ok (some db)) (hr : ReadableDb db)
    (hi : ∀ m t, TableOf db m t → ∀ q c, ColumnOf t q c → c.type ≠ c!"INT")
    (h1 : convertMain env a w = (w1, .ok ()))
    (hb : b = { ddl1 := some f, ddl2 := some g, database := n, schema := a.schema }) :
    diffMain fr w1.disk b = (.lists [] [], none) ↔
      (∀ n t, TableOf db n t → ∀ m fk, (m, fk) ∈ t.fks → fk.fromKeys.Perm fk.toKeys) ∧ (∀ n t, TableOf db n t → t.shard = none) := by
  have e1 := converted_text ha hav hf hfn hn hg hgn hgs (fun x h1 _ => (hx x h1).2) (fun h => absurd h hts) hdb h1
  obtain ⟨c1, c2, c3⟩ := hcase
  rw [c1, c2, c3] at e1
  have hfs : w1.disk.fs g = some (.text (writeTql ⟨{}, a.createDb⟩ db).1) := by simp [Disk.fs, e1]
  have hdb2 := (C27_round_trip_partial w1.disk.fs { databaseName := n, schemaName := a.schema } ⟨{}, a.createDb⟩ rfl hr hgn hfs).2
  have hkeep : w1.disk f = w.disk f := by
    have := C64_input_kept env a w f hf hfn (by rw [hg]; intro e; exact hfg (Option.some.inj e).symm) (fun x h => (hx x h).1) hts
    rw [h1] at this
    exact this
  have hff : w1.disk.fs f = w.disk.fs f := by simp [Disk.fs, hkeep]
  have hdb1 : (parseDdl w1.disk.fs { databaseName := n, schemaName := a.schema } (some f)).2 = .ok (some db) := by
    rw [← hdb]
    cases f with
    | nil => exact absurd rfl hfn
    | cons c f =>
      unfold parseDdl
      simp only [hff]
  have hc := ((C36_parsed_database_consistent _ _ _).1 db hdb).1
  have hd := databaseAs_again (o := {}) (database_default hr.keyed) hc hi
  have hsame : (normalDb n a.schema db).tables = db.tables := by
    simp only [normalDb]
    conv_rhs => rw [← List.map_id db.tables]
    apply List.map_congr_left
    intro p hp
    obtain ⟨-, ht⟩ : _ ∧ TableAs {} (normalTable a.schema p.2) p.2 := by
      have := hd.tables
      simp only [normalDb, List.forall₂_map_left_iff, List.forall₂_same] at this
      exact this p hp
    have hcols : (normalTable a.schema p.2).cols = p.2.cols := by
      conv_rhs => rw [ht.cols]
      conv_lhs => rw [← List.map_id (normalTable a.schema p.2).cols]
      apply List.map_congr_left
      intro q hq
      simp only [normalTable, List.mem_map] at hq
      obtain ⟨q', hq', rfl⟩ := hq
      have := hr.keyed.colNames p.1 p.2 hp q'.1 q'.2 hq'
      simp [ColumnAs, this]
    have hsch : p.2.schema = a.schema := hc.schema p.1 p.2 hp
    have hsh := ht.shard
    obtain ⟨pn, t⟩ := p
    cases t
    simp only [normalTable] at *
    simp [hcols, ← hsh, hsch]
  rw [← C21_same_text_partial _ _ _ db db hdb hdb]
  have hcmp : compareDatabases (fun _ => false) db (normalDb n a.schema db) = compareDatabases (fun _ => false) db db := by
    have hname : (normalDb n a.schema db).name = db.name := hc.name.symm
    simp only [compareDatabases, Database.getTable, Database.tableNames, hsame, hname]
  have hv : DiffDocumented w1.disk b := by
    subst hb
    refine ⟨f, g, rfl, hfn, ?_, rfl, hgn, ⟨_, e1⟩⟩
    unfold OnDisk
    cases h : w1.disk f with
    | some i => exact ⟨i, rfl⟩
    | none =>
      exfalso
      cases f with
      | nil => exact hfn rfl
      | cons c f =>
        unfold parseDdl at hdb1
        simp [Disk.fs, h] at hdb1
  unfold diffMain parseFor
  rw [if_pos ((C60_diff w1.disk b).2 hv)]
  subst hb
  simp only [hdb1, hdb2, hcmp]
  simp [Prod.ext_iff]

/-- A conversion of a table and a foreign key. -/
example : ∃ w1, convertMain (sayEnv []) copyArgs ⟨disk [(c!"f", .file (.text c!"create table a (x int);
alter table a add constraint k foreign key (x) references b (x);"))], []⟩ = (w1, .ok ()) ∧
    diffMain (fun _ => []) w1.disk { ddl1 := some c!"f", ddl2 := some c!"g", database := c!"d" } = (.lists [] [], none) := by
  have h1 : (convertMain (sayEnv []) copyArgs ⟨disk [(c!"f", .file (.text c!"create table a (x int);
alter table a add constraint k foreign key (x) references b (x);"))], []⟩).2 = .ok () := by decide +kernel
  refine ⟨_, pair_of_snd h1, ?_⟩
  refine (C73_converted_partial (a := copyArgs) (fun _ => []) (n := c!"d") (f := c!"f") (g := c!"g")
    (db := oneTable none [(c!"k", ⟨c!"k", c!"a", [c!"x"], c!"b", [c!"x"]⟩)]) ((C60_convert _).1 (by decide +kernel)) rfl rfl (by decide) rfl rfl (by decide)
    (by decide) (by decide) (by intro x hx; cases hx) (by rintro ⟨s, hs, -⟩; cases hs) ⟨rfl, rfl, rfl⟩ (by decide +kernel) (by decide +kernel) (by
      unfold TableOf ColumnOf oneTable
      simp) (pair_of_snd h1) rfl).2 ?_
  unfold TableOf oneTable
  simp

/-- C73 fails: a small NUMBER is INT in the DDL file and BIGINT in the TQL file. -/
theorem C73_int : ∃ w1, convertMain (sayEnv []) copyArgs ⟨disk [(c!"f", .file (.text c!"create table a (x number(5));"))], []⟩ = (w1, .ok ()) ∧
    (match diffMain (fun _ => []) w1.disk { ddl1 := some c!"f", ddl2 := some c!"g", database := c!"d" } with
      | (.lists [.colModified _ _ c] [.colModified _ _ c'], none) => some (c, c')
      | _ => none) = some (⟨c!"x", c!"BIGINT"⟩, ⟨c!"x", c!"INT"⟩) := by
  have h1 : (convertMain (sayEnv []) copyArgs ⟨disk [(c!"f", .file (.text c!"create table a (x number(5));"))], []⟩).2 = .ok () := by decide +kernel
  exact ⟨_, pair_of_snd h1, by decide +kernel⟩

end Verif.Props
