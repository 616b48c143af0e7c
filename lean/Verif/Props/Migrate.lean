import Verif.Lemmas.Alter
import Verif.Props.Compare
import Verif.Validator
/-
Properties C17, C20: executing the difference lists on a catalogue (Spec/Catalog.lean).
-/

namespace Verif.Props
open Verif Verif.Spec

/-- What the comparison of `db1` with `db2` must not miss for the differences to be a complete migration.  Each field excludes
one of the defects witnessed below. -/
structure Migratable (shared : Str → Bool) (db1 db2 : Database) : Prop where
  /-- tables on both sides are in the same schema (a move is not reported) -/
  schema : ∀ n t1 t2, TableOf db1 n t1 → TableOf db2 n t2 → t1.schema = t2.schema
  /-- no foreign key shares its name with a relationship -/
  names : ∀ n t1 t2, TableOf db1 n t1 → TableOf db2 n t2 → ∀ m,
    (∃ k, (m, k) ∈ t1.fks ∨ (m, k) ∈ t2.fks) → ¬ ∃ r, (m, r) ∈ t1.rels ∨ (m, r) ∈ t2.rels
  /-- shared shard key objects are equal -/
  shard : ∀ n t1 t2, TableOf db1 n t1 → TableOf db2 n t2 → shared n = true → t1.shard = t2.shard
  /-- foreign keys the code does not tell apart have the same columns -/
  fks : ∀ n t1 t2, TableOf db1 n t1 → TableOf db2 n t2 → ∀ m a b, (m, a) ∈ t1.fks → (m, b) ∈ t2.fks →
    FkReported a b ∨ (a.fromKeys = b.fromKeys ∧ a.toKeys = b.toKeys)

/-- Tables only `db2` has carry no foreign keys and relationships (the ALTER script only prints their CREATE TABLE). -/
def NewTablesBare (db1 db2 : Database) : Prop :=
  ∀ n t, TableOf db2 n t → (¬ ∃ u, TableOf db1 n u) → t.fks = [] ∧ t.rels = []

/-- `sv` holds database `db1` and has the schemas of the tables only `db2` has (the ALTER script creates no schemas). -/
structure Holds (sv : Server) (db1 db2 : Database) : Prop where
  cat : sv.cat = catOf db1
  schemas : ∀ n t, TableOf db2 n t → (¬ ∃ u, TableOf db1 n u) → t.schema = defaultSchema ∨ t.schema ∈ sv.schemas

theorem not_reported {a b : FK} (hn : a.name = b.name) : (!a.eq b) = false ↔ ¬ FkReported a b := by
  rw [Bool.not_eq_false', fkEq_iff]
  unfold FkReported
  tauto

theorem Migratable.apart {shared : Str → Bool} {db1 db2 : Database} (hm : Migratable shared db1 db2) {n : Str} {t1 t2 : Table}
    (m1 : TableOf db1 n t1) (m2 : TableOf db2 n t2) (m : Str) (hf : m ∈ t1.fks.keys ∨ m ∈ t2.fks.keys)
    (hr : m ∈ t1.rels.keys ∨ m ∈ t2.rels.keys) : False := by
  refine hm.names n _ _ m1 m2 m ?_ ?_
  · rcases hf with hf | hf
    · obtain ⟨p, hp, rfl⟩ := List.mem_map.1 hf; exact ⟨p.2, .inl hp⟩
    · obtain ⟨p, hp, rfl⟩ := List.mem_map.1 hf; exact ⟨p.2, .inr hp⟩
  · rcases hr with hf | hf
    · obtain ⟨p, hp, rfl⟩ := List.mem_map.1 hf; exact ⟨p.2, .inl hp⟩
    · obtain ⟨p, hp, rfl⟩ := List.mem_map.1 hf; exact ⟨p.2, .inr hp⟩

theorem detected_fst {shared : Str → Bool} {db1 db2 : Database} (h1 : WellKeyed db1) (h2 : WellKeyed db2)
    (hm : Migratable shared db1 db2) {n : Str} {t1 t2 : Table} (g1 : db1.tables.get? n = some t1)
    (g2 : db2.tables.get? n = some t2) : Detected (fun a b => !a.eq b) (shared n) t1 t2 := by
  have m1 := (tableOf_iff h1).2 g1
  have m2 := (tableOf_iff h2).2 g2
  have k1 := tableKeyed_of_get? h1 g1
  have k2 := tableKeyed_of_get? h2 g2
  refine ⟨hm.schema n _ _ m1 m2, ?_, fun h _ _ => by unfold shardOf; rw [hm.shard n _ _ m1 m2 h], ?_⟩
  · have key := hm.apart m1 m2
    exact ⟨fun m hf hr => key m (.inl hf) (.inl hr), fun m hf hr => key m (.inr hf) (.inr hr),
      fun m hf hr => key m (.inr hf) (.inl hr)⟩
  · intro m x y hx hy hr
    have hxm := Dict.mem_of_get? hx
    have hym := Dict.mem_of_get? hy
    have e : x.name = y.name := by
      have := k1.fkNames _ hxm
      have h' := k2.fkNames _ hym
      dsimp only at this h'
      rw [← this, ← h']
    have hnr := (not_reported e).1 hr
    rcases hm.fks n _ _ m1 m2 m x y hxm hym with h | ⟨h, h'⟩
    · exact absurd h hnr
    · have : x.toTable = y.toTable := by unfold FkReported at hnr; tauto
      simp [fkCon, h, h', this]

theorem detected_snd {shared : Str → Bool} {db1 db2 : Database} (h1 : WellKeyed db1) (h2 : WellKeyed db2)
    (hm : Migratable shared db1 db2) {n : Str} {t1 t2 : Table} (g1 : db1.tables.get? n = some t1)
    (g2 : db2.tables.get? n = some t2) : Detected (fun b a => !a.eq b) (shared n) t2 t1 := by
  obtain ⟨a, b, c, d⟩ := detected_fst h1 h2 hm g1 g2
  have key := hm.apart ((tableOf_iff h1).2 g1) ((tableOf_iff h2).2 g2)
  refine ⟨a.symm, ⟨fun m hf hr => key m (.inr hf) (.inr hr), fun m hf hr => key m (.inl hf) (.inl hr),
    fun m hf hr => key m (.inl hf) (.inr hr)⟩, fun h x y => (c h y x).symm, ?_⟩
  intro m y x hy hx hr
  rw [← a]
  exact (d m x y hx hy hr).symm

theorem migrate_fst {shared : Str → Bool} {db1 db2 : Database} (h1 : WellKeyed db1) (h2 : WellKeyed db2)
    (hm : Migratable shared db1 db2) (hb : NewTablesBare db1 db2) (sv : Server) (hsv : Holds sv db1 db2) :
    ∃ sv', Runs OldColumns sv (compareDatabases shared db1 db2).1 sv' ∧ CatSame sv'.cat (catOf db2) ∧
      sv'.dbs = sv.dbs ∧ sv'.current = sv.current ∧ sv'.schemas = sv.schemas := by
  rw [compareDatabases_fst h1 h2]
  obtain ⟨sv', r, a, b, c⟩ := db_phase (rep := fun a b => !a.eq b) (shared := shared) h1 h2
    (fun n t1 t2 g1 g2 => detected_fst h1 h2 hm g1 g2)
    (fun n t2 g1 g2 => hb n t2 ((tableOf_iff h2).2 g2) (no_tableOf_iff.2 g1)) _ (allNames_incr h1.tables h2.tables).nodup sv
    (fun n _ s => by rw [hsv.cat])
    (fun n t2 g1 g2 => hsv.schemas n t2 ((tableOf_iff h2).2 g2) (no_tableOf_iff.2 g1))
  refine ⟨sv', r, fun s n => ?_, c⟩
  by_cases hn : n ∈ allNames db1.tables db2.tables
  · exact a n hn s
  · rw [b n hn s, hsv.cat]
    rw [mem_allNames, not_or] at hn
    rw [catOf_eq, catOf_eq, (Dict.get?_eq_none_iff _ _).2 hn.1, (Dict.get?_eq_none_iff _ _).2 hn.2]
    trivial

theorem migrate_snd {shared : Str → Bool} {db1 db2 : Database} (h1 : WellKeyed db1) (h2 : WellKeyed db2)
    (hm : Migratable shared db1 db2) (hb : NewTablesBare db2 db1) (sv : Server) (hsv : Holds sv db2 db1) :
    ∃ sv', Runs OldColumns sv (compareDatabases shared db1 db2).2 sv' ∧ CatSame sv'.cat (catOf db1) ∧
      sv'.dbs = sv.dbs ∧ sv'.current = sv.current ∧ sv'.schemas = sv.schemas := by
  rw [compareDatabases_snd h1 h2]
  obtain ⟨sv', r, a, b, c⟩ := db_phase (rep := fun b a => !a.eq b) (shared := shared) h2 h1
    (fun n t1 t2 g1 g2 => detected_snd h1 h2 hm g2 g1)
    (fun n t2 g1 g2 => hb n t2 ((tableOf_iff h1).2 g2) (no_tableOf_iff.2 g1)) _ (allNames_incr h2.tables h1.tables).nodup sv
    (fun n _ s => by rw [hsv.cat])
    (fun n t2 g1 g2 => hsv.schemas n t2 ((tableOf_iff h1).2 g2) (no_tableOf_iff.2 g1))
  refine ⟨sv', r, fun s n => ?_, c⟩
  by_cases hn : n ∈ allNames db2.tables db1.tables
  · exact a n hn s
  · rw [b n hn s, hsv.cat]
    rw [mem_allNames, not_or] at hn
    rw [catOf_eq, catOf_eq, (Dict.get?_eq_none_iff _ _).2 hn.1, (Dict.get?_eq_none_iff _ _).2 hn.2]
    trivial

/-! ## C17 -/

/-- C17.  Full claim: for every pair of databases, executing the first list on a server holding the first database succeeds and
leaves the second database, and vice versa.  What holds: the same, for pairs on which the comparison misses nothing
(`Migratable`) and whose new tables have no foreign keys or relationships and no new schema; every one of these conditions is needed
(`C17_new_table_loses_keys`, `C17_new_schema_refused`, `C17_schema_move_missed`, `C17_changed_foreign_key_missed`, `C17_name_clash_refused`). -/
theorem C17_differences_migrate_partial {shared : Str → Bool} {db1 db2 : Database} (h1 : WellKeyed db1) (h2 : WellKeyed db2)
    (hm : Migratable shared db1 db2) :
    (NewTablesBare db1 db2 → ∀ sv : Server, Holds sv db1 db2 →
      ∃ sv', execAll sv ((compareDatabases shared db1 db2).1.map stmtOf) = some sv' ∧ CatSame sv'.cat (catOf db2)) ∧
    (NewTablesBare db2 db1 → ∀ sv : Server, Holds sv db2 db1 →
      ∃ sv', execAll sv ((compareDatabases shared db1 db2).2.map stmtOf) = some sv' ∧ CatSame sv'.cat (catOf db1)) := by
  constructor
  · intro hb sv hsv
    obtain ⟨sv', r, c, -⟩ := migrate_fst h1 h2 hm hb sv hsv
    exact ⟨sv', r.execAll, c⟩
  · intro hb sv hsv
    obtain ⟨sv', r, c, -⟩ := migrate_snd h1 h2 hm hb sv hsv
    exact ⟨sv', r.execAll, c⟩

/-- An older version of `dbFk`: other key, other columns, one table more. -/
def dbOld : Database :=
  (((Database.empty c!"d").addTable
      { tblA with cols := [(c!"x", ⟨c!"x", c!"INT"⟩), (c!"w", ⟨c!"w", c!"DATE"⟩)]
                  fks := []
                  rels := [(c!"R", ⟨c!"R", c!"a", c!"b", c!"(x = y)"⟩)] }).addTable
    { tblB with pk := [], shard := none }).addTable { tblB with name := c!"gone" }

/-- `dbOld` and `dbFk` meet the hypotheses of `C17_differences_migrate_partial`. -/
theorem dbOld_migratable : WellKeyed dbOld ∧ WellKeyed dbFk ∧ Migratable (fun _ => false) dbOld dbFk ∧ NewTablesBare dbOld dbFk ∧
    Holds { cat := catOf dbOld } dbOld dbFk := by
  have t1 : ∀ n t, TableOf dbOld n t → (n, t) ∈ dbOld.tables := fun _ _ h => h
  have t2 : ∀ n t, TableOf dbFk n t → (n, t) ∈ dbFk.tables := fun _ _ h => h
  refine ⟨by decide, by decide, ⟨?_, ?_, by simp, ?_⟩, ?_, rfl, ?_⟩
  · have : ∀ p ∈ dbOld.tables, ∀ q ∈ dbFk.tables, p.1 = q.1 → p.2.schema = q.2.schema := by decide
    exact fun n a b ha hb => this _ ha _ hb rfl
  · have : ∀ p ∈ dbOld.tables, ∀ q ∈ dbFk.tables, p.1 = q.1 → ∀ k ∈ p.2.fks.keys ++ q.2.fks.keys, k ∉ p.2.rels.keys ++ q.2.rels.keys := by
      decide
    intro n a b ha hb m ⟨k, hk⟩ ⟨r, hr⟩
    refine this _ ha _ hb rfl m ?_ ?_
    · rcases hk with hk | hk
      · exact List.mem_append_left _ (List.mem_map.2 ⟨_, hk, rfl⟩)
      · exact List.mem_append_right _ (List.mem_map.2 ⟨_, hk, rfl⟩)
    · rcases hr with hk | hk
      · exact List.mem_append_left _ (List.mem_map.2 ⟨_, hk, rfl⟩)
      · exact List.mem_append_right _ (List.mem_map.2 ⟨_, hk, rfl⟩)
  · have : ∀ p ∈ dbOld.tables, p.2.fks = [] := by decide
    intro n a b ha hb m x y hx
    rw [this _ ha] at hx; simp at hx
  · have : ∀ p ∈ dbFk.tables, p.1 ∈ dbOld.tables.keys := by decide
    intro n t ht hno
    obtain ⟨p, hp, e⟩ := List.mem_map.1 (this _ ht)
    dsimp only at e
    exact absurd ⟨p.2, by rw [← e]; exact hp⟩ hno
  · have : ∀ p ∈ dbFk.tables, p.2.schema = defaultSchema := by decide
    exact fun n t ht _ => .inl (this _ ht)

/-- On this pair the first list adds a primary key, a shard key and a foreign key, drops a relationship, a column and a table and
changes a type. -/
example : (compareDatabases (fun _ => false) dbOld dbFk).1.length = 7 := by decide

/-- A table `n` new in the second database: its foreign keys are never added. -/
def dbNew : Database := (Database.empty c!"d").addTable tblB

theorem C17_new_table_loses_keys :
    let d := compareDatabases (fun _ => true) dbNew dbFk
    ∃ sv, execAll { cat := catOf dbNew } (d.1.map stmtOf) = some sv ∧
      (sv.cat defaultSchema c!"a").map (·.cons c!"FK") = some none ∧
      (catOf dbFk defaultSchema c!"a").map (fun T => (T.cons c!"FK").isSome) = some true := by
  refine ⟨_, rfl, by decide, by decide⟩

/-- A new table in a new schema: the script does not create the schema. -/
theorem C17_new_schema_refused :
    let db2 := (Database.empty c!"d").addTable { tblB with schema := c!"other" }
    execAll {} ((compareDatabases (fun _ => true) (Database.empty c!"d") db2).1.map stmtOf) |>.isNone := by
  decide

/-- Moving a table to another schema is not reported. -/
theorem C17_schema_move_missed :
    let db1 := (Database.empty c!"d").addTable { tblB with shard := none }
    let db2 := (Database.empty c!"d").addTable { tblB with schema := c!"other", shard := none }
    compareDatabases (fun _ => false) db1 db2 = ([], []) ∧
      (catOf db1 defaultSchema c!"b").isSome = true ∧ (catOf db2 defaultSchema c!"b").isSome = false := by
  decide

/-- A changed foreign key between equally named columns is not reported. -/
theorem C17_changed_foreign_key_missed :
    let db2 := (Database.empty c!"d").addTable
      { tblA with fks := [(c!"FK", ⟨c!"FK", c!"a", [c!"x"], c!"b", [c!"z"]⟩)] } |>.addTable tblB
    compareDatabases (fun _ => true) dbFkSame db2 = ([], []) ∧
      (catOf dbFkSame defaultSchema c!"a").map (·.cons c!"FK") ≠ (catOf db2 defaultSchema c!"a").map (·.cons c!"FK") := by
  decide

/-- A foreign key replacing a relationship of the same name is added before the relationship is dropped, and refused. -/
theorem C17_name_clash_refused :
    let db1 := (Database.empty c!"d").addTable { tblA with fks := [], rels := [(c!"FK", ⟨c!"FK", c!"a", c!"a", c!"x = x"⟩)] }
    let db2 := (Database.empty c!"d").addTable tblA
    (execAll { cat := catOf db1 } ((compareDatabases (fun _ => true) db1 db2).1.map stmtOf)).isSome = false := by
  decide

/-! ## C20 -/

/-- The key columns an entry puts on its table. -/
def addedKey : Diff → Option (List Str)
  | .pkAdded _ _ k => some k
  | .shardAdded _ _ _ k => some k
  | .fkAdded _ _ fk => some fk.fromKeys
  | _ => none

/-- `sv` has, in table `t`, all columns in `l`. -/
def HasColumns (sv : Server) (t : Table) (l : List Str) : Prop :=
  ∃ T, sv.cat t.schema t.name = some T ∧ ∀ c ∈ l, c ∈ T.cols.map Prod.fst

theorem hasColumns_iff {sv : Server} {x : Diff} (h : OldColumns sv x) {l : List Str} (hk : addedKey x = some l)
    (hn : ∀ q ∈ x.table.cols, q.1 = q.2.name) :
    HasColumns sv x.table l ↔ ∀ c ∈ l, ∃ col, ColumnOf x.table c col := by
  obtain ⟨T, hT, hc⟩ := h (by cases x <;> simp_all [addedKey, Diff.kind]) (by cases x <;> simp_all [addedKey, Diff.kind])
  have e : ∀ c, c ∈ T.cols.map Prod.fst ↔ ∃ col, ColumnOf x.table c col := by
    intro c
    rw [hc]
    simp only [ctable, bareTable, List.map_map, List.mem_map, Function.comp]
    constructor
    · rintro ⟨p, hp, rfl⟩
      exact ⟨p.2, by rw [← hn p hp]; exact hp⟩
    · rintro ⟨col, h⟩
      exact ⟨_, h, (hn _ h).symm⟩
  constructor
  · rintro ⟨T', hT', h⟩ c hc'
    rw [hT] at hT'; cases hT'
    exact (e c).1 (h c hc')
  · intro h
    exact ⟨T, hT, fun c hc' => (e c).2 (h c hc')⟩

/-- C20.  Full claim: when the script is executed, every key it adds names columns that exist at that moment.  What holds: keys
are always added before the table's columns change, so the claim is true of an entry exactly when its key columns are columns
of the *old* version of the table (`x.table`); a key on a new column violates it (`C20_key_on_new_column`).  The columns a
foreign key refers to in the other table are in `C20_referenced_columns_exist_partial` (Props/MigrateOrder.lean). -/
theorem C20_key_columns_exist_partial {shared : Str → Bool} {db1 db2 : Database} (h1 : WellKeyed db1) (h2 : WellKeyed db2)
    (hm : Migratable shared db1 db2) :
    (NewTablesBare db1 db2 → ∀ sv : Server, Holds sv db1 db2 → ∀ a x b k,
      (compareDatabases shared db1 db2).1 = a ++ x :: b → addedKey x = some k →
      ∃ sv', execAll sv (a.map stmtOf) = some sv' ∧ (HasColumns sv' x.table k ↔ ∀ c ∈ k, ∃ col, ColumnOf x.table c col)) ∧
    (NewTablesBare db2 db1 → ∀ sv : Server, Holds sv db2 db1 → ∀ a x b k,
      (compareDatabases shared db1 db2).2 = a ++ x :: b → addedKey x = some k →
      ∃ sv', execAll sv (a.map stmtOf) = some sv' ∧ (HasColumns sv' x.table k ↔ ∀ c ∈ k, ∃ col, ColumnOf x.table c col)) := by
  have key : ∀ x k, addedKey x = some k → x.kind ≠ 0 := by
    intro x k h; cases x <;> simp_all [addedKey, Diff.kind]
  constructor
  · intro hb sv hsv a x b k hl hk
    obtain ⟨sv', r, -⟩ := migrate_fst h1 h2 hm hb sv hsv
    obtain ⟨s, hs, hp⟩ := r.prefix hl
    have hx : x ∈ (compareDatabases shared db1 db2).1 := by rw [hl]; simp
    obtain ⟨n, t', g1, g2⟩ := (common_of_mem h1 h2 shared x (key x k hk)).1 hx
    refine ⟨s, hs, hasColumns_iff hp hk ?_⟩
    exact (tableKeyed_of_get? h1 g1).colNames
  · intro hb sv hsv a x b k hl hk
    obtain ⟨sv', r, -⟩ := migrate_snd h1 h2 hm hb sv hsv
    obtain ⟨s, hs, hp⟩ := r.prefix hl
    have hx : x ∈ (compareDatabases shared db1 db2).2 := by rw [hl]; simp
    obtain ⟨n, t', g1, g2⟩ := (common_of_mem h1 h2 shared x (key x k hk)).2 hx
    refine ⟨s, hs, hasColumns_iff hp hk ?_⟩
    exact (tableKeyed_of_get? h2 g2).colNames

/-- The first list for `dbOld` and `dbFk` has an entry with key columns. -/
example : ∃ a x b k, (compareDatabases (fun _ => false) dbOld dbFk).1 = a ++ x :: b ∧ addedKey x = some k ∧ a ≠ [] ∧ k ≠ [] :=
  ⟨(compareDatabases (fun _ => false) dbOld dbFk).1.take 4, (compareDatabases (fun _ => false) dbOld dbFk).1[4]'(by decide),
    (compareDatabases (fun _ => false) dbOld dbFk).1.drop 5, [c!"y"], by decide, by decide, by decide, by decide⟩

/-- `dbOld` without column `y` in table `b`. -/
def dbNoY : Database :=
  ((Database.empty c!"d").addTable { tblA with fks := [] }).addTable
    { tblB with pk := [], shard := none, cols := [(c!"z", ⟨c!"z", c!"DATE"⟩)] }

/-- The primary key on the new column `y` comes before the column itself; both databases are valid. -/
theorem C20_key_on_new_column :
    let d := (compareDatabases (fun _ => false) dbNoY dbFk).1
    ∃ x ∈ d, ∃ a b, d = a ++ x :: b ∧ addedKey x = some [c!"y"] ∧ x.table.name = c!"b" ∧
      (∃ sv, execAll { cat := catOf dbNoY } (a.map stmtOf) = some sv ∧
        (sv.cat defaultSchema c!"b").map (fun T => decide (c!"y" ∈ T.cols.map Prod.fst)) = some false) ∧
      dbNoY.validate.map (·.isValid) = .ok true ∧ dbFk.validate.map (·.isValid) = .ok true := by
  refine ⟨(compareDatabases (fun _ => false) dbNoY dbFk).1[1]'(by decide), by decide,
    (compareDatabases (fun _ => false) dbNoY dbFk).1.take 1, (compareDatabases (fun _ => false) dbNoY dbFk).1.drop 2,
    by decide, by decide, by decide, ⟨_, rfl, by decide⟩, by decide, by decide⟩

end Verif.Props
