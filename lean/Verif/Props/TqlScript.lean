import Verif.Lemmas.Recreate
import Verif.Lemmas.Plain
import Verif.Props.Validation
/-
Properties C24-C26: the script written by `write_tql`, read as TQL (Spec/TQL.lean) and executed (Spec/Catalog.lean).
-/

namespace Verif.Props
open Verif Verif.Spec

/-- The script of a printable database is written completely unless camel case meets a name of underscores only (C23). -/
theorem writeTql_ok {o : TqlOpts} {db : Database} (h : PlainDb db)
    (ho : o.lowercase = true ∨ o.uppercase = true ∨ o.camelcase = false) : (writeTql o db).2 = none := by
  have hc : ∀ s, ∃ x, toCase o.toGenOpts s = .ok x := by
    intro s
    unfold toCase
    split
    · exact ⟨_, rfl⟩
    · split
      · exact ⟨_, rfl⟩
      · split
        · exact ⟨_, rfl⟩
        · rename_i h1 h2
          split
          · rename_i h3
            simp_all
          · exact ⟨_, rfl⟩
  have mem : ∀ t ∈ db.iter, ∃ p ∈ db.tables, p.2 = t := fun t ht => by simpa [Database.iter, Dict.vals] using ht
  have lone : ∀ (n : Str) (f : Str → Str), ∃ s, (do let n ← toCase o.toGenOpts n; Except.ok (f n) : Except PyErr Str) = .ok s := by
    intro n f
    obtain ⟨x, hx⟩ := hc n
    exact ⟨f x, by rw [hx]; rfl⟩
  apply writeAll_none
  intro p hp
  simp only [tqlPieces, List.mem_append, List.mem_flatMap] at hp
  rcases hp with ((((hp | hp) | hp) | ⟨t, ht, hp⟩) | ⟨t, ht, hp⟩) | ⟨t, ht, hp⟩
  · split at hp
    · simp only [List.mem_singleton] at hp; subst hp; exact lone db.name _
    · simp at hp
  · simp only [List.mem_singleton] at hp; subst hp; exact lone db.name _
  · split at hp
    · obtain ⟨s, -, rfl⟩ := List.mem_map.1 hp; exact lone s _
    · simp at hp
  · simp only [writeCreateTable, List.mem_cons, List.not_mem_nil, or_false] at hp
    obtain ⟨x, hx⟩ := hc t.name
    obtain ⟨y, hy⟩ := hc t.schema
    rcases hp with rfl | rfl | rfl | rfl
    · exact ⟨_, rfl⟩
    · unfold genDropTable; rw [hx, hy]; exact ⟨_, rfl⟩
    · exact ⟨_, rfl⟩
    · unfold genCreateTable
      rw [hx, hy]
      simp only [bind, Except.bind]
      obtain ⟨p, hp, rfl⟩ := mem t ht
      cases hs : p.2.shard with
      | none => exact ⟨_, rfl⟩
      | some k =>
        have := ((h.htables p hp).hshard k hs).1
        cases hk : k.number with
        | text s => exact absurd hk (this s)
        | int n => simp only [hk, fmtD]; exact ⟨_, rfl⟩
        | flt q => simp only [hk, fmtD]; exact ⟨_, rfl⟩
  · obtain ⟨k, -, rfl⟩ := List.mem_map.1 hp
    obtain ⟨x, hx⟩ := hc t.schema
    obtain ⟨y, hy⟩ := hc k.fromTable
    obtain ⟨z, hz⟩ := hc k.toTable
    unfold genForeignKey; rw [hx, hy, hz]; exact ⟨_, rfl⟩
  · obtain ⟨k, -, rfl⟩ := List.mem_map.1 hp
    obtain ⟨x, hx⟩ := hc t.schema
    obtain ⟨y, hy⟩ := hc k.fromTable
    obtain ⟨z, hz⟩ := hc k.toTable
    unfold genRelationship; rw [hx, hy, hz]; exact ⟨_, rfl⟩

/-! ## C24 -/

/-- A statement before the tables. -/
def IsHead : Stmt → Prop
  | .createDb _ | .useDb _ | .createSchema _ => True
  | _ => False

/-- A foreign key statement and the tables it refers to. -/
def IsFK : Stmt → Prop
  | .alter _ _ (.addFK ..) => True
  | _ => False

/-- A relationship statement. -/
def IsRel : Stmt → Prop
  | .alter _ _ (.addRel ..) => True
  | _ => False

/-- The tables (schema, name) a key statement refers to. -/
def refers : Stmt → List (Str × Str)
  | .alter s n (.addFK _ _ ts t _) => [(s, n), (ts.getD s, t)]
  | .alter s n (.addRel _ ts t _) => [(s, n), (ts.getD s, t)]
  | _ => []

/-- Schema and name, columns, primary key, shard key of a CREATE TABLE. -/
abbrev Creation := (Str × Str) × List (Str × Str) × List Str × Option (Str × List Str)

/-- One DROP and CREATE of the same table. -/
def dropCreate (c : Creation) : List Stmt :=
  [.dropTable c.1.1 c.1.2, .createTable c.1.1 c.1.2 c.2.1 c.2.2.1 c.2.2.2]

/-- Every foreign key and relationship starts at the table it is stored on and ends at a table of the same schema. -/
def TargetsHere (db : Database) : Prop :=
  ∀ n t, TableOf db n t →
    (∀ m k, (m, k) ∈ t.fks → k.fromTable = t.name ∧ ∃ u, TableOf db k.toTable u ∧ u.schema = t.schema) ∧
    (∀ m r, (m, r) ∈ t.rels → r.fromTable = t.name ∧ ∃ u, TableOf db r.toTable u ∧ u.schema = t.schema)

/-- C24.  Full claim: for every database and option combination the statements come in the order tables, foreign keys,
relationships, each CREATE right after the DROP of the same table, and everything a key statement refers to was created before it.
What holds: the order always (for scripts that can be read back and were written completely); the last part if keys stay within one schema
and are stored on the table they start from (`TargetsHere`) — `C24_other_schema` shows that a valid database need not be like that. -/
theorem C24_script_order_partial (o : TqlOpts) {db : Database} (hw : WellKeyed db) (h : PlainDb db) (hok : (writeTql o db).2 = none) :
    ∃ (pre : List Stmt) (cs : List Creation) (fks rels : List Stmt), readScript (writeTql o db).1 = some (pre ++ cs.flatMap dropCreate ++ fks ++ rels) ∧
      (∀ x ∈ pre, IsHead x) ∧ (∀ x ∈ fks, IsFK x) ∧ (∀ x ∈ rels, IsRel x) ∧
      cs.length = db.tables.length ∧ fks.length = (db.tables.map (fun p => p.2.fks.length)).sum ∧
      rels.length = (db.tables.map (fun p => p.2.rels.length)).sum ∧
      (TargetsHere db → ∀ x ∈ fks ++ rels, ∀ r ∈ refers x, r ∈ cs.map (·.1)) := by
  have mem : ∀ t ∈ db.iter, ∃ p ∈ db.tables, p.2 = t := fun t ht => by simpa [Database.iter, Dict.vals] using ht
  have len : ∀ f : Table → List Stmt, (db.iter.flatMap f).length = (db.tables.map (fun p => (f p.2).length)).sum := by
    intro f
    simp [Database.iter, Dict.vals, List.length_flatMap]
    rfl
  refine ⟨headStmts o db, db.iter.map (fun t => ((caseD o.toGenOpts t.schema, caseD o.toGenOpts t.name),
      t.cols.map (fun p => (colCase o.toGenOpts p.2.name, p.2.type)), t.pk, t.shard.map (fun k => (countText k.number, k.keys)))),
    db.iter.flatMap (fkStmts o.toGenOpts), db.iter.flatMap (relStmts o.toGenOpts), ?_, ?_, ?_, ?_, ?_, ?_, ?_, ?_⟩
  · rw [writeTql_reads h hok]
    unfold tqlStmts
    rw [List.flatMap_map]
    rfl
  · intro x hx
    simp only [headStmts, List.mem_append] at hx
    rcases hx with (hx | hx) | hx
    · split at hx
      · simp only [List.mem_singleton] at hx; subst hx; trivial
      · simp at hx
    · simp only [List.mem_singleton] at hx; subst hx; trivial
    · split at hx
      · obtain ⟨s, -, rfl⟩ := List.mem_map.1 hx; trivial
      · simp at hx
  · intro x hx
    obtain ⟨t, -, hx⟩ := List.mem_flatMap.1 hx
    obtain ⟨k, -, rfl⟩ := List.mem_map.1 hx
    trivial
  · intro x hx
    obtain ⟨t, -, hx⟩ := List.mem_flatMap.1 hx
    obtain ⟨k, -, rfl⟩ := List.mem_map.1 hx
    trivial
  · simp [Database.iter, Dict.vals]
  · rw [len]; simp [fkStmts, Dict.vals]
  · rw [len]; simp [relStmts, Dict.vals]
  · intro ht x hx r hr
    rw [List.map_map]
    have here : ∀ u ∈ db.iter, (caseD o.toGenOpts u.schema, caseD o.toGenOpts u.name) ∈ db.iter.map
        ((fun x : (Str × Str) × List (Str × Str) × List Str × Option (Str × List Str) => x.1) ∘ fun t =>
          ((caseD o.toGenOpts t.schema, caseD o.toGenOpts t.name), t.cols.map (fun p => (colCase o.toGenOpts p.2.name, p.2.type)),
            t.pk, t.shard.map (fun k => (countText k.number, k.keys)))) :=
      fun u hu => List.mem_map.2 ⟨u, hu, rfl⟩
    have there : ∀ n u, TableOf db n u → u ∈ db.iter ∧ n = u.name := by
      intro n u hu
      refine ⟨?_, hw.tableNames _ _ hu⟩
      simp only [Database.iter, Dict.vals]
      exact List.mem_map.2 ⟨_, hu, rfl⟩
    rcases List.mem_append.1 hx with hx | hx
    · obtain ⟨t, hti, hx⟩ := List.mem_flatMap.1 hx
      obtain ⟨k, hk, rfl⟩ := List.mem_map.1 hx
      obtain ⟨p, hp, rfl⟩ := mem t hti
      obtain ⟨q, hq, rfl⟩ : ∃ q ∈ p.2.fks, q.2 = k := by simpa [Dict.vals] using hk
      obtain ⟨e, u, hu, hus⟩ := (ht p.1 p.2 hp).1 q.1 q.2 hq
      simp only [refers, Option.getD_some, List.mem_cons, List.not_mem_nil, or_false] at hr
      rcases hr with rfl | rfl
      · rw [e]; exact here _ hti
      · obtain ⟨hui, hun⟩ := there _ _ hu
        rw [hun, ← hus]; exact here u hui
    · obtain ⟨t, hti, hx⟩ := List.mem_flatMap.1 hx
      obtain ⟨k, hk, rfl⟩ := List.mem_map.1 hx
      obtain ⟨p, hp, rfl⟩ := mem t hti
      obtain ⟨q, hq, rfl⟩ : ∃ q ∈ p.2.rels, q.2 = k := by simpa [Dict.vals] using hk
      obtain ⟨e, u, hu, hus⟩ := (ht p.1 p.2 hp).2 q.1 q.2 hq
      simp only [refers, Option.getD_some, List.mem_cons, List.not_mem_nil, or_false] at hr
      rcases hr with rfl | rfl
      · rw [e]; exact here _ hti
      · obtain ⟨hui, hun⟩ := there _ _ hu
        rw [hun, ← hus]; exact here u hui

/-- Two tables in different schemas; valid. -/
def dbTwoSchemas : Database :=
  ((Database.empty c!"d").addTable
    ⟨c!"a", c!"s1", [], none, [(c!"x", ⟨c!"x", c!"INT"⟩)], [(c!"f", ⟨c!"f", c!"a", [c!"x"], c!"b", [c!"y"]⟩)],
      [(c!"r", ⟨c!"r", c!"a", c!"b", c!"\"a\".\"x\" = \"b\".\"y\""⟩)]⟩).addTable
    ⟨c!"b", c!"s2", [c!"y"], some ⟨[c!"y"], .int 4⟩, [(c!"y", ⟨c!"y", c!"INT"⟩), (c!"z", ⟨c!"z", c!"VARCHAR(0)"⟩)], [], []⟩

/-- The same in one schema. -/
def dbOneSchema : Database :=
  ((Database.empty c!"d").addTable
    ⟨c!"a", c!"s1", [], none, [(c!"x", ⟨c!"x", c!"INT"⟩)], [(c!"f", ⟨c!"f", c!"a", [c!"x"], c!"b", [c!"y"]⟩)],
      [(c!"r", ⟨c!"r", c!"a", c!"b", c!"\"a\".\"x\" = \"b\".\"y\""⟩)]⟩).addTable
    ⟨c!"b", c!"s1", [c!"y"], some ⟨[c!"y"], .int 4⟩, [(c!"y", ⟨c!"y", c!"INT"⟩), (c!"z", ⟨c!"z", c!"VARCHAR(0)"⟩)], [], []⟩

/-- A valid database whose foreign key goes to another schema: the statement refers to a table of the wrong schema, which is never
created. -/
theorem C24_other_schema :
    WellKeyed dbTwoSchemas ∧ (∃ r, dbTwoSchemas.validate = .ok r ∧ r.isValid = true) ∧
    ∃ sts, readScript (writeTql {} dbTwoSchemas).1 = some sts ∧
      .alter c!"s1" c!"a" (.addFK c!"f" [c!"x"] (some c!"s1") c!"b" [c!"y"]) ∈ sts ∧
      ∀ cols pk sh, .createTable c!"s1" c!"b" cols pk sh ∉ sts := by
  refine ⟨by decide, ⟨_, rfl, by decide⟩, tqlStmts {} dbTwoSchemas, writeTql_reads (plainDbB_sound (by decide)) (by decide), by decide, ?_⟩
  intro cols pk sh hm
  have : ∀ x ∈ tqlStmts {} dbTwoSchemas, (match x with | .createTable s n _ _ _ => decide (s = c!"s1" ∧ n = c!"b") | _ => false) = false := by
    decide
  have := this _ hm
  simp at this

/-- `dbOneSchema` meets all hypotheses of C24 and C25. -/
theorem dbOneSchema_ok : WellKeyed dbOneSchema ∧ PlainDb dbOneSchema ∧ TargetsHere dbOneSchema ∧
    (∀ p ∈ dbOneSchema.tables, KeysInPlace p.2) ∧ dbOneSchema.schemaNames.Nodup ∧
    ∀ p ∈ dbOneSchema.tables, p.2.schema ∈ dbOneSchema.schemaNames := by
  refine ⟨by decide, plainDbB_sound (by decide), ?_, ?_, by decide, by decide⟩
  · have h1 : ∀ p ∈ dbOneSchema.tables, ∀ q ∈ p.2.fks, q.2.fromTable = p.2.name ∧
        ∃ u ∈ dbOneSchema.tables, u.1 = q.2.toTable ∧ u.2.schema = p.2.schema := by decide
    have h2 : ∀ p ∈ dbOneSchema.tables, ∀ q ∈ p.2.rels, q.2.fromTable = p.2.name ∧
        ∃ u ∈ dbOneSchema.tables, u.1 = q.2.toTable ∧ u.2.schema = p.2.schema := by decide
    intro n t ht
    constructor
    · intro m k hk
      obtain ⟨e, u, hu, hun, hus⟩ := h1 _ ht _ hk
      dsimp only at e hun hus
      exact ⟨e, u.2, by unfold TableOf; rw [← hun]; exact hu, hus⟩
    · intro m k hk
      obtain ⟨e, u, hu, hun, hus⟩ := h2 _ ht _ hk
      dsimp only at e hun hus
      exact ⟨e, u.2, by unfold TableOf; rw [← hun]; exact hu, hus⟩
  · have h : ∀ p ∈ dbOneSchema.tables, (∀ q ∈ p.2.fks, q.2.fromTable = p.2.name) ∧ (∀ q ∈ p.2.rels, q.2.fromTable = p.2.name) ∧
      ∀ q ∈ p.2.fks, ∀ r ∈ p.2.rels, q.1 ≠ r.1 := by decide
    exact fun p hp => ⟨(h p hp).1, (h p hp).2.1, (h p hp).2.2⟩

/-! ## C25 -/

/-- The statements of the script with `create_db`, executed on a server without the database. -/
theorem exec_recreates {db : Database} (hw : WellKeyed db) (hk : ∀ p ∈ db.tables, KeysInPlace p.2)
    (hn : db.schemaNames.Nodup) (hs : ∀ p ∈ db.tables, p.2.schema ∈ db.schemaNames) (dbs : List Str) (hfresh : db.name ∉ dbs) :
    ∃ sv, execAll { dbs := dbs } (tqlStmts { createDb := true } db) = some sv ∧ sv.cat = catOf db ∧ sv.dbs = dbs ++ [db.name] ∧ sv.current = some db.name ∧
      sv.schemas = db.schemaNames.filter (fun s => s ≠ c!"falcon_default_schema") := by
  have hsch : ∀ (l : List Str) (sv : Server), (∀ s ∈ l, s ∉ sv.schemas) → l.Nodup →
      execAll sv (l.map (fun s => .createSchema (caseD {} s))) = some { sv with schemas := sv.schemas ++ l } := by
    intro l
    induction l with
    | nil => intro sv _ _; simp [execAll]
    | cons s l ih =>
      intro sv h1 h2
      have h2' := List.nodup_cons.1 h2
      simp only [List.map_cons, execAll, exec, caseD_default]
      rw [if_neg (h1 s (by simp)), Option.bind_some]
      have := ih { sv with schemas := sv.schemas ++ [s] } (by
        intro x hx
        simp only [List.mem_append, List.mem_singleton, not_or]
        exact ⟨h1 x (by simp [hx]), fun e => h2'.1 (e ▸ hx)⟩) h2'.2
      simp only [caseD_default] at this
      rw [this]
      simp
  obtain ⟨sv, r, fr, hc⟩ := exec_body hw hk
    { dbs := dbs ++ [db.name], current := some db.name, schemas := db.schemaNames.filter (fun s => decide (s ≠ defaultSchema)) } (by
      intro p hp'
      by_cases e : p.2.schema = defaultSchema
      · exact .inl e
      · exact .inr (List.mem_filter.2 ⟨hs p hp', by simpa using e⟩))
  refine ⟨sv, ?_, ?_, fr.dbs, fr.current, fr.schemas⟩
  · unfold tqlStmts headStmts
    rw [show (({ createDb := true } : TqlOpts).createDb) = true from rfl]
    simp only [if_true, List.append_assoc, List.singleton_append, List.cons_append, List.nil_append]
    simp only [execAll, exec]
    rw [if_neg (by rw [caseD_default]; exact hfresh)]
    simp only [Option.bind_some]
    rw [if_pos (by simp)]
    simp only [Option.bind_some]
    rw [execAll_append]
    rw [hsch _ _ (by simp) (hn.filter _)]
    simp only [Option.bind_some, List.nil_append, caseD_default]
    simp only [List.append_assoc, caseD_default] at r
    exact r
  · funext s n
    rw [hc]; simp

/-- The statements of the script without `create_db`, executed on a server with the database. -/
theorem exec_refreshes {db : Database} (hw : WellKeyed db) (hk : ∀ p ∈ db.tables, KeysInPlace p.2)
    (sv : Server) (hd : db.name ∈ sv.dbs) (hs : ∀ p ∈ db.tables, p.2.schema = c!"falcon_default_schema" ∨ p.2.schema ∈ sv.schemas) :
    ∃ sv', execAll sv (tqlStmts {} db) = some sv' ∧ sv'.current = some db.name ∧ sv'.dbs = sv.dbs ∧ sv'.schemas = sv.schemas ∧
      ∀ s n, sv'.cat s n = (catOf db s n).or (sv.cat s n) := by
  obtain ⟨sv', r, fr, hc⟩ := exec_body hw hk { sv with current := some db.name } hs
  refine ⟨sv', ?_, fr.current, fr.dbs, fr.schemas, hc⟩
  show (exec sv (.useDb (caseD {} db.name))).bind _ = _
  rw [caseD_default, exec, if_pos hd]
  exact r

/-- C25.  Full claim: for every database whose names contain no double quote, executing the script on an empty server creates exactly
the database.  What holds: the same if moreover types, conditions and shard counts can be read back (`PlainDb`), keys are stored on the
table they start from and no foreign key of a table is called like one of its relationships (`KeysInPlace`; the server refuses the second
constraint, `C25_name_clash`).  `hs` and `hn` hold for every database built with the API (C03).  The server may already hold other databases. -/
theorem C25_recreates_database_partial {db : Database} (hw : WellKeyed db) (hp : PlainDb db) (hk : ∀ p ∈ db.tables, KeysInPlace p.2)
    (hn : db.schemaNames.Nodup) (hs : ∀ p ∈ db.tables, p.2.schema ∈ db.schemaNames) (dbs : List Str) (hfresh : db.name ∉ dbs) :
    ∃ sts sv, (writeTql { createDb := true } db).2 = none ∧ readScript (writeTql { createDb := true } db).1 = some sts ∧
      execAll { dbs := dbs } sts = some sv ∧ sv.cat = catOf db ∧ sv.dbs = dbs ++ [db.name] ∧ sv.current = some db.name ∧
      sv.schemas = db.schemaNames.filter (fun s => s ≠ c!"falcon_default_schema") := by
  have hok := writeTql_ok (o := { createDb := true }) hp (.inr (.inr rfl))
  obtain ⟨sv, h⟩ := exec_recreates hw hk hn hs dbs hfresh
  exact ⟨_, sv, hok, writeTql_reads hp hok, h⟩

/-- C25 without `create_db`: on a server that has the database and its schemas, whatever tables it holds, the script leaves exactly the
tables of `db` and the tables that were there under other names. -/
theorem C25_refreshes_database_partial {db : Database} (hw : WellKeyed db) (hp : PlainDb db) (hk : ∀ p ∈ db.tables, KeysInPlace p.2)
    (sv : Server) (hd : db.name ∈ sv.dbs) (hs : ∀ p ∈ db.tables, p.2.schema = c!"falcon_default_schema" ∨ p.2.schema ∈ sv.schemas) :
    ∃ sts sv', (writeTql {} db).2 = none ∧ readScript (writeTql {} db).1 = some sts ∧
      execAll sv sts = some sv' ∧ sv'.current = some db.name ∧ sv'.dbs = sv.dbs ∧ sv'.schemas = sv.schemas ∧
      ∀ s n, sv'.cat s n = (catOf db s n).or (sv.cat s n) := by
  have hok := writeTql_ok (o := {}) hp (.inr (.inr rfl))
  obtain ⟨sv', h⟩ := exec_refreshes hw hk sv hd hs
  exact ⟨_, sv', hok, writeTql_reads hp hok, h⟩

/-- A foreign key and a relationship of the same name: the script is refused. -/
theorem C25_name_clash :
    let db := (Database.empty c!"d").addTable
      ⟨c!"a", defaultSchema, [c!"x"], none, [(c!"x", ⟨c!"x", c!"INT"⟩)], [(c!"f", ⟨c!"f", c!"a", [c!"x"], c!"a", [c!"x"]⟩)],
        [(c!"f", ⟨c!"f", c!"a", c!"a", c!"c"⟩)]⟩
    WellKeyed db ∧ (∃ r, db.validate = .ok r ∧ r.isValid = true) ∧
    ∃ sts, readScript (writeTql { createDb := true } db).1 = some sts ∧ (execAll {} sts).isNone = true := by
  refine ⟨by decide, ⟨_, rfl, by decide⟩, _, writeTql_reads (plainDbB_sound (by decide)) (by decide), ?_⟩
  decide

/-! ## C26 -/

/-- C26.  Full claim: for every validated database and every case option, the key clauses of a written CREATE TABLE name declared columns.
What holds: the same unless lower or upper case is chosen and changes a key column (`C26_upper_case`): the generator changes the case of
the declared columns but not of the names in the key clauses. -/
theorem C26_key_columns_declared_partial (o : TqlOpts) {db : Database} (hw : WellKeyed db) (hp : PlainDb db)
    (hv : ∃ r, db.validate = .ok r ∧ r.isValid = true) (hok : (writeTql o db).2 = none)
    (hc : (o.lowercase = false ∧ o.uppercase = false) ∨ ∀ n t, TableOf db n t → ∀ k, (k ∈ t.pk ∨ ∃ sk, t.shard = some sk ∧ k ∈ sk.keys) →
      colCase o.toGenOpts k = k) :
    ∃ sts, readScript (writeTql o db).1 = some sts ∧ ∀ s n cols pk sh, .createTable s n cols pk sh ∈ sts →
      (∀ k ∈ pk, k ∈ cols.map Prod.fst) ∧ ∀ c ks, sh = some (c, ks) → ∀ k ∈ ks, k ∈ cols.map Prod.fst := by
  have wf := (C08_valid_iff_well_formed db hw).1 hv
  refine ⟨_, writeTql_reads hp hok, ?_⟩
  intro s n cols pk sh hm
  have : ∃ t ∈ db.iter, Stmt.createTable s n cols pk sh = createStmt o.toGenOpts t := by
    unfold tqlStmts headStmts at hm
    simp only [List.mem_append, List.mem_flatMap] at hm
    rcases hm with ((hm | ⟨t, ht, hm⟩) | ⟨t, ht, hm⟩) | ⟨t, ht, hm⟩
    · rcases hm with (hm | hm) | hm
      · split at hm <;> simp at hm
      · simp at hm
      · split at hm <;> simp at hm
    · simp only [List.mem_cons, List.not_mem_nil, or_false] at hm
      rcases hm with hm | hm
      · cases hm
      · exact ⟨t, ht, hm⟩
    · obtain ⟨k, -, e⟩ := List.mem_map.1 hm; cases e
    · obtain ⟨k, -, e⟩ := List.mem_map.1 hm; cases e
  obtain ⟨t, ht, e⟩ := this
  obtain ⟨p, hpm, rfl⟩ : ∃ p ∈ db.tables, p.2 = t := by simpa [Database.iter, Dict.vals] using ht
  have htab : TableOf db p.1 p.2 := hpm
  simp only [createStmt, Stmt.createTable.injEq] at e
  obtain ⟨-, -, rfl, rfl, rfl⟩ := e
  have hcase : ∀ k, (k ∈ p.2.pk ∨ ∃ sk, p.2.shard = some sk ∧ k ∈ sk.keys) → colCase o.toGenOpts k = k := by
    intro k hk
    rcases hc with ⟨h1, h2⟩ | h
    · simp [colCase, h1, h2]
    · exact h _ _ htab k hk
  have decl : ∀ k, (k ∈ p.2.pk ∨ ∃ sk, p.2.shard = some sk ∧ k ∈ sk.keys) → (∃ c, ColumnOf p.2 k c) →
      k ∈ (p.2.cols.map (fun q => (colCase o.toGenOpts q.2.name, q.2.type))).map Prod.fst := by
    rintro k hk ⟨c, hcol⟩
    rw [List.map_map]
    refine List.mem_map.2 ⟨(k, c), hcol, ?_⟩
    have := hw.colNames _ _ hpm _ _ hcol
    simp only [Function.comp]
    rw [← this]; exact hcase k hk
  constructor
  · intro k hk
    exact decl k (.inl hk) (wf.pk _ _ htab k hk)
  · intro c ks e k hk
    obtain ⟨sk, hsk, e'⟩ := Option.map_eq_some_iff.1 e
    cases e'
    exact decl k (.inr ⟨sk, hsk, hk⟩) (wf.shard _ _ htab sk hsk k hk).1

/-- With upper case, the key clauses name columns that are not declared. -/
theorem C26_upper_case :
    WellKeyed dbOneSchema ∧ (∃ r, dbOneSchema.validate = .ok r ∧ r.isValid = true) ∧
    ∃ sts, readScript (writeTql { uppercase := true } dbOneSchema).1 = some sts ∧
      .createTable c!"S1" c!"B" [(c!"Y", c!"INT"), (c!"Z", c!"VARCHAR(0)")] [c!"y"] (some (c!"4", [c!"y"])) ∈ sts :=
  ⟨by decide, ⟨_, rfl, by decide⟩, _, writeTql_reads (plainDbB_sound (by decide)) (by decide), by decide⟩

/-- `dbOneSchema` meets the hypotheses of C26 with camel case. -/
example : (∃ r, dbOneSchema.validate = .ok r ∧ r.isValid = true) ∧ (writeTql { camelcase := true } dbOneSchema).2 = none :=
  ⟨⟨_, rfl, by decide⟩, by decide⟩

end Verif.Props
