import Verif.Lemmas.MigrateNeeds
import Verif.Props.Migrate
/-
Property C17, exactly: for which pairs of databases a difference list is a complete migration.
-/

namespace Verif.Props
open Verif Verif.Spec

/-- No table of `db` has a foreign key and a relationship of the same name (they share one name space in the catalogue, so
a catalogue cannot hold both). -/
def NamesApart (db : Database) : Prop :=
  ∀ n t, TableOf db n t → ∀ m k r, (m, k) ∈ t.fks → (m, r) ∉ t.rels

/-- What must be the case for the list that leads from `db1` to `db2` to be complete and accepted, on a server that has the
schemas `schemas`; `reported a b` are the pairs of foreign keys of the same name that the comparison tells apart. -/
structure Complete (shared : Str → Bool) (reported : FK → FK → Prop) (db1 db2 : Database) (schemas : List Str) : Prop where
  /-- no table moves to another schema -/
  schema : ∀ n t1 t2, TableOf db1 n t1 → TableOf db2 n t2 → t1.schema = t2.schema
  /-- no foreign key takes the name of an old relationship (the other way round is fine) -/
  names : ∀ n t1 t2, TableOf db1 n t1 → TableOf db2 n t2 → ∀ m k r, (m, k) ∈ t2.fks → (m, r) ∉ t1.rels
  /-- shard keys that are the same object read the same -/
  shard : ∀ n t1 t2, TableOf db1 n t1 → TableOf db2 n t2 → shared n = true → ∀ a b, t1.shard = some a → t2.shard = some b →
    countText a.number = countText b.number ∧ a.keys = b.keys
  /-- foreign keys not told apart have the same columns -/
  fks : ∀ n t1 t2, TableOf db1 n t1 → TableOf db2 n t2 → ∀ m a b, (m, a) ∈ t1.fks → (m, b) ∈ t2.fks →
    reported a b ∨ (a.fromKeys = b.fromKeys ∧ a.toKeys = b.toKeys)
  /-- new tables have no foreign keys and relationships, and their schema is there -/
  fresh : ∀ n t, TableOf db2 n t → (¬ ∃ u, TableOf db1 n u) →
    t.fks = [] ∧ t.rels = [] ∧ (t.schema = defaultSchema ∨ t.schema ∈ schemas)

theorem namesApart_get {db : Database} (h : WellKeyed db) (ha : NamesApart db) (n : Str) (t : Table)
    (g : db.tables.get? n = some t) : ∀ k ∈ t.fks.keys, k ∉ t.rels.keys := by
  intro k hf hr
  obtain ⟨p, hp, rfl⟩ := List.mem_map.1 hf
  obtain ⟨q, hq, e⟩ := List.mem_map.1 hr
  exact ha n t ((tableOf_iff h).2 g) p.1 p.2 q.2 hp (by rw [← e]; exact hq)

theorem Complete.detected {shared : Str → Bool} {rep : FK → FK → Bool} {reported : FK → FK → Prop} {db1 db2 : Database}
    {schemas : List Str} (C : Complete shared reported db1 db2 schemas)
    (h1 : WellKeyed db1) (h2 : WellKeyed db2) (a1 : NamesApart db1) (a2 : NamesApart db2)
    (hrep : ∀ a b : FK, a.name = b.name → (rep a b = false ↔ ¬ reported a b))
    (hto : ∀ a b : FK, ¬ reported a b → a.toTable = b.toTable) (n : Str) (t1 t2 : Table) (g1 : db1.tables.get? n = some t1)
    (g2 : db2.tables.get? n = some t2) : Detected rep (shared n) t1 t2 := by
  have m1 := (tableOf_iff h1).2 g1
  have m2 := (tableOf_iff h2).2 g2
  refine ⟨C.schema n t1 t2 m1 m2, ⟨namesApart_get h1 a1 n t1 g1, namesApart_get h2 a2 n t2 g2, ?_⟩, ?_, ?_⟩
  · intro k hf hr
    obtain ⟨p, hp, rfl⟩ := List.mem_map.1 hf
    obtain ⟨q, hq, e⟩ := List.mem_map.1 hr
    exact C.names n t1 t2 m1 m2 p.1 p.2 q.2 hp (by rw [← e]; exact hq)
  · intro hs e1 e2
    obtain ⟨a, ha⟩ := Option.ne_none_iff_exists'.1 e1
    obtain ⟨b, hb⟩ := Option.ne_none_iff_exists'.1 e2
    have := C.shard n t1 t2 m1 m2 hs a b ha hb
    simp [shardOf, ha, hb, this.1, this.2]
  · intro m a b ga gb hr
    have e1 := (tableKeyed_of_get? h1 g1).fkNames _ (Dict.mem_of_get? ga)
    have e2 := (tableKeyed_of_get? h2 g2).fkNames _ (Dict.mem_of_get? gb)
    have hnr := (hrep a b (e1.symm.trans e2)).1 hr
    rcases C.fks n t1 t2 m1 m2 m a b (Dict.mem_of_get? ga) (Dict.mem_of_get? gb) with h | ⟨h, h'⟩
    · exact absurd h hnr
    · simp [fkCon, hto a b hnr, h, h']

/-- Both directions at once; `rep` and `reported` say which foreign keys are told apart. -/
theorem migrates_iff {shared : Str → Bool} {rep : FK → FK → Bool} {reported : FK → FK → Prop} {db1 db2 : Database}
    (h1 : WellKeyed db1) (h2 : WellKeyed db2) (a1 : NamesApart db1) (a2 : NamesApart db2)
    (hrep : ∀ a b : FK, a.name = b.name → (rep a b = false ↔ ¬ reported a b))
    (hto : ∀ a b : FK, ¬ reported a b → a.toTable = b.toTable) (sv : Server) (hsv : sv.cat = catOf db1) :
    (∃ sv', execAll sv (((allNames db1.tables db2.tables).flatMap (dbE rep shared db1 db2)).map stmtOf) = some sv' ∧
      CatSame sv'.cat (catOf db2)) ↔ Complete shared reported db1 db2 sv.schemas := by
  have fkname : ∀ n t1 t2, db1.tables.get? n = some t1 → db2.tables.get? n = some t2 → ∀ m a b, t1.fks.get? m = some a →
      t2.fks.get? m = some b → a.name = b.name := by
    intro n t1 t2 g1 g2 m a b ga gb
    have e1 := (tableKeyed_of_get? h1 g1).fkNames _ (Dict.mem_of_get? ga)
    have e2 := (tableKeyed_of_get? h2 g2).fkNames _ (Dict.mem_of_get? gb)
    exact e1.symm.trans e2
  constructor
  · rintro ⟨sv', r, c⟩
    obtain ⟨D, N⟩ := db_needs h1 h2 (namesApart_get h1 a1) (namesApart_get h2 a2) hsv r c
    have D' : ∀ n t1 t2, TableOf db1 n t1 → TableOf db2 n t2 → Detected rep (shared n) t1 t2 :=
      fun n t1 t2 m1 m2 => D n t1 t2 ((tableOf_iff h1).1 m1) ((tableOf_iff h2).1 m2)
    refine ⟨fun n t1 t2 m1 m2 => (D' n t1 t2 m1 m2).schema, ?_, ?_, ?_, ?_⟩
    · intro n t1 t2 m1 m2 m k r hk hr
      exact (D' n t1 t2 m1 m2).clash.cross m (List.mem_map.2 ⟨_, hk, rfl⟩) (List.mem_map.2 ⟨_, hr, rfl⟩)
    · intro n t1 t2 m1 m2 hs a b ha hb
      have := (D' n t1 t2 m1 m2).shard hs (by simp [ha]) (by simp [hb])
      simpa [shardOf, ha, hb] using this
    · intro n t1 t2 m1 m2 m a b ha hb
      have g1 := (tableOf_iff h1).1 m1
      have g2 := (tableOf_iff h2).1 m2
      have ga := Dict.get?_of_mem (tableKeyed_of_get? h1 g1).fks ha
      have gb := Dict.get?_of_mem (tableKeyed_of_get? h2 g2).fks hb
      by_cases hr : reported a b
      · exact .inl hr
      · right
        have := (D' n t1 t2 m1 m2).fks m a b ga gb ((hrep a b (fkname n t1 t2 g1 g2 m a b ga gb)).2 hr)
        simpa [fkCon, hto a b hr] using this
    · intro n t ht hno
      obtain ⟨⟨e1, e2⟩, e3⟩ := N n t (no_tableOf_iff.1 hno) ((tableOf_iff h2).1 ht)
      exact ⟨e1, e2, e3⟩
  · intro C
    have D := C.detected h1 h2 a1 a2 hrep hto
    have F : ∀ n t2, db1.tables.get? n = none → db2.tables.get? n = some t2 →
        t2.fks = [] ∧ t2.rels = [] ∧ (t2.schema = defaultSchema ∨ t2.schema ∈ sv.schemas) :=
      fun n t2 g1 g2 => C.fresh n t2 ((tableOf_iff h2).2 g2) (no_tableOf_iff.2 g1)
    obtain ⟨sv', r, a, b, c⟩ := db_phase (rep := rep) (shared := shared) h1 h2 D
      (fun n t2 g1 g2 => ⟨(F n t2 g1 g2).1, (F n t2 g1 g2).2.1⟩) _ (allNames_incr h1.tables h2.tables).nodup sv
      (fun n _ s => by rw [hsv]) (fun n t2 g1 g2 => (F n t2 g1 g2).2.2)
    refine ⟨sv', r.execAll, fun s n => ?_⟩
    by_cases hn : n ∈ allNames db1.tables db2.tables
    · exact a n hn s
    · rw [b n hn s, hsv]
      rw [mem_allNames, not_or] at hn
      rw [catOf_eq, catOf_eq, (Dict.get?_eq_none_iff _ _).2 hn.1, (Dict.get?_eq_none_iff _ _).2 hn.2]
      trivial

/-- C17, exactly.  For databases a catalogue can hold, on any server holding the first one: the first list is accepted and
leaves the second database *if and only if* `Complete` holds; and the other way round for the second list. -/
theorem C17_exactly {shared : Str → Bool} {db1 db2 : Database} (h1 : WellKeyed db1) (h2 : WellKeyed db2)
    (a1 : NamesApart db1) (a2 : NamesApart db2) :
    (∀ sv : Server, sv.cat = catOf db1 →
      ((∃ sv', execAll sv ((compareDatabases shared db1 db2).1.map stmtOf) = some sv' ∧ CatSame sv'.cat (catOf db2)) ↔
        Complete shared FkReported db1 db2 sv.schemas)) ∧
    (∀ sv : Server, sv.cat = catOf db2 →
      ((∃ sv', execAll sv ((compareDatabases shared db1 db2).2.map stmtOf) = some sv' ∧ CatSame sv'.cat (catOf db1)) ↔
        Complete shared (fun b a => FkReported a b) db2 db1 sv.schemas)) := by
  constructor
  · intro sv hsv
    rw [compareDatabases_fst h1 h2]
    exact migrates_iff h1 h2 a1 a2 (fun a b => not_reported) (fun a b h => by unfold FkReported at h; tauto) sv hsv
  · intro sv hsv
    rw [compareDatabases_snd h1 h2]
    exact migrates_iff (rep := fun b a => !a.eq b) h2 h1 a2 a1 (fun b a e => not_reported e.symm)
      (fun b a h => by unfold FkReported at h; tauto) sv hsv

/-- A relationship in the place of the foreign key of `dbFk`, with the same name. -/
def dbRel : Database :=
  ((Database.empty c!"d").addTable { tblA with fks := [], rels := [(c!"FK", ⟨c!"FK", c!"a", c!"b", c!"(x = y)"⟩)] }).addTable tblB

/-- `dbFk` and `dbRel` meet the hypotheses; from the foreign key to the relationship the list is complete, back it is not. -/
theorem dbRel_complete : WellKeyed dbFk ∧ WellKeyed dbRel ∧ NamesApart dbFk ∧ NamesApart dbRel ∧
    Complete (fun _ => true) FkReported dbFk dbRel [] ∧
    ¬ Complete (fun _ => true) (fun b a => FkReported a b) dbRel dbFk [] := by
  refine ⟨by decide, by decide, ?_, ?_, ⟨?_, ?_, ?_, ?_, ?_⟩, ?_⟩
  · have : ∀ p ∈ dbFk.tables, ∀ k ∈ p.2.fks, ∀ r ∈ p.2.rels, k.1 ≠ r.1 := by decide
    exact fun n t ht m k r hk hr => this _ ht _ hk _ hr rfl
  · have : ∀ p ∈ dbRel.tables, ∀ k ∈ p.2.fks, ∀ r ∈ p.2.rels, k.1 ≠ r.1 := by decide
    exact fun n t ht m k r hk hr => this _ ht _ hk _ hr rfl
  · have : ∀ p ∈ dbFk.tables, ∀ q ∈ dbRel.tables, p.2.schema = q.2.schema := by decide
    exact fun n a b ha hb => this _ ha _ hb
  · have : ∀ q ∈ dbRel.tables, q.2.fks = [] := by decide
    intro n a b _ hb m k r hk
    rw [this _ hb] at hk; simp at hk
  · have : ∀ p ∈ dbFk.tables, ∀ q ∈ dbRel.tables, p.1 = q.1 → p.2.shard = q.2.shard := by decide
    intro n a b ha hb _ x y hx hy
    have e := this _ ha _ hb rfl
    dsimp only at e
    rw [hx, hy] at e
    cases e; exact ⟨rfl, rfl⟩
  · have : ∀ q ∈ dbRel.tables, q.2.fks = [] := by decide
    intro n a b _ hb m k r _ hk
    rw [this _ hb] at hk; simp at hk
  · have : ∀ p ∈ dbRel.tables, p.1 ∈ dbFk.tables.keys := by decide
    intro n t ht hno
    obtain ⟨p, hp, e⟩ := List.mem_map.1 (this _ ht)
    dsimp only at e
    exact absurd ⟨p.2, by rw [← e]; exact hp⟩ hno
  · intro C
    have m1 : (c!"a", dbRel.tables[0].2) ∈ dbRel.tables := by decide
    have m2 : (c!"a", dbFk.tables[0].2) ∈ dbFk.tables := by decide
    exact C.names c!"a" _ _ m1 m2 c!"FK" (dbFk.tables[0].2.fks[0]'(by decide)).2 (dbRel.tables[0].2.rels[0]'(by decide)).2
      (by decide) (by decide)

/-! ## C20 -/

theorem hasColumns_old {t : Table} (hn : ∀ q ∈ t.cols, q.1 = q.2.name) {sv : Server} {T : CTable}
    (hT : sv.cat t.schema t.name = some T) (hc : T.cols = (ctable t).cols) (l : List Str) :
    HasColumns sv t l ↔ ∀ c ∈ l, ∃ col, ColumnOf t c col := by
  have e : ∀ c, c ∈ T.cols.map Prod.fst ↔ ∃ col, ColumnOf t c col := by
    intro c
    rw [hc]
    simp only [ctable, bareTable, List.map_map, List.mem_map, Function.comp]
    constructor
    · rintro ⟨p, hp, rfl⟩
      exact ⟨p.2, by rw [← hn p hp]; exact hp⟩
    · rintro ⟨col, h⟩
      exact ⟨_, h, (hn _ h).symm⟩
  constructor
  · rintro ⟨T', hT', h⟩ c hc'
    rw [hT] at hT'; cases hT'
    exact (e c).1 (h c hc')
  · intro h
    exact ⟨T, hT, fun c hc' => (e c).2 (h c hc')⟩

/-- C20, exactly, for every pair of databases: if the server accepts what comes before the entry that adds a key, the columns of the key are there at
that moment if and only if they are columns of the old version of the table. -/
theorem C20_exactly {shared : Str → Bool} {db1 db2 : Database} (h1 : WellKeyed db1) (h2 : WellKeyed db2) :
    (∀ sv : Server, sv.cat = catOf db1 → ∀ a x b k sv', (compareDatabases shared db1 db2).1 = a ++ x :: b → addedKey x = some k →
      execAll sv (a.map stmtOf) = some sv' → (HasColumns sv' x.table k ↔ ∀ c ∈ k, ∃ col, ColumnOf x.table c col) ∧ TableOf db1 x.table.name x.table) ∧
    (∀ sv : Server, sv.cat = catOf db2 → ∀ a x b k sv', (compareDatabases shared db1 db2).2 = a ++ x :: b → addedKey x = some k →
      execAll sv (a.map stmtOf) = some sv' → (HasColumns sv' x.table k ↔ ∀ c ∈ k, ∃ col, ColumnOf x.table c col) ∧ TableOf db2 x.table.name x.table) := by
  have kinds : ∀ x k, addedKey x = some k → x.kind ≠ 0 ∧ x.kind ≠ 5 := by
    intro x k h; cases x <;> simp_all [addedKey, Diff.kind]
  constructor
  · intro sv hsv a x b k sv' hl hk h
    rw [compareDatabases_fst h1 h2] at hl
    obtain ⟨T, hT, hc, g⟩ := old_columns h1 h2 hsv hl (kinds x k hk).1 (kinds x k hk).2 h
    exact ⟨hasColumns_old (tableKeyed_of_get? h1 g).colNames hT hc k, (tableOf_iff h1).2 g⟩
  · intro sv hsv a x b k sv' hl hk h
    rw [compareDatabases_snd h1 h2] at hl
    obtain ⟨T, hT, hc, g⟩ := old_columns h2 h1 hsv hl (kinds x k hk).1 (kinds x k hk).2 h
    exact ⟨hasColumns_old (tableKeyed_of_get? h2 g).colNames hT hc k, (tableOf_iff h2).2 g⟩

/-- From `dbRel` to `dbFk` the only entry that adds a key is refused, but its columns are there. -/
example : ∃ a x b sv', (compareDatabases (fun _ => true) dbFk dbRel).2 = a ++ x :: b ∧ addedKey x = some [c!"x"] ∧
    execAll { cat := catOf dbRel } (a.map stmtOf) = some sv' ∧ (exec sv' (stmtOf x)).isSome = false :=
  ⟨[], (compareDatabases (fun _ => true) dbFk dbRel).2[0]'(by decide), (compareDatabases (fun _ => true) dbFk dbRel).2.drop 1, _,
    by decide, by decide, rfl, by decide⟩

end Verif.Props
