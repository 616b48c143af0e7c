import Verif.Lemmas.StrictServer
import Verif.Props.TqlScript
import Verif.Props.RoundTrip
/-
C25 for all case options, and C88: scripts on a server that checks what a statement refers to.
-/

namespace Verif.Props
open Verif Verif.Spec

/-! ## C25 -/

/-- C25 for all case options: the script makes the database as it is printed (`DatabaseAs`).  Full claim: as for `C25_recreates_database_partial`.  Missing: as there, and databases
with names that are printed alike (`NoCollision`; `C25_collision`). -/
theorem C25_case_recreates_partial (o : TqlOpts) (hcr : o.createDb = true) {db db' : Database} (hd : DatabaseAs o.toGenOpts db db') (hno : NoCollision o.toGenOpts db db')
    (hw : WellKeyed db) (hp : PlainDb db) (hk : ∀ p ∈ db.tables, KeysInPlace p.2) (hs : ∀ p ∈ db.tables, p.2.schema ∈ db.schemaNames) (dbs : List Str) (hfresh : db'.name ∉ dbs) :
    ∃ sts sv, (writeTql o db).2 = none ∧ readScript (writeTql o db).1 = some sts ∧
      execAll { dbs := dbs } sts = some sv ∧ sv.cat = catOf db' ∧ sv.dbs = dbs ++ [db'.name] ∧ sv.current = some db'.name ∧
      sv.schemas = db'.schemaNames.filter (fun s => s ≠ c!"falcon_default_schema") := by
  have hok := writeTql_printed hd hp
  have hr := writeTql_reads hp hok
  rw [tqlStmts_printed hd hno.default, hcr] at hr
  obtain ⟨sv, h⟩ := exec_recreates (wellKeyed_printed hd hw hno) (keysInPlace_printed hd hk) hno.schemas (schemas_of_printed hd hs) dbs hfresh
  exact ⟨_, sv, hok, hr, h⟩

/-- C25 for all case options, without `create_db`. -/
theorem C25_case_refreshes_partial (o : TqlOpts) (hcr : o.createDb = false) {db db' : Database} (hd : DatabaseAs o.toGenOpts db db') (hno : NoCollision o.toGenOpts db db')
    (hw : WellKeyed db) (hp : PlainDb db) (hk : ∀ p ∈ db.tables, KeysInPlace p.2) (sv : Server) (hn : db'.name ∈ sv.dbs)
    (hs : ∀ p ∈ db'.tables, p.2.schema = c!"falcon_default_schema" ∨ p.2.schema ∈ sv.schemas) :
    ∃ sts sv', (writeTql o db).2 = none ∧ readScript (writeTql o db).1 = some sts ∧
      execAll sv sts = some sv' ∧ sv'.current = some db'.name ∧ sv'.dbs = sv.dbs ∧ sv'.schemas = sv.schemas ∧
      ∀ s n, sv'.cat s n = (catOf db' s n).or (sv.cat s n) := by
  have hok := writeTql_printed hd hp
  have hr := writeTql_reads hp hok
  rw [tqlStmts_printed hd hno.default, hcr] at hr
  obtain ⟨sv', h⟩ := exec_refreshes (wellKeyed_printed hd hw hno) (keysInPlace_printed hd hk) sv hn hs
  exact ⟨_, sv', hok, hr, h⟩

/-- Two tables that upper case makes one. -/
def twinsDb : Database :=
  ((Database.empty c!"d").addTable ⟨c!"a", defaultSchema, [], none, [(c!"x", ⟨c!"x", c!"INT"⟩)], [], []⟩).addTable
    ⟨c!"A", defaultSchema, [], none, [(c!"y", ⟨c!"y", c!"INT"⟩)], [], []⟩

/-- Without the condition the claim is false: of two tables that are printed alike the first is dropped again by the script. -/
theorem C25_collision : WellKeyed twinsDb ∧ (∃ r, twinsDb.validate = .ok r ∧ r.isValid = true) ∧
    ∃ sts sv, readScript (writeTql { uppercase := true, createDb := true } twinsDb).1 = some sts ∧ execAll {} sts = some sv ∧
      (sv.cat defaultSchema c!"A").map (fun T => T.cols) = some [(c!"Y", c!"INT")] ∧ ∀ n, n ≠ c!"A" → (sv.cat defaultSchema n).isNone = true := by
  refine ⟨by decide, ⟨_, rfl, by decide⟩, _, _, writeTql_reads (plainDbB_sound (by decide)) (by decide), rfl, by decide, ?_⟩
  intro n hn
  have e1 : caseD { uppercase := true } c!"a" = c!"A" := by decide
  have e2 : caseD { uppercase := true } c!"A" = c!"A" := by decide
  have e3 : caseD { uppercase := true } defaultSchema = defaultSchema := by decide
  simp only [e1, e2, e3, Server.put, true_and, if_neg hn, Option.isNone_none, createStmt]

/-! ## C88 -/

/-- Without lower and upper case the printed database is well-formed if the database is. -/
theorem C88_printed_well_formed {o : GenOpts} (hl : o.lowercase = false) (hu : o.uppercase = false) {db db' : Database} (hd : DatabaseAs o db db') (hw : WellKeyed db)
    (wf : WellFormed db) : WellFormed db' := by
  have col : ∀ {n t t' a c}, TableOf db n t → TableAs o t t' → ColumnOf t a c → ColumnOf t' a c := by
    intro n t t' a c ht h hc
    unfold ColumnOf
    rw [h.cols]
    refine List.mem_map.2 ⟨(a, c), hc, ?_⟩
    simp [ColumnAs, hl, hu, hw.colNames n t ht a c hc]
  have tab : ∀ {n m u}, PrintedAs o n m → TableOf db n u → ∃ u', TableOf db' m u' ∧ TableAs o u u' := by
    intro n m u hn hu
    obtain ⟨p', hp', h1, h2⟩ := forall₂_left hd.tables hu
    exact ⟨p'.2, by rw [printed_det hn h1]; exact hp', h2⟩
  refine ⟨?_, ?_, ?_, ?_, ?_⟩
  · intro n t' ht' m c hc
    obtain ⟨p, hp, -, h⟩ := forall₂_right hd.tables ht'
    unfold ColumnOf at hc
    rw [h.cols] at hc
    obtain ⟨q, hq, e⟩ := List.mem_map.1 hc
    cases e
    exact wf.types p.1 p.2 hp q.1 q.2 hq
  · intro n t' ht' k hk
    obtain ⟨p, hp, -, h⟩ := forall₂_right hd.tables ht'
    rw [h.pk] at hk
    obtain ⟨c, hc⟩ := wf.pk p.1 p.2 hp k hk
    exact ⟨c, col hp h hc⟩
  · intro n t' ht' sk hsk k hk
    obtain ⟨p, hp, -, h⟩ := forall₂_right hd.tables ht'
    rw [h.shard] at hsk
    obtain ⟨⟨c, hc⟩, h2⟩ := wf.shard p.1 p.2 hp sk hsk k hk
    exact ⟨⟨c, col hp h hc⟩, by rw [h.pk]; exact h2⟩
  · intro n t' ht' m k' hk'
    obtain ⟨p, hp, -, h⟩ := forall₂_right hd.tables ht'
    obtain ⟨q, hq, -, hk⟩ := forall₂_right h.fks hk'
    obtain ⟨u, hu, l1, l2, l3⟩ := wf.fks p.1 p.2 hp q.1 q.2 hq
    obtain ⟨u', hu', h'⟩ := tab hk.toTable hu
    refine ⟨u', hu', by rw [hk.fromKeys, hk.toKeys]; exact l1, by rw [hk.toKeys, h'.pk]; exact l2, ?_⟩
    rw [hk.fromKeys, hk.toKeys, h'.pk]
    intro i a b ha hb
    obtain ⟨h1, ca, cb, h2, h3, h4⟩ := l3 i a b ha hb
    exact ⟨h1, ca, cb, col hp h h2, col hu h' h3, h4⟩
  · intro n t' ht' m r' hr'
    obtain ⟨p, hp, -, h⟩ := forall₂_right hd.tables ht'
    obtain ⟨q, hq, -, hr⟩ := forall₂_right h.rels hr'
    obtain ⟨hf, u, hu⟩ := wf.rels p.1 p.2 hp q.1 q.2 hq
    obtain ⟨u', hu', -⟩ := tab hr.toTable hu
    exact ⟨printed_det hr.fromTable (hf ▸ h.name), u', hu'⟩

theorem within_printed {o : GenOpts} {db db' : Database} (hd : DatabaseAs o db db') (hno : NoCollision o db db') (hi : WithinSchemas db)
    (hw : ∀ n t, TableOf db n t → (∀ m k, (m, k) ∈ t.fks → ∃ u, TableOf db k.toTable u) ∧ ∀ m r, (m, r) ∈ t.rels → ∃ u, TableOf db r.toTable u) : WithinSchemas db' := by
  have same : ∀ {n m s s' u' u}, PrintedAs o n m → PrintedAs o s s' → TableOf db n u → u.schema = s → TableOf db' m u' → u'.schema = s' := by
    intro n m s s' u' u hn hs hu e hu'
    obtain ⟨p', hp', h1, h2⟩ := forall₂_left hd.tables hu
    have hm : p'.1 = m := printed_det h1 hn
    have : p' = (m, u') := by
      have e1 := (Dict.mem_iff_get? hno.tables).1 hu'
      have e2 := (Dict.mem_iff_get? hno.tables).1 (show (m, p'.2) ∈ db'.tables by rw [← hm]; exact hp')
      rw [e1] at e2
      exact Prod.ext hm (Option.some.inj e2).symm
    rw [this] at h2
    exact printed_det h2.schema (e ▸ hs)
  intro n t' ht'
  obtain ⟨p, hp, -, h⟩ := forall₂_right hd.tables ht'
  constructor
  · intro m k' hk' u' hu'
    obtain ⟨q, hq, -, hk⟩ := forall₂_right h.fks hk'
    obtain ⟨u, hu⟩ := (hw p.1 p.2 hp).1 q.1 q.2 hq
    exact same hk.toTable h.schema hu ((hi p.1 p.2 hp).1 q.1 q.2 hq u hu) hu'
  · intro m r' hr' u' hu'
    obtain ⟨q, hq, -, hr⟩ := forall₂_right h.rels hr'
    obtain ⟨u, hu⟩ := (hw p.1 p.2 hp).2 q.1 q.2 hq
    exact same hr.toTable h.schema hu ((hi p.1 p.2 hp).2 q.1 q.2 hq u hu) hu'

/-- C88.  Full claim: a server that checks what a statement refers to accepts the script of every valid database, under every case option, and ends up with the database.
What holds: the same for databases whose printed form is well-formed (with lower or upper case this is a condition on key columns, `C88_upper_refused`; without, see
`C88_valid_accepted_partial`), whose keys stay within a schema (`C88_other_schema_refused`), with names that can be printed (`PlainDb`) and do not collide. -/
theorem C88_accepted_partial (o : TqlOpts) {db db' : Database} (hd : DatabaseAs o.toGenOpts db db') (hno : NoCollision o.toGenOpts db db') (hw : WellKeyed db) (hp : PlainDb db)
    (hk : ∀ p ∈ db.tables, KeysInPlace p.2) (hs : ∀ p ∈ db.tables, p.2.schema ∈ db.schemaNames) (wf : WellFormed db') (hi : WithinSchemas db') :
    ∃ sts, (writeTql o db).2 = none ∧ readScript (writeTql o db).1 = some sts ∧
      (o.createDb = true → ∀ dbs, db'.name ∉ dbs → ∃ sv, Accepts { dbs := dbs } sts sv ∧ sv.cat = catOf db') ∧
      (o.createDb = false → ∀ sv, db'.name ∈ sv.dbs → (∀ p ∈ db'.tables, p.2.schema = c!"falcon_default_schema" ∨ p.2.schema ∈ sv.schemas) →
        ∃ sv', Accepts sv sts sv' ∧ ∀ s n, sv'.cat s n = (catOf db' s n).or (sv.cat s n)) := by
  have hok := writeTql_printed hd hp
  have hr := writeTql_reads hp hok
  rw [tqlStmts_printed hd hno.default] at hr
  have hw' := wellKeyed_printed hd hw hno
  have hk' := keysInPlace_printed hd hk
  refine ⟨_, hok, hr, ?_, ?_⟩
  · intro hcr dbs hfresh
    rw [hcr]
    obtain ⟨sv, he, hc, -⟩ := exec_recreates hw' hk' hno.schemas (schemas_of_printed hd hs) dbs hfresh
    exact ⟨sv, accepts_tql true hw' wf hk' hi he (fun s n T e => by rw [hc]; exact e), hc⟩
  · intro hcr sv hn hsv
    rw [hcr]
    obtain ⟨sv', he, -, -, -, hc⟩ := exec_refreshes hw' hk' sv hn hsv
    exact ⟨sv', accepts_tql false hw' wf hk' hi he (fun s n T e => by rw [hc, e]; rfl), hc⟩

/-- C88 for a database that `validate` accepts, without lower and upper case. -/
theorem C88_valid_accepted_partial (o : TqlOpts) (hl : o.lowercase = false) (hu : o.uppercase = false) {db db' : Database} (hd : DatabaseAs o.toGenOpts db db')
    (hno : NoCollision o.toGenOpts db db') (hw : WellKeyed db) (hp : PlainDb db) (hk : ∀ p ∈ db.tables, KeysInPlace p.2) (hs : ∀ p ∈ db.tables, p.2.schema ∈ db.schemaNames)
    (hv : ∃ r, db.validate = .ok r ∧ r.isValid = true) (hi : WithinSchemas db) :
    ∃ sts, (writeTql o db).2 = none ∧ readScript (writeTql o db).1 = some sts ∧
      (o.createDb = true → ∀ dbs, db'.name ∉ dbs → ∃ sv, Accepts { dbs := dbs } sts sv ∧ sv.cat = catOf db') ∧
      (o.createDb = false → ∀ sv, db'.name ∈ sv.dbs → (∀ p ∈ db'.tables, p.2.schema = c!"falcon_default_schema" ∨ p.2.schema ∈ sv.schemas) →
        ∃ sv', Accepts sv sts sv' ∧ ∀ s n, sv'.cat s n = (catOf db' s n).or (sv.cat s n)) := by
  have wf := (C08_valid_iff_well_formed db hw).1 hv
  refine C88_accepted_partial o hd hno hw hp hk hs (C88_printed_well_formed hl hu hd hw wf) (within_printed hd hno hi ?_)
  intro n t ht
  exact ⟨fun m k hk => let ⟨u, hu, _⟩ := wf.fks n t ht m k hk; ⟨u, hu⟩, fun m r hr => (wf.rels n t ht m r hr).2⟩

theorem accepts_split {sv sv' : Server} {l m : List Stmt} {st : Stmt} (h : Accepts sv (l ++ st :: m) sv') : ∃ sv1, execAll sv l = some sv1 ∧ RefsOk sv1 st := by
  induction l generalizing sv with
  | nil =>
    cases h with
    | cons _ _ _ _ _ ho _ _ => exact ⟨sv, rfl, ho⟩
  | cons x l ih =>
    cases h with
    | cons _ s1 _ _ _ _ he hr =>
      obtain ⟨sv1, h1, h2⟩ := ih hr
      exact ⟨sv1, by simp only [execAll, he, Option.bind_some, h1], h2⟩

/-- With upper case the script of a valid database is refused, whatever the server holds. -/
theorem C88_upper_refused :
    (∃ r, dbOneSchema.validate = .ok r ∧ r.isValid = true) ∧
    ∃ sts, readScript (writeTql { uppercase := true, createDb := true } dbOneSchema).1 = some sts ∧ ∀ sv sv', ¬ Accepts sv sts sv' := by
  refine ⟨⟨_, rfl, by decide⟩, _, writeTql_reads (plainDbB_sound (by decide)) (by decide), ?_⟩
  intro sv sv' h
  have hm : Stmt.createTable c!"S1" c!"B" [(c!"Y", c!"INT"), (c!"Z", c!"VARCHAR(0)")] [c!"y"] (some (c!"4", [c!"y"])) ∈ tqlStmts { uppercase := true, createDb := true } dbOneSchema := by
    decide
  obtain ⟨l, m, e⟩ := List.append_of_mem hm
  rw [e] at h
  obtain ⟨sv1, -, ho⟩ := accepts_split h
  have := ho.1 c!"y" (by simp)
  revert this
  decide

/-- A foreign key to a table of another schema: the script of a valid database is refused by a new server. -/
theorem C88_other_schema_refused :
    (∃ r, dbTwoSchemas.validate = .ok r ∧ r.isValid = true) ∧
    ∃ sts, readScript (writeTql { createDb := true } dbTwoSchemas).1 = some sts ∧ ∀ sv', ¬ Accepts {} sts sv' := by
  refine ⟨⟨_, rfl, by decide⟩, _, writeTql_reads (plainDbB_sound (by decide)) (by decide), ?_⟩
  intro sv' h
  have e : tqlStmts { createDb := true } dbTwoSchemas = (tqlStmts { createDb := true } dbTwoSchemas).take 8 ++
      .alter c!"s1" c!"a" (.addFK c!"f" [c!"x"] (some c!"s1") c!"b" [c!"y"]) :: (tqlStmts { createDb := true } dbTwoSchemas).drop 9 := by decide
  rw [e] at h
  obtain ⟨sv1, h1, T, U, -, h2, -⟩ := accepts_split h
  have : (execAll {} ((tqlStmts { createDb := true } dbTwoSchemas).take 8)).map (fun sv => (sv.cat c!"s1" c!"b").isNone) = some true := by decide
  rw [h1] at this
  simp only [Option.getD_some] at h2
  simp [h2] at this

/-! ## The hypotheses are met -/

theorem snake_no_collision : NoCollision { camelcase := true } snakeDb camelDb := by
  refine ⟨by decide, ?_, by decide, ?_⟩
  · have : ∀ p ∈ camelDb.tables, (p.2.cols.map Prod.fst).Nodup := by decide
    exact fun n t h => this _ h
  · have : ∀ s ∈ snakeDb.schemaNames, s = c!"falcon_default_schema" := by decide
    exact fun s h _ => this s h

theorem snake_within : WithinSchemas snakeDb := by
  have all : ∀ p ∈ snakeDb.tables, p.2.schema = c!"falcon_default_schema" := by decide
  exact fun n t ht => ⟨fun _ k _ u hu => (all _ hu).trans (all _ ht).symm, fun _ r _ u hu => (all _ hu).trans (all _ ht).symm⟩

theorem snake_in_place : ∀ p ∈ snakeDb.tables, KeysInPlace p.2 := by
  have h : ∀ p ∈ snakeDb.tables, (∀ q ∈ p.2.fks, q.2.fromTable = p.2.name) ∧ (∀ q ∈ p.2.rels, q.2.fromTable = p.2.name) ∧
    ∀ q ∈ p.2.fks, ∀ r ∈ p.2.rels, q.1 ≠ r.1 := by decide
  exact fun p hp => ⟨(h p hp).1, (h p hp).2.1, (h p hp).2.2⟩

/-- A database with a foreign key, in camel case. -/
example : ∃ sts, readScript (writeTql { camelcase := true, createDb := true } snakeDb).1 = some sts ∧ ∃ sv, Accepts {} sts sv ∧ sv.cat = catOf camelDb := by
  obtain ⟨sts, -, hr, h, -⟩ := C88_valid_accepted_partial { camelcase := true, createDb := true } rfl rfl snake_camel snake_no_collision (by decide) (plainDbB_sound (by decide))
    snake_in_place (by decide) ⟨_, rfl, by decide⟩ snake_within
  exact ⟨sts, hr, h rfl [] (by simp)⟩

end Verif.Props
