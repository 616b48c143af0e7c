import Verif.Spec.EndToEnd
import Verif.Props.WholeFile
import Verif.Props.DiffAlters
import Verif.Props.TqlScript
import Verif.Props.StrictServer
import Verif.Props.Validation
/-
C82: whole runs of convert_ddl and ddldiff, from the text of the DDL file to the contents of the server.
-/

namespace Verif.Props
open Verif Verif.Spec

/-! ## The database that is read -/

theorem file_means {fs : FS} {n schema f content : Str} {es : List Effect} (hf : f ≠ []) (hfs : fs f = some (.text content)) (h : FileMeans schema content es) :
    (parseDdl fs { databaseName := n, schemaName := schema } (some f)).2 = .ok (some (databaseOf n schema (describes es))) := by
  obtain ⟨ls, ls1, ls2, hl, hc, hu, h2, rfl, hm, hn⟩ := h
  exact (C80_commented_partial hl hc hu h2 (p := { databaseName := n, schemaName := schema }) hf hfs hm hn).1

theorem described_consistent {fs : FS} {n schema f content : Str} {es : List Effect} (hf : f ≠ []) (hfs : fs f = some (.text content)) (h : FileMeans schema content es) :
    Consistent n schema (databaseOf n schema (describes es)) :=
  ((C36_parsed_database_consistent fs _ _).1 _ (file_means (n := n) hf hfs h)).1

theorem keys_in_place {n schema : Str} {ts : List Table} (hc : Consistent n schema (databaseOf n schema ts)) (h : DistinctKeyNames ts) :
    ∀ p ∈ (databaseOf n schema ts).tables, KeysInPlace p.2 := by
  intro p hp
  simp only [databaseOf, List.mem_map] at hp
  obtain ⟨t, ht, rfl⟩ := hp
  have hT : TableOf (databaseOf n schema ts) t.name t := List.mem_map.2 ⟨t, ht, rfl⟩
  exact ⟨fun q hq => (hc.fks _ _ hT _ _ hq).1, fun q hq => hc.rels _ _ hT _ _ hq, h t ht⟩

theorem described_validates {n schema : Str} {ts : List Table} (hc : Consistent n schema (databaseOf n schema ts)) : ∃ r, (databaseOf n schema ts).validate = .ok r := by
  refine C11_validate_total _ hc.keyed (fun m t ht k fk hk => ⟨some fk.fromTable, some (.many fk.fromKeys), some fk.toTable, some (.many fk.toKeys), some fk.name, ?_⟩)
  simp [mkFK, KeyArg.toList, (hc.fks m t ht k fk hk).2]

/-! ## convert_ddl -/

theorem not_given {o : Option Str} (h : ¬ Given o) : given o = false := by
  cases e : given o with
  | false => rfl
  | true => exact absurd (given_iff.1 e) h

theorem valid_from {a : ConvertArgs} {f n : Str} (h : FromFile a f n) : validConvert a = true :=
  (C60_convert a).2 ⟨.inr (.inr (.inl ⟨f, h.source⟩)), fun _ => ⟨n, h.database⟩⟩

theorem opts_from (a : ConvertArgs) : (tqlOpts a).toGenOpts = caseOf a ∧ (tqlOpts a).createDb = a.createDb := ⟨rfl, rfl⟩

/-- A run from a DDL file that ends without an exception: what is read is what the file describes, and then the writers run. -/
theorem convert_from {env : Env} {a : ConvertArgs} {w w' : World} {f n : Str} {db : Database} (h : FromFile a f n)
    (hp : (parseDdl w.disk.fs { databaseName := n, schemaName := a.schema } (some f)).2 = .ok (some db)) (hv : ∃ r, db.validate = .ok r)
    (hw : (Act.when (given a.toTql) (tqlToFile env (tqlOpts a) (some db) (a.toTql.getD [])) >>= fun _ =>
      Act.when (given a.toTs) (writeToTs env (tqlOpts a) (some db) (a.toTs.getD []))) w = (w', .ok ())) :
    convertMain env a w = (w', .ok ()) := by
  obtain ⟨r, hr⟩ := hv
  obtain ⟨w1, ⟨⟩, h1, h2⟩ := Act.bind_ok_iff.1 hw
  unfold convertMain
  rw [if_pos (valid_from h), h.version]
  simp only [Bool.false_eq_true, if_false]
  refine Act.bind_ok_iff.2 ⟨w, some db, ?_, ?_⟩
  · rw [C65_from_ddl h.source.1 h.source.2 h.database.1, hp]
  · unfold convertWrite
    refine Act.bind_ok_iff.2 ⟨w, (), ?_, Act.bind_ok_iff.2 ⟨w1, (), h1, Act.bind_ok_iff.2 ⟨w1, (), by rw [not_given h.noExcel]; rfl, h2⟩⟩⟩
    unfold Act.when
    split
    · simp [convertValidate, Act.lift, hr, Except.map]
    · rfl

theorem text_at {d : Disk} {f content : Str} (h : TextAt d f content) : d.fs f = some (.text content) := by
  unfold TextAt at h
  simp [Disk.fs, h]

/-- The script convert_ddl makes of a database that was read does what it should on a server. -/
theorem described_script {n schema : Str} {ts : List Table} {db' : Database} {o : TqlOpts} (hd : DatabaseAs o.toGenOpts (databaseOf n schema ts) db')
    (hno : NoCollision o.toGenOpts (databaseOf n schema ts) db') (hc : Consistent n schema (databaseOf n schema ts)) (hp : PlainDb (databaseOf n schema ts)) (hk : DistinctKeyNames ts) :
    (writeTql o (databaseOf n schema ts)).2 = none ∧
      (o.createDb = true → Builds (writeTql o (databaseOf n schema ts)).1 db') ∧
      (o.createDb = false → Replaces (writeTql o (databaseOf n schema ts)).1 db') := by
  have hk := keysInPlace_printed hd (keys_in_place hc hk)
  have hw := wellKeyed_printed hd hc.keyed hno
  have hmem : ∀ p ∈ (databaseOf n schema ts).tables, p.2.schema ∈ (databaseOf n schema ts).schemaNames := by
    intro p hm
    have e := hc.schema p.1 p.2 hm
    have hne : (databaseOf n schema ts).tables ≠ [] := by intro e; rw [e] at hm; cases hm
    have := hc.schemas
    rw [if_neg hne] at this
    simp [Database.schemaNames, Dict.keys, this, e]
  have hmem := schemas_of_printed hd hmem
  have hback : ∀ s ∈ (databaseOf n schema ts).schemaNames, ∃ m t, TableOf (databaseOf n schema ts) m t ∧ t.schema = s := by
    intro s hs
    have e := hc.schemas
    simp only [Database.schemaNames, Dict.keys, e] at hs
    split at hs
    · cases hs
    · rename_i hne
      simp only [List.mem_singleton] at hs
      subst hs
      obtain ⟨p, hp⟩ := List.exists_mem_of_ne_nil _ hne
      exact ⟨p.1, p.2, hp, hc.schema _ _ hp⟩
  have hback : ∀ s ∈ db'.schemaNames, ∃ m t, TableOf db' m t ∧ t.schema = s := by
    intro s hs
    obtain ⟨q', hq', rfl⟩ := List.mem_map.1 hs
    obtain ⟨q, hq, h1⟩ := forall₂_right hd.schemas hq'
    obtain ⟨m, t, ht, e⟩ := hback q.1 (List.mem_map.2 ⟨q, hq, rfl⟩)
    obtain ⟨p', hp', -, h2⟩ := forall₂_left hd.tables ht
    exact ⟨p'.1, p'.2, hp', printed_det h2.schema (e ▸ h1)⟩
  have hi : WithinSchemas db' := by
    have one : ∀ m t, TableOf db' m t → PrintedAs o.toGenOpts schema t.schema := by
      intro m t ht
      obtain ⟨p, hp, -, h⟩ := forall₂_right hd.tables ht
      have := h.schema
      rw [hc.schema p.1 p.2 hp] at this
      exact this
    exact fun m t ht => ⟨fun _ k _ u hu => printed_det (one _ _ hu) (one _ _ ht), fun _ k _ u hu => printed_det (one _ _ hu) (one _ _ ht)⟩
  have hok := writeTql_printed hd hp
  have hr := writeTql_reads hp hok
  rw [tqlStmts_printed hd hno.default] at hr
  refine ⟨hok, ?_, ?_⟩
  · intro hcr
    rw [hcr] at hr
    refine ⟨_, hr, fun dbs hfresh => ?_⟩
    obtain ⟨sv, he, hcat, hdbs, hcur, hsch⟩ := exec_recreates hw hk hno.schemas hmem dbs hfresh
    refine ⟨sv, he, hcat, hdbs, hcur, fun s => ?_, fun wf => accepts_tql true hw wf hk hi he (fun s n T e => by rw [hcat]; exact e)⟩
    rw [hsch, List.mem_filter]
    constructor
    · rintro ⟨h1, h2⟩
      exact ⟨by simpa using h2, hback s h1⟩
    · rintro ⟨h1, m, t, h2, rfl⟩
      exact ⟨hmem _ h2, by simpa using h1⟩
  · intro hcr
    rw [hcr] at hr
    refine ⟨_, hr, fun sv hd hs => ?_⟩
    obtain ⟨sv', he, h1, h2, h3, h4⟩ := exec_refreshes hw hk sv hd (fun p h => hs _ _ h)
    exact ⟨sv', he, h1, h2, h3, h4, fun wf => accepts_tql false hw wf hk hi he (fun s n T e => by rw [h4, e]; rfl)⟩

/-- Without options for the case of names, a database is printed as it is. -/
theorem printed_plain {n schema : Str} {ts : List Table} (hc : Consistent n schema (databaseOf n schema ts)) :
    DatabaseAs {} (databaseOf n schema ts) (databaseOf n schema ts) ∧ NoCollision {} (databaseOf n schema ts) (databaseOf n schema ts) := by
  refine ⟨database_default hc.keyed, hc.keyed.tables, hc.keyed.cols, ?_, ?_⟩
  · have := hc.schemas
    simp only [Database.schemaNames, Dict.keys, this]
    split <;> simp
  · intro s _ h
    by_cases e : s = c!"falcon_default_schema"
    · exact e
    · simp only [PrintedAs, if_neg e, Bool.false_eq_true, if_false] at h
      exact h.symm

/-- C82: `convert_ddl --from_ddl f --database n --to_tql g` succeeds on a file that describes tables, changes no file but `g`, sends nothing, and leaves in `g` a script that
makes the database described, as it is printed under the case options (with `--create_db`), or puts its tables in place of those of the same names.  Full claim: for every DDL file.  Missing: files in another form than
that of C80, names the script cannot hold (`PlainDb`), keys and relationships of the same name (`C25_name_clash`), names printed alike (`C25_collision`). -/
theorem C82_file_partial {env : Env} {a : ConvertArgs} {w : World} {f n g content : Str} {es : List Effect} {db' : Database} (h : FileToFile a f n g) (hg : env.writable g = true)
    (hf : TextAt w.disk f content) (hm : FileMeans a.schema content es) (hp : PlainDb (databaseOf n a.schema (describes es))) (hk : DistinctKeyNames (describes es))
    (hd : DatabaseAs (caseOf a) (databaseOf n a.schema (describes es)) db') (hno : NoCollision (caseOf a) (databaseOf n a.schema (describes es)) db') :
    ∃ w' script, convertMain env a w = (w', .ok ()) ∧ w'.sent = w.sent ∧ TextAt w'.disk g script ∧ (∀ x, x ≠ g → w'.disk x = w.disk x) ∧
      (a.createDb = true → Builds script db') ∧ (a.createDb = false → Replaces script db') := by
  have hc := described_consistent (n := n) h.source.2 (text_at hf) hm
  obtain ⟨h1, h2, h3⟩ := described_script (o := tqlOpts a) hd hno hc hp hk
  refine ⟨_, _, convert_from (w' := { w with disk := w.disk.put g (some (.file (.text (writeTql (tqlOpts a) (databaseOf n a.schema (describes es))).1))) }) h.toFromFile
    (file_means h.source.2 (text_at hf) hm) (described_validates hc) (Act.bind_ok_iff.2 ⟨_, (), ?_, by rw [not_given h.noServer]; rfl⟩), rfl, ?_, ?_, h2, h3⟩
  · rw [given_iff.2 ⟨g, h.target.1, h.target.2.1⟩]
    simp only [Act.when, if_true, h.target.1, Option.getD_some, tqlToFile, h1, hg]
    rw [if_neg (by simp [h.target.2.1, h.target.2.2])]
  · simp [TextAt, Disk.put]
  · intro x hx
    simp [Disk.put, hx]

/-- C82: `convert_ddl --from_ddl f --database n --to_ts host` succeeds if the server accepts the script, sends just that script, and leaves the files as they were but for the
temporary one.  Full claim: for every DDL file.  Missing: as above, and scripts with a carriage return, which is sent as a line feed. -/
theorem C82_server_partial {env : Env} {a : ConvertArgs} {w : World} {f n host content : Str} {es : List Effect} {db' : Database} (h : FileToServer a f n host) (hg : env.writable (n ++ c!".tmp") = true)
    (hf : TextAt w.disk f content) (hm : FileMeans a.schema content es) (hp : PlainDb (databaseOf n a.schema (describes es))) (hk : DistinctKeyNames (describes es))
    (hd : DatabaseAs (caseOf a) (databaseOf n a.schema (describes es)) db') (hno : NoCollision (caseOf a) (databaseOf n a.schema (describes es)) db')
    (ha : ∀ cmd, ∃ l, env.answer host cmd = .ok l) :
    ∃ w' script text, convertMain env a w = (w', .ok ()) ∧ w'.sent = w.sent ++ [(host, text)] ∧ ('\r' ∉ script → text = script) ∧ (∀ x, x ≠ n ++ c!".tmp" → w'.disk x = w.disk x) ∧ w'.disk (n ++ c!".tmp") = none ∧
      (a.createDb = true → Builds script db') ∧ (a.createDb = false → Replaces script db') := by
  have hc := described_consistent (n := n) h.source.2 (text_at hf) hm
  obtain ⟨h1, h2, h3⟩ := described_script (o := tqlOpts a) hd hno hc hp hk
  have htmp : (databaseOf n a.schema (describes es)).name ++ c!".tmp" = n ++ c!".tmp" := rfl
  have hne : tmpFile n ≠ [] ∧ tmpFile n ≠ c!"-" := by
    unfold tmpFile
    refine ⟨by simp, fun e => ?_⟩
    have := congrArg List.length e
    simp at this
  obtain ⟨l, hl⟩ := ha (newlines (writeTql (tqlOpts a) (databaseOf n a.schema (describes es))).1)
  refine ⟨⟨(w.disk.put (tmpFile n) (some (.file (.text (writeTql (tqlOpts a) (databaseOf n a.schema (describes es))).1)))).put (tmpFile n) none,
    w.sent ++ [(host, newlines (writeTql (tqlOpts a) (databaseOf n a.schema (describes es))).1)]⟩, _, _, convert_from h.toFromFile
    (file_means h.source.2 (text_at hf) hm) (described_validates hc) (Act.bind_ok_iff.2 ⟨w, (), by rw [not_given h.noFile]; rfl, ?_⟩), rfl, newlines_plain, ?_, ?_, h2, h3⟩
  · rw [given_iff.2 ⟨host, h.target⟩]
    simp only [Act.when, if_true, h.target.1, Option.getD_some, writeToTs]
    refine Act.bind_ok_iff.2 ⟨{ w with disk := w.disk.put (tmpFile n) (some (.file (.text (writeTql (tqlOpts a) (databaseOf n a.schema (describes es))).1))) }, (), ?_, ?_⟩
    · simp only [tqlToFile, h1]
      show (if tmpFile n = [] ∨ tmpFile n = c!"-" then _ else if env.writable (tmpFile n) = true then _ else _) = _
      rw [if_neg (by simp [hne.1, hne.2]), if_pos (show env.writable (tmpFile n) = true from hg)]
      rfl
    · show sendFile env host (tmpFile n) _ = _
      simp [sendFile, Disk.fs, Disk.put, hl]
  · intro x hx
    have hx : x ≠ tmpFile n := hx
    simp only [Disk.put]
    rw [if_neg hx, if_neg hx]
  · simp [Disk.put, tmpFile]

/-! ## ddldiff -/

/-- C82: `ddldiff --alter1 --alter2` prints scripts that turn the database the one file describes into the one the other describes.  Full claim: for every pair of DDL files.
Missing: files in another form than that of C80, and the differences left out of C76. -/
theorem C82_diff_partial (fr : Rat → Str) (d : Disk) (a : DiffArgs) {f1 f2 c1 c2 : Str} {es1 es2 : List Effect} (h1 : a.ddl1 = some f1) (h2 : a.ddl2 = some f2) (n1 : f1 ≠ []) (n2 : f2 ≠ [])
    (hab : a.alter1 = true ∨ a.alter2 = true) (t1 : TextAt d f1 c1) (t2 : TextAt d f2 c2) (m1 : FileMeans a.schema c1 es1) (m2 : FileMeans a.schema c2 es2)
    (hk : KeysTold (databaseOf a.database a.schema (describes es1)) (databaseOf a.database a.schema (describes es2)))
    (p1 : PlainDb (databaseOf a.database a.schema (describes es1))) (p2 : PlainDb (databaseOf a.database a.schema (describes es2)))
    (q1 : a.alter1 = true → NewTablesBare (databaseOf a.database a.schema (describes es1)) (databaseOf a.database a.schema (describes es2)) ∧
      NoKeyAdded (databaseOf a.database a.schema (describes es1)) (databaseOf a.database a.schema (describes es2)))
    (q2 : a.alter2 = true → NewTablesBare (databaseOf a.database a.schema (describes es2)) (databaseOf a.database a.schema (describes es1)) ∧
      NoKeyAdded (databaseOf a.database a.schema (describes es2)) (databaseOf a.database a.schema (describes es1))) :
    ∃ s1 s2, diffMain fr d a = (.alters (
        (if a.alter1 then c!"-- changes needed for first schema to match the second\n" ++ s1 else []) ++
        (if a.alter2 then c!"-- changes needed for second schema to match the first\n" ++ s2 else [])), none) ∧
      (a.alter1 = true → Migrates a.schema s1 (databaseOf a.database a.schema (describes es1)) (databaseOf a.database a.schema (describes es2))) ∧
      (a.alter2 = true → Migrates a.schema s2 (databaseOf a.database a.schema (describes es2)) (databaseOf a.database a.schema (describes es1))) := by
  refine C76_alters_partial fr d a f1 f2 _ _ ⟨f1, f2, h1, n1, ?_, h2, n2, ?_⟩ h1 h2 hab (file_means n1 (text_at t1) m1) (file_means n2 (text_at t2) m2) hk p1 p2 q1 q2
  · simp only [TextAt] at t1
    simp [OnDisk, t1]
  · simp only [TextAt] at t2
    simp [OnDisk, t2]

/-! ## Runs -/

/-- Lines of the simple kind are the code of a file that consists of them. -/
theorem simple_file {schema : Str} {ls : List Str} {es : List Effect} (hl : SimpleLines ls) (h : List.Forall₂ (Means schema) (statementsOf ls) es) (hn : (createdNames es).Nodup) :
    FileMeans schema (fileOf ls) es := by
  refine ⟨ls, ls, ls, hl, List.forall₂_same.2 (fun _ _ => .none), ?_, hl.lines, rfl, h, hn⟩
  have : ∀ l ∈ ls, CodeLine l := fun l h => ⟨(hl.plain l h).noBlockComment, hl.single l h⟩
  clear hl h
  induction ls with
  | nil => exact .nil
  | cons l ls ih => exact .code (this l (by simp)) (ih (fun x hx => this x (by simp [hx])))

theorem shop_means : FileMeans c!"s" (fileOf shopLines) shopEffects := by
  refine simple_file shopLines_simple ?_ (by decide)
  rw [shopStatements]
  exact .cons (.other (by decide +kernel) (by decide +kernel)) (.cons (.creates shopA) (.cons (.creates shopB) (.cons (.alters (.keys shopKey)) .nil)))

theorem shop_plain : PlainDb (databaseOf c!"d" c!"s" (describes shopEffects)) ∧ DistinctKeyNames (describes shopEffects) := by
  refine ⟨plainDbB_sound (by decide), ?_⟩
  have e : describes shopEffects = shopTables := rfl
  rw [e]
  unfold DistinctKeyNames
  decide

theorem shop_consistent : Consistent c!"d" c!"s" (databaseOf c!"d" c!"s" (describes shopEffects)) :=
  described_consistent (fs := oneFile c!"f" (fileOf shopLines)) (f := c!"f") (by decide) (by simp [oneFile]) shop_means

/-- convert_ddl on a file with two tables and a foreign key: by the theorem, a script that builds the database. -/
example : ∃ w' script, convertMain (sayEnv []) { fromDdl := some c!"f", database := some c!"d", schema := c!"s", toTql := some c!"g", createDb := true }
      ⟨disk [(c!"f", .file (.text (fileOf shopLines)))], []⟩ = (w', .ok ()) ∧ TextAt w'.disk c!"g" script ∧ Builds script (databaseOf c!"d" c!"s" shopTables) := by
  obtain ⟨w', script, h, -, ht, -, hb, -⟩ := C82_file_partial (env := sayEnv []) (a := { fromDdl := some c!"f", database := some c!"d", schema := c!"s", toTql := some c!"g", createDb := true })
    (w := ⟨disk [(c!"f", .file (.text (fileOf shopLines)))], []⟩) (f := c!"f") (n := c!"d") (g := c!"g")
    ⟨⟨rfl, ⟨rfl, by decide⟩, ⟨rfl, by decide⟩, by simp [Given]⟩, ⟨rfl, by decide, by decide⟩, by simp [Given]⟩ rfl rfl shop_means shop_plain.1 shop_plain.2
    (printed_plain shop_consistent).1 (printed_plain shop_consistent).2
  exact ⟨w', script, h, ht, hb rfl⟩

/-- The tables of the file in camel case. -/
def shopCamel : List Table :=
  [{ name := c!"A", schema := c!"S", pk := [c!"id"], shard := none, fks := [], rels := [], cols := [(c!"id", ⟨c!"id", c!"BIGINT"⟩)] },
   { name := c!"B", schema := c!"S", pk := [], shard := none, rels := [], cols := [(c!"c", ⟨c!"c", c!"VARCHAR(0)"⟩), (c!"k", ⟨c!"k", c!"BIGINT"⟩)],
     fks := [(c!"fk1", ⟨c!"fk1", c!"B", [c!"k"], c!"A", [c!"id"]⟩)] }]

theorem shop_camel : DatabaseAs { camelcase := true } (databaseOf c!"d" c!"s" (describes shopEffects)) (databaseOf c!"D" c!"S" shopCamel) := by
  have w1 : PrintedAs { camelcase := true } c!"d" c!"D" := ⟨0, [c!"d"], 0, by decide, by decide, by decide, by decide⟩
  have w2 : PrintedAs { camelcase := true } c!"a" c!"A" := ⟨0, [c!"a"], 0, by decide, by decide, by decide, by decide⟩
  have w3 : PrintedAs { camelcase := true } c!"b" c!"B" := ⟨0, [c!"b"], 0, by decide, by decide, by decide, by decide⟩
  have w4 : PrintedAs { camelcase := true } c!"s" c!"S" := ⟨0, [c!"s"], 0, by decide, by decide, by decide, by decide⟩
  exact ⟨w1, .cons ⟨w2, w2, w4, rfl, rfl, rfl, .nil, .nil⟩ (.cons ⟨w3, w3, w4, rfl, rfl, rfl, .cons ⟨rfl, rfl, w3, rfl, w2, rfl⟩ .nil, .nil⟩ .nil), .cons w4 .nil⟩

theorem shop_no_collision : NoCollision { camelcase := true } (databaseOf c!"d" c!"s" (describes shopEffects)) (databaseOf c!"D" c!"S" shopCamel) := by
  refine ⟨by decide, ?_, by decide, ?_⟩
  · have : ∀ p ∈ (databaseOf c!"D" c!"S" shopCamel).tables, (p.2.cols.map Prod.fst).Nodup := by decide
    exact fun n t h => this _ h
  · intro s hs h
    have e : (databaseOf c!"d" c!"s" (describes shopEffects)).schemaNames = [c!"s"] := by decide
    rw [e, List.mem_singleton] at hs
    subst hs
    have := toCase_printed h
    revert this
    decide

/-- convert_ddl with camel case: by the theorems, a script that is accepted by a server that checks references. -/
example : ∃ w' script, convertMain (sayEnv []) { fromDdl := some c!"f", database := some c!"d", schema := c!"s", toTql := some c!"g", createDb := true, camelcase := true }
      ⟨disk [(c!"f", .file (.text (fileOf shopLines)))], []⟩ = (w', .ok ()) ∧ TextAt w'.disk c!"g" script ∧
      ∃ sts sv, readScript script = some sts ∧ Accepts {} sts sv ∧ sv.cat = catOf (databaseOf c!"D" c!"S" shopCamel) := by
  obtain ⟨w', script, h, -, ht, -, hb, -⟩ := C82_file_partial (env := sayEnv [])
    (a := { fromDdl := some c!"f", database := some c!"d", schema := c!"s", toTql := some c!"g", createDb := true, camelcase := true })
    (w := ⟨disk [(c!"f", .file (.text (fileOf shopLines)))], []⟩) (f := c!"f") (n := c!"d") (g := c!"g")
    ⟨⟨rfl, ⟨rfl, by decide⟩, ⟨rfl, by decide⟩, by simp [Given]⟩, ⟨rfl, by decide, by decide⟩, by simp [Given]⟩ rfl rfl shop_means shop_plain.1 shop_plain.2 shop_camel shop_no_collision
  obtain ⟨sts, hr, hx⟩ := hb rfl
  obtain ⟨sv, -, hc, -, -, -, hacc⟩ := hx [] (by simp)
  have wf : WellFormed (databaseOf c!"D" c!"S" shopCamel) := (C08_valid_iff_well_formed _ (by decide)).1 ⟨_, rfl, by decide⟩
  exact ⟨w', script, h, ht, sts, sv, hr, hacc wf, hc⟩

/-- Without options, to a server. -/
example : ∃ w' script text, convertMain (sayEnv []) { fromDdl := some c!"f", database := some c!"d", schema := c!"s", toTs := some c!"h" }
      ⟨disk [(c!"f", .file (.text (fileOf shopLines)))], []⟩ = (w', .ok ()) ∧ w'.sent = [(c!"h", text)] ∧ ('\r' ∉ script → text = script) ∧ Replaces script (databaseOf c!"d" c!"s" shopTables) := by
  obtain ⟨w', script, text, h, hs, ht, -, -, -, hb⟩ := C82_server_partial (env := sayEnv []) (a := { fromDdl := some c!"f", database := some c!"d", schema := c!"s", toTs := some c!"h" })
    (w := ⟨disk [(c!"f", .file (.text (fileOf shopLines)))], []⟩) (f := c!"f") (n := c!"d") (host := c!"h")
    ⟨⟨rfl, ⟨rfl, by decide⟩, ⟨rfl, by decide⟩, by simp [Given]⟩, ⟨rfl, by decide⟩, by simp [Given]⟩ rfl rfl shop_means shop_plain.1 shop_plain.2
    (printed_plain shop_consistent).1 (printed_plain shop_consistent).2 (fun _ => ⟨[], rfl⟩)
  exact ⟨w', script, text, h, hs, ht, hb rfl⟩

/-- A second version of the file, without the foreign key. -/
def barLines : List Str := shopLines.take 7 ++ [c!";"]

theorem bar_means : FileMeans c!"s" (fileOf barLines) (shopEffects.take 3) := by
  have hs : SimpleLines barLines := by
    refine ⟨?_, ?_, ?_, by decide +kernel⟩
    · unfold AreLines; decide +kernel
    · have : ∀ l ∈ barLines, ¬ c!"--" <:+: l ∧ ¬ c!"/*" <:+: l ∧ ¬ c!"GO" <+: l.dropWhile isSpace := by decide +kernel
      exact fun l hl => ⟨(this l hl).1, (this l hl).2.1, (this l hl).2.2⟩
    · unfold PlainSpace; decide +kernel
  have e : statementsOf barLines = [c!"USE shop", c!"create table a ( id int not null, primary key (id) )", c!"Create Table b (c varchar(5), k int)"] := by decide +kernel
  refine simple_file hs ?_ (by decide)
  rw [e]
  exact .cons (.other (by decide +kernel) (by decide +kernel)) (.cons (.creates shopA) (.cons (.creates shopB) .nil))

/-- ddldiff on the two versions: by the theorem, scripts that add and drop the foreign key. -/
example : ∃ s1 s2, diffMain (fun _ => []) (disk [(c!"f", .file (.text (fileOf shopLines))), (c!"g", .file (.text (fileOf barLines)))])
      { ddl1 := some c!"f", ddl2 := some c!"g", database := c!"d", schema := c!"s", alter1 := true, alter2 := true } =
      (.alters (c!"-- changes needed for first schema to match the second\n" ++ s1 ++ (c!"-- changes needed for second schema to match the first\n" ++ s2)), none) ∧
    Migrates c!"s" s1 (databaseOf c!"d" c!"s" shopTables) (databaseOf c!"d" c!"s" (describes (shopEffects.take 3))) ∧
    Migrates c!"s" s2 (databaseOf c!"d" c!"s" (describes (shopEffects.take 3))) (databaseOf c!"d" c!"s" shopTables) := by
  have hk : KeysTold (databaseOf c!"d" c!"s" (describes shopEffects)) (databaseOf c!"d" c!"s" (describes (shopEffects.take 3))) := by
    have e1 : ∀ p ∈ (databaseOf c!"d" c!"s" (describes shopEffects)).tables, p.2.rels = [] := by decide
    have e2 : ∀ p ∈ (databaseOf c!"d" c!"s" (describes (shopEffects.take 3))).tables, p.2.rels = [] ∧ p.2.fks = [] := by decide
    refine ⟨fun n t1 t2 g1 g2 m _ => ?_, fun n t1 t2 g1 g2 m a b _ hb => ?_⟩
    · rw [e1 _ g1, (e2 _ g2).1]
      simp
    · rw [(e2 _ g2).2] at hb
      cases hb
  have hb : ∀ db1 db2 : Database, (∀ q ∈ db2.tables, ∃ p ∈ db1.tables, p.1 = q.1) → (∀ p ∈ db1.tables, ∀ q ∈ db2.tables, p.1 = q.1 → p.2.pk = q.2.pk) →
      NewTablesBare db1 db2 ∧ NoKeyAdded db1 db2 := by
    intro db1 db2 h1 h2
    refine ⟨fun n t g h => absurd ?_ h, fun n t1 t2 g1 g2 => .inl (h2 _ g1 _ g2 rfl)⟩
    obtain ⟨p, hp, e⟩ := h1 _ g
    simp only at e
    subst e
    exact ⟨p.2, hp⟩
  obtain ⟨s1, s2, h, m1, m2⟩ := C82_diff_partial (fun _ => []) (disk [(c!"f", .file (.text (fileOf shopLines))), (c!"g", .file (.text (fileOf barLines)))])
    { ddl1 := some c!"f", ddl2 := some c!"g", database := c!"d", schema := c!"s", alter1 := true, alter2 := true } rfl rfl (by decide) (by decide) (.inl rfl) rfl rfl shop_means bar_means hk
    shop_plain.1 (plainDbB_sound (by decide)) (fun _ => hb _ _ (by decide) (by decide)) (fun _ => hb _ _ (by decide) (by decide))
  exact ⟨s1, s2, h, m1 rfl, m2 rfl⟩

end Verif.Props
