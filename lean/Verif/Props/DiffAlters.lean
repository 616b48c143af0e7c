import Verif.Props.AlterScript
import Verif.Props.Cli
/-
C76: the ALTER scripts ddldiff prints.
-/

namespace Verif.Props
open Verif Verif.Spec

/-- The text is a script that turns a server holding `db1` into one holding `db2`, whatever else the server has, as long as it has the schema. -/
def Migrates (schema script : Str) (db1 db2 : Database) : Prop :=
  ∃ sts, readScript script = some sts ∧
    ∀ sv : Server, sv.cat = catOf db1 → schema = c!"falcon_default_schema" ∨ schema ∈ sv.schemas →
      ∃ sv', execAll sv sts = some sv' ∧ CatSame sv'.cat (catOf db2)

/-- What the comparison of the two databases does not miss: no foreign key shares its name with a relationship, and foreign keys of the same
name that are not told apart have the same columns. -/
structure KeysTold (db1 db2 : Database) : Prop where
  names : ∀ n t1 t2, TableOf db1 n t1 → TableOf db2 n t2 → ∀ m,
    (∃ k, (m, k) ∈ t1.fks ∨ (m, k) ∈ t2.fks) → ¬ ∃ r, (m, r) ∈ t1.rels ∨ (m, r) ∈ t2.rels
  fks : ∀ n t1 t2, TableOf db1 n t1 → TableOf db2 n t2 → ∀ m a b, (m, a) ∈ t1.fks → (m, b) ∈ t2.fks →
    FkReported a b ∨ (a.fromKeys = b.fromKeys ∧ a.toKeys = b.toKeys)

theorem diffMain_alters (fr : Rat → Str) (d : Disk) (a : DiffArgs) (f1 f2 : Str) (db1 db2 : Database) (hv : DiffDocumented d a)
    (h1 : a.ddl1 = some f1) (h2 : a.ddl2 = some f2) (hab : a.alter1 = true ∨ a.alter2 = true)
    (hp1 : (parseDdl d.fs { databaseName := a.database, schemaName := a.schema } (some f1)).2 = .ok (some db1))
    (hp2 : (parseDdl d.fs { databaseName := a.database, schemaName := a.schema } (some f2)).2 = .ok (some db2)) :
    diffMain fr d a =
      let diffs := compareDatabases (fun _ => false) db1 db2
      let r := writeAll (
        (if a.alter1 then .ok c!"-- changes needed for first schema to match the second\n" :: diffs.1.map (Diff.getAlter fr) else []) ++
        (if a.alter2 then .ok c!"-- changes needed for second schema to match the first\n" :: diffs.2.map (Diff.getAlter fr) else []))
      (.alters r.1, r.2) := by
  unfold diffMain parseFor
  rw [if_pos ((C60_diff d a).2 hv), h1, h2]
  simp only [hp1, hp2]
  rw [if_neg (by rcases hab with h | h <;> simp [h])]

theorem writeAll_headed (h : Str) (l : List (Except PyErr Str)) : writeAll (.ok h :: l) = (h ++ (writeAll l).1, (writeAll l).2) := rfl

/-- What is printed if all entries can be. -/
theorem diffMain_printed (fr : Rat → Str) (d : Disk) (a : DiffArgs) (f1 f2 : Str) (db1 db2 : Database) (hv : DiffDocumented d a)
    (h1 : a.ddl1 = some f1) (h2 : a.ddl2 = some f2) (hab : a.alter1 = true ∨ a.alter2 = true)
    (hp1 : (parseDdl d.fs { databaseName := a.database, schemaName := a.schema } (some f1)).2 = .ok (some db1))
    (hp2 : (parseDdl d.fs { databaseName := a.database, schemaName := a.schema } (some f2)).2 = .ok (some db2))
    (o1 : a.alter1 = true → (writeAlters fr (compareDatabases (fun _ => false) db1 db2).1).2 = none)
    (o2 : a.alter2 = true → (writeAlters fr (compareDatabases (fun _ => false) db1 db2).2).2 = none) :
    diffMain fr d a = (.alters (
      (if a.alter1 then c!"-- changes needed for first schema to match the second\n" ++
        (writeAlters fr (compareDatabases (fun _ => false) db1 db2).1).1 else []) ++
      (if a.alter2 then c!"-- changes needed for second schema to match the first\n" ++
        (writeAlters fr (compareDatabases (fun _ => false) db1 db2).2).1 else [])), none) := by
  rw [diffMain_alters fr d a f1 f2 db1 db2 hv h1 h2 hab hp1 hp2]
  unfold writeAlters at o1 o2 ⊢
  cases e1 : a.alter1 <;> cases e2 : a.alter2
  · simp [e1, e2] at hab
  · have o2 := o2 e2
    simp [writeAll_headed, o2]
  · have o1 := o1 e1
    simp [writeAll_headed, o1]
  · have o1 := o1 e1
    have o2 := o2 e2
    simp only [if_true]
    rw [writeAll_append (by rw [writeAll_headed]; exact o1), writeAll_headed, writeAll_headed, o2]

/-- **C76.** With --alter1, ddldiff prints a comment line and a script that turns a server with the first file's schema into one with the
second's; with --alter2, a comment line and a script for the other direction; with both options, first the one and then the other.
Full claim: for all files.  Missing: names, types and conditions that cannot be quoted in TQL, foreign keys that are not told apart, new tables
with foreign keys or relationships (C17, C18), and new primary keys, for which the program raises (`C76_raises`). -/
theorem C76_alters_partial (fr : Rat → Str) (d : Disk) (a : DiffArgs) (f1 f2 : Str) (db1 db2 : Database) (hv : DiffDocumented d a)
    (h1 : a.ddl1 = some f1) (h2 : a.ddl2 = some f2) (hab : a.alter1 = true ∨ a.alter2 = true)
    (hp1 : (parseDdl d.fs { databaseName := a.database, schemaName := a.schema } (some f1)).2 = .ok (some db1))
    (hp2 : (parseDdl d.fs { databaseName := a.database, schemaName := a.schema } (some f2)).2 = .ok (some db2))
    (hk : KeysTold db1 db2) (p1 : PlainDb db1) (p2 : PlainDb db2)
    (q1 : a.alter1 = true → NewTablesBare db1 db2 ∧ NoKeyAdded db1 db2)
    (q2 : a.alter2 = true → NewTablesBare db2 db1 ∧ NoKeyAdded db2 db1) :
    ∃ s1 s2, diffMain fr d a = (.alters (
        (if a.alter1 then c!"-- changes needed for first schema to match the second\n" ++ s1 else []) ++
        (if a.alter2 then c!"-- changes needed for second schema to match the first\n" ++ s2 else [])), none) ∧
      (a.alter1 = true → Migrates a.schema s1 db1 db2) ∧ (a.alter2 = true → Migrates a.schema s2 db2 db1) := by
  have c1 := ((C36_parsed_database_consistent d.fs _ _).1 db1 hp1).1
  have c2 := ((C36_parsed_database_consistent d.fs _ _).1 db2 hp2).1
  have hm : Migratable (fun _ => false) db1 db2 :=
    ⟨fun n t1 t2 g1 g2 => by rw [c1.schema n t1 g1, c2.schema n t2 g2], hk.names, fun _ _ _ _ _ h => (by cases h), hk.fks⟩
  have w1 : WholeCounts db1 := fun n t k g e => (c1.shards n t g k e).2
  have w2 : WholeCounts db2 := fun n t k g e => (c2.shards n t g k e).2
  have pr1 : a.alter1 = true → ∀ x ∈ (compareDatabases (fun _ => false) db1 db2).1, Printable x := by
    intro e x hx
    rw [compareDatabases_fst c1.keyed c2.keyed] at hx
    obtain ⟨n, -, hx⟩ := List.mem_flatMap.1 hx
    exact printable_dbE c1.keyed c2.keyed p1 p2 (q1 e).2 w2 n x hx
  have pr2 : a.alter2 = true → ∀ x ∈ (compareDatabases (fun _ => false) db1 db2).2, Printable x := by
    intro e x hx
    rw [compareDatabases_snd c1.keyed c2.keyed] at hx
    obtain ⟨n, -, hx⟩ := List.mem_flatMap.1 hx
    exact printable_dbE c2.keyed c1.keyed p2 p1 (q2 e).2 w1 n x hx
  refine ⟨_, _, diffMain_printed fr d a f1 f2 db1 db2 hv h1 h2 hab hp1 hp2 (fun e => (C18_alter_script_reads_partial fr (pr1 e)).1)
    (fun e => (C18_alter_script_reads_partial fr (pr2 e)).1), fun e => ?_, fun e => ?_⟩
  · refine ⟨_, (C18_alter_script_reads_partial fr (pr1 e)).2, fun sv hs hsch => ?_⟩
    exact (C17_differences_migrate_partial c1.keyed c2.keyed hm).1 (q1 e).1 sv ⟨hs, fun n t g _ => by rw [c2.schema n t g]; exact hsch⟩
  · refine ⟨_, (C18_alter_script_reads_partial fr (pr2 e)).2, fun sv hs hsch => ?_⟩
    exact (C17_differences_migrate_partial c1.keyed c2.keyed hm).2 (q2 e).1 sv ⟨hs, fun n t g _ => by rw [c1.schema n t g]; exact hsch⟩

/-- In the second database some table of both has a primary key, and not the one it has in the first. -/
def KeyAdded (db1 db2 : Database) : Prop := ∃ n t1 t2, TableOf db1 n t1 ∧ TableOf db2 n t2 ∧ t1.pk ≠ t2.pk ∧ t2.pk ≠ []

theorem unprintable_dbE {rep : FK → FK → Bool} {shared : Str → Bool} {db1 db2 : Database} (h1 : WellKeyed db1) (h2 : WellKeyed db2)
    (hw : WholeCounts db2) :
    (∃ x ∈ (allNames db1.tables db2.tables).flatMap (dbE rep shared db1 db2), Unprintable x) ↔ KeyAdded db1 db2 := by
  constructor
  · rintro ⟨x, hx, hu⟩
    obtain ⟨n, -, hx⟩ := List.mem_flatMap.1 hx
    unfold dbE regE at hx
    cases g1 : db1.tables.get? n with
    | none =>
      cases g2 : db2.tables.get? n with
      | none => rw [g1, g2] at hx; simp at hx
      | some t2 =>
        rw [g1, g2] at hx
        simp only [List.mem_singleton] at hx
        subst hx
        obtain ⟨k, s, e, e'⟩ := hu
        obtain ⟨i, e''⟩ := hw n t2 k (Dict.mem_of_get? g2) e
        rw [e''] at e'
        cases e'
    | some t1 =>
      cases g2 : db2.tables.get? n with
      | none =>
        rw [g1, g2] at hx
        simp only [List.mem_singleton] at hx
        subst hx
        exact hu.elim
      | some t2 =>
        rw [g1, g2] at hx
        refine ⟨n, t1, t2, Dict.mem_of_get? g1, Dict.mem_of_get? g2, ?_⟩
        simp only [tableE, List.mem_append, List.mem_flatMap] at hx
        rcases hx with (((hx | hx) | ⟨m, -, hx⟩) | ⟨m, -, hx⟩) | ⟨m, -, hx⟩
        · unfold pkE at hx
          split at hx
          · simp at hx
          · rename_i hne
            refine ⟨hne, fun e => ?_⟩
            rw [if_pos e, List.append_nil] at hx
            split at hx
            · simp at hx
            · simp only [List.mem_singleton] at hx
              subst hx
              exact hu
        · unfold shardE at hx
          split at hx
          · simp at hx
          all_goals
            try split at hx
            all_goals
              simp only [List.mem_singleton, List.not_mem_nil] at hx
              try (subst hx; exact hu.elim)
        · unfold fkE regE at hx
          split at hx
          · beta_reduce at hx
            split at hx
            · simp only [List.mem_cons, List.not_mem_nil, or_false] at hx
              rcases hx with rfl | rfl <;> exact hu.elim
            · simp at hx
          · simp only [List.mem_singleton] at hx
            subst hx; exact hu.elim
          · simp only [List.mem_singleton] at hx
            subst hx; exact hu.elim
          · simp at hx
        · unfold relE regE at hx
          split at hx
          · beta_reduce at hx
            split at hx
            · simp at hx
            · simp only [List.mem_cons, List.not_mem_nil, or_false] at hx
              rcases hx with rfl | rfl <;> exact hu.elim
          · simp only [List.mem_singleton] at hx
            subst hx; exact hu.elim
          · simp only [List.mem_singleton] at hx
            subst hx; exact hu.elim
          · simp at hx
        · unfold colE regE at hx
          split at hx
          · beta_reduce at hx
            split at hx
            · simp at hx
            · simp only [List.mem_singleton] at hx
              subst hx; exact hu.elim
          · simp only [List.mem_singleton] at hx
            subst hx; exact hu.elim
          · simp only [List.mem_singleton] at hx
            subst hx; exact hu.elim
          · simp at hx
  · rintro ⟨n, t1, t2, g1, g2, hne, hpk⟩
    refine ⟨.pkAdded db1.name t1 t2.pk, List.mem_flatMap.2 ⟨n, mem_allNames.2 (.inl (List.mem_map.2 ⟨_, g1, rfl⟩)), ?_⟩, trivial⟩
    unfold dbE regE
    rw [Dict.get?_of_mem h1.tables g1, Dict.get?_of_mem h2.tables g2]
    simp only [tableE, List.mem_append]
    refine .inl (.inl (.inl (.inl ?_)))
    simp [pkE, hne, hpk]

/-- **C76**, exceptions.  ddldiff raises while printing the scripts exactly if a primary key has to be added: with --alter1 one the second file
has and the first has not, with --alter2 the other way round. -/
theorem C76_raises (fr : Rat → Str) (d : Disk) (a : DiffArgs) (f1 f2 : Str) (db1 db2 : Database) (hv : DiffDocumented d a)
    (h1 : a.ddl1 = some f1) (h2 : a.ddl2 = some f2) (hab : a.alter1 = true ∨ a.alter2 = true)
    (hp1 : (parseDdl d.fs { databaseName := a.database, schemaName := a.schema } (some f1)).2 = .ok (some db1))
    (hp2 : (parseDdl d.fs { databaseName := a.database, schemaName := a.schema } (some f2)).2 = .ok (some db2)) :
    (diffMain fr d a).2 ≠ none ↔ (a.alter1 = true ∧ KeyAdded db1 db2) ∨ (a.alter2 = true ∧ KeyAdded db2 db1) := by
  have c1 := ((C36_parsed_database_consistent d.fs _ _).1 db1 hp1).1
  have c2 := ((C36_parsed_database_consistent d.fs _ _).1 db2 hp2).1
  have w1 : WholeCounts db1 := fun n t k g e => (c1.shards n t g k e).2
  have w2 : WholeCounts db2 := fun n t k g e => (c2.shards n t g k e).2
  have k1 := (C19_raises_exactly fr (compareDatabases (fun _ => false) db1 db2).1).1
  rw [compareDatabases_fst c1.keyed c2.keyed, unprintable_dbE c1.keyed c2.keyed w2, ← compareDatabases_fst c1.keyed c2.keyed] at k1
  have k2 := (C19_raises_exactly fr (compareDatabases (fun _ => false) db1 db2).2).1
  rw [compareDatabases_snd c1.keyed c2.keyed, unprintable_dbE c2.keyed c1.keyed w1, ← compareDatabases_snd c1.keyed c2.keyed] at k2
  rw [← k1, ← k2, diffMain_alters fr d a f1 f2 db1 db2 hv h1 h2 hab hp1 hp2]
  unfold writeAlters
  cases e1 : a.alter1 <;> cases e2 : a.alter2
  · simp [e1, e2] at hab
  · simp [writeAll_headed]
  · simp [writeAll_headed]
  · simp only [if_true, true_and]
    by_cases ho : (writeAll ((compareDatabases (fun _ => false) db1 db2).1.map (Diff.getAlter fr))).2 = none
    · rw [writeAll_append (by rw [writeAll_headed]; exact ho), writeAll_headed, writeAll_headed]
      simp [ho]
    · simp only [ho, ne_eq, not_false_eq_true, true_or, iff_true]
      intro hn
      apply ho
      have all := writeAll_ok hn
      exact writeAll_none (fun p hp => all p (by simp [hp]))

/-- An older schema. -/
def olderText : Str := c!"CREATE TABLE a (x BIGINT, w DATE);\nCREATE TABLE gone (y BIGINT);\n"

/-- A newer schema. -/
def newerText : Str := c!"CREATE TABLE a (x BIGINT, w DATETIME, v BOOL);\nCREATE TABLE b (y DATE);\n"

/-- Both on disk. -/
def twoFiles : Disk := disk [(c!"f", .file (.text olderText)), (c!"g", .file (.text newerText))]

/-- What the older schema is read as. -/
def olderDb : Database :=
  [({ name := c!"a", schema := defaultSchema, pk := [], shard := none, cols := [(c!"x", ⟨c!"x", c!"BIGINT"⟩), (c!"w", ⟨c!"w", c!"DATE"⟩)], fks := [], rels := [] } : Table),
   { name := c!"gone", schema := defaultSchema, pk := [], shard := none, cols := [(c!"y", ⟨c!"y", c!"BIGINT"⟩)], fks := [], rels := [] }].foldl
     Database.addTable (Database.empty c!"MY_DATABASE")

/-- What the newer schema is read as. -/
def newerDb : Database :=
  [({ name := c!"a", schema := defaultSchema, pk := [], shard := none, cols := [(c!"x", ⟨c!"x", c!"BIGINT"⟩), (c!"w", ⟨c!"w", c!"DATETIME"⟩), (c!"v", ⟨c!"v", c!"BOOL"⟩)], fks := [], rels := [] } : Table),
   { name := c!"b", schema := defaultSchema, pk := [], shard := none, cols := [(c!"y", ⟨c!"y", c!"DATE"⟩)], fks := [], rels := [] }].foldl
     Database.addTable (Database.empty c!"MY_DATABASE")

theorem bare_told {db1 db2 : Database} (h1 : ∀ p ∈ db1.tables, p.2.fks = [] ∧ p.2.rels = []) (h2 : ∀ p ∈ db2.tables, p.2.fks = [] ∧ p.2.rels = []) :
    KeysTold db1 db2 ∧ NewTablesBare db1 db2 ∧ NewTablesBare db2 db1 := by
  refine ⟨⟨fun n t1 t2 g1 g2 m ⟨k, h⟩ => ?_, fun n t1 t2 g1 g2 m a b ha => ?_⟩, fun n t g _ => h2 _ g, fun n t g _ => h1 _ g⟩
  · rw [(h1 _ g1).1, (h2 _ g2).1] at h
    simp at h
  · rw [(h1 _ g1).1] at ha
    cases ha

theorem keyless {db1 db2 : Database} (h : ∀ p ∈ db2.tables, p.2.pk = []) : NoKeyAdded db1 db2 := fun _ _ _ _ g => .inr (h _ g)

/-- Both scripts for the sample, by the theorem. -/
example : ∃ s1 s2, diffMain (fun _ => []) twoFiles { ddl1 := some c!"f", ddl2 := some c!"g", alter1 := true, alter2 := true } =
      (.alters (c!"-- changes needed for first schema to match the second\n" ++ s1 ++
        (c!"-- changes needed for second schema to match the first\n" ++ s2)), none) ∧
    Migrates defaultSchema s1 olderDb newerDb ∧ Migrates defaultSchema s2 newerDb olderDb := by
  have hb := bare_told (db1 := olderDb) (db2 := newerDb) (by decide) (by decide)
  obtain ⟨s1, s2, h, m1, m2⟩ := C76_alters_partial (fun _ => []) twoFiles { ddl1 := some c!"f", ddl2 := some c!"g", alter1 := true, alter2 := true }
    c!"f" c!"g" olderDb newerDb ((C60_diff _ _).1 (by decide)) rfl rfl (.inl rfl) (by decide +kernel) (by decide +kernel) hb.1
    (plainDbB_sound (by decide)) (plainDbB_sound (by decide)) (fun _ => ⟨hb.2.1, keyless (by decide)⟩) (fun _ => ⟨hb.2.2, keyless (by decide)⟩)
  exact ⟨s1, s2, h, m1 rfl, m2 rfl⟩

/-- The first of them. -/
example : diffMain (fun _ => []) twoFiles { ddl1 := some c!"f", ddl2 := some c!"g", alter1 := true } =
    (.alters c!"-- changes needed for first schema to match the second
ALTER TABLE \"falcon_default_schema\".\"a\" ADD COLUMN \"v\" BOOL DEFAULT 0;
ALTER TABLE \"falcon_default_schema\".\"a\" MODIFY COLUMN \"w\" DATETIME;
CREATE TABLE \"falcon_default_schema\".\"b\" (
    \"y\" DATE
);
DROP TABLE \"falcon_default_schema\".\"gone\";
", none) := by decide +kernel

/-- C76 fails for new primary keys: the program stops with a ValueError after the first line. -/
theorem C76_primary_key : diffMain (fun _ => [])
      (disk [(c!"f", .file (.text c!"CREATE TABLE a (x BIGINT);")), (c!"g", .file (.text c!"CREATE TABLE a (x BIGINT, CONSTRAINT PRIMARY KEY (x));"))])
      { ddl1 := some c!"f", ddl2 := some c!"g", alter1 := true } =
    (.alters c!"-- changes needed for first schema to match the second\n", some .value) := by decide +kernel

end Verif.Props
