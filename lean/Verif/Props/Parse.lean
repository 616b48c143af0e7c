import Verif.Lemmas.Parse
import Verif.Props.Compare
/-
C21, C34, C36, C37: whole parses.
-/

namespace Verif.Props
open Verif Verif.Spec

/-- A file system with one file. -/
def oneFile (name content : Str) : FS := fun f => if f = name then some (.text content) else none

/-! ## C36 -/

theorem consistent_of_ok {m s : Str} {db : Database} (h : DbOk m s db) : Consistent m s db := by
  have hn : ∀ n t, (n, t) ∈ db.tables → n = t.name := fun n t ht => h.keyed.tableNames n t ht
  refine ⟨h.name, h.keyed, h.schemas, fun n t ht => (h.tables _ ht).schema, fun n t ht q c hc => ?_, fun n t ht q k hk => ?_,
    fun n t ht q r hr => ?_, fun n t ht => (h.tables _ ht).shard⟩
  · have := (h.tables _ ht).types _ hc
    have key : ∀ ty ∈ converted, ty ∈ [c!"DOUBLE", c!"BOOL", c!"INT", c!"BIGINT", c!"DATE", c!"DATETIME", c!"TIME",
        c!"UNKNOWN", c!"VARCHAR(0)"] := by decide
    exact key _ this
  · rw [hn n t ht]; exact (h.tables _ ht).fks _ hk
  · rw [hn n t ht]; exact (h.tables _ ht).rels _ hr

/-- C36: every database `parse_ddl` returns is consistent, and so is what the parser keeps when a statement raises. -/
theorem C36_parsed_database_consistent (fs : FS) (p : ParserSt) (f : Option Str) :
    (∀ db, (parseDdl fs p f).2 = .ok (some db) → Consistent p.databaseName p.schemaName db ∧
      (parseDdl fs p f).1.database = some db) ∧
    (∀ e, (parseDdl fs p f).2 = .error e → ∃ db, (parseDdl fs p f).1.database = some db ∧
      Consistent p.databaseName p.schemaName db) := by
  have he : Consistent p.databaseName p.schemaName (Database.empty p.databaseName) := consistent_of_ok (.empty _ _)
  unfold parseDdl
  split
  · exact ⟨fun db h => (by cases h), fun e _ => ⟨_, rfl, he⟩⟩
  · exact ⟨fun db h => (by cases h), fun e _ => ⟨_, rfl, he⟩⟩
  · split
    · exact ⟨fun db h => (by simp at h), fun e h => (by cases h)⟩
    · exact ⟨fun db h => (by cases h), fun e _ => ⟨_, rfl, he⟩⟩
    · rename_i content _
      have ok := DbOk.parseStatements (getStatements (fileLines content)) (DbOk.empty p.databaseName p.schemaName)
      split
      · rename_i db hdb
        rw [hdb] at ok
        refine ⟨fun db' h => ?_, fun e h => (by cases h)⟩
        cases h
        exact ⟨consistent_of_ok ok, rfl⟩
      · rename_i db e hdb
        rw [hdb] at ok
        exact ⟨fun db' h => by (try cases h), fun e' h => ⟨_, rfl, consistent_of_ok ok⟩⟩
    · rename_i content _ _
      have ok := DbOk.parseStatements (getStatements (fileLines content)) (DbOk.empty p.databaseName p.schemaName)
      split
      · rename_i db hdb
        rw [hdb] at ok
        refine ⟨fun db' h => ?_, fun e h => (by cases h)⟩
        cases h
        exact ⟨consistent_of_ok ok, rfl⟩
      · rename_i db e hdb
        rw [hdb] at ok
        exact ⟨fun db' h => by (try cases h), fun e' h => ⟨_, rfl, consistent_of_ok ok⟩⟩

/-- A script with every kind of statement. -/
def script : Str := c!"CREATE TABLE a (x INT, y VARCHAR(20)) PARTITION BY HASH (4) KEY(\"x\");
CREATE TABLE [dbo].[b] ([z] NUMBER(3,0), CONSTRAINT PRIMARY KEY (z));
ALTER TABLE a ADD CONSTRAINT fk FOREIGN KEY (x) REFERENCES b (z);
ALTER TABLE \"s\".\"a\" ADD RELATIONSHIP r WITH \"s\".\"b\" AS \"a\".\"x\" > 1;
"

/-- The database `script` describes. -/
def scriptDb : Database :=
  { name := c!"d"
    tables := [(c!"a", { name := c!"a", schema := c!"s", pk := [], shard := some ⟨[c!"x"], .int 4⟩,
                         cols := [(c!"x", ⟨c!"x", c!"BIGINT"⟩), (c!"y", ⟨c!"y", c!"VARCHAR(0)"⟩)],
                         fks := [(c!"fk", ⟨c!"fk", c!"a", [c!"x"], c!"b", [c!"z"]⟩)],
                         rels := [(c!"r", ⟨c!"r", c!"a", c!"b", c!"\"a\".\"x\" > 1"⟩)] }),
               (c!"b", { name := c!"b", schema := c!"s", pk := [c!"z"], shard := none,
                         cols := [(c!"z", ⟨c!"z", c!"INT"⟩)], fks := [], rels := [] })]
    schemas := [(c!"s", 2)] }

theorem script_parses : (parseDdl (oneFile c!"f" script) { databaseName := c!"d", schemaName := c!"s" } (some c!"f")).2 =
    .ok (some scriptDb) := by decide +kernel

/-! ## C37 -/

/-- C37: a missing file is reported by `None` and the parser keeps what it had.  Full claim: without a file name standard input
is parsed.  Missing: that half is false (`C37_no_standard_input`). -/
theorem C37_missing_file_partial (fs : FS) (p : ParserSt) (f : Str) (hf : f ≠ []) (h : fs f = none) :
    parseDdl fs p (some f) = (p, .ok none) := by
  cases f with
  | nil => exact absurd rfl hf
  | cons c t => simp [parseDdl, h]

/-- C37 fails: without a file name the parser raises `TypeError`, whatever standard input holds. -/
theorem C37_no_standard_input (fs : FS) (p : ParserSt) : (parseDdl fs p none).2 = .error .type := rfl

example : oneFile c!"f" script c!"g" = none := by decide

/-! ## C34 -/

/-- C34: an ALTER statement is never an error and changes at most the keys of one table it mentions.  Full claim: for every
statement starting with ALTER TABLE.  Missing: those which also contain `create table`, e.g. in a condition, which the parser
takes for a CREATE TABLE (`C34_alter_taken_for_create`). -/
theorem C34_alter_partial {m : Str} (schema : Str) {db : Database} (hdb : Consistent m schema db) (stmt : Str) (h : IsAlter stmt) :
    ∃ db', parseStatement schema db stmt = .ok db' ∧
      (db' = db ∨ ∃ n, Mentions stmt n ∧ ChangesKeysOf n db db') := by
  obtain ⟨h1, h2, h3, h4⟩ := h
  rw [← lower_eq] at h1 h2 h3 h4
  have hk := hdb.keyed
  have of : ∀ {R : Table → Table → Prop} {n : Str} {db' : Database}, (∀ a b, R a b → KeyChange a b) → Touches R n db db' →
      ChangesKeysOf n db db' := by
    intro R n db' hR ht
    exact ⟨ht.name, ht.schemas, ht.tables.imp (fun _ _ h => ⟨h.1, h.2.1, fun e => hR _ _ (h.2.2 e)⟩)⟩
  unfold parseStatement
  dsimp only
  rw [if_neg (by rw [hasSub_iff]; exact h2), if_neg (by rw [Bool.or_eq_true, not_or, hasSub_iff, hasSub_iff]; exact ⟨h3, h4⟩),
    if_pos (hasSub_iff.2 h1)]
  split
  · refine ⟨_, rfl, ?_⟩
    unfold addPrimaryKey
    split
    · rename_i tn keys hm
      split
      · rename_i n hn
        refine Or.inr ⟨n, extractTableName_mentions (reMatch_infix hm tn (by simp)) hn, ?_⟩
        exact of (fun a b h => Or.inl h) (Touches.update (R := fun a b => ∃ pk, b = { a with pk := pk }) (fun t _ => ⟨_, rfl⟩))
      · exact Or.inl rfl
    · exact Or.inl rfl
  split
  · refine ⟨_, rfl, ?_⟩
    unfold addForeignKeyStmt
    split
    · rename_i tn hm
      refine Or.inr ⟨cleanName tn, cleanName_mentions (reMatch_infix hm tn (by simp)), ?_⟩
      exact of (fun a b h => Or.inr (Or.inl h)) (addConstraints_touches _ hk)
    · exact Or.inl rfl
  split
  · refine ⟨_, rfl, ?_⟩
    unfold addGenericRelationship
    cases hr : readRelationship stmt with
    | none => exact Or.inl rfl
    | some q =>
      obtain ⟨tn, n, tt, c⟩ := q
      dsimp only
      have hm : Mentions stmt tn := by
        unfold readRelationship at hr
        split at hr
        · rename_i a b c d hm
          split at hr
          · cases hr
          · rename_i tn' htn
            rw [Option.map_eq_some_iff] at hr
            obtain ⟨_, _, e⟩ := hr
            cases e
            exact extractTableName_mentions (reMatch_infix hm a (by simp)) htn
        · split at hr
          · rename_i a b c hm
            split at hr
            · cases hr
            · rename_i tn' htn
              rw [Option.map_eq_some_iff] at hr
              obtain ⟨_, _, e⟩ := hr
              cases e
              exact extractTableName_mentions (reMatch_infix hm a (by simp)) htn
          · cases hr
      split
      · exact Or.inl rfl
      · rename_i t ht
        split
        · rename_i t' ht'
          obtain ⟨r, -, rfl⟩ := addRelationship_change ht'
          refine Or.inr ⟨tn, hm, of (fun a b h => Or.inr (Or.inr h))
            (Touches.update (R := fun a b => ∃ rels, b = { a with rels := rels }) (fun u hu => ?_))⟩
          rw [unique_of_get? hk ht hu]
          exact ⟨_, rfl⟩
        · exact Or.inl rfl
  · exact ⟨_, rfl, Or.inl rfl⟩

/-- The hypotheses of C34 hold for a foreign key statement on the database of `script`, which it changes. -/
example : IsAlter c!"alter table \"s\".a add constraint k2 foreign key (y) references b (z)" ∧
    parseStatement c!"s" scriptDb c!"alter table \"s\".a add constraint k2 foreign key (y) references b (z)" ≠ .ok scriptDb ∧
    Consistent c!"d" c!"s" scriptDb :=
  ⟨by unfold IsAlter; decide +kernel, by decide +kernel, (C36_parsed_database_consistent _ _ _).1 _ script_parses |>.1⟩

/-- C34 fails: the statement is an ALTER TABLE, but the words `create table` in its condition make the parser raise. -/
theorem C34_alter_taken_for_create :
    parseStatement c!"s" scriptDb c!"ALTER TABLE a ADD RELATIONSHIP r WITH b AS \"a\".\"create table\" = nvl(x,,1)" =
      .error .index := by decide +kernel

/-! ## C21 -/

/-- C21: two parses of the same text differ in nothing exactly if no table is sharded and every foreign key joins equally named
columns.  Full claim: they never differ.  Missing: sharded tables (`ShardKey` has no equality, so two parses never agree) and
foreign keys between differently named columns; there the claim is false (`C21_sharded`, `C21_foreign_key`). -/
theorem C21_same_text_partial (fs : FS) (p : ParserSt) (f : Option Str) (db1 db2 : Database)
    (h1 : (parseDdl fs p f).2 = .ok (some db1)) (h2 : (parseDdl fs p f).2 = .ok (some db2)) :
    compareDatabases (fun _ => false) db1 db2 = ([], []) ↔
      (∀ n t, TableOf db1 n t → ∀ m fk, (m, fk) ∈ t.fks → fk.fromKeys.Perm fk.toKeys) ∧
      (∀ n t, TableOf db1 n t → t.shard = none) := by
  have e : db1 = db2 := by rw [h1] at h2; cases h2; rfl
  subst e
  rw [compare_equal_iff ((C36_parsed_database_consistent fs p f).1 _ h1).1.keyed]
  simp

/-- A parsed text on whose database the right hand side of C21 holds. -/
example : ∃ db, (parseDdl (oneFile c!"f" c!"CREATE TABLE a (x BIGINT);
ALTER TABLE a ADD CONSTRAINT k FOREIGN KEY (x) REFERENCES b (x);") { databaseName := c!"d" } (some c!"f")).2 =
      .ok (some db) ∧ compareDatabases (fun _ => false) db db = ([], []) :=
  ⟨{ name := c!"d"
     tables := [(c!"a", { name := c!"a", schema := c!"falcon_default_schema", pk := [], shard := none,
                          cols := [(c!"x", ⟨c!"x", c!"BIGINT"⟩)],
                          fks := [(c!"k", ⟨c!"k", c!"a", [c!"x"], c!"b", [c!"x"]⟩)], rels := [] })]
     schemas := [(c!"falcon_default_schema", 1)] }, by decide +kernel, by decide +kernel⟩

/-- What the texts of `C21_sharded` and `C21_foreign_key` describe. -/
def oneTable (shard : Option ShardKey) (fks : Dict FK) : Database :=
  { name := c!"d"
    tables := [(c!"a", { name := c!"a", schema := c!"falcon_default_schema", pk := [], shard := shard,
                         cols := [(c!"x", ⟨c!"x", c!"BIGINT"⟩)], fks := fks, rels := [] })]
    schemas := [(c!"falcon_default_schema", 1)] }

/-- C21 fails for sharded tables. -/
theorem C21_sharded : ∃ db, (parseDdl (oneFile c!"f" c!"CREATE TABLE a (x BIGINT) PARTITION BY HASH (4) KEY(\"x\");")
      { databaseName := c!"d" } (some c!"f")).2 = .ok (some db) ∧ (compareDatabases (fun _ => false) db db).1 ≠ [] :=
  ⟨oneTable (some ⟨[c!"x"], .int 4⟩) [], by decide +kernel, by decide +kernel⟩

/-- C21 fails for foreign keys between differently named columns. -/
theorem C21_foreign_key : ∃ db, (parseDdl (oneFile c!"f" c!"CREATE TABLE a (x BIGINT);
ALTER TABLE a ADD CONSTRAINT k FOREIGN KEY (x) REFERENCES a (y);") { databaseName := c!"d" } (some c!"f")).2 =
      .ok (some db) ∧ (compareDatabases (fun _ => false) db db).1 ≠ [] :=
  ⟨oneTable none [(c!"k", ⟨c!"k", c!"a", [c!"x"], c!"a", [c!"y"]⟩)], by decide +kernel, by decide +kernel⟩

end Verif.Props
