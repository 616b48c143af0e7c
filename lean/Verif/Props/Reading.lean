import Verif.Lemmas.ReadingFile
/-
C101: what is made of every statement and of every DDL file; and, exactly, the type every type text becomes (C62).
-/

namespace Verif.Props
open Spec

/-! ## C62 -/

/-- C62: the type of every type text. -/
theorem C62_exactly (d ty : Str) : convertType d = .ok ty ↔ Converts d ty := converts_iff.symm

/-- What follows the closing parenthesis does not count; a POINT has INT in it. -/
example : Converts c!"VarChar(10) Interval" c!"VARCHAR(0)" ∧ Converts c!"point" c!"BIGINT" ∧ Converts c!"Number( 9, 0)" c!"INT" ∧ Converts c!"geometry" c!"UNKNOWN" :=
  ⟨(C62_exactly _ _).1 (by decide +kernel), (C62_exactly _ _).1 (by decide +kernel), (C62_exactly _ _).1 (by decide +kernel), (C62_exactly _ _).1 (by decide +kernel)⟩

/-! ## C101 -/

/-- C101: the table a CREATE TABLE statement creates, whatever its text is; it takes the place of one with the same name. -/
theorem C101_create {s : Str} (hc : CreatesTable s) (schema : Str) (db db' : Database) :
    parseStatement schema db s = .ok db' ↔ ∃ t, TableBuilt schema s t ∧ db' = withTable db t := parseCreateTable_iff hc

/-- C101: every CREATE TABLE creates exactly one table or raises. -/
theorem C101_one_table {s : Str} (hc : CreatesTable s) (schema : Str) : (∃! t, TableBuilt schema s t) ∨ ∃ e, Breaks s e := by
  cases h : parseStatement schema (Database.empty []) s with
  | error e => exact .inr ⟨e, parseStatement_error.1 h⟩
  | ok db =>
    obtain ⟨t, ht, _⟩ := (parseCreateTable_iff hc).1 h
    exact .inl ⟨t, ht, fun t' h' => h'.unique hc ht⟩

/-- C101: the table an ALTER TABLE statement changes, and how, whatever its text is; in a database each of whose tables has its own name. -/
theorem C101_alter {s : Str} (ha : Alters s) (schema : Str) {db : Database} (hk : (db.tables.map Prod.fst).Nodup) :
    (∀ n f, Changes s n f → parseStatement schema db s = .ok (changed db n f)) ∧ ((∀ n f, ¬ Changes s n f) → parseStatement schema db s = .ok db) :=
  ⟨fun _ _ h => changes_does hk ha h, fun h => no_changes_does ha h⟩

/-- C101: what a statement does, whatever its text is. -/
theorem C101_statement (schema s : Str) {db : Database} (hk : (db.tables.map Prod.fst).Nodup) (db' : Database) :
    parseStatement schema db s = .ok db' ↔ Does schema s db db' := (does_iff hk).symm

/-- C101: a text file is read as this database exactly if its statements, one after the other, make it of an empty one. -/
theorem C101_reads {fs : FS} {p : ParserSt} {f content : Str} (hne : f ≠ []) (hf : fs f = some (.text content)) (db : Database) :
    (parseDdl fs p (some f)).2 = .ok (some db) ↔ ∃ ss, FileStatements content ss ∧ DoAll p.schemaName ss ⟨p.databaseName, [], []⟩ db := by
  have hk : ((⟨p.databaseName, [], []⟩ : Database).tables.map Prod.fst).Nodup := List.nodup_nil
  have key : (parseDdl fs p (some f)).2 = .ok (some db) ↔
      parseStatements p.schemaName ⟨p.databaseName, [], []⟩ (getStatements (fileLines content)) = (db, none) := by
    cases f with
    | nil => exact absurd rfl hne
    | cons c t =>
      unfold parseDdl Database.empty
      simp only [hf]
      rcases parseStatements p.schemaName ⟨p.databaseName, [], []⟩ (getStatements (fileLines content)) with ⟨d, _ | e⟩
      · simp
      · simp
  rw [key, ← doAll_iff hk]
  exact ⟨fun h => ⟨_, fileStatements_iff.2 rfl, h⟩, fun ⟨ss, h1, h2⟩ => by rw [fileStatements_iff.1 h1]; exact h2⟩

/-- C101: everything about a text file: either all its statements are done, or those before the first that raises. -/
theorem C101_file {fs : FS} {p p' : ParserSt} {f content : Str} (hne : f ≠ []) (hf : fs f = some (.text content)) (r : Except PyErr (Option Database)) :
    parseDdl fs p (some f) = (p', r) ↔ ∃ ss db, FileStatements content ss ∧ p' = { p with database := some db } ∧
      ((DoAll p.schemaName ss ⟨p.databaseName, [], []⟩ db ∧ r = .ok (some db)) ∨
        ∃ pre s post e, ss = pre ++ s :: post ∧ DoAll p.schemaName pre ⟨p.databaseName, [], []⟩ db ∧ Breaks s e ∧ r = .error e) := by
  have hk : ((⟨p.databaseName, [], []⟩ : Database).tables.map Prod.fst).Nodup := List.nodup_nil
  have key : parseDdl fs p (some f) = (p', r) ↔ ∃ db, p' = { p with database := some db } ∧
      ((parseStatements p.schemaName ⟨p.databaseName, [], []⟩ (getStatements (fileLines content)) = (db, none) ∧ r = .ok (some db)) ∨
        ∃ e, parseStatements p.schemaName ⟨p.databaseName, [], []⟩ (getStatements (fileLines content)) = (db, some e) ∧ r = .error e) := by
    cases f with
    | nil => exact absurd rfl hne
    | cons c t =>
      unfold parseDdl Database.empty
      simp only [hf]
      rcases parseStatements p.schemaName ⟨p.databaseName, [], []⟩ (getStatements (fileLines content)) with ⟨d, _ | e⟩
      · simp [eq_comm]
      · simp [eq_comm]
  rw [key]
  constructor
  · rintro ⟨db, hp, ⟨h, hr⟩ | ⟨e, h, hr⟩⟩
    · exact ⟨_, db, fileStatements_iff.2 rfl, hp, .inl ⟨(doAll_iff hk).2 h, hr⟩⟩
    · obtain ⟨pre, s, post, e1, h1, h2⟩ := (stops_iff hk).1 h
      exact ⟨_, db, fileStatements_iff.2 rfl, hp, .inr ⟨pre, s, post, e, e1, h1, h2, hr⟩⟩
  · rintro ⟨ss, db, hs, hp, ⟨h, hr⟩ | ⟨pre, s, post, e, e1, h1, h2, hr⟩⟩
    · rw [fileStatements_iff.1 hs]
      exact ⟨db, hp, .inl ⟨(doAll_iff hk).1 h, hr⟩⟩
    · rw [fileStatements_iff.1 hs]
      exact ⟨db, hp, .inr ⟨e, (stops_iff hk).2 ⟨pre, s, post, e1, h1, h2⟩, hr⟩⟩

/-- C101: what statements do to a database is determined. -/
theorem C101_determined {schema : Str} {ss : List Str} {db db1 db2 : Database} (hk : (db.tables.map Prod.fst).Nodup) (h1 : DoAll schema ss db db1)
    (h2 : DoAll schema ss db db2) : db1 = db2 := by
  have := ((doAll_iff hk).1 h1).symm.trans ((doAll_iff hk).1 h2)
  simpa using this

/-! ## Cases -/

/-- The fields of a CREATE TABLE: a quoted column, a key in a column, a key of its own, one that is skipped, a name that loses its last character. -/
example : ItemOf c!"\"a b\" varchar(10) not null" (.column ⟨c!"a b", c!"VARCHAR(0)"⟩) ∧ ItemOf c!"x int primary key (\"y\", z)" (.key [c!"y", c!"z"]) ∧
    ItemOf c!"foreign key (a)" .skipped ∧ ItemOf c!"lost" (.column ⟨c!"los", c!"UNKNOWN"⟩) := by
  refine ⟨?_, ?_, ?_, ?_⟩
  · exact .column (r := c!"varchar(10) not null") (d := c!"varchar(10)") (by simp only [Lacks]; decide)
      (.quoted (q := '"') (n := c!"a b") (r := c!" varchar(10) not null") (by decide) (by decide)) (.sized (a := c!"varchar(10") (b := c!" not null") (by decide))
      ((C62_exactly _ _).1 (by decide +kernel))
  · exact .key (x := c!"\"y\", z") (by simp only [Lacks]; decide) (by simp only [Lacks]; decide) (.closed (a := c!"x int primary key ") (x := c!"\"y\", z") (b := []) (by decide) (by decide))
      ⟨by simp, by decide, by decide⟩
  · exact .skipped (by simp only [Lacks]; decide) (by simp only [Lacks]; decide)
  · exact .column (r := []) (d := []) (by simp only [Lacks]; decide) (.plainEnd (n := c!"los") (c := 't') (by decide) (by decide))
      (.word (a := []) (b := []) (by decide) (by decide) (by decide) (by decide)) ((C62_exactly _ _).1 (by decide +kernel))

/-- A table with everything. -/
def fullTable : Str := c!"CREATE TABLE x.[t u] (a int, [b] NUMBER(5,2), a date, primary key (a)) PARTITION BY HASH (4) KEY (\"a\")"

def fullBuilt : Table :=
  ⟨c!"t u", c!"s", [c!"a"], some { keys := [c!"a"], number := .int 4 }, [(c!"a", ⟨c!"a", c!"DATE"⟩), (c!"b", ⟨c!"b", c!"DOUBLE"⟩)], [], []⟩

example : TableBuilt c!"s" fullTable fullBuilt := by
  have hc : CreatesTable fullTable := by unfold CreatesTable; decide +kernel
  obtain ⟨t, ht, e⟩ := (C101_create hc c!"s" (Database.empty c!"d") (withTable (Database.empty c!"d") fullBuilt)).1 (by decide +kernel)
  have := congrArg Database.tables e
  simp only [withTable, Database.empty, put, List.takeWhile_nil, List.dropWhile_nil, List.tail_nil, List.nil_append, List.cons.injEq, Prod.mk.injEq, and_true] at this
  rw [this.2]
  exact ht

/-- A file with two tables, one of them created twice, a key, a foreign key whose constraint is followed by one that cannot be used, and a statement that
is nothing. -/
def readFile : Str := c!"create table a (x int);\ncreate table b (y date, z int);\ncreate table a (w int, v bool);\nalter table b add primary key (y, z);\nalter table b add constraint \"k\" foreign key (z) references a (w), constraint foreign key (y, z) references a (w);\ndrop table b;\n"

def readBack : Database :=
  ⟨c!"d",
    [(c!"a", ⟨c!"a", c!"s", [], none, [(c!"w", ⟨c!"w", c!"BIGINT"⟩), (c!"v", ⟨c!"v", c!"BOOL"⟩)], [], []⟩),
     (c!"b", ⟨c!"b", c!"s", [c!"y", c!"z"], none, [(c!"y", ⟨c!"y", c!"DATE"⟩), (c!"z", ⟨c!"z", c!"BIGINT"⟩)],
       [(c!"k", ⟨c!"k", c!"b", [c!"z"], c!"a", [c!"w"]⟩)], []⟩)],
    [(c!"s", 3)]⟩

example : ∃ ss, FileStatements readFile ss ∧ DoAll c!"s" ss ⟨c!"d", [], []⟩ readBack :=
  (C101_reads (fs := fun n => if n = c!"f" then some (.text readFile) else none) (p := { databaseName := c!"d", schemaName := c!"s" }) (f := c!"f") (by decide) (by rfl)
    readBack).1 (by decide +kernel)

end Verif.Props
