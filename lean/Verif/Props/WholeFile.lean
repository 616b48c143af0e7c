import Verif.Lemmas.WholeFile
import Verif.Props.Lines
import Verif.Props.CreateKeys
import Verif.Props.Alter
/-
C80: a DDL file is read as the database it describes.
-/

namespace Verif.Props
open Verif Verif.Spec

/-! ## Statements -/

/-- C80: from statements that create and alter tables the database is read that they describe: the tables in the order of their creation, each with the changes that come
after it.  Full claim: for every script.  Missing: statements in other forms than those of C79 and C74, and tables created twice (`C80_twice`). -/
theorem C80_script_partial {schema : Str} {stmts : List Str} {es : List Effect} (h : List.Forall₂ (Means schema) stmts es) (hn : (createdNames es).Nodup) (d : Str) :
    parseStatements schema (Database.empty d) stmts = (databaseOf d schema (describes es), none) := by
  rw [(run_script h (wellKeyed_empty d) hn (by simp [Database.empty, Dict.keys])).1]
  simp only [databaseOf, Database.empty, List.map_nil, List.nil_append, Prod.mk.injEq, and_true, Database.mk.injEq, true_and]
  rw [← describes_length]
  cases describes es with
  | nil => rfl
  | cons t ts => simp [grown, Dict.set, Dict.get?]

/-- C80: nothing is reported about such a script if every table is created before it is altered. -/
theorem C80_quiet_partial {schema : Str} {stmts : List Str} {es : List Effect} (h : List.Forall₂ (Means schema) stmts es) (hn : (createdNames es).Nodup) (ho : InOrder es) (d : Str) :
    (parseStatementsTold schema (Database.empty d) stmts).2.1 = [] :=
  (run_script h (wellKeyed_empty d) hn (by simp [Database.empty, Dict.keys])).2 (fun pre n f post e => .inl (ho pre n f post e))

/-! ## Files -/

theorem file_read {ls : List Str} (hl : AreLines ls) {fs : FS} {p : ParserSt} {f : Str} {es : List Effect} (hf : f ≠ []) (hfs : fs f = some (.text (fileOf ls)))
    (h : List.Forall₂ (Means p.schemaName) (getStatements ls) es) (hn : (createdNames es).Nodup) :
    (parseDdl fs p (some f)).2 = .ok (some (databaseOf p.databaseName p.schemaName (describes es))) ∧ (InOrder es → parseReports fs p (some f) = []) := by
  cases f with
  | nil => exact absurd rfl hf
  | cons c f =>
    refine ⟨?_, fun ho => ?_⟩
    · simp only [parseDdl, hfs, fileLines_fileOf hl, C80_script_partial h hn]
    · simp only [parseReports, hfs, fileLines_fileOf hl]
      exact C80_quiet_partial h hn ho _

/-- C80: the same for a file without comments and with at most one semicolon in a line. -/
theorem C80_file_partial {ls : List Str} (hl : SimpleLines ls) {fs : FS} {p : ParserSt} {f : Str} {es : List Effect} (hf : f ≠ []) (hfs : fs f = some (.text (fileOf ls)))
    (h : List.Forall₂ (Means p.schemaName) (statementsOf ls) es) (hn : (createdNames es).Nodup) :
    (parseDdl fs p (some f)).2 = .ok (some (databaseOf p.databaseName p.schemaName (describes es))) ∧ (InOrder es → parseReports fs p (some f) = []) := by
  have e := C33_one_per_line_partial hl.lines hl.plain hl.space hl.single
  rw [fileLines_fileOf hl.lines] at e
  exact file_read hl.lines hf hfs (by rw [e]; exact h) hn

/-- C80: the same for a file that has, besides, comments at the ends of lines and block comments on lines of their own. -/
theorem C80_commented_partial {ls ls1 ls2 : List Str} (hl : SimpleLines ls) (hc : List.Forall₂ Commented ls ls1) (hu : Uncommented ls2 ls1) (h2 : AreLines ls2)
    {fs : FS} {p : ParserSt} {f : Str} {es : List Effect} (hf : f ≠ []) (hfs : fs f = some (.text (fileOf ls2)))
    (h : List.Forall₂ (Means p.schemaName) (statementsOf ls) es) (hn : (createdNames es).Nodup) :
    (parseDdl fs p (some f)).2 = .ok (some (databaseOf p.databaseName p.schemaName (describes es))) ∧ (InOrder es → parseReports fs p (some f) = []) := by
  have e := C33_one_per_line_partial hl.lines hl.plain hl.space hl.single
  rw [fileLines_fileOf hl.lines] at e
  have e1 : getStatements ls = getStatements ls1 :=
    (NearSt.commented hc (fun l hl' => (hl.plain l hl').noBlockComment) hl.space (fun l hl' => (hl.lines l hl').1) ⟨rfl, rfl, rfl, rfl⟩).statements
  have e2 := getStatements_uncommented hu
  exact file_read h2 hf hfs (by rw [e2, ← e1, e]; exact h) hn

/-! ## A file -/

/-- The code of a file. -/
def shopLines : List Str :=
  [c!"USE shop;", c!"create table a (", c!"  id  int not null,", c!"\tprimary key (id)", c!");", c!"",
   c!"Create Table b (c varchar(5), k int)", c!";ALTER TABLE b ADD CONSTRAINT fk1 FOREIGN KEY (k)", c!"  REFERENCES a (id);"]

/-- What it means. -/
def shopTables : List Table :=
  [{ name := c!"a", schema := c!"s", pk := [c!"id"], shard := none, fks := [], rels := [], cols := [(c!"id", ⟨c!"id", c!"BIGINT"⟩)] },
   { name := c!"b", schema := c!"s", pk := [], shard := none, rels := [], cols := [(c!"c", ⟨c!"c", c!"VARCHAR(0)"⟩), (c!"k", ⟨c!"k", c!"BIGINT"⟩)],
     fks := [(c!"fk1", ⟨c!"fk1", c!"b", [c!"k"], c!"a", [c!"id"]⟩)] }]

theorem shopLines_simple : SimpleLines shopLines := by
  refine ⟨?_, ?_, ?_, by decide +kernel⟩
  · unfold AreLines; decide +kernel
  · have : ∀ l ∈ shopLines, ¬ c!"--" <:+: l ∧ ¬ c!"/*" <:+: l ∧ ¬ c!"GO" <+: l.dropWhile isSpace := by decide +kernel
    exact fun l hl => ⟨(this l hl).1, (this l hl).2.1, (this l hl).2.2⟩
  · unfold PlainSpace; decide +kernel

theorem shopStatements : statementsOf shopLines = [c!"USE shop", c!"create table a ( id int not null, primary key (id) )", c!"Create Table b (c varchar(5), k int)",
    c!"ALTER TABLE b ADD CONSTRAINT fk1 FOREIGN KEY (k) REFERENCES a (id)"] := by decide +kernel

theorem shopKey : AddsForeignKeys c!"ALTER TABLE b ADD CONSTRAINT fk1 FOREIGN KEY (k) REFERENCES a (id)" c!"b" [⟨some c!"fk1", [c!"k"], c!"a", [c!"id"]⟩] := by
  refine ⟨⟨c!"ALTER TABLE ", c!"b", c!" ADD", c!" ", c!"CONSTRAINT" ++ c!" fk1 FOREIGN KEY (k) REFERENCES a (id)", by decide +kernel, by decide,
    writtenAs [] [] .plain [] (by decide), by decide, by decide, by decide, ?_, by decide +kernel, by decide +kernel⟩, by decide +kernel, by decide +kernel, by decide +kernel⟩
  refine .one (by decide) ⟨⟨c!" ", c!"fk1" ++ (c!" FOREIGN KEY" ++ c!" (k) REFERENCES a (id)"), [], [], [], by decide +kernel, by decide, by decide, by decide, by decide, ?_,
    by decide +kernel, by decide +kernel⟩, by decide +kernel⟩
  refine .named (n := c!"fk1") (writtenAs [] [] .plain [] (by decide)) (by decide) (by decide) ⟨⟨c!" ", c!"k", c!") REFERENCES", c!" ", c!"a", c!"id", [], by decide +kernel, by decide,
    ?_, by decide, by decide, leadingAs [] .plain [] (by decide), by decide, ?_, by decide, by decide +kernel, by decide +kernel⟩, by decide +kernel, rfl⟩ (by decide +kernel) rfl
  · exact ⟨[c!"k"], by decide, by decide, .cons ⟨writtenAs [] [] .plain [] (by decide), by decide⟩ .nil⟩
  · exact ⟨[c!"id"], by decide, by decide, .cons ⟨writtenAs [] [] .plain [] (by decide), by decide⟩ .nil⟩

theorem shopA : Creates c!"s" c!"create table a ( id int not null, primary key (id) )"
    (tableWith c!"s" c!"a" [.column ⟨.plain, c!"id", c!"int", c!" not null"⟩, .primary c!"primary key (id)" [c!"id"]] [c!"BIGINT"] none) := by
  have snug : ∀ {s : Str}, ((∀ c ∈ s.head?, isSpace c = false) ∧ ∀ c ∈ s.getLast?, isSpace c = false) → Snug s := fun h => ⟨h.1, h.2⟩
  refine Creates.plain (k := c!"create table ") (path := c!"a") (w := c!" ") (body := c!" id int not null, primary key (id) ") (tail := []) (.create (by decide))
    ⟨⟨[], .plain, by decide, .inl rfl, by simp only [Quote.fits]; decide⟩, by decide, by decide, by decide⟩ (by decide)
    (.cons (a := c!" ") (b := []) (f := c!"id int not null") (by decide) (by decide) (.one (a := c!" ") (b := c!" ") (f := c!"primary key (id)") (by decide) (by decide))) ?_
    (by decide) (by decide +kernel) (by decide) (by decide +kernel) (by decide +kernel)
  intro f hf
  simp only [List.mem_cons, List.not_mem_nil, or_false] at hf
  rcases hf with rfl | rfl
  · exact ⟨by simp only [Quote.fits]; decide, by decide, .word (by decide) (by decide), .inr ⟨c!"not nul", 'l', by decide, by decide⟩, by decide, by decide⟩
  · exact ⟨⟨c!"primary key ", c!"id", [], by decide, by decide, by decide, ⟨[c!"id"], by decide, by decide, .cons ⟨[], .plain, [], by decide, by decide, by decide, by decide, by decide⟩ .nil⟩,
      .plain (by decide) (by decide)⟩, snug (by decide), by decide +kernel, by decide +kernel⟩

theorem shopB : Creates c!"s" c!"Create Table b (c varchar(5), k int)"
    (tableWith c!"s" c!"b" [.column ⟨.plain, c!"c", c!"varchar(5)", []⟩, .column ⟨.plain, c!"k", c!"int", []⟩] [c!"VARCHAR(0)", c!"BIGINT"] none) := by
  refine Creates.plain (k := c!"Create Table ") (path := c!"b") (w := c!" ") (body := c!"c varchar(5), k int") (tail := []) (.create (by decide))
    ⟨⟨[], .plain, by decide, .inl rfl, by simp only [Quote.fits]; decide⟩, by decide, by decide, by decide⟩ (by decide)
    (.cons (a := []) (b := []) (f := c!"c varchar(5)") (by decide) (by decide) (.one (a := c!" ") (b := []) (f := c!"k int") (by decide) (by decide))) ?_
    (by decide) (by decide +kernel) (by decide) (by decide +kernel) (by decide +kernel)
  intro f hf
  simp only [List.mem_cons, List.not_mem_nil, or_false] at hf
  rcases hf with rfl | rfl
  · exact ⟨by simp only [Quote.fits]; decide, by decide, .sized (w := c!"varchar") (args := c!"5") (by decide) (by decide) (by decide), .inl rfl, by decide, by decide⟩
  · exact ⟨by simp only [Quote.fits]; decide, by decide, .word (by decide) (by decide), .inl rfl, by decide, by decide⟩

/-- The effects of the statements. -/
def shopEffects : List Effect :=
  [.nothing, .table (tableWith c!"s" c!"a" [.column ⟨.plain, c!"id", c!"int", c!" not null"⟩, .primary c!"primary key (id)" [c!"id"]] [c!"BIGINT"] none),
   .table (tableWith c!"s" c!"b" [.column ⟨.plain, c!"c", c!"varchar(5)", []⟩, .column ⟨.plain, c!"k", c!"int", []⟩] [c!"VARCHAR(0)", c!"BIGINT"] none),
   .change c!"b" (fun t => { t with fks := [(⟨some c!"fk1", [c!"k"], c!"a", [c!"id"]⟩ : KeyText)].foldl (fun d k => d.set (k.key c!"b").name (k.key c!"b")) t.fks })]

example : SimpleLines shopLines ∧ List.Forall₂ (Means c!"s") (statementsOf shopLines) shopEffects ∧ (createdNames shopEffects).Nodup ∧ InOrder shopEffects ∧
    describes shopEffects = shopTables := by
  refine ⟨shopLines_simple, ?_, by decide, ?_, rfl⟩
  · rw [shopStatements]
    exact .cons (.other (by decide +kernel) (by decide +kernel)) (.cons (.creates shopA) (.cons (.creates shopB) (.cons (.alters (.keys shopKey)) .nil)))
  · intro pre n f post e
    match pre, e with
    | [], e | [_], e | [_, _], e => simp [shopEffects] at e
    | [_, _, _], e =>
      simp only [shopEffects, List.cons_append, List.nil_append, List.cons.injEq, Effect.change.injEq] at e
      obtain ⟨rfl, rfl, rfl, ⟨rfl, -⟩, -⟩ := e
      decide
    | _ :: _ :: _ :: _ :: pre, e => simp [shopEffects] at e

/-- The file with comments. -/
example : List.Forall₂ Commented [c!"use d;", c!"create table a"] [c!"use d; -- first", c!"create table a"] ∧
    Uncommented [c!"/* a", c!"script */", c!"use d; -- first", c!"create table a"] [c!"use d; -- first", c!"create table a"] := by
  refine ⟨.cons (.added (l := c!"use d;") (w := c!" ") (c := c!" first") (by simp [Gap]) (.inr (.inl (by decide)))) (.cons .none .nil), ?_⟩
  exact .comment (b := [c!"/* a", c!"script */"]) (.many (w := []) (c := c!" a") (mid := []) (d := c!"script ") (w' := []) (by simp [AllSpace]) (by simp [AllSpace]) (by decide)
    (by simp) (by decide) (by decide) (by decide)) (.code ⟨by decide, by decide⟩ (.code ⟨by decide, by decide⟩ .nil))

/-! ## Where the full claim fails -/

/-- A table created twice is counted twice in its schema; the second statement replaces the first. -/
theorem C80_twice : (parseStatements c!"s" (Database.empty c!"d") [c!"create table a (b int)", c!"create table a (c date)"]).1.schemas = [(c!"s", 2)] ∧
    (parseStatements c!"s" (Database.empty c!"d") [c!"create table a (b int)", c!"create table a (c date)"]).1.tables.map (fun p => (p.1, p.2.cols)) =
      [(c!"a", [(c!"c", ⟨c!"c", c!"DATE"⟩)])] := by decide +kernel

/-- A statement about a table that is created later is lost, but reported. -/
theorem C80_too_early : (parseStatementsTold c!"s" (Database.empty c!"d") [c!"alter table a add primary key (b)", c!"create table a (b int)"]).1.tables.map (fun p => p.2.pk) = [[]] ∧
    (parseStatementsTold c!"s" (Database.empty c!"d") [c!"alter table a add primary key (b)", c!"create table a (b int)"]).2.1 = [.noTable .primaryKey c!"a"] := by decide +kernel

end Verif.Props
