import Verif.Lemmas.Reports
import Verif.Props.Alter
/-
Property C77: what the parser does not carry out, it reports.
-/

namespace Verif.Props
open Verif Verif.Spec

/-! ## One statement -/

/-- Full claim: an ALTER TABLE statement about which nothing is reported was carried out.  What holds: the same for statements that add a primary key, foreign keys with the
word CONSTRAINT, or a relationship; the witnesses below show the others. -/
theorem C77_reported_partial {schema stmt : Str} {db db' : Database} (h : Alters stmt) (ha : AddsSomething stmt)
    (hp : parseStatementTold schema db stmt = .ok (db', [])) : CarriedOut stmt db db' := by
  rw [known_alter h.alter h.notCreate] at hp
  split at hp
  · rename_i hw
    rcases told_primary (db := db) (stmt := stmt) with ⟨-, n, t, cols, ht, hr⟩ | ⟨m, hm, -⟩
    · cases hq : addPrimaryKeyTold db stmt with
      | mk a b =>
        rw [hq] at hp hr
        cases hp
        exact .primary (hasSub_not_lacks.1 hw) ht hr
    · rw [Except.ok.inj hp] at hm; cases hm
  · rename_i hw0
    split at hp
    · rename_i hw
      have hc : ¬ Lacks c!"constraint" stmt := by
        cases ha with
        | primary h => exact absurd (hasSub_not_lacks.2 h) hw0
        | foreign _ h => exact h
        | relationship _ h => exact absurd h (hasSub_not_lacks.1 hw)
      obtain ⟨n, ks, hk, hl⟩ := told_foreign (db := db) (stmt := stmt)
      rw [Except.ok.inj hp] at hk hl
      rcases hl with ⟨-, hl⟩ | ⟨hl, -⟩
      · have hpos := occurrences_pos (w := c!"constraint") (by decide) hc
        exact .foreign (hasSub_not_lacks.1 hw) (by rintro rfl; simp at hl; omega) hl hk
      · exact absurd rfl hl
    · rename_i hw1
      have hr : ¬ Lacks c!"relationship" stmt := by
        cases ha with
        | primary h => exact absurd (hasSub_not_lacks.2 h) hw0
        | foreign h => exact absurd (hasSub_not_lacks.2 h) hw1
        | relationship h => exact h
      rw [if_pos (hasSub_not_lacks.2 hr)] at hp
      rcases told_relationship (db := db) (stmt := stmt) with ⟨-, n, t, r, ht, hr'⟩ | ⟨m, hm, -⟩
      · rw [Except.ok.inj hp] at hr'
        exact .relationship hr ht hr'
      · rw [Except.ok.inj hp] at hm; cases hm

/-- There are no false alarms: if something is reported about an ALTER TABLE statement, something was left out. -/
theorem C77_no_false_alarm {schema stmt : Str} {db db' : Database} {ms : List Report} (h : Alters stmt)
    (hp : parseStatementTold schema db stmt = .ok (db', ms)) (hm : ms ≠ []) : LeftOut stmt db db' := by
  rw [known_alter h.alter h.notCreate] at hp
  split at hp
  · rcases told_primary (db := db) (stmt := stmt) with ⟨h0, -⟩ | ⟨m, -, h0⟩
    · rw [Except.ok.inj hp] at h0; exact absurd h0 hm
    · rw [Except.ok.inj hp] at h0; exact .all h0
  split at hp
  · obtain ⟨n, ks, hk, hl⟩ := told_foreign (db := db) (stmt := stmt)
    rw [Except.ok.inj hp] at hk hl
    rcases hl with ⟨h0, -⟩ | ⟨-, rfl | hl⟩
    · exact absurd h0 hm
    · cases hk; exact .all rfl
    · exact .some hl hk
  split at hp
  · rcases told_relationship (db := db) (stmt := stmt) with ⟨h0, -⟩ | ⟨m, -, h0⟩
    · rw [Except.ok.inj hp] at h0; exact absurd h0 hm
    · rw [Except.ok.inj hp] at h0; exact .all h0
  split at hp
  · have := addShardKeyTold_fst db
    rw [Except.ok.inj hp] at this
    exact .all this
  · cases hp; exact absurd rfl hm

/-- A statement in one of the documented forms (C74), for a table that is there, is carried out and nothing is reported. -/
theorem C77_documented {stmt tn : Str} {f : Table → Table} (h : Alteration stmt tn f) (schema : Str) {db : Database} (hw : WellKeyed db) {t : Table} (ht : TableOf db tn t) :
    parseStatementTold schema db stmt = .ok (changed db tn f, []) := by
  obtain ⟨db', e⟩ := quiet h schema (db := db) (t := t) (Dict.get?_of_mem hw.tables ht)
  have h1 := parseStatementTold_fst schema db stmt
  have h2 : parseStatement schema db stmt = .ok (changed db tn f) := by
    cases h with
    | keys h => exact parse_adds_fks h schema hw
    | primary h => exact parse_sets_pk h schema db
    | relationship h => exact parse_adds_rel h schema hw
  rw [e, h2] at h1
  rw [e, ← Except.ok.inj h1]

/-- A statement in one of these forms for a table that is not there changes nothing.  The message names the table and what was to be added; there is one for each constraint. -/
theorem C77_missing {stmt tn : Str} {f : Table → Table} (h : Alteration stmt tn f) (schema : Str) {db : Database} (hn : ∀ t, ¬ TableOf db tn t) :
    ∃ w, parseStatementTold schema db stmt = .ok (db, List.replicate (if w = .foreignKey then occurrences c!"constraint" stmt else 1) (.noTable w tn)) ∧
      ¬ Lacks (phrase w) stmt := missing_table h schema (no_table.2 hn)

/-- Whatever is said about a statement is true: it was to add what the message names, a table that is called unknown is not there, a statement that could not be read does
not have the right form, and the reason given for a failure is the true one. -/
theorem C77_true {schema stmt : Str} {db db' : Database} {ms : List Report} (hp : parseStatementTold schema db stmt = .ok (db', ms)) : ∀ m ∈ ms, TrueReport stmt db m := told_true hp

/-- Setting the shard key of a table with ALTER TABLE is never done and always reported, as long as no table has the empty name. -/
theorem C77_hash {schema stmt : Str} {db : Database} (h : Alters stmt) (hn : ∀ t, ¬ TableOf db [] t)
    (ha : ∀ w ∈ [c!"primary key", c!"foreign", c!"relationship"], Lacks w stmt) (hh : ¬ Lacks c!"hash" stmt) :
    ∃ m, parseStatementTold schema db stmt = .ok (db, [m]) := by
  rw [known_alter h.alter h.notCreate, hasSub_without (ha c!"primary key" (by simp)), hasSub_without (ha c!"foreign" (by simp)), hasSub_without (ha c!"relationship" (by simp)),
    hasSub_not_lacks.2 hh]
  simp only [Bool.false_eq_true, if_false, if_true]
  unfold addShardKeyTold
  cases g : db.getTable [] with
  | none => exact ⟨_, rfl⟩
  | some t => exact absurd (Dict.mem_of_get? g) (hn t)

/-- CREATE TABLE: nothing is reported without a PARTITION BY HASH clause; with one, something is reported exactly if the table is left without a shard key. -/
theorem C77_create {schema stmt : Str} {db db' : Database} {ms : List Report} (h0 : Lacks c!"create database" stmt) (h : ¬ Lacks c!"create table" stmt)
    (hp : parseStatementTold schema db stmt = .ok (db', ms)) :
    ∃ t, TableOf db' t.name t ∧ (Lacks c!"partition by hash" stmt → ms = [] ∧ t.shard = none) ∧ (¬ Lacks c!"partition by hash" stmt → (ms = [] ↔ t.shard ≠ none)) := by
  unfold parseStatementTold at hp
  simp only [hasSub_without h0, hasSub_not_lacks.2 h, Bool.true_or, Bool.false_eq_true, if_false, if_true] at hp
  exact told_create hp

/-! ## A whole script -/

/-- If nothing is reported about a script, every statement in it that adds a key or a relationship was carried out when its turn came. -/
theorem C77_script_partial (schema : Str) : ∀ {l : List Str} {db : Database}, (parseStatementsTold schema db l).2.1 = [] → (parseStatements schema db l).2 = none →
    ∀ {pre post : List Str} {stmt : Str}, l = pre ++ stmt :: post → Alters stmt → AddsSomething stmt →
    ∃ mid mid', parseStatements schema db pre = (mid, none) ∧ parseStatement schema mid stmt = .ok mid' ∧ CarriedOut stmt mid mid' := by
  intro l
  induction l with
  | nil => intro db _ _ pre post stmt e; simp at e
  | cons s l ih =>
    intro db hm he pre post stmt e h ha
    have hs := parseStatementTold_fst schema db s
    unfold parseStatementsTold at hm
    unfold parseStatements at he
    cases g : parseStatementTold schema db s with
    | error x => rw [← hs, g] at he; cases he
    | ok r =>
      obtain ⟨db1, ms⟩ := r
      rw [g] at hm hs
      simp only [Except.map] at hs
      rw [← hs] at he
      simp only [List.append_eq_nil_iff] at hm he
      obtain ⟨rfl, hm⟩ := hm
      cases pre with
      | nil =>
        simp only [List.nil_append, List.cons.injEq] at e
        obtain ⟨rfl, rfl⟩ := e
        exact ⟨db, db1, rfl, hs.symm, C77_reported_partial h ha g⟩
      | cons p pre =>
        simp only [List.cons_append, List.cons.injEq] at e
        obtain ⟨rfl, e⟩ := e
        obtain ⟨mid, mid', h1, h2, h3⟩ := ih hm he e h ha
        refine ⟨mid, mid', ?_, h2, h3⟩
        unfold parseStatements
        rw [← hs]
        exact h1

/-- The same for a file: if `parse_ddl` returns a database and reports nothing, every such statement of the file was carried out.  A file that does not exist is reported, and so is one that
cannot be decoded. -/
theorem C77_file_partial {fs : FS} {p : ParserSt} {f : Str} (hf : f ≠ []) (hr : parseReports fs p (some f) = []) {db : Database}
    (hp : (parseDdl fs p (some f)).2 = .ok (some db)) :
    ∃ content, fs f = some (.text content) ∧ parseStatements p.schemaName (Database.empty p.databaseName) (getStatements (fileLines content)) = (db, none) ∧
      ∀ pre stmt post, getStatements (fileLines content) = pre ++ stmt :: post → Alters stmt → AddsSomething stmt →
        ∃ mid mid', parseStatements p.schemaName (Database.empty p.databaseName) pre = (mid, none) ∧ parseStatement p.schemaName mid stmt = .ok mid' ∧ CarriedOut stmt mid mid' := by
  cases f with
  | nil => exact absurd rfl hf
  | cons c f =>
    unfold parseDdl at hp
    unfold parseReports at hr
    simp only at hp hr
    cases g : fs (c :: f) with
    | none => rw [g] at hp; cases hp
    | some st =>
      cases st with
      | unreadable => rw [g] at hp; cases hp
      | undecodable before m => rw [g] at hr; cases hr
      | text content =>
        rw [g] at hp hr
        simp only at hp hr
        refine ⟨content, rfl, ?_⟩
        cases e : parseStatements p.schemaName (Database.empty p.databaseName) (getStatements (fileLines content)) with
        | mk d x =>
          rw [e] at hp
          cases x with
          | some x => cases hp
          | none =>
            cases hp
            exact ⟨rfl, fun pre stmt post e' h ha => C77_script_partial _ hr (by rw [e]) e' h ha⟩

/-- A file that does not exist is reported, and nothing is returned. -/
theorem C77_no_file {fs : FS} {p : ParserSt} {f : Str} (hf : f ≠ []) (h : fs f = none) :
    parseReports fs p (some f) = [.noFile f] ∧ (parseDdl fs p (some f)).2 = .ok none := by
  cases f with
  | nil => exact absurd rfl hf
  | cons c f => simp [parseReports, parseDdl, h]

/-! ## Concrete cases -/

instance (w s : Str) : Decidable (Lacks w s) := inferInstanceAs (Decidable (¬ w <:+: s.map small))

/-- A statement for a table that is there, and one for a table that is not. -/
def goodAlter : Str := c!"ALTER TABLE s.t ADD CONSTRAINT k1 FOREIGN KEY (a) REFERENCES p (x), CONSTRAINT k2 FOREIGN KEY (b) REFERENCES q (y)"
def lostAlter : Str := c!"ALTER TABLE s.u ADD CONSTRAINT k1 FOREIGN KEY (a) REFERENCES p (x), CONSTRAINT k2 FOREIGN KEY (b) REFERENCES q (y)"

theorem goodAlter_alters : Alters goodAlter := ⟨by decide +kernel, by unfold NotCreate; decide +kernel⟩

example : Alters goodAlter ∧ AddsSomething goodAlter ∧ occurrences c!"constraint" goodAlter = 2 ∧
    (parseStatementTold c!"s" bareDb goodAlter).map (fun r => (r.1.tables.map (fun p => p.2.fks.keys), r.2)) = .ok ([[c!"k1", c!"k2"]], []) :=
  ⟨goodAlter_alters, .foreign (by decide +kernel) (by decide +kernel), by decide +kernel, by decide +kernel⟩

example : Alters lostAlter ∧ (parseStatementTold c!"s" bareDb lostAlter).map Prod.snd = .ok [.noTable .foreignKey c!"u", .noTable .foreignKey c!"u"] :=
  ⟨⟨by decide +kernel, by unfold NotCreate; decide +kernel⟩, by decide +kernel⟩

/-- The second of two constraints cannot be read: the first is stored, and the loss of the second is reported. -/
def halfAlter : Str := c!"alter table t add constraint k1 foreign key (a) references p (x), constraint k2 foreign key (b) references q(y)"

example : (parseStatementTold c!"s" bareDb halfAlter).map (fun r => (r.1.tables.map (fun p => p.2.fks.keys), r.2)) = .ok ([[c!"k1"]], [.notFound .foreignKey halfAlter]) := by decide +kernel

/-- Different numbers of columns. -/
example : (parseStatementTold c!"s" bareDb c!"alter table t add constraint k1 foreign key (a, b) references p (x)").map Prod.snd =
    .ok [.failed .foreignKey c!"k1 has different length keys:  t:['a', 'b'] -- p:['x']" c!"alter table t add constraint k1 foreign key (a, b) references p (x)"] := by
  decide +kernel

example : Alters c!"ALTER TABLE t SET FACT PARTITION BY HASH (96) KEY (a)" ∧ (∀ t, ¬ TableOf bareDb [] t) ∧
    (∀ w ∈ [c!"primary key", c!"foreign", c!"relationship"], Lacks w c!"ALTER TABLE t SET FACT PARTITION BY HASH (96) KEY (a)") ∧
    ¬ Lacks c!"hash" c!"ALTER TABLE t SET FACT PARTITION BY HASH (96) KEY (a)" := by
  refine ⟨⟨by decide +kernel, by unfold NotCreate; decide +kernel⟩, ?_, by decide +kernel, by decide +kernel⟩
  intro t ht
  simp [TableOf, bareDb] at ht

example : Alteration oneKey c!"my sales" (fun t => { t with pk := [c!"a", c!"b"] }) ∧ WellKeyed salesDb ∧ ∃ t, TableOf salesDb c!"my sales" t :=
  ⟨.primary oneKey_sets, (WellKeyedD.iff _).1 (by decide), _, by unfold TableOf salesDb; exact List.mem_cons_of_mem _ (List.mem_singleton.2 rfl)⟩

example : Alteration oneKey c!"my sales" (fun t => { t with pk := [c!"a", c!"b"] }) ∧ (∀ t, ¬ TableOf bareDb c!"my sales" t) ∧
    parseStatementTold c!"s" bareDb oneKey = .ok (bareDb, [.noTable .primaryKey c!"my sales"]) :=
  ⟨.primary oneKey_sets, by intro t ht; simp [TableOf, bareDb] at ht, by decide +kernel⟩

/-- A shard count that is no number. -/
example : (parseStatementTold c!"s" bareDb c!"CREATE TABLE u (a INT) PARTITION BY HASH (96) KEY (a)").map Prod.snd = .ok [] ∧
    (parseStatementTold c!"s" bareDb c!"CREATE TABLE u (a INT) PARTITION BY HASH (many) KEY (a)").map Prod.snd =
      .ok [.failed .hashKey c!"invalid literal for int() with base 10: 'many'" c!"CREATE TABLE u (a INT) PARTITION BY HASH (many) KEY (a)"] ∧
    (parseStatementTold c!"s" bareDb c!"CREATE TABLE u (a INT) PARTITION BY HASH").map Prod.snd =
      .ok [.failed .hashKey c!"'NoneType' object has no attribute 'group'" c!"CREATE TABLE u (a INT) PARTITION BY HASH"] := by
  decide +kernel

/-- A file whose ALTER statement comes before its table, and one where it comes after. -/
example : parseReports (fun f => if f = c!"a" then some (.text c!"alter table t add constraint primary key (a);\ncreate table t (a int);\n") else
      if f = c!"b" then some (.text c!"create table t (a int);\nalter table t add constraint primary key (a);\n") else none) { databaseName := c!"d" } (some c!"a") = [.noTable .primaryKey c!"t"] ∧
    parseReports (fun f => if f = c!"a" then some (.text c!"alter table t add constraint primary key (a);\ncreate table t (a int);\n") else
      if f = c!"b" then some (.text c!"create table t (a int);\nalter table t add constraint primary key (a);\n") else none) { databaseName := c!"d" } (some c!"b") = [] := by
  decide +kernel

/-! ## Where the full claim fails -/

/-- C77 fails: columns added, renamed or dropped with ALTER TABLE are ignored without a word. -/
theorem C77_ignored : Alters c!"alter table t add column c int" ∧ parseStatementTold c!"s" bareDb c!"alter table t add column c int" = .ok (bareDb, []) :=
  ⟨⟨by decide +kernel, by unfold NotCreate; decide +kernel⟩, by decide +kernel⟩

/-- C77 fails: so are foreign keys without the word CONSTRAINT. -/
theorem C77_no_constraint : Alters c!"alter table t add foreign key (a) references p (x)" ∧ parseStatementTold c!"s" bareDb c!"alter table t add foreign key (a) references p (x)" = .ok (bareDb, []) :=
  ⟨⟨by decide +kernel, by unfold NotCreate; decide +kernel⟩, by decide +kernel⟩

/-- C77 fails: a table with the empty name silences what is said about shard keys. -/
theorem C77_empty_name : (parseStatementsTold c!"s" (Database.empty c!"d") [c!"create table \"\" (a int)", c!"alter table t set fact partition by hash (96) key (a)"]).2 = ([], none) ∧
    (parseStatementsTold c!"s" (Database.empty c!"d") [c!"create table t (a int)", c!"alter table t set fact partition by hash (96) key (a)"]).2 = ([.noTable .shardKey []], none) := by
  decide +kernel

end Verif.Props
