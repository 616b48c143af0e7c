import Verif.Props.RoundTrip
import Verif.Lemmas.NamesMake
/-
C96: the statements and names that a DDL file can give.
-/

namespace Verif.Props
open Verif Verif.Spec

/-- C96: the texts that a file can give as statements. -/
theorem C96_statements (l : List Str) : (∃ content, getStatements (fileLines content) = l) ↔ ∀ s ∈ l, StatementText s := by
  refine ⟨?_, fun h => ⟨_, getStatements_spelled h⟩⟩
  rintro ⟨content, rfl⟩ s hs
  exact statementText_of_mem hs

example : ∃ content, getStatements (fileLines content) = [c!"create table t (c int)", c!"a -- b", []] :=
  (C96_statements _).2 (by
    intro s hs
    simp only [List.mem_cons, List.not_mem_nil, or_false] at hs
    rcases hs with rfl | rfl | rfl <;> exact ⟨by unfold Bare; decide, by decide, by simp; try decide, by simp; try decide⟩)

/-- C96: every name in a database that a file gives is one of these, whatever stands in the file. -/
theorem C96_names {p : ParserSt} {db : Database} (h : FileGives p db) : ∀ q ∈ db.tables, Nameable q.2 := by
  obtain ⟨l, hl, h⟩ := fileGives_iff.1 h
  have := parseStatements_names (schema := p.schemaName) l (db := Database.empty p.databaseName) (by simp [Database.empty]) hl
  rw [h] at this
  exact this

example : FileGives { databaseName := c!"d" } ((Database.empty c!"d").addTable (smallTable c!"falcon_default_schema")) :=
  fileGives_one (p := { databaseName := c!"d" }) smallText (fun db => parse_small _ db)

/-- C96: the names that tables can get. -/
theorem C96_tables (p : ParserSt) (n : Str) : (∃ db, FileGives p db ∧ ∃ q ∈ db.tables, q.2.name = n) ↔ TableName n := by
  constructor
  · rintro ⟨db, h, q, hq, rfl⟩
    exact (C96_names h q hq).name
  · intro h
    obtain ⟨s, t, hs, rfl, ht⟩ := make_table (schema := p.schemaName) h
    exact ⟨_, fileGives_one hs ht, _, tables_addTable, rfl⟩

/-- A table name can have blanks and a closing parenthesis in it, but no opening one. -/
example (p : ParserSt) : (∃ db, FileGives p db ∧ ∃ q ∈ db.tables, q.2.name = c!"my table, )") ∧ ¬ ∃ db, FileGives p db ∧ ∃ q ∈ db.tables, q.2.name = c!"t(1" := by
  rw [C96_tables, C96_tables]
  unfold TableName Bare
  decide

/-- C96: the names that columns can get. -/
theorem C96_columns (p : ParserSt) (n : Str) : (∃ db, FileGives p db ∧ ∃ q ∈ db.tables, ∃ c ∈ q.2.cols, c.2.name = n) ↔ ColumnName n := by
  constructor
  · rintro ⟨db, h, q, hq, c, hc, rfl⟩
    exact (C96_names h q hq).columns c hc
  · intro h
    have key : (∃ s, StatementText s ∧ ∀ schema (db : Database), ∃ t : Table, parseStatement schema db s = .ok (db.addTable t) ∧ ∃ p ∈ t.cols, p.2.name = n) →
        ∃ db, FileGives p db ∧ ∃ q ∈ db.tables, ∃ c ∈ q.2.cols, c.2.name = n := by
      rintro ⟨s, hs, h⟩
      obtain ⟨t, ht, hc⟩ := h p.schemaName (Database.empty p.databaseName)
      refine ⟨(Database.empty p.databaseName).addTable t, fileGives_iff.2 ⟨[s], by simpa using hs, ?_⟩, _, tables_addTable, hc⟩
      rw [parseStatements, ht]
      rfl
    rcases h.quotes with ⟨q, hq, hn⟩ | ⟨h1, h2⟩
    · exact key (make_column_quoted h hq hn)
    · exact key (make_column_plain h h1 h2)

/-- A column name can have a dot and a comma in parentheses in it, but not the word KEY with a blank after it. -/
example (p : ParserSt) : (∃ db, FileGives p db ∧ ∃ q ∈ db.tables, ∃ c ∈ q.2.cols, c.2.name = c!"a.f(x, y)") ∧
    ¬ ∃ db, FileGives p db ∧ ∃ q ∈ db.tables, ∃ c ∈ q.2.cols, c.2.name = c!"the key column" := by
  rw [C96_columns, C96_columns]
  refine ⟨⟨by unfold Bare; decide, by decide, by unfold Lacks; decide, by unfold Lacks; decide, ?_, .inl ⟨'"', by decide, by decide⟩⟩, fun h => h.noKey (by decide)⟩
  intro a b e
  have ha : a = c!"a.f(x" := by
    have h1 : ',' ∉ c!"a.f(x" := by decide
    have h2 : ',' ∉ c!" y)" := by decide
    rcases List.append_eq_append_iff.1 (show c!"a.f(x" ++ ',' :: c!" y)" = a ++ ',' :: b from e) with ⟨u, rfl, e2⟩ | ⟨u, e1, e2⟩
    · cases u with
      | nil => simp
      | cons d u =>
        simp only [List.cons_append, List.cons.injEq] at e2
        exact absurd (show ',' ∈ c!" y)" by rw [e2.2]; simp) h2
    · cases u with
      | nil => simpa using e1.symm
      | cons d u =>
        simp only [List.cons_append, List.cons.injEq] at e2
        exact absurd (show ',' ∈ c!"a.f(x" by rw [e1, ← e2.1]; simp) h1
  exact ⟨c!"a.f", c!"x", ha, by decide⟩

/-- C96: the names that can get into a primary key. -/
theorem C96_primary (p : ParserSt) (n : Str) : (∃ db, FileGives p db ∧ ∃ q ∈ db.tables, n ∈ q.2.pk) ↔ PrimaryName n := by
  constructor
  · rintro ⟨db, h, q, hq, hn⟩
    exact (C96_names h q hq).primary n hn
  · rintro ⟨h1, h2 | h2⟩
    · obtain ⟨s, hs, h⟩ := make_primary_create (n := n) (h1.union h2 (by decide))
      obtain ⟨t, ht, hc⟩ := h p.schemaName (Database.empty p.databaseName)
      refine ⟨(Database.empty p.databaseName).addTable t, fileGives_iff.2 ⟨[s], by simpa using hs, ?_⟩, _, tables_addTable, by simp [hc]⟩
      rw [parseStatements, ht]
      rfl
    · obtain ⟨s, hs, h⟩ := make_primary_alter (n := n) (h1.union h2 (by decide))
      obtain ⟨db, hg, hm⟩ := fileGives_altered (p := p) hs (fun db hw => parse_sets_pk h _ db)
      exact ⟨db, hg, _, hm, by simp⟩

/-- An apostrophe in a column name can get into a primary key, a blank can, but not both. -/
example (p : ParserSt) : (∃ db, FileGives p db ∧ ∃ q ∈ db.tables, c!"it's" ∈ q.2.pk) ∧ (∃ db, FileGives p db ∧ ∃ q ∈ db.tables, c!"it is" ∈ q.2.pk) ∧
    ¬ ∃ db, FileGives p db ∧ ∃ q ∈ db.tables, c!"it's it" ∈ q.2.pk := by
  rw [C96_primary, C96_primary, C96_primary]
  unfold PrimaryName Bare
  decide

/-- C96: the names that can get into a shard key. -/
theorem C96_shard (p : ParserSt) (n : Str) :
    (∃ db, FileGives p db ∧ ∃ q ∈ db.tables, ∃ k, q.2.shard = some k ∧ n ∈ k.keys) ↔ Bare c!"(,.\"'[];\t\n\r" n := by
  constructor
  · rintro ⟨db, h, q, hq, k, hk, hn⟩
    exact (C96_names h q hq).shard k hk n hn
  · intro h
    obtain ⟨s, hs, h⟩ := make_shard h
    obtain ⟨t, ht, k, hk, hc⟩ := h p.schemaName (Database.empty p.databaseName)
    refine ⟨(Database.empty p.databaseName).addTable t, fileGives_iff.2 ⟨[s], by simpa using hs, ?_⟩, _, tables_addTable, k, hk, by simp [hc]⟩
    rw [parseStatements, ht]
    rfl

example (p : ParserSt) : (∃ db, FileGives p db ∧ ∃ q ∈ db.tables, ∃ k, q.2.shard = some k ∧ c!"a )" ∈ k.keys) ∧
    ¬ ∃ db, FileGives p db ∧ ∃ q ∈ db.tables, ∃ k, q.2.shard = some k ∧ c!"a.b" ∈ k.keys := by
  rw [C96_shard, C96_shard]
  unfold Bare
  decide

/-- C96: the names that a foreign key can get: its own, those of a column and of a column it refers to, and that of the table it refers to. -/
theorem C96_foreign (p : ParserSt) (a b c d : Str) :
    (∃ db, FileGives p db ∧ ∃ q ∈ db.tables, ∃ k ∈ q.2.fks, k.2.name = a ∧ b ∈ k.2.fromKeys ∧ k.2.toTable = c ∧ d ∈ k.2.toKeys) ↔
      (∀ n ∈ [a, c], Bare c!".\"'[];\t\n\r" n) ∧ ∀ n ∈ [b, d], Bare c!",.\"'[];\t\n\r" n := by
  constructor
  · rintro ⟨db, h, q, hq, k, hk, rfl, hb, rfl, hd⟩
    obtain ⟨h1, h2⟩ := (C96_names h q hq).foreign k hk
    refine ⟨h1, fun n hn => h2 n ?_⟩
    simp only [List.mem_cons, List.not_mem_nil, or_false] at hn
    rcases hn with rfl | rfl <;> simp [hb, hd]
  · rintro ⟨h1, h2⟩
    obtain ⟨s, hs, h⟩ := make_foreign (h1 a (by simp)) (h2 b (by simp)) (h1 c (by simp)) (h2 d (by simp))
    obtain ⟨db, hg, hm⟩ := fileGives_altered (p := p) hs (fun db hw => parse_adds_fks h _ hw)
    exact ⟨db, hg, _, hm, _, Dict.mem_of_get? (Dict.get?_set_self _ _ _), rfl, by simp [KeyText.key], rfl, by simp [KeyText.key]⟩

/-- Even phrases of the language can be in the names; a dot cannot. -/
example (p : ParserSt) : (∃ db, FileGives p db ∧ ∃ q ∈ db.tables, ∃ k ∈ q.2.fks, k.2.name = c!"foreign key (" ∧ c!") references" ∈ k.2.fromKeys ∧ k.2.toTable = c!" constraint, " ∧ c!"b )" ∈ k.2.toKeys) ∧
    ¬ ∃ db, FileGives p db ∧ ∃ q ∈ db.tables, ∃ k ∈ q.2.fks, k.2.name = c!"k" ∧ c!"b" ∈ k.2.fromKeys ∧ k.2.toTable = c!"s.u" ∧ c!"b" ∈ k.2.toKeys := by
  rw [C96_foreign, C96_foreign]
  unfold Bare
  decide

/-- C96: the names that a relationship can get: its own and that of the table it refers to. -/
theorem C96_relationships (p : ParserSt) (a b : Str) :
    (∃ db, FileGives p db ∧ ∃ q ∈ db.tables, ∃ r ∈ q.2.rels, r.2.name = a ∧ r.2.toTable = b) ↔ ∀ n ∈ [a, b], Bare c!".\"'[];\t\n\r" n := by
  constructor
  · rintro ⟨db, h, q, hq, r, hr, rfl, rfl⟩
    exact ((C96_names h q hq).relationships r hr).1
  · intro h
    obtain ⟨s, hs, h⟩ := make_relationship (h a (by simp)) (h b (by simp))
    obtain ⟨db, hg, hm⟩ := fileGives_altered (p := p) hs (fun db hw => parse_adds_rel h _ hw)
    exact ⟨db, hg, _, hm, _, Dict.mem_of_get? (Dict.get?_set_self _ _ _), rfl, rfl⟩

example (p : ParserSt) : (∃ db, FileGives p db ∧ ∃ q ∈ db.tables, ∃ r ∈ q.2.rels, r.2.name = c!" with " ∧ r.2.toTable = c!"u as") ∧
    ¬ ∃ db, FileGives p db ∧ ∃ q ∈ db.tables, ∃ r ∈ q.2.rels, r.2.name = c!"r" ∧ r.2.toTable = c!"[u]" := by
  rw [C96_relationships, C96_relationships]
  unfold Bare
  decide

/-- C96: the conditions that relationships can get. -/
theorem C96_conditions (p : ParserSt) (s : Str) : (∃ db, FileGives p db ∧ ∃ q ∈ db.tables, ∃ r ∈ q.2.rels, r.2.conditions = s) ↔ ConditionText s := by
  constructor
  · rintro ⟨db, h, q, hq, r, hr, rfl⟩
    exact ((C96_names h q hq).relationships r hr).2
  · intro h
    obtain ⟨s, hs, h⟩ := make_condition h
    obtain ⟨db, hg, hm⟩ := fileGives_altered (p := p) hs (fun db hw => h _ db hw)
    exact ⟨db, hg, _, hm, _, Dict.mem_of_get? (Dict.get?_set_self _ _ _), rfl⟩

/-- The condition is the text after the last AS. -/
example (p : ParserSt) : (∃ db, FileGives p db ∧ ∃ q ∈ db.tables, ∃ r ∈ q.2.rels, r.2.conditions = c!"\"t\".\"a\" >= [u].b and add relationship x") ∧
    ¬ ∃ db, FileGives p db ∧ ∃ q ∈ db.tables, ∃ r ∈ q.2.rels, r.2.conditions = c!"cast(a as int) > 1" := by
  rw [C96_conditions, C96_conditions]
  refine ⟨⟨by unfold Bare; decide, by decide, by unfold Lacks; decide, by unfold Lacks; decide, by decide, by simp; decide⟩, fun h => h.noAs (by decide)⟩

/-- C96: no text that is written is read back as a database with another name, whatever writes it. -/
theorem C96_lost {p : ParserSt} {db : Database} {q : Str × Table} (hq : q ∈ db.tables) (h : ¬ Nameable q.2) : ¬ FileGives p db :=
  fun hg => h (C96_names hg q hq)

example (p : ParserSt) : ¬ FileGives p ((Database.empty c!"d").addTable ⟨c!"a.b", c!"s", [], none, [], [], []⟩) :=
  C96_lost (q := (c!"a.b", ⟨c!"a.b", c!"s", [], none, [], [], []⟩)) tables_addTable (fun h => absurd h.name (by unfold TableName Bare; decide))

/-- C27: a database of which the names survive a trip through some file, whoever writes it, has only names of these kinds. -/
theorem C27_needed {p : ParserSt} {name schema : Str} {db : Database} (h : FileGives p (normalDb name schema db)) : ∀ q ∈ db.tables, Nameable q.2 := by
  intro q hq
  have := C96_names h (q.1, normalTable schema q.2) (by simp only [normalDb, List.mem_map]; exact ⟨q, hq, rfl⟩)
  refine ⟨this.name, fun c hc => ?_, this.primary, fun k hk => ?_, this.foreign, this.relationships⟩
  · exact this.columns (c.1, { c.2 with type := normalType c.2.type }) (by simp only [normalTable, List.mem_map]; exact ⟨c, hc, rfl⟩)
  · exact this.shard { k with number := normalCount k.number } (by simp [normalTable, hk])

example (p : ParserSt) : ¬ FileGives p (normalDb c!"d" c!"s" (soleDb keyColumn)) := fun h =>
  absurd ((C27_needed h _ (by simp [soleDb]; rfl)).columns (c!"monkey house", ⟨c!"monkey house", c!"INT"⟩) (by decide)).noKey (by decide)

example : ∀ q ∈ tripDb.tables, Nameable q.2 :=
  C27_needed (p := tripParser) ⟨_, some c!"f", (C27_round_trip_partial (f := c!"f") (oneFile c!"f" (writeTql {} tripDb).1) tripParser {} rfl trip_readable (by decide) (by simp [oneFile])).2⟩

end Verif.Props
