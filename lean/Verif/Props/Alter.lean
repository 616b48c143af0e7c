import Verif.Lemmas.AlterText
import Verif.Lemmas.ReadableDec
/-
Property C74: ALTER TABLE statements are read as they are written.
-/

namespace Verif.Props
open Verif Verif.Spec

/-! ## The three statements -/

/-- Foreign keys, one or several in a statement.  Missing from the full claim: statements where a name or the text between contains one of the phrases the parser
looks for, further uses of ADD, and `REFERENCES u(c)` without a blank. -/
theorem C74_foreign_keys_partial {stmt tn : Str} {ks : List KeyText} (h : AddsForeignKeys stmt tn ks) (schema : Str) {db : Database} (hw : WellKeyed db) :
    parseStatement schema db stmt = .ok (changed db tn (fun t => { t with fks := ks.foldl (fun d k => d.set (k.key tn).name (k.key tn)) t.fks })) :=
  parse_adds_fks h schema hw

/-- Primary keys.  Missing from the full claim: options in parentheses after the columns, and the order of a column. -/
theorem C74_primary_key_partial {stmt tn : Str} {cols : List Str} (h : SetsPrimaryKey stmt tn cols) (schema : Str) (db : Database) :
    parseStatement schema db stmt = .ok (changed db tn (fun t => { t with pk := cols })) :=
  parse_sets_pk h schema db

/-- Relationships.  Missing from the full claim: conditions with the word AS, and the phrases the parser looks for inside names. -/
theorem C74_relationship_partial {stmt tn : Str} {r : RelText} (h : AddsRelationship stmt tn r) (schema : Str) {db : Database} (hw : WellKeyed db) :
    parseStatement schema db stmt = .ok (changed db tn (fun t => { t with rels := t.rels.set (r.rel tn).name (r.rel tn) })) :=
  parse_adds_rel h schema hw

/-! ## A whole script -/

/-- Any number of such statements in a row. -/
theorem C74_script_partial (schema : Str) {l : List (Str × Str × (Table → Table))} (hl : ∀ p ∈ l, Alteration p.1 p.2.1 p.2.2) :
    ∀ {db : Database}, WellKeyed db → parseStatements schema db (l.map Prod.fst) = (l.foldl (fun db p => changed db p.2.1 p.2.2) db, none) := by
  induction l with
  | nil => intro db _; rfl
  | cons p l ih =>
    intro db hw
    have hp := hl p (by simp)
    have e : parseStatement schema db p.1 = .ok (changed db p.2.1 p.2.2) := by
      generalize p.1 = stmt at *
      generalize p.2.1 = tn at *
      generalize p.2.2 = f at *
      cases hp with
      | keys h => exact parse_adds_fks h schema hw
      | primary h => exact parse_sets_pk h schema db
      | relationship h => exact parse_adds_rel h schema hw
    have hk : WellKeyed (changed db p.2.1 p.2.2) := alteration_keyed hp hw
    simp only [List.map_cons, parseStatements, e, List.foldl_cons]
    exact ih (fun q hq => hl q (by simp [hq])) hk

/-! ## Concrete statements -/

/-- Two foreign keys, names written in several ways. -/
def twoKeys : Str :=
  c!"Alter Table [db].[dbo].[my sales] ADD CONSTRAINT \"fk 1\" FOREIGN KEY (a, [b]) REFERENCES dbo.products (x, \"y z\") on delete cascade, constraint foreign key(c) references 'stores' (c)"

/-- The keys it adds. -/
def twoKeyTexts : List KeyText := [⟨some c!"fk 1", [c!"a", c!"b"], c!"products", [c!"x", c!"y z"]⟩, ⟨none, [c!"c"], c!"stores", [c!"c"]⟩]

theorem twoKeys_adds : AddsForeignKeys twoKeys c!"my sales" twoKeyTexts := by
  refine ⟨⟨c!"Alter Table ", c!"[db].[dbo].[my sales]", c!" ADD", c!" ",
    c!"CONSTRAINT" ++ (c!" \"fk 1\" FOREIGN KEY (a, [b]) REFERENCES dbo.products (x, \"y z\") on delete cascade," ++ ' ' ::
      (c!"constraint" ++ c!" foreign key(c) references 'stores' (c)")), by decide +kernel, by decide, ?_, by decide, by decide, by decide, ?_, by decide +kernel, by decide +kernel⟩,
    by decide +kernel, by decide +kernel, by decide +kernel⟩
  · exact writtenAs c!"[db].[dbo]." [] .bracket [] (by decide)
  refine .more (by decide) ⟨⟨c!" ", c!"\"fk 1\"" ++ (c!" FOREIGN KEY" ++ c!" (a, [b]) REFERENCES dbo.products (x, \"y z\") on delete cascade"), [], c!",", c!" ", by decide +kernel,
    by decide, by decide, by decide, by decide, ?_, by decide +kernel, by decide +kernel⟩, by decide +kernel⟩ (.inl rfl) (.one (by decide) ⟨⟨c!" ",
    c!"foreign key" ++ c!"(c) references 'stores' (c)", [], [], [], by decide +kernel, by decide, by decide, by decide, by decide, ?_, by decide +kernel, by decide +kernel⟩, by decide +kernel⟩)
  · refine .named (n := c!"fk 1") (writtenAs [] [] .double [] (by decide)) (by decide) (by decide) ⟨⟨c!" ", c!"a, [b]", c!") REFERENCES", c!" ",
      c!"dbo.products", c!"x, \"y z\"", c!" on delete cascade", by decide +kernel, by decide, ?_, by decide, by decide, ?_, by decide, ?_, by decide, by decide +kernel, by decide +kernel⟩,
      by decide +kernel, rfl⟩ (by decide +kernel) rfl
    · exact ⟨[c!"a", c!" [b]"], by decide, by decide, .cons ⟨writtenAs [] [] .plain [] (by decide), by decide⟩
        (.cons ⟨writtenAs [] c!" " .bracket [] (by decide), by decide⟩ .nil)⟩
    · exact leadingAs c!"dbo." .plain [] (by decide)
    · exact ⟨[c!"x", c!" \"y z\""], by decide, by decide, .cons ⟨writtenAs [] [] .plain [] (by decide), by decide⟩
        (.cons ⟨writtenAs [] c!" " .double [] (by decide), by decide⟩ .nil)⟩
  · refine .unnamed (by decide) ⟨⟨[], c!"c", c!") references", c!" ", c!"'stores'", c!"c", [], by decide +kernel, by decide, ?_, by decide, by decide, ?_, by decide, ?_, by decide,
      by decide +kernel, by decide +kernel⟩, by decide +kernel, rfl⟩ (by decide +kernel) rfl
    · exact ⟨[c!"c"], by decide, by decide, .cons ⟨writtenAs [] [] .plain [] (by decide), by decide⟩ .nil⟩
    · exact leadingAs [] .single [] (by decide)
    · exact ⟨[c!"c"], by decide, by decide, .cons ⟨writtenAs [] [] .plain [] (by decide), by decide⟩ .nil⟩

/-- A database with the table those statements are about. -/
def salesDb : Database :=
  { name := c!"d", schemas := [(c!"dbo", 2)],
    tables := [(c!"other", { name := c!"other", schema := c!"dbo", pk := [], shard := none, cols := [], fks := [], rels := [] }),
      (c!"my sales", { name := c!"my sales", schema := c!"dbo", pk := [], shard := none, cols := [(c!"a", ⟨c!"a", c!"INT"⟩)], rels := [], fks := [(c!"fk 1", ⟨c!"fk 1", c!"my sales", [c!"z"], c!"other", [c!"z"]⟩)] })] }

example : WellKeyed salesDb ∧ AddsForeignKeys twoKeys c!"my sales" twoKeyTexts ∧
    (parseStatement c!"dbo" salesDb twoKeys).map (fun db => db.tables.map (fun p => p.2.fks)) = .ok [[], [(c!"fk 1", ⟨c!"fk 1", c!"my sales", [c!"a", c!"b"], c!"products", [c!"x", c!"y z"]⟩),
      (c!"FK_my sales_to_stores", ⟨c!"FK_my sales_to_stores", c!"my sales", [c!"c"], c!"stores", [c!"c"]⟩)]] :=
  ⟨(WellKeyedD.iff _).1 (by decide), twoKeys_adds, by decide +kernel⟩

/-- A primary key as SQL Server writes it. -/
def oneKey : Str := c!"ALTER TABLE [dbo].\"my sales\" ADD CONSTRAINT [pk_sales] PRIMARY KEY CLUSTERED ([a], [b]) on disk"

theorem oneKey_sets : SetsPrimaryKey oneKey c!"my sales" [c!"a", c!"b"] := by
  refine ⟨⟨c!"ALTER TABLE ", c!"[dbo].\"my sales\" ADD CONSTRAINT [pk_sales]", [], c!"PRIMARY KEY", c!" CLUSTERED ", c!"[a], [b]", c!" on disk", by decide +kernel, by decide, ?_,
    by decide, by decide, ?_, by decide, by decide, by decide, by decide +kernel⟩, by decide +kernel, by decide +kernel⟩
  · exact leadingAs c!"[dbo]." .double c!" ADD CONSTRAINT [pk_sales]" (by decide)
  · exact ⟨[c!"[a]", c!" [b]"], by decide, by decide, .cons ⟨writtenAs [] [] .bracket [] (by decide), by decide⟩
      (.cons ⟨writtenAs [] c!" " .bracket [] (by decide), by decide⟩ .nil)⟩

example : SetsPrimaryKey oneKey c!"my sales" [c!"a", c!"b"] ∧ (parseStatement c!"dbo" salesDb oneKey).map (fun db => db.tables.map (fun p => p.2.pk)) = .ok [[], [c!"a", c!"b"]] :=
  ⟨oneKey_sets, by decide +kernel⟩

/-- Relationships with a name and without. -/
def namedRelStmt : Str := c!"alter table dbo.'my sales' add relationship \"rel 1\" with [dbo].[products] as my_sales.d with products.e"
def unnamedRelStmt : Str := c!"ALTER TABLE \"my sales\" ADD RELATIONSHIP WITH products AS (a = b)"

theorem namedRelStmt_adds : AddsRelationship namedRelStmt c!"my sales" ⟨some c!"rel 1", c!"products", c!"my_sales.d with products.e"⟩ := by
  refine ⟨⟨c!"alter table ", c!"dbo.'my sales'", c!" add relationship ", c!"\"rel 1\"" ++ (c!" with " ++ (c!"[dbo].[products]" ++ (c!" as " ++ c!"my_sales.d with products.e"))),
    by decide +kernel, by decide, ?_, by decide, .named (n := c!"rel 1") ?_ (by decide) ?_ (by decide) rfl rfl (by decide +kernel) (by decide +kernel), by decide +kernel, by decide +kernel⟩,
    by decide +kernel, by decide +kernel, by decide +kernel, by decide +kernel⟩
  · exact leadingAs c!"dbo." .single [] (by decide)
  · exact writtenAs [] [] .double [] (by decide)
  · exact leadingAs c!"[dbo]." .bracket [] (by decide)

theorem unnamedRelStmt_adds : AddsRelationship unnamedRelStmt c!"my sales" ⟨none, c!"products", c!"(a = b)"⟩ := by
  refine ⟨⟨c!"ALTER TABLE ", c!"\"my sales\"", c!" ADD RELATIONSHIP ", c!"WITH " ++ (c!"products" ++ (c!" AS " ++ c!"(a = b)")), by decide +kernel, by decide, ?_, by decide,
    .unnamed (by decide) ?_ (by decide) rfl rfl (by decide +kernel) (by decide +kernel), by decide +kernel, by decide +kernel⟩, by decide +kernel, by decide +kernel, by decide +kernel, by decide +kernel⟩
  · exact leadingAs [] .double [] (by decide)
  · exact leadingAs [] .plain [] (by decide)

example : WellKeyed salesDb ∧ AddsRelationship namedRelStmt c!"my sales" ⟨some c!"rel 1", c!"products", c!"my_sales.d with products.e"⟩ ∧
    AddsRelationship unnamedRelStmt c!"my sales" ⟨none, c!"products", c!"(a = b)"⟩ ∧
    (parseStatements c!"dbo" salesDb [namedRelStmt, unnamedRelStmt]).1.tables.map (fun p => p.2.rels) = [[], [(c!"rel 1", ⟨c!"rel 1", c!"my sales", c!"products", c!"my_sales.d with products.e"⟩),
      (c!"REL_my sales_to_products", ⟨c!"REL_my sales_to_products", c!"my sales", c!"products", c!"(a = b)"⟩)]] :=
  ⟨(WellKeyedD.iff _).1 (by decide), namedRelStmt_adds, unnamedRelStmt_adds, by decide +kernel⟩

example : ∀ p ∈ [(twoKeys, c!"my sales", fun (t : Table) => { t with fks := twoKeyTexts.foldl (fun d k => d.set (k.key c!"my sales").name (k.key c!"my sales")) t.fks }),
    (oneKey, c!"my sales", fun (t : Table) => { t with pk := [c!"a", c!"b"] })], Alteration p.1 p.2.1 p.2.2 := by
  intro p hp
  simp only [List.mem_cons, List.not_mem_nil, or_false] at hp
  rcases hp with rfl | rfl
  · exact .keys twoKeys_adds
  · exact .primary oneKey_sets

/-! ## Where the full claim fails -/

/-- A database with one bare table. -/
def bareDb : Database := { name := c!"d", schemas := [(c!"s", 1)], tables := [(c!"t", { name := c!"t", schema := c!"s", pk := [], shard := none, cols := [], fks := [], rels := [] })] }

/-- C74 fails: with a second ADD, as SQL Server and MySQL allow, both keys are lost. -/
theorem C74_second_add : (parseStatement c!"s" bareDb
    c!"alter table t add constraint k1 foreign key (a) references p (x), add constraint k2 foreign key (b) references q (y)").map (fun db => db.tables.map (fun p => p.2.fks)) = .ok [[]] := by
  decide +kernel

/-- C74 fails: without the word CONSTRAINT the key is left out without a word. -/
theorem C74_without_constraint : (parseStatement c!"s" bareDb
    c!"alter table t add foreign key (a) references p (x)").map (fun db => db.tables.map (fun p => p.2.fks)) = .ok [[]] := by
  decide +kernel

/-- C74 fails: without a blank after the other table the key is lost. -/
theorem C74_without_blank : (parseStatement c!"s" bareDb
    c!"alter table t add constraint k1 foreign key (a) references p(x)").map (fun db => db.tables.map (fun p => p.2.fks)) = .ok [[]] := by
  decide +kernel

/-- C74 fails: a name in brackets is cut at its first blank. -/
theorem C74_bracket_cut : (parseStatement c!"s" bareDb
    c!"alter table t add constraint k1 foreign key (a) references [my p] (x)").map (fun db => db.tables.map (fun p => p.2.fks.map (fun q => q.2.toTable))) = .ok [[c!"my"]] := by
  decide +kernel

/-- C74 fails: the options SQL Server writes after the columns are taken for the key, and the order of a column for a part of its name. -/
theorem C74_key_options : (parseStatement c!"s" bareDb
      c!"alter table t add primary key clustered (a) with (pad_index = off)").map (fun db => db.tables.map (fun p => p.2.pk)) = .ok [[c!"pad_index = off"]] ∧
    (parseStatement c!"s" bareDb
      c!"alter table t add primary key clustered ([a] asc)").map (fun db => db.tables.map (fun p => p.2.pk)) = .ok [[c!"a asc"]] := by
  decide +kernel

end Verif.Props
