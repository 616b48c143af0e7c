import Verif.Lemmas.CreateKeys
/-
C79: CREATE TABLE with keys and a partition clause.
-/

namespace Verif.Props
open Verif Verif.Spec

/-- C79: a CREATE TABLE with columns, primary keys and other keys adds the table with these columns, in order, and the primary key that is
given last; other keys add nothing.  Full claim: for every such statement.  Missing: names with signs that have a meaning of their own, keys written without
a blank after KEY (`C79_without_blank`) or in back quotes (`C79_backticks`), PRIMARY KEY as part of a column (`C79_inline`), foreign keys, which are not kept
(`C79_foreign_key`). -/
theorem C79_create_partial (schema : Str) (db : Database) {k path n w body tail : Str} {fs : List Field} {tys : List Str} (hk : CreateHead k)
    (hp : TablePath path n) (hw : ∀ c ∈ w, isSpace c = true) (hb : FieldList (fs.map Field.text) body) (hf : ∀ f ∈ fs, FieldOk f) (ht : ')' ∉ tail)
    (hty : (columnsOf fs).map (fun d => convertType d.type) = tys.map .ok) (hn : ((columnsOf fs).map (·.name)).Nodup)
    (hdb : Lacks c!"create database" (k ++ path ++ w ++ '(' :: body ++ ')' :: tail)) (hs : Lacks c!"partition by hash" (k ++ path ++ w ++ '(' :: body ++ ')' :: tail)) :
    parseStatement schema db (k ++ path ++ w ++ '(' :: body ++ ')' :: tail) = .ok (db.addTable
      { name := n, schema := schema, pk := primaryOf fs, shard := none, fks := [], rels := [],
        cols := ((columnsOf fs).zip tys).map (fun p => (p.1.name, ⟨p.1.name, p.2⟩)) }) :=
  parse_create_keys hk hp hw hb hf ht hty hn hdb hs

/-- C79: with `PARTITION BY HASH (n) KEY (columns)` after the list the table has n shards over these columns, and is read as without the clause otherwise.
Full claim: for every such statement.  Missing, besides the above: CREATE OR REPLACE (`C79_or_replace`), and a last field that is a column, if a blank follows
KEY (`C35_partition_takes_column`), if a type is named after its type (`C79_text_after_type`) or if its type is NUMBER without arguments (`C79_number`). -/
theorem C79_sharded_partial (schema : Str) (db : Database) {k path n w body tail : Str} {fs : List Field} {last : Field} {tys : List Str} {number : Int} {keys : List Str}
    (hk : k.map small = c!"create table ") (hp : TablePath path n) (hw : ∀ c ∈ w, isSpace c = true) (hb : FieldList ((fs ++ [last]).map Field.text) body)
    (hf : ∀ f ∈ fs ++ [last], FieldOk f) (hlast : LastOk tail last) (hpt : PartitionText tail number keys)
    (hty : (columnsOf (fs ++ [last])).map (fun d => convertType d.type) = tys.map .ok) (hn : ((columnsOf (fs ++ [last])).map (·.name)).Nodup)
    (hdb : Lacks c!"create database" (k ++ path ++ w ++ '(' :: body ++ ')' :: tail)) (hline : '\n' ∉ k ++ path ++ w ++ '(' :: body ++ ')' :: tail) :
    parseStatement schema db (k ++ path ++ w ++ '(' :: body ++ ')' :: tail) = .ok (db.addTable
      { name := n, schema := schema, pk := primaryOf (fs ++ [last]), shard := some { keys := keys, number := .int number }, fks := [], rels := [],
        cols := ((columnsOf (fs ++ [last])).zip tys).map (fun p => (p.1.name, ⟨p.1.name, p.2⟩)) }) :=
  parse_create_sharded hk hp hw hb hf hlast hpt hty hn hdb hline

/-! ## A statement -/

/-- Two columns, a primary key and an index. -/
def saleFields : List Field :=
  [.column ⟨.bracket, c!"id", c!"INT", c!" not null"⟩, .column ⟨.double, c!"name", c!"VARCHAR(20)", []⟩,
   .primary c!"CONSTRAINT pk Primary Key ([id] , \"name\")" [c!"id", c!"name"], .other c!"KEY idx (name, id)"]

/-- The list they form. -/
def saleBody : Str := c!" [id] INT not null ,\"name\" VARCHAR(20), CONSTRAINT pk Primary Key ([id] , \"name\"),\tKEY idx (name, id)"

theorem saleBody_list : FieldList (saleFields.map Field.text) saleBody :=
  .cons (a := c!" ") (b := c!" ") (f := c!"[id] INT not null") (by decide) (by decide)
    (.cons (a := c!"") (b := c!"") (f := c!"\"name\" VARCHAR(20)") (by decide) (by decide)
    (.cons (a := c!" ") (b := c!"") (f := c!"CONSTRAINT pk Primary Key ([id] , \"name\")") (by decide) (by decide)
    (.one (a := c!"\t") (b := c!"") (f := c!"KEY idx (name, id)") (by decide) (by decide))))

theorem saleFields_ok : ∀ f ∈ saleFields, FieldOk f := by
  have snug : ∀ {s : Str}, ((∀ c ∈ s.head?, isSpace c = false) ∧ ∀ c ∈ s.getLast?, isSpace c = false) → Snug s := fun h => ⟨h.1, h.2⟩
  intro f hf
  simp only [saleFields, List.mem_cons, List.not_mem_nil, or_false] at hf
  rcases hf with rfl | rfl | rfl | rfl
  · exact ⟨by simp only [Quote.fits]; decide, by decide, .word (by decide) (by decide), .inr ⟨c!"not nul", 'l', by decide, by decide⟩, by decide, by decide⟩
  · exact ⟨by simp only [Quote.fits]; decide, by decide, .sized (w := c!"VARCHAR") (args := c!"20") (by decide) (by decide) (by decide), .inl rfl, by decide, by decide⟩
  · exact ⟨⟨c!"CONSTRAINT pk Primary Key ", c!"[id] , \"name\"", [], by decide, by decide, by decide, ⟨[c!"[id] ", c!" \"name\""], by decide, by decide,
      .cons ⟨[], .bracket, c!" ", by decide, by decide, by decide, by decide, by decide⟩ (.cons ⟨c!" ", .double, [], by decide, by decide, by decide, by decide, by decide⟩ .nil)⟩,
      .plain (by decide) (by decide)⟩, snug (by decide), by unfold Lacks; decide, by unfold Lacks; decide⟩
  · exact ⟨.paren (s := c!"KEY idx ") (a := c!"name, id") (t := []) (by decide) (by decide) (by decide) (.plain (by decide) (by decide)), snug (by decide), by unfold Lacks; decide,
      by unfold Lacks; decide⟩

theorem salePath : TablePath c!"db.[sale]" c!"sale" :=
  ⟨⟨c!"db.", .bracket, by decide, .inr ⟨c!"db", by decide⟩, by simp only [Quote.fits]; decide⟩, by decide, by decide, by decide⟩

example : CreateHead c!"Create Table " ∧ (columnsOf saleFields).map (fun d => convertType d.type) = [c!"BIGINT", c!"VARCHAR(0)"].map .ok ∧
    ((columnsOf saleFields).map (·.name)).Nodup ∧
    Lacks c!"create database" (c!"Create Table " ++ c!"db.[sale]" ++ c!" " ++ '(' :: saleBody ++ ')' :: c!" engine = x") ∧
    Lacks c!"partition by hash" (c!"Create Table " ++ c!"db.[sale]" ++ c!" " ++ '(' :: saleBody ++ ')' :: c!" engine = x") ∧
    primaryOf saleFields = [c!"id", c!"name"] :=
  ⟨.create (by decide), by decide +kernel, by decide, by unfold Lacks; decide +kernel, by unfold Lacks; decide +kernel, by decide⟩

/-- A partition clause. -/
def saleTail : Str := c!" Partition by HASH ( 96 ) KEY (\"id\", [name] ) comment"

theorem saleTail_partition : PartitionText saleTail 96 [c!"id", c!"name"] :=
  ⟨c!" ", c!"Partition by HASH", c!" ", c!" 96 ", c!") KEY", c!" ", c!"\"id\", [name] ", c!" comment", by decide, by decide,
    ⟨c!" ", [], c!"96", c!" ", by decide, by decide, .inl rfl, ⟨c!"96", [], by decide, by decide, by simp, by decide⟩, by decide, by decide⟩, by decide,
    ⟨[c!"\"id\"", c!" [name] "], by decide, by decide,
      .cons ⟨writtenAs [] [] .double [] (by decide), by decide⟩ (.cons ⟨writtenAs [] c!" " .bracket c!" " (by decide), by decide⟩ .nil)⟩,
    by decide, by decide, by unfold Lacks; decide, by unfold Lacks; decide +kernel⟩

example : saleFields = [saleFields[0], saleFields[1], saleFields[2]] ++ [saleFields[3]] ∧ LastOk saleTail saleFields[3] ∧
    Lacks c!"create database" (c!"Create Table " ++ c!"db.[sale]" ++ c!" " ++ '(' :: saleBody ++ ')' :: saleTail) ∧
    '\n' ∉ c!"Create Table " ++ c!"db.[sale]" ++ c!" " ++ '(' :: saleBody ++ ')' :: saleTail :=
  ⟨by decide, .other (by unfold Lacks; decide), by unfold Lacks; decide +kernel, by decide +kernel⟩

/-- The last field may be a column, if no blank follows KEY. -/
example : LastOk c!" partition by hash(96) key(\"id\")" saleFields[1] ∧ LastOk c!" partition by hash(96) key(\"id\")" (.column ⟨.plain, c!"a", c!"date", c!" not null"⟩) :=
  ⟨.sized (w := c!"VARCHAR") (args := c!"20") (by unfold Lacks; decide) (by unfold Lacks; decide) (by decide),
    .word (by unfold Lacks; decide) (by unfold Lacks; decide) (by decide) (by unfold Lacks; decide) (by unfold Lacks; decide)⟩

/-! ## What is not read as declared -/

/-- What is read of a table: columns, primary key and the columns of the shard key. -/
structure TableRead where
  cols : List (Str × Str)
  pk : List Str
  shard : Option (List Str)
deriving DecidableEq

/-- The tables a statement leads to. -/
def readAs (stmt : Str) : Except PyErr (List TableRead) :=
  (parseStatement c!"s" (Database.empty c!"d") stmt).map
    (fun db => db.tables.map (fun p => ⟨p.2.cols.map (fun c => (c.1, c.2.type)), p.2.pk, p.2.shard.map (·.keys)⟩))

/-- Back quotes stay in the names of a primary key. -/
theorem C79_backticks : readAs c!"create table a (`id` int, primary key (`id`))" = .ok [⟨[(c!"id", c!"BIGINT")], [c!"`id`"], none⟩] := by decide +kernel

/-- Without a blank after KEY a primary key is taken for a column. -/
theorem C79_without_blank : readAs c!"create table a (id int, primary key(id))" =
    .ok [⟨[(c!"id", c!"BIGINT"), (c!"primary", c!"UNKNOWN")], [], none⟩] := by decide +kernel

/-- PRIMARY KEY as part of a column: the key is lost or, if text follows, the column too, and the key is empty text. -/
theorem C79_inline : readAs c!"create table a (id int primary key, b int)" = .ok [⟨[(c!"id", c!"BIGINT"), (c!"b", c!"BIGINT")], [], none⟩] ∧
    readAs c!"create table a (id int primary key not null, b int)" = .ok [⟨[(c!"b", c!"BIGINT")], [[]], none⟩] := by decide +kernel

/-- A foreign key in a CREATE TABLE is not kept. -/
theorem C79_foreign_key : (parseStatement c!"s" (Database.empty c!"d") c!"create table a (b int, constraint f foreign key (b) references c (b))").map
    (fun db => db.tables.map (fun p => p.2.fks)) = .ok [[]] := by decide +kernel

/-- CREATE OR REPLACE loses the shard key. -/
theorem C79_or_replace : readAs c!"create or replace table a (b int, primary key (b)) partition by hash (4) key (b)" =
    .ok [⟨[(c!"b", c!"BIGINT")], [c!"b"], none⟩] := by decide +kernel

/-- The clause changes the type of a last column of type NUMBER. -/
theorem C79_number : readAs c!"create table a (b number) partition by hash (4) key(b)" = .ok [⟨[(c!"b", c!"INT")], [], some [c!"b"]⟩] ∧
    readAs c!"create table a (b number)" = .ok [⟨[(c!"b", c!"BIGINT")], [], none⟩] := by decide +kernel

/-- The clause changes the type of a last column with text after its type that names another type. -/
theorem C79_text_after_type : readAs c!"create table a (b date not null default int) partition by hash (4) key(b)" = .ok [⟨[(c!"b", c!"BIGINT")], [], some [c!"b"]⟩] ∧
    readAs c!"create table a (b date not null default int)" = .ok [⟨[(c!"b", c!"DATE")], [], none⟩] := by decide +kernel

end Verif.Props
