import Verif.Lemmas.CreateTable
/-
C35: CREATE TABLE.
-/

namespace Verif.Props
open Verif Verif.Spec

/-- C35: a CREATE TABLE whose list consists of column declarations adds a table with exactly these columns, in order, with the
converted types, under the last component of the name.  Full claim: for every such statement.  Missing: names with commas,
parentheses or brackets, column names followed by text that reads `key ` (`C35_key_column_lost`), and text with a closing
parenthesis after the list (`C35_partition_takes_column`). -/
theorem C35_create_table_partial (schema : Str) (db : Database) {k path n w body tail : Str} {ds : List Decl} {tys : List Str}
    (hk : CreateHead k) (hp : TablePath path n) (hw : ∀ c ∈ w, isSpace c = true) (hb : FieldList (ds.map Decl.text) body)
    (hd : ∀ d ∈ ds, DeclOk d) (hn : (ds.map (·.name)).Nodup) (ht : ')' ∉ tail)
    (hty : ds.map (fun d => convertType d.type) = tys.map .ok)
    (hdb : ¬ c!"create database" <:+: (k ++ path ++ w ++ '(' :: body ++ ')' :: tail).map small) :
    ∃ sh, parseStatement schema db (k ++ path ++ w ++ '(' :: body ++ ')' :: tail) = .ok (db.addTable
      { name := n, schema := schema, pk := [], shard := sh, fks := [], rels := [],
        cols := (ds.zip tys).map (fun p => (p.1.name, ⟨p.1.name, p.2⟩)) }) ∧
      (¬ c!"partition by hash" <:+: (k ++ path ++ w ++ '(' :: body ++ ')' :: tail).map small → sh = none) := by
  obtain ⟨sh, h1, h2⟩ := parseCreateTable_decls (schema := schema) (db := db) hk hp hw hb ht hd hty hn
  refine ⟨sh, ?_, fun h => h2 (by rw [hasSub_false_iff, ← small_lower]; exact h)⟩
  rw [← h1]
  have hc : (hasSub c!"create table" (lower (k ++ path ++ w ++ '(' :: body ++ ')' :: tail)) ||
      hasSub c!"create or replace table" (lower (k ++ path ++ w ++ '(' :: body ++ ')' :: tail))) = true := by
    have hpre : ∀ {x y : Str}, x <:+: lower k → x <:+: lower (k ++ y) := by
      intro x y h
      rw [lower_append]
      exact h.trans (List.prefix_append _ _).isInfix
    rw [Bool.or_eq_true]
    simp only [List.append_assoc]
    cases hk with
    | create h => exact .inl (hasSub_iff.2 (hpre (by rw [← small_lower, h]; decide)))
    | replace h => exact .inr (hasSub_iff.2 (hpre (by rw [← small_lower, h]; decide)))
  unfold parseStatement
  simp only [hc, if_true]
  rw [if_neg]
  rw [hasSub_iff, ← small_lower]
  exact hdb

/-- Declarations in all styles. -/
def sampleDecls : List Decl :=
  [⟨.plain, c!"a", c!"INT", c!" not null"⟩, ⟨.double, c!"b c", c!"NUMBER(10, 0)", c!""⟩, ⟨.single, c!"d", c!"varchar(3)", c!" default 'x'"⟩,
   ⟨.back, c!"e\"", c!"date", c!""⟩, ⟨.bracket, c!"f", c!"double", c!" precision"⟩]

/-- The list they form. -/
def sampleBody : Str := c!" a INT not null ,\"b c\" NUMBER(10, 0),\n'd' varchar(3) default 'x', `e\"` date, [f] double precision "

example : CreateHead c!"Create Table " ∧ TablePath c!"x.[dbo].\"t\"" c!"t" ∧ FieldList (sampleDecls.map Decl.text) sampleBody ∧
    (∀ d ∈ sampleDecls, DeclOk d) ∧ (sampleDecls.map (·.name)).Nodup ∧
    sampleDecls.map (fun d => convertType d.type) = [c!"BIGINT", c!"BIGINT", c!"VARCHAR(0)", c!"DATE", c!"DOUBLE"].map .ok ∧
    ¬ c!"create database" <:+: (c!"Create Table " ++ c!"x.[dbo].\"t\"" ++ c!" " ++ '(' :: sampleBody ++ ')' :: c!"").map small := by
  refine ⟨.create (by decide), ⟨⟨c!"x.[dbo].", .double, by decide, .inr ⟨c!"x.[dbo]", by decide⟩, by simp only [Quote.fits]; decide⟩, by decide, by decide,
    by decide⟩, ?_, ?_, by decide, by decide +kernel, by decide +kernel⟩
  · exact .cons (a := c!" ") (b := c!" ") (f := c!"a INT not null") (by decide) (by decide)
      (.cons (a := c!"") (b := c!"") (f := c!"\"b c\" NUMBER(10, 0)") (by decide) (by decide)
      (.cons (a := c!"\n") (b := c!"") (f := c!"'d' varchar(3) default 'x'") (by decide) (by decide)
      (.cons (a := c!" ") (b := c!"") (f := c!"`e\"` date") (by decide) (by decide)
      (.one (a := c!" ") (b := c!" ") (f := c!"[f] double precision") (by decide) (by decide)))))
  · intro d hd
    simp only [sampleDecls, List.mem_cons, List.not_mem_nil, or_false] at hd
    rcases hd with rfl | rfl | rfl | rfl | rfl
    · exact ⟨by simp only [Quote.fits]; decide, by decide, .word (by decide) (by decide), .inr ⟨c!"not nul", 'l', by decide, by decide⟩, by decide, by decide⟩
    · exact ⟨by simp only [Quote.fits]; decide, by decide, .sized (w := c!"NUMBER") (args := c!"10, 0") (by decide) (by decide) (by decide), .inl rfl, by decide, by decide⟩
    · exact ⟨by simp only [Quote.fits]; decide, by decide, .sized (w := c!"varchar") (args := c!"3") (by decide) (by decide) (by decide), .inr ⟨c!"default 'x", '\'', by decide, by decide⟩, by decide, by decide⟩
    · exact ⟨by simp only [Quote.fits]; decide, by decide, .word (by decide) (by decide), .inl rfl, by decide, by decide⟩
    · exact ⟨by simp only [Quote.fits]; decide, by decide, .word (by decide) (by decide), .inr ⟨c!"precisio", 'n', by decide, by decide⟩, by decide, by decide⟩

/-- An unquoted column whose name ends with `key` is taken for a key declaration and left out without a word. -/
theorem C35_key_column_lost : (parseStatement c!"s" (Database.empty c!"d") c!"create table a (customer_key int, b int)").map
    (fun db => db.tables.map (fun p => p.2.cols.map (·.1))) = .ok [[c!"b"]] := by decide +kernel

/-- The hypothesis on the types is needed: a malformed NUMBER makes the statement raise. -/
theorem C35_malformed_number : parseStatement c!"s" (Database.empty c!"d") c!"create table a (b int, c number(x,0))" = .error .value := by
  decide +kernel

/-- `if not exists` becomes part of the name. -/
theorem C35_if_not_exists : (parseStatement c!"s" (Database.empty c!"d") c!"create table if not exists a (b int)").map
    (fun db => db.tables.map (·.1)) = .ok [c!"if not exists a"] := by decide +kernel

/-- A quoted name with a comma is cut in two, and the second half raises or declares a column of its own. -/
theorem C35_comma_in_name : (parseStatement c!"s" (Database.empty c!"d") c!"create table a (\"b, c\" int)").map
    (fun db => db.tables.map (fun p => p.2.cols.map (·.1))) = .ok [[c!"", c!"c\""]] := by decide +kernel

/-- With a blank after KEY the partition clause swallows the last column, and the shard key is kept. -/
theorem C35_partition_takes_column : (parseStatement c!"s" (Database.empty c!"d") c!"create table a (b int, c int) partition by hash (4) key (\"c\")").map
    (fun db => db.tables.map (fun p => (p.2.cols.map (·.1), p.2.shard.map (·.keys)))) = .ok [([c!"b"], some [c!"c"])] := by decide +kernel

end Verif.Props
