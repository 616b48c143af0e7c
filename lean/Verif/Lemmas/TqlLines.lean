import Verif.Lemmas.Blocks
import Verif.Lemmas.Script
import Verif.Lemmas.PyInt
import Verif.Props.Case
/-
The text `write_tql` produces, as blocks of lines.
-/

namespace Verif
open Spec

def useBlock (n : Str) : Block := ⟨false, [], quoteLine c!"USE " [(n, [])]⟩
def createDbBlock (n : Str) : Block := ⟨false, [], quoteLine c!"CREATE DATABASE " [(n, [])]⟩
def createSchemaBlock (n : Str) : Block := ⟨false, [], quoteLine c!"CREATE SCHEMA " [(n, [])]⟩
def dropBlock (t : Table) : Block := ⟨true, [], quoteLine c!"DROP TABLE " [(t.schema, c!"."), (t.name, [])]⟩

def createHead (t : Table) : Str := quoteLine c!"CREATE TABLE " [(t.schema, c!"."), (t.name, c!" (")]

/-- A column declaration as printed. -/
def colPrint (c : Column) : Str := '"' :: (c.name ++ '"' :: (' ' :: c.type))

def colLines : Bool → List Column → List (Str × Str)
  | _, [] => []
  | true, c :: cs => (c!"    ", colPrint c) :: colLines false cs
  | false, c :: cs => (c!"   ", ',' :: colPrint c) :: colLines false cs

/-- The primary key as printed. -/
def pkPrint (pk : List Str) : Str := quoteLine c!"CONSTRAINT PRIMARY KEY (" (nameSegs pk c!")")

def pkLines (pk : List Str) : List (Str × Str) := if pk = [] then [] else [(c!"   ", ',' :: pkPrint pk)]

/-- The number of shards as printed. -/
def countPrint : ShardCount → Str
  | .int n => intToStr n
  | .flt q => intToStr (if q < 0 then -((-q).floor) else q.floor)
  | .text s => s

def createLast : Option ShardKey → Str
  | none => c!")"
  | some k => quoteLine (c!") PARTITION BY HASH(" ++ countPrint k.number ++ c!") KEY(") (nameSegs k.keys c!")")

def createBlock (t : Table) : Block := ⟨true, ([], createHead t) :: (colLines true t.iter ++ pkLines t.pk), createLast t.shard⟩

def fkBlock (t : Table) (k : FK) : Block :=
  ⟨false, [], quoteLine c!"ALTER TABLE " ([(t.schema, c!"."), (t.name, c!" ADD CONSTRAINT "), (k.name, c!" FOREIGN KEY (")] ++
    (nameSegs k.fromKeys c!") REFERENCES " ++ ([(t.schema, c!"."), (k.toTable, c!" (")] ++ nameSegs k.toKeys c!")")))⟩

/-- The beginning of an ALTER TABLE that adds a relationship. -/
def relHead (t : Table) (r : Rel) : Str :=
  quoteLine c!"ALTER TABLE " [(t.schema, c!"."), (t.name, c!" ADD RELATIONSHIP "), (r.name, c!" WITH "), (t.schema, c!"."), (r.toTable, c!" AS")]

def relBlock (t : Table) (r : Rel) : Block := ⟨false, [], relHead t r ++ ' ' :: r.conditions⟩

/-- The blocks of a database; `schemas` are the schemas that are created. -/
def dbBlocks (createDb : Bool) (schemas : List Str) (db : Database) : List Block :=
  (if createDb then [createDbBlock db.name] else []) ++ ([useBlock db.name] ++ (schemas.map createSchemaBlock ++
  (db.iter.flatMap (fun t => [dropBlock t, createBlock t]) ++ (db.iter.flatMap (fun t => t.fks.vals.map (fkBlock t)) ++
  db.iter.flatMap (fun t => t.rels.vals.map (relBlock t))))))

/-! ## The text -/

/-- The pieces give the lines of the blocks. -/
def Writes (ps : List (Except PyErr Str)) (bs : List Block) : Prop := writeAll ps = (fileOf (bs.flatMap Block.lines), none)

theorem Writes.nil : Writes [] [] := rfl

theorem Writes.append {ps qs : List (Except PyErr Str)} {bs cs : List Block} (h1 : Writes ps bs) (h2 : Writes qs cs) : Writes (ps ++ qs) (bs ++ cs) := by
  unfold Writes at *
  rw [writeAll_append (by rw [h1]), h1, h2, List.flatMap_append, fileOf_append]

theorem Writes.single {p : Except PyErr Str} {b : Block} (h : p = .ok (fileOf b.lines)) : Writes [p] [b] := by
  subst h
  simp [Writes, writeAll]

theorem Writes.forall₂ {α β : Type} {R : α → β → Prop} {f : α → List (Except PyErr Str)} {g : β → List Block} {l : List α} {l' : List β}
    (h : List.Forall₂ R l l') (hfg : ∀ a b, b ∈ l' → R a b → Writes (f a) (g b)) : Writes (l.flatMap f) (l'.flatMap g) := by
  induction h with
  | nil => exact .nil
  | cons hab _ ih =>
    rw [List.flatMap_cons, List.flatMap_cons]
    exact (hfg _ _ (by simp) hab).append (ih (fun a b hb => hfg a b (by simp [hb])))

theorem Writes.map₂ {α β : Type} {R : α → β → Prop} {f : α → Except PyErr Str} {g : β → Block} {l : List α} {l' : List β}
    (h : List.Forall₂ R l l') (hfg : ∀ a b, b ∈ l' → R a b → f a = .ok (fileOf (g b).lines)) : Writes (l.map f) (l'.map g) := by
  induction h with
  | nil => exact .nil
  | cons hab _ ih => exact Writes.append (ps := [_]) (bs := [_]) (.single (hfg _ _ (by simp) hab)) (ih (fun a b hb => hfg a b (by simp [hb])))

theorem fileOf_last (b : Str) : fileOf (Block.lines ⟨false, [], b⟩) = b ++ c!";\n" := by simp [Block.lines, fileOf]

/-! ## Case options -/

theorem toCase_printed {o : GenOpts} {n m : Str} (h : PrintedAs o n m) : toCase o n = .ok m := by
  unfold PrintedAs at h
  have h1 := (Props.C22_case_options o n).1
  have h2 := (Props.C22_case_options o n).2
  by_cases hn : n = c!"falcon_default_schema"
  · rw [if_pos hn] at h
    rw [h, hn, h1]
  · rw [if_neg hn] at h
    obtain ⟨a1, a2, a3, a4⟩ := h2 hn
    cases hl : o.lowercase with
    | true => rw [hl, if_pos rfl] at h; rw [h, a1 hl]
    | false =>
      rw [hl, if_neg (by simp)] at h
      cases hu : o.uppercase with
      | true => rw [hu, if_pos rfl] at h; rw [h, a2 hl hu]
      | false =>
        rw [hu, if_neg (by simp)] at h
        cases hc : o.camelcase with
        | true =>
          rw [hc, if_pos rfl] at h
          obtain ⟨a, ws, b, hne, hw, rfl, rfl⟩ := h
          rw [a3 hl hu hc, (Props.C23_camel_case a b ws hw hne).1]
        | false =>
          rw [hc, if_neg (by simp)] at h
          rw [h, a4 hl hu hc]

theorem colCase_printed (o : GenOpts) (n : Str) : colCase o n = ColumnAs o n := by
  unfold colCase ColumnAs
  rw [Props.lower_eq, Props.upper_eq]

theorem printed_default (n : Str) : PrintedAs {} n n := by simp [PrintedAs]

theorem database_default {db : Database} (h : WellKeyed db) : DatabaseAs {} db db := by
  have same : ∀ {α : Type} {R : α → α → Prop} (l : List α), (∀ x ∈ l, R x x) → List.Forall₂ R l l := by
    intro α R l hl
    exact List.forall₂_same.2 hl
  refine ⟨printed_default _, same _ (fun p hp => ⟨printed_default _, printed_default _, printed_default _, rfl, rfl, ?_, same _ ?_, same _ ?_⟩),
    same _ (fun p _ => printed_default _)⟩
  · have := h.colNames p.1 p.2 hp
    conv_lhs => rw [← List.map_id p.2.cols]
    apply List.map_congr_left
    intro q hq
    have e := this q.1 q.2 hq
    simp only [id, ColumnAs, Bool.false_eq_true, if_false]
    rw [← e]
    exact Prod.ext rfl (by rw [e])
  · exact fun q _ => ⟨rfl, rfl, printed_default _, rfl, printed_default _, rfl⟩
  · exact fun q _ => ⟨rfl, rfl, printed_default _, printed_default _, rfl⟩

/-! ## Statements -/

theorem gen_use {o : GenOpts} {n m : Str} (h : PrintedAs o n m) : genUseDatabase o n = .ok (fileOf (useBlock m).lines) := by
  simp only [genUseDatabase, toCase_printed h, useBlock, fileOf_last, bind, Except.bind]
  simp [quoteLine]

theorem gen_createDb {o : GenOpts} {n m : Str} (h : PrintedAs o n m) : genCreateDatabase o n = .ok (fileOf (createDbBlock m).lines) := by
  simp only [genCreateDatabase, toCase_printed h, createDbBlock, fileOf_last, bind, Except.bind]
  simp [quoteLine]

theorem gen_createSchema {o : GenOpts} {n m : Str} (h : PrintedAs o n m) : genCreateSchema o n = .ok (fileOf (createSchemaBlock m).lines) := by
  simp only [genCreateSchema, toCase_printed h, createSchemaBlock, fileOf_last, bind, Except.bind]
  simp [quoteLine]

theorem gen_fk {o : GenOpts} {t t' : Table} {k k' : FK} (ht : TableAs o t t') (hk : KeyAs o k k') (h : ReadableFK t' k') :
    genForeignKey o t k = .ok (fileOf (fkBlock t' k').lines) := by
  have hne : k'.toKeys ≠ [] := by
    intro e
    have := h.lengths
    rw [e, List.length_nil, List.length_eq_zero_iff] at this
    exact h.keys this
  simp only [genForeignKey, toCase_printed ht.schema, toCase_printed hk.fromTable, toCase_printed hk.toTable, fkBlock, fileOf_last, bind, Except.bind]
  rw [quoteLine_append, quoteLine_append, quoteLine_append, quoteLine_names h.keys, quoteLine_names hne, h.source, ← hk.name, ← hk.fromKeys, ← hk.toKeys]
  simp [quoteLine]

theorem gen_rel {o : GenOpts} {t t' : Table} {r r' : Rel} (ht : TableAs o t t') (hr : RelationshipAs o r r') (h : ReadableRel t' r') :
    genRelationship o t r = .ok (fileOf (relBlock t' r').lines) := by
  simp only [genRelationship, toCase_printed ht.schema, toCase_printed hr.fromTable, toCase_printed hr.toTable, relBlock, fileOf_last, bind, Except.bind, h.source,
    ← hr.name, ← hr.conditions]
  simp [relHead, quoteLine]

theorem gen_columns (o : GenOpts) : ∀ (b : Bool) (cs : List Column),
    genColumns o b cs = fileOf ((colLines b (cs.map (fun c => ⟨ColumnAs o c.name, c.type⟩))).map (fun p => p.1 ++ p.2))
  | b, [] => by cases b <;> rfl
  | true, c :: cs => by
    simp only [genColumns, List.map_cons, colLines, gen_columns o false cs]
    simp [fileOf, colPrint, colCase_printed]
  | false, c :: cs => by
    simp only [genColumns, List.map_cons, colLines, gen_columns o false cs]
    simp [fileOf, colPrint, colCase_printed]

theorem gen_pk (pk : List Str) (cmd : Str) : (if pk.length ≠ 0 then cmd ++ c!"   ,CONSTRAINT PRIMARY KEY (" ++ listToString pk true ++ c!")\n" else cmd) =
    cmd ++ fileOf ((pkLines pk).map (fun p => p.1 ++ p.2)) := by
  unfold pkLines
  by_cases h : pk = []
  · subst h; simp [fileOf]
  · rw [if_neg h, if_pos (by simpa using h)]
    simp only [List.map_cons, List.map_nil, pkPrint, quoteLine_names h]
    simp [fileOf]

theorem fmtD_eq {k : ShardKey} (h : ReadableShard k) : fmtD k.number = .ok (countPrint k.number) := by
  cases e : k.number with
  | int n => rfl
  | flt q => rfl
  | text s => exact absurd e (h.number s)

theorem gen_create {o : GenOpts} {t t' : Table} (ht : TableAs o t t') (h : ReadableTable t') :
    ∃ txt, genCreateTable o t = .ok txt ∧ '\n' :: txt = fileOf (createBlock t').lines := by
  have hi : t.iter.map (fun c => (⟨ColumnAs o c.name, c.type⟩ : Column)) = t'.iter := by
    simp only [Table.iter, Dict.vals, ht.cols, List.map_map]
    rfl
  simp only [genCreateTable, toCase_printed ht.name, toCase_printed ht.schema, bind, Except.bind, gen_columns, gen_pk, hi, ← ht.pk, ← ht.shard]
  have key : ∀ last : Str, '\n' :: (c!"CREATE TABLE \"" ++ t'.schema ++ c!"\".\"" ++ t'.name ++ c!"\" (\n" ++ fileOf ((colLines true t'.iter).map (fun p => p.1 ++ p.2)) ++
      fileOf ((pkLines t'.pk).map (fun p => p.1 ++ p.2)) ++ (last ++ c!";\n")) =
      fileOf (Block.lines ⟨true, ([], createHead t') :: (colLines true t'.iter ++ pkLines t'.pk), last⟩) := by
    intro last
    simp only [Block.lines, if_true, List.map_cons, List.map_append, fileOf_append]
    simp [fileOf, createHead, quoteLine]
  cases hs : t'.shard with
  | none =>
    refine ⟨_, rfl, ?_⟩
    have := key c!")"
    simp only [createBlock, hs, createLast]
    rw [← this]
    simp
  | some k =>
    simp only [fmtD_eq (h.shard k hs)]
    refine ⟨_, rfl, ?_⟩
    simp only [createBlock, hs, createLast]
    rw [← key, quoteLine_names (h.shard k hs).keys]
    simp

theorem gen_drop {o : GenOpts} {t t' : Table} (ht : TableAs o t t') : ∃ txt, genDropTable o t = .ok txt ∧ '\n' :: txt = fileOf (dropBlock t').lines := by
  simp only [genDropTable, toCase_printed ht.name, toCase_printed ht.schema, bind, Except.bind]
  exact ⟨_, rfl, by simp [dropBlock, Block.lines, fileOf, quoteLine]⟩

theorem writes_table {o : GenOpts} {t t' : Table} (ht : TableAs o t t') (h : ReadableTable t') : Writes (writeCreateTable o t) [dropBlock t', createBlock t'] := by
  obtain ⟨d, hd, ed⟩ := gen_drop ht
  obtain ⟨c, hc, ec⟩ := gen_create ht h
  unfold Writes writeCreateTable
  rw [hd, hc]
  simp only [List.flatMap_cons, List.flatMap_nil, fileOf_append, List.append_nil, ← ed, ← ec]
  simp [writeAll]

/-- The schemas in the CREATE SCHEMA statements, as they are printed. -/
def printedSchemas (o : GenOpts) (l : List Str) : List Str :=
  (l.filter (fun s => decide (s ≠ defaultSchema))).filterMap (fun s => (toCase o s).toOption)

theorem writes_schemas {o : GenOpts} {l l' : Dict Int} (h : List.Forall₂ (fun p p' => PrintedAs o p.1 p'.1) l l') :
    (∀ s ∈ printedSchemas o (l.map Prod.fst), ∃ p ∈ l', p.1 = s) ∧
      Writes (((l.map Prod.fst).filter (fun s => decide (s ≠ defaultSchema))).map (genCreateSchema o))
        ((printedSchemas o (l.map Prod.fst)).map createSchemaBlock) := by
  induction h with
  | nil => exact ⟨by simp [printedSchemas], .nil⟩
  | @cons p p' l l' hp _ ih =>
    obtain ⟨h1, h2⟩ := ih
    by_cases e : p.1 = defaultSchema
    · have ep : printedSchemas o ((p :: l).map Prod.fst) = printedSchemas o (l.map Prod.fst) := by
        simp [printedSchemas, e]
      rw [ep]
      refine ⟨fun s hs => ?_, ?_⟩
      · obtain ⟨q, hq, e'⟩ := h1 s hs
        exact ⟨q, List.mem_cons_of_mem _ hq, e'⟩
      · rw [List.map_cons, List.filter_cons_of_neg (by simpa using e)]
        exact h2
    · have ep : printedSchemas o ((p :: l).map Prod.fst) = p'.1 :: printedSchemas o (l.map Prod.fst) := by
        simp [printedSchemas, e, toCase_printed hp, Except.toOption]
      rw [ep]
      refine ⟨fun s hs => ?_, ?_⟩
      · rcases List.mem_cons.1 hs with rfl | hs
        · exact ⟨p', by simp, rfl⟩
        · obtain ⟨q, hq, e'⟩ := h1 s hs
          exact ⟨q, List.mem_cons_of_mem _ hq, e'⟩
      · rw [List.map_cons, List.filter_cons_of_pos (by simpa using e)]
        exact Writes.append (ps := [_]) (bs := [_]) (.single (gen_createSchema hp)) h2

/-- The text of a database that can be read back. -/
theorem writeTql_text {o : TqlOpts} {db db' : Database} (hd : DatabaseAs o.toGenOpts db db') (h : ReadableDb db') :
    (∀ s ∈ (if o.createDb then printedSchemas o.toGenOpts db.schemaNames else []), ReadableName s) ∧
      writeTql o db = (fileOf ((dbBlocks o.createDb (if o.createDb then printedSchemas o.toGenOpts db.schemaNames else []) db').flatMap
        Block.lines), none) := by
  obtain ⟨ss, hes, hss, hw⟩ : ∃ ss : List Str, ss = (if o.createDb then printedSchemas o.toGenOpts db.schemaNames else []) ∧
      (∀ s ∈ ss, ∃ p ∈ db'.schemas, p.1 = s) ∧
      Writes (if o.createDb then (db.schemaNames.filter (fun s => decide (s ≠ defaultSchema))).map (genCreateSchema o.toGenOpts) else []) (ss.map createSchemaBlock) := by
    cases o.createDb with
    | true => exact ⟨_, rfl, writes_schemas hd.schemas⟩
    | false => exact ⟨[], rfl, by simp, .nil⟩
  rw [← hes]
  refine ⟨fun s hs => ?_, ?_⟩
  · obtain ⟨p, hp, rfl⟩ := hss s hs
    exact h.schemas p hp
  have hit : List.Forall₂ (fun t t' => TableAs o.toGenOpts t t') db.iter db'.iter := by
    simp only [Database.iter, Dict.vals, List.forall₂_map_left_iff, List.forall₂_map_right_iff]
    exact hd.tables.imp (fun _ _ h => h.2)
  have mem : ∀ {t}, t ∈ db'.iter → ReadableTable t := by
    intro t ht
    simp only [Database.iter, Dict.vals, List.mem_map] at ht
    obtain ⟨p, hp, rfl⟩ := ht
    exact h.tables p hp
  have : Writes (tqlPieces o db) (dbBlocks o.createDb ss db') := by
    unfold tqlPieces dbBlocks
    simp only [List.append_assoc]
    refine .append ?_ (.append (.single (gen_use hd.name)) (.append hw (.append (.forall₂ hit (fun t t' ht r => writes_table r (mem ht)))
      (.append (.forall₂ hit (fun t t' ht r => ?_)) (.forall₂ hit (fun t t' ht r => ?_))))))
    · split
      · exact .single (gen_createDb hd.name)
      · exact .nil
    · simp only [writeForeignKeys, Dict.vals, List.map_map]
      refine .map₂ r.fks (fun p p' hp e => ?_)
      exact gen_fk r e.2 ((mem ht).fks p' hp)
    · simp only [writeRelationships, Dict.vals, List.map_map]
      refine .map₂ r.rels (fun p p' hp e => ?_)
      exact gen_rel r e.2 ((mem ht).rels p' hp)
  exact this

theorem writeTql_blocks {o : TqlOpts} {db db' : Database} (hd : DatabaseAs o.toGenOpts db db') (h : ReadableDb db') :
    ∃ schemas : List Str, (∀ s ∈ schemas, ReadableName s) ∧
      writeTql o db = (fileOf ((dbBlocks o.createDb schemas db').flatMap Block.lines), none) :=
  ⟨_, writeTql_text hd h⟩

/-- The text depends on the printed database and the schemas. -/
theorem writeTql_same {o : TqlOpts} {db1 db2 db' : Database} (h1 : DatabaseAs o.toGenOpts db1 db') (h2 : DatabaseAs o.toGenOpts db2 db')
    (hs : db1.schemaNames = db2.schemaNames) (h : ReadableDb db') : writeTql o db1 = writeTql o db2 := by
  rw [(writeTql_text h1 h).2, (writeTql_text h2 h).2, hs]

end Verif
