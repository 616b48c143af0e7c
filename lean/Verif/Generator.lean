import Verif.Model
/-
Model of dt/generator.py (lines 20-384): the TQL command generator, and of `TQLWriter` (dt/io.py:674-763).

Statements are produced as text.  `to_camel` can raise, so every generator returns `Except PyErr Str`.
-/

namespace Verif

/-- `"{0}"` formatted with one value (dt/generator.py:30). -/
def quoted (v : Str) : Str := c!"\"" ++ v ++ c!"\""

/-- `list_to_string` (dt/generator.py:20-33). -/
def listToString (l : List Str) (quote : Bool) : Str :=
  if quote then joinS c!", " (l.map quoted) else joinS c!", " l

/-- Instance state of `TQLCommandGenerator` (dt/generator.py:42-56). -/
structure GenOpts where
  uppercase : Bool := false
  lowercase : Bool := false
  camelcase : Bool := false
deriving DecidableEq, Repr

/-- The `while` loop of `to_camel` (dt/generator.py:88-97), on the characters from `idx` on. -/
def camelTail : Str → Str
  | [] => []
  | c :: t =>
    if c ≠ '_' then c :: camelTail t
    else match t with
      | [] => []
      | d :: t' => upperC d :: camelTail t'

/-- `TQLCommandGenerator.to_camel` (dt/generator.py:77-99); `newval[0]` raises on the empty string. -/
def toCamel (val : Str) : Except PyErr Str :=
  match stripChars (· == '_') val with
  | [] => .error .index
  | c :: t => .ok (upperC c :: camelTail t)

/-- `TQLCommandGenerator.to_case` (dt/generator.py:58-74). -/
def toCase (o : GenOpts) (s : Str) : Except PyErr Str :=
  if s = defaultSchema then .ok s
  else if o.lowercase then .ok (lower s)
  else if o.uppercase then .ok (upper s)
  else if o.camelcase then toCamel s
  else .ok s

/-- `'%d' % number_shards` (dt/generator.py:161): a float is truncated, a text is a `TypeError`. -/
def fmtD : ShardCount → Except PyErr Str
  | .int n => .ok (intToStr n)
  | .flt q => .ok (intToStr (if q < 0 then -((-q).floor) else q.floor))
  | .text _ => .error .type

/-- `'{}'.format(number_shards)` (dt/generator.py:222-223); how Python prints a float is the parameter `floatRepr`. -/
def fmtBraces (floatRepr : Rat → Str) : ShardCount → Str
  | .int n => intToStr n
  | .flt q => floatRepr q
  | .text s => s

/-- `generate_create_database_statement` (dt/generator.py:101-109). -/
def genCreateDatabase (o : GenOpts) (n : Str) : Except PyErr Str := do
  let n ← toCase o n
  .ok (c!"CREATE DATABASE \"" ++ n ++ c!"\";\n")

/-- `generate_use_database_statement` (dt/generator.py:111-119). -/
def genUseDatabase (o : GenOpts) (n : Str) : Except PyErr Str := do
  let n ← toCase o n
  .ok (c!"USE \"" ++ n ++ c!"\";\n")

/-- `generate_create_schema_statement` (dt/generator.py:121-129). -/
def genCreateSchema (o : GenOpts) (n : Str) : Except PyErr Str := do
  let n ← toCase o n
  .ok (c!"CREATE SCHEMA \"" ++ n ++ c!"\";\n")

/-- The column name as printed by CREATE TABLE (dt/generator.py:144-149): camel case is not applied. -/
def colCase (o : GenOpts) (n : Str) : Str :=
  if o.lowercase then lower n else if o.uppercase then upper n else n

/-- The column lines of a CREATE TABLE (dt/generator.py:142-154); the flag is the variable `first`. -/
def genColumns (o : GenOpts) : Bool → List Column → Str
  | _, [] => []
  | first, c :: cs =>
    (if first then c!"    \"" else c!"   ,\"") ++ colCase o c.name ++ c!"\" " ++ c.type ++ c!"\n" ++ genColumns o false cs

/-- `generate_create_table_statement` (dt/generator.py:131-164). -/
def genCreateTable (o : GenOpts) (t : Table) : Except PyErr Str := do
  let tn ← toCase o t.name
  let sn ← toCase o t.schema
  let cmd := c!"CREATE TABLE \"" ++ sn ++ c!"\".\"" ++ tn ++ c!"\" (\n"
  let cmd := cmd ++ genColumns o true t.iter
  let cmd := if t.pk.length ≠ 0 then cmd ++ c!"   ,CONSTRAINT PRIMARY KEY (" ++ listToString t.pk true ++ c!")\n" else cmd
  match t.shard with
  | some sk => do
    let n ← fmtD sk.number
    .ok (cmd ++ c!") PARTITION BY HASH(" ++ n ++ c!") KEY(" ++ listToString sk.keys true ++ c!");\n")
  | none => .ok (cmd ++ c!");\n")

/-- `generate_drop_table_statement` (dt/generator.py:166-177). -/
def genDropTable (o : GenOpts) (t : Table) : Except PyErr Str := do
  let tn ← toCase o t.name
  let sn ← toCase o t.schema
  .ok (c!"DROP TABLE \"" ++ sn ++ c!"\".\"" ++ tn ++ c!"\";\n")

/-- `generate_add_primary_key_statement` (dt/generator.py:179-193): the format string has an unmatched `}`, so
`str.format` raises `ValueError` whatever the arguments are. -/
def genAddPrimaryKey (o : GenOpts) (t : Table) (_pk : List Str) : Except PyErr Str := do
  let _tn ← toCase o t.name
  let _sn ← toCase o t.schema
  .error .value

/-- `ALTER TABLE "schema"."table" ` as every ALTER generator starts (dt/generator.py:203-205, 220-222, 234-236, 249-251, 266-268, 283-285, 298-301, 319-321, 335-337). -/
def alterPrefix (o : GenOpts) (t : Table) : Except PyErr Str := do
  let tn ← toCase o t.name
  let sn ← toCase o t.schema
  .ok (c!"ALTER TABLE \"" ++ sn ++ c!"\".\"" ++ tn ++ c!"\" ")

/-- `generate_drop_primary_key_statement` (dt/generator.py:195-206). -/
def genDropPrimaryKey (o : GenOpts) (t : Table) : Except PyErr Str := do
  let a ← alterPrefix o t
  .ok (a ++ c!"DROP CONSTRAINT PRIMARY KEY;\n")

/-- `generate_add_hash_key_statement` (dt/generator.py:208-224). -/
def genAddHashKey (floatRepr : Rat → Str) (o : GenOpts) (t : Table) (n : ShardCount) (key : List Str) :
    Except PyErr Str := do
  let a ← alterPrefix o t
  .ok (a ++ c!"SET FACT PARTITION BY HASH (" ++ fmtBraces floatRepr n ++ c!") KEY (" ++ listToString key true ++ c!");\n")

/-- `generate_drop_hash_key_statement` (dt/generator.py:226-237). -/
def genDropHashKey (o : GenOpts) (t : Table) : Except PyErr Str := do
  let a ← alterPrefix o t
  .ok (a ++ c!"SET DIMENSIONS;\n")

/-- `generate_add_foreign_key_statement` (dt/generator.py:239-254). -/
def genAddForeignKey (o : GenOpts) (t : Table) (fk : FK) : Except PyErr Str := do
  let a ← alterPrefix o t
  .ok (a ++ c!"ADD CONSTRAINT FOREIGN KEY \"" ++ fk.name ++ c!"\" (" ++ listToString fk.fromKeys true ++
    c!") REFERENCES \"" ++ fk.toTable ++ c!"\" (" ++ listToString fk.toKeys true ++ c!");\n")

/-- `generate_add_relationship_constraint_statement` (dt/generator.py:256-271). -/
def genAddRelationship (o : GenOpts) (t : Table) (r : Rel) : Except PyErr Str := do
  let a ← alterPrefix o t
  .ok (a ++ c!"ADD RELATIONSHIP \"" ++ r.name ++ c!"\" WITH \"" ++ r.toTable ++ c!"\" AS " ++ r.conditions ++ c!";\n")

/-- `generate_drop_constraint_statement` (dt/generator.py:273-286). -/
def genDropConstraint (o : GenOpts) (t : Table) (n : Str) : Except PyErr Str := do
  let a ← alterPrefix o t
  .ok (a ++ c!"DROP CONSTRAINT \"" ++ n ++ c!"\";\n")

/-- `generate_add_column_statement` (dt/generator.py:288-307). -/
def genAddColumn (o : GenOpts) (t : Table) (c : Column) : Except PyErr Str := do
  let a ← alterPrefix o t
  let cmd := a ++ c!"ADD COLUMN \"" ++ c.name ++ c!"\" " ++ c.type ++ c!" DEFAULT "
  let cmd := if startsWith c.type c!"VARCHAR" then cmd ++ c!"''" else cmd ++ c!"0"
  .ok (cmd ++ c!";\n")

/-- `generate_modify_column_statement` (dt/generator.py:309-323). -/
def genModifyColumn (o : GenOpts) (t : Table) (c : Column) : Except PyErr Str := do
  let a ← alterPrefix o t
  .ok (a ++ c!"MODIFY COLUMN \"" ++ c.name ++ c!"\" " ++ c.type ++ c!";\n")

/-- `generate_drop_column_statement` (dt/generator.py:325-338). -/
def genDropColumn (o : GenOpts) (t : Table) (c : Column) : Except PyErr Str := do
  let a ← alterPrefix o t
  .ok (a ++ c!"DROP COLUMN \"" ++ c.name ++ c!"\";\n")

/-- `generate_foreign_key_statement` (dt/generator.py:340-363). -/
def genForeignKey (o : GenOpts) (t : Table) (fk : FK) : Except PyErr Str := do
  let sn ← toCase o t.schema
  let ft ← toCase o fk.fromTable
  let tt ← toCase o fk.toTable
  .ok (c!"ALTER TABLE \"" ++ sn ++ c!"\".\"" ++ ft ++ c!"\" ADD CONSTRAINT \"" ++ fk.name ++ c!"\" FOREIGN KEY (" ++
    listToString fk.fromKeys true ++ c!") REFERENCES \"" ++ sn ++ c!"\".\"" ++ tt ++ c!"\" (" ++
    listToString fk.toKeys true ++ c!");\n")

/-- `generate_relationships` (dt/generator.py:365-383). -/
def genRelationship (o : GenOpts) (t : Table) (r : Rel) : Except PyErr Str := do
  let sn ← toCase o t.schema
  let ft ← toCase o r.fromTable
  let tt ← toCase o r.toTable
  .ok (c!"ALTER TABLE \"" ++ sn ++ c!"\".\"" ++ ft ++ c!"\" ADD RELATIONSHIP \"" ++ r.name ++ c!"\" WITH \"" ++ sn ++
    c!"\".\"" ++ tt ++ c!"\" AS " ++ r.conditions ++ c!";\n")

/-- A writer's effect: what reached the file, and the exception that stopped it, if any.  `smart_open` (dt/io.py:36-50)
closes the file in both cases, so everything written before the exception is in the file. -/
abbrev Output := Str × Option PyErr

/-- Write the texts one after the other until one fails. -/
def writeAll : List (Except PyErr Str) → Output
  | [] => ([], none)
  | .error e :: _ => ([], some e)
  | .ok s :: rest => let r := writeAll rest; (s ++ r.1, r.2)

/-- Instance state of `TQLWriter` (dt/io.py:679-696). -/
structure TqlOpts extends GenOpts where
  createDb : Bool := false
deriving DecidableEq, Repr

/-- `TQLWriter.write_create_table_statement` (dt/io.py:732-743): the pieces in the order they are written. -/
def writeCreateTable (o : GenOpts) (t : Table) : List (Except PyErr Str) :=
  [.ok c!"\n", genDropTable o t, .ok c!"\n", genCreateTable o t]

/-- `TQLWriter.write_foreign_keys` (dt/io.py:745-753). -/
def writeForeignKeys (o : GenOpts) (t : Table) : List (Except PyErr Str) :=
  t.fks.vals.map (genForeignKey o t)

/-- `TQLWriter.write_relationships` (dt/io.py:755-763). -/
def writeRelationships (o : GenOpts) (t : Table) : List (Except PyErr Str) :=
  t.rels.vals.map (genRelationship o t)

/-- The pieces `write_tql` writes (dt/io.py:698-730), in order. -/
def tqlPieces (o : TqlOpts) (db : Database) : List (Except PyErr Str) :=
  (if o.createDb then [genCreateDatabase o.toGenOpts db.name] else []) ++
  [genUseDatabase o.toGenOpts db.name] ++
  (if o.createDb then
    (db.schemaNames.filter (fun s => decide (s ≠ defaultSchema))).map (genCreateSchema o.toGenOpts) else []) ++
  db.iter.flatMap (writeCreateTable o.toGenOpts) ++
  db.iter.flatMap (writeForeignKeys o.toGenOpts) ++
  db.iter.flatMap (writeRelationships o.toGenOpts)

/-- `TQLWriter.write_tql` (dt/io.py:698-730). -/
def writeTql (o : TqlOpts) (db : Database) : Output := writeAll (tqlPieces o db)

end Verif
