import Verif.Model
import Verif.Py.Re
/-
Model of `DDLParser` (dt/io.py:56-671).

Messages to standard error are in `Reports.lean`; the log is not modelled.  Letter case is ASCII only.
-/

namespace Verif

/-! ## Reading statements -/

/-- Universal newlines of `open(filename, "r")` (dt/io.py:141). -/
def newlines : Str → Str
  | [] => []
  | '\r' :: '\n' :: t => '\n' :: newlines t
  | '\r' :: t => '\n' :: newlines t
  | c :: t => c :: newlines t

/-- The lines `for line in ddl_file` yields (dt/io.py:147), without their line ends, which `_clean_line` strips anyway. -/
def fileLines (content : Str) : List Str :=
  let parts := splitC '\n' (newlines content)
  if parts.getLast? = some [] then parts.dropLast else parts

/-- `_clean_line` (dt/io.py:429-441). -/
def cleanLine (line : Str) : Str := subRun '\t' (subRun ' ' (strip line))

/-- The variables of `_get_statements` (dt/io.py:143-146). -/
structure ReadSt where
  statements : List Str := []
  buffer : Str := []
  inComment : Bool := false
deriving DecidableEq, Repr

/-- Lines 154-174 of `_get_statements` (dt/io.py:154-174): what a line does to the buffer and the comment flag. -/
def bufferLine (st : ReadSt) (line : Str) : ReadSt :=
  if st.inComment then
    if hasSub c!"*/" line then
      { st with inComment := false, buffer := st.buffer ++ (partitionS c!"*/" line).2.2 }
    else st
  else if hasSub c!"/*" line then
    let before := (partitionS c!"/*" line).1
    let after := (partitionS c!"/*" line).2.2
    if hasSub c!"*/" after then
      { st with inComment := false, buffer := st.buffer ++ before ++ (partitionS c!"*/" after).2.2 }
    else { st with inComment := true, buffer := st.buffer ++ before }
  else { st with buffer := st.buffer ++ (c!" " ++ line) }

/-- Lines 176-181 (dt/io.py:176-181): at most one statement is released. -/
def release (st : ReadSt) : ReadSt :=
  if hasSub c!";" st.buffer then
    { st with statements := st.statements ++ [strip (partitionS c!";" st.buffer).1], buffer := (partitionS c!";" st.buffer).2.2 }
  else st

/-- The body of the loop of `_get_statements` (dt/io.py:147-181). -/
def readLine (st : ReadSt) (line : Str) : ReadSt :=
  let line := cleanLine line
  let line := (partitionS c!"--" line).1
  if startsWith line c!"GO" then st else release (bufferLine st line)

/-- `_get_statements` (dt/io.py:131-190) on the lines of the file.  The `except` of line 183 only catches errors of reading
(bytes that cannot be decoded): then these are the lines before the error, and what is in the buffer is dropped as at the end of a file. -/
def getStatements (lines : List Str) : List Str :=
  (lines.foldl readLine {}).statements.map (subRun ' ')

/-! ## Types -/

/-- The NUMBER case of `_convert_type` (dt/io.py:377-394). -/
def convertNumber (t : Str) : Except PyErr Str :=
  if hasSub c!")" t then
    let numsize := pySlice t (pyFind c!"(" t + 1) (pyFind c!")" t)
    if hasSub c!"," numsize then
      match splitC ',' numsize with
      | [first, second] =>
        if strip second = c!"0" then
          if first = c!"*" then .ok c!"BIGINT"
          else match pyInt first with
            | none => .error .value
            | some n => if n > 9 then .ok c!"BIGINT" else .ok c!"INT"
        else .ok c!"DOUBLE"
      | _ => .error .value
    else .ok c!"INT"
  else .ok c!"BIGINT"

/-- The text `_convert_type` looks at (dt/io.py:354-361). -/
def typeText (dataType : Str) : Str :=
  lower (if hasSub c!")" dataType then pySlice dataType 0 (pyFind c!")" dataType + 1)
    else if hasSub c!" " dataType then pySlice dataType 0 (pyFind c!" " dataType + 1)
    else dataType)

/-- `_convert_type` (dt/io.py:345-427). -/
def convertType (dataType : Str) : Except PyErr Str :=
  let t := typeText dataType
  if hasSub c!"int" t then .ok c!"BIGINT"
  else if hasSub c!"rowversion" t then .ok c!"INT"
  else if hasSub c!"uniqueidentifier" t then .ok c!"VARCHAR(0)"
  else if hasSub c!"sysname" t then .ok c!"VARCHAR(0)"
  else if hasSub c!"serial" t then .ok c!"INT"
  else if hasSub c!"bit" t then .ok c!"BOOL"
  else if hasSub c!"blob" t || hasSub c!"binary" t then .ok c!"UNKNOWN"
  else if hasSub c!"number" t then convertNumber t
  else if hasSub c!"decimal" t || hasSub c!"numeric" t || hasSub c!"float" t || hasSub c!"double" t || hasSub c!"money" t ||
      hasSub c!"real" t then .ok c!"DOUBLE"
  else if hasSub c!"datetime" t then .ok c!"DATETIME"
  else if hasSub c!"timestamp" t then .ok c!"DATETIME"
  else if hasSub c!"time" t then .ok c!"TIME"
  else if hasSub c!"date" t then .ok c!"DATE"
  else if hasSub c!"bool" t then .ok c!"BOOL"
  else if hasSub c!"text" t then .ok c!"VARCHAR(0)"
  else if hasSub c!"long" t then .ok c!"VARCHAR(0)"
  else if hasSub c!"enum" t then .ok c!"VARCHAR(0)"
  else if hasSub c!"xml" t then .ok c!"VARCHAR(0)"
  else if hasSub c!"char" t then .ok c!"VARCHAR(0)"
  else .ok c!"UNKNOWN"

/-! ## CREATE TABLE -/

/-- `_strip_quotes` (dt/io.py:246-255). -/
def stripQuotes (s : Str) : Str := replace c!"\"" [] (replace c!"`" [] (replace c!"'" [] s))

/-- `_get_table_name` (dt/io.py:226-244). -/
def getTableName (stmt : Str) : Str :=
  let tn := rstrip (pySlice stmt 0 (pyFind c!"(" stmt))
  let len := if hasSub c!"or replace" (lower tn) then c!"create or replace table ".length else c!"create table ".length
  let tn := tn.drop len
  stripQuotes ((splitC '.' tn).getLastD [])

/-- The loop that cuts the column list at commas outside parentheses (dt/io.py:273-294); the arguments are `open_paren` and
`field_statement`. -/
def rawFieldsGo : Bool → Str → Str → List Str
  | _, cur, [] => if cur ≠ [] then [strip cur] else []
  | true, cur, c :: t => rawFieldsGo (c ≠ ')') (cur ++ [c]) t
  | false, cur, c :: t =>
    if c = '(' then rawFieldsGo true (cur ++ [c]) t
    else if c = ',' then strip cur :: rawFieldsGo false [] t
    else rawFieldsGo false (cur ++ [c]) t

/-- The raw fields of a CREATE TABLE (dt/io.py:268-294). -/
def rawFields (stmt : Str) : List Str :=
  rawFieldsGo false [] (strip (pySlice stmt (pyFind c!"(" stmt + 1) (pyRfind c!")" stmt)))

/-- The end of a type without parentheses (dt/io.py:322-334). -/
def typeEnd (rf : Str) (start : Nat) : Int :=
  let space := pyFindFrom c!" " rf start
  let comma := pyFindFrom c!"," rf start
  if space = -1 then (if comma = -1 then (rf.length : Int) else comma)
  else if comma = -1 then space
  else min space comma

/-- The column a raw field declares (dt/io.py:306-341). -/
def fieldColumn (rf : Str) : Except PyErr Column :=
  match rf with
  | [] => .error .index
  | c :: _ =>
    let hadQuote : Bool := c == '"' || c == '\'' || c == '`'
    let name := if hadQuote then pySlice rf 1 (pyFindFrom [c] rf 1) else pySlice rf 0 (pyFind c!" " rf)
    let start := name.length + (if hadQuote then 3 else 1)
    let close := pyFindFrom c!")" (lower rf) start
    let dataType := if close > 0 then pySlice rf start (close + 1) else pySlice rf start (typeEnd rf start)
    match convertType dataType with
    | .error e => .error e
    | .ok ty => mkColumn (some name) (some ty)

/-- The primary key columns of a key field (dt/io.py:302). -/
def fieldKeys (rf : Str) : List Str :=
  splitC ',' (replace c!"\"" [] (replace c!" " [] (partitionS c!")" (partitionS c!"(" rf).2.2).1))

/-- One round of the loop over the raw fields (dt/io.py:296-341): the table and the list `columns`. -/
def addField (acc : Table × List Column) (rf : Str) : Except PyErr (Table × List Column) :=
  let rfl' := lower rf
  if hasSub c!"key " rfl' then
    if hasSub c!"primary" rfl' then .ok ({ acc.1 with pk := fieldKeys rf }, acc.2) else .ok acc
  else
    match fieldColumn rf with
    | .error e => .error e
    | .ok c => .ok (acc.1, acc.2 ++ [c])

/-- `_add_columns` (dt/io.py:257-343). -/
def addColumnsOf (t : Table) (stmt : Str) : Except PyErr Table := do
  let r ← (rawFields stmt).foldlM addField (t, [])
  .ok (r.1.addColumns r.2)

/-- `_clean_name` (dt/io.py:443-459). -/
def cleanName (n : Str) : Str :=
  replace c!"]" [] (replace c!"[" [] (replace c!"'" [] (replace c!"\"" [] (replace c!"\t" [] (strip ((splitC '.' n).getLastD []))))))

/-- `[_clean_name(key) for key in keys.split(",")]` (dt/io.py:476, 553, 590, 592, 602, 605). -/
def cleanNames (s : Str) : List Str := (splitC ',' s).map cleanName

/-- The pattern of `_add_hashkey` (dt/io.py:471). -/
def patHash : List Tok :=
  lit c!"create table" ++ dots ++ lit c!"partition by hash" ++ dots ++ lit c!"(" ++ group ++ lit c!") key" ++ dots ++ lit c!"(" ++
  group ++ lit c!")"

/-- `_add_hashkey` (dt/io.py:461-479): every exception is caught, the table is then unchanged. -/
def addHashKey (t : Table) (stmt : Str) : Table :=
  match reSearch patHash stmt with
  | some [n, keys] =>
    match pyInt n with
    | some n => { t with shard := some { keys := cleanNames keys, number := .int n } }
    | none => t
  | _ => t

/-- `_parse_create_table` (dt/io.py:208-224). -/
def parseCreateTable (schema : Str) (db : Database) (stmt : Str) : Except PyErr Database := do
  let stmt := replace c!"]" c!"\"" (replace c!"[" c!"\"" stmt)
  let t ← mkTable (some (getTableName stmt)) (some schema) none none
  let t ← addColumnsOf t stmt
  let t := if hasSub c!"partition by hash" (lower stmt) then addHashKey t stmt else t
  .ok (db.addTable t)

/-! ## ALTER TABLE -/

/-- `_extract_name` (dt/io.py:494-510); `none` is the `IndexError` on the empty text. -/
def extractName : Str → Option Str
  | [] => none
  | '"' :: t => some ((splitC '"' t).headD [])
  | '\'' :: t => some ((splitC '\'' t).headD [])
  | s => some ((splitC ' ' s).headD [])

/-- `_extract_table_name` (dt/io.py:482-492). -/
def extractTableName (s : Str) : Option Str := (extractName ((splitC '.' s).getLastD [])).map cleanName

/-- dt/io.py:545. -/
def patPK : List Tok :=
  lit c!"alter table " ++ group ++ lit c!" " ++ dots ++ lit c!"primary key" ++ dots ++ lit c!"(" ++ group ++ lit c!")"

/-- dt/io.py:578. -/
def patAdd : List Tok := lit c!"alter table " ++ group ++ lit c!" add" ++ dots

/-- dt/io.py:586. -/
def patFK : List Tok :=
  group ++ lit c!" foreign key" ++ blanks ++ lit c!"(" ++ group ++ lit c!") references" ++ blanks ++ group ++ lit c!" (" ++ group ++
  lit c!")"

/-- dt/io.py:594. -/
def patFKNoName : List Tok :=
  lit c!"foreign key" ++ blanks ++ lit c!"(" ++ group ++ lit c!") references" ++ blanks ++ group ++ lit c!" (" ++ group ++
  lit c!")"

/-- dt/io.py:628. -/
def patRel : List Tok :=
  lit c!"alter table " ++ group ++ lit c!" add relationship " ++ group ++ lit c!" with " ++ group ++ lit c!" as " ++ group

/-- dt/io.py:636. -/
def patRelNoName : List Tok :=
  lit c!"alter table " ++ group ++ lit c!" add relationship with " ++ group ++ lit c!" as " ++ group

/-- `_add_primary_key` (dt/io.py:534-561). -/
def addPrimaryKey (db : Database) (stmt : Str) : Database :=
  match reMatch patPK stmt with
  | some [tn, keys] =>
    match extractTableName tn with
    | some tn => db.updateTable tn (fun t => { t with pk := cleanNames keys })
    | none => db
  | _ => db

/-- What the body of the loop of `_add_foreign_key` reads from a constraint (dt/io.py:582-605): name, from columns, to table, to columns;
`none` if it gives up, by `return` or by an exception. -/
def readConstraint (c : Str) : Option (Option Str × List Str × Str × List Str) :=
  let c := strip (stripChars (· == ';') (stripChars (· == ',') (strip c)))
  match reMatch patFK c with
  | some [n, fk, tt, tk] => (extractTableName tt).map (fun tt => (some (cleanName n), cleanNames fk, tt, cleanNames tk))
  | _ =>
    match reMatch patFKNoName c with
    | some [fk, tt, tk] => (extractTableName tt).map (fun tt => (none, cleanNames fk, tt, cleanNames tk))
    | _ => none

/-- `table.add_foreign_key` in the loop (dt/io.py:607-613); `none` is the `ValueError` of the `ForeignKey` constructor. -/
def storeForeignKey (db : Database) (tn : Str) (k : Option Str × List Str × Str × List Str) : Option Database :=
  match db.getTable tn with
  | none => some db
  | some t =>
    match t.addForeignKey (some (.many k.2.1)) (some k.2.2.1) (some (.many k.2.2.2)) k.1 with
    | .ok t' => some (db.updateTable tn (fun _ => t'))
    | .error _ => none

/-- The loop of `_add_foreign_key` (dt/io.py:581-613): it ends at the first constraint it cannot use. -/
def addConstraints (tn : Str) : Database → List Str → Database
  | db, [] => db
  | db, c :: cs =>
    match readConstraint c with
    | none => db
    | some k =>
      match storeForeignKey db tn k with
      | none => db
      | some db => addConstraints tn db cs

/-- `_add_foreign_key` (dt/io.py:563-615). -/
def addForeignKeyStmt (db : Database) (stmt : Str) : Database :=
  match reMatch patAdd stmt with
  | some [tn] => addConstraints (cleanName tn) db (splitCi c!"constraint" stmt).tail
  | _ => db

/-- What `_add_generic_relationship` reads (dt/io.py:627-645): table, name, to table, condition. -/
def readRelationship (stmt : Str) : Option (Str × Option Str × Str × Str) :=
  match reMatch patRel stmt with
  | some [tn, n, tt, c] =>
    match extractTableName tn with
    | none => none
    | some tn => (extractTableName tt).map (fun tt => (tn, some (cleanName n), tt, c))
  | _ =>
    match reMatch patRelNoName stmt with
    | some [tn, tt, c] =>
      match extractTableName tn with
      | none => none
      | some tn => (extractTableName tt).map (fun tt => (tn, none, tt, c))
    | _ => none

/-- `_add_generic_relationship` (dt/io.py:617-653). -/
def addGenericRelationship (db : Database) (stmt : Str) : Database :=
  match readRelationship stmt with
  | none => db
  | some (tn, n, tt, c) =>
    match db.getTable tn with
    | none => db
    | some t =>
      match t.addRelationship (some tt) n (some c) with
      | .ok t' => db.updateTable tn (fun _ => t')
      | .error _ => db

/-! ## The parser -/

/-- One round of the loop of `parse_ddl` (dt/io.py:103-127).  `_add_shard_key` (dt/io.py:655-671) changes nothing. -/
def parseStatement (schema : Str) (db : Database) (stmt : Str) : Except PyErr Database :=
  let l := lower stmt
  if hasSub c!"create database" l then .ok db
  else if hasSub c!"create table" l || hasSub c!"create or replace table" l then parseCreateTable schema db stmt
  else if hasSub c!"alter table" l then
    if hasSub c!"primary key" l then .ok (addPrimaryKey db stmt)
    else if hasSub c!"foreign" l then .ok (addForeignKeyStmt db stmt)
    else if hasSub c!"relationship" l then .ok (addGenericRelationship db stmt)
    else .ok db
  else .ok db

/-- The loop of `parse_ddl` (dt/io.py:102-127): the database so far and the exception that ended it, if any. -/
def parseStatements (schema : Str) : Database → List Str → Database × Option PyErr
  | db, [] => (db, none)
  | db, s :: l =>
    match parseStatement schema db s with
    | .ok db => parseStatements schema db l
    | .error e => (db, some e)

/-- Instance state of `DDLParser` (dt/io.py:68-82). -/
structure ParserSt where
  databaseName : Str
  schemaName : Str := defaultSchema
  database : Option Database := none
deriving DecidableEq, Repr

/-- What is known about a file: its text, that `open` fails on it (a directory, no permission), or that it has bytes that cannot be decoded.  Python decodes a file in pieces as the
lines are asked for, so what is read before the error depends on the sizes of the pieces; it is a parameter, like the message of the exception. -/
inductive FileState where
  | text (content : Str)
  | unreadable
  /-- Reading the lines gives those of `before` and then raises `UnicodeDecodeError`, a `ValueError`. -/
  | undecodable (before message : Str)
deriving DecidableEq, Repr

/-- A file system: the files that exist. -/
abbrev FS := Str → Option FileState

/-- `DDLParser.parse_ddl` (dt/io.py:84-129): the parser afterwards and what is returned or raised.  Without a file name,
`open(sys.stdin, "r")` (dt/io.py:139) raises `TypeError`, because `sys.stdin` is not a path. -/
def parseDdl (fs : FS) (p : ParserSt) (filename : Option Str) : ParserSt × Except PyErr (Option Database) :=
  match filename with
  | none | some [] => ({ p with database := some (Database.empty p.databaseName) }, .error .type)
  | some f =>
    match fs f with
    | none => (p, .ok none)
    | some .unreadable => ({ p with database := some (Database.empty p.databaseName) }, .error .unmodelled)
    | some (.text content) =>
      match parseStatements p.schemaName (Database.empty p.databaseName) (getStatements (fileLines content)) with
      | (db, none) => ({ p with database := some db }, .ok (some db))
      | (db, some e) => ({ p with database := some db }, .error e)
    | some (.undecodable before _) =>
      match parseStatements p.schemaName (Database.empty p.databaseName) (getStatements (fileLines before)) with
      | (db, none) => ({ p with database := some db }, .ok (some db))
      | (db, some e) => ({ p with database := some db }, .error e)

end Verif
