import Verif.Model
/-
Model of `ValidationResult` and `DatabaseValidator` (dt/model.py:484-540, 683-908).
-/

namespace Verif

/-- Issue levels (dt/model.py:489-491). -/
inductive Level where
  | info | warning | error
deriving DecidableEq, Repr

/-- Instance state of `ValidationResult` (dt/model.py:493-498). -/
structure ValidationResult where
  isValid : Bool
  issues : List (Str × Level)
deriving DecidableEq, Repr

namespace ValidationResult

/-- `ValidationResult.__init__` (dt/model.py:493-498). -/
def new : ValidationResult := { isValid := true, issues := [] }

/-- `ValidationResult.add_issue` (dt/model.py:500-509). -/
def addIssue (r : ValidationResult) (issue : Str) (level : Level) : ValidationResult :=
  { isValid := false, issues := r.issues ++ [(issue, level)] }

end ValidationResult

/-- One character in Python's `repr` of a string with quotes `q` (used for the lists of dt/model.py:116, 781, 815 and dt/review/review_tests.py:196).
Simplified: characters outside ASCII are kept, also those that Python does not count as printable. -/
def reprChar (q c : Char) : Str :=
  if c == q || c == '\\' then ['\\', c]
  else if c == '\n' then c!"\\n"
  else if c == '\r' then c!"\\r"
  else if c == '\t' then c!"\\t"
  else if decide (c.toNat < 32) || c.toNat == 127 then c!"\\x" ++ (if c.toNat < 16 then c!"0" else []) ++ Nat.toDigits 16 c.toNat
  else [c]

/-- Python's `repr` of a string: single quotes, or double quotes if that saves escapes. -/
def pyRepr (s : Str) : Str :=
  let q := if s.contains '\'' && !s.contains '"' then '"' else '\''
  [q] ++ s.flatMap (reprChar q) ++ [q]

/-- `str` of a Python list of strings as used by `%s` (dt/model.py:781, 815). -/
def reprList (l : List Str) : Str :=
  c!"[" ++ joinS c!", " (l.map pyRepr) ++ c!"]"

/-- `column_type.startswith("VARCHAR")` (dt/model.py:851). -/
def isVarchar (t : Str) : Bool := startsWith t c!"VARCHAR"

/-- `DatabaseValidator._add_validation_issue` (dt/model.py:714-728). -/
def addVI (db : Database) (t : Table) (r : ValidationResult) (issue : Str) (level : Level) : ValidationResult :=
  r.addIssue (c!"database " ++ db.name ++ c!", table " ++ t.name ++ c!":  " ++ issue) level

/-- `DatabaseValidator._validate_column_types` (dt/model.py:730-742). -/
def validateColumnTypes (db : Database) (t : Table) (r : ValidationResult) : ValidationResult :=
  t.cols.vals.foldl (fun r c =>
    if c.type = c!"UNKNOWN" then addVI db t r (c!"column " ++ c.name ++ c!" is of type UNKNOWN.") .warning
    else r) r

/-- `DatabaseValidator._validate_primary_key` (dt/model.py:744-757). -/
def validatePrimaryKey (db : Database) (t : Table) (r : ValidationResult) : ValidationResult :=
  t.pk.foldl (fun r pk =>
    match t.getColumn pk with
    | none => addVI db t r (c!"column " ++ pk ++ c!" in primary key does not exist in the the table.") .error
    | some _ => r) r

/-- Loop body of `_validate_shard_keys` (dt/model.py:770-783). -/
def validateShardCol (db : Database) (t : Table) (r : ValidationResult) (sk : Str) : ValidationResult :=
  let r := match t.getColumn sk with
    | none => addVI db t r (c!"column " ++ sk ++ c!" in shard key does not exist in the the table.") .error
    | some _ => r
  if t.pk ≠ [] ∧ ¬ t.pk.contains sk then
    addVI db t r (c!"column " ++ sk ++ c!" in shard key not in primary key " ++ reprList t.pk) .error
  else r

/-- `DatabaseValidator._validate_shard_keys` (dt/model.py:759-783). -/
def validateShardKeys (db : Database) (t : Table) (r : ValidationResult) : ValidationResult :=
  match t.shard with
  | none => r
  | some sk => sk.keys.foldl (validateShardCol db t) r

/-- Message of the type mismatch issues (dt/model.py:857, 876). -/
def typeMismatch (fk : FK) (colName fromType toType : Str) (toTable : Table) (toCol : Str) : Str :=
  c!"foreign key " ++ fk.name ++ c!" column " ++ colName ++ c!" type " ++ fromType ++
  c!" doesn't match type " ++ toType ++ c!" for " ++ toTable.name ++ c!" column " ++ toCol

/-- Loop body over the key positions in `_validate_foreign_keys` (dt/model.py:819-885).
Line 822 raises `IndexError` when there are fewer to-columns than from-columns. -/
def validateFKCol (db : Database) (t : Table) (fk : FK) (toTable : Table) (r : ValidationResult) (i : Nat) :
    Except PyErr ValidationResult :=
  match fk.fromKeys[i]?, fk.toKeys[i]? with
  | none, _ => .error .index
  | some _, none => .error .index
  | some fromName, some toName =>
    let fromCol := t.getColumn fromName
    let toCol := toTable.getColumn toName
    let r := if ¬ toTable.pk.contains toName then
        addVI db t r (c!"foreign key " ++ fk.name ++ c!" column " ++ toName ++ c!" isn't in primary key for " ++
          toTable.name) .error
      else r
    let r := if fromCol = none then
        addVI db t r (c!"foreign key " ++ fk.name ++ c!" missing from_column " ++ fromName ++ c!" from table " ++
          t.name) .error
      else r
    let r := if toCol = none then
        addVI db t r (c!"foreign key " ++ fk.name ++ c!" missing to_column " ++ toName ++ c!" from table " ++
          t.name) .error
      else r
    match fromCol, toCol with
    | some fc, some tc =>
      if ¬ isVarchar fc.type ∧ fc.type ≠ tc.type then
        .ok (addVI db t r (typeMismatch fk fc.name fc.type tc.type toTable tc.name) .error)
      else if (isVarchar fc.type ∧ ¬ isVarchar tc.type) ∨ (isVarchar tc.type ∧ ¬ isVarchar fc.type) then
        .ok (addVI db t r (typeMismatch fk toName fc.type tc.type toTable tc.name) .error)
      else .ok r
    | _, _ => .ok r

/-- Loop body over the foreign keys (dt/model.py:793-885). -/
def validateFK (db : Database) (t : Table) (r : ValidationResult) (fk : FK) : Except PyErr ValidationResult :=
  match db.getTable fk.toTable with
  | none => .ok (addVI db t r (c!"table " ++ fk.toTable ++ c!" doesn't exist for foreign key " ++ fk.name) .error)
  | some toTable =>
    let r := if fk.fromKeys.length ≠ fk.toKeys.length then
        addVI db t r (c!"FK " ++ fk.name ++ c!" doesn't have the matching column count from and to keys") .error
      else r
    let r := if fk.toKeys.length ≠ toTable.pk.length then
        addVI db t r (c!"FK " ++ fk.name ++ c!" doesn't match number of columns in primary key " ++
          reprList toTable.pk) .error
      else r
    (List.range fk.fromKeys.length).foldlM (validateFKCol db t fk toTable) r

/-- `DatabaseValidator._validate_foreign_keys` (dt/model.py:785-885). -/
def validateForeignKeys (db : Database) (t : Table) (r : ValidationResult) : Except PyErr ValidationResult :=
  t.fks.vals.foldlM (validateFK db t) r

/-- Loop body over the relationships (dt/model.py:894-908). Line 907 prints the missing table as `None`. -/
def validateRel (db : Database) (t : Table) (r : ValidationResult) (rel : Rel) : ValidationResult :=
  let r := if rel.fromTable ≠ t.name then
      addVI db t r (c!"from table " ++ t.name ++ c!" doesn't exist in relationship " ++ rel.name ++ c!".") .error
    else r
  match db.getTable rel.toTable with
  | none => addVI db t r (c!"to table None doesn't exist in relationship " ++ rel.name ++ c!".") .error
  | some _ => r

/-- `DatabaseValidator._validate_relationships` (dt/model.py:887-908). -/
def validateRelationships (db : Database) (t : Table) (r : ValidationResult) : ValidationResult :=
  t.rels.vals.foldl (validateRel db t) r

/-- Loop body of `DatabaseValidator.validate` (dt/model.py:706-710). -/
def validateTable (db : Database) (r : ValidationResult) (t : Table) : Except PyErr ValidationResult := do
  let r := validateColumnTypes db t r
  let r := validatePrimaryKey db t r
  let r := validateShardKeys db t r
  let r ← validateForeignKeys db t r
  .ok (validateRelationships db t r)

/-- `Database.validate` / `DatabaseValidator.validate` (dt/model.py:637-643, 698-712). -/
def Database.validate (db : Database) : Except PyErr ValidationResult :=
  db.iter.foldlM (validateTable db) ValidationResult.new

end Verif
