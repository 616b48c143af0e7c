import Verif.Cli
/-
What ddldiff prints without --alter1 and --alter2: the list of the differences (ddltools/ddldiff.py:64-71).
-/

namespace Verif

/-- `database.database_name`, `schema_name` and `table_name` of a difference (dt/diff.py:94-97), as its constructor sets them. -/
def Diff.place : Diff → Str × Str × Str
  | .tableCreated m t | .tableDropped m t | .pkAdded m t _ | .pkDropped m t | .shardAdded m t _ _ | .shardDropped m t | .fkAdded m t _ | .fkDropped m t _
  | .relAdded m t _ | .relDropped m t _ | .colAdded m t _ | .colDropped m t _ | .colModified m t _ => (m, t.schema, t.name)

/-- `diff_type`, as `%s` prints the number, and its text in `DIFFERENCE_DESCRIPTION` (dt/diff.py:36-72, 138, 170, 199, 228, 261, 292, 322, 353, 384, 415, 450, 486, 521). -/
def Diff.typeText : Diff → Str × Str
  | .tableCreated .. => (c!"0", c!"Table Created")
  | .tableDropped .. => (c!"1", c!"Table Dropped")
  | .colAdded .. => (c!"10", c!"Column Added")
  | .colDropped .. => (c!"11", c!"Column Dropped")
  | .colModified .. => (c!"12", c!"Column Modified")
  | .pkAdded .. => (c!"20", c!"Primary Key Added")
  | .pkDropped .. => (c!"21", c!"Primary Key Dropped")
  | .shardAdded .. => (c!"30", c!"Hash Key Added")
  | .shardDropped .. => (c!"31", c!"Hash Key Dropped")
  | .fkAdded .. => (c!"40", c!"Foreign Key Added")
  | .fkDropped .. => (c!"41", c!"Foreign Key Dropped")
  | .relAdded .. => (c!"50", c!"Generic Relationship Added")
  | .relDropped .. => (c!"51", c!"Generic Relationship Dropped")

/-- `DatabaseDifference.__repr__` (dt/diff.py:102-109). -/
def Diff.repr (x : Diff) : Str :=
  x.place.1 ++ c!"." ++ x.place.2.1 ++ c!"." ++ x.place.2.2 ++ c!" (" ++ x.typeText.1 ++ c!"): " ++ x.typeText.2

/-- The two lists, printed line by line (ddltools/ddldiff.py:65-71). -/
def printLists (l1 l2 : List Diff) : Str :=
  c!"Database differences for DB 1:\n" ++ (l1.map (fun x => c!"\t" ++ x.repr ++ c!"\n")).flatten ++
  (c!"Database differences for DB 2:\n" ++ (l2.map (fun x => c!"\t" ++ x.repr ++ c!"\n")).flatten)

/-- The text ddldiff prints to the standard output, apart from the line `print(args)` writes first (ddltools/ddldiff.py:44). -/
def DiffOut.text : DiffOut → Str
  | .invalid => []
  | .alters s => s
  | .lists l1 l2 => printLists l1 l2

end Verif
