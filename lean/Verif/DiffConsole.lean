import Verif.Console
import Verif.Listing
/-
What ddldiff (ddltools/ddldiff.py) writes to the terminal.  That exceptions and the text on the standard output are those of `diffMain` is proved in Props/DiffConsole.lean.
-/

namespace Verif

/-- The messages of `valid_args` (ddltools/ddldiff.py:117-139). -/
def diffMistakes (d : Disk) (a : DiffArgs) : List Said :=
  if !given a.ddl1 || !given a.ddl2 then [.err c!"--ddl1 and --ddl2 must be provided"]
  else
    (if (d (a.ddl1.getD [])).isSome then [] else [.err (c!"file " ++ a.ddl1.getD [] ++ c!" doesn't exist")]) ++
    (if (d (a.ddl2.getD [])).isSome then [] else [.err (c!"file " ++ a.ddl2.getD [] ++ c!" doesn't exist")])

/-- Saying something and then doing something else, unless there was an exception. -/
def andThen (x : List Said × Option PyErr) (y : List Said × Option PyErr) : List Said × Option PyErr :=
  match x with
  | (l, some e) => (l, some e)
  | (l, none) => (l ++ y.1, y.2)

/-- `write_alters` to the standard output (dt/diff.py:890-902). -/
def altersTalk (floatRepr : Rat → Str) (l : List Diff) : List Said × Option PyErr :=
  let r := writeAll (l.map (Diff.getAlter floatRepr))
  ([.script r.1], r.2)

/-- Printing the differences (ddltools/ddldiff.py:64-71). -/
def listTalk (l : List Diff) : List Said := l.map (fun x => .out (c!"\t" ++ x.repr))

/-- The part of `main` after both files were read (ddltools/ddldiff.py:51-71). -/
def diffsTalk (floatRepr : Rat → Str) (a : DiffArgs) (db1 db2 : Database) : List Said × Option PyErr :=
  let diffs := compareDatabases (fun _ => false) db1 db2
  andThen (if a.alter1 then andThen ([.out c!"-- changes needed for first schema to match the second"], none) (altersTalk floatRepr diffs.1) else ([], none))
    (andThen (if a.alter2 then andThen ([.out c!"-- changes needed for second schema to match the first"], none) (altersTalk floatRepr diffs.2) else ([], none))
      (if !a.alter1 && !a.alter2 then
        (.out c!"Database differences for DB 1:" :: listTalk diffs.1 ++ .out c!"Database differences for DB 2:" :: listTalk diffs.2, none)
      else ([], none)))

/-- `main` (ddltools/ddldiff.py:39-71). -/
def diffTalk (floatRepr : Rat → Str) (d : Disk) (a : DiffArgs) : List Said × Option PyErr :=
  if !validDiff d a then (diffMistakes d a, none)
  else
    let said1 := .args :: parserSays d.fs (some a.database) a.schema a.ddl1
    match parseFor d.fs (some a.database) a.schema a.ddl1 with
    | .error e => (said1, some e)
    | .ok db1 =>
      let said2 := said1 ++ parserSays d.fs (some a.database) a.schema a.ddl2
      match parseFor d.fs (some a.database) a.schema a.ddl2 with
      | .error e => (said2, some e)
      | .ok db2 =>
        match db1, db2 with
        | some db1, some db2 => andThen (said2, none) (diffsTalk floatRepr a db1 db2)
        | _, _ => (said2, some .attribute)

end Verif
