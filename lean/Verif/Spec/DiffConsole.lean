import Verif.DiffConsole
import Verif.Spec.Cli
/-
Specification of what ddldiff says on the terminal.
-/

namespace Verif.Spec
open Verif

/-- The text that reaches the standard output; messages of the parser and of the argument check go to the standard error stream.  What `print(args)` writes is left out. -/
inductive Printed : List Said → Str → Prop where
  | nil : Printed [] []
  | line (s : Str) (l : List Said) (t : Str) : Printed l t → Printed (.out s :: l) (s ++ c!"\n" ++ t)
  | script (s : Str) (l : List Said) (t : Str) : Printed l t → Printed (.script s :: l) (s ++ t)
  | error (s : Str) (l : List Said) (t : Str) : Printed l t → Printed (.err s :: l) t
  | parser (r : Report) (l : List Said) (t : Str) : Printed l t → Printed (.parser r :: l) t
  | args (l : List Said) (t : Str) : Printed l t → Printed (.args :: l) t

/-- What the argument check of ddldiff says. -/
inductive DiffRefused (d : Disk) (a : DiffArgs) : List Str → Prop where
  | missing : ¬ (Given a.ddl1 ∧ Given a.ddl2) → DiffRefused d a [c!"--ddl1 and --ddl2 must be provided"]
  | first (f g : Str) : a.ddl1 = some f → f ≠ [] → a.ddl2 = some g → g ≠ [] → ¬ OnDisk d f → OnDisk d g → DiffRefused d a [c!"file " ++ f ++ c!" doesn't exist"]
  | second (f g : Str) : a.ddl1 = some f → f ≠ [] → a.ddl2 = some g → g ≠ [] → OnDisk d f → ¬ OnDisk d g → DiffRefused d a [c!"file " ++ g ++ c!" doesn't exist"]
  | both (f g : Str) : a.ddl1 = some f → f ≠ [] → a.ddl2 = some g → g ≠ [] → ¬ OnDisk d f → ¬ OnDisk d g →
      DiffRefused d a [c!"file " ++ f ++ c!" doesn't exist", c!"file " ++ g ++ c!" doesn't exist"]

end Verif.Spec
