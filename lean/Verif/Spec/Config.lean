import Verif.Py.Dict
/-
Specification for configuration files.
-/

namespace Verif.Spec
open Verif

/-- White space. -/
def White (s : Str) : Prop := ∀ c ∈ s, isSpace c = true

/-- `s` is `core` with white space around it, and `core` neither begins nor ends with white space. -/
def Padded (s core : Str) : Prop :=
  (∃ a b, White a ∧ White b ∧ s = a ++ core ++ b) ∧ (∀ c t, core = c :: t → isSpace c = false) ∧
    (∀ c t, core = t ++ [c] → isSpace c = false)

/-- The line without its comment. -/
def Code (line code : Str) : Prop := '#' ∉ code ∧ (line = code ∨ ∃ comment, line = code ++ '#' :: comment)

/-- The line sets `k` to `v`: its code is `k = v` with any white space around the two, which are not empty; `v` may contain further
equal signs. -/
def Sets (line k v : Str) : Prop :=
  ∃ code a b, Code line code ∧ code = a ++ '=' :: b ∧ '=' ∉ a ∧ Padded a k ∧ Padded b v ∧ k ≠ [] ∧ v ≠ []

/-- What is said about a line of the file `f`: nothing if it sets a name or has no code; otherwise its code, without the white space around it, is quoted, and whether the name or the
value is missing or there is no equal sign. -/
inductive CfgTold (f line : Str) : List Str → Prop
  | set (k v : Str) : Sets line k v → CfgTold f line []
  | blank (code : Str) : Code line code → White code → CfgTold f line []
  | noName (a b core : Str) : Code line (a ++ '=' :: b) → White a → Padded (a ++ '=' :: b) core → CfgTold f line [f ++ c!": badly formed line '" ++ core ++ c!"'"]
  | noValue (a b core : Str) : Code line (a ++ '=' :: b) → '=' ∉ a → White b → Padded (a ++ '=' :: b) core →
      CfgTold f line [f ++ c!": badly formed line '" ++ core ++ c!"'"]
  | noSign (code core : Str) : Code line code → '=' ∉ code → ¬ White code → Padded code core → CfgTold f line [f ++ c!": ignoring line '" ++ core ++ c!"'"]

/-- The lines of a text whose line ends are `\n`; a last line may lack its end. -/
inductive Lines : Str → List Str → Prop
  | nil : Lines [] []
  | last (l : Str) : l ≠ [] → '\n' ∉ l → Lines l [l]
  | line (l rest : Str) (ls : List Str) : '\n' ∉ l → Lines rest ls → Lines (l ++ '\n' :: rest) (l :: ls)

/-- A name or value a configuration file can carry. -/
def CfgText (s : Str) : Prop := s ≠ [] ∧ Padded s s ∧ '\n' ∉ s ∧ '\r' ∉ s ∧ '#' ∉ s

end Verif.Spec
