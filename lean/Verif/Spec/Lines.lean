import Verif.Py.Str
/-
Specification for reading a DDL file: lines, white space, comments, texts between semicolons.
-/

namespace Verif.Spec
open Verif

/-- The text of a file with the given lines. -/
def fileOf (ls : List Str) : Str := (ls.map (· ++ ['\n'])).flatten

/-- Lines contain no line ends. -/
def AreLines (ls : List Str) : Prop := ∀ l ∈ ls, '\n' ∉ l ∧ '\r' ∉ l

/-- A blank or a tab. -/
def Gap (c : Char) : Prop := c = ' ' ∨ c = '\t'

/-- Two lines that differ in white space only: a run of blanks and tabs can have any length and mixture, and lines can start and end with any. -/
inductive Respaced : Str → Str → Prop where
  | front {g l} : Gap g → Respaced l (g :: l)
  | back {g l} : Gap g → Respaced l (l ++ [g])
  | inside {a g g' b} : Gap g → Gap g' → Respaced (a ++ g :: b) (a ++ g :: g' :: b)
  | swap {a g g' b} : Gap g → Gap g' → Respaced (a ++ g :: b) (a ++ g' :: b)
  | refl {l} : Respaced l l
  | symm {l m} : Respaced l m → Respaced m l
  | trans {l m n} : Respaced l m → Respaced m n → Respaced l n

/-- A comment put directly behind a line that ends neither with white space nor with a dash (or that has a comment already). -/
inductive Attached : Str → Str → Prop where
  | none {l} : Attached l l
  | added {l c} : c!"--" <:+: l ∨ (∀ x, l.getLast? = some x → isSpace x = false ∧ x ≠ '-') → Attached l (l ++ c!"--" ++ c)

/-- A comment put at the end of a line, after any blanks and tabs; with none, the line does not end with a dash. -/
inductive Commented : Str → Str → Prop where
  | none {l} : Commented l l
  | added {l w c} : (∀ g ∈ w, Gap g) → c!"--" <:+: l ∨ w ≠ [] ∨ l.getLast? ≠ some '-' → Commented l (l ++ w ++ c!"--" ++ c)

/-- A line without code: white space, then maybe a comment. -/
inductive NoCode : Str → Prop where
  | blank {w} : (∀ x ∈ w, isSpace x = true) → NoCode w
  | comment {w c} : (∀ x ∈ w, isSpace x = true) → NoCode (w ++ c!"--" ++ c)

/-- The texts between the characters that satisfy `p`. -/
def pieces (p : Char → Bool) : Str → List Str
  | [] => [[]]
  | c :: t => if p c then [] :: pieces p t else match pieces p t with
    | [] => [[c]]
    | w :: ws => (c :: w) :: ws

/-- The words of a text: what stands between blanks, tabs and line ends. -/
def words (s : Str) : List Str := (pieces (fun c => c == ' ' || c == '\t' || c == '\n') s).filter (fun w => !w.isEmpty)

/-- The words with one blank in between. -/
def tidy (s : Str) : Str := joinS [' '] (words s)

/-- The texts that end with a semicolon. -/
def terminated (s : Str) : List Str := (pieces (· == ';') s).dropLast

/-- No white space but blanks, tabs and line ends. -/
def PlainSpace (s : Str) : Prop := ∀ c ∈ s, isSpace c = true → c = ' ' ∨ c = '\t' ∨ c = '\n'

/-- The line has no comment signs and is no batch separator of SQL Server. -/
structure PlainLine (l : Str) : Prop where
  noLineComment : ¬ c!"--" <:+: l
  noBlockComment : ¬ c!"/*" <:+: l
  noBatch : ¬ c!"GO" <+: l.dropWhile isSpace

/-- White space only. -/
def AllSpace (s : Str) : Prop := ∀ x ∈ s, isSpace x = true

/-- A line of code without a block comment and with at most one semicolon. -/
structure CodeLine (l : Str) : Prop where
  noBlockComment : ¬ c!"/*" <:+: l
  oneSemicolon : (l.filter (· == ';')).length ≤ 1

/-- Lines that hold one block comment and nothing else.  In the last of them no dashes come before the end of the comment, and it
does not begin with GO. -/
inductive BlockComment : List Str → Prop where
  | one {w c w'} : AllSpace w → AllSpace w' → ¬ c!"*/" <:+: c → ¬ c!"--" <:+: c → BlockComment [w ++ c!"/*" ++ c ++ c!"*/" ++ w']
  | many {w c mid d w'} : AllSpace w → AllSpace w' → ¬ c!"*/" <:+: c → (∀ l ∈ mid, ¬ c!"*/" <:+: l) → ¬ c!"*/" <:+: d → ¬ c!"--" <:+: d →
      ¬ c!"GO" <+: d.dropWhile isSpace → BlockComment ((w ++ c!"/*" ++ c) :: mid ++ [d ++ c!"*/" ++ w'])

/-- Lines of code with block comments in between, and the lines of code alone. -/
inductive Uncommented : List Str → List Str → Prop where
  | nil : Uncommented [] []
  | code {l ls ls'} : CodeLine l → Uncommented ls ls' → Uncommented (l :: ls) (l :: ls')
  | comment {b ls ls'} : BlockComment b → Uncommented ls ls' → Uncommented (b ++ ls) ls'

/-- The number of semicolons. -/
def semicolons (ls : List Str) : Nat := (ls.flatten.filter (· == ';')).length

end Verif.Spec
