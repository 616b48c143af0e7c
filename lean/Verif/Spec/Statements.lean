import Verif.Spec.Lines
import Verif.Spec.Config
import Mathlib.Data.List.Forall2
/-
Specification of the statements of a DDL file: its lines, what each of them adds to the text, and the parts of the text between semicolons.
-/

namespace Verif.Spec
open Verif

/-- The lines of a text.  A line ends with a line feed, a carriage return, or both in this order; the last one may have no end. -/
inductive TextLines : Str → List Str → Prop where
  | nil : TextLines [] []
  | last {l} : l ≠ [] → '\n' ∉ l → '\r' ∉ l → TextLines l [l]
  | lf {l r ls} : '\n' ∉ l → '\r' ∉ l → TextLines r ls → TextLines (l ++ '\n' :: r) (l :: ls)
  | crlf {l r ls} : '\n' ∉ l → '\r' ∉ l → TextLines r ls → TextLines (l ++ '\r' :: '\n' :: r) (l :: ls)
  | cr {l r ls} : '\n' ∉ l → '\r' ∉ l → r.head? ≠ some '\n' → TextLines r ls → TextLines (l ++ '\r' :: r) (l :: ls)

/-- The code of a line: the line without white space around it, up to the first two dashes. -/
def LineCode (l c : Str) : Prop := ∃ m, Padded l m ∧ ((¬ c!"--" <:+: m ∧ c = m) ∨ ∃ b, m = c ++ c!"--" ++ b ∧ ¬ c!"--" <:+: c ++ c!"-")

/-- What the code of a line adds to the text; the two truth values say whether a block comment is open before and after the line.
Nothing but a line without `/*` gets a blank in front, and only the first comment of a line counts. -/
inductive LineAdds : Bool → Str → Bool → Str → Prop where
  | plain {c} : ¬ c!"/*" <:+: c → LineAdds false c false (' ' :: c)
  | whole {a b c} : ¬ c!"/*" <:+: a → ¬ c!"*/" <:+: b → LineAdds false (a ++ c!"/*" ++ (b ++ c!"*/" ++ c)) false (a ++ c)
  | opens {a b} : ¬ c!"/*" <:+: a → ¬ c!"*/" <:+: b → LineAdds false (a ++ c!"/*" ++ b) true a
  | inside {c} : ¬ c!"*/" <:+: c → LineAdds true c true []
  | closes {a b} : ¬ c!"*/" <:+: a → LineAdds true (a ++ c!"*/" ++ b) false b

/-- What lines add to the text, one entry for each line that does not begin with GO.  The truth values say whether a block comment is
open before the first line and after the last one. -/
inductive Contributes : Bool → List Str → Bool → List Str → Prop where
  | nil {o} : Contributes o [] o []
  | batch {o o' l c ls ts} : LineCode l c → c!"GO" <+: c → Contributes o ls o' ts → Contributes o (l :: ls) o' ts
  | line {o m o' l c t ls ts} : LineCode l c → ¬ c!"GO" <+: c → LineAdds o c m t → Contributes m ls o' ts → Contributes o (l :: ls) o' (t :: ts)

/-- The number of statements that are found too late: the largest excess of semicolons over lines at the end of the file. -/
def Late (ts : List Str) (k : Nat) : Prop := (∀ b, b <:+ ts → semicolons b ≤ b.length + k) ∧ ∃ b, b <:+ ts ∧ semicolons b = b.length + k

/-- A statement: the text without white space around it, with single blanks between words. -/
def StatementOf (p s : Str) : Prop := ∃ x, Padded p x ∧ s = tidy x

/-- The statements of a file: the texts before semicolons, but for the last `k` of them. -/
def FileStatements (content : Str) (ss : List Str) : Prop :=
  ∃ ls o ts k, TextLines content ls ∧ Contributes false ls o ts ∧ Late ts k ∧
    List.Forall₂ StatementOf ((terminated ts.flatten).take (semicolons ts - k)) ss

/-- Code before and code after a place in the file that nothing keeps apart: neither white space nor a semicolon. -/
def Glued (before after : List Str) : Prop := ∃ a x y b, before.flatten = a ++ [x] ∧ after.flatten = y :: b ∧
  isSpace x = false ∧ x ≠ ';' ∧ isSpace y = false ∧ y ≠ ';'

end Verif.Spec
