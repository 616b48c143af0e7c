import Verif.Spec.Alter
import Verif.Spec.Review
/-
Specification of CREATE TABLE statements with primary keys, other keys and a PARTITION BY HASH clause.
-/

namespace Verif.Spec
open Verif

/-- A text that neither begins nor ends with white space. -/
structure Snug (s : Str) : Prop where
  first : ∀ c, s.head? = some c → isSpace c = false
  last : ∀ c, s.getLast? = some c → isSpace c = false

/-- The text lists the names: blanks around them, commas in between, perhaps double quotes or brackets. -/
def KeyNames (text : Str) (ns : List Str) : Prop :=
  ∃ ps : List Str, ps ≠ [] ∧ text = List.intercalate [','] ps ∧ List.Forall₂ (fun p n => ∃ a q b, p = a ++ (Quote.wrap q n ++ b) ∧ (∀ c ∈ a, c = ' ') ∧ (∀ c ∈ b, c = ' ') ∧
    (q = .plain ∨ q = .double ∨ q = .bracket) ∧ ∀ c ∈ n, c ∉ c!" \",)[]") ps ns

/-- What can stand between the commas of a CREATE TABLE: a column, a primary key, or another key (an index, say). -/
inductive Field where
  | column (d : Decl)
  | primary (text : Str) (cols : List Str)
  | other (text : Str)
deriving DecidableEq, Repr

/-- The field as it stands in the statement. -/
def Field.text : Field → Str
  | .column d => d.text
  | .primary text _ => text
  | .other text => text

/-- The text of a primary key: the words PRIMARY and KEY, the latter with a blank after it, and a list of names in the first parentheses. -/
structure PrimaryText (text : Str) (cols : List Str) : Prop where
  shape : ∃ pre f post, text = pre ++ '(' :: (f ++ ')' :: post) ∧ '(' ∉ pre ∧ ',' ∉ pre ∧ KeyNames f cols ∧ Enclosed post
  snug : Snug text
  key : ¬ Lacks c!"key " text
  primary : ¬ Lacks c!"primary" text

/-- The text of another key. -/
structure OtherText (text : Str) : Prop where
  enclosed : Enclosed text
  snug : Snug text
  key : ¬ Lacks c!"key " text
  notPrimary : Lacks c!"primary" text

/-- A field of the kind C79 is about. -/
def FieldOk : Field → Prop
  | .column d => DeclOk d
  | .primary text cols => PrimaryText text cols
  | .other text => OtherText text

/-- The columns among the fields. -/
def columnsOf (fs : List Field) : List Decl := fs.filterMap (fun f => match f with | .column d => some d | _ => none)

/-- The primary key: the last one given. -/
def primaryOf (fs : List Field) : List Str := fs.foldl (fun k f => match f with | .primary _ cols => cols | _ => k) []

/-- `… PARTITION BY HASH (number) KEY (columns) …`, after the field list. -/
structure PartitionText (tail : Str) (number : Int) (keys : List Str) : Prop where
  shape : ∃ w kw a n kw' gap f rest, tail = w ++ (kw ++ (a ++ '(' :: (n ++ (kw' ++ (gap ++ '(' :: (f ++ ')' :: rest)))))) ∧
    kw.map small = c!"partition by hash" ∧ IntValue n number ∧ kw'.map small = c!") key" ∧ Columns f keys ∧
    (∀ c ∈ w ++ a ++ gap, c ∉ c!"(),") ∧ (∀ c ∈ n ++ f ++ rest, c ∉ c!"()") ∧
    Lacks c!") key" (')' :: rest) ∧ Lacks c!"partition by hash" (kw ++ (a ++ '(' :: (n ++ (kw' ++ (gap ++ '(' :: (f ++ ')' :: rest)))))).tail

/-- The words that tell types apart. -/
def typeWords : List Str :=
  [c!"int", c!"rowversion", c!"uniqueidentifier", c!"sysname", c!"serial", c!"bit", c!"blob", c!"binary", c!"number", c!"decimal", c!"numeric", c!"float", c!"double", c!"money",
   c!"real", c!"datetime", c!"timestamp", c!"time", c!"date", c!"bool", c!"text", c!"long", c!"enum", c!"xml", c!"char"]

/-- The last field can stand before such a clause, which the parser reads as a part of it: any key; a column only if no blank follows KEY in the clause, and then either its type
is given with arguments, or it is not NUMBER and no type is named after it. -/
inductive LastOk (tail : Str) : Field → Prop where
  | primary {text cols} : LastOk tail (.primary text cols)
  | other {text} : Lacks c!"primary" tail → LastOk tail (.other text)
  | sized {d w args} : Lacks c!"key " tail → Lacks c!"key " (d.text ++ [' ']) → d.type = w ++ c!"(" ++ args ++ c!")" → LastOk tail (.column d)
  | word {d} : Lacks c!"key " tail → Lacks c!"key " (d.text ++ [' ']) → ')' ∉ d.type → (∀ v ∈ typeWords, Lacks v d.rest) → Lacks c!"number" d.type → LastOk tail (.column d)

end Verif.Spec
