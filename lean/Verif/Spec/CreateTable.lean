import Verif.Spec.Case
/-
Specification of CREATE TABLE statements.
-/

namespace Verif.Spec
open Verif

/-- How a name is written. -/
inductive Quote where
  | plain | double | single | back | bracket
deriving DecidableEq, Repr

/-- The name as it stands in the statement. -/
def Quote.wrap : Quote → Str → Str
  | .plain, n => n
  | .double, n => c!"\"" ++ n ++ c!"\""
  | .single, n => c!"'" ++ n ++ c!"'"
  | .back, n => c!"`" ++ n ++ c!"`"
  | .bracket, n => c!"[" ++ n ++ c!"]"

/-- The name can be written that way: it does not contain the closing sign; without quotes it is a word and does not start with a
quote. -/
def Quote.fits : Quote → Str → Prop
  | .plain, n => n ≠ [] ∧ (∀ c ∈ n, isSpace c = false) ∧ ∀ c, n.head? = some c → c ∉ c!"\"'`"
  | .double, n => '"' ∉ n
  | .single, n => '\'' ∉ n
  | .back, n => '`' ∉ n
  | .bracket, n => '"' ∉ n

/-- A column declaration: name, type, further text. -/
structure Decl where
  quote : Quote
  name : Str
  type : Str
  rest : Str
deriving DecidableEq, Repr

/-- The declaration as text. -/
def Decl.text (d : Decl) : Str := d.quote.wrap d.name ++ c!" " ++ d.type ++ d.rest

/-- Characters with a meaning of their own in a list of declarations. -/
def structural : List Char := c!"(),[]"

/-- A type: a word, or a word with arguments in parentheses. -/
inductive TypeText : Str → Prop where
  | word {w} : w ≠ [] → (∀ c ∈ w, isSpace c = false ∧ c ∉ structural) → TypeText w
  | sized {w args} : w ≠ [] → (∀ c ∈ w, isSpace c = false ∧ c ∉ structural) → (∀ c ∈ args, c ∉ c!"()[]") →
      TypeText (w ++ c!"(" ++ args ++ c!")")

/-- A declaration of the kind C35 is about. -/
structure DeclOk (d : Decl) : Prop where
  fits : d.quote.fits d.name
  name : ∀ c ∈ d.name, c ∉ structural
  type : TypeText d.type
  rest : d.rest = [] ∨ ∃ r c, d.rest = c!" " ++ r ++ [c] ∧ isSpace c = false
  restPlain : ∀ c ∈ d.rest, c ∉ structural
  noKey : ¬ c!"key " <:+: d.text.map small

/-- Texts separated by commas, with any white space around them. -/
inductive FieldList : List Str → Str → Prop where
  | one {f a b} : (∀ c ∈ a, isSpace c = true) → (∀ c ∈ b, isSpace c = true) → FieldList [f] (a ++ f ++ b)
  | cons {f a b fs s} : (∀ c ∈ a, isSpace c = true) → (∀ c ∈ b, isSpace c = true) → FieldList fs s →
      FieldList (f :: fs) (a ++ f ++ b ++ ',' :: s)

/-- The beginning of a CREATE TABLE up to the name, in any letter case. -/
inductive CreateHead : Str → Prop where
  | create {k} : k.map small = c!"create table " → CreateHead k
  | replace {k} : k.map small = c!"create or replace table " → CreateHead k

/-- A table name as it stands in the statement: anything up to a dot, then the name itself.  The name has no dot, quote, bracket or
parenthesis. -/
structure TablePath (path : Str) (n : Str) : Prop where
  shape : ∃ (pre : Str) (q : Quote), path = pre ++ q.wrap n ∧ (pre = [] ∨ ∃ p, pre = p ++ ['.']) ∧ q.fits n
  name : ∀ c ∈ n, c ∉ c!".\"'`[]()"
  noParen : '(' ∉ path
  noReplace : ¬ c!"or replace" <:+: path.map small

end Verif.Spec
