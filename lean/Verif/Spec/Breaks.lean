import Verif.Spec.Config
import Verif.Spec.Types
import Verif.Spec.CreateTable
import Mathlib.Data.List.Forall2
import Verif.Model
/-
Specification of the statements that end the reading of a DDL file with an exception.
-/

namespace Verif.Spec
open Verif

/-- A statement that is taken for one that creates a table. -/
def CreatesTable (s : Str) : Prop :=
  ¬ c!"create database" <:+: s.map small ∧ (c!"create table" <:+: s.map small ∨ c!"create or replace table" <:+: s.map small)

/-- Brackets count as double quotes. -/
def asQuotes (s : Str) : Str := s.map (fun c => if c = '[' ∨ c = ']' then '"' else c)

/-- What stands before the list: everything up to the first opening parenthesis, nothing if there is none. -/
def Opening (t a : Str) : Prop := (∃ x, a = x ++ ['('] ∧ '(' ∉ x ∧ a <+: t) ∨ ('(' ∉ t ∧ a = [])

/-- What stands after the list: everything from the last closing parenthesis on, the last character if there is none. -/
def Closing (t b : Str) : Prop := (∃ x, b = ')' :: x ∧ ')' ∉ x ∧ b <:+ t) ∨ (')' ∉ t ∧ b <:+ t ∧ b.length = 1)

/-- The list of a statement; it is empty if what stands before and after it overlap. -/
def Inner (t x : Str) : Prop := ∃ a b, Opening t a ∧ Closing t b ∧ (t = a ++ x ++ b ∨ (t.length < a.length + b.length ∧ x = []))

/-- Text without commas outside parentheses; an opening parenthesis lasts until the next closing one. -/
inductive FieldPiece : Str → Prop where
  | nil : FieldPiece []
  | char {c s} : c ≠ '(' → c ≠ ',' → FieldPiece s → FieldPiece (c :: s)
  | group {g s} : ')' ∉ g → FieldPiece s → FieldPiece ('(' :: g ++ ')' :: s)

/-- A list and its pieces between commas outside parentheses.  Nothing after the last comma is no piece. -/
inductive FieldCut : Str → List Str → Prop where
  | nothing : FieldCut [] []
  | last {s} : FieldPiece s → s ≠ [] → FieldCut s [s]
  | unclosed {s g} : FieldPiece s → ')' ∉ g → FieldCut (s ++ '(' :: g) [s ++ '(' :: g]
  | more {s r l} : FieldPiece s → FieldCut r l → FieldCut (s ++ ',' :: r) (s :: l)

/-- The fields of a statement, without white space around them. -/
def FieldsOf (t : Str) (l : List Str) : Prop := ∃ x y parts, Inner t x ∧ Padded x y ∧ FieldCut y parts ∧ List.Forall₂ Padded parts l

/-- The text after the name in a field: after the first blank, or after the quoted name and one more character. -/
inductive TypePart : Str → Str → Prop where
  | plain {n r} : (∀ c, n.head? = some c → c ∉ c!"\"'`") → ' ' ∉ n → TypePart (n ++ ' ' :: r) r
  | quoted {q n c r} : q ∈ c!"\"'`" → q ∉ n → TypePart (q :: n ++ q :: c :: r) r

/-- A field that cannot be read, and the exception. -/
inductive FieldFault : Str → PyErr → Prop where
  | empty : FieldFault [] .index
  | number {f a b} : ¬ c!"key " <:+: f.map small → TypePart f (a ++ ')' :: b) → ')' ∉ a → MalformedNumber (a ++ [')']) → FieldFault f .value

/-- A statement that ends the reading: a CREATE TABLE with such a field; the first one gives the exception. -/
def Breaks (s : Str) (e : PyErr) : Prop :=
  CreatesTable s ∧ ∃ pre f post, FieldsOf (asQuotes s) (pre ++ f :: post) ∧ (∀ f' ∈ pre, ∀ e', ¬ FieldFault f' e') ∧ FieldFault f e

/-- A sequence of statements in which the first one that ends the reading does so with this exception. -/
def EndsIn (l : List Str) (e : PyErr) : Prop := ∃ pre s post, l = pre ++ s :: post ∧ (∀ s' ∈ pre, ∀ e', ¬ Breaks s' e') ∧ Breaks s e

end Verif.Spec
