import Verif.Spec.Case
/-
Specification: which part of a column type matters, and which NUMBER types are malformed.
-/

namespace Verif.Spec
open Verif

/-- `Head d h`: `h` is the part of the type text `d` up to the first closing parenthesis, or, without one, up to the first
blank, or, without one, everything. -/
inductive Head : Str → Str → Prop where
  | paren (a b : Str) : ')' ∉ a → Head (a ++ ')' :: b) (a ++ [')'])
  | blank (a b : Str) : ')' ∉ a ++ ' ' :: b → ' ' ∉ a → Head (a ++ ' ' :: b) (a ++ [' '])
  | whole (d : Str) : ')' ∉ d → ' ' ∉ d → Head d d

/-- One of the digits 0 to 9. -/
def digit (c : Char) : Bool := c!"0123456789".contains c

/-- Groups of digits separated by single underscores. -/
def Digits (s : Str) : Prop :=
  ∃ (g : Str) (rest : List Str), g ≠ [] ∧ (∀ c ∈ g, digit c = true) ∧ (∀ r ∈ rest, r ≠ [] ∧ ∀ c ∈ r, digit c = true) ∧
    s = g ++ rest.flatMap ('_' :: ·)

/-- A text Python's `int` accepts: white space, an optional sign, digits, white space. -/
def IntText (s : Str) : Prop :=
  ∃ pre sign ds post, (∀ c ∈ pre, isSpace c = true) ∧ (∀ c ∈ post, isSpace c = true) ∧
    (sign = [] ∨ sign = ['+'] ∨ sign = ['-']) ∧ Digits ds ∧ s = pre ++ sign ++ ds ++ post

/-- An argument list `NUMBER(...)` cannot have: more than two arguments, or scale 0 with a precision that is neither `*` nor
an integer. -/
inductive BadArgs : Str → Prop where
  | many (a b c : Str) : BadArgs (a ++ ',' :: b ++ ',' :: c)
  | precision (a pre post : Str) : ',' ∉ a → (∀ c ∈ pre, isSpace c = true) → (∀ c ∈ post, isSpace c = true) → a ≠ ['*'] →
      ¬ IntText a → BadArgs (a ++ ',' :: (pre ++ '0' :: post))

/-- The type names that are recognised before NUMBER is. -/
def beforeNumber : List Str :=
  [c!"int", c!"rowversion", c!"uniqueidentifier", c!"sysname", c!"serial", c!"bit", c!"blob", c!"binary"]

/-- A NUMBER type whose argument list, between the first parentheses, is malformed. -/
def MalformedNumber (d : Str) : Prop :=
  ∃ w args, Head d (w ++ args ++ [')']) ∧ ')' ∉ args ∧ ((w = [] ∧ '(' ∉ args) ∨ ∃ v, w = v ++ ['('] ∧ '(' ∉ v) ∧
    c!"number" <:+: (w ++ args).map small ∧ (∀ k ∈ beforeNumber, ¬ k <:+: (w ++ args).map small) ∧ BadArgs (args.map small)

end Verif.Spec
