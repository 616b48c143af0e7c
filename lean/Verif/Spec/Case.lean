import Verif.Py.Str
/-
Specification of letter case and camel case, independent of the functions of the model.
-/

namespace Verif.Spec
open Verif

/-- The letters in upper and lower case, side by side. -/
def letters : List (Char × Char) :=
  c!"ABCDEFGHIJKLMNOPQRSTUVWXYZ".zip c!"abcdefghijklmnopqrstuvwxyz"

/-- Lower-case form of a character. -/
def small (c : Char) : Char :=
  match letters.find? (fun p => p.1 = c) with
  | some p => p.2
  | none => c

/-- Upper-case form of a character. -/
def big (c : Char) : Char :=
  match letters.find? (fun p => p.2 = c) with
  | some p => p.1
  | none => c

/-- A word with its first letter in upper case. -/
def capitalised : Str → Str
  | [] => []
  | c :: t => big c :: t

/-- `w1_w2_..._wn`. -/
def snake : List Str → Str
  | [] => []
  | [w] => w
  | w :: v :: ws => w ++ '_' :: snake (v :: ws)

end Verif.Spec
