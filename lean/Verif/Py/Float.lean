import Verif.Py.Str
/-
Python's floats as rational numbers: the nearest number with 53 binary digits, and the divisions the sharding review uses
(dt/review/review_tests.py:245-252).  The sign of a zero is not modelled.
-/

namespace Verif

/-- The nearest integer; of two the even one. -/
def roundEven (q : Rat) : Int :=
  if q - q.floor < 1 / 2 then q.floor
  else if 1 / 2 < q - q.floor then q.floor + 1
  else if q.floor % 2 = 0 then q.floor else q.floor + 1

/-- The exponent of the last of the 53 binary digits of a number, which is at least -1074. -/
def lastBit (q : Rat) : Int :=
  if q = 0 then -1074
  else
    let k : Int := (Nat.log2 q.num.natAbs : Int) - (Nat.log2 q.den : Int)
    max (-1074) (if (q.num.natAbs : Rat) / (q.den : Rat) < 2 ^ k then k - 53 else k - 52)

/-- The float for a rational number.  Python raises `OverflowError` where there is none, both when it divides two integers and when it
converts an integer. -/
def toFloat (q : Rat) : Except PyErr Rat :=
  let x : Rat := (roundEven (q / 2 ^ lastBit q) : Rat) * 2 ^ lastBit q
  if x < 2 ^ (1024 : Nat) ∧ -2 ^ (1024 : Nat) < x then .ok x else .error .overflow

/-- `a / b` of two integers (dt/review/review_tests.py:245, 248, 252). -/
def intDiv (a b : Int) : Except PyErr Rat := if b = 0 then .error .zeroDiv else toFloat ((a : Rat) / (b : Rat))

/-- `a / y` of an integer and a float (dt/review/review_tests.py:252).  A quotient that is too large is `inf`, which is not modelled. -/
def intFloatDiv (a : Int) (y : Rat) : Except PyErr Rat := do
  let x ← toFloat (a : Rat)
  if y = 0 then .error .zeroDiv
  else
    match toFloat (x / y) with
    | .ok z => .ok z
    | .error _ => .error .unmodelled

end Verif
