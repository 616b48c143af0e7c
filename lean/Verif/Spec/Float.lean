import Mathlib.Algebra.Order.Ring.Rat
import Mathlib.Algebra.Order.Group.Abs
/-
Specification of floating-point numbers (IEEE 754, double precision, round to nearest, ties to even), as rational numbers.
-/

namespace Verif.Spec

/-- `Rounds q x`: `x` is the number `q` rounded to 53 binary digits, of which the last stands for `2 ^ e`.  Small numbers have fewer digits.
The largest numbers are not excluded here. -/
def Rounds (q x : Rat) : Prop :=
  ∃ e m : Int, -1074 ≤ e ∧ |q| < 2 ^ (e + 53) ∧ (e = -1074 ∨ 2 ^ (e + 52) ≤ |q|) ∧ x = (m : Rat) * 2 ^ e ∧
    2 * |q - x| ≤ 2 ^ e ∧ (2 * |q - x| = 2 ^ e → m % 2 = 0)

end Verif.Spec
