import Mathlib.Analysis.SpecialFunctions.Pow.Real
import Mathlib.Algebra.Order.Floor.Ring

/-!
# Floating point numbers and rounding

Binary floating point with `p` significant bits and smallest exponent `emin` (double precision: `p = 53`,
`emin = -1074`), subnormal numbers included.  There is no largest number: overflow is not described.
-/

namespace Verif.Spec

/-- `x` is a floating point number: an integer of at most `p` bits times a power of two. -/
def Representable (p : Nat) (emin : ℤ) (x : ℝ) : Prop :=
  ∃ m e : ℤ, |m| < 2 ^ p ∧ emin ≤ e ∧ x = (m : ℝ) * (2 : ℝ) ^ e

/-- `r` rounds every real to a nearest floating point number; ties may go either way, so the default mode of IEEE 754
(ties to even) is one such `r`. -/
def IsRounding (p : Nat) (emin : ℤ) (r : ℝ → ℝ) : Prop :=
  ∀ x, Representable p emin (r x) ∧ ∀ q, Representable p emin q → |x - r x| ≤ |x - q|

/-- Every component that is a number (is not NaN) lies between its bounds; `K` is any ordered set of values, for
instance floats with infinities. -/
def Within {n : Nat} {K : Type} [LE K] (lo hi : Fin n → K) (x : Fin n → Option K) : Prop :=
  ∀ i v, x i = some v → lo i ≤ v ∧ v ≤ hi i

end Verif.Spec
