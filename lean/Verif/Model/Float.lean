import Verif.Model.Discretizer
import Mathlib.Data.Int.Log
/-
Machine arithmetic: the numbers of a binary floating point format and arithmetic on them with rounding to nearest, ties to even.

This replaces the real numbers of Model/Geometry.lean and Model/Continuous.lean for the functions below. The format has a precision and
a smallest exponent, so rounding and gradual underflow are modelled. There is no largest exponent: overflow, infinities and NaN are not
modelled. Each arithmetic operation is rounded by itself, as IEEE 754 prescribes; a compiler that fuses or rewrites operations is not modelled.
-/

namespace Waymax

open Real

/-- A binary floating point format: numbers `m * 2 ^ e` with `|m| < 2 ^ prec` and `emin ≤ e`, with full precision at 1. The arrays of the code are float32 unless
JAX is told otherwise. waymax/datatypes/object_state.py:127-166 -/
structure Format where
  prec : ℕ
  emin : ℤ
  two_le : 2 ≤ prec
  normal_one : emin + prec ≤ 1

/-- The format of the arrays of the code. waymax/dataloader/womd_factories.py:60-110 -/
def float32 : Format := { prec := 24, emin := -149, two_le := by decide, normal_one := by decide }

/-- The format of Python floats, and of arrays when JAX runs with 64 bits. waymax/utils/geometry.py:338 -/
def float64 : Format := { prec := 53, emin := -1074, two_le := by decide, normal_one := by decide }

namespace Format

variable (φ : Format)

/-- `x` is a number of the format. waymax/datatypes/object_state.py:127-166 -/
def Rep (x : ℝ) : Prop := ∃ m e : ℤ, |m| < 2 ^ φ.prec ∧ φ.emin ≤ e ∧ x = m * 2 ^ e

/-- The exponent of the last digit of the numbers of the format next to `x`. waymax/utils/geometry.py:338 -/
noncomputable def expo (x : ℝ) : ℤ := max (Int.log 2 |x| - (φ.prec - 1)) φ.emin

/-- Rounding to nearest, ties to even: what every arithmetic operation does with its exact result. waymax/utils/geometry.py:338 -/
noncomputable def fl (x : ℝ) : ℝ := rint (x / 2 ^ φ.expo x) * 2 ^ φ.expo x

/-- Unit roundoff, half the distance between 1 and the next number. waymax/utils/geometry.py:338 -/
noncomputable def u : ℝ := 2 ^ (-(φ.prec : ℤ))

end Format

end Waymax
