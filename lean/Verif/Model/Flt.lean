import Mathlib.Analysis.SpecialFunctions.Trigonometric.Basic
import Mathlib.Data.Int.Log
import Mathlib.Algebra.Order.Round

/-!
# Double-precision arithmetic

The other modules model `double` by the real numbers.  Here every arithmetic operation is followed by a rounding `fl`, so that theorems are about what the machine computes.  `Rounding fl` lists what
theorems assume of the rounding: it is satisfied by IEEE 754 binary64 rounding to nearest (either rule for ties), `ieee` below, with gradual underflow.  Overflow is excluded: nothing is assumed
of numbers beyond 2^1000.  Compilers that keep intermediate results in extended precision or contract to fused operations are not modelled.
-/

namespace Pal

/-- What is assumed of rounding (no code in /repo: the meaning of `+ - * /` on `double` in every function, e.g. /repo/palOne2One.c:893). -/
structure Rounding (fl : ℝ → ℝ) : Prop where
  near : ∀ x, |x| ≤ 2 ^ 1000 → |fl x - x| ≤ |x| / 2 ^ 53 + 1 / 2 ^ 1075
  mono : ∀ x y, |x| ≤ 2 ^ 1000 → |y| ≤ 2 ^ 1000 → x ≤ y → fl x ≤ fl y
  odd : ∀ x, fl (-x) = -fl x
  keep : ∀ m e : ℤ, |m| ≤ 2 ^ 53 → -1074 ≤ e → |(m : ℝ)| * 2 ^ e ≤ 2 ^ 1000 → fl (m * 2 ^ e) = m * 2 ^ e
  rep : ∀ x, |x| ≤ 2 ^ 1000 → ∃ m e : ℤ, |m| ≤ 2 ^ 53 ∧ -1074 ≤ e ∧ fl x = m * 2 ^ e
  best : ∀ x, |x| ≤ 2 ^ 1000 → ∀ m e : ℤ, |m| ≤ 2 ^ 53 → -1074 ≤ e → |fl x - x| ≤ |m * 2 ^ e - x|

/-- The `double` numbers (of moderate size): those that rounding leaves alone (the values of `double` variables, e.g. /repo/palOne2One.c:893). -/
def IsDouble (fl : ℝ → ℝ) (x : ℝ) : Prop := fl x = x

/-- Nearest integer, ties to even (IEEE 754 roundTiesToEven on the scaled significand; used by every operation, e.g. /repo/palOne2One.c:893). -/
noncomputable def rne (y : ℝ) : ℤ :=
  if Int.fract y < 1 / 2 then ⌊y⌋ else if 1 / 2 < Int.fract y then ⌊y⌋ + 1 else if ⌊y⌋ % 2 = 0 then ⌊y⌋ else ⌊y⌋ + 1

/-- The exponent of the last place of the binary64 numbers around x (subnormal numbers have -1074) (the arithmetic of every function, e.g. /repo/palOne2One.c:893). -/
noncomputable def ulpExp (x : ℝ) : ℤ := max (Int.log 2 |x|) (-1022) - 52

/-- IEEE 754 binary64 rounding to nearest, ties to even, without overflow (the arithmetic of /repo on usual machines). -/
noncomputable def ieee (x : ℝ) : ℝ := rne (x / 2 ^ ulpExp x) * 2 ^ ulpExp x

end Pal
