import Mathlib.Analysis.SpecialFunctions.Pow.Real
import Mathlib.Analysis.SpecialFunctions.Trigonometric.Basic

/-!
# Specification: rounding

Standard model of floating-point arithmetic: every rounding has a relative error
of at most `u` (`2^-53` for double precision). Overflow and underflow are left out.
-/

namespace Weac.Spec

/-- `fl` rounds with relative error at most `u`. -/
structure RoundOk (u : ℝ) (fl : ℝ → ℝ) : Prop where
  nonneg : 0 ≤ u
  lt : u < 1
  close : ∀ x, |fl x - x| ≤ u * |x|

/-- `x'` has the relative error of at most `k` roundings. -/
def Rel (u : ℝ) (k : ℕ) (x x' : ℝ) : Prop := ∃ θ, (1 - u) ^ k ≤ θ ∧ θ * (1 - u) ^ k ≤ 1 ∧ x' = x * θ

/-- The power function is accurate to `m` roundings. -/
def PowOk (u : ℝ) (m : ℕ) (pow : ℝ → ℝ → ℝ) : Prop := ∀ x y, 0 < x → Rel u m (x ^ y) (pow x y)

/-- The exponential function is accurate to `m` roundings. -/
def ExpOk (u : ℝ) (m : ℕ) (e : ℝ → ℝ) : Prop := ∀ y, Rel u m (Real.exp y) (e y)

/-- A function with values of magnitude one, such as the cosine, is accurate to `m`
roundings of one. -/
def TrigOk (u : ℝ) (m : ℕ) (f f' : ℝ → ℝ) : Prop := ∀ y, |f' y - f y| ≤ m * u

/-- Products of rows and columns with six entries, in any order of summation: each
product of two entries takes part in at most six roundings. -/
def DotOk (u : ℝ) (d : (Fin 6 → ℝ) → (Fin 6 → ℝ) → ℝ) : Prop :=
  ∀ a b, |d a b - ∑ j, a j * b j| ≤ ((1 - u)⁻¹ ^ 6 - 1) * ∑ j, |a j * b j|

/-- The error bound after `k` roundings. -/
noncomputable def gamma (u : ℝ) (k : ℕ) : ℝ := k * u / (1 - k * u)

end Weac.Spec
