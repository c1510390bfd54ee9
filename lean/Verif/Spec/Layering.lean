import Mathlib.MeasureTheory.Integral.IntervalIntegral.Basic

/-!
# Specification: piecewise-constant profiles through the slab thickness

Depth `z` points downward; the first list entry is the top layer.
-/

namespace Weac.Spec

variable {α : Type}

/-- Total thickness. -/
def total (thick : α → ℝ) (ls : List α) : ℝ := (ls.map thick).sum

/-- Value of the layer property `f` at depth `z` when the first layer starts
at depth `top`. -/
noncomputable def profile (thick f : α → ℝ) : ℝ → List α → ℝ → ℝ
  | _, [], _ => 0
  | top, l :: ls, z =>
    open Classical in
    if z ≤ top + thick l then f l else profile thick f (top + thick l) ls z

/-- `∫ f(z) g(z) dz` over the slab, with `z = 0` at mid-height. -/
noncomputable def slabIntegral (thick f : α → ℝ) (ls : List α) (g : ℝ → ℝ) : ℝ :=
  ∫ z in (-(total thick ls) / 2)..(total thick ls / 2),
    profile thick f (-(total thick ls) / 2) ls z * g z

end Weac.Spec
