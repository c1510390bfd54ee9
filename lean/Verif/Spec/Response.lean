import Verif.Spec.Bvp

/-!
# Specification: response of a supported slab to a load at its end
-/

namespace Weac.Spec

/-- `Z` is the field of a weightless slab of length `L` on the weak layer whose
left end carries the section forces `N`, `M`, `V` while the right end is free. -/
structure TipLoaded (b : Beam) (L N M V : ℝ) (Z : ℝ → Vec6) : Prop where
  ode : SolvesODE b Loads.zero true Z
  loaded : (EndCond.forces N M V).Holds b (Z 0)
  free : (EndCond.forces 0 0 0).Holds b (Z L)

end Weac.Spec
