import Verif.Spec.Bvp

/-!
# Specification: unsupported end of a slab carried by springs

What the stage limits and the touchdown length of a propagation saw test are
about: the unsupported piece of the slab, cut off at the crack tip, where a
translational spring `kN` and a rotational spring `kR` stand for the supported
rest of the slab.
-/

namespace Weac.Spec

/-- `Z` is the field of an unsupported piece `0 … l` of the slab under the line
load `q` normal to it; at 0 it is carried by the springs, at `l` there is no
normal force. -/
structure Overhang (b : Beam) (q kN kR l : ℝ) (Z : ℝ → Vec6) : Prop where
  ode : SolvesODE b ⟨q, 0, 0, 0⟩ false Z
  force : b.V (Z 0) = kN * Z 0 2
  moment : b.M (Z 0) = kR * Z 0 4
  normal : b.N (Z l) = 0

/-- The far end hangs free. -/
def HangsFree (b : Beam) (l : ℝ) (Z : ℝ → Vec6) : Prop := b.M (Z l) = 0 ∧ b.V (Z l) = 0

/-- The far end is held at depth `tc` and carries the moment of a rotational
spring `kr` (of the part of the slab lying on the collapsed layer beyond it). -/
def HeldAt (b : Beam) (tc kr l : ℝ) (Z : ℝ → Vec6) : Prop := b.M (Z l) = -kr * Z l 4 ∧ Z l 2 = tc

end Weac.Spec
