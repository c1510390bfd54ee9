import Mathlib.Analysis.Calculus.Deriv.Pi
import Verif.Model.Eigensystem

/-!
# Specification: equilibrium of a layered beam on a weak layer

State `z = [u, u', w, w', psi, psi']`, with `dz` its derivative along the beam.
`qn, qt` is the weight per length acting at depth `zs`, `pn, pt` the surface
load per length acting at `-h/2`; the weak layer of thickness `t` acts on the
bottom face with normal reaction `kn w` and shear traction
`kt (u + h/2 psi - t/2 w')`, the latter with lever arm `(h+t)/2`.
-/

namespace Weac.Spec

/-- Stiffnesses and geometry of slab and weak layer. -/
structure Beam where
  A : ℝ
  B : ℝ
  D : ℝ
  S : ℝ
  kn : ℝ
  kt : ℝ
  h : ℝ
  t : ℝ
  zs : ℝ

/-- Distributed loads. -/
structure Loads where
  qn : ℝ
  qt : ℝ
  pn : ℝ
  pt : ℝ

variable (b : Beam) (l : Loads)

/-- Consecutive entries of the state are derivatives of each other. -/
structure Kinematic (z dz : Vec6) : Prop where
  u : dz 0 = z 1
  w : dz 2 = z 3
  psi : dz 4 = z 5

/-- Normal force. -/
def Beam.N (z : Vec6) : ℝ := b.A * z 1 + b.B * z 5
/-- Bending moment. -/
def Beam.M (z : Vec6) : ℝ := b.B * z 1 + b.D * z 5
/-- Shear force. -/
def Beam.V (z : Vec6) : ℝ := b.S * (z 3 + z 4)
/-- Shear traction of the weak layer on the slab. -/
noncomputable def Beam.tau (z : Vec6) : ℝ := b.kt * (z 0 + b.h / 2 * z 4 - b.t / 2 * z 3)

/-- Equilibrium of a supported piece of the slab. The derivative of a section
force is the section force of the derivative of the state, except for the
shear force, which involves `w''` and `psi'`. -/
structure EquilBedded (z dz : Vec6) : Prop where
  kin : Kinematic z dz
  N : b.A * dz 1 + b.B * dz 5 = b.tau z - (l.qt + l.pt)
  V : b.S * (dz 3 + dz 4) = b.kn * z 2 - (l.qn + l.pn)
  M : b.B * dz 1 + b.D * dz 5
        = b.V z + (b.h + b.t) / 2 * b.tau z - b.zs * l.qt + b.h / 2 * l.pt

/-- Equilibrium of an unsupported piece of the slab. -/
structure EquilFree (z dz : Vec6) : Prop where
  kin : Kinematic z dz
  N : b.A * dz 1 + b.B * dz 5 = -(l.qt + l.pt)
  V : b.S * (dz 3 + dz 4) = -(l.qn + l.pn)
  M : b.B * dz 1 + b.D * dz 5 = b.V z - b.zs * l.qt + b.h / 2 * l.pt

/-- Equilibrium, supported or not. -/
def Equil (bed : Bool) (z dz : Vec6) : Prop :=
  if bed then EquilBedded b l z dz else EquilFree b l z dz

/-- No loads. -/
def Loads.zero : Loads := ⟨0, 0, 0, 0⟩

/-- A curve of states obeys equilibrium everywhere. -/
def SolvesODE (bed : Bool) (f : ℝ → Vec6) : Prop :=
  ∀ x, ∃ dz, HasDerivAt f dz x ∧ Equil b l bed (f x) dz

end Weac.Spec

namespace Weac

/-- The physical parameters of an object. -/
def Self.beam (s : Self) : Spec.Beam :=
  ⟨s.A11, s.B11, s.D11, s.kA55, s.kn, s.kt, s.h, s.t, s.zs⟩

/-- The distributed loads of an object at inclination `phi`. -/
noncomputable def Self.loads (s : Self) (phi : ℝ) : Spec.Loads :=
  ⟨(getWeightLoad s phi).1, (getWeightLoad s phi).2, (getSurfaceLoad s phi).1,
    (getSurfaceLoad s phi).2⟩

end Weac
