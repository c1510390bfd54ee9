import Verif.Model.Solution
import Verif.Spec.Bvp

/-!
# Specification: end conditions and point loads of the system types

What the two ends of the chain of segments must satisfy, in terms of the
attributes of the object. `kR` is the stiffness of the rotational spring that
replaces the part of the slab resting on the collapsed layer.
-/

namespace Weac

open Spec

def IsPst (s : Self) : Prop := s.system = "pst-" ∨ s.system = "-pst"
def IsVpst (s : Self) : Prop := s.system = "-vpst" ∨ s.system = "vpst-"
def IsSkier (s : Self) : Prop := s.system = "skier" ∨ s.system = "skiers"
def IsAux (s : Self) : Prop := s.system = "rot" ∨ s.system = "trans"
instance (s : Self) : Decidable (IsPst s) := by unfold IsPst; infer_instance
instance (s : Self) : Decidable (IsVpst s) := by unfold IsVpst; infer_instance
instance (s : Self) : Decidable (IsSkier s) := by unfold IsSkier; infer_instance
instance (s : Self) : Decidable (IsAux s) := by unfold IsAux; infer_instance

/-- Left or right end of the model. -/
inductive Side where
  | left | right
  deriving DecidableEq

/-- Outward direction along the beam. -/
def Side.sgn : Side → ℝ
  | .left => -1
  | .right => 1

/-- Tangential load per length at the stored inclination. -/
noncomputable def Self.tangential (s : Self) : ℝ := (s.loads s.phi).qt + (s.loads s.phi).pt

/-- Weight of the wedge between the vertical face and the face normal to the
slope, as section forces; position and mass of the wedge are those of
`calc_vertical_bc_center_of_gravity` (see C03). -/
noncomputable def faceForces (s : Self) (phi : ℝ) : EndCond :=
  let c := calcVerticalBcCenterOfGravity (s.slab.map Layer.ply) phi
  let G := s.g * c.2.2
  .forces (-(G * Real.sin (deg2rad phi)))
    (-(G * (c.1 * Real.cos (deg2rad phi) + c.2.1 * Real.sin (deg2rad phi))))
    (G * Real.cos (deg2rad phi))

/-- End conditions. `pst`: free ends, except that the tip over an unsupported
end segment has come down by `tc` in stage B, and in stage C continues as a
rested slab of length `a - td`, which pulls with its tangential weight and
resists rotation with the spring `kR`. `vpst`: weight of the wedge. `skier`:
the state of an infinitely long uniform slab. `rot`, `trans`: unit moment or
unit force at the left end. -/
noncomputable def endCond (s : Self) (phi kR : ℝ) (e : Side) (supported : Bool) : EndCond :=
  if IsPst s then
    if supported then .forces 0 0 0
    else match s.mode with
      | .B => .contact 0 0 s.tc
      | .C => .contact (e.sgn * (s.tangential * (s.a - s.td))) (e.sgn * kR) s.tc
      | _ => .forces 0 0 0
  else if IsVpst s then faceForces s phi
  else if IsSkier s then .state (zp s 0 phi true 0) (zp s 0 phi true 2) (zp s 0 phi true 4)
  else if s.system = "rot" then
    match e with | .left => .forces 0 1 0 | .right => .forces 0 0 0
  else
    match e with | .left => .forces 0 0 1 | .right => .forces 0 0 0

/-- Jump of the section forces over the boundary between segments `i` and
`i + 1`: the weight `mi[i]` on the surface of the slab. -/
noncomputable def jump (s : Self) (phi : ℝ) (mi : List ℝ) (i : ℕ) : ℝ × ℝ × ℝ :=
  if IsAux s then (0, 0, 0)
  else
    let F := getSkierLoad s (nth mi i) phi
    (F.2, -(F.2 * (s.h / 2)), F.1)

/-- State in segment `i` at distance `x` from its left end: method `z`. -/
noncomputable def stateAt (s : Self) (phi : ℝ) (li : List ℝ) (ki : List Bool) (C : ℕ → Vec6) (i : ℕ)
    (x : ℝ) : Vec6 := zsol s x (C i) (nth li i) phi (ki.getD i false)

/-- The constants `C` (one vector per segment) meet all end and transmission
conditions of the system. -/
def Meets (s : Self) (phi kR : ℝ) (a : SegLists) (C : ℕ → Vec6) : Prop :=
  Bvp s.beam a.li.length (jump s phi a.mi)
    (endCond s phi kR .left (a.ki.getD 0 false))
    (endCond s phi kR .right (a.ki.getD (a.li.length - 1) false))
    (fun i => stateAt s phi a.li a.ki C i 0)
    (fun i => stateAt s phi a.li a.ki C i (nth a.li i))

end Weac
