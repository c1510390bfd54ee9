import Verif.Model.RoundedFields

/-!
# The wedge at a vertical face in floating point

`calc_vertical_bc_center_of_gravity` with `fl` after each operation, as far as the
weight `w`. The tangent comes from the numeric library and is a parameter `tn`.
-/

namespace Weac

/-- `w` of `calc_vertical_bc_center_of_gravity` on a slope, `weac/tools.py` 146-158 and 163, with `tn`
for the value of `np.tan(phi)`. The case of level ground (lines 140-143) and the coordinates `xs`, `zs`
(lines 155-156, 159-161) are left out. -/
noncomputable def faceWeightFl (fl : ℝ → ℝ) (slab : List Ply) (tn : ℝ) : ℝ :=
  let n := slab.length
  let rho := slab.map fun l => fl (fl 1e-12 * l.rho)
  let hi := slab.map fun l => l.h
  let H := flSum fl hi
  let z := fun j : ℕ => fl (fl (-H / 2) + flSum fl (hi.take j))
  let Ai := fun j : ℕ => fl (fl (fl (nth hi j / 2) * fl (fl (H - z j) - z (j + 1))) * tn)
  flSum fl ((List.range n).map fun j => fl (Ai j * nth rho j))

/-- `N` and `V` of vertical faces, `weac/mixins.py` 1205-1211. The moment `M` (line 1210) is left out. -/
noncomputable def faceForcesFl (fl : ℝ → ℝ) (lib : Libm) (s : Self) (phi tn : ℝ) : ℝ × ℝ :=
  let m := faceWeightFl fl (s.slab.map Layer.ply) tn
  let phi := deg2radFl fl phi
  (fl (fl (-s.g * m) * lib.sin phi), fl (fl (s.g * m) * lib.cos phi))

end Weac
