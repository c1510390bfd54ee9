import Mathlib.Analysis.SpecialFunctions.Pow.Real
import Mathlib.Analysis.SpecialFunctions.Trigonometric.Basic
import Verif.Py

/-!
# Model of `weac/tools.py`
-/

namespace Weac

/-- One row of the `layers` array: density (kg/m^3) and thickness (mm).
`weac/tools.py` 88-91. -/
structure Ply where
  rho : ℝ
  h : ℝ

/-- One row of the `slab` array: density, thickness, Young's modulus, shear
modulus, Poisson's ratio. `weac/eigensystem.py` 230-234. -/
structure Layer where
  rho : ℝ
  h : ℝ
  E : ℝ
  G : ℝ
  nu : ℝ

/-- First two columns of a slab row. -/
def Layer.ply (l : Layer) : Ply := ⟨l.rho, l.h⟩

/-- `np.deg2rad`. -/
noncomputable def deg2rad (x : ℝ) : ℝ := x * (Real.pi / 180)

/-- `calc_center_of_gravity`, `weac/tools.py` 82-110. Returns `(H, zs)`.
Arrays run bottom to top like in the code (`np.flipud`). -/
noncomputable def calcCenterOfGravity (layers : List Ply) : ℝ × ℝ :=
  let n := layers.length
  let rho := (layers.map fun l => (1e-12 : ℝ) * l.rho).reverse
  let h := (layers.map fun l => l.h).reverse
  let H := h.sum
  let zi := (List.range n).map fun j => H / 2 - (h.take j).sum - nth h j / 2
  let zs := (List.zipWith (· * ·) (List.zipWith (· * ·) zi h) rho).sum
              / (List.zipWith (· * ·) h rho).sum
  (H, zs)

/-- `calc_vertical_bc_center_of_gravity`, `weac/tools.py` 113-166. Returns
`(xs, zs, w)`. The element-wise array expressions are written per index. -/
noncomputable def calcVerticalBcCenterOfGravity (slab : List Ply) (phiDeg : ℝ) : ℝ × ℝ × ℝ :=
  let phi := deg2rad phiDeg
  open Classical in
  if phi = 0 then (0, 0, 0)
  else
    let n := slab.length
    let rho := slab.map fun l => (1e-12 : ℝ) * l.rho
    let hi := slab.map fun l => l.h
    let H := hi.sum
    let z := (List.range (n + 1)).map fun j => -H / 2 + (hi.take j).sum
    let zsi := fun j : ℕ =>
      nth z j + nth hi j / 3 * (3 / 2 * H - nth z j - 2 * nth z (j + 1))
        / (H - nth z j - nth z (j + 1))
    let Ai := fun j : ℕ => nth hi j / 2 * (H - nth z j - nth z (j + 1)) * Real.tan phi
    let zs := ((List.range n).map fun j => zsi j * nth rho j * Ai j).sum
                / ((List.range n).map fun j => nth rho j * Ai j).sum
    let xs := (H / 2 - zs) * Real.tan (phi / 2)
    let w := ((List.range n).map fun j => Ai j * nth rho j).sum
    (xs, zs, w)

/-- `scapozza`, `weac/tools.py` 169-186. -/
noncomputable def scapozza (rho : ℝ) : ℝ :=
  let rho := rho * 1e-12
  let rho0 : ℝ := 917e-12
  5.07e3 * (rho / rho0) ^ (5.13 : ℝ)

/-- `gerling`, `weac/tools.py` 189-209. -/
noncomputable def gerling (rho : ℝ) (C0 : ℝ := 6.0) (C1 : ℝ := 4.6) : ℝ :=
  C0 * 1e-10 * rho ^ C1

/-- `bergfeld`, `weac/tools.py` 212-234. -/
noncomputable def bergfeld (rho : ℝ) (rho0 : ℝ := 917) (C0 : ℝ := 6.5) (C1 : ℝ := 4.4) : ℝ :=
  C0 * 1e3 * (rho / rho0) ^ C1

/-- `tensile_strength_slab`, `weac/tools.py` 237-258. An unknown unit is a
missing dictionary key. -/
noncomputable def tensileStrengthSlab (rho : ℝ) (unit : String := "kPa") : Res ℝ :=
  if unit = "kPa" then .ok (1 * 240 * (rho / 917) ^ (2.44 : ℝ))
  else if unit = "MPa" then .ok (1e-3 * 240 * (rho / 917) ^ (2.44 : ℝ))
  else .error .keyError

/-- The layers of `load_dummy_profile`, `weac/tools.py` 42-44: density,
thickness, Young's modulus. -/
noncomputable def profSoft : ℝ × ℝ × ℝ := (180, 120, 5)
noncomputable def profMedium : ℝ × ℝ × ℝ := (270, 120, 30)
noncomputable def profHard : ℝ × ℝ × ℝ := (350, 120, 93.8)

/-- The database of `load_dummy_profile`, `weac/tools.py` 50-67. -/
noncomputable def profileDatabase : List (String × List (ℝ × ℝ × ℝ)) :=
  [("a", [profHard, profMedium, profSoft]),
   ("b", [profSoft, profMedium, profHard]),
   ("c", [profHard, profSoft, profHard]),
   ("d", [profSoft, profHard, profSoft]),
   ("e", [profHard, profSoft, profSoft]),
   ("f", [profSoft, profSoft, profHard]),
   ("h", [profMedium, profMedium, profMedium]),
   ("soft", [profSoft, profSoft, profSoft]),
   ("medium", [profMedium, profMedium, profMedium]),
   ("hard", [profHard, profHard, profHard]),
   ("comp", [(240, 200, 5.23)])]

/-- `str.lower`, for ASCII letters. -/
def strLower (s : String) : String := String.ofList (s.toList.map Char.toLower)

/-- `load_dummy_profile`, `weac/tools.py` 39-79. -/
noncomputable def loadDummyProfile (profileId : String) : Res (List Ply × List ℝ) :=
  match profileDatabase.lookup (strLower profileId) with
  | some profile => .ok (profile.map fun r => ⟨r.1, r.2.1⟩, profile.map fun r => r.2.2)
  | none => .error .valueError

end Weac
