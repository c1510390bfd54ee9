import Verif.Model.Eigensystem

/-!
# Model of `FieldQuantitiesMixin`, `weac/mixins.py` 16-484

All methods act column by column on the 6×n solution array; the model takes
one column `Z : Vec6`. A method with a `unit` argument is modelled by a pure
function for the default unit and a function `…U` taking the unit string; an
unknown unit is a missing dictionary key.
-/

namespace Weac

/-- `convert` dictionary of lengths, `weac/mixins.py` 41-46, 123-128. -/
noncomputable def convertLength (unit : String) : Res ℝ :=
  if unit = "m" then .ok 1e-3
  else if unit = "cm" then .ok 1e-1
  else if unit = "mm" then .ok 1
  else if unit = "um" then .ok 1e3
  else .error .keyError

/-- `convert` dictionary of stresses, `weac/mixins.py` 214, 233. -/
noncomputable def convertStress (unit : String) : Res ℝ :=
  if unit = "kPa" then .ok 1e3
  else if unit = "MPa" then .ok 1
  else .error .keyError

/-- `convert` dictionary of energy release rates, `weac/mixins.py` 290-294, 315-319. -/
noncomputable def convertEnergy (unit : String) : Res ℝ :=
  if unit = "J/m^2" then .ok 1e3
  else if unit = "kJ/m^2" then .ok 1
  else if unit = "N/mm" then .ok 1
  else .error .keyError

/-- `w`, `weac/mixins.py` 25-47, in mm. -/
def fw (Z : Vec6) : ℝ := Z 2

/-- `w` with unit. -/
noncomputable def fwU (Z : Vec6) (unit : String) : Res ℝ := do
  let c ← convertLength unit
  return c * Z 2

/-- `dw_dx`, `weac/mixins.py` 49-63. -/
def fdw (Z : Vec6) : ℝ := Z 3

/-- `psi`, `weac/mixins.py` 65-85, in radians. -/
def fpsi (Z : Vec6) : ℝ := Z 4

/-- `psi` with unit; for an unknown unit the local variable is never assigned. -/
noncomputable def fpsiU (Z : Vec6) (unit : String) : Res ℝ :=
  if unit ∈ ["deg", "degree", "degrees"] then .ok (Z 4 * (180 / Real.pi))
  else if unit ∈ ["rad", "radian", "radians"] then .ok (Z 4)
  else .error .unboundLocalError

/-- `dpsi_dx`, `weac/mixins.py` 87-102. -/
def fdpsi (Z : Vec6) : ℝ := Z 5

/-- `u`, `weac/mixins.py` 105-129, in mm. -/
def fu (Z : Vec6) (z0 : ℝ) : ℝ := Z 0 + z0 * fpsi Z

/-- `u` with unit. -/
noncomputable def fuU (Z : Vec6) (z0 : ℝ) (unit : String) : Res ℝ := do
  let c ← convertLength unit
  return c * (Z 0 + z0 * fpsi Z)

/-- `du_dx`, `weac/mixins.py` 131-148. -/
def fdu (Z : Vec6) (z0 : ℝ) : ℝ := Z 1 + z0 * fdpsi Z

/-- `N`, `weac/mixins.py` 150-164. -/
def fN (s : Self) (Z : Vec6) : ℝ := s.A11 * Z 1 + s.B11 * Z 5

/-- `M`, `weac/mixins.py` 166-180. -/
def fM (s : Self) (Z : Vec6) : ℝ := s.B11 * Z 1 + s.D11 * Z 5

/-- `V`, `weac/mixins.py` 182-196. -/
def fV (s : Self) (Z : Vec6) : ℝ := s.kA55 * (Z 3 + Z 4)

/-- `sig`, `weac/mixins.py` 198-215, in MPa. -/
def fsig (s : Self) (Z : Vec6) : ℝ := -1 * s.kn * fw Z

/-- `sig` with unit. -/
noncomputable def fsigU (s : Self) (Z : Vec6) (unit : String) : Res ℝ := do
  let c ← convertStress unit
  return -c * s.kn * fw Z

/-- `tau`, `weac/mixins.py` 217-238, in MPa. -/
noncomputable def ftau (s : Self) (Z : Vec6) : ℝ :=
  -1 * s.kt * (fdw Z * s.t / 2 - fu Z (s.h / 2))

/-- `tau` with unit. -/
noncomputable def ftauU (s : Self) (Z : Vec6) (unit : String) : Res ℝ := do
  let c ← convertStress unit
  return -c * s.kt * (fdw Z * s.t / 2 - fu Z (s.h / 2))

/-- `eps`, `weac/mixins.py` 240-254. -/
noncomputable def feps (s : Self) (Z : Vec6) : ℝ := -fw Z / s.t

/-- `gamma`, `weac/mixins.py` 256-270. -/
noncomputable def fgamma (s : Self) (Z : Vec6) : ℝ := fdw Z / 2 - fu Z (s.h / 2) / s.t

/-- `Gi`, `weac/mixins.py` 272-295, in kJ/m^2. -/
noncomputable def fGi (s : Self) (Z : Vec6) : ℝ := 1 * fsig s Z ^ 2 / (2 * s.kn)

/-- `Gi` with unit. -/
noncomputable def fGiU (s : Self) (Z : Vec6) (unit : String) : Res ℝ := do
  let c ← convertEnergy unit
  return c * fsig s Z ^ 2 / (2 * s.kn)

/-- `Gii`, `weac/mixins.py` 297-320, in kJ/m^2. -/
noncomputable def fGii (s : Self) (Z : Vec6) : ℝ := 1 * ftau s Z ^ 2 / (2 * s.kt)

/-- `Gii` with unit. -/
noncomputable def fGiiU (s : Self) (Z : Vec6) (unit : String) : Res ℝ := do
  let c ← convertEnergy unit
  return c * ftau s Z ^ 2 / (2 * s.kt)

/-- `int1`, `weac/mixins.py` 322-342. -/
noncomputable def int1 (s : Self) (x : ℝ) (z0 z1 : ℝ → Vec6) : ℝ :=
  fsig s (z0 x) * feps s (z1 x) * s.t

/-- `int2`, `weac/mixins.py` 344-364. -/
noncomputable def int2 (s : Self) (x : ℝ) (z0 z1 : ℝ → Vec6) : ℝ :=
  ftau s (z0 x) * fgamma s (z1 x) * s.t

/-- `dz_dx`, `weac/mixins.py` 366-386. -/
noncomputable def dzdx (s : Self) (z : Vec6) (phi : ℝ) : Vec6 :=
  (calcSystemMatrix s).mulVec z + getLoadVector s phi

/-- `dz_dxdx`, `weac/mixins.py` 388-410. -/
noncomputable def dzdxdx (s : Self) (z : Vec6) (phi : ℝ) : Vec6 :=
  (calcSystemMatrix s).mulVec ((calcSystemMatrix s).mulVec z + getLoadVector s phi)

/-- `du0_dxdx`, `weac/mixins.py` 412-429. -/
noncomputable def du0dxdx (s : Self) (z : Vec6) (phi : ℝ) : ℝ := dzdx s z phi 1

/-- `dpsi_dxdx`, `weac/mixins.py` 431-447. -/
noncomputable def dpsidxdx (s : Self) (z : Vec6) (phi : ℝ) : ℝ := dzdx s z phi 5

/-- `du0_dxdxdx`, `weac/mixins.py` 449-466. -/
noncomputable def du0dxdxdx (s : Self) (z : Vec6) (phi : ℝ) : ℝ := dzdxdx s z phi 1

/-- `dpsi_dxdxdx`, `weac/mixins.py` 468-484. -/
noncomputable def dpsidxdxdx (s : Self) (z : Vec6) (phi : ℝ) : ℝ := dzdxdx s z phi 5

end Weac
