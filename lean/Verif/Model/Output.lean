import Verif.Model.Solution

/-!
# Model of `OutputMixin`, `weac/mixins.py` 1772-2085

One-dimensional arrays are lists, NaN is `none`; the solution array `z` is the
list of its columns. Division of a coordinate by 10 keeps NaN. Indexing with a
boolean array of another length raises IndexError.
-/

namespace Weac

/-- `x / 10`, `weac/mixins.py` 1945, 1982. -/
noncomputable def toCm (x : List (Option ℝ)) : List (Option ℝ) := x.map (Option.map (· / 10))

/-- `v[~np.isnan(x)]`. -/
def keepReal {α : Type} (x : List (Option ℝ)) (v : List α) : Res (List α) :=
  if x.length = v.length then .ok (((x.zip v).filter fun p => p.1.isSome).map Prod.snd)
  else .error .indexError

/-- `v[np.isnan(x)] = np.nan`. -/
def setNaN (x : List (Option ℝ)) (v : List (Option ℝ)) : Res (List (Option ℝ)) :=
  if x.length = v.length then .ok (List.zipWith (fun a b => if a.isNone then none else b) x v)
  else .error .indexError

/-- Common part of the two stress outputs, `weac/mixins.py` 1944-1957, 1981-1994. -/
noncomputable def filterStress (x : List (Option ℝ)) (tau : List (Option ℝ)) (removeNaNs : Bool) :
    Res (List (Option ℝ) × List (Option ℝ)) :=
  let x := toCm x
  if removeNaNs then do
    let tau ← keepReal x tau
    let x ← keepReal x x
    return (x, tau)
  else do
    let tau ← setNaN x tau
    return (x, tau)

/-- `get_weaklayer_shearstress`, `weac/mixins.py` 1922-1957. -/
noncomputable def getWeaklayerShearstress (s : Self) (x : List (Option ℝ)) (z : List Vec6) (unit : String)
    (removeNaNs : Bool) : Res (List (Option ℝ) × List (Option ℝ)) := do
  let c ← convertStress unit
  filterStress x (z.map fun Z => some (-c * s.kt * (fdw Z * s.t / 2 - fu Z (s.h / 2)))) removeNaNs

/-- `get_weaklayer_normalstress`, `weac/mixins.py` 1959-1994. -/
noncomputable def getWeaklayerNormalstress (s : Self) (x : List (Option ℝ)) (z : List Vec6) (unit : String)
    (removeNaNs : Bool) : Res (List (Option ℝ) × List (Option ℝ)) := do
  let c ← convertStress unit
  filterStress x (z.map fun Z => some (-c * s.kn * fw Z)) removeNaNs

/-- The locator of `get_slab_displacement`, `weac/mixins.py` 2023. -/
noncomputable def locator (s : Self) (loc : String) : Res ℝ :=
  if loc = "top" then .ok (-s.h / 2)
  else if loc = "mid" then .ok 0
  else if loc = "bot" then .ok (s.h / 2)
  else .error .keyError

/-- `get_slab_displacement`, `weac/mixins.py` 1996-2027. -/
noncomputable def getSlabDisplacement (s : Self) (x : List (Option ℝ)) (z : List Vec6) (loc unit : String) :
    Res (List (Option ℝ) × List ℝ) := do
  let z0 ← locator s loc
  let c ← convertLength unit
  return (toCm x, z.map fun Z => c * (Z 0 + z0 * fpsi Z))

/-- `get_slab_deflection`, `weac/mixins.py` 2029-2056. -/
noncomputable def getSlabDeflection (x : List (Option ℝ)) (z : List Vec6) (unit : String) :
    Res (List (Option ℝ) × List ℝ) := do
  let c ← convertLength unit
  return (toCm x, z.map fun Z => c * Z 2)

/-- `psi` on an array, `weac/mixins.py` 65-85: the unit is checked once. -/
noncomputable def psiArray (z : List Vec6) (unit : String) : Res (List ℝ) :=
  if unit ∈ ["deg", "degree", "degrees"] then .ok (z.map fun Z => Z 4 * (180 / Real.pi))
  else if unit ∈ ["rad", "radian", "radians"] then .ok (z.map fun Z => Z 4)
  else .error .unboundLocalError

/-- `get_slab_rotation`, `weac/mixins.py` 2058-2085. -/
noncomputable def getSlabRotation (x : List (Option ℝ)) (z : List Vec6) (unit : String) :
    Res (List (Option ℝ) × List ℝ) := do
  let psi ← psiArray z unit
  return (toCm x, psi)

end Weac
