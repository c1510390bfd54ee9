import Verif.Model.Raster

/-!
# Model of `AnalysisMixin` after `rasterize_solution`, `weac/mixins.py` 1345-1769

Arrays over segments are one list of records, so the equal lengths that the
code assumes hold by construction. Stress fields are modelled for one column
`Z` of the solution array as the list of values along the mesh.
-/

namespace Weac

/-! ## Energy release rates -/

/-- `scipy.integrate.quad(f, a, b)[0]`. A parameter of the model. -/
abbrev Quad := (ℝ → ℝ) → ℝ → ℝ → ℝ

/-- A segment as seen by `ginc`: constants without and with crack, length,
support with (`ki`) and without (`k0`) crack. -/
structure IncSeg where
  C0 : Vec6
  C1 : Vec6
  l : ℝ
  ki : Bool
  k0 : Bool

/-- Loop body of `ginc`, `weac/mixins.py` 1385-1397, for one segment with crack
advance. -/
noncomputable def gincStep (quad : Quad) (s : Self) (phi : ℝ) (da : Option ℝ) (acc : ℝ × ℝ) (g : IncSeg) :
    Option (ℝ × ℝ) :=
  let z0 := fun x => zsol s x g.C0 g.l phi true
  let z1 := fun x => zsol s x g.C1 g.l phi false
  da.map fun d =>
    (acc.1 + quad (fun x => int1 s x z0 z1) 0 g.l / (2 * d), acc.2 + quad (fun x => int2 s x z0 z1) 0 g.l / (2 * d))

/-- `ginc`, `weac/mixins.py` 1345-1399. `none` is an array of NaN, which
arises from `da = nan`. -/
noncomputable def ginc (quad : Quad) (s : Self) (phi : ℝ) (segs : List IncSeg) : Option (ℝ × ℝ × ℝ) :=
  let cr := segs.filter fun g => g.k0 && !g.ki
  let da : Option ℝ := if 0 < (cr.map IncSeg.l).sum then some (cr.map IncSeg.l).sum else none
  (cr.foldlM (gincStep quad s phi da) (0, 0)).map fun G => (G.1 + G.2, G.1, G.2)

/-- `ict`, `weac/mixins.py` 1426-1434: transitions between supported and free. -/
def tipIndices (ki : List Bool) : List ℕ :=
  (List.range (ki.length - 1)).filter fun j => ki.getD j false != ki.getD (j + 1) false

/-- `avgmask`, `weac/mixins.py` 1453-1454, for `nct > 1`. -/
def avgMask (ki : List Bool) (nct j : ℕ) : Bool :=
  if j = nct - 1 then ki.getD (ki.length - 1) false
  else if j = 0 then ki.getD 0 false
  else true

/-- Total, mode I and mode II rate at the tip with transition index `idx`,
`weac/mixins.py` 1440-1449. -/
noncomputable def tipRate (s : Self) (phi : ℝ) (segs : List Seg) (unit : String) (idx : ℕ) : Res (ℝ × ℝ × ℝ) := do
  let g := segs.getD idx ⟨0, false, 0⟩
  let z := zsol s g.l g.C g.l phi g.k
  let gi ← fGiU s z unit
  let gii ← fGiiU s z unit
  return (gi + gii, gi, gii)

/-- Adjustment for centre cracks, `weac/mixins.py` 1451-1455. `arr` says
whether `ki` is an ndarray; `ki[[0, -1]]` is not possible for a list. -/
noncomputable def averageTips (ki : List Bool) (arr : Bool) (G : List (ℝ × ℝ × ℝ)) : Res (List (ℝ × ℝ × ℝ)) :=
  if 1 < G.length then
    if arr then
      .ok (G.mapIdx fun j v => if avgMask ki G.length j then (0.5 * v.1, 0.5 * v.2.1, 0.5 * v.2.2) else v)
    else .error .typeError
  else .ok G

/-- `gdif`, `weac/mixins.py` 1401-1458. Returns (total, mode I, mode II). -/
noncomputable def gdif (s : Self) (phi : ℝ) (segs : List Seg) (unit : String) (arr : Bool) : Res (ℝ × ℝ × ℝ) := do
  let G ← (tipIndices (segs.map Seg.k)).mapM (tipRate s phi segs unit)
  let G ← averageTips (segs.map Seg.k) arr G
  return ((G.map fun v => v.1).sum, (G.map fun v => v.2.1).sum, (G.map fun v => v.2.2).sum)

/-! ## Stresses in the slab -/

/-- Row of the mesh: coordinate, Young's modulus, Poisson's ratio, density. -/
structure MeshPt where
  z : ℝ
  E : ℝ
  nu : ℝ
  rho : ℝ

/-- Mesh of one layer between `a` and `b`, `weac/mixins.py` 1478-1492. -/
noncomputable def meshLayer (dz a b : ℝ) (l : Layer) : List MeshPt :=
  let n := ⌈(b - a) / dz⌉₊ + 1
  (List.range n).map fun (j : ℕ) => ⟨a + (b - a) * (j : ℝ) / ((n - 1 : ℕ) : ℝ), l.E, l.nu, l.rho⟩

/-- `get_zmesh`, `weac/mixins.py` 1460-1492, for `dz > 0`. -/
noncomputable def getZmesh (s : Self) (dz : ℝ) : List MeshPt :=
  let z := getPlyCoordinates s
  ((List.range s.slab.length).map fun i =>
    meshLayer dz (nth z i) (nth z (i + 1)) (s.slab.getD i ⟨0, 0, 0, 0, 0⟩)).flatten

/-- `scipy.integrate.cumulative_trapezoid(y, x, initial=0)` of pairs `(x, y)`,
started at `acc`. -/
noncomputable def cumTrap (acc : ℝ) : List (ℝ × ℝ) → List ℝ
  | [] => []
  | [_] => [acc]
  | p :: q :: r => acc :: cumTrap (acc + (q.1 - p.1) * (p.2 + q.2) / 2) (q :: r)

/-- `Sxx`, `weac/mixins.py` 1494-1540. -/
noncomputable def fSxx (s : Self) (Z : Vec6) (phi dz : ℝ) (unit : String) : Res (List ℝ) := do
  let mesh := getZmesh s dz
  let n := mesh.length
  let zi := mesh.map MeshPt.z
  let S := mesh.mapIdx fun i p =>
    let qi := -(1e-12 * p.rho) * s.g * Real.sin (deg2rad phi)
    p.E / (1 - p.nu ^ 2) * fdu Z p.z
      + (if i + 1 = n then qi * (nth zi (n - 1) - nth zi (n - 2)) else qi * (nth zi (i + 1) - nth zi i))
  let c ← convertStress unit
  return S.map fun v => c * v

/-- `Txz`, `weac/mixins.py` 1542-1594. -/
noncomputable def fTxz (s : Self) (Z : Vec6) (phi dz : ℝ) (unit : String) : Res (List ℝ) := do
  let mesh := getZmesh s dz
  let d2u := du0dxdx s Z phi
  let d2psi := dpsidxdx s Z phi
  let T1 := cumTrap 0 (mesh.map fun p => (p.z, p.E / (1 - p.nu ^ 2) * (d2u + p.z * d2psi)))
  let T2 := cumTrap 0 (mesh.map fun p => (p.z, -(1e-12 * p.rho) * s.g * Real.sin (deg2rad phi)))
  let c ← convertStress unit
  return (List.zipWith (fun a b => a + b) T1 T2).map fun v => c * v

/-- `Szz`, `weac/mixins.py` 1596-1651. -/
noncomputable def fSzz (s : Self) (Z : Vec6) (phi dz : ℝ) (unit : String) : Res (List ℝ) := do
  let mesh := getZmesh s dz
  let d3u := du0dxdxdx s Z phi
  let d3psi := dpsidxdxdx s Z phi
  let I := cumTrap 0 (mesh.map fun p => (p.z, p.E / (1 - p.nu ^ 2) * (d3u + p.z * d3psi)))
  let S1 := cumTrap 0 (List.zipWith (fun (p : MeshPt) y => (p.z, y)) mesh I)
  let S2 := cumTrap 0 (mesh.map fun p => (p.z, -(1e-12 * p.rho * s.g * Real.cos (deg2rad phi))))
  let c ← convertStress unit
  return (List.zipWith (fun a b => a + b) S1 S2).map fun v => c * v

/-- Multiplier `m[val]`. -/
def principalSign (val : String) : Res ℝ :=
  if val = "max" then .ok 1 else if val = "min" then .ok (-1) else .error .valueError

/-- `principal_stress_slab`, `weac/mixins.py` 1653-1713. -/
noncomputable def principalSlab (s : Self) (Z : Vec6) (phi dz : ℝ) (unit val : String) (normalize : Bool) :
    Res (List ℝ) := do
  let m ← principalSign val
  let sx ← fSxx s Z phi dz unit
  let t ← fTxz s Z phi dz unit
  let sz ← fSzz s Z phi dz unit
  let Ps := List.zipWith (fun x (y : ℝ × ℝ) => (x + y.2) / 2 + m * Real.sqrt ((x - y.2) ^ 2 + 4 * y.1 ^ 2) / 2)
    sx (List.zip t sz)
  if normalize && val == "min" then throw .valueError
  else if normalize && val == "max" then do
    let st ← (getZmesh s dz).mapM fun p => tensileStrengthSlab p.rho unit
    return List.zipWith (fun a b => a / b) Ps st
  else return Ps

/-- `principal_stress_weaklayer`, `weac/mixins.py` 1715-1769. -/
noncomputable def principalWeak (s : Self) (Z : Vec6) (sc : ℝ) (unit val : String) (normalize : Bool) : Res ℝ := do
  let m ← principalSign val
  let sig ← fsigU s Z unit
  let tau ← ftauU s Z unit
  let ps := sig / 2 + m * Real.sqrt (sig ^ 2 + 4 * tau ^ 2) / 2
  if normalize && val == "max" then throw .valueError
  else if normalize && val == "min" then return ps / sc
  else return ps

end Weac
