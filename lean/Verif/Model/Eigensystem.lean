import Mathlib.Analysis.SpecialFunctions.ExpDeriv
import Mathlib.Analysis.SpecialFunctions.Complex.Log
import Mathlib.LinearAlgebra.Matrix.Notation
import Verif.Model.Tools

/-!
# Model of `weac/eigensystem.py`

`Self` is the record of instance attributes. Read-only methods are plain
functions of `Self`; methods that assign attributes return the new `Self`.
-/

namespace Weac

/-- Column of the solution array `z = [u, u', w, w', psi, psi']`. -/
abbrev Vec6 := Fin 6 → ℝ

abbrev Mat6 := Matrix (Fin 6) (Fin 6) ℝ

/-- The dictionary `self.weak`, `weac/eigensystem.py` 181-184. -/
structure Weak where
  nu : ℝ
  E : ℝ

/-- One entry of `ewR`, `evR`, `sR`. -/
structure RealMode where
  ew : ℝ
  ev : Vec6
  s : ℝ

/-- One entry of `ewC`, `evC`, `sC`. -/
structure CplxMode where
  ew : ℂ
  ev : Fin 6 → ℂ
  s : ℝ

/-- The attributes `ewC`, `evC`, `sC`, `ewR`, `evR`, `sR`; the arrays of one
kind always have equal length, so they are kept as one list of modes. -/
structure Eigs where
  re : List RealMode
  cx : List CplxMode

/-- Touchdown stage; `unset` is the initial value `False`. -/
inductive Mode where
  | unset | A | B | C
  deriving DecidableEq, Repr

/-- Instance attributes, `weac/eigensystem.py` 110-151. Numeric attributes
that are initialised with `False` start as `0` (Python arithmetic treats
`False` as `0`). `hasContact` records whether the class of the object inherits
from `SlabContactMixin`. -/
structure Self where
  hasContact : Bool
  g : ℝ
  lski : ℝ
  tol : ℝ
  system : String
  weak : Weak
  t : ℝ
  kn : ℝ
  kt : ℝ
  p : ℝ
  slab : List Layer
  k : ℝ
  h : ℝ
  zs : ℝ
  phi : ℝ
  A11 : ℝ
  B11 : ℝ
  D11 : ℝ
  kA55 : ℝ
  K0 : ℝ
  eigs : Eigs
  touchdown : Bool
  L : ℝ
  a : ℝ
  tc : ℝ
  ratio : ℝ
  mode : Mode
  td : ℝ

/-- `Eigensystem.__init__`, `weac/eigensystem.py` 93-151. The attribute `L`
does not exist before `set_touchdown_attributes`; it is `0` here. The attributes
`betaU`, `betaC` are never used and left out. -/
noncomputable def Self.init (system : String := "pst-") (touchdown : Bool := false)
    (hasContact : Bool := true) : Self where
  hasContact := hasContact
  g := 9810
  lski := 1000
  tol := 1e-3
  system := system
  weak := ⟨0, 0⟩
  t := 0
  kn := 0
  kt := 0
  p := 0
  slab := []
  k := 0
  h := 0
  zs := 0
  phi := 0
  A11 := 0
  B11 := 0
  D11 := 0
  kA55 := 0
  K0 := 0
  eigs := ⟨[], []⟩
  touchdown := touchdown
  L := 0
  a := 0
  tc := 0
  ratio := 0
  mode := .unset
  td := 0

/-- `numpy.linalg.eig` of a real 6×6 matrix: list of eigenvalue/eigenvector
pairs. A parameter of the model; its contract is `EigOk` in the specification. -/
abbrev EigSolver := Mat6 → List (ℂ × (Fin 6 → ℂ))

/-- `calc_foundation_stiffness`, `weac/eigensystem.py` 257-265. -/
noncomputable def calcFoundationStiffness (s : Self) : Self :=
  let G := s.weak.E / (2 * (1 + s.weak.nu))
  let E := s.weak.E / (1 - s.weak.nu ^ 2)
  { s with kn := E / s.t, kt := G / s.t }

/-- `get_ply_coordinates`, `weac/eigensystem.py` 267-281. -/
noncomputable def getPlyCoordinates (s : Self) : List ℝ :=
  (cumsum ((0 : ℝ) :: s.slab.map fun l => l.h)).map fun z => z - s.h / 2

/-- One pass through the loop body of `calc_laminate_stiffness_matrix`,
`weac/eigensystem.py` 295-300. The accumulator is `(A11, B11, D11, kA55)`. -/
noncomputable def laminateStep (k : ℝ) (z : List ℝ) (slab : List Layer)
    (acc : ℝ × ℝ × ℝ × ℝ) (i : ℕ) : ℝ × ℝ × ℝ × ℝ :=
  let l := slab.getD i ⟨0, 0, 0, 0, 0⟩
  (acc.1 + l.E / (1 - l.nu ^ 2) * (nth z (i + 1) - nth z i),
   acc.2.1 + 1 / 2 * l.E / (1 - l.nu ^ 2) * (nth z (i + 1) ^ 2 - nth z i ^ 2),
   acc.2.2.1 + 1 / 3 * l.E / (1 - l.nu ^ 2) * (nth z (i + 1) ^ 3 - nth z i ^ 3),
   acc.2.2.2 + k * l.G * (nth z (i + 1) - nth z i))

/-- `calc_laminate_stiffness_matrix`, `weac/eigensystem.py` 283-306. -/
noncomputable def calcLaminateStiffnessMatrix (s : Self) : Self :=
  let z := getPlyCoordinates s
  let r := (List.range (z.length - 1)).foldl (laminateStep s.k z s.slab) (0, 0, 0, 0)
  let A11 := r.1
  let B11 := r.2.1
  let D11 := r.2.2.1
  let kA55 := r.2.2.2
  { s with A11 := A11, B11 := B11, D11 := D11, kA55 := kA55, K0 := B11 ^ 2 - A11 * D11 }

/-- `calc_system_matrix`, `weac/eigensystem.py` 307-348. -/
noncomputable def calcSystemMatrix (s : Self) : Mat6 :=
  let kn := s.kn
  let kt := s.kt
  let K21 := kt * (-2 * s.D11 + s.B11 * (s.h + s.t)) / (2 * s.K0)
  let K24 := (2 * s.D11 * kt * s.t - s.B11 * kt * s.t * (s.h + s.t)
                + 4 * s.B11 * s.kA55) / (4 * s.K0)
  let K25 := (-2 * s.D11 * s.h * kt + s.B11 * s.h * kt * (s.h + s.t)
                + 4 * s.B11 * s.kA55) / (4 * s.K0)
  let K43 := kn / s.kA55
  let K61 := kt * (2 * s.B11 - s.A11 * (s.h + s.t)) / (2 * s.K0)
  let K64 := (-2 * s.B11 * kt * s.t + s.A11 * kt * s.t * (s.h + s.t)
                - 4 * s.A11 * s.kA55) / (4 * s.K0)
  let K65 := (2 * s.B11 * s.h * kt - s.A11 * s.h * kt * (s.h + s.t)
                - 4 * s.A11 * s.kA55) / (4 * s.K0)
  !![0,   1, 0,   0,   0,   0;
     K21, 0, 0,   K24, K25, 0;
     0,   0, 0,   1,   0,   0;
     0,   0, K43, 0,   0,   -1;
     0,   0, 0,   0,   0,   1;
     K61, 0, 0,   K64, K65, 0]

/-- `get_weight_load`, `weac/eigensystem.py` 404-429. Returns `(qn, qt)`. -/
noncomputable def getWeightLoad (s : Self) (phiDeg : ℝ) : ℝ × ℝ :=
  let phi := deg2rad phiDeg
  let q := (s.slab.map fun l => l.rho * 1e-12 * s.g * l.h).sum
  (q * Real.cos phi, -q * Real.sin phi)

/-- `get_surface_load`, `weac/eigensystem.py` 431-453. Returns `(pn, pt)`. -/
noncomputable def getSurfaceLoad (s : Self) (phiDeg : ℝ) : ℝ × ℝ :=
  let phi := deg2rad phiDeg
  (s.p * Real.cos phi, -s.p * Real.sin phi)

/-- `get_skier_load`, `weac/eigensystem.py` 455-478. Returns `(Fn, Ft)`. -/
noncomputable def getSkierLoad (s : Self) (m phiDeg : ℝ) : ℝ × ℝ :=
  let phi := deg2rad phiDeg
  let F := 1e-3 * m * s.g / s.lski
  (F * Real.cos phi, -F * Real.sin phi)

/-- `get_load_vector`, `weac/eigensystem.py` 350-379. -/
noncomputable def getLoadVector (s : Self) (phi : ℝ) : Vec6 :=
  let qn := (getWeightLoad s phi).1
  let qt := (getWeightLoad s phi).2
  let pn := (getSurfaceLoad s phi).1
  let pt := (getSurfaceLoad s phi).2
  ![0,
    (s.B11 * (s.h * pt - 2 * qt * s.zs) + 2 * s.D11 * (qt + pt)) / (2 * s.K0),
    0,
    -(qn + pn) / s.kA55,
    0,
    -(s.A11 * (s.h * pt - 2 * qt * s.zs) + 2 * s.B11 * (qt + pt)) / (2 * s.K0)]

/-- `calc_eigensystem`, `weac/eigensystem.py` 381-396. The comparison
`ewC > 0` of complex arrays is numpy's lexicographic order; as `ewC.imag > 0`
it means `ewC.real >= 0`. -/
noncomputable def calcEigensystem (eig : EigSolver) (s : Self) : Self :=
  open Classical in
  let pairs := eig (calcSystemMatrix s)
  let real := pairs.filter fun q => q.1.im = 0 ∧ q.1.re ≠ 0
  let cmplx := pairs.filter fun q => 0 < q.1.im
  { s with eigs :=
    { re := real.map fun q => ⟨q.1.re, fun i => (q.2 i).re, if 0 < q.1.re then -1 else 0⟩
      cx := cmplx.map fun q =>
        ⟨q.1, q.2, if 0 < q.1.re ∨ (q.1.re = 0 ∧ 0 < q.1.im) then -1 else 0⟩ } }

/-- `calc_fundamental_system`, `weac/eigensystem.py` 398-402. -/
noncomputable def calcFundamentalSystem (eig : EigSolver) (s : Self) : Self :=
  calcEigensystem eig (calcLaminateStiffnessMatrix (calcFoundationStiffness s))

/-- `set_foundation_properties`, `weac/eigensystem.py` 153-188. -/
noncomputable def setFoundationProperties (eig : EigSolver) (t : ℝ := 30) (E : ℝ := 0.25)
    (nu : ℝ := 0.25) (update : Bool := false) (s : Self) : Self :=
  let s := { s with t := t, weak := ⟨nu, E⟩ }
  if update then calcFundamentalSystem eig s else s

/-- Argument `layers` of `set_beam_properties`: a sequence of rows or a string. -/
inductive LayersArg where
  | rows (l : List Ply)
  | str (s : String)

/-- Characters at which `str.split()` splits: `str.isspace`. -/
def pySpace (c : Char) : Bool :=
  let n := c.toNat
  (0x9 ≤ n && n ≤ 0xd) || (0x1c ≤ n && n ≤ 0x20) || n = 0x85 || n = 0xa0 || n = 0x1680 ||
    (0x2000 ≤ n && n ≤ 0x200a) || n = 0x2028 || n = 0x2029 || n = 0x202f || n = 0x205f || n = 0x3000

/-- `layers.split()[-1]` (whitespace split), `weac/eigensystem.py` 216; `none`
for a blank string, where the index is out of range. -/
def lastWord (s : String) : Option String :=
  ((s.toList.splitBy (fun a b => pySpace a == pySpace b)).filter
    (fun w => !(w.all pySpace))).getLast?.map String.ofList

/-- The part of `set_beam_properties` after the layering is known,
`weac/eigensystem.py` 222-238. -/
noncomputable def setSlab (eig : EigSolver) (layers : List Ply) (E : List ℝ) (nu : ℝ)
    (update : Bool) (s : Self) : Self :=
  let H := calcCenterOfGravity layers
  let s := { s with
    k := 5 / 6
    h := H.1
    zs := H.2
    slab := List.zipWith (fun l e => ⟨l.rho, l.h, e, e / (2 * (1 + nu)), nu⟩) layers E }
  if update then calcFundamentalSystem eig s else s

/-- `set_beam_properties`, `weac/eigensystem.py` 190-238. An empty sequence
fails at `layers[:, 0]`, a blank string at `split()[-1]`, an unknown profile in
`load_dummy_profile`; the object is then unchanged. -/
noncomputable def setBeamProperties (eig : EigSolver) (layers : LayersArg) (C0 : ℝ := 6.5)
    (C1 : ℝ := 4.4) (nu : ℝ := 0.25) (update : Bool := false) (s : Self) : Res Unit × Self :=
  match layers with
  | .str str =>
    match lastWord str with
    | none => (.error .indexError, s)
    | some w =>
      match loadDummyProfile w with
      | .error e => (.error e, s)
      | .ok (l, E) => (.ok (), setSlab eig l E nu update s)
  | .rows [] => (.error .indexError, s)
  | .rows l => (.ok (), setSlab eig l (l.map fun r => bergfeld r.rho 917 C0 C1) nu update s)

/-- `set_surface_load`, `weac/eigensystem.py` 240-255. -/
def setSurfaceLoad (p : ℝ) (s : Self) : Self := { s with p := p }

/-- Columns of `zh(x, l, bed=True)`, `weac/eigensystem.py` 499-510: first the
real ones, then the two blocks of the complex ones. -/
noncomputable def zhBed (e : Eigs) (x l : ℝ) : List Vec6 :=
  (e.re.map fun m => fun i => m.ev i * Real.exp (m.ew * (x + l * m.s))) ++
  (e.cx.map fun m => fun i => Real.exp (m.ew.re * (x + l * m.s)) *
      ((m.ev i).re * Real.cos (m.ew.im * x) - (m.ev i).im * Real.sin (m.ew.im * x))) ++
  (e.cx.map fun m => fun i => Real.exp (m.ew.re * (x + l * m.s)) *
      ((m.ev i).im * Real.cos (m.ew.im * x) + (m.ev i).re * Real.sin (m.ew.im * x)))

/-- `zh(x, l, bed=False)`, `weac/eigensystem.py` 511-523. -/
noncomputable def zhFree (s : Self) (x : ℝ) : Mat6 :=
  let H14 := 3 * s.B11 / s.A11 * x ^ 2
  let H24 := 6 * s.B11 / s.A11 * x
  let H54 := -3 * x ^ 2 + 6 * s.K0 / (s.A11 * s.kA55)
  !![0, 0,  0,      H14,       1, x;
     0, 0,  0,      H24,       0, 1;
     1, x,  x ^ 2,  x ^ 3,     0, 0;
     0, 1,  2 * x,  3 * x ^ 2, 0, 0;
     0, -1, -2 * x, H54,       0, 0;
     0, 0,  -2,     -6 * x,    0, 0]

/-- `zh`, `weac/eigensystem.py` 480-525, as a 6×6 array. The bedded array has
as many columns as `zhBed` has entries; callers check that it is six. -/
noncomputable def zh (s : Self) (x l : ℝ) (bed : Bool) : Mat6 :=
  if bed then Matrix.of fun i j => ((zhBed s.eigs x l).getD j 0) i else zhFree s x

/-- `zp`, `weac/eigensystem.py` 527-585. -/
noncomputable def zp (s : Self) (x phi : ℝ) (bed : Bool) : Vec6 :=
  let qn := (getWeightLoad s phi).1
  let qt := (getWeightLoad s phi).2
  let pn := (getSurfaceLoad s phi).1
  let pt := (getSurfaceLoad s phi).2
  let kn := s.kn
  let kt := s.kt
  let A11 := s.A11
  let B11 := s.B11
  let kA55 := s.kA55
  let K0 := s.K0
  let h := s.h
  let t := s.t
  let zs := s.zs
  if bed then
    ![(qt + pt) / kt + h * qt * (h + t - 2 * zs) / (4 * kA55) + h * pt * (2 * h + t) / (4 * kA55),
      0,
      (qn + pn) / kn,
      0,
      -(qt * (h + t - 2 * zs) + pt * (2 * h + t)) / (2 * kA55),
      0]
  else
    ![(-3 * (qt + pt) / A11 - B11 * (qn + pn) * x / K0) / 6 * x ^ 2,
      (-2 * (qt + pt) / A11 - B11 * (qn + pn) * x / K0) / 2 * x,
      -A11 * (qn + pn) * x ^ 4 / (24 * K0),
      -A11 * (qn + pn) * x ^ 3 / (6 * K0),
      A11 * (qn + pn) * x ^ 3 / (6 * K0)
        + ((zs - B11 / A11) * qt - h * pt / 2 - (qn + pn) * x) / kA55,
      (qn + pn) * (A11 * x ^ 2 / (2 * K0) - 1 / kA55)]

/-- `z` at one position, `weac/eigensystem.py` 587-617. -/
noncomputable def zsol (s : Self) (x : ℝ) (C : Vec6) (l phi : ℝ) (bed : Bool) : Vec6 :=
  (zh s x l bed).mulVec C + zp s x phi bed

end Weac
