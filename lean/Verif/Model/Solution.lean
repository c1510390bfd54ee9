import Mathlib.LinearAlgebra.Matrix.NonsingularInverse
import Verif.Model.Raster

/-!
# Model of `SlabContactMixin` and `SolutionMixin`, `weac/mixins.py` 487-1249

Methods that can assign attributes or call such methods are state-passing
functions `Py`. `bc` (touchdown stage C) calls `substitute_stiffness`, which
calls `assemble_and_solve` for an auxiliary system that never enters that
branch again; the model breaks this recursion by passing the rotational spring
computation `sub` as an argument.
-/

namespace Weac

/-- A method call on an object: value or exception, and the object afterwards. -/
def Py (α : Type) := Self → Res α × Self

namespace Py

def pure {α : Type} (a : α) : Py α := fun s => (.ok a, s)

def bind {α β : Type} (m : Py α) (f : α → Py β) : Py β := fun s =>
  match m s with
  | (.ok a, s') => f a s'
  | (.error e, s') => (.error e, s')

instance : Monad Py where
  pure := pure
  bind := bind

/-- The object. -/
def get : Py Self := fun s => (.ok s, s)
/-- Assign attributes. -/
def modify (f : Self → Self) : Py Unit := fun s => (.ok (), f s)
/-- `raise`. -/
def raise {α : Type} (e : PyErr) : Py α := fun s => (.error e, s)
/-- A computation that does not touch the object. -/
def lift {α : Type} (r : Res α) : Py α := fun s => (r, s)

end Py

/-- The external numerical routines. -/
structure Numerics where
  /-- `numpy.linalg.eig` -/
  eig : EigSolver
  /-- `scipy.optimize.brentq` after the end points have been evaluated: from
  the bracket and the evaluations so far, either the next abscissa to evaluate
  (`inl`) or the root to return (`inr`). -/
  brent : ℝ → ℝ → List (ℝ × ℝ) → ℝ ⊕ ℝ

/-- Segment position `'l'`, `'m'`, `'r'`. -/
inductive Pos where
  | l | m | r
  deriving DecidableEq

/-- `bc`, `weac/mixins.py` 824-889, as the functional it applies to every
column. `sub` stands for
`self.substitute_stiffness(self.a - self.td, "rested", "rot")`. A mode that
matches no branch leaves the local variable unassigned. -/
noncomputable def bc (sub : Py ℝ) (k : Bool) (pos : Pos) : Py (Vec6 → Fin 3 → ℝ) := do
  let s ← Py.get
  let free : Vec6 → Fin 3 → ℝ := fun z => ![fN s z, fM s z, fV s z]
  if s.system = "pst-" ∨ s.system = "-pst" then
    if k then return free
    else match s.mode, pos with
      | .A, _ => return free
      | .B, .r => return fun z => ![fN s z, fM s z, fw z]
      | .B, .l => return fun z => ![fN s z, fM s z, fw z]
      | .C, .r => do
        let kR ← sub
        let s ← Py.get
        return fun z => ![fN s z, fM s z + kR * fpsi z, fw z]
      | .C, .l => do
        let kR ← sub
        let s ← Py.get
        return fun z => ![fN s z, fM s z - kR * fpsi z, fw z]
      | _, _ => Py.raise .unboundLocalError
  else if s.system = "-vpst" ∨ s.system = "vpst-" then return free
  else if s.system = "skier" ∨ s.system = "skiers" then
    return fun z => ![fu z 0, fw z, fpsi z]
  else if s.system = "rot" ∨ s.system = "trans" then return free
  else Py.raise .valueError

/-- `eqs`, `weac/mixins.py` 891-971, as the functional it applies to every
pair of columns. -/
noncomputable def eqs (sub : Py ℝ) (k : Bool) (pos : Pos) : Py (Vec6 → Vec6 → List ℝ) :=
  match pos with
  | .l => do
    let b0 ← bc sub k pos
    let b1 ← bc sub k pos
    let b2 ← bc sub k pos
    let s ← Py.get
    return fun zl zr => [b0 zl 0, b1 zl 1, b2 zl 2,
      fu zr 0, fw zr, fpsi zr, fN s zr, fM s zr, fV s zr]
  | .m => do
    let s ← Py.get
    return fun zl zr => [-fu zl 0, -fw zl, -fpsi zl, -fN s zl, -fM s zl, -fV s zl,
      fu zr 0, fw zr, fpsi zr, fN s zr, fM s zr, fV s zr]
  | .r => do
    let s ← Py.get
    let b0 ← bc sub k pos
    let b1 ← bc sub k pos
    let b2 ← bc sub k pos
    return fun zl zr => [-fu zl 0, -fw zl, -fpsi zl, -fN s zl, -fM s zl, -fV s zl,
      b0 zr 0, b1 zr 1, b2 zr 2]

/-- `M[r0:r1, c0:c1] = B`. -/
def writeBlock (M : ℕ → ℕ → ℝ) (r0 r1 c0 c1 : ℕ) (B : ℕ → ℕ → ℝ) : ℕ → ℕ → ℝ := fun r c =>
  if r0 ≤ r ∧ r < r1 ∧ c0 ≤ c ∧ c < c1 then B (r - r0) (c - c0) else M r c

/-- `v[r0:r1] += w`. -/
def addSlice (v : ℕ → ℝ) (r0 r1 : ℕ) (w : ℕ → ℝ) : ℕ → ℝ := fun r =>
  if r0 ≤ r ∧ r < r1 then v r + w (r - r0) else v r

/-- `v[r0:r0+3] = [a, b, c]`. -/
def write3 (v : ℕ → ℝ) (r0 : ℕ) (a b c : ℝ) : ℕ → ℝ := fun r =>
  if r = r0 then a else if r = r0 + 1 then b else if r = r0 + 2 then c else v r

/-- `numpy.linalg.solve(M, b)` for an `n`×`n` system in exact arithmetic:
the solution if `M` is regular, otherwise `LinAlgError`. -/
noncomputable def npSolve (n : ℕ) (M : ℕ → ℕ → ℝ) (b : ℕ → ℝ) : Res (ℕ → ℝ) :=
  let A : Matrix (Fin n) (Fin n) ℝ := Matrix.of fun i j => M i j
  open Classical in
  if IsUnit A.det then
    .ok fun i => if h : i < n then A⁻¹.mulVec (fun j => b j) ⟨i, h⟩ else 0
  else .error .linAlgError

/-- Whether an argument is a Python list or a numpy array. -/
inductive SeqKind where
  | list | ndarray
  deriving DecidableEq

/-- Segment description `li`, `mi`, `ki`. -/
structure SegLists where
  li : List ℝ
  mi : List ℝ
  ki : List Bool

/-- Position of segment `i` of `nS`, `weac/mixins.py` 1159-1160. -/
def posOf (nS i : ℕ) : Pos := if i + 1 = nS then .r else if i = 0 then .l else .m

/-- Body of the assembly loop, `weac/mixins.py` 1170-1188. A bedded segment
whose complementary solution does not have six columns fails when it is
written into its 6-column block. -/
noncomputable def asmBody (sub : Py ℝ) (phi : ℝ) (nS : ℕ) (li : List ℝ) (ki : List Bool)
    (acc : (ℕ → ℕ → ℝ) × (ℕ → ℝ)) (i : ℕ) : Py ((ℕ → ℕ → ℝ) × (ℕ → ℝ)) := do
  let l := nth li i
  let k := ki.getD i false
  let pos := posOf nS i
  let s ← Py.get
  let f ← eqs sub k pos
  let zhi := fun r c : ℕ => (f (fun q => zh s 0 l k q (Fin.ofNat 6 c))
      (fun q => zh s l l k q (Fin.ofNat 6 c))).getD r 0
  let s' ← Py.get
  let g ← eqs sub k pos
  let zpi := fun r : ℕ => (g (zp s' 0 phi k) (zp s' l phi k)).getD r 0
  let start := if i = 0 then 0 else 3
  let stop := if i + 1 = nS then 6 else 9
  if k && (zhBed s.eigs 0 l).length != 6 then Py.raise .valueError
  else return (writeBlock acc.1 (6 * i - start) (6 * i + stop) (6 * i) (6 * (i + 1)) zhi,
    addSlice acc.2 (6 * i - start) (6 * i + stop) zpi)

/-- A Python `for` loop. -/
def forLoop {α β : Type} (body : α → β → Py α) : List β → α → Py α
  | [], a => pure a
  | b :: bs, a => do
    let a' ← body a b
    forLoop body bs a'

/-- Right-hand side from skier loads, `weac/mixins.py` 1191-1195. -/
noncomputable def rhsSkiers (s : Self) (phi : ℝ) (mi : List ℝ) : ℕ → ℝ :=
  mi.zipIdx.foldl (fun rhs q =>
    let F := getSkierLoad s q.1 phi
    write3 rhs (6 * (q.2 + 1)) F.2 (-F.2 * s.h / 2) F.1) (fun _ => 0)

/-- Right-hand side for vertical faces, `weac/mixins.py` 1202-1214. -/
noncomputable def verticalForces (s : Self) (phi : ℝ) : ℝ × ℝ × ℝ :=
  let r := calcVerticalBcCenterOfGravity (s.slab.map Layer.ply) phi
  let xs := r.1
  let zs := r.2.1
  let m := r.2.2
  let phi := deg2rad phi
  (-s.g * m * Real.sin phi,
   -s.g * m * (xs * Real.cos phi + zs * Real.sin phi),
   s.g * m * Real.cos phi)

/-- `calc_qn`, `weac/mixins.py` 556-565. -/
noncomputable def calcQn (s : Self) : ℝ := (getWeightLoad s s.phi).1 + (getSurfaceLoad s s.phi).1

/-- `calc_qt`, `weac/mixins.py` 567-576. -/
noncomputable def calcQt (s : Self) : ℝ := (getWeightLoad s s.phi).2 + (getSurfaceLoad s s.phi).2

/-- Touchdown part of the right-hand side, one pass of the loop
`weac/mixins.py` 1217-1232. -/
noncomputable def rhsTouchdownStep (s : Self) (nS : ℕ) (ki : List Bool) (rhs : ℕ → ℝ) (i : ℕ) :
    ℕ → ℝ :=
  let k := ki.getD i false
  let rhs := if !k && s.mode = .B then
      let rhs := if i = 0 then write3 rhs 0 0 0 s.tc else rhs
      if i + 1 = nS then write3 rhs (6 * nS - 3) 0 0 s.tc else rhs
    else rhs
  if !k && s.mode = .C then
    let N := calcQt s * (s.a - s.td)
    let rhs := if i = 0 then write3 rhs 0 (-N) 0 s.tc else rhs
    if i + 1 = nS then write3 rhs (6 * nS - 3) N 0 s.tc else rhs
  else rhs

/-- A function in the place of `numpy.linalg.solve`: number of equations,
matrix, right-hand side. -/
abbrev LinSolver := ℕ → (ℕ → ℕ → ℝ) → (ℕ → ℝ) → Res (ℕ → ℝ)

/-- Linear system and solution, `weac/mixins.py` 1144-1249, for `nS ≥ 2`
segments and any solver in line 1247. -/
noncomputable def asmSolveBy (solve : LinSolver) (sub : Py ℝ) (phi : ℝ) (a : SegLists) : Py (List Vec6) := do
  let nS := a.li.length
  let (zh0, zp0) ← forLoop (asmBody sub phi nS a.li a.ki) (List.range nS)
    ((fun _ _ => 0), (fun _ => 0))
  let s ← Py.get
  let rhs := rhsSkiers s phi a.mi
  let rhs ←
    if s.system ≠ "pst-" ∧ s.system ≠ "-pst" ∧ s.system ≠ "rested" then do
      let b0 ← bc sub false .m
      let v0 := b0 (zp s 0 phi (a.ki.getD 0 false))
      let rhs := write3 rhs 0 (v0 0) (v0 1) (v0 2)
      let b1 ← bc sub false .m
      let v1 := b1 (zp s (nth a.li (nS - 1)) phi (a.ki.getD (nS - 1) false))
      pure (write3 rhs (6 * nS - 3) (v1 0) (v1 1) (v1 2))
    else pure rhs
  let rhs :=
    if s.system = "vpst-" ∨ s.system = "-vpst" then
      let F := verticalForces s phi
      write3 (write3 rhs 0 F.1 F.2.1 F.2.2) (6 * nS - 3) F.1 F.2.1 F.2.2
    else rhs
  let rhs := (List.range nS).foldl (rhsTouchdownStep s nS a.ki) rhs
  let rhs := if s.system = "rot" then (fun r => if r = 1 then 1 else 0) else rhs
  let rhs := if s.system = "trans" then (fun r => if r = 2 then 1 else 0) else rhs
  let x ← Py.lift (solve (6 * nS) zh0 (fun r => rhs r - zp0 r))
  return (List.range nS).map fun i => fun j : Fin 6 => x (6 * i + j)

/-- The same with the exact solver. -/
noncomputable def asmSolve (sub : Py ℝ) (phi : ℝ) (a : SegLists) : Py (List Vec6) := asmSolveBy npSolve sub phi a

/-- Systems whose ends are not infinite, `weac/mixins.py` 1127. -/
def finiteSystem (sys : String) : Prop :=
  sys = "pst-" ∨ sys = "-pst" ∨ sys = "vpst-" ∨ sys = "-vpst" ∨ sys = "rot" ∨ sys = "trans"

instance (sys : String) : Decidable (finiteSystem sys) := by
  unfold finiteSystem; infer_instance

/-- `assemble_and_solve`, `weac/mixins.py` 1083-1249. Returns the constants
and the argument lists as the caller sees them afterwards: with one segment
the arguments are extended in place, which fails for numpy arrays. -/
noncomputable def assembleBy (solve : LinSolver) (sub : Py ℝ) (kind : SeqKind) (phi : ℝ) (a : SegLists) :
    Py (List Vec6 × SegLists) := do
  if ¬ (a.ki.any id) then Py.raise .valueError
  else if a.li.length ≠ a.ki.length ∨ (a.li.length : ℤ) - 1 ≠ (a.mi.length : ℤ) then
    Py.raise .valueError
  else do
    let s ← Py.get
    if ¬ finiteSystem s.system ∧
        ¬ (a.ki.getD 0 false && a.ki.getD (a.ki.length - 1) false) then Py.raise .valueError
    else if a.li.length = 1 then
      match kind with
      | .ndarray => Py.raise .attributeError
      | .list => do
        let a' : SegLists := ⟨a.li ++ [0], a.mi ++ [0], a.ki ++ [true]⟩
        let C ← asmSolveBy solve sub phi a'
        return (C, a')
    else do
      let C ← asmSolveBy solve sub phi a
      return (C, a)

/-- The same with the exact solver. -/
noncomputable def assembleWith (sub : Py ℝ) (kind : SeqKind) (phi : ℝ) (a : SegLists) :
    Py (List Vec6 × SegLists) := assembleBy npSolve sub kind phi a

/-- The rotational spring inside `bc` cannot be reached from the auxiliary
system; the model marks it as an error of its own. -/
def noSub : Py ℝ := Py.raise .runtimeError

/-- Argument `dof` / `support` of `substitute_stiffness`. -/
inductive Dof where
  | rot | trans | other
  deriving DecidableEq

/-- `substitute_stiffness`, `weac/mixins.py` 578-635. `rested` is
`support == "rested"`. -/
noncomputable def substituteStiffness (eig : EigSolver) (L : ℝ) (rested : Bool) (dof : Dof) :
    Py ℝ := do
  let s0 ← Py.get
  (match dof with
    | .rot => Py.modify fun s => { s with system := "rot" }
    | .trans => Py.modify fun s => { s with system := "trans" }
    | .other => pure ())
  (if rested then do
      Py.modify fun s => { s with kn := s.ratio * s.kn, kt := s.ratio * s.kt }
      Py.modify (calcEigensystem eig)
    else pure ())
  let out ← assembleWith noSub .ndarray 0 ⟨[L, 0], [0], [true, true]⟩
  let C := out.1
  let s ← Py.get
  let pts ← Py.lift (rasterize s 0 1
    [⟨C.getD 0 0, true, L⟩, ⟨C.getD 1 0, true, 0⟩])
  let z := (pts.map GridPt.z).getD 0 0
  match dof with
  | .other => Py.raise .unboundLocalError
  | d => do
    let k := if d = .rot then |1 / fpsi z| else |1 / fw z|
    Py.modify fun s => { s with system := s0.system }
    (if rested then do
        Py.modify fun s => { s with kn := s0.kn, kt := s0.kt }
        Py.modify (calcEigensystem eig)
      else pure ())
    return k

/-- `assemble_and_solve` with the real rotational spring. -/
noncomputable def assembleAndSolve (num : Numerics) (kind : SeqKind) (phi : ℝ) (a : SegLists) :
    Py (List Vec6 × SegLists) :=
  assembleWith (do
    let s ← Py.get
    substituteStiffness num.eig (s.a - s.td) true .rot) kind phi a

/-- `assemble_and_solve` with the real rotational spring and any solver of the
linear system; the spring itself is computed exactly. -/
noncomputable def assembleAndSolveBy (solve : LinSolver) (num : Numerics) (kind : SeqKind) (phi : ℝ) (a : SegLists) :
    Py (List Vec6 × SegLists) :=
  assembleBy solve (do
    let s ← Py.get
    substituteStiffness num.eig (s.a - s.td) true .rot) kind phi a

/-- Iterations of `scipy.optimize.brentq` after both ends are evaluated; the
default `maxiter` is 100. -/
noncomputable def brentLoop (next : List (ℝ × ℝ) → ℝ ⊕ ℝ) (f : ℝ → Py ℝ) :
    ℕ → List (ℝ × ℝ) → Py ℝ
  | 0, _ => Py.raise .runtimeError
  | n + 1, hist =>
    match next hist with
    | .inr r => pure r
    | .inl x => do
      let y ← f x
      brentLoop next f n (hist ++ [(x, y)])

/-- `scipy.optimize.brentq(f, a, b)`: both ends are evaluated, an end point
with value zero is returned, equal signs raise `ValueError`. -/
noncomputable def brentq (num : Numerics) (f : ℝ → Py ℝ) (a b : ℝ) : Py ℝ := do
  let fa ← f a
  let fb ← f b
  if fa = 0 then return a
  else if fb = 0 then return b
  else if 0 < fa * fb then Py.raise .valueError
  else brentLoop (num.brent a b) f 100 [(a, fa), (b, fb)]

/-- Polynomial inside `calc_a1`, `weac/mixins.py` 654-663. -/
noncomputable def polyA1 (eig : EigSolver) (bs ss L tc qn x : ℝ) : Py ℝ := do
  let kRl ← substituteStiffness eig (L - x) false .rot
  let kNl ← substituteStiffness eig (L - x) false .trans
  let c1 := 1 / (8 * bs)
  let c2 := 1 / (2 * kRl)
  let c3 := 1 / (2 * ss)
  let c4 := 1 / kNl
  let c5 := -tc / qn
  return c1 * x ^ 4 + c2 * x ^ 3 + c3 * x ^ 2 + c4 * x + c5

/-- `bs = -(self.B11**2 / self.A11 - self.D11)`, `weac/mixins.py` 647. -/
noncomputable def bsOf (s : Self) : ℝ := -(s.B11 ^ 2 / s.A11 - s.D11)

/-- `calc_a1`, `weac/mixins.py` 637-668. -/
noncomputable def calcA1 (num : Numerics) : Py ℝ := do
  let s ← Py.get
  brentq num (polyA1 num.eig (bsOf s) s.kA55 s.L s.tc (calcQn s)) (s.L / 1000) (999 / 1000 * s.L)

/-- Polynomial inside `calc_a2`, `weac/mixins.py` 687-700. -/
noncomputable def polyA2 (eig : EigSolver) (bs ss L tc qn x : ℝ) : Py ℝ := do
  let kRl ← substituteStiffness eig (L - x) false .rot
  let kNl ← substituteStiffness eig (L - x) false .trans
  let c1 := ss ^ 2 * kRl * kNl * qn
  let c2 := 6 * ss ^ 2 * bs * kNl * qn
  let c3 := 30 * bs * ss * kRl * kNl * qn
  let c4 := 24 * bs * qn * (2 * ss ^ 2 * kRl + 3 * bs * ss * kNl)
  let c5 := 72 * bs * (bs * qn * (ss ^ 2 + kRl * kNl) - ss ^ 2 * kRl * kNl * tc)
  let c6 := 144 * bs * ss * (bs * kRl * qn - bs * ss * kNl * tc)
  let c7 := -144 * bs ^ 2 * ss * kRl * kNl * tc
  return c1 * x ^ 6 + c2 * x ^ 5 + c3 * x ^ 4 + c4 * x ^ 3 + c5 * x ^ 2 + c6 * x + c7

/-- `calc_a2`, `weac/mixins.py` 670-705. -/
noncomputable def calcA2 (num : Numerics) : Py ℝ := do
  let s ← Py.get
  brentq num (polyA2 num.eig (bsOf s) s.kA55 s.L s.tc (calcQn s)) (s.L / 1000) (999 / 1000 * s.L)

/-- Polynomial inside `calc_lC`, `weac/mixins.py` 735-768. -/
noncomputable def polyLC (eig : EigSolver) (bs ss L a tc qn x : ℝ) : Py ℝ := do
  let kRl ← substituteStiffness eig (L - a) false .rot
  let kNl ← substituteStiffness eig (L - a) false .trans
  let kRr ← substituteStiffness eig (a - x) true .rot
  let c1 := ss ^ 2 * kRl * kNl * qn
  let c2 := 6 * ss * kNl * qn * (bs * ss + kRl * kRr)
  let c3 := 30 * bs * ss * kNl * qn * (kRl + kRr)
  let c4 := 24 * bs * qn * (2 * ss ^ 2 * kRl + 3 * bs * ss * kNl + 3 * kRl * kRr * kNl)
  let c5 := 72 * bs * (bs * qn * (ss ^ 2 + kNl * (kRl + kRr))
              + ss * kRl * (2 * kRr * qn - ss * kNl * tc))
  let c6 := 144 * bs * ss * (bs * qn * (kRl + kRr) - kNl * tc * (bs * ss + kRl * kRr))
  let c7 := -144 * bs ^ 2 * ss * kNl * tc * (kRl + kRr)
  return c1 * x ^ 6 + c2 * x ^ 5 + c3 * x ^ 4 + c4 * x ^ 3 + c5 * x ^ 2 + c6 * x + c7

/-- `calc_lC`, `weac/mixins.py` 723-773. -/
noncomputable def calcLC (num : Numerics) : Py ℝ := do
  let s ← Py.get
  brentq num (polyLC num.eig (bsOf s) s.kA55 s.L s.a s.tc (calcQn s)) (s.a / 1000)
    (999 / 1000 * s.a)

/-- `set_tc`, `weac/mixins.py` 519-531. -/
noncomputable def setTc (cf : ℝ) (s : Self) : Self := { s with tc := cf * s.t - calcQn s / s.kn }

/-- `set_touchdown_attributes`, `weac/mixins.py` 775-781. -/
noncomputable def setTouchdownAttributes (L a cf phi ratio : ℝ) (s : Self) : Self :=
  let s := { s with L := L }
  let s := { s with a := a }
  let s := setTc cf s
  let s := { s with phi := phi }
  { s with ratio := ratio }

/-- `calc_touchdown_mode`, `weac/mixins.py` 783-798. -/
noncomputable def calcTouchdownMode (num : Numerics) : Py Unit := do
  let s ← Py.get
  if s.touchdown then do
    let a1 ← calcA1 num
    let a2 ← calcA2 num
    let s ← Py.get
    if s.a ≤ a1 then Py.modify fun s => { s with mode := .A }
    else if a1 < s.a ∧ s.a ≤ a2 then Py.modify fun s => { s with mode := .B }
    else if a2 < s.a then Py.modify fun s => { s with mode := .C }
    else Py.raise .unboundLocalError
  else Py.modify fun s => { s with mode := .A }

/-- `calc_touchdown_length`, `weac/mixins.py` 800-807, with `calc_lA`,
`calc_lB` (707-721). -/
noncomputable def calcTouchdownLength (num : Numerics) : Py Unit := do
  let s ← Py.get
  match s.mode with
  | .A => Py.modify fun s => { s with td := s.a }
  | .B => Py.modify fun s => { s with td := s.a }
  | .C => do
    let l ← calcLC num
    Py.modify fun s => { s with td := l }
  | .unset => pure ()

/-- `calc_touchdown_system`, `weac/mixins.py` 809-813. -/
noncomputable def calcTouchdownSystem (num : Numerics) (L a cf phi ratio : ℝ) : Py Unit := do
  Py.modify (setTouchdownAttributes L a cf phi ratio)
  calcTouchdownMode num
  calcTouchdownLength num

/-- Result of `calc_segments`: the lists behind `segments["both"]`. -/
structure Segments where
  li : List ℝ
  mi : List ℝ
  ki : List Bool
  k0 : List Bool

/-- `calc_segments`, `weac/mixins.py` 973-1081. A class without
`SlabContactMixin` has no `calc_touchdown_system`. -/
noncomputable def calcSegments (num : Numerics) (li mi : List ℝ) (ki k0 : List Bool)
    (L a m phi cf ratio : ℝ) : Py Segments := do
  let s ← Py.get
  (if s.hasContact then calcTouchdownSystem num L a cf phi ratio
    else Py.raise .attributeError)
  let s ← Py.get
  if s.system = "skiers" then return ⟨li, mi, ki, k0⟩
  else if s.system = "pst-" then return ⟨[L - s.a, s.td], [0], [true, false], [true, true]⟩
  else if s.system = "-pst" then return ⟨[s.td, L - s.a], [0], [false, true], [true, true]⟩
  else if s.system = "vpst-" then return ⟨[L - a, a], [0], [true, false], [true, true]⟩
  else if s.system = "-vpst" then return ⟨[a, L - a], [0], [false, true], [true, true]⟩
  else if s.system = "skier" then
    let lb := (L - s.a) / 2
    let lf := s.a / 2
    return ⟨[lb, lf, lf, lb], [0, m, 0], [true, false, false, true], [true, true, true, true]⟩
  else Py.raise .valueError

/-- Argument `layers` of the constructors. -/
inductive CtorLayers where
  | none
  | rows (l : List Ply)
  | ndarray (l : List Ply)
  | str (s : String)

/-- Truth value of the `layers` argument in `layers if layers else …`; an
array with more than one element has none (each row has two elements). -/
def CtorLayers.truthy : CtorLayers → Res Bool
  | .none => .ok false
  | .rows l => .ok (!l.isEmpty)
  | .ndarray [] => .ok false
  | .ndarray (_ :: _) => .error .valueError
  | .str s => .ok (s ≠ "")

/-- `Layered.__init__`, `weac/layered.py` 24-49. -/
noncomputable def layeredInit (eig : EigSolver) (system : String) (layers : CtorLayers)
    (touchdown : Bool) : Res Self := do
  let s0 := Self.init system touchdown true
  let b ← layers.truthy
  let arg : LayersArg := if b then
      match layers with
      | .rows l => .rows l
      | .ndarray l => .rows l
      | .str s => .str s
      | .none => .rows [⟨240, 200⟩]
    else .rows [⟨240, 200⟩]
  let r := setBeamProperties eig arg 6.5 4.4 0.25 false s0
  r.1
  let s1 := setFoundationProperties eig 30 0.25 0.25 false r.2
  return calcFundamentalSystem eig s1

/-- `Inverse.__init__`, `weac/inverse.py` 28-54. `np.array(None)[:, 0]` has
too few dimensions. -/
noncomputable def inverseInit (eig : EigSolver) (system : String) (layers : CtorLayers)
    (C0 C1 Eweak : ℝ) : Res Self := do
  let s0 := Self.init system false false
  let arg ← (match layers with
    | .none => (.error .indexError : Res LayersArg)
    | .rows l => .ok (.rows l)
    | .ndarray l => .ok (.rows l)
    | .str s => .ok (.str s))
  let r := setBeamProperties eig arg C0 C1 0.25 false s0
  r.1
  let s1 := setFoundationProperties eig 30 Eweak 0.25 false r.2
  return calcFundamentalSystem eig s1

end Weac
