import Verif.Model.Rounded
import Verif.Model.Fields

/-!
# Evaluation of the solution in floating point

Loads, complementary and particular solution, state vector and field quantities, once more, with every arithmetic operation followed by a
rounding `fl`, in the order of the code. The attributes of the object, the constants
`C` and the eigenvalues and eigenvectors are the numbers stored. Multiplying by the
shifts `sR`, `sC`, which are `0` or `-1`, and changing the sign are exact. Functions
of the numerical library are parameters; their contracts are in
`Verif.Spec.Rounding`.
-/

namespace Weac

/-- Functions of the numerical library: elementary functions and the product of a
row and a column in `np.dot`, whose order of summation is not known. -/
structure Libm where
  exp : ℝ → ℝ
  cos : ℝ → ℝ
  sin : ℝ → ℝ
  dot : Vec6 → Vec6 → ℝ

section

variable (fl : ℝ → ℝ) (lib : Libm)

/-- `np.deg2rad`. -/
noncomputable def deg2radFl (phi : ℝ) : ℝ := fl (phi * fl (fl Real.pi / 180))

/-- `get_weight_load`, `weac/eigensystem.py` 402-429. Returns `(qn, qt)`. -/
noncomputable def weightLoadFl (s : Self) (phi : ℝ) : ℝ × ℝ :=
  let phi := deg2radFl fl phi
  let q := lineLoadFl fl s.g s.slab
  (fl (q * lib.cos phi), fl (-q * lib.sin phi))

/-- `get_surface_load`, `weac/eigensystem.py` 431-453. Returns `(pn, pt)`. -/
noncomputable def surfaceLoadFl (s : Self) (phi : ℝ) : ℝ × ℝ :=
  let phi := deg2radFl fl phi
  (fl (s.p * lib.cos phi), fl (-s.p * lib.sin phi))

/-- `get_skier_load`, `weac/eigensystem.py` 455-478. Returns `(Fn, Ft)`. -/
noncomputable def skierLoadFl (s : Self) (m phi : ℝ) : ℝ × ℝ :=
  let phi := deg2radFl fl phi
  let F := fl (fl (fl (fl 1e-3 * m) * s.g) / s.lski)
  (fl (F * lib.cos phi), fl (-F * lib.sin phi))

/-- Columns of `zh(x, l, bed=True)`, `weac/eigensystem.py` 499-510. -/
noncomputable def zhBedFl (e : Eigs) (x l : ℝ) : List Vec6 :=
  (e.re.map fun m => fun i => fl (m.ev i * lib.exp (fl (m.ew * fl (x + l * m.s))))) ++
  (e.cx.map fun m => fun i => fl (lib.exp (fl (m.ew.re * fl (x + l * m.s))) *
      fl (fl ((m.ev i).re * lib.cos (fl (m.ew.im * x))) - fl ((m.ev i).im * lib.sin (fl (m.ew.im * x)))))) ++
  (e.cx.map fun m => fun i => fl (lib.exp (fl (m.ew.re * fl (x + l * m.s))) *
      fl (fl ((m.ev i).im * lib.cos (fl (m.ew.im * x))) + fl ((m.ev i).re * lib.sin (fl (m.ew.im * x))))))

/-- `zp(x, phi, bed=True)`, `weac/eigensystem.py` 549-573. -/
noncomputable def zpBedFl (s : Self) (phi : ℝ) : Vec6 :=
  let qn := (weightLoadFl fl lib s phi).1
  let qt := (weightLoadFl fl lib s phi).2
  let pn := (surfaceLoadFl fl lib s phi).1
  let pt := (surfaceLoadFl fl lib s phi).2
  ![fl (fl (fl (fl (qt + pt) / s.kt) +
        fl (fl (fl (s.h * qt) * fl (fl (s.h + s.t) - fl (2 * s.zs))) / fl (4 * s.kA55))) +
      fl (fl (fl (s.h * pt) * fl (fl (2 * s.h) + s.t)) / fl (4 * s.kA55))),
    0,
    fl (fl (qn + pn) / s.kn),
    0,
    fl (-fl (fl (qt * fl (fl (s.h + s.t) - fl (2 * s.zs))) + fl (pt * fl (fl (2 * s.h) + s.t))) / fl (2 * s.kA55)),
    0]

/-- `zh(x, l, bed=False)`, `weac/eigensystem.py` 511-523. -/
noncomputable def zhFreeFl (s : Self) (x : ℝ) : Mat6 :=
  let H14 := fl (fl (fl (3 * s.B11) / s.A11) * fl (x ^ 2))
  let H24 := fl (fl (fl (6 * s.B11) / s.A11) * x)
  let H54 := fl (fl (-3 * fl (x ^ 2)) + fl (fl (6 * s.K0) / fl (s.A11 * s.kA55)))
  !![0, 0,  0,           H14,               1, x;
     0, 0,  0,           H24,               0, 1;
     1, x,  fl (x ^ 2),  fl (x ^ 3),        0, 0;
     0, 1,  fl (2 * x),  fl (3 * fl (x ^ 2)), 0, 0;
     0, -1, fl (-2 * x), H54,               0, 0;
     0, 0,  -2,          fl (-6 * x),       0, 0]

/-- `zp(x, phi, bed=False)`, `weac/eigensystem.py` 549-585. -/
noncomputable def zpFreeFl (s : Self) (x phi : ℝ) : Vec6 :=
  let qt := (weightLoadFl fl lib s phi).2
  let pt := (surfaceLoadFl fl lib s phi).2
  let n := fl ((weightLoadFl fl lib s phi).1 + (surfaceLoadFl fl lib s phi).1)
  let r := fl (fl (fl (s.B11 * n) * x) / s.K0)
  ![fl (fl (fl (fl (fl (-3 * fl (qt + pt)) / s.A11) - r) / 6) * fl (x ^ 2)),
    fl (fl (fl (fl (fl (-2 * fl (qt + pt)) / s.A11) - r) / 2) * x),
    fl (fl (fl (-s.A11 * n) * fl (x ^ 4)) / fl (24 * s.K0)),
    fl (fl (fl (-s.A11 * n) * fl (x ^ 3)) / fl (6 * s.K0)),
    fl (fl (fl (fl (s.A11 * n) * fl (x ^ 3)) / fl (6 * s.K0)) +
      fl (fl (fl (fl (fl (s.zs - fl (s.B11 / s.A11)) * qt) - fl (fl (s.h * pt) / 2)) - fl (n * x)) / s.kA55)),
    fl (n * fl (fl (fl (s.A11 * fl (x ^ 2)) / fl (2 * s.K0)) - fl (1 / s.kA55)))]

/-- `z` at one position, `weac/eigensystem.py` 587-617. -/
noncomputable def zsolFl (s : Self) (x : ℝ) (C : Vec6) (l phi : ℝ) (bed : Bool) : Vec6 := fun i =>
  fl (lib.dot (fun j => if bed then (zhBedFl fl lib s.eigs x l).getD j 0 i else zhFreeFl fl s x i j) C
    + (if bed then zpBedFl fl lib s phi i else zpFreeFl fl lib s x phi i))

/-- `w`, `weac/mixins.py` 25-47, with factor `c` of the unit. -/
noncomputable def fwFl (c : ℝ) (Z : Vec6) : ℝ := fl (c * Z 2)

/-- `u`, `weac/mixins.py` 105-129, with factor `c` of the unit. -/
noncomputable def fuFl (c : ℝ) (Z : Vec6) (z0 : ℝ) : ℝ := fl (c * fl (Z 0 + fl (z0 * Z 4)))

/-- `N`, `weac/mixins.py` 150-164. -/
noncomputable def fNFl (s : Self) (Z : Vec6) : ℝ := fl (fl (s.A11 * Z 1) + fl (s.B11 * Z 5))

/-- `M`, `weac/mixins.py` 166-180. -/
noncomputable def fMFl (s : Self) (Z : Vec6) : ℝ := fl (fl (s.B11 * Z 1) + fl (s.D11 * Z 5))

/-- `V`, `weac/mixins.py` 182-196. -/
noncomputable def fVFl (s : Self) (Z : Vec6) : ℝ := fl (s.kA55 * fl (Z 3 + Z 4))

/-- `sig`, `weac/mixins.py` 198-215, with factor `c` of the unit. -/
noncomputable def fsigFl (s : Self) (c : ℝ) (Z : Vec6) : ℝ := fl (fl (-c * s.kn) * fwFl fl 1 Z)

/-- `tau`, `weac/mixins.py` 217-238, with factor `c` of the unit. -/
noncomputable def ftauFl (s : Self) (c : ℝ) (Z : Vec6) : ℝ :=
  fl (fl (-c * s.kt) * fl (fl (fl (Z 3 * s.t) / 2) - fuFl fl 1 Z (fl (s.h / 2))))

/-- `Gi`, `weac/mixins.py` 272-295, with factor `c` of the unit. -/
noncomputable def fGiFl (s : Self) (c : ℝ) (Z : Vec6) : ℝ := fl (fl (c * fl (fsigFl fl s 1 Z ^ 2)) / fl (2 * s.kn))

/-- `Gii`, `weac/mixins.py` 297-320, with factor `c` of the unit. -/
noncomputable def fGiiFl (s : Self) (c : ℝ) (Z : Vec6) : ℝ := fl (fl (c * fl (ftauFl fl s 1 Z ^ 2)) / fl (2 * s.kt))

end

end Weac
