import Verif.Model.Eigensystem

/-!
# Set-up of the slab in floating point

The functions that compute thickness, centre of gravity, weight and stiffnesses,
once more, with every arithmetic operation followed by a rounding `fl`. The order
of the operations is that of the code. `fl` and the power function are parameters;
their contracts are in `Verif.Spec.Rounding`. Literals that are no binary fractions
(`1e-12`, `1/3`, `5/6`) are rounded as well. Exponents `**2` and `**3` of floats
count as one operation.
-/

namespace Weac

section

variable (fl : ℝ → ℝ)

/-- Python's `sum` of floats: from the left, starting with `0`. -/
noncomputable def flSum (l : List ℝ) : ℝ := l.foldl (fun a x => fl (a + x)) 0

/-- `calc_center_of_gravity`, `weac/tools.py` 82-110. -/
noncomputable def calcCenterOfGravityFl (layers : List Ply) : ℝ × ℝ :=
  let n := layers.length
  let rho := (layers.map fun l => fl (fl 1e-12 * l.rho)).reverse
  let h := (layers.map fun l => l.h).reverse
  let H := flSum fl h
  let zi := (List.range n).map fun j => fl (fl (fl (H / 2) - flSum fl (h.take j)) - fl (nth h j / 2))
  let zs := fl (flSum fl (List.zipWith (fun a r => fl (a * r)) (List.zipWith (fun z d => fl (z * d)) zi h) rho)
              / flSum fl (List.zipWith (fun d r => fl (d * r)) h rho))
  (H, zs)

/-- The line load `q` of `get_weight_load`, `weac/eigensystem.py` 421-424. -/
noncomputable def lineLoadFl (g : ℝ) (slab : List Layer) : ℝ :=
  flSum fl (slab.map fun l => fl (fl (fl (l.rho * fl 1e-12) * g) * l.h))

/-- `calc_foundation_stiffness`, `weac/eigensystem.py` 257-265. Returns `(kn, kt)`. -/
noncomputable def foundationFl (weak : Weak) (t : ℝ) : ℝ × ℝ :=
  let G := fl (weak.E / fl (2 * fl (1 + weak.nu)))
  let E := fl (weak.E / fl (1 - fl (weak.nu ^ 2)))
  (fl (E / t), fl (G / t))

/-- `bergfeld`, `weac/tools.py` 212-234. -/
noncomputable def bergfeldFl (pow : ℝ → ℝ → ℝ) (rho : ℝ) (rho0 : ℝ := 917) (C0 : ℝ := 6.5) (C1 : ℝ := 4.4) : ℝ :=
  fl (fl (C0 * 1e3) * pow (fl (rho / rho0)) C1)

/-- The matrix `slab` of `set_beam_properties`, `weac/eigensystem.py` 218-234, for
layers given as rows. -/
noncomputable def slabFl (pow : ℝ → ℝ → ℝ) (layers : List Ply) (C0 C1 nu : ℝ) : List Layer :=
  layers.map fun l =>
    let E := bergfeldFl fl pow l.rho 917 C0 C1
    ⟨l.rho, l.h, E, fl (E / fl (2 * fl (1 + nu))), nu⟩

/-- `np.cumsum` of floats. -/
noncomputable def flCumsum (l : List ℝ) : List ℝ := (List.range l.length).map fun i => flSum fl (l.take (i + 1))

/-- `get_ply_coordinates`, `weac/eigensystem.py` 267-281. -/
noncomputable def plyCoordinatesFl (h : ℝ) (slab : List Layer) : List ℝ :=
  (flCumsum fl ((0 : ℝ) :: slab.map fun l => l.h)).map fun z => fl (z - fl (h / 2))

/-- The sums of `calc_laminate_stiffness_matrix`, `weac/eigensystem.py` 283-300.
Returns `(A11, B11, D11, kA55)`. -/
noncomputable def laminateFl (h : ℝ) (slab : List Layer) : ℝ × ℝ × ℝ × ℝ :=
  let z := plyCoordinatesFl fl h slab
  let k := fl (5 / 6)
  (List.range (z.length - 1)).foldl (fun acc i =>
    let l := slab.getD i ⟨0, 0, 0, 0, 0⟩
    let m := fl (1 - fl (l.nu ^ 2))
    (fl (acc.1 + fl (fl (l.E / m) * fl (nth z (i + 1) - nth z i))),
     fl (acc.2.1 + fl (fl (fl (1 / 2 * l.E) / m) * fl (fl (nth z (i + 1) ^ 2) - fl (nth z i ^ 2)))),
     fl (acc.2.2.1 + fl (fl (fl (fl (1 / 3) * l.E) / m) * fl (fl (nth z (i + 1) ^ 3) - fl (nth z i ^ 3)))),
     fl (acc.2.2.2 + fl (fl (k * l.G) * fl (nth z (i + 1) - nth z i))))) (0, 0, 0, 0)

/-- `K0`, `weac/eigensystem.py` 306. -/
noncomputable def determinantFl (A B D : ℝ) : ℝ := fl (fl (B ^ 2) - fl (A * D))

end

end Weac
