import Verif.Model.Raster
import Verif.Model.Solution

/-!
# Model of the potentials of `OutputMixin`, `weac/mixins.py` 1780-1920

The matrix `C` of constants and the lists `li`, `ki` in `segments` are one
list of segments, as for `rasterize_solution`; `num` is the keyword of
`rasterize_solution` that `**segments` may carry (250 by default). The printed
message for other systems is not modelled. Division by the length `0` of an
array raises `ZeroDivisionError`: the dividends are Python floats.
-/

namespace Weac

/-- `np.average` of a non-empty array. -/
noncomputable def average (v : List ℝ) : ℝ := v.sum / v.length

/-- `segments["li"][i]`. -/
def lengthAt (segs : List Seg) (i : ℕ) : Res ℝ :=
  match segs[i]? with
  | some g => .ok g.l
  | none => .error .indexError

/-- `v[-1]` for `'pst-'`, `v[0]` for `'-pst'`, `weac/mixins.py` 1819-1822; the
name is not assigned for other systems. -/
def endValue (system : String) (v : List ℝ) : Res ℝ :=
  if system = "pst-" then .ok (v.getLastD 0)
  else if system = "-pst" then .ok (v.headD 0)
  else .error .unboundLocalError

/-- `external_potential`, `weac/mixins.py` 1780-1830. -/
noncomputable def externalPotential (s : Self) (phi L : ℝ) (num : ℕ) (segs : List Seg) : Res ℝ := do
  let pts ← rasterize s phi num segs
  let w0 := pts.map fun p => fw p.z
  let us := pts.map fun p => fu p.z s.zs
  let qn := calcQn s
  let qt := calcQt s
  let l0 ← lengthAt segs 0
  let l1 ← lengthAt segs 1
  let P := -qn * (l0 + l1) * average w0 - qn * (L - (l0 + l1)) * s.tc
  let ub ← endValue s.system us
  pure (P + (-qt * (l0 + l1) * average us - qt * (L - (l0 + l1)) * ub))

/-- Energy of the end spring, `weac/mixins.py` 1884-1890. -/
noncomputable def springShare (system : String) (m psi : List ℝ) : ℝ :=
  if system = "pst-" then 1 / 2 * m.getLastD 0 * psi.getLastD 0 ^ 2
  else if system = "-pst" then 1 / 2 * m.headD 0 * psi.headD 0 ^ 2
  else 0

/-- `internal_potential`, `weac/mixins.py` 1832-1892. -/
noncomputable def internalPotential (s : Self) (phi L : ℝ) (num : ℕ) (segs : List Seg) : Res ℝ := do
  let pts ← rasterize s phi num segs
  let N := pts.map fun p => fN s p.z
  let M := pts.map fun p => fM s p.z
  let V := pts.map fun p => fV s p.z
  let zweak := pts.filter fun p => p.sup
  let wweak := zweak.map fun p => fw p.z
  let uweak := zweak.map fun p => fu p.z (s.h / 2)
  let n : ℝ := pts.length
  let nweak : ℝ := zweak.length
  if zweak.length = 0 then .error .zeroDivisionError else
  pure (L / 2 / n / s.A11 * (N.map (· ^ 2)).sum
    + L / 2 / n / (s.D11 - s.B11 ^ 2 / s.A11) * (M.map (· ^ 2)).sum
    + L / 2 / n / s.kA55 * (V.map (· ^ 2)).sum
    + L * s.kn / 2 / nweak * (wweak.map (· ^ 2)).sum
    + L * s.kt / 2 / nweak * (uweak.map (· ^ 2)).sum
    + springShare s.system M (pts.map fun p => fpsi p.z))

/-- `total_potential`, `weac/mixins.py` 1894-1920. -/
noncomputable def totalPotential (s : Self) (phi L : ℝ) (num : ℕ) (segs : List Seg) : Res ℝ := do
  let i ← internalPotential s phi L num segs
  let e ← externalPotential s phi L num segs
  pure (i + e)

end Weac
