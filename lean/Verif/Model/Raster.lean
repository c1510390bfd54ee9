import Verif.Model.Fields
import Mathlib.Algebra.Order.Floor.Semiring
import Mathlib.Algebra.Order.Archimedean.Real.Basic

/-!
# Model of `AnalysisMixin.rasterize_solution`, `weac/mixins.py` 1260-1343

The arrays `xq`, `zq`, `xb` are one list of grid points; NaN entries of `xb`
are `none`. Slice assignments `xq[nqc[i]:nqc[i+1]] = …` with consecutive
cumulative indices are list concatenation.
-/

namespace Weac

/-- One grid point: coordinate, solution vector, and whether `issupported`. -/
structure GridPt where
  x : ℝ
  z : Vec6
  sup : Bool

/-- Entry of `xb`. -/
def GridPt.xb (p : GridPt) : Option ℝ := if p.sup then some p.x else none

/-- A beam segment as seen by `rasterize_solution`: constants, support, length. -/
structure Seg where
  C : Vec6
  k : Bool
  l : ℝ

/-- `np.linspace(0, l, num=n, endpoint=e)`. -/
noncomputable def linspace (l : ℝ) (n : ℕ) (e : Bool) : List ℝ :=
  (List.range n).map fun (j : ℕ) => if e then l * (j : ℝ) / ((n - 1 : ℕ) : ℝ) else l * (j : ℝ) / (n : ℝ)

/-- Number of grid points of a segment, `weac/mixins.py` 1306-1307. -/
noncomputable def nqOf (num : ℕ) (tot l : ℝ) (last : Bool) : ℕ :=
  ⌈l / tot * (num : ℝ)⌉₊ + if last then 1 else 0

/-- Grid points of one segment, `weac/mixins.py` 1319-1333. `prev` is the
support of the segment to the left (`none` for the first one); it decides the
mask of the first grid point (`transmissionbool`, `weac/mixins.py` 1335-1338). -/
noncomputable def segPts (s : Self) (phi : ℝ) (num : ℕ) (tot x0 : ℝ) (prev : Option Bool)
    (g : Seg) (last : Bool) : List GridPt :=
  (linspace g.l (nqOf num tot g.l last) last).mapIdx fun j xi =>
    { x := x0 + xi
      z := zsol s xi g.C g.l phi g.k
      sup := if j = 0 then (match prev with | some k' => k' || g.k | none => g.k) else g.k }

/-- Loop over the segments, `weac/mixins.py` 1319-1338. -/
noncomputable def rasterLoop (s : Self) (phi : ℝ) (num : ℕ) (tot : ℝ) :
    ℝ → Option Bool → List Seg → List GridPt
  | _, _, [] => []
  | x0, prev, g :: gs =>
    segPts s phi num tot x0 prev g gs.isEmpty ++
      rasterLoop s phi num tot (x0 + g.l) (some g.k) gs

/-- `li = abs(li)` and `isnonzero = li > 0`, `weac/mixins.py` 1300-1303. -/
noncomputable def dropZero (gs : List Seg) : List Seg :=
  (gs.map fun g => { g with l := |g.l| }).filter fun g => 0 < g.l

/-- `rasterize_solution`, `weac/mixins.py` 1260-1343. If no segment has
nonzero length, `nq[-1]` is out of range. -/
noncomputable def rasterize (s : Self) (phi : ℝ) (num : ℕ) (segs : List Seg) : Res (List GridPt) :=
  match dropZero segs with
  | [] => .error .indexError
  | gs => .ok (rasterLoop s phi num (gs.map Seg.l).sum 0 none gs)

end Weac
