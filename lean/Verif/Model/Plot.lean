import Mathlib.Analysis.SpecialFunctions.Log.Base
import Verif.Model.Analysis
import Verif.Model.Output
import Verif.Model.Criterion

/-!
# Model of `weac/plot.py`

The functions are modelled as far as they compute what is drawn: the value of a
plotting function is the data it hands to matplotlib. Styles, colours of lines,
labels of axes and the file that is written are left out. Two-dimensional arrays
are `Grid`s, NaN is `none`.
-/

namespace Weac

/-- Two-dimensional array. -/
structure Grid (α : Type) where
  rows : ℕ
  cols : ℕ
  val : ℕ → ℕ → α

/-- Elements of an array. -/
def Grid.toList {α : Type} (g : Grid α) : List α :=
  (List.range g.rows).flatMap fun i => (List.range g.cols).map (g.val i)

/-! ## Convenience functions -/

/-- `np.interp(v, x, y)` with knots `(x, y)` in increasing order, started at a
knot left of `v`. -/
noncomputable def interpFrom (v : ℝ) : ℝ × ℝ → List (ℝ × ℝ) → ℝ
  | p, [] => p.2
  | p, q :: r => if v < q.1 then p.2 + (q.2 - p.2) / (q.1 - p.1) * (v - p.1) else interpFrom v q r

/-- `np.interp(v, x, y)`. -/
noncomputable def interp (v : ℝ) : List (ℝ × ℝ) → Res ℝ
  | [] => .error .valueError
  | p :: r => .ok (if v ≤ p.1 then p.2 else interpFrom v p r)

/-- `MidpointNormalize.__call__`, `weac/plot.py` 58-67. -/
noncomputable def midpointNormalize (vmin vmax midpoint value : ℝ) : Res ℝ :=
  let normalizedMin := max 0 (0.5 * (1 - |(midpoint - vmin) / (midpoint - vmax)|))
  let normalizedMax := min 1 (0.5 * (1 + |(vmax - midpoint) / (midpoint - vmin)|))
  interp value [(vmin, normalizedMin), (midpoint, 0.5), (vmax, normalizedMax)]

/-- `outline`, `weac/plot.py` 70-77. -/
def outline {α : Type} (g : Grid α) : Res (List α) :=
  if g.rows = 0 ∨ g.cols = 0 then .error .indexError
  else
    let top := (List.range (g.cols - 1)).map fun j => g.val 0 j
    let right := (List.range (g.rows - 1)).map fun i => g.val i (g.cols - 1)
    let bot := (List.range (g.cols - 1)).map fun j => g.val (g.rows - 1) (g.cols - 1 - j)
    let left := (List.range g.rows).map fun i => g.val (g.rows - 1 - i) 0
    .ok (top ++ right ++ bot ++ left)

/-- `significant_digits`, `weac/plot.py` 80-94: `log10` of a negative number is
NaN, of 0 it is minus infinity. -/
noncomputable def significantDigits (decimal : ℝ) : Res ℤ :=
  if decimal < 0 then .error .valueError
  else if decimal = 0 then .error .overflowError
  else .ok (-⌊Real.logb 10 decimal⌋)

/-- Nearest integer; the even one if there are two. -/
noncomputable def roundEven (x : ℝ) : ℤ :=
  if x - ⌊x⌋ < 1 / 2 then ⌊x⌋ else if 1 / 2 < x - ⌊x⌋ then ⌊x⌋ + 1 else if Even ⌊x⌋ then ⌊x⌋ else ⌊x⌋ + 1

/-- `np.round(x, d)`. -/
noncomputable def npRound (x : ℝ) (d : ℤ) : ℝ := roundEven (x * 10 ^ d) / 10 ^ d

/-- `np.linspace(a, b, num=n, endpoint=True)`. -/
noncomputable def linspaceAB (a b : ℝ) (n : ℕ) : List ℝ :=
  (List.range n).map fun (k : ℕ) => a + (b - a) * (k : ℝ) / ((n - 1 : ℕ) : ℝ)

/-- Insert into an increasing list unless present. -/
noncomputable def insertUnique (x : ℝ) : List ℝ → List ℝ
  | [] => [x]
  | y :: ys => if x < y then x :: y :: ys else if x = y then y :: ys else y :: insertUnique x ys

/-- `np.unique`. -/
noncomputable def npUnique (l : List ℝ) : List ℝ := l.foldr insertUnique []

/-- `tight_central_distribution`, `weac/plot.py` 97-118. -/
noncomputable def tightCentralDistribution (limit : ℝ) (samples : ℕ) (tightness : ℝ) : List ℝ :=
  let stop := limit ^ (1 / tightness)
  let levels := (linspaceAB 0 stop (samples / 2)).map fun v => v ^ tightness
  npUnique ((levels.reverse.map fun v => -v) ++ levels)

/-! ## Slab profile -/

/-- Points of the bar chart of `slab_profile`, `weac/plot.py` 159-169: density and
height above the weak layer. -/
def profileLoop : List Layer → ℝ → List (ℝ × ℝ)
  | [], _ => []
  | l :: r, y => (l.rho, y) :: (l.rho, y + l.h) :: profileLoop r (y + l.h)

/-- `slab_profile`, `weac/plot.py` 147-186. -/
def slabProfile (s : Self) : List (ℝ × ℝ) := profileLoop s.slab.reverse 0

/-! ## Deformation contour plot -/

/-- Builtin `max` of an array: NaN never wins a comparison. -/
noncomputable def pyMaxFrom : Option ℝ → List (Option ℝ) → Option ℝ
  | m, [] => m
  | some m, some v :: r => pyMaxFrom (if m < v then some v else some m) r
  | m, _ :: r => pyMaxFrom m r

/-- Builtin `max`. -/
noncomputable def pyMax : List (Option ℝ) → Res (Option ℝ)
  | [] => .error .valueError
  | v :: r => .ok (pyMaxFrom v r)

/-- `np.argmax`: the first position of the greatest element. -/
noncomputable def argMaxFrom : ℕ → ℝ → ℕ → List ℝ → ℕ
  | best, _, _, [] => best
  | best, m, k, v :: r => if m < v then argMaxFrom k v (k + 1) r else argMaxFrom best m (k + 1) r

/-- `np.argmax`. -/
noncomputable def npArgmax : List ℝ → Res ℕ
  | [] => .error .valueError
  | v :: r => .ok (argMaxFrom 0 v 1 r)

/-- `a.max()` of an array with NaN. -/
noncomputable def maxNaN (l : List (Option ℝ)) : Res (Option ℝ) :=
  if l.any Option.isNone then .ok none else do
    let m ← npMax (reals l)
    return some m

/-- `a.min()` of an array with NaN. -/
noncomputable def minNaN (l : List (Option ℝ)) : Res (Option ℝ) :=
  if l.any Option.isNone then .ok none else do
    let m ← npMin (reals l)
    return some m

/-- Slab and weak-layer values of a field, `weac/plot.py` 286-329. -/
noncomputable def plotField (s : Self) (xwl : List (Option ℝ)) (z : List Vec6) (phi dz : ℝ) (field : String)
    (normalize : Bool) : Res (Grid ℝ × List (Option ℝ)) := do
  let zi := (getZmesh s dz).map MeshPt.z
  let c ← convertLength "cm"
  let col := fun (j : ℕ) => z.getD j 0
  let grid := fun (v : List (List ℝ)) => (⟨zi.length, z.length, fun i j => nth (v.getD j []) i⟩ : Grid ℝ)
  if field = "u" then
    return (⟨zi.length, z.length, fun i j => 1e4 * (c * fu (col j) (nth zi i))⟩,
      z.map fun Z => some (1e4 * (c * fu Z (nth zi (zi.length - 1)))))
  else if field = "w" then
    return (⟨zi.length, z.length, fun _ j => 1e4 * (c * fw (col j))⟩, z.map fun Z => some (1e4 * (c * fw Z)))
  else if field = "Sxx" then do
    let v ← z.mapM fun Z => fSxx s Z phi dz "kPa"
    return (grid v, xwl.map fun _ => some 0)
  else if field = "Txz" then do
    let v ← z.mapM fun Z => fTxz s Z phi dz "kPa"
    let w ← getWeaklayerShearstress s xwl z "kPa" false
    return (grid v, w.2)
  else if field = "Szz" then do
    let v ← z.mapM fun Z => fSzz s Z phi dz "kPa"
    let w ← getWeaklayerNormalstress s xwl z "kPa" false
    return (grid v, w.2)
  else if field = "principal" then do
    let v ← z.mapM fun Z => principalSlab s Z phi dz "kPa" "max" normalize
    let w ← z.mapM fun Z => principalWeak s Z 2.6 "kPa" "min" normalize
    return (grid v, w.map some)
  else throw .valueError

/-- Greatest absolute value for the colour map, `weac/plot.py` 338. -/
noncomputable def absMax (slab : List ℝ) (weak : List (Option ℝ)) : Res ℝ := do
  let a ← npMin slab
  let b ← npMax slab
  let c ← minNaN weak
  let d ← maxNaN weak
  npMax ((reals [some a, some b, c, d]).map fun v => |v|)

/-- Origin at the horizontal centre for skier systems, `weac/plot.py` 262-264. -/
noncomputable def centred (s : Self) (xsl : List ℝ) (xwl : List (Option ℝ)) : Res (List ℝ × List (Option ℝ)) :=
  if s.system ∈ ["skier", "skiers"] then do
    let a ← npMax xsl
    let b ← pyMax xwl
    return (xsl.map fun x => x - a / 2, xwl.map fun x => x.bind fun x => b.map fun b => x - b / 2)
  else return (xsl, xwl)

/-- Coordinates (cm) used by `deformed`: undeformed slab, deformed slab, weak
layer (top and bottom), base line and limits of the axes. -/
structure Geometry where
  X0 : Grid ℝ
  Z0 : Grid ℝ
  slabX : Grid ℝ
  slabZ : Grid ℝ
  weakX : Grid (Option ℝ)
  weakZ : Grid ℝ
  baseline : ℝ
  xlim : ℝ × ℝ
  ylim : ℝ × ℝ

/-- Coordinates, `weac/plot.py` 254-283, 376-377; `window = none` is infinity.
Arrays of different lengths do not fit together (ValueError). -/
noncomputable def geometry (s : Self) (dz : ℝ) (xsl : List ℝ) (xwl : List (Option ℝ)) (z : List Vec6) (scale : ℝ)
    (window : Option ℝ) (pad : ℝ) : Res Geometry := do
  let zi := (getZmesh s dz).map MeshPt.z
  let h := s.h
  let c ← convertLength "cm"
  let m := zi.length
  let n := z.length
  if xsl.length ≠ n ∨ xwl.length ≠ n then throw .valueError
  let usl := fun i j => c * fu (z.getD j 0) (nth zi i)
  let wsl := fun (j : ℕ) => c * fw (z.getD j 0)
  let X0 : Grid ℝ := ⟨m, n, fun _ j => 1e-1 * nth xsl j⟩
  let Z0 : Grid ℝ := ⟨m, n, fun i _ => 1e-1 * (nth zi i + h / 2)⟩
  let slabX : Grid ℝ := ⟨m, n, fun i j => X0.val i j + scale * usl i j⟩
  let slabZ : Grid ℝ := ⟨m, n, fun i j => Z0.val i j + scale * wsl j⟩
  let focus ← npArgmax (z.map fun Z => c * fw Z)
  let xfocus := nth xsl focus / 10
  let hi ← npMax (X0.toList ++ slabX.toList)
  let lo ← npMin (X0.toList ++ slabX.toList)
  let xmax := window.elim (hi + pad) fun w => min (hi + pad) (xfocus + w / 2)
  let xmin := window.elim (lo - pad) fun w => max (lo - pad) (xfocus - w / 2)
  let zhi ← npMax slabZ.toList
  let zlo ← npMin Z0.toList
  let zmax := zhi + pad
  let zmin := zlo - pad
  return {
    X0, Z0, slabX, slabZ
    weakX := ⟨2, n, fun i j => (xwl.getD j none).map fun x => 1e-1 * x + scale * (if i = 0 then usl (m - 1) j else 0)⟩
    weakZ := ⟨2, n, fun i j => (if i = 0 then 1e-1 * (nth zi (m - 1) + h / 2) else zmax) + scale * (if i = 0 then wsl j else 0)⟩
    baseline := zmax
    xlim := (xmin, xmax)
    ylim := (zmin, zmax) }

/-- Isolevels, `weac/plot.py` 338-340. -/
noncomputable def colourLevels (slab : List ℝ) (weak : List (Option ℝ)) (levels : ℕ) : Res (List ℝ) := do
  let absmax ← absMax slab weak
  let d ← significantDigits absmax
  let clim := npRound absmax d
  return linspaceAB (-clim) clim (levels + 1)

/-- What `deformed` draws. -/
structure Drawing where
  geom : Geometry
  /-- Values on the slab grid and on the weak-layer grid. -/
  slab : Grid ℝ
  weak : Grid (Option ℝ)
  levels : List ℝ
  /-- Outlines of the undeformed and the deformed slab and of the weak layer. -/
  undeformed : List (ℝ × ℝ)
  deformed : List (ℝ × ℝ)
  weakOutline : Option (List (ℝ × ℝ))

/-- Pairs of corresponding elements. -/
def Grid.zip {α β : Type} (g : Grid α) (h : Grid β) : Grid (α × β) := ⟨g.rows, g.cols, fun i j => (g.val i j, h.val i j)⟩

/-- Positions of the supported points, `weac/plot.py` 356. -/
def maskCols (xwl : List (Option ℝ)) : List ℕ := (List.range xwl.length).filter fun j => (xwl.getD j none).isSome

/-- Outline of the weak layer, `weac/plot.py` 355-359. -/
noncomputable def weakOutlineOf (s : Self) (xwl : List (Option ℝ)) (g : Geometry) : Res (Option (List (ℝ × ℝ))) :=
  if s.system ∈ ["-pst", "pst-", "-vpst", "vpst-"] then do
    let cols := maskCols xwl
    let o ← outline (⟨2, cols.length, fun i j => ((g.weakX.val i (cols.getD j 0)).getD 0, g.weakZ.val i (cols.getD j 0))⟩ :
      Grid (ℝ × ℝ))
    return some o
  else return none

/-- Checks of `contourf`, `weac/plot.py` 367-372: at least two rows and columns and
at least two levels. -/
def contourCheck (rows cols levels : ℕ) : Res Unit :=
  if rows < 2 ∨ cols < 2 then .error .typeError
  else if levels < 2 then .error .valueError
  else .ok ()

/-- `deformed`, `weac/plot.py` 191-399. -/
noncomputable def deformed (s : Self) (xsl : List ℝ) (xwl : List (Option ℝ)) (z : List Vec6) (phi : ℝ) (dz : ℝ := 2)
    (scale : ℝ := 100) (window : Option ℝ := none) (pad : ℝ := 2) (levels : ℕ := 300) (field : String := "principal")
    (normalize : Bool := true) : Res Drawing := do
  let x ← centred s xsl xwl
  let g ← geometry s dz x.1 x.2 z scale window pad
  let v ← plotField s x.2 z phi dz field normalize
  let weak : Grid (Option ℝ) := ⟨2, v.2.length, fun _ j => v.2.getD j none⟩
  let lev ← colourLevels v.1.toList weak.toList levels
  let o1 ← outline (g.X0.zip g.Z0)
  let o2 ← outline (g.slabX.zip g.slabZ)
  let o3 ← weakOutlineOf s x.2 g
  contourCheck v.1.rows v.1.cols lev.length
  contourCheck weak.rows weak.cols lev.length
  return ⟨g, v.1, weak, lev, o1, o2, o3⟩

/-! ## Line plots -/

/-- A curve with its label; `dotted` if the label is empty or contains `FEA`. -/
structure Curve where
  x : List (Option ℝ)
  y : List (Option ℝ)
  dotted : Bool := false

/-- What `plot_data` draws: shaded intervals, vertical lines, curves and the
positions of their labels. -/
structure LinePlot where
  spans : List (ℝ × ℝ)
  vlines : List ℝ
  curves : List Curve
  labels : List (Option ℝ × Option ℝ)

/-- `l[k]` with a Python index. -/
def pyIndex {α : Type} (l : List α) (k : ℤ) : Res α :=
  let i := if k < 0 then k + l.length else k
  if i < 0 then .error .indexError
  else match l[i.toNat]? with
    | some v => .ok v
    | none => .error .indexError

/-- Mean of two numbers or NaN. -/
noncomputable def meanNaN (a b : Option ℝ) : Option ℝ := a.bind fun a => b.map fun b => (a + b) / 2

/-- Position of a label, `weac/plot.py` 460-463, 473-474. -/
noncomputable def labelAt (x y : List (Option ℝ)) (k : ℤ) : Res (Option ℝ × Option ℝ) := do
  let x0 ← pyIndex x (k - 1)
  let x1 ← pyIndex x k
  let y0 ← pyIndex y (k - 1)
  let y1 ← pyIndex y k
  return (meanNaN x0 x1, meanNaN y0 y1)

/-- Label of one curve of the left axis, `weac/plot.py` 455-476; the `i`-th curve. Arrays
of different lengths cannot be plotted (ValueError). -/
noncomputable def leftLabel (labelpos : ℤ) (i : ℕ) (c : Curve) : Res (List (Option ℝ × Option ℝ)) :=
  if c.x.length ≠ c.y.length then .error .valueError
  else do
    let x ← keepReal c.x c.x
    let y ← keepReal c.x c.y
    if c.dotted then do
      let p ← labelAt x y (-2)
      pure [p]
    else if 0 < x.length then do
      let p ← labelAt x y (labelpos - 10 * i)
      pure [p]
    else pure []

/-- Labels of the left axis, `weac/plot.py` 452-476; `i` counts from 1. -/
noncomputable def leftLabels (labelpos : ℤ) : ℕ → List Curve → Res (List (Option ℝ × Option ℝ))
  | _, [] => .ok []
  | i, c :: r => do
    let t ← leftLabel labelpos i c
    let ts ← leftLabels labelpos (i + 1) r
    return t ++ ts

/-- Curves of the right axis, `weac/plot.py` 485-494. -/
noncomputable def rightLabels (labelpos : ℤ) : List Curve → Res (List (Option ℝ × Option ℝ))
  | [] => .ok []
  | c :: r => do
    if c.x.length ≠ c.y.length then throw .valueError
    let x ← keepReal c.x c.x
    let y ← keepReal c.x c.y
    let p ← labelAt x y labelpos
    let ts ← rightLabels labelpos r
    return p :: ts

/-- Keyword arguments `li`, `mi`, `ki` of the plot functions; absent ones are
`False`. -/
structure PlotSegs where
  li : Option (List ℝ) := none
  mi : Option (List ℝ) := none
  ki : Option (List Bool) := none

/-- Sum of the first lengths. -/
def sumTo (li : List ℝ) (i : ℕ) : ℝ := (li.take i).sum

/-- Shaded intervals, `weac/plot.py` 437-440. -/
noncomputable def spansOf (li : Option (List ℝ)) (ki : List Bool) : Res (List (ℝ × ℝ)) :=
  ((List.range ki.length).filter fun i => ! ki.getD i true).mapM fun i =>
    match li with
    | none => .error .typeError
    | some li => .ok (sumTo li i / 10, sumTo li (i + 1) / 10)

/-- Vertical lines at loads, `weac/plot.py` 441-443. -/
noncomputable def loadsOf (li : Option (List ℝ)) (mi : List ℝ) : Res (List ℝ) :=
  ((List.range mi.length).filter fun i => decide (0 < mi.getD i 0)).mapM fun i =>
    match li with
    | none => .error .typeError
    | some li => .ok (sumTo li (i + 1) / 10)

/-- Shaded intervals and vertical lines, `weac/plot.py` 434-445. -/
noncomputable def marksOf (vlines : Bool) (segs : PlotSegs) : Res (List (ℝ × ℝ) × List ℝ) :=
  if vlines then
    match segs.ki with
    | none => .error .typeError
    | some ki => do
      let sp ← spansOf segs.li ki
      match segs.mi with
      | none => .error .typeError
      | some mi =>
        let ld ← loadsOf segs.li mi
        pure (sp, 0 :: ld)
  else .ok ([], [])

/-- `int(0.95*len(x[~np.isnan(x)]))` of the first curve, `weac/plot.py` 449-450. -/
noncomputable def autoPos : List Curve → Res ℤ
  | [] => .error .indexError
  | c :: _ => .ok ⌊(0.95 : ℝ) * ((reals c.x).length : ℝ)⌋

/-- Sample counted back from by the labels, `weac/plot.py` 447-450. -/
noncomputable def labelBase (labelpos : Option ℤ) (ax1 : List Curve) : Res ℤ :=
  match labelpos with
  | some k => if k = 0 then autoPos ax1 else .ok k
  | none => autoPos ax1

/-- `plot_data`, `weac/plot.py` 405-503. -/
noncomputable def plotData (ax1 : List Curve) (ax2 : List Curve := []) (labelpos : Option ℤ := none) (vlines : Bool := true)
    (segs : PlotSegs := {}) : Res LinePlot := do
  let m ← marksOf vlines segs
  let pos ← labelBase labelpos ax1
  let l1 ← leftLabels pos 1 ax1
  let l2 ← rightLabels pos ax2
  return ⟨m.1, m.2, ax1 ++ ax2, l1 ++ l2⟩

/-! ## Plot wrappers -/

/-- `displacements`, `weac/plot.py` 509-517. -/
noncomputable def plotDisplacements (x : List (Option ℝ)) (z : List Vec6) (segs : PlotSegs) : Res LinePlot := do
  let psi ← psiArray z "degrees"
  let c ← convertLength "mm"
  plotData [⟨toCm x, z.map fun Z => some (c * fu Z 0), false⟩, ⟨toCm x, z.map fun Z => some (-(c * fw Z)), false⟩,
    ⟨toCm x, psi.map some, false⟩] (segs := segs)

/-- `section_forces`, `weac/plot.py` 520-528. -/
noncomputable def plotSectionForces (s : Self) (x : List (Option ℝ)) (z : List Vec6) (segs : PlotSegs) : Res LinePlot :=
  plotData [⟨toCm x, z.map fun Z => some (fN s Z), false⟩, ⟨toCm x, z.map fun Z => some (fM s Z), false⟩,
    ⟨toCm x, z.map fun Z => some (fV s Z), false⟩] (segs := segs)

/-- `stresses`, `weac/plot.py` 531-538. -/
noncomputable def plotStresses (s : Self) (x : List (Option ℝ)) (z : List Vec6) (segs : PlotSegs) : Res LinePlot := do
  let c ← convertStress "kPa"
  plotData [⟨toCm x, z.map fun Z => some (c * ftau s Z), false⟩, ⟨toCm x, z.map fun Z => some (c * fsig s Z), false⟩]
    (segs := segs)

/-- `stress_criteria`, `weac/plot.py` 541-547. -/
noncomputable def plotStressCriteria (x stress : List (Option ℝ)) (segs : PlotSegs) : Res LinePlot :=
  plotData [⟨toCm x, stress, false⟩] (segs := segs)

/-- `1e3*G[mode, :]`. -/
noncomputable def perSquareMetre (G : List (Option ℝ)) : List (Option ℝ) := G.map (Option.map fun v => 1e3 * v)

/-- `err_comp`, `weac/plot.py` 550-559, with the rows of the mode. -/
noncomputable def plotErrComp (da gdif ginc : List (Option ℝ)) : Res LinePlot :=
  plotData [⟨toCm da, perSquareMetre gdif, false⟩, ⟨toCm da, perSquareMetre ginc, false⟩] (vlines := false)

/-- `err_modes`, `weac/plot.py` 562-573. -/
noncomputable def plotErrModes (da g gI gII : List (Option ℝ)) : Res LinePlot :=
  plotData [⟨toCm da, perSquareMetre gII, false⟩, ⟨toCm da, perSquareMetre gI, false⟩, ⟨toCm da, perSquareMetre g, false⟩]
    (vlines := false)

/-- `fea_disp`, `weac/plot.py` 576-591, with the columns of the array `fea`. -/
noncomputable def plotFeaDisp (x : List (Option ℝ)) (z : List Vec6) (fx fu0 fw0 fpsi0 : List (Option ℝ)) : Res LinePlot := do
  let c ← convertLength "mm"
  plotData [⟨toCm fx, fu0.reverse.map (Option.map fun v => -v), true⟩, ⟨toCm fx, fw0.reverse, true⟩,
    ⟨toCm fx, fpsi0.reverse.map (Option.map fun v => v * (180 / Real.pi)), true⟩,
    ⟨toCm x, z.map fun Z => some (c * fu Z 0), false⟩, ⟨toCm x, z.map fun Z => some (-(c * fw Z)), false⟩,
    ⟨toCm x, z.map fun Z => some (fpsi Z * (180 / Real.pi)), false⟩] (labelpos := some (-50))

/-- `fea_stress`, `weac/plot.py` 594-603. -/
noncomputable def plotFeaStress (s : Self) (x : List (Option ℝ)) (z : List Vec6) (fx fsig0 ftau0 : List (Option ℝ)) :
    Res LinePlot := do
  let c ← convertStress "kPa"
  plotData [⟨toCm fx, perSquareMetre fsig0.reverse, true⟩, ⟨toCm fx, perSquareMetre ftau0.reverse, true⟩,
    ⟨toCm x, z.map fun Z => some (c * ftau s Z), false⟩, ⟨toCm x, z.map fun Z => some (c * fsig s Z), false⟩]
    (labelpos := some (-50))

end Weac
