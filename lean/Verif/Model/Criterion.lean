import Verif.Model.Envelope
import Verif.Model.Output
import Verif.Model.Analysis

/-!
# Model of `examples/criterion_check.py`

The uncracked solution has no NaN entries in its stress arrays; `reals` drops
the `some`. Elapsed times and printed messages are left out. A quotient by an
array value that is zero is infinite in numpy and zero here; theorems that
depend on it exclude the case.
-/

namespace Weac

/-! ## Segments -/

/-- Loop of `find_segment_index`, `examples/criterion_check.py` 1382-1392. -/
noncomputable def segmentLoop (x : ℝ) : ℕ → ℝ → List ℝ → ℤ × Option ℝ
  | _, _, [] => (-1, none)
  | i, c, l :: ls => if x ≤ c + l then (i, some (x - (c + l - l))) else segmentLoop x (i + 1) (c + l) ls

/-- `find_segment_index`, `examples/criterion_check.py` 1349-1392, for a
sequence of lengths. -/
noncomputable def findSegmentIndex (li : List ℝ) (x : ℝ) : ℤ × Option ℝ :=
  if li.length = 1 then (0, some x) else segmentLoop x 0 0 li

/-- `split_segments_at_midpoint`, `examples/criterion_check.py` 1538-1597. -/
noncomputable def splitAtMidpoint (li : List ℝ) (ki : List Bool) : Res (List ℝ × List Bool) :=
  let cum := cumsum li
  match cum.getLast? with
  | none => .error .indexError
  | some total =>
    let mid := total / 2
    match (List.range li.length).find? fun i => mid ≤ nth cum i with
    | none => .ok (li, ki)
    | some 0 =>
      match ki with
      | [] => .error .indexError
      | k :: _ => .ok (mid :: li, k :: ki)
    | some (i + 1) =>
      match ki[i + 1]? with
      | none => .error .indexError
      | some k =>
        .ok (li.take (i + 1) ++ [mid - nth cum i] ++ [nth cum (i + 1) - mid] ++ li.drop (i + 2),
          ki.take (i + 1) ++ [k] ++ [k] ++ ki.drop (i + 2))

/-! ## `create_skier_object` -/

/-- Loop that looks for the position of the skier,
`examples/criterion_check.py` 2413-2421; `none` is the initial value -1. -/
noncomputable def medianLoop (half : ℝ) : ℕ → ℝ → List ℝ → Res (Option ℕ)
  | _, _, [] => .ok none
  | i, c, l :: ls =>
    if half ≤ c + l then
      match ls with
      | [] => .error .indexError
      | l' :: _ => .ok (some (if l' = 0 then i + 1 else i))
    else medianLoop half (i + 1) (c + l) ls

/-- `mi_x`, `examples/criterion_check.py` 2400-2423. -/
noncomputable def skierWeights (w : ℝ) (li : List ℝ) (ki : List Bool) : Res (List ℝ) := do
  if ki = [] then .error .valueError
  let n := ki.length - 1
  let i ← medianLoop (li.sum / 2) 0 0 li
  let i := i.getD (n - 1)
  if i < n then return (List.replicate n 0).set i w else .error .indexError

/-- Keys `'nocrack'` and `'crack'` of the segments. -/
inductive CrackCase where
  | nocrack | crack

/-- Support of the segments under the key; `k0` is all true,
`examples/criterion_check.py` 2424. -/
def CrackCase.support (case : CrackCase) (ki : List Bool) : List Bool :=
  match case with
  | .nocrack => List.replicate ki.length true
  | .crack => ki

/-- Snow profile, slope angle, and the optional arguments handed through. -/
structure Site where
  profile : List Ply
  phi : ℝ
  E : ℝ := 0.25
  t : ℝ := 30
  env : Env := {}

/-- What `create_skier_object` returns. -/
structure Skier where
  skier : Self
  C : List Vec6
  segments : SegLists
  x : List (Option ℝ)
  sigma : List (Option ℝ)
  tau : List (Option ℝ)

/-- Segments as `rasterize_solution` sees them. -/
def Skier.segs (r : Skier) : List Seg :=
  (r.C.zip (r.segments.ki.zip r.segments.li)).map fun p => ⟨p.1, p.2.1, p.2.2⟩

/-- Solve and rasterize, `examples/criterion_check.py` 2424-2444. -/
noncomputable def solveSkier (num : Numerics) (phi : ℝ) (li mi : List ℝ) (ki : List Bool) (case : CrackCase) :
    Py Skier := do
  let g ← calcSegments num li mi ki (CrackCase.nocrack.support ki) 10000 0 0 0 0.5 1000
  let a : SegLists := ⟨g.li, g.mi, match case with | .nocrack => g.k0 | .crack => g.ki⟩
  let (C, a) ← assembleAndSolve num .ndarray phi a
  let s ← Py.get
  let r : Skier := ⟨s, C, a, [], [], []⟩
  let pts ← Py.lift (rasterize s phi 800 r.segs)
  let x := pts.map GridPt.xb
  let z := pts.map GridPt.z
  let (_, tau) ← Py.lift (getWeaklayerShearstress s x z "kPa" false)
  let (x, sigma) ← Py.lift (getWeaklayerNormalstress s x z "kPa" false)
  return { r with x := x, sigma := sigma, tau := tau }

/-- The object for a site, `examples/criterion_check.py` 2398-2399. -/
noncomputable def siteObject (eig : EigSolver) (site : Site) : Res Self := do
  let s ← layeredInit eig "skiers" (.rows site.profile) false
  return setFoundationProperties eig site.t site.E 0.25 true s

/-- `create_skier_object`, `examples/criterion_check.py` 2348-2446. -/
noncomputable def createSkierObject (num : Numerics) (site : Site) (w : ℝ) (li : List ℝ) (ki : List Bool)
    (case : CrackCase) : Res Skier := do
  let s ← siteObject num.eig site
  let mi ← skierWeights w li ki
  (solveSkier num site.phi li mi ki case s).1

/-! ## Distance to the stress envelope -/

/-- Entries of an array without NaN. -/
def reals (v : List (Option ℝ)) : List ℝ := v.filterMap id

/-- `stress_envelope` of the stress arrays. -/
noncomputable def distances (env : Env) (r : Skier) : Res (List ℝ) :=
  ((reals r.sigma).zip (reals r.tau)).mapM fun p => stressEnvelope env p.1 p.2

/-- `np.max`; no value for an empty array. -/
noncomputable def npMax : List ℝ → Res ℝ
  | [] => .error .valueError
  | v :: vs => .ok (vs.foldl max v)

/-- `np.min`. -/
noncomputable def npMin : List ℝ → Res ℝ
  | [] => .error .valueError
  | v :: vs => .ok (vs.foldl min v)

/-- `calculate_sigma_tau`, `examples/criterion_check.py` 1307-1345. The
position beyond all segments has no coordinate: `None` is no number. -/
noncomputable def calculateSigmaTau (s : Self) (C : List Vec6) (li : List ℝ) (phi x : ℝ) : Res (ℝ × ℝ) := do
  match findSegmentIndex li x with
  | (_, none) => .error .typeError
  | (i, some xi) =>
    let Z := zsol s xi (C.getD i.toNat 0) (nth li i.toNat) phi true
    let t ← ftauU s Z "kPa"
    let sg ← fsigU s Z "kPa"
    return (sg, -t)

/-- `root_function`, `examples/criterion_check.py` 1270-1304. -/
noncomputable def rootFunction (env : Env) (s : Self) (C : List Vec6) (li : List ℝ) (phi x : ℝ) : Res ℝ := do
  let (sg, t) ← calculateSigmaTau s C li phi x
  let v ← stressEnvelope env sg t
  return v - 1

/-- Neighbouring samples between which the sign changes,
`examples/criterion_check.py` 1221 and 1249-1254. A sample is a coordinate
(mm) and a value. -/
noncomputable def transitions : List (ℝ × ℝ) → List (ℝ × ℝ)
  | p :: q :: r =>
    if SignType.sign p.2 = SignType.sign q.2 then transitions (q :: r)
    else (p.1, q.1) :: transitions (q :: r)
  | _ => []

/-- `root_scalar` for one bracket, `examples/criterion_check.py` 1258-1264: a
search that does not converge or that meets a ValueError gives no root. -/
noncomputable def rootIn (num : Numerics) (f : ℝ → Res ℝ) (s : Self) (b : ℝ × ℝ) : Res (Option ℝ) :=
  match (brentq num (fun x => Py.lift (f x)) b.1 b.2 s).1 with
  | .ok r => .ok (some r)
  | .error .runtimeError => .ok none
  | .error .valueError => .ok none
  | .error e => .error e

/-- `find_roots_around_x`, `examples/criterion_check.py` 1134-1266. The lists
of local extrema are not used there. -/
noncomputable def findRoots (num : Numerics) (env : Env) (phi : ℝ) (li : List ℝ) (r : Skier) : Res (List ℝ) := do
  let d ← distances env r
  let samples := ((reals r.x).map fun x => 10 * x).zip (d.map fun v => v - 1)
  let roots ← (transitions samples).mapM (rootIn num (rootFunction env r.skier r.C li phi) r.skier)
  return reals roots

/-! ## `find_new_anticrack_length` -/

/-- `is_root`, `examples/criterion_check.py` 1500-1502. -/
noncomputable def isRoot (bounds roots : List ℝ) : List Bool :=
  roots.foldl (fun v r => v.set (bounds.idxOf r) true) (List.replicate bounds.length false)

/-- One step of the loop over the boundaries,
`examples/criterion_check.py` 1507-1518. -/
def crackStep (root : List Bool) (st : List Bool × Bool) (i : ℕ) : List Bool × Bool :=
  if root.getD i false && root.getD (i - 1) false then (st.1.set (i - 1) (!st.2), !st.2)
  else st

/-- Support of the stretches between the roots,
`examples/criterion_check.py` 1495-1518. -/
noncomputable def crackedBetween (bounds roots : List ℝ) : List Bool :=
  let root := isRoot bounds roots
  ((List.range' 1 (root.length - 1)).foldl (crackStep root) (List.replicate (bounds.length - 1) true, true)).1

/-- `np.diff`. -/
def diff : List ℝ → List ℝ
  | a :: b :: r => (b - a) :: diff (b :: r)
  | _ => []

/-- Length of the unsupported segments, `examples/criterion_check.py`
1531-1533. -/
noncomputable def crackLength (li : List ℝ) (ki : List Bool) : ℝ :=
  (((li.zip ki).filter fun p => !p.2).map Prod.fst).sum

/-- Segments after the roots are known, `examples/criterion_check.py`
1493-1535. -/
noncomputable def anticrack (total : ℝ) (allOut : Bool) (roots : List ℝ) : Res (ℝ × List ℝ × List Bool) := do
  let (li, ki) ← (match roots with
    | [] => .ok ([total / 2, total / 2], if allOut then [false, false] else [true, true])
    | _ :: _ =>
      let bounds := 0 :: roots ++ [total]
      splitAtMidpoint (diff bounds) (crackedBetween bounds roots) : Res (List ℝ × List Bool))
  return (crackLength li ki, li, ki)

/-- `find_new_anticrack_length`, `examples/criterion_check.py` 1395-1535. -/
noncomputable def findNewAnticrackLength (num : Numerics) (site : Site) (w : ℝ) (li : List ℝ) :
    Res (ℝ × List ℝ × List Bool) := do
  let total := li.sum
  let li := [total / 2, total / 2]
  let r ← createSkierObject num site w li [true, true] .nocrack
  let d ← distances site.env r
  let m ← npMin d
  let roots ← findRoots num site.env site.phi li r
  anticrack total (decide (1 < m)) roots

/-! ## Least weight -/

/-- A weight, its uncracked solution, and the extreme distances to the stress
envelope. -/
structure Trial where
  weight : ℝ
  run : Skier
  distMax : ℝ
  distMin : ℝ

/-- Solve for a weight and evaluate the envelope,
`examples/criterion_check.py` 1672-1695. -/
noncomputable def trial (num : Numerics) (site : Site) (li : List ℝ) (ki : List Bool) (w : ℝ) : Res Trial := do
  let r ← createSkierObject num site w li ki .nocrack
  let d ← distances site.env r
  let hi ← npMax d
  let lo ← npMin d
  return ⟨w, r, hi, lo⟩

/-- Iterate `next` until the greatest distance is within `tol` of 1, at most
`fuel` times; the second component says whether the limit was reached. -/
noncomputable def forceLoop (eval : ℝ → Res Trial) (next : Trial → ℝ) (tol : ℝ) :
    ℕ → Trial → Res (Trial × Bool)
  | 0, p => .ok (p, true)
  | n + 1, p =>
    if tol < |p.distMax - 1| then do
      let q ← eval (next p)
      forceLoop eval next tol n q
    else .ok (p, false)

/-- One call of `find_minimum_force_dampened` without the recursive call,
`examples/criterion_check.py` 1857-1931; the second component says whether the
limit of iterations was reached. -/
noncomputable def dampenedForce (eval : ℝ → Res Trial) (d : ℝ) : Res (Trial × Bool) := do
  let p ← eval 1
  if 1 ≤ p.distMin then return (p, false)
  else forceLoop eval (fun p => (d + 1) * p.weight / (d + p.distMax)) 0.01 50 p

/-- `find_minimum_force_dampened`, `examples/criterion_check.py` 1786-1972,
for dampening `5 - k`. -/
noncomputable def minForceDampened (eval : ℝ → Res Trial) : ℕ → Res Trial
  | 0 => do
    let (q, limit) ← dampenedForce eval 5
    return if limit then { q with weight := 0 } else q
  | k + 1 => do
    let (q, limit) ← dampenedForce eval (5 - ((k + 1 : ℕ) : ℝ))
    if limit then minForceDampened eval k else return q

/-- `find_minimum_force`, `examples/criterion_check.py` 1600-1783. -/
noncomputable def minForce (eval : ℝ → Res Trial) : Res Trial := do
  let p ← eval 1
  if 1 ≤ p.distMin then return p
  else do
    let (q, limit) ← forceLoop eval (fun p => p.weight / p.distMax) 0.005 50 p
    if limit then minForceDampened eval 4 else return q

/-! ## Coupled criterion -/

/-- Segments as `ginc` sees them. -/
def incSegs (C0 C1 : List Vec6) (li : List ℝ) (ki k0 : List Bool) : List IncSeg :=
  (C0.zip (C1.zip (li.zip (ki.zip k0)))).map fun p => ⟨p.1, p.2.1, p.2.2.1, p.2.2.2.1, p.2.2.2.2⟩

/-- Uncracked and cracked solution for a weight, and the toughness criterion
of the energy released between them; `none` is NaN.
`examples/criterion_check.py` 311-348. -/
noncomputable def energyCheck (num : Numerics) (quad : Quad) (site : Site) (w : ℝ) (li : List ℝ) (ki : List Bool) :
    Res (Skier × Skier × Option ℝ) := do
  let k0 := List.replicate ki.length true
  let r ← createSkierObject num site w li k0 .nocrack
  let c ← createSkierObject num site w li ki .crack
  let G := ginc quad c.skier site.phi (incSegs r.C c.C c.segments.li c.segments.ki k0)
  return (r, c, G.map fun G => fractureToughnessCriterion (1000 * G.2.1) (1000 * G.2.2))

/-- Return value without the elapsed times. -/
structure Outcome where
  result : Bool
  crackLength : ℝ
  weight : ℝ
  run : Skier
  iterations : ℕ
  weights : List ℝ
  cracks : List ℝ
  selfCollapse : Bool
  pureStress : Bool
  critical : ℝ
  gDelta : Option ℝ
  dist : ℝ
  gValues : List (Option ℝ)
  distValues : List ℝ

/-- Local variables of the loop. `last` holds the cracked solution and
`g_delta` of the last pass; there is none before the first. -/
structure Search where
  weight : ℝ
  minW : ℝ
  maxW : ℝ
  crack : ℝ
  li : List ℝ
  ki : List Bool
  distMax : ℝ
  distMin : ℝ
  last : Option (Skier × Option ℝ)
  weights : List ℝ
  cracks : List ℝ
  gValues : List (Option ℝ)
  distMaxs : List ℝ
  distMins : List ℝ

/-- `x > c` for a number or NaN. -/
noncomputable def above (x : Option ℝ) (c : ℝ) : Bool := x.any fun v => decide (c < v)

/-- `abs(g_delta - 1)`; the initial value is 1000. -/
noncomputable def Search.err (st : Search) : Option ℝ :=
  match st.last with
  | none => some 1000
  | some p => p.2.map fun g => |g - 1|

/-- Condition of the loop, `examples/criterion_check.py` 302. -/
noncomputable def Search.goesOn (st : Search) (maxIt : ℕ) : Bool :=
  above st.err 0.002 && decide (st.weights.length < maxIt) && st.ki.any id

/-- Initial crack of one millimetre, `examples/criterion_check.py` 291-298. -/
noncomputable def crackStart (length : ℝ) : List ℝ :=
  [length / 2 - 1 / 2, 1 / 2, 1 / 2, length / 2 - 1 / 2]

/-- Trackers and solutions of one pass, `examples/criterion_check.py` 303-351. -/
noncomputable def trackPass (num : Numerics) (quad : Quad) (site : Site) (st : Search) : Res Search := do
  let (r, c, g) ← energyCheck num quad site st.weight st.li st.ki
  let d ← distances site.env r
  let hi ← npMax d
  let lo ← npMin d
  return { st with
    distMax := hi, distMin := lo, last := some (c, g)
    weights := st.weights ++ [st.weight], cracks := st.cracks ++ [st.crack], gValues := st.gValues ++ [g]
    distMaxs := st.distMaxs ++ [st.distMax], distMins := st.distMins ++ [st.distMin] }

/-- `g_delta < 1` for a number or NaN. -/
noncomputable def below (x : Option ℝ) (c : ℝ) : Bool := x.any fun v => decide (v < c)

/-- New boundaries of the weight, `examples/criterion_check.py` 382-385. -/
noncomputable def narrow (st : Search) (g : Option ℝ) : Search :=
  if below g 1 then { st with minW := st.weight } else { st with maxW := st.weight }

/-- Weight and crack of the next pass, `examples/criterion_check.py` 387-405. -/
noncomputable def nextCrack (num : Numerics) (site : Site) (w : ℝ) (st : Search) : Res Search := do
  if above st.err 0.002 then do
    let (a, li, ki) ← findNewAnticrackLength num site w st.li
    return { st with weight := w, crack := a, li := li, ki := ki }
  else return st

/-- Pass of the loop, `examples/criterion_check.py` 302-405, `.inr` if it
returns. -/
noncomputable def coupledPass (num : Numerics) (quad : Quad) (site : Site) (critical : ℝ) (st : Search) :
    Res (Search ⊕ Outcome) := do
  let st ← trackPass num quad site st
  match st.last with
  | none => .error .unboundLocalError
  | some (c, g) =>
    if st.weights.length = 1 ∧ (above g 1 ∨ below st.err 0.02) then
      return .inr ⟨true, st.crack, st.weight, c, 1, st.weights, st.cracks, false, true, critical, g, st.distMax,
        st.gValues, st.distMaxs⟩
    else do
      let st := narrow st g
      let st ← nextCrack num site ((st.minW + st.maxW) / 2) st
      return .inl st

/-- The loop; `n` bounds the number of passes from above. -/
noncomputable def searchLoop (pass : Search → Res (Search ⊕ Outcome)) (maxIt : ℕ) : ℕ → Search → Res (Search ⊕ Outcome)
  | 0, st => .ok (.inl st)
  | n + 1, st =>
    if st.goesOn maxIt then do
      match ← pass st with
      | .inr o => return .inr o
      | .inl st => searchLoop pass maxIt n st
    else .ok (.inl st)

/-- The slab collapses under its own weight, `examples/criterion_check.py`
220-282. -/
noncomputable def selfCollapse (num : Numerics) (quad : Quad) (site : Site) (length : ℝ) (p : Trial) : Res Outcome := do
  let li := [50000, length / 2, 0, 0, length / 2, 50000]
  let (_, c, g) ← energyCheck num quad site 0 li [true, false, false, false, false, true]
  return ⟨true, length, 0, c, 0, [], [], true, false, p.weight, g, p.distMin, [], []⟩

/-- Weight below one kilogram, `examples/criterion_check.py` 485-508. -/
def tooLight (p : Trial) : Outcome :=
  ⟨false, 0, p.weight, p.run, 0, [], [], false, false, p.weight, some 0, p.distMax, [], []⟩

/-- Return value from the local variables after the loop. -/
def Search.outcome (st : Search) (result : Bool) (critical dist : ℝ) (dists : List ℝ) : Res Outcome :=
  match st.last with
  | none => .error .unboundLocalError
  | some (c, g) => .ok ⟨result, st.crack, st.weight, c, st.weights.length, st.weights, st.cracks, false, false, critical,
      g, dist, st.gValues, dists⟩

/-- Total thickness of the profile. -/
noncomputable def profileHeight (profile : List Ply) : ℝ := (profile.map Ply.h).sum

/-! ### Dampened version -/

/-- Double the weight until the energy suffices, `examples/criterion_check.py`
744-779. `none`: not reached within `fuel` rounds. -/
noncomputable def doubleWeight (check : ℝ → Res (Option ℝ)) : ℕ → ℝ → Res (Option ℝ)
  | 0, _ => .ok none
  | n + 1, w => do
    let g ← check (w * 2)
    if below g 1 then doubleWeight check n (w * 2) else return some (w * 2)

/-- Pass of the dampened loop, `examples/criterion_check.py` 781-891. -/
noncomputable def dampenedPass (num : Numerics) (quad : Quad) (site : Site) (dampening critical : ℝ) (st : Search) :
    Res (Search ⊕ Outcome) := do
  let st ← trackPass num quad site st
  let st := { st with distMaxs := st.distMaxs.dropLast ++ [st.distMax], distMins := st.distMins.dropLast ++ [st.distMin] }
  match st.last with
  | none => .error .unboundLocalError
  | some (c, g) =>
    if st.weights.length = 1 ∧ above g 1 then
      return .inr ⟨true, st.crack, st.weight, c, 1, st.weights, st.cracks, false, true, critical, g, st.distMax,
        st.gValues, st.distMaxs⟩
    else do
      let st := narrow st g
      let new := (st.minW + st.maxW) / 2
      let scaling := if below st.err 0.5 then (dampening + 1 + new / st.weight) / (dampening + 1 + 1) else 1
      let st ← nextCrack num site (scaling * new) st
      return .inl st

/-- `check_coupled_criterion_anticrack_nucleation_dampened`,
`examples/criterion_check.py` 511-961. `none`: the search for an upper weight
does not end within `fuel` rounds. -/
noncomputable def coupledDampened (num : Numerics) (quad : Quad) (fuel : ℕ) (site : Site) (dampening : ℝ) :
    Res (Option Outcome) := do
  let length := 100 * profileHeight site.profile
  let p ← minForce (trial num site [length / 2, 0, 0, length / 2] [true, true, true, true])
  if 1 < p.distMin then do
    let o ← selfCollapse num quad site length p
    return some o
  else if 1 ≤ p.weight then do
    let li := crackStart length
    let ki := [true, false, false, true]
    match ← doubleWeight (fun w => do let (_, _, g) ← energyCheck num quad site w li ki; return g) fuel
        (3 * p.weight) with
    | none => return none
    | some maxW =>
      let st : Search := ⟨p.weight * 1.005, p.weight, maxW, 1, li, ki, p.distMax, p.distMin, none, [], [], [], [], []⟩
      match ← searchLoop (dampenedPass num quad site dampening p.weight) 50 51 st with
      | .inr o => return some o
      | .inl st => do
        let o ← st.outcome (decide (st.weights.length < 50) && st.ki.any id) p.weight st.distMax st.distMaxs
        return some o
  else return some (tooLight p)

/-- `check_coupled_criterion_anticrack_nucleation`,
`examples/criterion_check.py` 69-508. The two calls of the dampened version
leave out the density or the thickness of the weak layer. -/
noncomputable def coupledCriterion (num : Numerics) (quad : Quad) (fuel : ℕ) (site : Site) : Res (Option Outcome) := do
  let length := 1000 * profileHeight site.profile
  let p ← minForce (trial num site [length / 2, 0, 0, length / 2] [true, true, true, true])
  if 1 < p.distMin then do
    let o ← selfCollapse num quad site length p
    return some o
  else if 1 ≤ p.weight then do
    let w := p.weight * 1.005
    let st : Search :=
      ⟨w, p.weight, 5 * w, 1, crackStart length, [true, false, false, true], p.distMax, p.distMin, none, [], [], [], [], []⟩
    match ← searchLoop (coupledPass num quad site p.weight) 25 26 st with
    | .inr o => return some o
    | .inl st =>
      if st.weights.length < 25 ∧ st.ki.any id then
        if 0 < st.crack then do
          let o ← st.outcome true p.weight st.distMax st.distMaxs
          return some o
        else coupledDampened num quad fuel { site with env := { site.env with density := 250 } } 1
      else if ¬ st.ki.any id then do
        let o ← st.outcome true p.weight st.distMin st.distMins
        return some o
      else coupledDampened num quad fuel { site with t := 30 } 1
  else return some (tooLight p)

/-! ## Crack propagation -/

/-- `diff_energy` and its criterion, `examples/criterion_check.py` 56-65. -/
noncomputable def propagationValue (num : Numerics) (site : Site) (w : ℝ) (li : List ℝ) (ki : List Bool) : Res ℝ := do
  let r ← createSkierObject num site w li ki .crack
  let G ← gdif r.skier site.phi r.segs "kJ/m^2" true
  return fractureToughnessCriterion (1000 * G.2.1) (1000 * G.2.2)

/-- `check_crack_propagation_criterion`, `examples/criterion_check.py` 9-67. -/
noncomputable def crackPropagation (num : Numerics) (site : Site) (w : ℝ) (li : List ℝ) (ki : List Bool) :
    Res (ℝ × Bool) := do
  let g ← propagationValue num site w li ki
  return (g, decide (1 ≤ g))

/-- `g_delta_diff_objective`, `examples/criterion_check.py` 2026-2077. -/
noncomputable def propagationObjective (num : Numerics) (site : Site) (a : ℝ) : Res ℝ := do
  let length := 1000 * profileHeight site.profile
  let g ← propagationValue num site 0 [length / 2 - a / 2, a / 2, a / 2, length / 2 - a / 2]
    [true, false, false, true]
  return g - 1

/-- `find_min_crack_length_self_propagation`, `examples/criterion_check.py`
1975-2023; `none` if the search does not converge. The object handed to the
root search plays no role. -/
noncomputable def minCrackLength (num : Numerics) (site : Site) (lo hi : ℝ) (dummy : Self) : Res (Option ℝ) :=
  match (brentq num (fun a => Py.lift (propagationObjective num site a)) lo hi dummy).1 with
  | .ok r => .ok (some r)
  | .error .runtimeError => .ok none
  | .error e => .error e

end Weac
