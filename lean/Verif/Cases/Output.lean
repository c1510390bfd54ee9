import Verif.Props.Incremental
import Verif.Props.SlabStress
import Verif.Props.Principal
import Verif.Props.Profiles
import Verif.Props.Output
import Verif.Props.PlotHelpers
import Verif.Props.PlotLines
import Verif.Props.PlotFields
import Verif.Props.PlotDeformed

/-!
# Concrete cases for outputs and plots (C31, C32, C35 to C37, C39, C41, C42, C57 to C63)

The slab is `comp` (240 kg/m³, 200 mm).
-/

namespace Weac
open Spec

/-! ## Weak-layer output -/

/-- C32 on a state with unit displacement along the slope. -/
example (eig : EigSolver) : let Z : Vec6 := fun i => if i = 0 then 1 else 0
    ftau (demo eig "pst-" false) Z ≠ (demo eig "pst-" false).kt * (demo eig "pst-" false).t * fgamma (demo eig "pst-" false) Z ∧
    ftau (demo eig "pst-" false) Z
      = -((demo eig "pst-" false).kt * (demo eig "pst-" false).t * fgamma (demo eig "pst-" false) Z) := by
  obtain ⟨-, hkt, -, -, -, -, -, ht, -⟩ := demo_fields eig "pst-" false
  have h1 : (demo eig "pst-" false).t ≠ 0 := by rw [ht]; norm_num
  have h2 : (demo eig "pst-" false).kt ≠ 0 := by rw [hkt]; norm_num
  refine ⟨C32_shear_violated _ h1 h2 _ ?_, (C32_shear_partial _ h1 h2 _).2.2.1⟩
  simp only [ftau, fdw, fu, fpsi, hkt, Fin.reduceEq, if_false, if_true]
  norm_num

example (s : Self) (Z : Vec6) : fwU Z "cm" = .ok (fw Z / 10) := (C32_units s Z 0).2.1

example (s : Self) (Z : Vec6) : fsigU s Z "Pa" = .error .keyError := ((C32_unknown_unit s Z 0 "Pa").2.1 (by decide)).1

/-- C31: a crack that advances by 100 mm, with exact integrals. -/
example (eig : EigSolver) (C0 C1 : Vec6) : ∃ I II,
    ginc (fun f a b => ∫ x in a..b, f x) (demo eig "pst-" false) 30 [⟨0, 0, 900, true, true⟩, ⟨C0, C1, 100, false, true⟩] = some (I + II, I, II) ∧
    I = normalWork (demo eig "pst-" false) 30 ⟨C0, C1, 100, false, true⟩ / 200 := by
  obtain ⟨-, -, -, -, -, -, -, ht, -⟩ := demo_fields eig "pst-" false
  obtain ⟨I, II, h1, h2, -⟩ := C31_ginc_partial (fun f a b => ∫ x in a..b, f x) 0 (fun f a b _ => by simp) (demo eig "pst-" false)
    (by rw [ht]; norm_num) 30 [⟨0, 0, 900, true, true⟩, ⟨C0, C1, 100, false, true⟩] [⟨C0, C1, 100, false, true⟩] (by simp) 100 (by simp) (by norm_num)
  refine ⟨I, II, h1, ?_⟩
  have h3 := abs_nonpos_iff.1 (h2.trans (by simp))
  simp only [List.map_cons, List.map_nil, List.sum_cons, List.sum_nil, add_zero] at h3
  rw [sub_eq_zero.1 h3]
  norm_num

example (quad : Quad) (s : Self) (C0 C1 : Vec6) : ginc quad s 30 [⟨C0, C1, 900, true, true⟩, ⟨C0, C1, 100, false, false⟩] = some (0, 0, 0) :=
  C31_no_advance quad s 30 _ (by simp [CrackAdvance])

/-- C37: output with and without the unsupported point. -/
example (s : Self) (Z : Vec6) := C37_modes_agree _ _ (C37_normal s) [some 0, none, some 20] [Z, Z, Z] rfl "kPa" (.inr rfl)

example (s : Self) : ∃ pts, rasterize s 38 2 gridDemo = .ok pts ∧
    ∃ P : List (ℝ × ℝ), getWeaklayerNormalstress s (pts.map GridPt.xb) (pts.map GridPt.z) "kPa" true
        = .ok (P.map fun p => some p.1, P.map fun p => some p.2) ∧ (P.map Prod.fst).Pairwise (· < ·) := by
  obtain ⟨pts, h, -, -⟩ := gridDemo_pts s 38
  obtain ⟨P, h1, h2, -⟩ := C37_rasterized s 38 2 (by norm_num) gridDemo pts h
  exact ⟨pts, h, P, h1, h2⟩

/-! ## Slab output -/

/-- C42: deflection in cm, rotation in degrees. -/
example (Z : Vec6) : getSlabDeflection [some 30, none] [Z, Z] "cm" = .ok ([some (30 / 10), none], [Z 2 / 1000 * 100, Z 2 / 1000 * 100]) :=
  C42_deflection [some 30, none] [Z, Z] "cm" 100 rfl

example (Z : Vec6) : ∃ D, getSlabRotation [some 30] [Z] "deg" = .ok ([some (30 / 10)], D) ∧ D.length = 1 := by
  obtain ⟨D, h1, h2, -⟩ := (C42_rotation [some 30] [Z]).2 "deg" (by simp)
  exact ⟨D, h1, h2⟩

example (s : Self) (Z : Vec6) : getSlabDisplacement s [some 30] [Z] "middle" "mm" = .error .keyError :=
  (C42_rejects s [some 30] [Z] "middle" "mm").1 (by decide)

/-- C35: axial stresses on a mesh of 2 mm. -/
example (eig : EigSolver) (Z : Vec6) := C35_axial_force_partial eig _ (demo_ready eig "pst-" false) 2 (by norm_num) 30 Z "kPa" _ rfl

example (eig : EigSolver) (Z : Vec6) := C35_moment_partial eig _ (demo_ready eig "pst-" false) 2 (by norm_num) 30 Z "MPa" _ rfl (by norm_num)

/-- C41: any state, with the derivatives that equilibrium demands. -/
example (eig : EigSolver) (Z : Vec6) : ∃ S b, fSzz (demo eig "pst-" false) Z 30 2 "MPa" = .ok S ∧ S.head? = some 0 ∧ S.getLast? = some b := by
  have hr := (demo_ready eig "pst-" false).stiff.regular
  obtain ⟨S, b, h1, h2, h3, -⟩ := C41_surfaces_partial eig _ (demo_ready eig "pst-" false) 2 (by norm_num) 30 Z _ _
    ((C09_dzdx_iff_equilibrium _ hr Z _ 30).1 rfl) ((K_iff_equilibrium _ hr _ _).1 rfl) "MPa" _ rfl (by norm_num)
  exact ⟨S, b, h1, h2, h3⟩

example (eig : EigSolver) (Z : Vec6) :=
  let hr := (demo_ready eig "pst-" false).stiff.regular
  C41_transverse_stress_partial eig _ (demo_ready eig "pst-" false) 2 (by norm_num) 30 Z _ _
    ((C09_dzdx_iff_equilibrium _ hr Z _ 30).1 rfl) ((K_iff_equilibrium _ hr _ _).1 rfl) "MPa" _ rfl (by norm_num)

/-- C36: the third principal stress of the slab, and stresses that cannot be normalised. -/
example (s : Self) (Z : Vec6) : principalSlab s Z 30 2 "kPa" "mean" false = .error .valueError ∧
    principalWeak s Z 2.6 "kPa" "max" true = .error .valueError :=
  ⟨((C36_errors s Z 30 2 2.6 "kPa" "mean" false).1 (by decide) (by decide)).1, ((C36_errors s Z 30 2 2.6 "kPa" "max" true).2 (.inl rfl)).2⟩

example (s : Self) (Z : Vec6) := C36_slab_unit_independent s Z 30 2

example (eig : EigSolver) : principalWeak (demo eig "pst-" false) (fun _ => 1) 2.6 "MPa" "min" true
    ≠ principalWeak (demo eig "pst-" false) (fun _ => 1) 2.6 "kPa" "min" true := by
  refine C36_weak_layer_unit_violated _ _ 2.6 (by norm_num) ?_
  obtain ⟨hkn, -⟩ := demo_fields eig "pst-" false
  simp only [fsig, fw, hkn]
  norm_num

example (s : Self) (Z : Vec6) := C36_weak_layer_unit_partial s Z 2.6

/-! ## Profiles -/

example : loadDummyProfile "SoFt" = loadDummyProfile "soft" := by
  refine C39_case_insensitive _ _ ?_
  have h1 : ("SoFt" : String).toList = ['S', 'o', 'F', 't'] := rfl
  have h2 : ("soft" : String).toList = ['s', 'o', 'f', 't'] := rfl
  rw [SameUpToCase, h1, h2]
  refine .cons (.inr (.inl (by decide))) (.cons (.inl rfl) (.cons (.inr (.inl (by decide))) (.cons (.inl rfl) .nil)))

example := C39_consistent "comp" _ _ load_comp

/-- C39: profile b is profile a upside down. -/
example : ∃ layers E, loadDummyProfile "a" = .ok (layers, E) ∧ loadDummyProfile "b" = .ok (layers.reverse, E.reverse) :=
  C39_profiles.1 _ _ (by simp)

example : pySpace '\t' = true ∧ pySpace 'x' = false := by
  refine ⟨(C39_separators '\t').2 (by decide), Bool.eq_false_iff.2 fun h => ?_⟩
  exact absurd ((C39_separators 'x').1 h) (by decide)

example (eig : EigSolver) (s : Self) : setBeamProperties eig (.str (String.ofList [' ', '\n'])) 6.5 4.4 0.25 false s = (.error .indexError, s) :=
  C39_blank eig 6.5 4.4 0.25 false s [' ', '\n'] (by decide)

example (eig : EigSolver) (s : Self) : SlabOk (setBeamProperties eig (.str "comp") 6.5 4.4 0.25 false s).2 :=
  (C39_slab eig "comp" 6.5 4.4 0.25 s (by norm_num) (by norm_num) (by rw [set_comp])).1

/-! ## Plot helpers -/

/-- C59: three rows and four columns. -/
example := C59_outline 3 4 (by norm_num) (by norm_num)

example : ∃ c, midpointNormalize (-1) 3 0 2 = .ok c ∧ 0 ≤ c ∧ c ≤ 1 := (C60_colours (-1) 3 0 (by norm_num) (by norm_num)).1 2

example : (tightCentralDistribution 4 100 2).length = 99 := by
  rw [(C61_number_partial 4 2 100 (by norm_num) (by norm_num) (by norm_num)).1]

example : (slabProfile demoSlab).length = 6 := by
  rw [(C62_profile demoSlab).1]
  rfl

example := C62_coordinates demoSlab demoSlab_ok 1 (by decide)

/-! ## Line plots -/

theorem fifty_reals : (reals (toCm ((List.range 50).map fun i => some (i : ℝ)))).length = 50 := by
  rw [toCm_reals]
  simp [reals]

/-- A plot of three curves with 50 samples and two segments of which one is cracked. -/
theorem three_curves (y1 y2 y3 : List (Option ℝ)) (h1 : y1.length = 50) (h2 : y2.length = 50) (h3 : y3.length = 50) (vlines : Bool) :
    ∃ p, plotData [⟨toCm ((List.range 50).map fun i => some (i : ℝ)), y1, false⟩, ⟨toCm ((List.range 50).map fun i => some (i : ℝ)), y2, false⟩,
      ⟨toCm ((List.range 50).map fun i => some (i : ℝ)), y3, false⟩] (vlines := vlines) (segs := ⟨some [1000, 500], some [80], some [true, false]⟩) = .ok p :=
  let ⟨p, h, _⟩ := C63_labels_partial (toCm ((List.range 50).map fun i => some (i : ℝ))) [y1, y2, y3]
    (by intro y hy; simp only [List.mem_cons, List.not_mem_nil, or_false] at hy; rcases hy with rfl | rfl | rfl <;> simp [toCm_length, h1, h2, h3])
    (by simp) [1000, 500] [80] [true, false] vlines (by rw [fifty_reals]; simp)
  ⟨p, h⟩

example (s : Self) (z : List Vec6) (hz : z.length = 50) : ∃ p q,
    plotSectionForces s ((List.range 50).map fun i => some (i : ℝ)) z ⟨some [1000, 500], some [80], some [true, false]⟩ = .ok p ∧
    plotDisplacements ((List.range 50).map fun i => some (i : ℝ)) z ⟨some [1000, 500], some [80], some [true, false]⟩ = .ok q ∧
    p.curves.map Curve.y = [z.map fun Z => some (s.A11 * Z 1 + s.B11 * Z 5), z.map fun Z => some (s.B11 * Z 1 + s.D11 * Z 5),
      z.map fun Z => some (s.kA55 * (Z 3 + Z 4))] ∧
    q.curves.map Curve.y = [z.map fun Z => some (Z 0), z.map fun Z => some (-Z 2), z.map fun Z => some (Z 4 * 180 / Real.pi)] ∧
    (100, 150) ∈ p.spans ∧ ∀ c ∈ p.curves, c.dotted = false := by
  obtain ⟨p, hp⟩ := three_curves (z.map fun Z => some (fN s Z)) (z.map fun Z => some (fM s Z)) (z.map fun Z => some (fV s Z)) (by simpa using hz)
    (by simpa using hz) (by simpa using hz) true
  obtain ⟨q, hq⟩ := three_curves (z.map fun Z => some (1 * fu Z 0)) (z.map fun Z => some (-(1 * fw Z)))
    ((z.map fun Z => Z 4 * (180 / Real.pi)).map some) (by simpa using hz) (by simpa using hz) (by simpa using hz) true
  have hf : plotSectionForces s ((List.range 50).map fun i => some (i : ℝ)) z ⟨some [1000, 500], some [80], some [true, false]⟩ = .ok p := hp
  refine ⟨p, q, hf, hq, (C63_forces s _ z _ p hf).2, (C63_displacements _ z _ q hq).2, ?_,
    ((C63_solid s _ [] [] [] z _ p).1 (.inr (.inl hf))).1⟩
  refine ((C63_segments _ _ _ _ _ _ p hp).1 _).2 ⟨1, rfl, ?_⟩
  norm_num [startAt]

/-- C63: stresses, criteria and energy release rates with 50 samples. -/
theorem two_curves (y1 y2 : List (Option ℝ)) (h1 : y1.length = 50) (h2 : y2.length = 50) :
    ∃ p, plotData [⟨toCm ((List.range 50).map fun i => some (i : ℝ)), y1, false⟩, ⟨toCm ((List.range 50).map fun i => some (i : ℝ)), y2, false⟩]
      (segs := ⟨some [1000, 500], some [80], some [true, false]⟩) = .ok p :=
  let ⟨p, h, _⟩ := C63_labels_partial (toCm ((List.range 50).map fun i => some (i : ℝ))) [y1, y2]
    (by intro y hy; simp only [List.mem_cons, List.not_mem_nil, or_false] at hy; rcases hy with rfl | rfl <;> simp [toCm_length, h1, h2])
    (by simp) [1000, 500] [80] [true, false] true (by rw [fifty_reals]; simp)
  ⟨p, h⟩

theorem one_curve (y : List (Option ℝ)) (h1 : y.length = 50) :
    ∃ p, plotData [⟨toCm ((List.range 50).map fun i => some (i : ℝ)), y, false⟩] (segs := ⟨some [1000, 500], some [80], some [true, false]⟩) = .ok p :=
  let ⟨p, h, _⟩ := C63_labels_partial (toCm ((List.range 50).map fun i => some (i : ℝ))) [y]
    (by intro y hy; simp only [List.mem_cons, List.not_mem_nil, or_false] at hy; rcases hy with rfl; simp [toCm_length, h1])
    (by simp) [1000, 500] [80] [true, false] true (by rw [fifty_reals]; simp)
  ⟨p, h⟩

example (s : Self) (z : List Vec6) (hz : z.length = 50) (y : List (Option ℝ)) (hy : y.length = 50) : ∃ p q,
    plotStresses s ((List.range 50).map fun i => some (i : ℝ)) z ⟨some [1000, 500], some [80], some [true, false]⟩ = .ok p ∧
    plotStressCriteria ((List.range 50).map fun i => some (i : ℝ)) y ⟨some [1000, 500], some [80], some [true, false]⟩ = .ok q ∧
    p.curves.length = 2 ∧ q.curves.map Curve.y = [y] := by
  obtain ⟨p, hp⟩ := two_curves (z.map fun Z => some (1e3 * ftau s Z)) (z.map fun Z => some (1e3 * fsig s Z)) (by simpa using hz) (by simpa using hz)
  obtain ⟨q, hq⟩ := one_curve y hy
  refine ⟨p, q, hp, hq, ?_, (C63_criterion _ y _ q hq).2⟩
  have h := congrArg List.length (C63_stresses s _ z _ p hp).2
  simpa using h

example (g0 g1 g2 : List (Option ℝ)) (h0 : g0.length = 50) (h1 : g1.length = 50) (h2 : g2.length = 50) : ∃ p q,
    plotErrComp ((List.range 50).map fun i => some (i : ℝ)) g0 g1 = .ok p ∧ plotErrModes ((List.range 50).map fun i => some (i : ℝ)) g0 g1 g2 = .ok q ∧
    p.spans = [] ∧ q.spans = [] := by
  have l : ∀ g : List (Option ℝ), g.length = 50 → (perSquareMetre g).length = 50 := fun g h => by simp [perSquareMetre, h]
  obtain ⟨p, hp, -⟩ := C63_labels_partial (toCm ((List.range 50).map fun i => some (i : ℝ))) [perSquareMetre g0, perSquareMetre g1]
    (by intro y hy; simp only [List.mem_cons, List.not_mem_nil, or_false] at hy; rcases hy with rfl | rfl <;> simp [toCm_length, l, h0, h1])
    (by simp) [] [] [] false (by rw [fifty_reals]; simp)
  obtain ⟨q, hq, -⟩ := C63_labels_partial (toCm ((List.range 50).map fun i => some (i : ℝ))) [perSquareMetre g2, perSquareMetre g1, perSquareMetre g0]
    (by intro y hy; simp only [List.mem_cons, List.not_mem_nil, or_false] at hy; rcases hy with rfl | rfl | rfl <;> simp [toCm_length, l, h0, h1, h2])
    (by simp) [] [] [] false (by rw [fifty_reals]; simp)
  have hp' : plotErrComp ((List.range 50).map fun i => some (i : ℝ)) g0 g1 = .ok p := hp
  have hq' : plotErrModes ((List.range 50).map fun i => some (i : ℝ)) g0 g1 g2 = .ok q := hq
  obtain ⟨-, -, -, -, e1, -, e2, -⟩ := C63_energies _ g0 g1 g2 p q hp' hq'
  exact ⟨p, q, hp', hq', e1, e2⟩

/-- C63: 15 samples are too few for the displacements, 22 give a misplaced label. -/
example (s : Self) (z : List Vec6) (hz : z.length = 15) :
    plotDisplacements ((List.range 15).map fun i => some (i : ℝ)) z ⟨some [1000], some [], some [true]⟩ = .error .indexError :=
  (C63_coarse_violated s _ z (by simp [hz]) (by simp [reals]) [1000] [] [true]).1 (by simp [reals])

example (y : List (Option ℝ)) (hy : y.length = 5) : plotData [⟨(List.range 5).map fun i => some (i : ℝ), y, false⟩]
    (segs := ⟨some [1000], some [], some [true]⟩) = .error .indexError :=
  C63_few_samples_violated _ (by simp [reals]) [y] (by simp [hy]) (by simp) [1000] [] [true] true (by simp [reals])

example (y1 y2 : List (Option ℝ)) (h1 : y1.length = 22) (h2 : y2.length = 22) :=
  C63_label_violated ((List.range 22).map fun i => some (i : ℝ)) y1 y2 (by simp [h1]) (by simp [h2]) (by simp [reals]) [1000] [] [true] true

example (s : Self) (x : List (Option ℝ)) (z : List Vec6) := C63_fea_violated s x z [] [] [] []

example (c : Curve) (segs : PlotSegs) : plotData [c] [] (some 0) true segs = plotData [c] [] none true segs := C63_labelpos [c] [] true segs

example (a b c d : ℝ) := C63_dotted [some 0, some 10, none, some 20] [some a, some b, some c, some d] rfl (-50) 0 0 (by simp [samples])

example (a b c : ℝ) := C63_right 1 [([some 0, some 10, some 20], [some a, some b, some c])] (by simp [samples])

end Weac
