import Verif.Props.Tools
import Verif.Props.Laminate
import Verif.Props.Equilibrium
import Verif.Props.Lifecycle
import Verif.Props.Envelope
import Verif.Props.SearchSteps
import Verif.Props.Raster
import Verif.Props.Mesh

/-!
# Concrete cases for C01 to C15, C27 to C34 and C46 to C48

Every example applies a theorem to a slab of three layers (`demoPlies`), to the
object of a soft layer on a hard one (`coupled`) or to plain numbers, and
thereby meets its hypotheses.
-/

namespace Weac
open Spec

/-! ## Layered slabs -/

/-- C01: the centre of gravity of three layers lies inside 250 mm. -/
example : -(250 : ℝ) / 2 < (calcCenterOfGravity demoPlies).2 ∧ (calcCenterOfGravity demoPlies).2 < 250 / 2 := by
  have h := C01_center_of_gravity demoPlies demoPlies_valid
  have e : total Ply.h demoPlies = 250 := by norm_num [demoPlies, total]
  rw [e] at h
  exact ⟨h.2.2.2.1, h.2.2.2.2⟩

/-- C02: cutting the middle layer in two. -/
example : calcCenterOfGravity [⟨180, 120⟩, ⟨270, 30⟩, ⟨270, 50⟩, ⟨350, 50⟩]
    = calcCenterOfGravity [⟨180, 120⟩, ⟨270, 30 + 50⟩, ⟨350, 50⟩] := C02_split [⟨180, 120⟩] [⟨350, 50⟩] 270 30 50

/-- C02: all densities in g/cm³. -/
example : calcCenterOfGravity (demoPlies.map fun l => ⟨1 / 1000 * l.rho, l.h⟩) = calcCenterOfGravity demoPlies :=
  C02_scale (1 / 1000) (by norm_num) demoPlies

/-- C02: two layers of the same snow. -/
example : (calcCenterOfGravity [⟨240, 120⟩, ⟨240, 80⟩]).2 = 0 := C02_uniform 240 _ (by simp)

theorem tan_sixty : Real.tan (deg2rad 60) ≠ 0 := by
  have : deg2rad 60 = Real.pi / 3 := by unfold deg2rad; ring
  rw [this, Real.tan_pi_div_three]
  positivity

/-- C03: the wedge on a slope of 60 degrees. -/
example : (calcVerticalBcCenterOfGravity demoPlies 60).2.2 = wedgeMass demoPlies (deg2rad 60) ∧
    wedgeMass demoPlies (deg2rad 60) ≠ 0 :=
  let h := (C03_wedge_partial demoPlies demoPlies_valid 60).2 tan_sixty
  ⟨h.1, h.2.1⟩

/-- C03: its horizontal centroid is wrong there. -/
example : (calcVerticalBcCenterOfGravity demoPlies 60).1
    ≠ wedgeMomentX demoPlies (deg2rad 60) / wedgeMass demoPlies (deg2rad 60) := by
  have hp := Real.pi_pos
  refine C03_xs_wrong_on_every_slope demoPlies demoPlies_valid 60 ?_ ?_ ?_ <;> unfold deg2rad
  · positivity
  · linarith
  · linarith

example : Real.tan (deg2rad 60 / 2) ≠ Real.tan (deg2rad 60) / 2 := by
  intro h
  have hp := Real.pi_pos
  refine C03_xs_wrong_on_every_slope demoPlies demoPlies_valid 60 ?_ ?_ ?_
    ((C03_xs_correct_iff demoPlies demoPlies_valid 60 tan_sixty).2 h) <;> unfold deg2rad
  · positivity
  · linarith
  · linarith

/-- C04: the other parametrisations for 180 and 240 kg/m³. -/
example : 0 < gerling 240 6 4.5 ∧ gerling 180 6 4.5 < gerling 240 6 4.5 ∧ 0 < scapozza 240 ∧ scapozza 180 < scapozza 240 ∧
    ∃ v v', tensileStrengthSlab 180 "kPa" = .ok v ∧ tensileStrengthSlab 240 "kPa" = .ok v' ∧ v < v' :=
  ⟨(C04_gerling 6 4.5 (by norm_num) (by norm_num)).1 _ (by norm_num),
    (C04_gerling 6 4.5 (by norm_num) (by norm_num)).2 _ _ (by norm_num) (by norm_num),
    C04_scapozza.1 _ (by norm_num), C04_scapozza.2.1 _ _ (by norm_num) (by norm_num),
    C04_tensile_strength.2.1 _ _ (by norm_num) (by norm_num)⟩

/-- C05 to C07 for three layers. -/
example := C05_ply_coordinates demoSlab demoSlab_ok
example := C06_laminate_integrals demoSlab demoSlab_ok
example : 0 < (calcLaminateStiffnessMatrix demoSlab).A11 ∧ (calcLaminateStiffnessMatrix demoSlab).K0 < 0 :=
  let h := C07_positive_definite demoSlab demoSlab_ok
  ⟨h.1, h.2.2.2.2⟩

/-- C06: the slab upside down. -/
example : (calcLaminateStiffnessMatrix { demoSlab with slab := demoSlab.slab.reverse }).B11
    = -(calcLaminateStiffnessMatrix demoSlab).B11 :=
  (C06_reverse demoSlab { demoSlab with slab := demoSlab.slab.reverse } demoSlab_ok rfl rfl rfl).2.1

/-- C08: the default weak layer is stiffer in compression than in shear; one of
half the thickness is twice as stiff. -/
example (eig : EigSolver) : (calcFoundationStiffness (coupled eig "pst-" false)).kt
    < (calcFoundationStiffness (coupled eig "pst-" false)).kn :=
  (C08_foundation_stiffness _ (coupled_ready eig "pst-" false).weak).2.2.2.2

example (s : Self) : (calcFoundationStiffness { s with weak := ⟨s.weak.nu, 1 * s.weak.E⟩, t := 1 / 2 * s.t }).kn
    = 1 / (1 / 2) * (calcFoundationStiffness s).kn := (C08_scaling s 1 (1 / 2)).1

/-! ## Equilibrium, for a slab with tension-bending coupling -/

example (eig : EigSolver) (Z : Vec6) := C09_field_quantities (coupled eig "pst-" false) Z

example (eig : EigSolver) (Z : Vec6) :
    EquilBedded (coupled eig "pst-" false).beam ((coupled eig "pst-" false).loads 38) Z (dzdx (coupled eig "pst-" false) Z 38) :=
  (C09_dzdx_iff_equilibrium _ (coupled_ready eig _ _).stiff.regular Z _ 38).1 rfl

/-- C10: neither force nor moment in the undisturbed slab. -/
example (eig : EigSolver) : fN (coupled eig "pst-" false) (zp (coupled eig "pst-" false) 0 38 true) = 0 ∧
    fM (coupled eig "pst-" false) (zp (coupled eig "pst-" false) 0 38 true) = 0 :=
  let h := C10_bedded_particular (coupled eig "pst-" false) (coupled_ready eig _ _).stiff.regular 0 100 38
  ⟨h.2.2.1, h.2.2.2.1⟩

/-- C11: a free segment of 500 mm. -/
example (eig : EigSolver) (C : Vec6) (x : ℝ) :=
  C11_free_complementary (coupled eig "pst-" false) (coupled_ready eig _ _).stiff.regular C 500 x

/-- C12: without surface load the free particular integral is in equilibrium. -/
example (eig : EigSolver) (x : ℝ) : EquilFree (coupled eig "pst-" false).beam ((coupled eig "pst-" false).loads 38)
    (zp (coupled eig "pst-" false) x 38 false) (dzpFree (coupled eig "pst-" false) x 38) := by
  refine (C12_free_particular_iff _ (coupled_ready eig _ _).stiff.regular x 38).2 ?_
  have hp : (coupled eig "pst-" false).p = 0 := rfl
  simp [Self.loads, getSurfaceLoad, hp]

example (eig : EigSolver) := C12_free_particular_violated eig

/-- C15: a skier of 80 kg on slopes of 38 degrees facing either way. -/
example (eig : EigSolver) : (getSkierLoad (coupled eig "skier" false) 80 (-38)).2 = -(getSkierLoad (coupled eig "skier" false) 80 38).2 := by
  rw [(C15_parity (coupled eig "skier" false) 80 38).2.2.1]

example (eig : EigSolver) : (getSkierLoad (coupled eig "skier" false) 80 38).1 ^ 2 + (getSkierLoad (coupled eig "skier" false) 80 38).2 ^ 2
    = 0.7848 ^ 2 := by
  rw [(C15_decomposition (coupled eig "skier" false) 80 38).2.2]
  have h1 : (coupled eig "skier" false).g = 9810 := rfl
  have h2 : (coupled eig "skier" false).lski = 1000 := rfl
  rw [h1, h2]
  norm_num

/-- C15: the weight of the upper and the lower layer. -/
example (eig : EigSolver) (a b : Layer) : let s := { coupled eig "skier" false with slab := [a, b] }
    getWeightLoad s 38 = getWeightLoad { s with slab := [a] } 38 + getWeightLoad { s with slab := [b] } 38 :=
  (C15_linear { coupled eig "skier" false with slab := [a, b] } { coupled eig "skier" false with slab := [a] }
    { coupled eig "skier" false with slab := [b] } 38 0 0 0 rfl rfl rfl).1

/-! ## Setters -/

/-- C27: a weak layer of 20 mm, then a new slab. -/
example (eig : EigSolver) (s : Self) : Fresh eig (setFoundationProperties eig 20 0.2 0.25 true s) ∧
    Fresh eig (setBeamProperties eig (.rows demoPlies) 6.5 4.4 0.25 true s).2 :=
  ⟨(C27_update_flag eig s).1 _ _ _, (C27_update_flag eig s).2.1 (.rows demoPlies) 6.5 4.4 0.25 rfl⟩

example (eig : EigSolver) (s : Self) : Fresh eig (calcFundamentalSystem eig (setFoundationProperties eig 20 0.2 0.25 false s)) :=
  C27_idempotent eig _

example (eig : EigSolver) (s : Self) :
    (runSetters eig [.foundation 20 0.2 0.25 true, .beam (.rows demoPlies) 6.5 4.4 0.25 true] s).p = s.p :=
  (C27_settings eig _ s).2 (by simp [Setter.isSurface])

/-! ## Grids -/

/-- C28 and C29 for a supported stretch of 10 mm and a crack of 5 mm. -/
example (s : Self) : ∃ pts, rasterize s 38 2 gridDemo = .ok pts ∧ 3 ≤ pts.length ∧ (∃ p, pts.head? = some p ∧ p.x = 0) ∧
    (∀ p ∈ pts, ∃ b g, Begins 0 gridDemo b g ∧ g.l ≠ 0 ∧ b ≤ p.x) ∧
    (∀ p ∈ pts, p.xb = some p.x ∨ p.xb = none) ∧ some (0 + |(10 : ℝ)|) ∈ pts.map GridPt.xb := by
  obtain ⟨pts, h, -, -⟩ := gridDemo_pts s 38
  refine ⟨pts, h, (C28_size s 38 2 (by norm_num) gridDemo pts h).1, (C28_grid s 38 2 (by norm_num) gridDemo pts h).1, fun p hp => ?_,
    fun p hp => ?_, ?_⟩
  · obtain ⟨b, g, h1, h2, h3, -⟩ := C28_field s 38 2 (by norm_num) gridDemo pts h p hp
    exact ⟨b, g, h1, h2, h3⟩
  · obtain ⟨h1, h2⟩ := C29_mask s 38 2 (by norm_num) gridDemo pts h p hp
    by_cases hb : p.xb = none
    · exact .inr hb
    · exact .inl (h1.2 (not_not.1 fun h => hb (h2.2 h)))
  · exact (C29_crack_tips s 38 2 (by norm_num) gridDemo pts h 0 ⟨0, true, 10⟩ (.inl ⟨rfl, rfl⟩) (by norm_num) rfl).2

/-- C33: a mesh of 2 mm through three layers. -/
example : ((getZmesh demoSlab 2).head?).map MeshPt.z = some (-demoSlab.h / 2) :=
  (C33_range demoSlab demoSlab_ok 2 (by norm_num)).1

/-- C34: the shear stress vanishes at the surface. -/
example (eig : EigSolver) (Z : Vec6) : ∃ T, fTxz (coupled eig "pst-" false) Z 38 2 "kPa" = .ok T ∧ T.head? = some 0 := by
  obtain ⟨T, h1, -, h2, -⟩ := C34_surfaces_partial eig _ (coupled_ready eig "pst-" false) 2 (by norm_num) 38 Z "kPa" _ rfl
  exact ⟨T, h1, h2⟩

example (eig : EigSolver) (Z : Vec6) :=
  C34_shear_stress_partial (coupled eig "pst-" false) (coupled_ready eig _ _).stiff.regular (coupled_ready eig _ _).slab 2 (by norm_num) 38 Z
    _ ((C09_dzdx_iff_equilibrium _ (coupled_ready eig _ _).stiff.regular Z _ 38).1 rfl) "kPa" _ rfl

/-! ## Envelopes -/

/-- C46: depth hoar of 250 kg/m³. -/
example := C46_meaning (C46_schottner 1 3 250 false) (by positivity) (by positivity)

/-- C46: half way between a safe compression and a safe shear. -/
example : ∃ w, stressEnvelope ⟨"adam_unpublished", 1, 1, 250⟩ (1 / 2 * 6 + (1 - 1 / 2) * 0) (1 / 2 * 0 + (1 - 1 / 2) * 5) = .ok w ∧ w ≤ 1 := by
  have hf := C46_adam 1 1 250 false
  have e : strengthFactor 1 1 = 1 := by norm_num [strengthFactor]
  refine C46_convex hf (hf 6 0) (hf 0 5) ?_ ?_ (by norm_num) (by norm_num) <;> rw [e] <;> norm_num

example := C46_curve_violated

/-- C46: the Mede envelope of rounded grains takes the unloaded state for broken. -/
example : ∃ v, stressEnvelope ⟨"mede_s-RG1", 1, 1, 250⟩ 0 0 = .ok v ∧ 1 < v := (C46_mede_violated (.inl ⟨rfl, rfl, rfl⟩) 1 1 250).2

/-- C47: pure modes and half the toughness in shear. -/
example : fractureToughnessCriterion 0.56 0 = 1 ∧ fractureToughnessCriterion 0 0.79 = 1 := (C47_basic 0 0).2.2.2.2

example : fractureToughnessCriterion 0.28 (fractureToughnessEnvelope false 0.28) < 1 := by
  have h := C47_curve_partial (G := 0.28) (by norm_num) (by norm_num)
  refine lt_of_le_of_ne h.1 fun e => ?_
  rcases h.2.1 e with e | e <;> norm_num at e

example : fractureToughnessEnvelope true ((0 : ℤ) : ℝ) = 0 := (C47_integers_violated 0).1

/-- C48: the strength of faceted crystals in shear is 4.1 kPa without compression. -/
example : failureEnvelopeChandel false "FCsf" 0 = .ok 4.1 := by
  obtain ⟨-, f, h, -, -, -, h0, -⟩ := C48_chandel_partial
  rw [h, h0]

example : failureEnvelopeMede true "s-FCDH" ((1 : ℤ) : ℝ) = .ok 0 := C48_integers_violated.1 1

end Weac
