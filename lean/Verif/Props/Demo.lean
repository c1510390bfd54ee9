import Mathlib.LinearAlgebra.Matrix.Determinant.Basic
import Mathlib.Algebra.Polynomial.Roots
import Mathlib.Algebra.Polynomial.Taylor
import Verif.Props.Bedded

/-!
# A concrete object and a concrete eigensolver

The contract of the eigensolver can be met for all matrices, and the object
`Layered(system, layers="comp")` (one layer, 240 kg/m³, 200 mm, 5.23 MPa) has
pairwise different eigenvalues, so that all hypotheses of the solution theory
hold for it.
-/

namespace Weac
open Spec

/-! ## The contract of the eigensolver is satisfiable -/

theorem exists_eigenvector (K : Mat6) (z : ℂ) (hz : z ∈ (toC K).charpoly.roots) :
    ∃ v : Fin 6 → ℂ, v ≠ 0 ∧ (toC K).mulVec v = z • v ∧ (z.im = 0 → ∀ i, (v i).im = 0) := by
  have hroot : ((toC K).charpoly).IsRoot z := (Polynomial.mem_roots'.mp hz).2
  by_cases hi : z.im = 0
  · obtain ⟨r, rfl⟩ : ∃ r : ℝ, z = r := ⟨z.re, Complex.ext rfl (by simpa using hi)⟩
    have h1 : K.charpoly.eval r = 0 := by
      rw [toC_charpoly, Polynomial.IsRoot, Polynomial.eval_map_algebraMap] at hroot
      have h2 : Polynomial.aeval ((algebraMap ℝ ℂ) r) K.charpoly = 0 := hroot
      rw [Polynomial.aeval_algebraMap_apply] at h2
      have := (map_eq_zero (algebraMap ℝ ℂ)).mp h2
      simpa using this
    rw [Matrix.eval_charpoly] at h1
    obtain ⟨v, hv, h0⟩ := Matrix.exists_mulVec_eq_zero_iff.mpr h1
    refine ⟨fun i => (v i : ℂ), ?_, ?_, by simp⟩
    · intro h; apply hv; funext i; have := congrFun h i; simpa using this
    · funext i
      rw [toC_mulVec_ofReal]
      rw [Matrix.sub_mulVec, sub_eq_zero] at h0
      rw [← h0]
      simp [Matrix.scalar_apply, Matrix.mulVec_diagonal]
  · rw [Polynomial.IsRoot, Matrix.eval_charpoly] at hroot
    obtain ⟨v, hv, h0⟩ := Matrix.exists_mulVec_eq_zero_iff.mpr hroot
    refine ⟨v, hv, ?_, fun h => absurd h hi⟩
    rw [Matrix.sub_mulVec, sub_eq_zero] at h0
    rw [← h0]
    funext i
    simp [Matrix.scalar_apply, Matrix.mulVec_diagonal]

open Classical in
/-- An eigensolver meeting the contract. -/
noncomputable def stdEig : EigSolver := fun K =>
  (toC K).charpoly.roots.toList.map fun z =>
    (z, if h : z ∈ (toC K).charpoly.roots then (exists_eigenvector K z h).choose else 0)

theorem stdEig_ok (K : Mat6) : EigOk K (stdEig K) := by
  constructor
  · intro q hq
    simp only [stdEig, List.mem_map, Multiset.mem_toList] at hq
    obtain ⟨z, hz, rfl⟩ := hq
    simp only [hz, dif_pos]
    exact ⟨(exists_eigenvector K z hz).choose_spec.1, (exists_eigenvector K z hz).choose_spec.2.1⟩
  · simp only [stdEig, List.map_map, Function.comp_def, List.map_id', Multiset.coe_toList]
  · intro q hq
    simp only [stdEig, List.mem_map, Multiset.mem_toList] at hq
    obtain ⟨z, hz, rfl⟩ := hq
    simp only [hz, dif_pos]
    exact (exists_eigenvector K z hz).choose_spec.2.2

theorem eigOk_exists : ∃ eig : EigSolver, ∀ K, EigOk K (eig K) := ⟨stdEig, stdEig_ok⟩

/-! ## The object -/

/-- The slab of the profile `comp`. -/
noncomputable def compLayer : Layer := ⟨240, 200, 5.23, 5.23 / (2 * (1 + 0.25)), 0.25⟩

/-- `Layered(system, layers="comp", touchdown)`. -/
noncomputable def demo (eig : EigSolver) (system : String) (td : Bool) : Self :=
  calcFundamentalSystem eig (setFoundationProperties eig 30 0.25 0.25 false
    (setBeamProperties eig (.str "comp") 6.5 4.4 0.25 false (Self.init system td true)).2)

theorem load_comp : loadDummyProfile "comp" = .ok ([⟨240, 200⟩], [5.23]) := by
  have : strLower "comp" = "comp" := by rfl
  simp [loadDummyProfile, this, profileDatabase, List.lookup]

theorem set_comp (eig : EigSolver) (C0 C1 nu : ℝ) (u : Bool) (s : Self) :
    setBeamProperties eig (.str "comp") C0 C1 nu u s = (.ok (), setSlab eig [⟨240, 200⟩] [5.23] nu u s) := by
  have : lastWord "comp" = some "comp" := by rfl
  simp only [setBeamProperties, this, load_comp]

theorem demo_init (eig : EigSolver) (system : String) (td : Bool) :
    layeredInit eig system (.str "comp") td = .ok (demo eig system td) := by
  have h : ("comp" : String) ≠ "" := by decide
  simp only [layeredInit, CtorLayers.truthy, demo, set_comp]
  rfl

theorem demo_ready (eig : EigSolver) (system : String) (td : Bool) : Ready eig (demo eig system td) := by
  have hv : ValidPlies [⟨240, 200⟩] := ⟨by simp, by simp⟩
  have hok := setSlab_slabOk eig [⟨240, 200⟩] [5.23] 0.25 (Self.init system td true) hv
    (by intro e he; simp only [List.mem_singleton] at he; rw [he]; norm_num) rfl (by norm_num) (by norm_num)
  unfold demo
  rw [set_comp]
  refine ⟨hok.congr rfl, ?_, C27_idempotent eig _, ?_, ?_⟩
  · constructor <;> norm_num [calcFundamentalSystem, calcEigensystem, calcLaminateStiffnessMatrix,
      calcFoundationStiffness, setFoundationProperties]
  · show (0 : ℝ) < 9810; norm_num
  · show (0 : ℝ) < 1000; norm_num

/-- All derived attributes of the object as rational numbers. -/
theorem demo_fields (eig : EigSolver) (system : String) (td : Bool) :
    let s := demo eig system td
    s.kn = 2 / 225 ∧ s.kt = 1 / 300 ∧ s.A11 = 16736 / 15 ∧ s.B11 = 0 ∧ s.D11 = 33472000 / 9 ∧
    s.kA55 = 1046 / 3 ∧ s.h = 200 ∧ s.t = 30 ∧ s.zs = 0 ∧ s.slab = [compLayer] ∧ s.p = 0 ∧
    s.g = 9810 ∧ s.lski = 1000 ∧ s.system = system ∧ s.touchdown = td ∧ s.hasContact = true := by
  intro s
  have hh : (calcCenterOfGravity [⟨240, 200⟩]).1 = 200 := by rw [cog_fst]; norm_num [total]
  have hz : (calcCenterOfGravity [⟨240, 200⟩]).2 = 0 := by
    norm_num [calcCenterOfGravity, nth]
  set s0 := setFoundationProperties eig 30 0.25 0.25 false
    (setSlab eig [⟨240, 200⟩] [5.23] 0.25 false (Self.init system td true)) with hs0
  have hs : s = calcFundamentalSystem eig s0 := by
    show demo eig system td = _
    unfold demo; rw [set_comp]
  have f1 : s0.slab = [compLayer] := rfl
  have f2 : s0.h = 200 := hh
  have f3 : s0.k = 5 / 6 := rfl
  have f4 : s0.t = 30 := rfl
  have f5 : s0.weak = ⟨0.25, 0.25⟩ := rfl
  have f6 : s0.zs = 0 := hz
  obtain ⟨h1, h2, h3, h4, h5, h6, h7⟩ := fundamental_fields eig s0
  rw [← hs] at h1 h2 h3 h4 h5 h6 h7
  rw [laminate_eq] at h3 h4 h5 h6
  simp only [f1, f2, f3, layerSum, compLayer] at h3 h4 h5 h6
  simp only [calcFoundationStiffness, f4, f5] at h1 h2
  have m : s.material = s0.material := by rw [hs]; rfl
  simp only [Self.material, Prod.mk.injEq] at m
  obtain ⟨m1, m2, m3, m4, m5, m6⟩ := m
  refine ⟨?_, ?_, ?_, ?_, ?_, ?_, m4.trans f2, m2.trans f4, m5.trans f6, m3.trans f1, ?_, ?_, ?_, ?_, ?_, ?_⟩
  · rw [h1]; norm_num
  · rw [h2]; norm_num
  · rw [h3]; norm_num
  · rw [h4]; norm_num
  · rw [h5]; norm_num
  · rw [h6]; norm_num
  all_goals (rw [hs]; rfl)

theorem charpoly_pattern (a b c d e f g x : ℂ) :
    (!![x, -1, 0, 0, 0, 0; -a, x, 0, -b, -c, 0; 0, 0, x, -1, 0, 0; 0, 0, -d, x, 0, 1; 0, 0, 0, 0, x, -1;
      -e, 0, 0, -f, -g, x] : Matrix (Fin 6) (Fin 6) ℂ).det
    = x ^ 6 + (f - g - d - a) * x ^ 4 + (g * d + g * a - f * a + d * a + b * e - e * c) * x ^ 2
      + (d * e * c - g * d * a) := by
  simp [Matrix.det_succ_row_zero, Fin.sum_univ_succ, Fin.succAbove]
  ring

theorem demo_charpoly (eig : EigSolver) (system : String) (td : Bool) :
    (toC (calcSystemMatrix (demo eig system td))).charpoly
      = Polynomial.X ^ 6 + Polynomial.C (-16201 / 401664000 : ℂ) * Polynomial.X ^ 4
        + Polynomial.C (3583 / 1312939200000 : ℂ) * Polynomial.X ^ 2
        + Polynomial.C (-1 / 140046848000000 : ℂ) := by
  apply Polynomial.funext
  intro x
  obtain ⟨h1, h2, h3, h4, h5, h6, h7, h8, -⟩ := demo_fields eig system td
  have hK0 := (demo_ready eig system td).stiff.K0_eq
  rw [h3, h4, h5] at hK0
  rw [Matrix.eval_charpoly]
  have hM : calcSystemMatrix (demo eig system td) =
      !![0, 1, 0, 0, 0, 0; 1 / 334720, 0, 0, -3 / 66944, 5 / 16736, 0; 0, 0, 0, 1, 0, 0;
        0, 0, 1 / 39225, 0, 0, -1; 0, 0, 0, 0, 0, 1;
        69 / 669440000, 0, 0, 2469 / 26777600, 3483 / 33472000, 0] := by
    simp only [calcSystemMatrix, h1, h2, h3, h4, h5, h6, h7, h8, hK0]
    norm_num
  have e : (Matrix.scalar (Fin 6)) x - toC (calcSystemMatrix (demo eig system td))
      = !![x, -1, 0, 0, 0, 0; -(1 / 334720), x, 0, -(-3 / 66944), -(5 / 16736), 0; 0, 0, x, -1, 0, 0;
        0, 0, -(1 / 39225), x, 0, 1; 0, 0, 0, 0, x, -1;
        -(69 / 669440000), 0, 0, -(2469 / 26777600), -(3483 / 33472000), x] := by
    rw [hM]
    ext i j
    fin_cases i <;> fin_cases j <;> simp [toC]
  rw [e, charpoly_pattern]
  simp only [Polynomial.eval_add, Polynomial.eval_mul, Polynomial.eval_pow, Polynomial.eval_X,
    Polynomial.eval_C]
  ring

theorem demo_distinct (eig : EigSolver) (system : String) (td : Bool) :
    (toC (calcSystemMatrix (demo eig system td))).charpoly.roots.Nodup := by
  have h0 : (toC (calcSystemMatrix (demo eig system td))).charpoly ≠ 0 :=
    (Matrix.charpoly_monic _).ne_zero
  rw [Multiset.nodup_iff_count_le_one]
  intro x
  rw [Polynomial.count_roots]
  by_contra hcon
  push Not at hcon
  obtain ⟨r1, r2⟩ := (Polynomial.one_lt_rootMultiplicity_iff_isRoot h0).mp hcon
  rw [demo_charpoly] at r1 r2
  simp [Polynomial.IsRoot, Polynomial.derivative_pow] at r1 r2
  have hx : x ≠ 0 := by
    rintro rfl
    norm_num at r1
  have r3 : 3 * (x ^ 2) ^ 2 + 2 * (-16201 / 401664000) * x ^ 2 + 3583 / 1312939200000 = 0 := by
    have : (2 * x) * (3 * (x ^ 2) ^ 2 + 2 * (-16201 / 401664000) * x ^ 2 + 3583 / 1312939200000) = 0 := by
      linear_combination r2
    rcases mul_eq_zero.mp this with h | h
    · exact absurd h (by simpa using hx)
    · exact h
  have : (1 : ℂ) = 0 := by
    linear_combination (21284428886897621828605440000000 / 1037373687155849309
        + -700576892468880783223357440000000000 / 1037373687155849309 * x ^ 2) * r1
      + (435821964758614644633600000 / 1037373687155849309
        + -10234538975685834896689920000000 / 1037373687155849309 * x ^ 2
        + 233525630822960261074452480000000000 / 1037373687155849309 * x ^ 4) * r3
  exact one_ne_zero this

/-- The object meets every hypothesis of the solution theory. -/
theorem demo_bedOk (system : String) (td : Bool) : BedOk (demo stdEig system td) := by
  have hr := demo_ready stdEig system td
  have he := stdEig_ok (calcSystemMatrix (demo stdEig system td))
  refine bedOk stdEig _ hr.stiff hr.fresh.eigFresh he
    (C13_distinct_eigenvalues stdEig _ hr.fresh.eigFresh he ?_)
  rw [← Multiset.coe_nodup, he.spectrum]
  exact demo_distinct stdEig system td

/-- Hypotheses of C13 and C14 hold for a concrete object and eigensolver. -/
example : ∃ (eig : EigSolver) (s : Self), layeredInit eig "pst-" (.str "comp") false = .ok s ∧
    Stiff s ∧ EigFresh eig s ∧ EigOk (calcSystemMatrix s) (eig (calcSystemMatrix s)) ∧ Indep s.eigs :=
  ⟨stdEig, _, demo_init _ _ _, (demo_ready _ _ _).stiff, (demo_ready _ _ _).fresh.eigFresh, stdEig_ok _,
    (demo_bedOk "pst-" false).indep⟩

end Weac
