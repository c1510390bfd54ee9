import Mathlib.Analysis.Normed.Module.FiniteDimension
import Verif.Props.Springs
import Verif.Lemmas.LocalBound
import Verif.Lemmas.Compliance

/-!
# The response of a supported slab depends continuously on its length
-/

namespace Weac.Spec

variable {b : Beam}

/-- Section forces as a linear map. -/
noncomputable def Beam.forces (b : Beam) : Vec6 →ₗ[ℝ] ℝ × ℝ × ℝ where
  toFun z := (b.N z, b.M z, b.V z)
  map_add' y z := by
    simp only [Beam.N, Beam.M, Beam.V, Pi.add_apply, Prod.mk_add_mk, Prod.mk.injEq]
    exact ⟨by ring, by ring, by ring⟩
  map_smul' c z := by
    simp only [Beam.N, Beam.M, Beam.V, Pi.smul_apply, smul_eq_mul, Prod.smul_mk, Prod.mk.injEq, RingHom.id_apply]
    exact ⟨by ring, by ring, by ring⟩

theorem continuous_transfer (b : Beam) (bed : Bool) : Continuous (b.transfer bed) :=
  continuous_iff_continuousAt.2 fun x => (hasDerivAt_exp_smul_const' (𝕂 := ℝ) (b.op bed) x).continuousAt

/-- The state at the loaded end is a continuous function of the length. -/
theorem TipLoaded.near (hb : b.Coercive) {L N M V : ℝ} {Z : ℝ → Vec6} (hL : 0 < L) (hZ : TipLoaded b L N M V Z) {ε : ℝ}
    (hε : 0 < ε) : ∃ δ, 0 < δ ∧ ∀ L' Z', |L' - L| < δ → TipLoaded b L' N M V Z' → ‖Z' 0 - Z 0‖ < ε := by
  set F : Vec6 →L[ℝ] ℝ × ℝ × ℝ := LinearMap.toContinuousLinearMap b.forces with hF
  set T : Vec6 →ₗ[ℝ] (ℝ × ℝ × ℝ) × (ℝ × ℝ × ℝ) :=
    b.forces.prod (b.forces.comp (b.transfer true L).toLinearMap) with hT
  have hker : LinearMap.ker T = ⊥ := by
    rw [LinearMap.ker_eq_bot']
    intro z hz
    have h1 : b.forces z = 0 := congrArg Prod.fst hz
    have h2 : b.forces (b.transfer true L z) = 0 := congrArg Prod.snd hz
    have g1 : b.N z = 0 ∧ b.M z = 0 ∧ b.V z = 0 := by simpa [Beam.forces, Prod.ext_iff] using h1
    have g2 : b.N (b.transfer true L z) = 0 ∧ b.M (b.transfer true L z) = 0 ∧ b.V (b.transfer true L z) = 0 := by
      simpa [Beam.forces, Prod.ext_iff] using h2
    have e0 : b.transfer true 0 z = z := by simp [Beam.transfer]
    have t1 : TipLoaded b L 0 0 0 fun x => b.transfer true x z :=
      ⟨transfer_solves hb true z, by simpa only [EndCond.Holds, e0] using g1, g2⟩
    have t0 : TipLoaded b L 0 0 0 fun _ => 0 := by
      refine ⟨?_, ?_, ?_⟩
      · have := transfer_solves hb true (0 : Vec6)
        simpa using this
      · simp [EndCond.Holds, Beam.N, Beam.M, Beam.V]
      · simp [EndCond.Holds, Beam.N, Beam.M, Beam.V]
    have := TipLoaded.unique hb hL t1 t0 0
    simpa [e0] using this
  obtain ⟨K, hK, hA⟩ := T.exists_antilipschitzWith hker
  set κ : ℝ := K * ‖F‖ with hκ
  have hκ0 : 0 ≤ κ := by positivity
  set η := min (1 / (2 * (κ + 1))) (ε / (2 * (κ + 1) * (‖Z 0‖ + 1))) with hη
  have hη0 : 0 < η := lt_min (by positivity) (by positivity)
  obtain ⟨δ, hδ, hc⟩ := Metric.continuous_iff.1 (continuous_transfer b true) L η hη0
  refine ⟨δ, hδ, fun L' Z' hL' hZ' => ?_⟩
  have hh := hc L' (by rwa [Real.dist_eq])
  rw [dist_eq_norm, norm_sub_rev] at hh
  set h := ‖b.transfer true L - b.transfer true L'‖ with hhd
  set D := Z' 0 - Z 0 with hD
  have e1 : b.forces D = 0 := by
    rw [hD, map_sub]
    obtain ⟨a1, a2, a3⟩ := hZ.loaded
    obtain ⟨c1, c2, c3⟩ := hZ'.loaded
    simp [Beam.forces, a1, a2, a3, c1, c2, c3]
  have w : b.transfer true L (Z 0) = Z L := by
    have := solves_transfer hb hZ.ode 0 L
    rw [add_zero] at this
    exact this.symm
  have w' : b.transfer true L' (Z' 0) = Z' L' := by
    have := solves_transfer hb hZ'.ode 0 L'
    rw [add_zero] at this
    exact this.symm
  have z1 : b.forces (Z L) = 0 := by
    obtain ⟨a1, a2, a3⟩ := hZ.free
    simp [Beam.forces, a1, a2, a3]
  have z2 : b.forces (Z' L') = 0 := by
    obtain ⟨a1, a2, a3⟩ := hZ'.free
    simp [Beam.forces, a1, a2, a3]
  have e2 : b.forces (b.transfer true L D) = F ((b.transfer true L - b.transfer true L') (Z' 0)) := by
    have : b.forces (b.transfer true L D) = b.forces (b.transfer true L (Z' 0)) := by
      rw [hD, map_sub, w, map_sub, z1, sub_zero]
    rw [this]
    change _ = b.forces _
    rw [sub_apply, map_sub, w', z2, sub_zero]
  have n1 : ‖T D‖ ≤ ‖F‖ * (h * ‖Z' 0‖) := by
    have : T D = (0, F ((b.transfer true L - b.transfer true L') (Z' 0))) := by
      rw [hT, LinearMap.prod_apply]
      exact Prod.ext e1 e2
    rw [this, Prod.norm_def]
    refine max_le (by rw [norm_zero]; positivity) ?_
    refine (F.le_opNorm _).trans (mul_le_mul_of_nonneg_left ?_ (norm_nonneg _))
    exact ContinuousLinearMap.le_opNorm _ _
  have n2 : ‖D‖ ≤ K * ‖T D‖ := by
    have := hA.le_mul_dist D 0
    simpa [dist_eq_norm] using this
  have n3 : ‖Z' 0‖ ≤ ‖Z 0‖ + ‖D‖ := by
    have : Z' 0 = Z 0 + D := by rw [hD]; abel
    rw [this]; exact norm_add_le _ _
  have hh0 : 0 ≤ h := norm_nonneg _
  have n4 : ‖D‖ ≤ κ * h * (‖Z 0‖ + ‖D‖) := by
    have k1 : (K : ℝ) * ‖T D‖ ≤ K * (‖F‖ * (h * ‖Z' 0‖)) := mul_le_mul_of_nonneg_left n1 K.coe_nonneg
    have k2 : (K : ℝ) * (‖F‖ * (h * ‖Z' 0‖)) = κ * h * ‖Z' 0‖ := by rw [hκ]; ring
    have k3 : κ * h * ‖Z' 0‖ ≤ κ * h * (‖Z 0‖ + ‖D‖) := mul_le_mul_of_nonneg_left n3 (by positivity)
    linarith
  have m1 : (κ + 1) * h ≤ 1 / 2 := by
    have := (hh.le.trans (min_le_left _ _))
    rw [le_div_iff₀ (by positivity)] at this
    linarith
  have m2 : 2 * ((κ + 1) * h) * (‖Z 0‖ + 1) < ε := by
    have := (hh.trans_le (min_le_right _ _))
    rw [lt_div_iff₀ (by positivity)] at this
    linarith
  have m3 : κ * h ≤ (κ + 1) * h := by nlinarith
  have nd := norm_nonneg D
  have nz := norm_nonneg (Z 0)
  have m4 : κ * h * ‖D‖ ≤ 1 / 2 * ‖D‖ := mul_le_mul_of_nonneg_right (m3.trans m1) nd
  have m5 : κ * h * ‖Z 0‖ ≤ (κ + 1) * h * (‖Z 0‖ + 1) := by
    refine mul_le_mul m3 (by linarith) nz (by positivity)
  linarith

/-- The end of a piece of length `L` turns under a unit moment by at least
`3 / (kn L³)`. -/
theorem TipLoaded.rotation_ge (hb : b.Coercive) {L : ℝ} {Z : ℝ → Vec6} (hL : 0 < L) (hZ : TipLoaded b L 0 1 0 Z) :
    3 / (b.kn * L ^ 3) ≤ -Z 0 4 := by
  obtain ⟨f0, fL⟩ := hZ.flux_ends
  obtain ⟨h1, h2, h3⟩ := hZ.loaded
  obtain ⟨k1, k2, k3⟩ := hZ.free
  have hk := hb.kn
  choose dz hdz heq using hZ.ode
  set c := -3 / (b.kn * L ^ 3) with hc
  set e := (b.h + b.t) / 2 with he
  have hB : ∀ x, HasDerivAt (fun y => b.M (Z y) - e * b.N (Z y) - y * b.V (Z y)) (-(x * (b.kn * Z x 2))) x := by
    intro x
    have h := heq x
    have hh := fun i => (hasDerivAt_pi.mp (hdz x)) i
    unfold Equil at h
    rw [if_pos rfl] at h
    obtain ⟨-, eN, eV, eM⟩ := h
    have dN : HasDerivAt (fun y => b.N (Z y)) _ x := ((hh 1).const_mul b.A).add ((hh 5).const_mul b.B)
    have dM : HasDerivAt (fun y => b.M (Z y)) _ x := ((hh 1).const_mul b.B).add ((hh 5).const_mul b.D)
    have dV : HasDerivAt (fun y => b.V (Z y)) _ x := ((hh 3).add (hh 4)).const_mul b.S
    refine ((dM.sub (dN.const_mul e)).sub ((hasDerivAt_id x).mul dV)).congr_deriv ?_
    simp only [Loads.zero] at eN eV eM
    simp only [id_eq, one_mul]
    linear_combination eM - e * eN - x * eV
  have hG : ∀ x, HasDerivAt (fun y => b.flux (Z y) + -(2 * c) * (b.M (Z y) - e * b.N (Z y) - y * b.V (Z y))
      + b.kn * c ^ 2 / 3 * y ^ 3)
      (b.diss true (Z x) + -(2 * c) * (-(x * (b.kn * Z x 2))) + b.kn * c ^ 2 / 3 * (3 * x ^ 2)) x := by
    intro x
    have h3 : HasDerivAt (fun y : ℝ => y ^ 3) (3 * x ^ 2) x := by simpa using hasDerivAt_pow 3 x
    exact ((b.flux_deriv true Z x (dz x) (hdz x) (heq x)).add ((hB x).const_mul _)).add (h3.const_mul _)
  have key := monotone_le hL.le hG (by
    intro x _ _
    have g1 := hb.diss_ge (Z x)
    have p1 := mul_nonneg hb.Dred_pos.le (sq_nonneg (Z x 5))
    have p2 := mul_nonneg hb.Sred_pos.le (sq_nonneg (Z x 3 + Z x 4))
    have p3 : 0 ≤ b.kn * (Z x 2 + c * x) ^ 2 := by positivity
    nlinarith)
  simp only [f0, fL, h1, h2, h3, k1, k2, k3] at key
  have e1 : b.kn * c ^ 2 / 3 * L ^ 3 = 3 / (b.kn * L ^ 3) := by
    rw [hc]; field_simp
  have e2 : c = -(3 / (b.kn * L ^ 3)) := by rw [hc]; ring
  rw [e1, e2] at key
  linarith

end Weac.Spec
