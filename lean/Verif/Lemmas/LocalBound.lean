import Mathlib.Analysis.SpecialFunctions.Exponential
import Verif.Lemmas.Decay
import Verif.Lemmas.Ode

/-!
# The state at a point is bounded by the strain energy nearby

Solutions of the equilibrium equations are `exp (x T) z`. The strain energy of a
supported piece is a positive definite quadratic form of the state at its
beginning.
-/

namespace Weac.Spec

variable {b : Beam}

theorem Beam.sys_equil (hb : b.Coercive) (bed : Bool) (z : Vec6) : Equil b Loads.zero bed z (b.sys bed z) := by
  have hd := hb.det.ne'
  have hS := hb.S.ne'
  cases bed with
  | true =>
    have : EquilBedded b Loads.zero z (b.sys true z) := by
      refine ⟨⟨by simp [Beam.sys], by simp [Beam.sys], by simp [Beam.sys]⟩, ?_, ?_, ?_⟩
      · simp [Beam.sys, Loads.zero]; field_simp; ring
      · simp [Beam.sys, Loads.zero]; field_simp
      · simp only [Beam.sys, Loads.zero, LinearMap.coe_mk, AddHom.coe_mk, Matrix.cons_val, if_true, mul_zero, sub_zero, add_zero]
        rw [mul_div_assoc', mul_div_assoc', ← add_div, div_eq_iff hd]
        ring
    simpa [Equil] using this
  | false =>
    have : EquilFree b Loads.zero z (b.sys false z) := by
      refine ⟨⟨by simp [Beam.sys], by simp [Beam.sys], by simp [Beam.sys]⟩, ?_, ?_, ?_⟩
      · simp [Beam.sys, Loads.zero]; field_simp; ring
      · simp [Beam.sys, Loads.zero]
      · simp only [Beam.sys, Loads.zero, LinearMap.coe_mk, AddHom.coe_mk, Matrix.cons_val, Bool.false_eq_true, if_false, mul_zero,
          sub_zero, add_zero]
        rw [mul_div_assoc', mul_div_assoc', ← add_div, div_eq_iff hd]
        ring
    simpa [Equil] using this

/-- The derivative as a continuous linear map. -/
noncomputable def Beam.op (b : Beam) (bed : Bool) : Vec6 →L[ℝ] Vec6 := LinearMap.toContinuousLinearMap (b.sys bed)

/-- Transfer of the state over the length `x`. -/
noncomputable def Beam.transfer (b : Beam) (bed : Bool) (x : ℝ) : Vec6 →L[ℝ] Vec6 := NormedSpace.exp (x • b.op bed)

theorem transfer_deriv (bed : Bool) (z : Vec6) (x : ℝ) :
    HasDerivAt (fun y => b.transfer bed y z) (b.sys bed (b.transfer bed x z)) x := by
  have h := hasDerivAt_exp_smul_const' (𝕂 := ℝ) (b.op bed) x
  exact (h.clm_apply (hasDerivAt_const x z)).congr_deriv (by simp [Beam.transfer, Beam.op])

theorem transfer_solves (hb : b.Coercive) (bed : Bool) (z : Vec6) : SolvesODE b Loads.zero bed fun x => b.transfer bed x z :=
  fun x => ⟨_, transfer_deriv bed z x, Beam.sys_equil hb bed _⟩

theorem solves_transfer (hb : b.Coercive) {bed : Bool} {f : ℝ → Vec6} (hf : SolvesODE b Loads.zero bed f) (p x : ℝ) :
    f (x + p) = b.transfer bed x (f p) := by
  have h1 := ((solvesODE_iff_driven _ _ _ _).1 (hf.shift p)).sub ((solvesODE_iff_driven _ _ _ _).1 (transfer_solves hb bed (f p)))
  refine sub_eq_zero.1 (h1.at_rest hb 0 ?_ x)
  simp [Beam.transfer]

theorem transfer_norm (b : Beam) (bed : Bool) (R : ℝ) : ∃ K, 1 ≤ K ∧ ∀ x, |x| ≤ R → ‖b.transfer bed x‖ ≤ K := by
  have hc : Continuous fun x : ℝ => ‖b.transfer bed x‖ :=
    (continuous_iff_continuousAt.2 fun x => (hasDerivAt_exp_smul_const' (𝕂 := ℝ) (b.op bed) x).continuousAt).norm
  obtain ⟨K, hK⟩ := (isCompact_Icc (a := -R) (b := R)).exists_bound_of_continuousOn hc.continuousOn
  refine ⟨max 1 K, le_max_left _ _, fun x hx => ?_⟩
  have := hK x (abs_le.1 hx)
  rw [norm_norm] at this
  exact this.trans (le_max_right _ _)

/-- Growth of the state over lengths up to `R`. -/
theorem solves_growth (hb : b.Coercive) (bed : Bool) (R : ℝ) : ∃ K, 1 ≤ K ∧ ∀ f : ℝ → Vec6, SolvesODE b Loads.zero bed f →
    ∀ p x, |x - p| ≤ R → ‖f x‖ ≤ K * ‖f p‖ := by
  obtain ⟨K, h1, hK⟩ := transfer_norm b bed R
  refine ⟨K, h1, fun f hf p x hx => ?_⟩
  have h := solves_transfer hb hf p (x - p)
  rw [sub_add_cancel] at h
  rw [h]
  exact ((b.transfer bed (x - p)).le_opNorm _).trans (mul_le_mul_of_nonneg_right (hK _ hx) (norm_nonneg _))

theorem continuous_flux : Continuous b.flux := by
  unfold Beam.flux Beam.N Beam.M Beam.V
  fun_prop

theorem flux_smul (c : ℝ) (z : Vec6) : b.flux (c • z) = c ^ 2 * b.flux z := by
  simp [Beam.flux, Beam.N, Beam.M, Beam.V]
  ring

/-- State at a point of a supported piece of length `d`. -/
theorem local_bound (hb : b.Coercive) {d : ℝ} (hd : 0 < d) : ∃ C, 0 < C ∧ ∀ f : ℝ → Vec6, SolvesODE b Loads.zero true f →
    ∀ p, ∀ x ∈ Set.Icc p (p + d), ‖f x‖ ^ 2 ≤ C * (b.flux (f (p + d)) - b.flux (f p)) := by
  set Q : Vec6 → ℝ := fun z => b.flux (b.transfer true d z) - b.flux z with hQ
  have hQc : Continuous Q := (continuous_flux.comp (b.transfer true d).continuous).sub continuous_flux
  have hQs : ∀ (c : ℝ) z, Q (c • z) = c ^ 2 * Q z := fun c z => by
    simp only [hQ, map_smul, flux_smul]; ring
  obtain ⟨z0, hz0, hmin⟩ := (isCompact_sphere (0 : Vec6) 1).exists_isMinOn (NormedSpace.sphere_nonempty.2 zero_le_one) hQc.continuousOn
  have hpos : 0 < Q z0 := by
    by_contra hn
    push Not at hn
    have h1 := transfer_solves hb true z0
    have h0 : b.transfer true 0 z0 = z0 := by simp [Beam.transfer]
    have h2 := bedded_rest hb h1 hd (by simp only [h0]; simp only [hQ] at hn; linarith)
    have h3 := h1.at_rest hb (d / 2) h2 0
    simp only [h0] at h3
    rw [h3] at hz0
    simp at hz0
  obtain ⟨K, hK1, hK⟩ := solves_growth hb true d
  refine ⟨K ^ 2 / Q z0, by positivity, fun f hf p x hx => ?_⟩
  have e : b.flux (f (p + d)) - b.flux (f p) = Q (f p) := by
    rw [add_comm, solves_transfer hb hf p d]
  have hq : Q z0 * ‖f p‖ ^ 2 ≤ Q (f p) := by
    rcases eq_or_ne (f p) 0 with h | h
    · rw [h, norm_zero]
      have := hQs 0 0
      simp at this
      simp [this]
    · have hn : 0 < ‖f p‖ := norm_pos_iff.2 h
      have h1 := hmin (show ‖f p‖⁻¹ • f p ∈ Metric.sphere (0 : Vec6) 1 by
        rw [mem_sphere_zero_iff_norm, norm_smul, norm_inv, norm_norm, inv_mul_cancel₀ hn.ne'])
      have h2 : Q z0 ≤ ‖f p‖⁻¹ ^ 2 * Q (f p) := by rw [← hQs]; exact h1
      rw [inv_pow, inv_mul_eq_div, le_div_iff₀ (by positivity)] at h2
      exact h2
  have h1 := hK f hf p x (abs_le.2 ⟨by linarith [hx.1], by linarith [hx.2]⟩)
  have h2 : ‖f x‖ ^ 2 ≤ K ^ 2 * ‖f p‖ ^ 2 := by rw [← mul_pow]; exact pow_le_pow_left₀ (norm_nonneg _) h1 2
  rw [e, div_mul_eq_mul_div, le_div_iff₀ hpos]
  nlinarith [sq_nonneg K]

end Weac.Spec
