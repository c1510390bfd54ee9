import Verif.Lemmas.Column
import Verif.Lemmas.Compliance
import Verif.Spec.Response

/-!
# The response of a long supported slab forgets its length

Fields of a weightless supported slab loaded at its left end. The state at this
end depends on the length by an exponentially small amount only.
-/

namespace Weac.Spec

variable {b : Beam}

/-- Work of the load at the end. -/
theorem TipLoaded.flux_both {L N M V : ℝ} {Z : ℝ → Vec6} (hZ : TipLoaded b L N M V Z) :
    b.flux (Z 0) = N * Z 0 0 + M * Z 0 4 + V * Z 0 2 ∧ b.flux (Z L) = 0 := by
  obtain ⟨h1, h2, h3⟩ := hZ.loaded
  obtain ⟨k1, k2, k3⟩ := hZ.free
  constructor
  · rw [Beam.flux, h1, h2, h3]
  · rw [Beam.flux, k1, k2, k3]; ring

/-- The response to a load at the end of a slab of length at least 1: how far it
depends on the length, and how stiff the slab is at most. -/
theorem tip_length (hb : b.Coercive) : ∃ r K c, 0 < r ∧ 0 < K ∧ 0 < c ∧
    (∀ (L L' N M V : ℝ) (Z Z' : ℝ → Vec6), 1 ≤ L → L ≤ L' → TipLoaded b L N M V Z → TipLoaded b L' N M V Z' →
      ‖Z 0 - Z' 0‖ ≤ K * (|N| + |M| + |V|) * Real.exp (-(L / r))) ∧
    ∀ (L : ℝ) (Z : ℝ → Vec6), 1 ≤ L → TipLoaded b L 0 1 0 Z → c ≤ -Z 0 4 := by
  obtain ⟨C, hC, hloc⟩ := local_bound hb one_pos
  obtain ⟨r, Q, hr, hQ, hdec⟩ := exists_decay hb
  have hF := fluxNorm_nonneg (b := b)
  have start : ∀ (L N M V : ℝ) (Z : ℝ → Vec6), 1 ≤ L → TipLoaded b L N M V Z →
      ‖Z 0‖ ^ 2 ≤ C * -(N * Z 0 0 + M * Z 0 4 + V * Z 0 2) := by
    intro L N M V Z hL hZ
    obtain ⟨f0, fL⟩ := hZ.flux_both
    have h1 := hloc Z hZ.ode 0 0 ⟨le_rfl, by norm_num⟩
    have h2 := flux_mono hb hZ.ode (by linarith : 0 + 1 ≤ L)
    simp only at h2
    rw [fL] at h2
    refine h1.trans (mul_le_mul_of_nonneg_left ?_ hC.le)
    rw [← f0]
    linarith
  have small : ∀ (L N M V : ℝ) (Z : ℝ → Vec6), 1 ≤ L → TipLoaded b L N M V Z → ‖Z 0‖ ≤ C * (|N| + |M| + |V|) := by
    intro L N M V Z hL hZ
    have h1 := start L N M V Z hL hZ
    have hz := fun q => norm_le_pi_norm (Z 0) q
    simp only [Real.norm_eq_abs] at hz
    have m : ∀ (y : ℝ) q, -(y * Z 0 q) ≤ |y| * ‖Z 0‖ := fun y q => by
      refine (neg_le_abs _).trans ?_
      rw [abs_mul]
      exact mul_le_mul_of_nonneg_left (hz q) (abs_nonneg _)
    have h2 : ‖Z 0‖ ^ 2 ≤ C * ((|N| + |M| + |V|) * ‖Z 0‖) := by
      refine h1.trans (mul_le_mul_of_nonneg_left ?_ hC.le)
      linarith [m N 0, m M 4, m V 2]
    rcases (norm_nonneg (Z 0)).eq_or_lt with h | h
    · rw [← h]; positivity
    · exact le_of_mul_le_mul_right (by linarith [pow_two ‖Z 0‖]) h
  refine ⟨r, Real.sqrt (C * b.fluxNorm) * (2 * Q * C) + 1, 1 / (C * b.fluxNorm ^ 2 + 1), hr, by positivity, by positivity, ?_, ?_⟩
  · intro L L' N M V Z Z' hL hLL hZ hZ'
    set F := |N| + |M| + |V| with hFd
    have hF0 : 0 ≤ F := by positivity
    have hs := small L N M V Z hL hZ
    have hs' := small L' N M V Z' (hL.trans hLL) hZ'
    have d1 := hdec Z hZ.ode L hL hZ.flux_both.2.le L ⟨by linarith, le_rfl⟩
    have d2 := hdec Z' hZ'.ode L' (hL.trans hLL) hZ'.flux_both.2.le L ⟨by linarith, hLL⟩
    set E := Real.exp (-(L / r)) with hE
    have hE0 : 0 < E := Real.exp_pos _
    have hD : SolvesODE b Loads.zero true (fun x => Z x - Z' x) := by
      have h := ((solvesODE_iff_driven _ _ _ _).mp hZ.ode).sub ((solvesODE_iff_driven _ _ _ _).mp hZ'.ode)
      simpa [Beam.drive, Loads.zero] using h
    have f0 : b.flux (Z 0 - Z' 0) = 0 := by
      obtain ⟨h1, h2, h3⟩ := hZ.loaded
      obtain ⟨k1, k2, k3⟩ := hZ'.loaded
      have e1 : b.N (Z 0 - Z' 0) = 0 := by
        rw [show b.N (Z 0 - Z' 0) = b.N (Z 0) - b.N (Z' 0) by simp [Beam.N]; ring, h1, k1, sub_self]
      have e2 : b.M (Z 0 - Z' 0) = 0 := by
        rw [show b.M (Z 0 - Z' 0) = b.M (Z 0) - b.M (Z' 0) by simp [Beam.M]; ring, h2, k2, sub_self]
      have e3 : b.V (Z 0 - Z' 0) = 0 := by
        rw [show b.V (Z 0 - Z' 0) = b.V (Z 0) - b.V (Z' 0) by simp [Beam.V]; ring, h3, k3, sub_self]
      rw [Beam.flux, e1, e2, e3]
      ring
    have h1 := hloc _ hD 0 0 ⟨le_rfl, by norm_num⟩
    have h2 := flux_mono hb hD (by linarith : 0 + 1 ≤ L)
    simp only at h1 h2
    rw [f0, sub_zero] at h1
    have h3 := (abs_le.1 (abs_flux_le (b := b) (Z L - Z' L))).2
    have h4 : ‖Z L - Z' L‖ ≤ 2 * Q * C * F * E := by
      refine (norm_sub_le _ _).trans ?_
      have u1 : Q * ‖Z 0‖ * E ≤ Q * (C * F) * E := by gcongr
      have u2 : Q * ‖Z' 0‖ * E ≤ Q * (C * F) * E := by gcongr
      linarith
    have h5 : ‖Z 0 - Z' 0‖ ^ 2 ≤ C * b.fluxNorm * (2 * Q * C * F * E) ^ 2 := by
      have a1 : C * b.flux (Z (0 + 1) - Z' (0 + 1)) ≤ C * (b.fluxNorm * ‖Z L - Z' L‖ ^ 2) :=
        mul_le_mul_of_nonneg_left (h2.trans h3) hC.le
      have a2 : C * (b.fluxNorm * ‖Z L - Z' L‖ ^ 2) ≤ C * (b.fluxNorm * (2 * Q * C * F * E) ^ 2) := by gcongr
      linarith
    have h6 : ‖Z 0 - Z' 0‖ ≤ Real.sqrt (C * b.fluxNorm) * (2 * Q * C * F * E) := by
      refine abs_le_of_sq_le_sq' ?_ (by positivity) |>.2
      rw [mul_pow, Real.sq_sqrt (by positivity)]
      exact h5
    have h7 : 0 ≤ F * E := by positivity
    nlinarith [h6, h7]
  · intro L Z hL hZ
    have h1 := start L 0 1 0 Z hL hZ
    simp only [zero_mul, one_mul, zero_add, add_zero] at h1
    have h2 := (Beam.force_le (b := b) (Z 0)).2.1
    rw [hZ.loaded.2.1, abs_one] at h2
    have h3 : 1 ≤ b.fluxNorm ^ 2 * ‖Z 0‖ ^ 2 := by
      rw [← mul_pow]
      exact one_le_pow₀ h2
    have h4 : 1 ≤ b.fluxNorm ^ 2 * (C * -Z 0 4) := h3.trans (mul_le_mul_of_nonneg_left h1 (by positivity))
    have hp : 0 < -Z 0 4 := by
      by_contra hn
      push Not at hn
      have : b.fluxNorm ^ 2 * (C * -Z 0 4) ≤ 0 := mul_nonpos_of_nonneg_of_nonpos (by positivity) (mul_nonpos_of_nonneg_of_nonpos hC.le hn)
      linarith
    rw [div_le_iff₀ (by positivity)]
    nlinarith

end Weac.Spec
