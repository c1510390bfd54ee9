import Mathlib.Analysis.SpecialFunctions.ExpDeriv
import Mathlib.MeasureTheory.Integral.IntervalIntegral.FundThmCalculus
import Verif.Lemmas.ChainBound

/-!
# Decay of disturbances along a supported segment

The power of the section forces is, up to the derivative of `K w` with
`K = (h + t) / 2 N - M`, bounded by the strain energy per length. Its integral
up to a fixed end therefore obeys a differential inequality with exponentially
decaying solutions.
-/

namespace Weac.Spec

variable {b : Beam}

/-- Bending stiffness about the axis at distance `c`. -/
def Beam.lever (b : Beam) (c : ℝ) : ℝ := b.D - 2 * c * b.B + c ^ 2 * b.A

/-- Square of the shear strain of the slab per strain energy. -/
noncomputable def Beam.shearCompliance (b : Beam) : ℝ := 16 / (16 * b.S - b.kt * b.t ^ 2)

/-- Length over which power is bounded by strain energy. -/
noncomputable def Beam.reachLin (b : Beam) : ℝ :=
  Real.sqrt (b.A * b.slipCompliance) + Real.sqrt (b.lever (b.h / 2) * b.shearCompliance) +
    2 * Real.sqrt (b.S ^ 2 * b.shearCompliance * (1 / b.kn))

/-- Square of the length that belongs to bending. -/
noncomputable def Beam.reachQuad (b : Beam) : ℝ := Real.sqrt (b.lever ((b.h + b.t) / 2) * (1 / b.kn))

/-- Length over which disturbances decay (mm). -/
noncomputable def Beam.reach (b : Beam) : ℝ := b.reachLin + Real.sqrt b.reachQuad

theorem abs_mul_le_energy {X Y p q e : ℝ} (hp : 0 ≤ p) (he : 0 ≤ e) (hX : X ^ 2 ≤ p * e) (hY : Y ^ 2 ≤ q * e) :
    |X * Y| ≤ Real.sqrt (p * q) * e := by
  rw [← Real.sqrt_sq_eq_abs, ← Real.sqrt_sq he]
  rcases le_or_gt 0 q with hq | hq
  · rw [← Real.sqrt_mul (mul_nonneg hp hq)]
    apply Real.sqrt_le_sqrt
    rw [mul_pow]
    have := mul_le_mul hX hY (sq_nonneg _) (mul_nonneg hp he)
    nlinarith
  · have h1 : Y ^ 2 ≤ 0 := hY.trans (mul_nonpos_of_nonpos_of_nonneg hq.le he)
    have h2 : Y = 0 := by nlinarith [sq_nonneg Y]
    rw [h2]
    simp
    positivity

theorem lever_pos (hb : b.Coercive) (c : ℝ) : 0 < b.lever c := by
  have h : b.A * b.lever c = (b.A * c - b.B) ^ 2 + (b.A * b.D - b.B ^ 2) := by unfold Beam.lever; ring
  have : 0 < b.A * b.lever c := by rw [h]; have := hb.det; positivity
  exact (mul_pos_iff_of_pos_left hb.A).1 this

theorem slipCompliance_pos (hb : b.Coercive) : 0 < b.slipCompliance := by
  have := hb.kt
  have : 0 < 16 * b.S - b.kt * b.t ^ 2 := by linarith [hb.shear]
  unfold Beam.slipCompliance
  positivity

theorem shearCompliance_pos (hb : b.Coercive) : 0 < b.shearCompliance := by
  have : 0 < 16 * b.S - b.kt * b.t ^ 2 := by linarith [hb.shear]
  unfold Beam.shearCompliance
  positivity

theorem diss_parts (hb : b.Coercive) (z : Vec6) :
    (b.A * z 1 ^ 2 + 2 * b.B * z 1 * z 5 + b.D * z 5 ^ 2 ≤ b.diss true z) ∧
      ((16 * b.S - b.kt * b.t ^ 2) / 16 * (z 3 + z 4) ^ 2 ≤ b.diss true z) ∧ b.kn * z 2 ^ 2 ≤ b.diss true z := by
  have h1 := (hb.slab (z 1) (z 5)).1
  have h2 := mul_nonneg hb.kn.le (sq_nonneg (z 2))
  have h3 := (hb.layer (z 3 + z 4) (z 0 + b.h / 2 * z 4 - b.t / 2 * z 3)).1
  have h4 := mul_nonneg hb.kt.le (sq_nonneg ((z 0 + b.h / 2 * z 4 - b.t / 2 * z 3) + b.t / 4 * (z 3 + z 4)))
  have e : b.S * (z 3 + z 4) ^ 2 + b.kt * (z 0 + b.h / 2 * z 4 - b.t / 2 * z 3) *
      ((z 0 + b.h / 2 * z 4 - b.t / 2 * z 3) + b.t / 2 * (z 3 + z 4)) =
      b.kt * ((z 0 + b.h / 2 * z 4 - b.t / 2 * z 3) + b.t / 4 * (z 3 + z 4)) ^ 2 +
        (16 * b.S - b.kt * b.t ^ 2) / 16 * (z 3 + z 4) ^ 2 := by ring
  rw [Beam.Coercive.diss_eq]
  refine ⟨by linarith, by linarith, by linarith⟩

theorem lever_le (hb : b.Coercive) (c : ℝ) (z : Vec6) : (b.M z - c * b.N z) ^ 2 ≤ b.lever c * b.diss true z := by
  refine le_trans ?_ (mul_le_mul_of_nonneg_left (diss_parts hb z).1 (lever_pos hb c).le)
  unfold Beam.lever Beam.M Beam.N
  have h : (b.D - 2 * c * b.B + c ^ 2 * b.A) * (b.A * z 1 ^ 2 + 2 * b.B * z 1 * z 5 + b.D * z 5 ^ 2) -
      (b.B * z 1 + b.D * z 5 - c * (b.A * z 1 + b.B * z 5)) ^ 2 = (b.A * b.D - b.B ^ 2) * (z 1 + c * z 5) ^ 2 := by ring
  have := mul_nonneg hb.det.le (sq_nonneg (z 1 + c * z 5))
  linarith

theorem normal_le (hb : b.Coercive) (z : Vec6) : b.N z ^ 2 ≤ b.A * b.diss true z := by
  refine le_trans ?_ (mul_le_mul_of_nonneg_left (diss_parts hb z).1 hb.A.le)
  unfold Beam.N
  have h : b.A * (b.A * z 1 ^ 2 + 2 * b.B * z 1 * z 5 + b.D * z 5 ^ 2) - (b.A * z 1 + b.B * z 5) ^ 2 =
      (b.A * b.D - b.B ^ 2) * z 5 ^ 2 := by ring
  have := mul_nonneg hb.det.le (sq_nonneg (z 5))
  linarith

theorem shear_le (hb : b.Coercive) (z : Vec6) : (z 3 + z 4) ^ 2 ≤ b.shearCompliance * b.diss true z := by
  have h0 : 0 < 16 * b.S - b.kt * b.t ^ 2 := by linarith [hb.shear]
  have := (diss_parts hb z).2.1
  unfold Beam.shearCompliance
  rw [div_mul_eq_mul_div, le_div_iff₀ h0]
  linarith

theorem sink_le (hb : b.Coercive) (z : Vec6) : z 2 ^ 2 ≤ 1 / b.kn * b.diss true z := by
  rw [div_mul_eq_mul_div, one_mul, le_div_iff₀ hb.kn]
  linarith [(diss_parts hb z).2.2]

/-- Moment about the base of the weak layer times deflection. -/
noncomputable def Beam.tilt (b : Beam) (z : Vec6) : ℝ := ((b.h + b.t) / 2 * b.N z - b.M z) * z 2

theorem tilt_le (hb : b.Coercive) (z : Vec6) : |b.tilt z| ≤ b.reachQuad * b.diss true z := by
  unfold Beam.reachQuad Beam.tilt
  refine abs_mul_le_energy (lever_pos hb _).le (hb.diss_nonneg true z) ?_ (sink_le hb z)
  rw [← neg_sq]
  have := lever_le hb ((b.h + b.t) / 2) z
  have e : -((b.h + b.t) / 2 * b.N z - b.M z) = b.M z - (b.h + b.t) / 2 * b.N z := by ring
  rw [e]
  exact this

/-- Power without the part that is a derivative. -/
noncomputable def Beam.power (b : Beam) (z : Vec6) : ℝ :=
  b.N z * b.slip z + (b.M z - b.h / 2 * b.N z) * (z 3 + z 4) + 2 * (b.S * (z 3 + z 4) * z 2)

theorem power_le (hb : b.Coercive) (z : Vec6) : |b.power z| ≤ b.reachLin * b.diss true z := by
  have he := hb.diss_nonneg true z
  have h1 := abs_mul_le_energy hb.A.le he (normal_le hb z) (slip_compliance hb z)
  have h2 := abs_mul_le_energy (lever_pos hb (b.h / 2)).le he (lever_le hb (b.h / 2) z) (shear_le hb z)
  have h3 := abs_mul_le_energy (X := b.S * (z 3 + z 4)) (p := b.S ^ 2 * b.shearCompliance) (by
    have := shearCompliance_pos hb; positivity) he (by
      rw [mul_pow, mul_assoc]; exact mul_le_mul_of_nonneg_left (shear_le hb z) (sq_nonneg _)) (sink_le hb z)
  unfold Beam.power Beam.reachLin
  calc _ ≤ |b.N z * b.slip z| + |(b.M z - b.h / 2 * b.N z) * (z 3 + z 4)| + |2 * (b.S * (z 3 + z 4) * z 2)| := abs_add_three _ _ _
    _ ≤ _ := by
      rw [abs_mul 2, abs_of_pos (by norm_num : (0 : ℝ) < 2)]
      linarith

theorem tilt_deriv {f : ℝ → Vec6} (hf : SolvesODE b Loads.zero true f) (x : ℝ) :
    HasDerivAt (fun y => b.tilt (f y)) (b.flux (f x) - b.power (f x)) x := by
  obtain ⟨dz, h1, h2⟩ := hf x
  have k : EquilBedded b Loads.zero (f x) dz := by simpa [Equil] using h2
  have h := hasDerivAt_pi.mp h1
  have hN : HasDerivAt (fun y => b.N (f y)) (b.A * dz 1 + b.B * dz 5) x := ((h 1).const_mul _).add ((h 5).const_mul _)
  have hM : HasDerivAt (fun y => b.M (f y)) (b.B * dz 1 + b.D * dz 5) x := ((h 1).const_mul _).add ((h 5).const_mul _)
  refine (((hN.const_mul _).sub hM).mul (h 2)).congr_deriv ?_
  rw [k.N, k.M, k.kin.w]
  simp only [Loads.zero, Beam.flux, Beam.power, Beam.slip, Beam.V, Pi.sub_apply]
  ring

theorem reach_pos (hb : b.Coercive) : 0 < b.reachLin ∧ 0 < b.reachQuad ∧ 0 < b.reach := by
  have h1 := hb.A
  have h2 := slipCompliance_pos hb
  have h3 := lever_pos hb (b.h / 2)
  have h4 := lever_pos hb ((b.h + b.t) / 2)
  have h5 := shearCompliance_pos hb
  have h6 := hb.kn
  have h7 := hb.S
  have a : 0 < b.reachLin := by unfold Beam.reachLin; positivity
  have c : 0 < b.reachQuad := by unfold Beam.reachQuad; positivity
  exact ⟨a, c, by unfold Beam.reach; positivity⟩

/-- A function that is bounded by its first two derivatives and vanishes with
its derivative at the end decays. -/
theorem decay_of_inequality {J F e : ℝ → ℝ} {c c' l : ℝ} (hc : 0 < c) (hc' : 0 < c') (hl : 0 ≤ l)
    (hJ : ∀ x, HasDerivAt J (-F x) x) (hF : ∀ x, HasDerivAt F (-e x) x) (h0 : ∀ x ∈ Set.Icc 0 l, 0 ≤ J x)
    (hineq : ∀ x ∈ Set.Icc 0 l, J x ≤ c * F x + c' * e x) (hJl : J l = 0) (hFl : F l = 0) :
    ∀ x ∈ Set.Icc 0 l, J x ≤ (c + Real.sqrt c') * F x := by
  set μ := 1 / (c + Real.sqrt c') with hμ
  have hs : 0 < Real.sqrt c' := Real.sqrt_pos.2 hc'
  have hμ0 : 0 < μ := by positivity
  have hμ1 : (c + c' * μ) * μ ≤ 1 := by
    have e1 : (c + c' * μ) * μ = (c * (c + Real.sqrt c') + c') / (c + Real.sqrt c') ^ 2 := by
      rw [hμ]; field_simp
    rw [e1, div_le_one (by positivity)]
    have := Real.mul_self_sqrt hc'.le
    nlinarith [mul_pos hc hs]
  set r := (c + c' * μ) / c' with hr
  -- `y = μ J - F` multiplied with `exp (- r x)` grows up to 0
  have hd : ∀ x, HasDerivAt (fun x => Real.exp (-(r * x)) * (μ * J x - F x))
      (Real.exp (-(r * x)) * (-r) * (μ * J x - F x) + Real.exp (-(r * x)) * (μ * -F x - -e x)) x := fun x => by
    have h1 : HasDerivAt (fun x => Real.exp (-(r * x))) (Real.exp (-(r * x)) * (-r)) x := by
      have := ((hasDerivAt_id x).const_mul r).neg.exp
      simpa using this
    exact h1.mul (((hJ x).const_mul μ).sub (hF x))
  have hm : MonotoneOn (fun x => Real.exp (-(r * x)) * (μ * J x - F x)) (Set.Icc 0 l) := by
    refine monotoneOn_of_deriv_nonneg (convex_Icc 0 l) (fun x _ => (hd x).continuousAt.continuousWithinAt)
      (fun x _ => (hd x).differentiableAt.differentiableWithinAt) fun x hx => ?_
    rw [interior_Icc] at hx
    rw [(hd x).deriv]
    have hx' : x ∈ Set.Icc 0 l := ⟨hx.1.le, hx.2.le⟩
    have e1 : Real.exp (-(r * x)) * (-r) * (μ * J x - F x) + Real.exp (-(r * x)) * (μ * -F x - -e x) =
        Real.exp (-(r * x)) / c' * (c' * e x - c' * μ * F x - r * c' * (μ * J x - F x)) := by
      field_simp
      ring
    rw [e1]
    refine mul_nonneg (div_nonneg (Real.exp_pos _).le hc'.le) ?_
    have e2 : r * c' = c + c' * μ := by rw [hr]; field_simp
    rw [e2]
    have h1 := hineq x hx'
    have h2 := mul_le_mul_of_nonneg_right hμ1 (h0 x hx')
    nlinarith
  intro x hx
  have h1 := hm hx (Set.right_mem_Icc.2 hl) hx.2
  simp only [hJl, hFl, mul_zero, sub_zero] at h1
  have h2 : μ * J x - F x ≤ 0 := by
    by_contra hn
    push Not at hn
    have := mul_pos (Real.exp_pos (-(r * x))) hn
    linarith
  rw [hμ, div_mul_eq_mul_div, one_mul, sub_nonpos, div_le_iff₀ (by positivity)] at h2
  linarith

/-- Power through a supported segment with a fixed end. -/
theorem flux_decay (hb : b.Coercive) {f : ℝ → Vec6} (hf : SolvesODE b Loads.zero true f) {l : ℝ} (hl : 0 ≤ l)
    (hu : f l 0 = 0) (hw : f l 2 = 0) (hp : f l 4 = 0) :
    ∀ x ∈ Set.Icc 0 l, -b.flux (f x) ≤ Real.exp (1 - x / b.reach) * -b.flux (f 0) := by
  obtain ⟨r1, r2, r3⟩ := reach_pos hb
  have hfl : b.flux (f l) = 0 := by simp [Beam.flux, hu, hw, hp]
  have htl : b.tilt (f l) = 0 := by simp [Beam.tilt, hw]
  have hmono := flux_mono hb hf
  have hneg : ∀ x ≤ l, b.flux (f x) ≤ 0 := fun x hx => by rw [← hfl]; exact hmono hx
  have hcont : Continuous fun x => b.flux (f x) :=
    continuous_iff_continuousAt.2 fun x => (bedded_flux_deriv hf x).continuousAt
  set J : ℝ → ℝ := fun x => ∫ y in x..l, -b.flux (f y) with hJdef
  have hJ : ∀ x, HasDerivAt J (- -b.flux (f x)) x := fun x =>
    intervalIntegral.integral_hasDerivAt_left (hcont.neg.intervalIntegrable _ _)
      (hcont.neg.stronglyMeasurableAtFilter _ _) hcont.neg.continuousAt
  have hF : ∀ x, HasDerivAt (fun x => -b.flux (f x)) (-b.diss true (f x)) x := fun x => (bedded_flux_deriv hf x).neg
  have h0 : ∀ x ∈ Set.Icc 0 l, 0 ≤ J x := fun x hx =>
    intervalIntegral.integral_nonneg hx.2 fun y hy => by linarith [hneg y hy.2]
  have hJl : J l = 0 := intervalIntegral.integral_same
  -- `J + c flux - tilt` grows up to 0
  have hineq : ∀ x ∈ Set.Icc 0 l, J x ≤ b.reachLin * -b.flux (f x) + b.reachQuad * b.diss true (f x) := by
    have hd : ∀ x, HasDerivAt (fun x => J x + b.reachLin * b.flux (f x) - b.tilt (f x))
        (- -b.flux (f x) + b.reachLin * b.diss true (f x) - (b.flux (f x) - b.power (f x))) x := fun x =>
      ((hJ x).add ((bedded_flux_deriv hf x).const_mul _)).sub (tilt_deriv hf x)
    have hm : Monotone fun x => J x + b.reachLin * b.flux (f x) - b.tilt (f x) := by
      refine monotone_of_deriv_nonneg (fun x => (hd x).differentiableAt) fun x => ?_
      rw [(hd x).deriv]
      have := (abs_le.1 (power_le hb (f x))).1
      linarith
    intro x hx
    have h1 := hm hx.2
    simp only [hJl, hfl, htl] at h1
    have := (abs_le.1 (tilt_le hb (f x))).2
    linarith
  have hdec := decay_of_inequality r1 r2 hl hJ hF h0 hineq hJl (by simp [hfl])
  have hdec : ∀ x ∈ Set.Icc 0 l, J x ≤ b.reach * -b.flux (f x) := hdec
  -- exponential decay of `J`
  have hanti : AntitoneOn (fun x => Real.exp (x / b.reach) * J x) (Set.Icc 0 l) := by
    have hd : ∀ x, HasDerivAt (fun x => Real.exp (x / b.reach) * J x)
        (Real.exp (x / b.reach) * (1 / b.reach) * J x + Real.exp (x / b.reach) * (- -b.flux (f x))) x := fun x =>
      (((hasDerivAt_id x).div_const b.reach).exp).mul (hJ x)
    refine antitoneOn_of_deriv_nonpos (convex_Icc 0 l) (fun x _ => (hd x).continuousAt.continuousWithinAt)
      (fun x _ => (hd x).differentiableAt.differentiableWithinAt) fun x hx => ?_
    rw [interior_Icc] at hx
    rw [(hd x).deriv, mul_assoc, ← mul_add]
    refine mul_nonpos_of_nonneg_of_nonpos (Real.exp_pos _).le ?_
    have := hdec x ⟨hx.1.le, hx.2.le⟩
    rw [div_mul_eq_mul_div, one_mul]
    have : J x / b.reach ≤ -b.flux (f x) := by rw [div_le_iff₀ r3]; linarith
    linarith
  have hJ0 := hdec 0 (Set.left_mem_Icc.2 hl)
  intro x hx
  have hφ0 : 0 ≤ -b.flux (f 0) := by linarith [hneg 0 hl]
  rcases le_or_gt x b.reach with hxr | hxr
  · have h1 : 1 ≤ Real.exp (1 - x / b.reach) := by
      apply Real.one_le_exp
      rw [sub_nonneg, div_le_one r3]
      exact hxr
    have h2 := hmono hx.1
    simp only at h2
    nlinarith
  · have hy : x - b.reach ∈ Set.Icc 0 l := ⟨by linarith, by linarith [hx.2]⟩
    have h1 := hanti (Set.left_mem_Icc.2 hl) hy hy.1
    simp only [zero_div, Real.exp_zero, one_mul] at h1
    -- the power of a piece of the length `reach`
    have h2 : b.reach * -b.flux (f x) ≤ J (x - b.reach) := by
      have e1 : J (x - b.reach) = (∫ y in (x - b.reach)..x, -b.flux (f y)) + ∫ y in x..l, -b.flux (f y) :=
        (intervalIntegral.integral_add_adjacent_intervals (hcont.neg.intervalIntegrable _ _)
          (hcont.neg.intervalIntegrable _ _)).symm
      have e2 : (∫ y in (x - b.reach)..x, -b.flux (f x)) ≤ ∫ y in (x - b.reach)..x, -b.flux (f y) := by
        refine intervalIntegral.integral_mono_on (by linarith) (continuous_const.intervalIntegrable _ _)
          (hcont.neg.intervalIntegrable _ _) fun y hy => ?_
        have := hmono hy.2
        simp only at this
        linarith
      rw [intervalIntegral.integral_const, smul_eq_mul] at e2
      have e3 := h0 x hx
      simp only [hJdef] at e3
      rw [e1]
      have e4 : x - (x - b.reach) = b.reach := by ring
      rw [e4] at e2
      linarith
    have h3 : Real.exp ((x - b.reach) / b.reach) * (b.reach * -b.flux (f x)) ≤ b.reach * -b.flux (f 0) :=
      (mul_le_mul_of_nonneg_left h2 (Real.exp_pos _).le).trans (h1.trans hJ0)
    have h4 : Real.exp ((x - b.reach) / b.reach) * -b.flux (f x) ≤ -b.flux (f 0) := by
      refine le_of_mul_le_mul_left ?_ r3
      linarith
    have e5 : 1 - x / b.reach = -((x - b.reach) / b.reach) := by field_simp; ring
    rw [e5, Real.exp_neg]
    rw [inv_mul_eq_div, le_div_iff₀ (Real.exp_pos _)]
    linarith

/-- Deflection of a supported segment with a fixed end, at some distance from
its beginning. -/
theorem deflection_decay (hb : b.Coercive) {δ β : ℝ} (hδ : ∀ x y, δ * y ^ 2 ≤ b.A * x ^ 2 + 2 * b.B * x * y + b.D * y ^ 2)
    (hβ : 0 < β) (hβ' : β ^ 4 * b.kn ≤ 8 * δ) {f : ℝ → Vec6} (hf : SolvesODE b Loads.zero true f) {l : ℝ}
    (hu : f l 0 = 0) (hw : f l 2 = 0) (hp : f l 4 = 0) {x : ℝ} (hx : x ≤ l) :
    f x 2 ^ 2 ≤ 11 / (2 * b.kn * β) * -b.flux (f (x - β)) := by
  have hk := hb.kn
  have hfl : b.flux (f l) = 0 := by simp [Beam.flux, hu, hw, hp]
  have hneg : b.flux (f x) ≤ 0 := by rw [← hfl]; exact flux_mono hb hf hx
  -- from the end
  have h1 := sink_mono hb hδ hβ hβ' (one_pow 2) hf hx
  simp only [Beam.sink, hfl, hw] at h1
  -- from the beginning, with a weight that vanishes there
  set a := 11 / (b.kn * β) with ha
  set x0 := x - β with hx0
  set θ : ℝ → ℝ := fun y => (y - x0) / β with hθ
  have hd : ∀ y, HasDerivAt (fun y => a * b.flux (f y) + θ y ^ 2 * (β * (f y 2 * f y 3) - f y 2 ^ 2))
      (a * b.diss true (f y) + (2 * θ y * (1 / β) * (β * (f y 2 * f y 3) - f y 2 ^ 2) +
        θ y ^ 2 * (β * (f y 3 * f y 3 + f y 2 * (b.kn / b.S * f y 2 - f y 5)) - 2 * f y 2 * f y 3))) y := fun y => by
    obtain ⟨d2, d3⟩ := bend_deriv hb hf y
    have dθ : HasDerivAt θ (1 / β) y := ((hasDerivAt_id y).sub_const x0).div_const β
    refine (((bedded_flux_deriv hf y).const_mul a).add ((dθ.pow 2).mul (((d2.mul d3).const_mul β).sub (d2.pow 2)))).congr_deriv ?_
    simp
  have hm : MonotoneOn (fun y => a * b.flux (f y) + θ y ^ 2 * (β * (f y 2 * f y 3) - f y 2 ^ 2)) (Set.Icc x0 x) := by
    refine monotoneOn_of_deriv_nonneg (convex_Icc x0 x) (fun y _ => (hd y).continuousAt.continuousWithinAt)
      (fun y _ => (hd y).differentiableAt.differentiableWithinAt) fun y hy => ?_
    rw [interior_Icc] at hy
    rw [(hd y).deriv]
    have t0 : 0 ≤ θ y := div_nonneg (by linarith [hy.1]) hβ.le
    have t1 : θ y ≤ 1 := by rw [hθ]; simp only; rw [div_le_one hβ]; linarith [hy.2]
    have t2 : θ y ^ 2 ≤ 1 := pow_le_one₀ t0 t1
    set T := θ y
    set w := f y 2
    set w' := f y 3
    set p := f y 5
    have e1 : b.kn * w ^ 2 + δ * p ^ 2 ≤ b.diss true (f y) := by
      rw [Beam.Coercive.diss_eq]
      have := hδ (f y 1) (f y 5)
      have := (hb.layer (f y 3 + f y 4) (f y 0 + b.h / 2 * f y 4 - b.t / 2 * f y 3)).1
      linarith
    have e2 := mul_le_mul_of_nonneg_left e1 (show 0 ≤ a by positivity)
    have e3 : a * (b.kn * w ^ 2 + δ * p ^ 2) = 11 * w ^ 2 / β + a * δ * p ^ 2 := by
      rw [ha]; field_simp
    have e4 : β ^ 3 / 4 * p ^ 2 ≤ a * δ * p ^ 2 := by
      refine mul_le_mul_of_nonneg_right ?_ (sq_nonneg p)
      rw [ha, div_mul_eq_mul_div, div_le_div_iff₀ (by norm_num) (by positivity)]
      nlinarith [mul_pos (pow_pos hβ 4) hk]
    -- the terms without a sign
    have k1 : 0 ≤ β / 4 * (T * w' + 4 / β * w) ^ 2 := by positivity
    have k1' : β / 4 * (T * w' + 4 / β * w) ^ 2 = β / 4 * (T ^ 2 * w' ^ 2) + 2 * T * (w * w') + 4 * w ^ 2 / β := by
      field_simp
      ring
    have k2 : 0 ≤ T ^ 2 * (β / 4 * (w' - 4 / β * w) ^ 2) := by positivity
    have k2' : T ^ 2 * (β / 4 * (w' - 4 / β * w) ^ 2) = β / 4 * (T ^ 2 * w' ^ 2) - T ^ 2 * (2 * w * w') + T ^ 2 * (4 * w ^ 2 / β) := by
      field_simp
      ring
    have k3 : T ^ 2 * (4 * w ^ 2 / β) ≤ 4 * w ^ 2 / β := mul_le_of_le_one_left (by positivity) t2
    have k4 : 2 * T * (1 / β) * w ^ 2 ≤ 2 * w ^ 2 / β := by
      have : 2 * T * (1 / β) * w ^ 2 = T * (2 * w ^ 2 / β) := by ring
      rw [this]; exact mul_le_of_le_one_left (by positivity) t1
    have k5 : T ^ 2 * (β * (w * p)) ≤ w ^ 2 / β + β ^ 3 / 4 * p ^ 2 := by
      have q : 0 ≤ (w - β ^ 2 * p / 2) ^ 2 / β := by positivity
      have q' : (w - β ^ 2 * p / 2) ^ 2 / β = w ^ 2 / β - β * (w * p) + β ^ 3 / 4 * p ^ 2 := by field_simp; ring
      have q2 : 0 ≤ w ^ 2 / β + β ^ 3 / 4 * p ^ 2 := by positivity
      calc T ^ 2 * (β * (w * p)) ≤ T ^ 2 * (w ^ 2 / β + β ^ 3 / 4 * p ^ 2) :=
            mul_le_mul_of_nonneg_left (by linarith) (sq_nonneg T)
        _ ≤ _ := mul_le_of_le_one_left q2 t2
    have k6 : 0 ≤ T ^ 2 * (β * (b.kn / b.S * w ^ 2)) := by have := hb.S; positivity
    have k7 : 0 ≤ β / 2 * (T ^ 2 * w' ^ 2) := by positivity
    have split : 2 * T * (1 / β) * (β * (w * w') - w ^ 2) + T ^ 2 * (β * (w' * w' + w * (b.kn / b.S * w - p)) - 2 * w * w') =
        2 * T * (w * w') - 2 * T * (1 / β) * w ^ 2 + β * (T ^ 2 * w' ^ 2) + T ^ 2 * (β * (b.kn / b.S * w ^ 2)) -
          T ^ 2 * (β * (w * p)) - T ^ 2 * (2 * w * w') := by
      field_simp
      ring
    rw [split]
    have e5 : 11 * w ^ 2 / β = 4 * w ^ 2 / β + 4 * w ^ 2 / β + 2 * w ^ 2 / β + w ^ 2 / β := by ring
    linarith
  have hx0x : x0 ≤ x := by rw [hx0]; linarith
  have h2 := hm (Set.left_mem_Icc.2 hx0x) (Set.right_mem_Icc.2 hx0x) hx0x
  have θ0 : θ x0 = 0 := by simp [hθ]
  have θ1 : θ x = 1 := by simp only [hθ, hx0]; field_simp; ring
  simp only [θ0, θ1] at h2
  have h3 : a * b.flux (f x) ≤ 2 / (b.kn * β) * b.flux (f x) := by
    refine mul_le_mul_of_nonpos_right ?_ hneg
    rw [ha]
    exact div_le_div_of_nonneg_right (by norm_num) (by positivity)
  have e : 11 / (2 * b.kn * β) = a / 2 := by rw [ha]; field_simp
  rw [e]
  linarith

theorem balance_sqrt {p q : ℝ} (hp : 0 < p) (hq : 0 < q) : ∃ lam, 0 < lam ∧ lam * p + q / lam = 2 * Real.sqrt (p * q) := by
  have h1 := Real.sqrt_pos.2 hp
  have h2 := Real.sqrt_pos.2 hq
  refine ⟨Real.sqrt q / Real.sqrt p, by positivity, ?_⟩
  rw [Real.sqrt_mul hp.le]
  have e1 : p = Real.sqrt p * Real.sqrt p := (Real.mul_self_sqrt hp.le).symm
  have e2 : q = Real.sqrt q * Real.sqrt q := (Real.mul_self_sqrt hq.le).symm
  have e3 : Real.sqrt q / Real.sqrt p * p = Real.sqrt p * Real.sqrt q := by
    conv_lhs => rw [e1, Real.sqrt_mul_self h1.le]
    field_simp
  have e4 : q / (Real.sqrt q / Real.sqrt p) = Real.sqrt p * Real.sqrt q := by
    conv_lhs => rw [e2, Real.sqrt_mul_self h2.le]
    field_simp
  rw [e3, e4]
  ring

theorem slipRateCompliance_pos (hb : b.Coercive) : 0 < b.slipRateCompliance := by
  have h1 := lever_pos hb ((b.h + b.t) / 2)
  have h2 := hb.det
  have h3 := hb.kn
  have h4 := hb.S
  have e : b.slipRateCompliance = b.lever ((b.h + b.t) / 2) / (b.A * b.D - b.B ^ 2) + b.t ^ 2 * b.kn / (4 * b.S ^ 2) := by
    unfold Beam.slipRateCompliance Beam.lever; ring
  rw [e]
  positivity

theorem SolvesODE.shift {b : Beam} {L : Loads} {bed : Bool} {f : ℝ → Vec6} (hf : SolvesODE b L bed f) (c : ℝ) :
    SolvesODE b L bed fun x => f (x + c) := by
  intro x
  obtain ⟨df, f1, f2⟩ := hf (x + c)
  exact ⟨df, by simpa using f1.comp_add_const x c, f2⟩

/-- Slip of a supported segment with a fixed end, at some distance from its
beginning. -/
theorem slip_decay (hb : b.Coercive) {f : ℝ → Vec6} (hf : SolvesODE b Loads.zero true f) {l d : ℝ} (hd : 0 < d)
    (hu : f l 0 = 0) (hw : f l 2 = 0) (hp : f l 4 = 0) {x : ℝ} (hx : x ≤ l) :
    b.slip (f x) ^ 2 ≤ (b.slipCompliance / d + 2 * Real.sqrt (b.slipCompliance * b.slipRateCompliance)) * -b.flux (f (x - d)) := by
  have hC1 := slipCompliance_pos hb
  have hC2 := slipRateCompliance_pos hb
  obtain ⟨lam, l1, l2⟩ := balance_sqrt hC1 hC2
  have hfl : b.flux (f l) = 0 := by simp [Beam.flux, hu, hw, hp]
  have hneg : b.flux (f x) ≤ 0 := by rw [← hfl]; exact flux_mono hb hf hx
  have hm := slip_mono hb (slip_compliance hb) (slipRate_compliance hb) l1 hd
    (κ := b.slipCompliance / d + 2 * Real.sqrt (b.slipCompliance * b.slipRateCompliance)) (by linarith) (hf.shift (x - d))
    (p := 0) (σ := 1) (one_pow 2) (l := d) (fun y hy => ⟨by linarith [hy.1], by linarith [hy.2]⟩)
  have h1 := hm (Set.left_mem_Icc.2 hd.le) (Set.right_mem_Icc.2 hd.le) hd.le
  have e : d + (x - d) = x := by ring
  simp only [e, zero_add, one_mul, div_self hd.ne', zero_div, zero_mul, sub_zero] at h1
  have h2 : (b.slipCompliance / d + 2 * Real.sqrt (b.slipCompliance * b.slipRateCompliance)) * b.flux (f x) ≤ 0 :=
    mul_nonpos_of_nonneg_of_nonpos (by positivity) hneg
  linarith

end Weac.Spec
