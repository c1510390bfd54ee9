import Mathlib.Analysis.Calculus.Deriv.Pow
import Mathlib.Analysis.SpecialFunctions.ExpDeriv
import Verif.Props.Springs

/-!
# Bounds for the compliance of a supported slab

An upper bound is obtained from any distribution of bending moment that is in
equilibrium with the load, a lower bound from a uniform settlement, and one that
does not depend on the length from a settlement that decays away from the load.
-/

namespace Weac
open Spec

/-- Bending stiffness at vanishing normal force. -/
noncomputable def Spec.Beam.Dred (b : Beam) : ℝ := b.D - b.B ^ 2 / b.A

/-- Share of the shear stiffness that remains beside the weak layer. -/
noncomputable def Spec.Beam.Sred (b : Beam) : ℝ := b.S - b.kt * b.t ^ 2 / 16

theorem Spec.Beam.Coercive.Dred_pos {b : Beam} (hb : b.Coercive) : 0 < b.Dred := by
  have h1 := hb.A
  have h2 := hb.det
  have : b.Dred = (b.A * b.D - b.B ^ 2) / b.A := by
    unfold Spec.Beam.Dred
    field_simp
  rw [this]
  positivity

theorem Spec.Beam.Coercive.Sred_pos {b : Beam} (hb : b.Coercive) : 0 < b.Sred := by
  have := hb.shear
  unfold Spec.Beam.Sred
  linarith

theorem Spec.Beam.Coercive.diss_ge {b : Beam} (hb : b.Coercive) (z : Vec6) :
    b.Dred * z 5 ^ 2 + b.Sred * (z 3 + z 4) ^ 2 + b.kn * z 2 ^ 2 ≤ b.diss true z := by
  have hA := hb.A
  have hk := hb.kt
  rw [Beam.Coercive.diss_eq]
  have e1 : b.A * z 1 ^ 2 + 2 * b.B * z 1 * z 5 + b.D * z 5 ^ 2
      = b.A * (z 1 + b.B / b.A * z 5) ^ 2 + b.Dred * z 5 ^ 2 := by
    unfold Spec.Beam.Dred
    field_simp
    ring
  have e2 : ∀ y : ℝ, b.S * (z 3 + z 4) ^ 2 + b.kt * y * (y + b.t / 2 * (z 3 + z 4))
      = b.kt * (y + b.t / 4 * (z 3 + z 4)) ^ 2 + b.Sred * (z 3 + z 4) ^ 2 := by
    intro y
    unfold Spec.Beam.Sred
    ring
  rw [e1, e2]
  have p1 : 0 ≤ b.A * (z 1 + b.B / b.A * z 5) ^ 2 := by positivity
  have p2 : 0 ≤ b.kt * ((z 0 + b.h / 2 * z 4 - b.t / 2 * z 3) + b.t / 4 * (z 3 + z 4)) ^ 2 := by positivity
  linarith

theorem young {D x m : ℝ} (hD : 0 < D) : m * x ≤ (D * x ^ 2 + m ^ 2 / D) / 2 := by
  have h : 0 ≤ D * (x - m / D) ^ 2 := by positivity
  have e : D * (x - m / D) ^ 2 = D * x ^ 2 + m ^ 2 / D - 2 * (m * x) := by
    field_simp
    ring
  linarith

theorem monotone_le {f f' : ℝ → ℝ} {d : ℝ} (hd : 0 ≤ d) (hf : ∀ x, HasDerivAt f (f' x) x)
    (h0 : ∀ x, 0 ≤ x → x ≤ d → 0 ≤ f' x) : f 0 ≤ f d := by
  have := monotoneOn_of_deriv_nonneg (convex_Icc 0 d) (fun x _ => (hf x).continuousAt.continuousWithinAt)
    (fun x _ => (hf x).differentiableAt.differentiableWithinAt) (f := f) (by
      intro x hx
      rw [interior_Icc] at hx
      rw [(hf x).deriv]
      exact h0 x hx.1.le hx.2.le)
  exact this ⟨le_refl _, hd⟩ ⟨hd, le_refl _⟩ hd

variable {b : Beam} {L M V : ℝ} {Z : ℝ → Vec6}

theorem Spec.TipLoaded.flux_ends (hZ : TipLoaded b L 0 M V Z) :
    b.flux (Z 0) = M * Z 0 4 + V * Z 0 2 ∧ b.flux (Z L) = 0 := by
  obtain ⟨h1, h2, h3⟩ := hZ.loaded
  obtain ⟨k1, k2, k3⟩ := hZ.free
  constructor
  · rw [Beam.flux, h1, h2, h3]; ring
  · rw [Beam.flux, k1, k2, k3]; ring

/-- Upper bound of the compliance by a moment distribution in equilibrium with
the load. -/
theorem Spec.TipLoaded.compliance_le (hb : b.Coercive) (hZ : TipLoaded b L 0 M V Z) {d : ℝ} (hd : 0 ≤ d) (hdL : d ≤ L)
    (Mh Vh qh : ℝ → ℝ) (hM : ∀ x, HasDerivAt Mh (Vh x) x) (hV : ∀ x, HasDerivAt Vh (qh x) x) (m0 : Mh 0 = M)
    (v0 : Vh 0 = V) (md : Mh d = 0) (vd : Vh d = 0) (c : ℝ)
    (hc : ∀ x, 0 ≤ x → x ≤ d → Mh x ^ 2 / b.Dred + Vh x ^ 2 / b.Sred + qh x ^ 2 / b.kn ≤ c) :
    -(M * Z 0 4 + V * Z 0 2) ≤ c * d := by
  obtain ⟨f0, fL⟩ := hZ.flux_ends
  choose dz hdz heq using hZ.ode
  have hkin : ∀ x, dz x 4 = Z x 5 ∧ dz x 2 = Z x 3 := by
    intro x
    have h := heq x
    unfold Equil at h
    rw [if_pos rfl] at h
    obtain ⟨⟨-, k2, k4⟩, -⟩ := h
    exact ⟨k4, k2⟩
  have hG : ∀ x, HasDerivAt (fun y => b.flux (Z y) / 2 + c / 2 * y - (Mh y * Z y 4 + Vh y * Z y 2))
      (b.diss true (Z x) / 2 + c / 2 * 1 - ((Vh x * Z x 4 + Mh x * dz x 4) + (qh x * Z x 2 + Vh x * dz x 2))) x := by
    intro x
    have h := fun i => (hasDerivAt_pi.mp (hdz x)) i
    exact (((b.flux_deriv true Z x (dz x) (hdz x) (heq x)).div_const 2).add ((hasDerivAt_id x).const_mul (c / 2))).sub
      (((hM x).mul (h 4)).add ((hV x).mul (h 2)))
  have key := monotone_le hd hG (by
    intro x hx0 hxd
    rw [(hkin x).1, (hkin x).2]
    have g1 := hb.diss_ge (Z x)
    have g2 := hc x hx0 hxd
    have y1 := young hb.Dred_pos (x := Z x 5) (m := Mh x)
    have y2 := young hb.Sred_pos (x := Z x 3 + Z x 4) (m := Vh x)
    have y3 := young hb.kn (x := Z x 2) (m := qh x)
    nlinarith)
  have hmono := flux_mono hb hZ.ode hdL
  simp only at hmono
  rw [fL] at hmono
  simp only [md, vd, m0, v0] at key
  rw [f0] at key
  linarith

/-- Rotation under a unit moment. -/
theorem Spec.TipLoaded.rotation_le (hb : b.Coercive) (hZ : TipLoaded b L 0 1 0 Z) {d : ℝ} (hd : 0 < d) (hdL : d ≤ L) :
    -Z 0 4 ≤ d / b.Dred + 9 / (4 * d * b.Sred) + 36 / (d ^ 3 * b.kn) := by
  have hD := hb.Dred_pos
  have hS := hb.Sred_pos
  have hk := hb.kn
  have h := hZ.compliance_le hb hd.le hdL (fun x => 1 - 3 * (x / d) ^ 2 + 2 * (x / d) ^ 3)
    (fun x => (-6 * (x / d) + 6 * (x / d) ^ 2) / d) (fun x => (-6 + 12 * (x / d)) / d ^ 2)
    (by
      intro x
      have h1 : HasDerivAt (fun y : ℝ => y / d) (1 / d) x := (hasDerivAt_id x).div_const d
      refine (((hasDerivAt_const x (1 : ℝ)).sub ((h1.pow 2).const_mul 3)).add ((h1.pow 3).const_mul 2)).congr_deriv ?_
      norm_num
      field_simp
      ring)
    (by
      intro x
      have h1 : HasDerivAt (fun y : ℝ => y / d) (1 / d) x := (hasDerivAt_id x).div_const d
      refine (((h1.const_mul (-6)).add ((h1.pow 2).const_mul 6)).div_const d).congr_deriv ?_
      norm_num
      field_simp
      ring)
    (by simp) (by simp) (by rw [div_self hd.ne']; norm_num) (by rw [div_self hd.ne']; norm_num)
    (1 / b.Dred + 9 / (4 * d ^ 2) / b.Sred + 36 / d ^ 4 / b.kn) (by
      intro x hx0 hxd
      have t0 : 0 ≤ x / d := by positivity
      have t1 : x / d ≤ 1 := by rw [div_le_one hd]; exact hxd
      generalize x / d = t at t0 t1
      have a1 : (1 - 3 * t ^ 2 + 2 * t ^ 3) ^ 2 ≤ 1 := by
        rw [sq_le_one_iff_abs_le_one, abs_le]
        constructor
        · nlinarith [mul_nonneg t0 t0, sq_nonneg (1 - t), mul_nonneg (sq_nonneg (1 - t)) t0]
        · nlinarith [mul_nonneg t0 t0, mul_nonneg (mul_nonneg t0 t0) (sub_nonneg.mpr t1)]
      have a2 : ((-6 * t + 6 * t ^ 2) / d) ^ 2 ≤ 9 / (4 * d ^ 2) := by
        rw [div_pow, div_le_div_iff₀ (by positivity) (by positivity)]
        have : (-6 * t + 6 * t ^ 2) ^ 2 ≤ 9 / 4 := by
          have u0 : 0 ≤ t * (1 - t) := mul_nonneg t0 (sub_nonneg.mpr t1)
          have u1 : t * (1 - t) ≤ 1 / 4 := by nlinarith [sq_nonneg (t - 1 / 2)]
          have : (-6 * t + 6 * t ^ 2) ^ 2 = 36 * (t * (1 - t)) ^ 2 := by ring
          rw [this]; nlinarith
        nlinarith [sq_nonneg d, mul_pos hd hd]
      have a3 : ((-6 + 12 * t) / d ^ 2) ^ 2 ≤ 36 / d ^ 4 := by
        rw [div_pow, ← pow_mul]
        refine div_le_div_of_nonneg_right ?_ (by positivity)
        nlinarith
      have := div_le_div_of_nonneg_right a1 hD.le
      have := div_le_div_of_nonneg_right a2 hS.le
      have := div_le_div_of_nonneg_right a3 hk.le
      linarith)
  have e : (1 / b.Dred + 9 / (4 * d ^ 2) / b.Sred + 36 / d ^ 4 / b.kn) * d
      = d / b.Dred + 9 / (4 * d * b.Sred) + 36 / (d ^ 3 * b.kn) := by
    field_simp
  rw [e] at h
  linarith

/-- Deflection under a unit force. -/
theorem Spec.TipLoaded.deflection_le (hb : b.Coercive) (hZ : TipLoaded b L 0 0 1 Z) {d : ℝ} (hd : 0 < d) (hdL : d ≤ L) :
    -Z 0 2 ≤ d ^ 3 / b.Dred + d / b.Sred + 16 / (d * b.kn) := by
  have hD := hb.Dred_pos
  have hS := hb.Sred_pos
  have hk := hb.kn
  have h := hZ.compliance_le hb hd.le hdL (fun x => d * (x / d * (1 - x / d) ^ 2))
    (fun x => (1 - x / d) ^ 2 - 2 * (x / d) * (1 - x / d)) (fun x => (-4 + 6 * (x / d)) / d)
    (by
      intro x
      have h1 : HasDerivAt (fun y : ℝ => y / d) (1 / d) x := (hasDerivAt_id x).div_const d
      refine ((h1.mul (((hasDerivAt_const x (1 : ℝ)).sub h1).pow 2)).const_mul d).congr_deriv ?_
      norm_num
      field_simp
      ring)
    (by
      intro x
      have h1 : HasDerivAt (fun y : ℝ => y / d) (1 / d) x := (hasDerivAt_id x).div_const d
      refine ((((hasDerivAt_const x (1 : ℝ)).sub h1).pow 2).sub ((h1.const_mul 2).mul
        ((hasDerivAt_const x (1 : ℝ)).sub h1))).congr_deriv ?_
      norm_num
      field_simp
      ring)
    (by simp) (by simp) (by rw [div_self hd.ne']; norm_num) (by rw [div_self hd.ne']; norm_num)
    (d ^ 2 / b.Dred + 1 / b.Sred + 16 / d ^ 2 / b.kn) (by
      intro x hx0 hxd
      have t0 : 0 ≤ x / d := by positivity
      have t1 : x / d ≤ 1 := by rw [div_le_one hd]; exact hxd
      generalize x / d = t at t0 t1
      have s0 : 0 ≤ 1 - t := sub_nonneg.mpr t1
      have b1 : 0 ≤ t * (1 - t) ^ 2 := by positivity
      have b2 : t * (1 - t) ^ 2 ≤ 1 := by nlinarith [mul_nonneg t0 s0, mul_nonneg (mul_nonneg t0 s0) s0]
      have a1 : (d * (t * (1 - t) ^ 2)) ^ 2 ≤ d ^ 2 := by
        rw [mul_pow]
        have : (t * (1 - t) ^ 2) ^ 2 ≤ 1 := by nlinarith
        nlinarith [sq_nonneg d]
      have a2 : ((1 - t) ^ 2 - 2 * t * (1 - t)) ^ 2 ≤ 1 := by
        rw [sq_le_one_iff_abs_le_one, abs_le]
        constructor <;> nlinarith [mul_nonneg t0 s0, sq_nonneg (1 - t), sq_nonneg t]
      have a3 : ((-4 + 6 * t) / d) ^ 2 ≤ 16 / d ^ 2 := by
        rw [div_pow]
        refine div_le_div_of_nonneg_right ?_ (by positivity)
        nlinarith [mul_nonneg t0 s0]
      have := div_le_div_of_nonneg_right a1 hD.le
      have := div_le_div_of_nonneg_right a2 hS.le
      have := div_le_div_of_nonneg_right a3 hk.le
      linarith)
  have e : (d ^ 2 / b.Dred + 1 / b.Sred + 16 / d ^ 2 / b.kn) * d
      = d ^ 3 / b.Dred + d / b.Sred + 16 / (d * b.kn) := by
    field_simp
  rw [e] at h
  linarith

/-- The deflection is at least that of a slab that settles uniformly. -/
theorem Spec.TipLoaded.deflection_ge (hb : b.Coercive) (hZ : TipLoaded b L 0 0 1 Z) (hL : 0 < L) :
    1 / (b.kn * L) ≤ -Z 0 2 := by
  obtain ⟨f0, fL⟩ := hZ.flux_ends
  obtain ⟨-, -, h3⟩ := hZ.loaded
  obtain ⟨-, -, k3⟩ := hZ.free
  have hk := hb.kn
  choose dz hdz heq using hZ.ode
  have hVd : ∀ x, HasDerivAt (fun y => b.V (Z y)) (b.kn * Z x 2) x := by
    intro x
    have h := heq x
    have hh := fun i => (hasDerivAt_pi.mp (hdz x)) i
    unfold Equil at h
    rw [if_pos rfl] at h
    obtain ⟨-, -, eV, -⟩ := h
    refine (((hh 3).add (hh 4)).const_mul b.S).congr_deriv ?_
    simp only [Loads.zero] at eV
    linarith
  have hG : ∀ x, HasDerivAt (fun y => b.flux (Z y) + 2 / (b.kn * L) * b.V (Z y) + 1 / (b.kn * L ^ 2) * y)
      (b.diss true (Z x) + 2 / (b.kn * L) * (b.kn * Z x 2) + 1 / (b.kn * L ^ 2) * 1) x := by
    intro x
    exact ((b.flux_deriv true Z x (dz x) (hdz x) (heq x)).add ((hVd x).const_mul _)).add
      ((hasDerivAt_id x).const_mul _)
  have key := monotone_le hL.le hG (by
    intro x _ _
    have g1 := hb.diss_ge (Z x)
    have p1 := mul_nonneg hb.Dred_pos.le (sq_nonneg (Z x 5))
    have p2 := mul_nonneg hb.Sred_pos.le (sq_nonneg (Z x 3 + Z x 4))
    have p3 : 0 ≤ b.kn * (Z x 2 + 1 / (b.kn * L)) ^ 2 := by positivity
    have e : b.kn * (Z x 2 + 1 / (b.kn * L)) ^ 2
        = b.kn * Z x 2 ^ 2 + 2 / (b.kn * L) * (b.kn * Z x 2) + 1 / (b.kn * L ^ 2) * 1 := by
      field_simp
      ring
    linarith)
  rw [f0, fL, h3, k3] at key
  have e2 : 1 / (b.kn * L ^ 2) * L = 1 / (b.kn * L) := by field_simp
  have e3 : 2 / (b.kn * L) = 2 * (1 / (b.kn * L)) := by ring
  rw [e2, e3] at key
  linarith

/-- Stiffness of a settlement that decays over the distance `d`. -/
noncomputable def Spec.Beam.decay (b : Beam) (d : ℝ) : ℝ := b.kn * d / 2 + b.S ^ 2 / (2 * d * b.Sred)

theorem Spec.TipLoaded.deflection_ge_decay (hb : b.Coercive) (hZ : TipLoaded b L 0 0 1 Z) (hL : 0 < L) {d : ℝ} (hd : 0 < d) :
    1 / b.decay d ≤ -Z 0 2 := by
  obtain ⟨f0, fL⟩ := hZ.flux_ends
  obtain ⟨-, -, h3⟩ := hZ.loaded
  obtain ⟨-, -, k3⟩ := hZ.free
  have hk := hb.kn
  have hS := hb.Sred_pos
  have hJ : 0 < b.decay d := by
    unfold Spec.Beam.decay
    positivity
  choose dz hdz heq using hZ.ode
  have hVd : ∀ x, HasDerivAt (fun y => b.V (Z y)) (b.kn * Z x 2) x := by
    intro x
    have h := heq x
    have hh := fun i => (hasDerivAt_pi.mp (hdz x)) i
    unfold Equil at h
    rw [if_pos rfl] at h
    obtain ⟨-, -, eV, -⟩ := h
    refine (((hh 3).add (hh 4)).const_mul b.S).congr_deriv ?_
    simp only [Loads.zero] at eV
    linarith
  have hE : ∀ x, HasDerivAt (fun y => Real.exp (-y / d)) (-(Real.exp (-x / d) / d)) x := by
    intro x
    refine (((hasDerivAt_id x).neg.div_const d).exp).congr_deriv ?_
    simp
    ring
  set l := 1 / b.decay d with hl
  have hG : ∀ x, HasDerivAt (fun y => b.flux (Z y) + 2 * l * (b.V (Z y) * Real.exp (-y / d))
        - l ^ 2 * b.decay d * (Real.exp (-y / d) * Real.exp (-y / d)))
      (b.diss true (Z x) + 2 * l * (b.kn * Z x 2 * Real.exp (-x / d) + b.V (Z x) * -(Real.exp (-x / d) / d))
        - l ^ 2 * b.decay d * (-(Real.exp (-x / d) / d) * Real.exp (-x / d) + Real.exp (-x / d) * -(Real.exp (-x / d) / d))) x := by
    intro x
    exact ((b.flux_deriv true Z x (dz x) (hdz x) (heq x)).add (((hVd x).mul (hE x)).const_mul _)).sub
      (((hE x).mul (hE x)).const_mul _)
  have key := monotone_le hL.le hG (by
    intro x _ _
    have g1 := hb.diss_ge (Z x)
    have p1 := mul_nonneg hb.Dred_pos.le (sq_nonneg (Z x 5))
    generalize Real.exp (-x / d) = e
    have p2 : 0 ≤ b.Sred * ((Z x 3 + Z x 4) - l * b.S / b.Sred * e / d) ^ 2 := by positivity
    have p3 : 0 ≤ b.kn * (Z x 2 + l * e) ^ 2 := by positivity
    have e1 : b.Sred * ((Z x 3 + Z x 4) - l * b.S / b.Sred * e / d) ^ 2 + b.kn * (Z x 2 + l * e) ^ 2
        = b.Sred * (Z x 3 + Z x 4) ^ 2 + b.kn * Z x 2 ^ 2
          + 2 * l * (b.kn * Z x 2 * e + b.V (Z x) * -(e / d))
          - l ^ 2 * b.decay d * (-(e / d) * e + e * -(e / d)) := by
      show _ = _ + 2 * l * (_ + b.S * (Z x 3 + Z x 4) * _) - _
      unfold Spec.Beam.decay
      field_simp
      ring
    linarith)
  rw [f0, fL, h3, k3] at key
  simp only [neg_zero, zero_div, Real.exp_zero] at key
  have p : 0 ≤ l ^ 2 * b.decay d * (Real.exp (-L / d) * Real.exp (-L / d)) := by positivity
  have e2 : l ^ 2 * b.decay d = l := by
    rw [hl]
    field_simp
  rw [e2] at key p
  linarith

end Weac
