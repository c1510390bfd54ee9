import Verif.Props.TouchdownRuns
import Verif.Spec.Overhang

/-!
# C43: mechanics behind the stage limits and the touchdown length
-/

namespace Weac
open Spec

/-! ## The field of an overhang -/

theorem eq_of_deriv {f g d : ℝ → ℝ} (hf : ∀ x, HasDerivAt f (d x) x) (hg : ∀ x, HasDerivAt g (d x) x)
    (h0 : f 0 = g 0) (x : ℝ) : f x = g x := by
  have h : ∀ y, HasDerivAt (fun x => f x - g x) 0 y := fun y => by
    have := (hf y).sub (hg y)
    rwa [sub_self] at this
  have := is_const_of_deriv_eq_zero (fun y => (h y).differentiableAt) (fun y => (h y).deriv) x 0
  linarith

/-- Deflection, rotation, moment and shear force of an overhang with end values
`w0, p0, M0, V0` at 0. -/
structure Shape (b : Beam) (q w0 p0 M0 V0 : ℝ) (Z : ℝ → Vec6) : Prop where
  N : ∀ x, b.N (Z x) = 0
  V : ∀ x, b.V (Z x) = V0 - q * x
  M : ∀ x, b.M (Z x) = M0 + V0 * x - q * x ^ 2 / 2
  psi : ∀ x, Z x 4 = p0 + (M0 * x + V0 * x ^ 2 / 2 - q * x ^ 3 / 6) / b.Dred
  w : ∀ x, Z x 2 = w0 - p0 * x + (V0 * x - q * x ^ 2 / 2) / b.S
    - (M0 * x ^ 2 / 2 + V0 * x ^ 3 / 6 - q * x ^ 4 / 24) / b.Dred

theorem free_shape {b : Beam} {q l : ℝ} {Z : ℝ → Vec6} (hA : b.A ≠ 0) (hD : b.Dred ≠ 0) (hS : b.S ≠ 0)
    (ode : SolvesODE b ⟨q, 0, 0, 0⟩ false Z) (normal : b.N (Z l) = 0) : Shape b q (Z 0 2) (Z 0 4) (b.M (Z 0)) (b.V (Z 0)) Z := by
  have d : ∀ x, ∃ dz : Vec6, (∀ i, HasDerivAt (fun x => Z x i) (dz i) x) ∧ EquilFree b ⟨q, 0, 0, 0⟩ (Z x) dz := by
    intro x
    obtain ⟨dz, h1, h2⟩ := ode x
    exact ⟨dz, hasDerivAt_pi.mp h1, by simpa [Equil] using h2⟩
  have hV : ∀ x, HasDerivAt (fun x => b.V (Z x)) (-q) x := by
    intro x
    obtain ⟨dz, h1, h2⟩ := d x
    have := ((h1 3).add (h1 4)).const_mul b.S
    have e := h2.V
    simp only [add_zero] at e
    rw [e] at this
    exact this
  have hM : ∀ x, HasDerivAt (fun x => b.M (Z x)) (b.V (Z x)) x := by
    intro x
    obtain ⟨dz, h1, h2⟩ := d x
    have := ((h1 1).const_mul b.B).add ((h1 5).const_mul b.D)
    have e := h2.M
    simp only [mul_zero, sub_zero, add_zero] at e
    rw [e] at this
    exact this
  have hN : ∀ x, HasDerivAt (fun x => b.N (Z x)) 0 x := by
    intro x
    obtain ⟨dz, h1, h2⟩ := d x
    have := ((h1 1).const_mul b.A).add ((h1 5).const_mul b.B)
    have e := h2.N
    simp only [add_zero, neg_zero] at e
    rw [e] at this
    exact this
  have N0 : ∀ x, b.N (Z x) = 0 := by
    intro x
    have := is_const_of_deriv_eq_zero (fun y => (hN y).differentiableAt) (fun y => (hN y).deriv) x l
    rw [this, normal]
  have V0 : ∀ x, b.V (Z x) = b.V (Z 0) - q * x := by
    intro x
    refine eq_of_deriv (f := fun x => b.V (Z x)) (g := fun x => b.V (Z 0) - q * x) (d := fun _ => -q) hV (fun y => ?_) (by simp) x
    simpa using ((hasDerivAt_id y).const_mul q).const_sub (b.V (Z 0))
  have M0 : ∀ x, b.M (Z x) = b.M (Z 0) + b.V (Z 0) * x - q * x ^ 2 / 2 := by
    intro x
    refine eq_of_deriv (f := fun x => b.M (Z x)) (g := fun x => b.M (Z 0) + b.V (Z 0) * x - q * x ^ 2 / 2)
      (d := fun x => b.V (Z x)) hM (fun y => ?_) (by simp) x
    rw [V0 y]
    have := (((hasDerivAt_id y).const_mul (b.V (Z 0))).const_add (b.M (Z 0))).sub
      ((((hasDerivAt_id y).pow 2).const_mul q).div_const 2)
    refine this.congr_deriv ?_
    simp; ring
  have hc : ∀ x, Z x 5 = b.M (Z x) / b.Dred := by
    intro x
    rw [eq_div_iff hD]
    have := N0 x
    unfold Beam.N at this
    unfold Beam.M Beam.Dred
    have e : Z x 1 = -(b.B * Z x 5) / b.A := by rw [eq_div_iff hA]; linarith
    rw [e]
    field_simp
    ring
  have P : ∀ x, Z x 4 = Z 0 4 + (b.M (Z 0) * x + b.V (Z 0) * x ^ 2 / 2 - q * x ^ 3 / 6) / b.Dred := by
    intro x
    refine eq_of_deriv (f := fun x => Z x 4)
      (g := fun x => Z 0 4 + (b.M (Z 0) * x + b.V (Z 0) * x ^ 2 / 2 - q * x ^ 3 / 6) / b.Dred)
      (d := fun x => b.M (Z x) / b.Dred) (fun y => ?_) (fun y => ?_) (by simp) x
    · obtain ⟨dz, h1, h2⟩ := d y
      have := h1 4
      rw [h2.kin.psi, hc y] at this
      exact this
    · rw [M0 y]
      have := (((((hasDerivAt_id y).const_mul (b.M (Z 0))).add ((((hasDerivAt_id y).pow 2).const_mul (b.V (Z 0))).div_const 2)).sub
        ((((hasDerivAt_id y).pow 3).const_mul q).div_const 6)).div_const b.Dred).const_add (Z 0 4)
      refine this.congr_deriv ?_
      simp; ring
  refine ⟨N0, V0, M0, P, ?_⟩
  intro x
  refine eq_of_deriv (f := fun x => Z x 2) (g := fun x => Z 0 2 - Z 0 4 * x + (b.V (Z 0) * x - q * x ^ 2 / 2) / b.S
    - (b.M (Z 0) * x ^ 2 / 2 + b.V (Z 0) * x ^ 3 / 6 - q * x ^ 4 / 24) / b.Dred) (d := fun x => b.V (Z x) / b.S - Z x 4) (fun y => ?_) (fun y => ?_) (by simp) x
  · obtain ⟨dz, h1, h2⟩ := d y
    have := h1 2
    rw [h2.kin.w] at this
    refine this.congr_deriv ?_
    unfold Beam.V
    field_simp
    ring
  · rw [V0 y, P y]
    have := (((((hasDerivAt_id y).const_mul (Z 0 4)).const_sub (Z 0 2)).add
      ((((hasDerivAt_id y).const_mul (b.V (Z 0))).sub ((((hasDerivAt_id y).pow 2).const_mul q).div_const 2)).div_const b.S))).sub
      (((((((hasDerivAt_id y).pow 2).const_mul (b.M (Z 0))).div_const 2).add
        ((((hasDerivAt_id y).pow 3).const_mul (b.V (Z 0))).div_const 6)).sub
        ((((hasDerivAt_id y).pow 4).const_mul q).div_const 24)).div_const b.Dred)
    refine this.congr_deriv ?_
    simp; ring

theorem Spec.Overhang.shape {b : Beam} {q kN kR l : ℝ} {Z : ℝ → Vec6} (hA : b.A ≠ 0) (hD : b.Dred ≠ 0) (hS : b.S ≠ 0)
    (h : Overhang b q kN kR l Z) : Shape b q (Z 0 2) (Z 0 4) (kR * Z 0 4) (kN * Z 0 2) Z := by
  rw [← h.force, ← h.moment]
  exact free_shape hA hD hS h.ode h.normal

/-- The slope of the deflection from shear force and rotation. -/
theorem slope_eq {b : Beam} (hS : b.S ≠ 0) (z : Vec6) : z 3 = b.V z / b.S - z 4 := by
  unfold Beam.V
  field_simp
  ring

/-- The overhang with given values at 0. -/
noncomputable def overhangField (b : Beam) (q w0 p0 M0 V0 : ℝ) (x : ℝ) : Vec6 :=
  let dp := (M0 + V0 * x - q * x ^ 2 / 2) / b.Dred
  let p := p0 + (M0 * x + V0 * x ^ 2 / 2 - q * x ^ 3 / 6) / b.Dred
  ![-b.B / b.A * p, -b.B / b.A * dp,
    w0 - p0 * x + (V0 * x - q * x ^ 2 / 2) / b.S - (M0 * x ^ 2 / 2 + V0 * x ^ 3 / 6 - q * x ^ 4 / 24) / b.Dred,
    (V0 - q * x) / b.S - p, p, dp]

theorem overhangField_solves {b : Beam} (hA : b.A ≠ 0) (hD : b.Dred ≠ 0) (hS : b.S ≠ 0) (q w0 p0 M0 V0 : ℝ) :
    SolvesODE b ⟨q, 0, 0, 0⟩ false (overhangField b q w0 p0 M0 V0) := by
  intro x
  set dp := (M0 + V0 * x - q * x ^ 2 / 2) / b.Dred with hdp
  set p := p0 + (M0 * x + V0 * x ^ 2 / 2 - q * x ^ 3 / 6) / b.Dred with hp
  set ddp := (V0 - q * x) / b.Dred with hddp
  have d1 : HasDerivAt (fun x => (M0 + V0 * x - q * x ^ 2 / 2) / b.Dred) ddp x := by
    have := ((((hasDerivAt_id x).const_mul V0).const_add M0).sub ((((hasDerivAt_id x).pow 2).const_mul q).div_const 2)).div_const b.Dred
    refine this.congr_deriv ?_
    rw [hddp]; simp; ring
  have d2 : HasDerivAt (fun x => p0 + (M0 * x + V0 * x ^ 2 / 2 - q * x ^ 3 / 6) / b.Dred) dp x := by
    have := (((((hasDerivAt_id x).const_mul M0).add ((((hasDerivAt_id x).pow 2).const_mul V0).div_const 2)).sub
        ((((hasDerivAt_id x).pow 3).const_mul q).div_const 6)).div_const b.Dred).const_add p0
    refine this.congr_deriv ?_
    rw [hdp]; simp; ring
  have d3 : HasDerivAt (fun x => w0 - p0 * x + (V0 * x - q * x ^ 2 / 2) / b.S
      - (M0 * x ^ 2 / 2 + V0 * x ^ 3 / 6 - q * x ^ 4 / 24) / b.Dred) ((V0 - q * x) / b.S - p) x := by
    have := (((((hasDerivAt_id x).const_mul p0).const_sub w0).add
      ((((hasDerivAt_id x).const_mul V0).sub ((((hasDerivAt_id x).pow 2).const_mul q).div_const 2)).div_const b.S))).sub
      (((((((hasDerivAt_id x).pow 2).const_mul M0).div_const 2).add
        ((((hasDerivAt_id x).pow 3).const_mul V0).div_const 6)).sub
        ((((hasDerivAt_id x).pow 4).const_mul q).div_const 24)).div_const b.Dred)
    refine this.congr_deriv ?_
    rw [hp]; simp; ring
  have d4 : HasDerivAt (fun x => (V0 - q * x) / b.S) (-q / b.S) x := by
    have := ((((hasDerivAt_id x).const_mul q).const_sub V0).div_const b.S)
    refine this.congr_deriv ?_
    simp
  refine ⟨![-b.B / b.A * dp, -b.B / b.A * ddp, (V0 - q * x) / b.S - p, -q / b.S - dp, dp, ddp], ?_, ?_⟩
  · rw [hasDerivAt_pi]
    intro i
    fin_cases i
    · exact d2.const_mul _
    · exact d1.const_mul _
    · exact d3
    · exact d4.sub d2
    · exact d2
    · exact d1
  · have hDr : b.D - b.B ^ 2 / b.A = b.Dred := rfl
    refine ⟨⟨rfl, rfl, rfl⟩, ?_, ?_, ?_⟩
    · show b.A * (-b.B / b.A * ddp) + b.B * ddp = -(0 + 0)
      field_simp; ring
    · show b.S * (-q / b.S - dp + dp) = -(q + 0)
      field_simp; ring
    · show b.B * (-b.B / b.A * ddp) + b.D * ddp = b.S * ((V0 - q * x) / b.S - p + p) - b.zs * 0 + b.h / 2 * 0
      have : b.B * (-b.B / b.A * ddp) + b.D * ddp = b.Dred * ddp := by rw [← hDr]; ring
      rw [this, hddp]
      field_simp
      ring

theorem overhangField_forces {b : Beam} (hD : b.Dred ≠ 0) (hA : b.A ≠ 0) (hS : b.S ≠ 0) (q w0 p0 M0 V0 x : ℝ) :
    b.N (overhangField b q w0 p0 M0 V0 x) = 0 ∧
    b.M (overhangField b q w0 p0 M0 V0 x) = M0 + V0 * x - q * x ^ 2 / 2 ∧
    b.V (overhangField b q w0 p0 M0 V0 x) = V0 - q * x := by
  have hDr : b.D - b.B ^ 2 / b.A = b.Dred := rfl
  refine ⟨?_, ?_, ?_⟩
  · show b.A * (-b.B / b.A * ((M0 + V0 * x - q * x ^ 2 / 2) / b.Dred)) + b.B * ((M0 + V0 * x - q * x ^ 2 / 2) / b.Dred) = 0
    field_simp; ring
  · show b.B * (-b.B / b.A * ((M0 + V0 * x - q * x ^ 2 / 2) / b.Dred)) + b.D * ((M0 + V0 * x - q * x ^ 2 / 2) / b.Dred) = _
    generalize M0 + V0 * x - q * x ^ 2 / 2 = m
    have : b.B * (-b.B / b.A * (m / b.Dred)) + b.D * (m / b.Dred) = b.Dred * (m / b.Dred) := by rw [← hDr]; ring
    rw [this]; field_simp
  · show b.S * ((V0 - q * x) / b.S - (p0 + (M0 * x + V0 * x ^ 2 / 2 - q * x ^ 3 / 6) / b.Dred)
      + (p0 + (M0 * x + V0 * x ^ 2 / 2 - q * x ^ 3 / 6) / b.Dred)) = _
    rw [sub_add_cancel]; field_simp

/-! ## What the polynomials say about every overhang -/

section
variable {b : Beam} {q kN kR kr tc x : ℝ} {Z : ℝ → Vec6}

/-- Deflection of the free end. -/
theorem Spec.Overhang.tip (hA : 0 < b.A) (hD : 0 < b.Dred) (hS : 0 < b.S) (hN : 0 < kN) (hR : 0 < kR)
    (h : Overhang b q kN kR x Z) (hf : HangsFree b x Z) : Z x 2 = q * tipDeflection b.Dred b.S kR kN x := by
  have sh := h.shape hA.ne' hD.ne' hS.ne'
  have e1 := sh.V x
  have e2 := sh.M x
  rw [hf.2] at e1
  rw [hf.1] at e2
  have w0 : Z 0 2 = q * x / kN := by rw [eq_div_iff hN.ne']; linarith
  have p0 : Z 0 4 = -(q * x ^ 2 / 2) / kR := by
    rw [eq_div_iff hR.ne']
    have : kN * Z 0 2 = q * x := by linarith
    rw [this] at e2; linarith
  rw [sh.w x, w0, p0]
  unfold tipDeflection
  generalize b.Dred = D at *
  generalize b.S = S at *
  field_simp
  ring

/-- Compliance of the far end against a force, with the end free to rotate. -/
noncomputable def tipCompliance (bs ss kR kN x : ℝ) : ℝ := x ^ 3 / (3 * bs) + x / ss + x ^ 2 / kR + 1 / kN

/-- Force with which the ground carries the far end. -/
theorem Spec.Overhang.reaction (hA : 0 < b.A) (hD : 0 < b.Dred) (hS : 0 < b.S) (hN : 0 < kN) (hR : 0 < kR)
    (h : Overhang b q kN kR x Z) (hc : HeldAt b tc 0 x Z) :
    -b.V (Z x) * tipCompliance b.Dred b.S kR kN x = q * tipDeflection b.Dred b.S kR kN x - tc := by
  have sh := h.shape hA.ne' hD.ne' hS.ne'
  have e1 := sh.V x
  have e2 := sh.M x
  have e3 := sh.w x
  rw [hc.1] at e2
  rw [hc.2] at e3
  simp only [neg_zero, zero_mul] at e2
  set V := b.V (Z x) with hV
  have w0 : Z 0 2 = (V + q * x) / kN := by rw [eq_div_iff hN.ne']; linarith
  have p0 : Z 0 4 = -(V * x + q * x ^ 2 / 2) / kR := by
    rw [eq_div_iff hR.ne']
    have : kN * Z 0 2 = V + q * x := by linarith
    rw [this] at e2; linarith
  rw [e3, w0, p0]
  unfold tipDeflection tipCompliance
  generalize b.Dred = D at *
  generalize b.S = S at *
  field_simp
  ring

/-- Positive factor between the polynomial of the touchdown length and the slope
at the touchdown point. -/
noncomputable def slopeFactor (bs ss kR kN kr x : ℝ) : ℝ :=
  144 * bs ^ 2 * ss ^ 2 * ((kR + kr + kr * kR * x / bs) * (1 + kN * (x / ss - x ^ 3 / (6 * bs)))
    + (kN * x + kr * kN * x ^ 2 / (2 * bs)) * (x + kR * x ^ 2 / (2 * bs)))

theorem slopeFactor_pos {bs ss : ℝ} (hb : 0 < bs) (hs : 0 < ss) (hN : 0 < kN) (hR : 0 < kR) (hr : 0 ≤ kr) (hx : 0 < x) :
    0 < slopeFactor bs ss kR kN kr x := by
  have e : slopeFactor bs ss kR kN kr x = 144 * bs ^ 2 * ss ^ 2 * ((kR + kr + kr * kR * x / bs) * (1 + kN * x / ss)
      + kN * x ^ 2 + kN * kR * x ^ 3 / (3 * bs) + kN * kr * x ^ 3 / (3 * bs) + kN * kR * kr * x ^ 4 / (12 * bs ^ 2)) := by
    unfold slopeFactor
    field_simp
    ring
  rw [e]
  positivity

/-- The polynomial of `calc_lC`, and with `kr = 0` that of `calc_a2`. -/
noncomputable def contactPoly (bs ss kRl kNl kRr tc qn x : ℝ) : ℝ :=
  ss ^ 2 * kRl * kNl * qn * x ^ 6 + 6 * ss * kNl * qn * (bs * ss + kRl * kRr) * x ^ 5
    + 30 * bs * ss * kNl * qn * (kRl + kRr) * x ^ 4
    + 24 * bs * qn * (2 * ss ^ 2 * kRl + 3 * bs * ss * kNl + 3 * kRl * kRr * kNl) * x ^ 3
    + 72 * bs * (bs * qn * (ss ^ 2 + kNl * (kRl + kRr)) + ss * kRl * (2 * kRr * qn - ss * kNl * tc)) * x ^ 2
    + 144 * bs * ss * (bs * qn * (kRl + kRr) - kNl * tc * (bs * ss + kRl * kRr)) * x
    + -144 * bs ^ 2 * ss * kNl * tc * (kRl + kRr)

/-- Slope at the touchdown point. -/
theorem Spec.Overhang.slope (hA : 0 < b.A) (hD : 0 < b.Dred) (hS : 0 < b.S)
    (h : Overhang b q kN kR x Z) (hc : HeldAt b tc kr x Z) :
    slopeFactor b.Dred b.S kR kN kr x * Z x 3 = -contactPoly b.Dred b.S kR kN kr tc q x := by
  have sh := h.shape hA.ne' hD.ne' hS.ne'
  have e1 := sh.V x
  have e2 := sh.M x
  have e3 := sh.w x
  have e4 := sh.psi x
  rw [hc.1, e4] at e2
  rw [hc.2] at e3
  rw [slope_eq hS.ne' (Z x), e1, e4]
  generalize Z 0 2 = w0 at *
  generalize Z 0 4 = p0 at *
  unfold slopeFactor contactPoly
  generalize b.Dred = D at *
  generalize b.S = S at *
  set a11 := kR + kr + kr * kR * x / D with ha11
  set a12 := kN * x + kr * kN * x ^ 2 / (2 * D) with ha12
  set b11 := -x - kR * x ^ 2 / (2 * D) with hb11
  set b12 := 1 + kN * (x / S - x ^ 3 / (6 * D)) with hb12
  set r2 := q * x ^ 2 / 2 + kr * (q * x ^ 3 / (6 * D)) with hr2
  set r1 := tc + q * x ^ 2 / (2 * S) - q * x ^ 4 / (24 * D) with hr1
  have E2 : a11 * p0 + a12 * w0 = r2 := by
    rw [ha11, ha12, hr2]; linear_combination -e2
  have E1 : b11 * p0 + b12 * w0 = r1 := by
    rw [hb11, hb12, hr1]; linear_combination -e3
  have det1 : (a11 * b12 - a12 * b11) * w0 = a11 * r1 - b11 * r2 := by linear_combination a11 * E1 - b11 * E2
  have det2 : (a11 * b12 - a12 * b11) * p0 = b12 * r2 - a12 * r1 := by linear_combination b12 * E2 - a12 * E1
  have hdet : a11 * b12 + a12 * (x + kR * x ^ 2 / (2 * D)) = a11 * b12 - a12 * b11 := by rw [hb11]; ring
  rw [hdet]
  have : 144 * D ^ 2 * S ^ 2 * (a11 * b12 - a12 * b11) *
      ((kN * w0 - q * x) / S - (p0 + (kR * p0 * x + kN * w0 * x ^ 2 / 2 - q * x ^ 3 / 6) / D))
      = 144 * D ^ 2 * S ^ 2 * ((kN / S - kN * x ^ 2 / (2 * D)) * ((a11 * b12 - a12 * b11) * w0)
        - (1 + kR * x / D) * ((a11 * b12 - a12 * b11) * p0)
        + (a11 * b12 - a12 * b11) * (-q * x / S + q * x ^ 3 / (6 * D))) := by ring
  rw [this, det1, det2, ha11, ha12, hb11, hb12, hr1, hr2]
  field_simp
  ring

/-- There is an overhang that hangs free. -/
theorem overhang_free_exists (b : Beam) (hA : 0 < b.A) (hD : 0 < b.Dred) (hS : 0 < b.S) (hN : 0 < kN) (hR : 0 < kR) :
    ∃ Z, Overhang b q kN kR x Z ∧ HangsFree b x Z := by
  have f := overhangField_forces hD.ne' hA.ne' hS.ne' q (q * x / kN) (-(q * x ^ 2 / 2) / kR) (-(q * x ^ 2 / 2)) (q * x)
  refine ⟨overhangField b q (q * x / kN) (-(q * x ^ 2 / 2) / kR) (-(q * x ^ 2 / 2)) (q * x),
    ⟨overhangField_solves hA.ne' hD.ne' hS.ne' _ _ _ _ _, ?_, ?_, (f x).1⟩, ?_, ?_⟩
  · rw [(f 0).2.2]; simp [overhangField]; field_simp
  · rw [(f 0).2.1]; simp [overhangField]; field_simp
  · rw [(f x).2.1]; ring
  · rw [(f x).2.2]; ring

/-- There is an overhang that is held at depth `tc`. -/
theorem overhang_held_exists (b : Beam) (hA : 0 < b.A) (hD : 0 < b.Dred) (hS : 0 < b.S) (hN : 0 < kN) (hR : 0 < kR)
    (hr : 0 ≤ kr) (hx : 0 < x) : ∃ Z, Overhang b q kN kR x Z ∧ HeldAt b tc kr x Z := by
  have hpos := slopeFactor_pos (bs := b.Dred) (ss := b.S) hD hS hN hR hr hx
  unfold slopeFactor at hpos
  have hdet := pos_of_mul_pos_right hpos (by positivity)
  have f := fun w0 p0 => overhangField_forces hD.ne' hA.ne' hS.ne' q w0 p0 (kR * p0) (kN * w0)
  have val : ∀ w0 p0, overhangField b q w0 p0 (kR * p0) (kN * w0) x 2 =
      w0 - p0 * x + (kN * w0 * x - q * x ^ 2 / 2) / b.S
      - (kR * p0 * x ^ 2 / 2 + kN * w0 * x ^ 3 / 6 - q * x ^ 4 / 24) / b.Dred ∧
      overhangField b q w0 p0 (kR * p0) (kN * w0) x 4 =
      p0 + (kR * p0 * x + kN * w0 * x ^ 2 / 2 - q * x ^ 3 / 6) / b.Dred := fun _ _ => ⟨rfl, rfl⟩
  set a11 := kR + kr + kr * kR * x / b.Dred with ha11
  set a12 := kN * x + kr * kN * x ^ 2 / (2 * b.Dred) with ha12
  set b12 := 1 + kN * (x / b.S - x ^ 3 / (6 * b.Dred)) with hb12
  set b11 := x + kR * x ^ 2 / (2 * b.Dred) with hb11
  set r2 := q * x ^ 2 / 2 + kr * (q * x ^ 3 / (6 * b.Dred)) with hr2
  set r1 := tc + q * x ^ 2 / (2 * b.S) - q * x ^ 4 / (24 * b.Dred) with hr1
  set det := a11 * b12 + a12 * b11 with hd
  set w0 := (a11 * r1 + b11 * r2) / det with hw0
  set p0 := (b12 * r2 - a12 * r1) / det with hp0
  have E2 : a11 * p0 + a12 * w0 = r2 := by rw [hp0, hw0]; field_simp; rw [hd]; ring
  have E1 : -b11 * p0 + b12 * w0 = r1 := by rw [hp0, hw0]; field_simp; rw [hd]; ring
  clear_value w0 p0
  refine ⟨overhangField b q w0 p0 (kR * p0) (kN * w0),
    ⟨overhangField_solves hA.ne' hD.ne' hS.ne' _ _ _ _ _, ?_, ?_, (f w0 p0 x).1⟩, ?_, ?_⟩
  · rw [(f w0 p0 0).2.2]; simp [overhangField]
  · rw [(f w0 p0 0).2.1]; simp [overhangField]
  · rw [(f w0 p0 x).2.1, (val w0 p0).2]
    rw [ha11, ha12, hr2] at E2
    linear_combination E2
  · rw [(val w0 p0).1]
    rw [hb11, hb12, hr1] at E1
    linear_combination E1

end

/-! ## C43 -/

/-- The values that `calc_a1`, `calc_a2`, `calc_lC` evaluate. -/
theorem Self.beam_Dred (s : Self) : s.beam.Dred = bsOf s := by
  unfold bsOf Spec.Beam.Dred
  show s.D11 - s.B11 ^ 2 / s.A11 = _
  ring

/-- Object for which the springs at the crack tip exist: parameters in range,
and a load that does not press the end of a piece of length `l` down further
than a unit force does. -/
structure SpringsOk (num : Numerics) (s : Self) (l : ℝ) : Prop where
  fresh : EigFresh num.eig s
  bed : BedOk s
  shear : ShearOk s
  qn : 0 < calcQn s
  q0 : 0 ≤ (s.loads 0).qn + (s.loads 0).pn
  len : 0 < l
  load : Light s.beam ((s.loads 0).qn + (s.loads 0).pn) l

theorem SpringsOk.springs {num : Numerics} {s : Self} {l : ℝ} (h : SpringsOk num s l) : ∃ kR kN,
    substituteStiffness num.eig l false .rot s = (.ok kR, s) ∧
    substituteStiffness num.eig l false .trans s = (.ok kN, s) ∧ 0 < kR ∧ 0 < kN := by
  obtain ⟨kR, a1, a2, -⟩ := rot_spring num.eig s h.fresh h.bed h.shear l h.len
  obtain ⟨kN, b1, b2, -⟩ := trans_spring num.eig s h.fresh h.bed h.shear l h.len h.q0 h.load
  exact ⟨kR, kN, a1, b1, a2, b2⟩

/-- C43, first contact. For every crack length `x` below the column length, the
function whose root is the first stage limit measures the gap between the free
end of the slab and the collapsed weak layer: `y` times the load is the
deflection of the end of an unsupported piece of length `x`, carried at the
crack tip by the substitute springs of the rest, less the collapse height. At
the root the free end just touches down. -/
theorem C43_first_contact (num : Numerics) (s : Self) (x : ℝ) (h : SpringsOk num s (s.L - x)) :
    ∃ kR kN y, substituteStiffness num.eig (s.L - x) false .rot s = (.ok kR, s) ∧
      substituteStiffness num.eig (s.L - x) false .trans s = (.ok kN, s) ∧
      polyA1 num.eig (bsOf s) s.kA55 s.L s.tc (calcQn s) x s = (.ok y, s) ∧
      (∃ Z, Overhang s.beam (calcQn s) kN kR x Z ∧ HangsFree s.beam x Z) ∧
      ∀ Z, Overhang s.beam (calcQn s) kN kR x Z → HangsFree s.beam x Z → Z x 2 - s.tc = calcQn s * y := by
  obtain ⟨kR, kN, r1, n1, kRp, kNp⟩ := h.springs
  have hD : 0 < s.beam.Dred := by rw [s.beam_Dred]; exact bsOf_pos h.bed h.shear
  have hA : 0 < s.beam.A := h.bed.stiff.A11
  have hS : 0 < s.beam.S := h.bed.stiff.kA55
  have e : polyA1 num.eig (bsOf s) s.kA55 s.L s.tc (calcQn s) x s
      = (.ok (tipDeflection (bsOf s) s.kA55 kR kN x + -s.tc / calcQn s), s) := by
    unfold polyA1
    rw [Py.bind_of_ok r1, Py.bind_of_ok n1]
    rfl
  refine ⟨kR, kN, _, r1, n1, e, overhang_free_exists s.beam hA hD hS kNp kRp, fun Z hZ hf => ?_⟩
  rw [hZ.tip hA hD hS kNp kRp hf, s.beam_Dred]
  show calcQn s * tipDeflection (bsOf s) s.kA55 kR kN x - s.tc = _
  have hq := h.qn.ne'
  field_simp
  ring

/-- C43, contact force. The same function decides whether a slab whose end is
held at the collapse height presses on the ground: the contact force there, times
a positive compliance, is `y` times the load. Below the root the ground would
have to pull. -/
theorem C43_contact_force (num : Numerics) (s : Self) (x : ℝ) (hx : 0 < x) (h : SpringsOk num s (s.L - x)) :
    ∃ kR kN y c, substituteStiffness num.eig (s.L - x) false .rot s = (.ok kR, s) ∧
      substituteStiffness num.eig (s.L - x) false .trans s = (.ok kN, s) ∧
      polyA1 num.eig (bsOf s) s.kA55 s.L s.tc (calcQn s) x s = (.ok y, s) ∧ 0 < c ∧
      (∃ Z, Overhang s.beam (calcQn s) kN kR x Z ∧ HeldAt s.beam s.tc 0 x Z) ∧
      ∀ Z, Overhang s.beam (calcQn s) kN kR x Z → HeldAt s.beam s.tc 0 x Z →
        -s.beam.V (Z x) * c = calcQn s * y := by
  obtain ⟨kR, kN, r1, n1, kRp, kNp⟩ := h.springs
  have hb := bsOf_pos h.bed h.shear
  have hD : 0 < s.beam.Dred := by rw [s.beam_Dred]; exact hb
  have hA : 0 < s.beam.A := h.bed.stiff.A11
  have hS : 0 < s.beam.S := h.bed.stiff.kA55
  have e : polyA1 num.eig (bsOf s) s.kA55 s.L s.tc (calcQn s) x s
      = (.ok (tipDeflection (bsOf s) s.kA55 kR kN x + -s.tc / calcQn s), s) := by
    unfold polyA1
    rw [Py.bind_of_ok r1, Py.bind_of_ok n1]
    rfl
  refine ⟨kR, kN, _, tipCompliance s.beam.Dred s.beam.S kR kN x, r1, n1, e, ?_,
    overhang_held_exists s.beam hA hD hS kNp kRp le_rfl hx, fun Z hZ hf => ?_⟩
  · unfold tipCompliance
    positivity
  · rw [hZ.reaction hA hD hS kNp kRp hf, s.beam_Dred]
    show calcQn s * tipDeflection (bsOf s) s.kA55 kR kN x - s.tc = _
    have hq := h.qn.ne'
    field_simp
    ring

/-- C43, full contact. The function whose root is the second stage limit is, up
to a negative factor, the slope with which a slab whose end rests at the collapse
height meets the ground. At the root it lies flat. -/
theorem C43_full_contact (num : Numerics) (s : Self) (x : ℝ) (hx : 0 < x) (h : SpringsOk num s (s.L - x)) :
    ∃ kR kN y c, substituteStiffness num.eig (s.L - x) false .rot s = (.ok kR, s) ∧
      substituteStiffness num.eig (s.L - x) false .trans s = (.ok kN, s) ∧
      polyA2 num.eig (bsOf s) s.kA55 s.L s.tc (calcQn s) x s = (.ok y, s) ∧ 0 < c ∧
      (∃ Z, Overhang s.beam (calcQn s) kN kR x Z ∧ HeldAt s.beam s.tc 0 x Z) ∧
      ∀ Z, Overhang s.beam (calcQn s) kN kR x Z → HeldAt s.beam s.tc 0 x Z → c * Z x 3 = -y := by
  obtain ⟨kR, kN, r1, n1, kRp, kNp⟩ := h.springs
  have hb := bsOf_pos h.bed h.shear
  have hD : 0 < s.beam.Dred := by rw [s.beam_Dred]; exact hb
  have hA : 0 < s.beam.A := h.bed.stiff.A11
  have hS : 0 < s.beam.S := h.bed.stiff.kA55
  have e : polyA2 num.eig (bsOf s) s.kA55 s.L s.tc (calcQn s) x s
      = (.ok (contactPoly (bsOf s) s.kA55 kR kN 0 s.tc (calcQn s) x), s) := by
    unfold polyA2
    rw [Py.bind_of_ok r1, Py.bind_of_ok n1]
    simp only [Py.pure_apply, Prod.mk.injEq, Except.ok.injEq, and_true]
    unfold contactPoly
    ring
  refine ⟨kR, kN, _, slopeFactor s.beam.Dred s.beam.S kR kN 0 x, r1, n1, e, slopeFactor_pos hD hS kNp kRp le_rfl hx,
    overhang_held_exists s.beam hA hD hS kNp kRp le_rfl hx, fun Z hZ hf => ?_⟩
  rw [hZ.slope hA hD hS hf, s.beam_Dred]
  rfl

/-- C43, touchdown length. For every length `x` below the crack length the
function whose root is the touchdown length in stage C is, up to a negative
factor, the slope with which the slab meets the ground, where now the part
beyond the touchdown point acts as a rotational spring. -/
theorem C43_touchdown_length (num : Numerics) (s : Self) (x : ℝ) (hx : 0 < x) (hxa : x < s.a)
    (h : SpringsOk num s (s.L - s.a)) (hb : BedOk (prep num.eig true .rot s)) (hc : ShearOk (prep num.eig true .rot s)) :
    ∃ kR kN kr y c, substituteStiffness num.eig (s.L - s.a) false .rot s = (.ok kR, s) ∧
      substituteStiffness num.eig (s.L - s.a) false .trans s = (.ok kN, s) ∧
      substituteStiffness num.eig (s.a - x) true .rot s = (.ok kr, s) ∧
      polyLC num.eig (bsOf s) s.kA55 s.L s.a s.tc (calcQn s) x s = (.ok y, s) ∧ 0 < c ∧
      (∃ Z, Overhang s.beam (calcQn s) kN kR x Z ∧ HeldAt s.beam s.tc kr x Z) ∧
      ∀ Z, Overhang s.beam (calcQn s) kN kR x Z → HeldAt s.beam s.tc kr x Z → c * Z x 3 = -y := by
  obtain ⟨kR, kN, r1, n1, kRp, kNp⟩ := h.springs
  obtain ⟨kr, t1, krp⟩ := rest_spring num.eig s h.fresh hb hc (s.a - x) (by linarith)
  have hbs := bsOf_pos h.bed h.shear
  have hD : 0 < s.beam.Dred := by rw [s.beam_Dred]; exact hbs
  have hA : 0 < s.beam.A := h.bed.stiff.A11
  have hS : 0 < s.beam.S := h.bed.stiff.kA55
  have e : polyLC num.eig (bsOf s) s.kA55 s.L s.a s.tc (calcQn s) x s
      = (.ok (contactPoly (bsOf s) s.kA55 kR kN kr s.tc (calcQn s) x), s) := by
    unfold polyLC
    rw [Py.bind_of_ok r1, Py.bind_of_ok n1, Py.bind_of_ok t1]
    rfl
  refine ⟨kR, kN, kr, _, slopeFactor s.beam.Dred s.beam.S kR kN kr x, r1, n1, t1, e,
    slopeFactor_pos hD hS kNp kRp krp.le hx,
    overhang_held_exists s.beam hA hD hS kNp kRp krp.le hx, fun Z hZ hf => ?_⟩
  rw [hZ.slope hA hD hS hf, s.beam_Dred]
  rfl

/-- C43, the reported limits. Where the stage limits are bracketed, `calc_a1`
and `calc_a2` return positive lengths to which the statements above apply, so
that the deviation of the root finder from an exact root is the gap, and the
slope, that is left. -/
theorem C43_reported_limits (num : Numerics) (s : Self) (d : ℝ) (h : Bracketed num s d) :
    ∃ a1 a2, calcA1 num s = (.ok a1, s) ∧ calcA2 num s = (.ok a2, s) ∧ 0 < a1 ∧ 0 < a2 ∧
      SpringsOk num s (s.L - a1) ∧ SpringsOk num s (s.L - a2) ∧ SpringsOk num s (s.L - s.a) := by
  obtain ⟨⟨a1, h1⟩, a2, h2⟩ := calcA_runs h
  have hL : 0 < s.L := by have := h.a; have := h.aL; have := h.dpos; linarith
  have key : ∀ x, 0 ≤ x → x < s.L → SpringsOk num s (s.L - x) := fun x hx hxL =>
    ⟨h.fresh, h.bed, h.shear, h.qn, h.q0, by linarith, h.load.mono h.q0 (by linarith)⟩
  have b1 : s.L / 1000 ≤ a1 ∧ a1 ≤ 999 / 1000 * s.L := by
    have := h1
    unfold calcA1 at this
    rw [Py.get_bind] at this
    exact brentq_bracket h.runs.inside (by linarith) this
  have b2 : s.L / 1000 ≤ a2 ∧ a2 ≤ 999 / 1000 * s.L := by
    have := h2
    unfold calcA2 at this
    rw [Py.get_bind] at this
    exact brentq_bracket h.runs.inside (by linarith) this
  have p : 0 < s.L / 1000 := by positivity
  exact ⟨a1, a2, h1, h2, by linarith, by linarith, key _ (by linarith) (by linarith), key _ (by linarith) (by linarith),
    key _ h.a (by have := h.aL; have := h.dpos; linarith)⟩

/-- The touchdown PST of the profile `comp` with a column of 2 m and a cut of
30 cm: the limits are reported, and the end of the cut slab, cut at the
reported first limit, hangs by the residual away from the ground. -/
example : ∃ s : Self, s.L = 2000 ∧ s.a = 300 ∧ ∃ a1 y kN kR, calcA1 midNum s = (.ok a1, s) ∧
    polyA1 midNum.eig (bsOf s) s.kA55 s.L s.tc (calcQn s) a1 s = (.ok y, s) ∧
    ∃ Z, Overhang s.beam (calcQn s) kN kR a1 Z ∧ HangsFree s.beam a1 Z ∧ Z a1 2 - s.tc = calcQn s * y := by
  have hb := demo_bracketed 300 (by norm_num) (by norm_num)
  refine ⟨setTouchdownAttributes 2000 300 (1 / 2) 0 1000 (demo stdEig "pst-" true), rfl, rfl, ?_⟩
  obtain ⟨a1, -, h1, -, -, -, h3, -⟩ := C43_reported_limits _ _ _ hb
  obtain ⟨kR, kN, y, -, -, h4, ⟨Z, z1, z2⟩, h5⟩ := C43_first_contact _ _ _ h3
  exact ⟨a1, y, kN, kR, h1, h4, Z, z1, z2, h5 Z z1 z2⟩

end Weac
