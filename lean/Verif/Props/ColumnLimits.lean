import Verif.Lemmas.ColumnCongr
import Verif.Lemmas.TipLength
import Verif.Props.TouchdownEq
import Verif.Props.AnticrackEnds
import Verif.Props.Column

/-!
# C76: springs and stage limits of long columns
-/

namespace Weac
open Spec

/-! ## Springs -/

/-- Compliances of springs close to each other, none of them stiffer than `1 / c`. -/
theorem stiff_close {x y c e : ℝ} (hc : 0 < c) (hx : c ≤ x) (hy : c ≤ y) (h : |x - y| ≤ e) :
    |1 / x - 1 / y| ≤ e / c ^ 2 := by
  have hx0 : 0 < x := by linarith
  have hy0 : 0 < y := by linarith
  have e1 : 1 / x - 1 / y = (y - x) / (x * y) := by field_simp
  rw [e1, abs_div, abs_of_pos (mul_pos hx0 hy0), abs_sub_comm]
  have h1 : c ^ 2 ≤ x * y := by rw [pow_two]; exact mul_le_mul hx hy hc.le hx0.le
  exact div_le_div₀ ((abs_nonneg _).trans h) h (by positivity) h1

/-- C76, rotational springs. For supported pieces of length at least 1 the
spring that replaces them depends on their length by an exponentially small
amount. -/
theorem C76_rotational_spring (eig : EigSolver) (rested : Bool) (s : Self) (hf : EigFresh eig s)
    (hb : BedOk (prep eig rested .rot s)) (hc : ShearOk (prep eig rested .rot s)) :
    ∃ r K, 0 < r ∧ 0 < K ∧ ∀ L L', 1 ≤ L → L ≤ L' → ∃ k k', substituteStiffness eig L rested .rot s = (.ok k, s) ∧
      substituteStiffness eig L' rested .rot s = (.ok k', s) ∧ 0 < k ∧ 0 < k' ∧
      |1 / k - 1 / k'| ≤ K * Real.exp (-(L / r)) ∧ |k - k'| ≤ K * Real.exp (-(L / r)) := by
  have hco : (s.auxBeam rested).Coercive := by
    have := hb.stiff.coercive hc
    rwa [prep_beam] at this
  obtain ⟨r, K, c, hr, hK, hcp, h1, h2⟩ := tip_length hco
  refine ⟨r, K + K / c ^ 2, hr, by positivity, fun L L' hL hLL => ?_⟩
  obtain ⟨k, Z, r1, t1, e1⟩ := substitute_response eig L (by linarith) rested .rot (by simp) s hf hb hc
  obtain ⟨k', Z', r2, t2, e2⟩ := substitute_response eig L' (by linarith) rested .rot (by simp) s hf hb hc
  simp only [if_true] at t1 t2 e1 e2
  have g1 := h2 L Z hL t1
  have g2 := h2 L' Z' (hL.trans hLL) t2
  have d := h1 L L' 0 1 0 Z Z' hL hLL t1 t2
  have d4 := (norm_le_pi_norm (Z 0 - Z' 0) 4).trans d
  simp only [abs_zero, abs_one, add_zero, zero_add, mul_one, Pi.sub_apply, Real.norm_eq_abs] at d4
  set E := Real.exp (-(L / r))
  have hE : 0 < E := Real.exp_pos _
  have q1 : k = 1 / -Z 0 4 := by
    rw [e1, abs_of_neg (one_div_neg.mpr (by linarith)), one_div_neg_eq_neg_one_div]
  have q2 : k' = 1 / -Z' 0 4 := by
    rw [e2, abs_of_neg (one_div_neg.mpr (by linarith)), one_div_neg_eq_neg_one_div]
  have d5 : |-Z 0 4 - -Z' 0 4| ≤ K * E := by
    rw [show -Z 0 4 - -Z' 0 4 = -(Z 0 4 - Z' 0 4) by ring, abs_neg]; exact d4
  have hd : (K + K / c ^ 2) * E = K * E + K * E / c ^ 2 := by ring
  have n1 : 0 ≤ K * E / c ^ 2 := by positivity
  have n2 : 0 ≤ K * E := by positivity
  have p1 : 0 < -Z 0 4 := by linarith
  have p2 : 0 < -Z' 0 4 := by linarith
  refine ⟨k, k', r1, r2, by rw [q1]; positivity, by rw [q2]; positivity, ?_, ?_⟩
  · rw [q1, q2, one_div_one_div, one_div_one_div, hd]
    linarith
  · rw [q1, q2, hd]
    have := stiff_close hcp g1 g2 d5
    linarith

/-- C76, vertical springs. The settlement of the end under a unit force, with
the settlement under the load of the slab subtracted as in the code, depends on
the length by an exponentially small amount. -/
theorem C76_vertical_spring (eig : EigSolver) (rested : Bool) (s : Self) (hf : EigFresh eig s)
    (hb : BedOk (prep eig rested .trans s)) (hc : ShearOk (prep eig rested .trans s)) :
    ∃ r K, 0 < r ∧ 0 < K ∧ ∀ L L', 1 ≤ L → L ≤ L' → ∃ k k', substituteStiffness eig L rested .trans s = (.ok k, s) ∧
      substituteStiffness eig L' rested .trans s = (.ok k', s) ∧ |1 / k - 1 / k'| ≤ K * Real.exp (-(L / r)) := by
  have hco : (s.auxBeam rested).Coercive := by
    have := hb.stiff.coercive hc
    rwa [prep_beam] at this
  obtain ⟨r, K, c, hr, hK, hcp, h1, -⟩ := tip_length hco
  refine ⟨r, K, hr, hK, fun L L' hL hLL => ?_⟩
  obtain ⟨k, Z, r1, t1, e1⟩ := substitute_response eig L (by linarith) rested .trans (by simp) s hf hb hc
  obtain ⟨k', Z', r2, t2, e2⟩ := substitute_response eig L' (by linarith) rested .trans (by simp) s hf hb hc
  simp only [reduceCtorEq, if_false] at t1 t2 e1 e2
  have d := h1 L L' 0 0 1 Z Z' hL hLL t1 t2
  have d4 := (norm_le_pi_norm (Z 0 - Z' 0) 2).trans d
  simp only [abs_zero, abs_one, add_zero, zero_add, mul_one, Pi.sub_apply, Real.norm_eq_abs] at d4
  refine ⟨k, k', r1, r2, ?_⟩
  rw [e1, e2, abs_div, abs_div, abs_one, one_div_one_div, one_div_one_div]
  refine (abs_abs_sub_abs_le _ _).trans ?_
  rw [add_sub_add_right_eq_sub]
  exact d4

/-! ## Roots -/

section
variable {bs ss q tc A B m R W R' W' E p x : ℝ}

/-- Deflection of the free end, in terms of the compliances of the springs. -/
noncomputable def tipC (bs ss R W x : ℝ) : ℝ := 1 / (8 * bs) * x ^ 4 + R / 2 * x ^ 3 + 1 / (2 * ss) * x ^ 2 + W * x

/-- The load part of the contact polynomial. -/
noncomputable def numC (bs ss R W x : ℝ) : ℝ :=
  ss ^ 2 * x ^ 6 + 6 * ss ^ 2 * bs * R * x ^ 5 + 30 * bs * ss * x ^ 4 + 24 * bs * (2 * ss ^ 2 * W + 3 * bs * ss * R) * x ^ 3
    + 72 * bs ^ 2 * (ss ^ 2 * R * W + 1) * x ^ 2 + 144 * bs ^ 2 * ss * W * x

/-- The part of the contact polynomial that multiplies the collapse height. -/
noncomputable def denC (bs ss R x : ℝ) : ℝ := 72 * bs * ss ^ 2 * x ^ 2 + 144 * bs ^ 2 * ss ^ 2 * R * x + 144 * bs ^ 2 * ss

theorem first_close (hbs : 0 < bs) (hss : 0 < ss) (hq : 0 < q) (hR : 0 ≤ R) (hW : 0 ≤ W) (hE : 0 ≤ E) (hdR : |R - R'| ≤ E)
    (hdW : |W - W'| ≤ E) (hm : 0 < m) (hmx : m ≤ x) (hxA : x ≤ A) (hp : q * tipC bs ss R W p ≤ tc)
    (hx : tc ≤ q * tipC bs ss R' W' x) : p - x ≤ ss * (A ^ 3 + A) / m * E := by
  have hA : 0 < A := by linarith
  rcases le_or_gt p x with h | h
  · have : 0 ≤ ss * (A ^ 3 + A) / m * E := by positivity
    linarith
  have hx0 : 0 < x := by linarith
  have h1 : tipC bs ss R W p ≤ tipC bs ss R' W' x := le_of_mul_le_mul_left (hp.trans hx) hq
  have c1 : (R' - R) / 2 * x ^ 3 ≤ E * A ^ 3 := by
    have u1 : x ^ 3 ≤ A ^ 3 := pow_le_pow_left₀ hx0.le hxA 3
    have u2 : R' - R ≤ E := by have := (abs_le.1 hdR).1; linarith
    have u3 : (R' - R) / 2 * x ^ 3 ≤ E * x ^ 3 := mul_le_mul_of_nonneg_right (by linarith) (by positivity)
    exact u3.trans (mul_le_mul_of_nonneg_left u1 hE)
  have c2 : (W' - W) * x ≤ E * A := by
    have u2 : W' - W ≤ E := by have := (abs_le.1 hdW).1; linarith
    exact mul_le_mul u2 hxA hx0.le hE
  have c3 : 1 / (2 * ss) * (p ^ 2 - x ^ 2) ≤ tipC bs ss R W p - tipC bs ss R W x := by
    unfold tipC
    have v4 : 0 ≤ 1 / (8 * bs) * (p ^ 4 - x ^ 4) := mul_nonneg (by positivity)
      (sub_nonneg.2 (pow_le_pow_left₀ hx0.le h.le 4))
    have v3 : 0 ≤ R / 2 * (p ^ 3 - x ^ 3) := mul_nonneg (by positivity) (sub_nonneg.2 (pow_le_pow_left₀ hx0.le h.le 3))
    have v1 : 0 ≤ W * (p - x) := mul_nonneg hW (by linarith)
    linarith
  have c4 : tipC bs ss R' W' x - tipC bs ss R W x = (R' - R) / 2 * x ^ 3 + (W' - W) * x := by unfold tipC; ring
  have c5 : 1 / (2 * ss) * (p ^ 2 - x ^ 2) ≤ E * A ^ 3 + E * A := by linarith
  have c6 : 1 / (2 * ss) * ((p - x) * (2 * m)) ≤ 1 / (2 * ss) * (p ^ 2 - x ^ 2) := by
    refine mul_le_mul_of_nonneg_left ?_ (by positivity)
    nlinarith
  have c7 : 1 / (2 * ss) * ((p - x) * (2 * m)) = (p - x) * (m / ss) := by field_simp
  have c8 : (p - x) * (m / ss) ≤ E * A ^ 3 + E * A := by rw [← c7]; linarith
  have c9 : ss * (A ^ 3 + A) / m * E = (E * A ^ 3 + E * A) / (m / ss) := by field_simp
  rw [c9, le_div_iff₀ (by positivity)]
  exact c8

/-- The quotient of the two parts increases. -/
theorem ratio_gap (hbs : 0 < bs) (hss : 0 < ss) (hR : 0 ≤ R) (hW : 0 ≤ W) (hx : 0 < x) (h : x ≤ p) :
    10368 * bs ^ 4 * ss * (p + x) * (p - x) ≤ numC bs ss R W p * denC bs ss R x - numC bs ss R W x * denC bs ss R p := by
  obtain ⟨t, rfl⟩ : ∃ t, p = x + t := ⟨p - x, by ring⟩
  have ht : 0 ≤ t := by linarith
  have e : 0 ≤ numC bs ss R W (x + t) * denC bs ss R x - numC bs ss R W x * denC bs ss R (x + t)
      - 10368 * bs ^ 4 * ss * (x + t + x) * (x + t - x) := by
    unfold numC denC
    ring_nf
    positivity
  linarith

/-- Change of the contact polynomial with the compliances. -/
noncomputable def changeC (bs ss q tc B A : ℝ) : ℝ :=
  q * (6 * ss ^ 2 * bs * A ^ 5 + 24 * bs * (2 * ss ^ 2 + 3 * bs * ss) * A ^ 3 + 144 * bs ^ 2 * ss ^ 2 * B * A ^ 2 + 144 * bs ^ 2 * ss * A)
    + tc * (144 * bs ^ 2 * ss ^ 2 * A)

theorem contact_change (hbs : 0 < bs) (hss : 0 < ss) (hq : 0 < q) (htc : 0 ≤ tc) (hE : 0 ≤ E) (hR : 0 ≤ R) (hRB : R ≤ B)
    (hW' : 0 ≤ W') (hWB' : W' ≤ B) (hdR : |R - R'| ≤ E) (hdW : |W - W'| ≤ E) (hx0 : 0 < x) (hxA : x ≤ A) :
    (q * numC bs ss R' W' x - tc * denC bs ss R' x) - (q * numC bs ss R W x - tc * denC bs ss R x)
      ≤ changeC bs ss q tc B A * E := by
  have hA : 0 < A := by linarith
  have hB : 0 ≤ B := hR.trans hRB
  have dR : R' - R ≤ E := by have := (abs_le.1 hdR).1; linarith
  have dR2 : R - R' ≤ E := by have := (abs_le.1 hdR).2; linarith
  have dW : W' - W ≤ E := by have := (abs_le.1 hdW).1; linarith
  have dRW : R' * W' - R * W ≤ 2 * B * E := by
    have e : R' * W' - R * W = (R' - R) * W' + R * (W' - W) := by ring
    have u1 : (R' - R) * W' ≤ E * B := mul_le_mul dR hWB' hW' hE
    have u2 : R * (W' - W) ≤ B * E := (mul_le_mul_of_nonneg_left dW hR).trans (mul_le_mul_of_nonneg_right hRB hE)
    linarith
  have pw : ∀ n : ℕ, x ^ n ≤ A ^ n := fun n => pow_le_pow_left₀ hx0.le hxA n
  have t5 : 6 * ss ^ 2 * bs * (R' - R) * x ^ 5 ≤ 6 * ss ^ 2 * bs * E * A ^ 5 := by
    have u : 6 * ss ^ 2 * bs * (R' - R) * x ^ 5 ≤ 6 * ss ^ 2 * bs * E * x ^ 5 := by gcongr
    exact u.trans (mul_le_mul_of_nonneg_left (pw 5) (by positivity))
  have t3 : 24 * bs * (2 * ss ^ 2 * (W' - W) + 3 * bs * ss * (R' - R)) * x ^ 3
      ≤ 24 * bs * (2 * ss ^ 2 * E + 3 * bs * ss * E) * A ^ 3 := by
    have u : 24 * bs * (2 * ss ^ 2 * (W' - W) + 3 * bs * ss * (R' - R)) * x ^ 3
      ≤ 24 * bs * (2 * ss ^ 2 * E + 3 * bs * ss * E) * x ^ 3 := by gcongr
    exact u.trans (mul_le_mul_of_nonneg_left (pw 3) (by positivity))
  have t2 : 72 * bs ^ 2 * ss ^ 2 * (R' * W' - R * W) * x ^ 2 ≤ 72 * bs ^ 2 * ss ^ 2 * (2 * B * E) * A ^ 2 := by
    have u : 72 * bs ^ 2 * ss ^ 2 * (R' * W' - R * W) * x ^ 2 ≤ 72 * bs ^ 2 * ss ^ 2 * (2 * B * E) * x ^ 2 := by gcongr
    exact u.trans (mul_le_mul_of_nonneg_left (pw 2) (by positivity))
  have t1 : 144 * bs ^ 2 * ss * (W' - W) * x ≤ 144 * bs ^ 2 * ss * E * A := by
    have u : 144 * bs ^ 2 * ss * (W' - W) * x ≤ 144 * bs ^ 2 * ss * E * x := by gcongr
    exact u.trans (mul_le_mul_of_nonneg_left hxA (by positivity))
  have d1 : 144 * bs ^ 2 * ss ^ 2 * (R - R') * x ≤ 144 * bs ^ 2 * ss ^ 2 * E * A := by
    have u : 144 * bs ^ 2 * ss ^ 2 * (R - R') * x ≤ 144 * bs ^ 2 * ss ^ 2 * E * x := by gcongr
    exact u.trans (mul_le_mul_of_nonneg_left hxA (by positivity))
  have n1 : q * (numC bs ss R' W' x - numC bs ss R W x) ≤ q * (6 * ss ^ 2 * bs * E * A ^ 5
      + 24 * bs * (2 * ss ^ 2 * E + 3 * bs * ss * E) * A ^ 3 + 72 * bs ^ 2 * ss ^ 2 * (2 * B * E) * A ^ 2
      + 144 * bs ^ 2 * ss * E * A) := by
    refine mul_le_mul_of_nonneg_left ?_ hq.le
    unfold numC
    linarith
  have n2 : tc * (denC bs ss R x - denC bs ss R' x) ≤ tc * (144 * bs ^ 2 * ss ^ 2 * E * A) := by
    refine mul_le_mul_of_nonneg_left ?_ htc
    unfold denC
    linarith
  unfold changeC
  linarith

theorem second_close (hbs : 0 < bs) (hss : 0 < ss) (hq : 0 < q) (htc : 0 ≤ tc) (hE : 0 ≤ E) (hR : 0 ≤ R) (hRB : R ≤ B)
    (hW : 0 ≤ W) (hW' : 0 ≤ W') (hWB' : W' ≤ B) (hdR : |R - R'| ≤ E) (hdW : |W - W'| ≤ E) (hm : 0 < m) (hmx : m ≤ x)
    (hpA : p ≤ A) (hxA : x ≤ A) (hp : q * numC bs ss R W p ≤ tc * denC bs ss R p)
    (hx : tc * denC bs ss R' x ≤ q * numC bs ss R' W' x) :
    p - x ≤ changeC bs ss q tc B A * denC bs ss B A / (20736 * bs ^ 4 * ss * q * m) * E := by
  have hx0 : 0 < x := by linarith
  have hA : 0 < A := by linarith
  have hB : 0 ≤ B := hR.trans hRB
  have hch : 0 ≤ changeC bs ss q tc B A := by unfold changeC; positivity
  have hdn : 0 ≤ denC bs ss B A := by unfold denC; positivity
  rcases le_or_gt p x with h | h
  · have : 0 ≤ changeC bs ss q tc B A * denC bs ss B A / (20736 * bs ^ 4 * ss * q * m) * E := by positivity
    linarith
  have g := ratio_gap hbs hss hR hW hx0 h.le
  have c := contact_change hbs hss hq htc hE hR hRB hW' hWB' hdR hdW hx0 hxA
  set e := changeC bs ss q tc B A * E with he
  have he0 : 0 ≤ e := by positivity
  have d1 : 0 ≤ denC bs ss R x := by unfold denC; positivity
  have hp0 : 0 < p := by linarith
  have d2 : 0 ≤ denC bs ss R p := by unfold denC; positivity
  have d3 : denC bs ss R p ≤ denC bs ss B A := by
    unfold denC
    have : p ^ 2 ≤ A ^ 2 := pow_le_pow_left₀ hp0.le hpA 2
    gcongr
  have k1 : q * numC bs ss R W p * denC bs ss R x ≤ tc * denC bs ss R p * denC bs ss R x := mul_le_mul_of_nonneg_right hp d1
  have k2 : (tc * denC bs ss R x - e) * denC bs ss R p ≤ q * numC bs ss R W x * denC bs ss R p :=
    mul_le_mul_of_nonneg_right (by linarith) d2
  have k3 : q * (numC bs ss R W p * denC bs ss R x - numC bs ss R W x * denC bs ss R p) ≤ e * denC bs ss B A := by
    have := mul_le_mul_of_nonneg_left d3 he0
    linarith
  have k4 : q * (10368 * bs ^ 4 * ss * (2 * m) * (p - x)) ≤ q * (10368 * bs ^ 4 * ss * (p + x) * (p - x)) := by
    have : 2 * m ≤ p + x := by linarith
    have : 0 ≤ p - x := by linarith
    gcongr
  have k5 := mul_le_mul_of_nonneg_left g hq.le
  have k6 : (p - x) * (20736 * bs ^ 4 * ss * q * m) ≤ e * denC bs ss B A := by linarith
  have k7 : changeC bs ss q tc B A * denC bs ss B A / (20736 * bs ^ 4 * ss * q * m) * E
      = e * denC bs ss B A / (20736 * bs ^ 4 * ss * q * m) := by rw [he]; ring
  rw [k7, le_div_iff₀ (by positivity)]
  exact k6

/-- Where the free end has reached the ground, the overhang is not short. -/
theorem reach_ge (hbs : 0 < bs) (hss : 0 < ss) (hq : 0 < q) (hRB : R ≤ B) (hWB : W ≤ B) (hB : 0 ≤ B)
    (hx0 : 0 < x) (hxA : x ≤ A) (hx : tc ≤ q * tipC bs ss R W x) :
    tc / (q * (1 / (8 * bs) * A ^ 3 + B / 2 * A ^ 2 + 1 / (2 * ss) * A + B + 1)) ≤ x := by
  have hA : 0 < A := by linarith
  have pw : ∀ n : ℕ, x ^ n ≤ A ^ n := fun n => pow_le_pow_left₀ hx0.le hxA n
  have t : tipC bs ss R W x ≤ x * (1 / (8 * bs) * A ^ 3 + B / 2 * A ^ 2 + 1 / (2 * ss) * A + B + 1) := by
    unfold tipC
    have u4 : 1 / (8 * bs) * x ^ 4 ≤ x * (1 / (8 * bs) * A ^ 3) := by
      have := mul_le_mul_of_nonneg_left (pw 3) (by positivity : 0 ≤ x * (1 / (8 * bs)))
      nlinarith
    have u3 : R / 2 * x ^ 3 ≤ x * (B / 2 * A ^ 2) := by
      have v := mul_le_mul_of_nonneg_left (pw 2) (by positivity : 0 ≤ x * (B / 2))
      have v2 : R / 2 * x ^ 3 ≤ B / 2 * x ^ 3 := by gcongr
      nlinarith
    have u2 : 1 / (2 * ss) * x ^ 2 ≤ x * (1 / (2 * ss) * A) := by
      have := mul_le_mul_of_nonneg_left hxA (by positivity : 0 ≤ x * (1 / (2 * ss)))
      nlinarith
    have u1 : W * x ≤ x * B := by nlinarith
    nlinarith
  rw [div_le_iff₀ (by positivity)]
  have := mul_le_mul_of_nonneg_left t hq.le
  linarith

/-- The first limit: what the sign of its function means. -/
theorem tip_tipC {kR kN : ℝ} : tipDeflection bs ss kR kN x = tipC bs ss (1 / kR) (1 / kN) x := by
  unfold tipDeflection tipC
  rw [show 1 / (2 * kR) = 1 / kR / 2 by rw [div_div, mul_comm]]

/-- The second limit in terms of compliances. -/
theorem contact_numC {kR kN : ℝ} (hR : 0 < kR) (hN : 0 < kN) :
    contactPoly bs ss kR kN 0 tc q x = kR * kN * (q * numC bs ss (1 / kR) (1 / kN) x - tc * denC bs ss (1 / kR) x) := by
  unfold contactPoly numC denC
  field_simp
  ring

end

/-! ## The root finder -/

/-- A root finder of the accuracy `δ` returns a length within `δ` of which the
function is both not positive and not negative. -/
theorem brent_sides {num : Numerics} {W δ : ℝ} (h : BrentFinds num W δ) (hδ : 0 ≤ δ) {f : ℝ → Py ℝ} {a b r : ℝ} {s : Self}
    (hab : a < b) (hW : b - a ≤ W) (hf : ∀ x, a ≤ x → x ≤ b → ∃ y, f x s = (.ok y, s)) (hr : brentq num f a b s = (.ok r, s)) :
    ∃ p q yp yq, a ≤ p ∧ p ≤ b ∧ a ≤ q ∧ q ≤ b ∧ f p s = (.ok yp, s) ∧ f q s = (.ok yq, s) ∧ yp ≤ 0 ∧ 0 ≤ yq ∧
      |p - r| ≤ δ ∧ |q - r| ≤ δ := by
  choose! F hF using hf
  have fa := hF a le_rfl hab.le
  have fb := hF b hab.le le_rfl
  by_cases h1 : F a = 0
  · have e : r = a := by
      unfold brentq at hr
      rw [Py.bind_of_ok fa, Py.bind_of_ok fb, if_pos h1] at hr
      simp only [Py.pure_apply, Prod.mk.injEq, Except.ok.injEq, and_true] at hr
      exact hr.symm
    exact ⟨a, a, _, _, le_rfl, hab.le, le_rfl, hab.le, fa, fa, h1.le, h1.ge, by rw [e]; simpa using hδ, by rw [e]; simpa using hδ⟩
  by_cases h2 : F b = 0
  · have e : r = b := by
      unfold brentq at hr
      rw [Py.bind_of_ok fa, Py.bind_of_ok fb, if_neg h1, if_pos h2] at hr
      simp only [Py.pure_apply, Prod.mk.injEq, Except.ok.injEq, and_true] at hr
      exact hr.symm
    exact ⟨b, b, _, _, hab.le, le_rfl, hab.le, le_rfl, fb, fb, h2.le, h2.ge, by rw [e]; simpa using hδ, by rw [e]; simpa using hδ⟩
  have h3 : F a * F b < 0 := by
    rcases lt_trichotomy (F a * F b) 0 with h | h | h
    · exact h
    · rcases mul_eq_zero.1 h with h | h
      · exact absurd h h1
      · exact absurd h h2
    · exfalso
      unfold brentq at hr
      rw [Py.bind_of_ok fa, Py.bind_of_ok fb, if_neg h1, if_neg h2, if_pos h] at hr
      simp [Py.raise] at hr
  obtain ⟨r', hr', -, -, p, q, p1, p2, q1, q2, hpq, dp, dq⟩ := h f F a b s hab hW hF h3
  have e : r' = r := by
    rw [hr] at hr'
    simp only [Prod.mk.injEq, Except.ok.injEq, and_true] at hr'
    exact hr'.symm
  rw [e] at dp dq
  rcases le_or_gt (F p) 0 with h | h
  · rcases le_or_gt 0 (F q) with h' | h'
    · exact ⟨p, q, _, _, p1, p2, q1, q2, hF p p1 p2, hF q q1 q2, h, h', dp, dq⟩
    · have : F p = 0 := le_antisymm h (by nlinarith)
      exact ⟨p, p, _, _, p1, p2, p1, p2, hF p p1 p2, hF p p1 p2, h, this.ge, dp, dp⟩
  · have : F q ≤ 0 := by nlinarith
    exact ⟨q, p, _, _, q1, q2, p1, p2, hF q q1 q2, hF p p1 p2, this, h.le, dq, dp⟩

/-! ## Limits -/

/-- Column of which the touchdown stages are asked: parameters in range, a
load across the slope, a collapse height, and a weight that settles the slab
less than a unit force does its end. -/
structure Spec.LongColumn (eig : EigSolver) (s : Self) : Prop where
  fresh : EigFresh eig s
  bed : BedOk s
  shear : ShearOk s
  qn : 0 < calcQn s
  q0 : 0 ≤ (s.loads 0).qn + (s.loads 0).pn
  light : ∃ r, 0 < r ∧ ((s.loads 0).qn + (s.loads 0).pn) * s.beam.decay r < s.beam.kn
  tc : 0 < s.tc

theorem sub_column {eig : EigSolver} {s : Self} (hf : EigFresh eig s) {l k : ℝ} {rested : Bool} {dof : Dof} (hd : dof ≠ .other)
    (h : substituteStiffness eig l rested dof s = (.ok k, s)) (L : ℝ) :
    substituteStiffness eig l rested dof (s.column L) = (.ok k, s.column L) := by
  have hs := sub_same eig s hf l rested dof hd s.system s.mode L s.a s.tc s.td s.phi
  exact hs.run h

/-- Springs at the crack tip as functions of the length of the supported part. -/
structure TipSprings (eig : EigSolver) (s : Self) (r K B : ℝ) (kR kN : ℝ → ℝ) : Prop where
  rot : ∀ l, 0 < l → substituteStiffness eig l false .rot s = (.ok (kR l), s)
  trans : ∀ l, 0 < l → substituteStiffness eig l false .trans s = (.ok (kN l), s)
  rotPos : ∀ l, 0 < l → 0 < kR l
  transPos : ∀ l, 0 < l → 0 < kN l
  rotLe : ∀ l, 1 ≤ l → 1 / kR l ≤ B
  transLe : ∀ l, 1 ≤ l → 1 / kN l ≤ B
  rotNear : ∀ l m m', 1 ≤ l → l ≤ m → l ≤ m' → |1 / kR m - 1 / kR m'| ≤ K * Real.exp (-(l / r))
  transNear : ∀ l m m', 1 ≤ l → l ≤ m → l ≤ m' → |1 / kN m - 1 / kN m'| ≤ K * Real.exp (-(l / r))

theorem tip_springs {eig : EigSolver} {s : Self} (h : LongColumn eig s) :
    ∃ r K B kR kN, 0 < r ∧ 0 < K ∧ 0 < B ∧ TipSprings eig s r K B kR kN := by
  have hb1 : BedOk (prep eig false .rot s) := h.bed.stage "rot" s.mode s.L s.a s.tc s.td s.phi s.ratio
  have hc1 : ShearOk (prep eig false .rot s) := h.shear.stage "rot" s.mode s.L s.a s.tc s.td s.phi s.ratio
  have hb2 : BedOk (prep eig false .trans s) := h.bed.stage "trans" s.mode s.L s.a s.tc s.td s.phi s.ratio
  have hc2 : ShearOk (prep eig false .trans s) := h.shear.stage "trans" s.mode s.L s.a s.tc s.td s.phi s.ratio
  have e1 : ∀ l, 0 < l → ∃ k, substituteStiffness eig l false .rot s = (.ok k, s) ∧ 0 < k ∧
      ∀ d, 0 < d → d ≤ l → 1 / k ≤ rotBound s.beam d := fun l hl => rot_spring eig s h.fresh h.bed h.shear l hl
  have e2 : ∀ l, 0 < l → ∃ k, substituteStiffness eig l false .trans s = (.ok k, s) ∧ 0 < k ∧
      ∀ d, 0 < d → d ≤ l → 1 / k ≤ deflBound s.beam d :=
    fun l hl => trans_spring eig s h.fresh h.bed h.shear l hl h.q0 (.inr h.light)
  choose! kR a1 a2 a3 using e1
  choose! kN b1 b2 b3 using e2
  obtain ⟨r1, K1, hr1, hK1, c1⟩ := C76_rotational_spring eig false s h.fresh hb1 hc1
  obtain ⟨r2, K2, hr2, hK2, c2⟩ := C76_vertical_spring eig false s h.fresh hb2 hc2
  have hr : 0 < max r1 r2 := lt_max_of_lt_left hr1
  have dec : ∀ (K r l : ℝ), 0 < K → 0 < r → r ≤ max r1 r2 → 0 ≤ l → K ≤ K1 + K2 → ∀ m, l ≤ m →
      K * Real.exp (-(m / r)) ≤ (K1 + K2) * Real.exp (-(l / max r1 r2)) := by
    intro K r l hK hr0 hrm hl hKK m hm
    refine mul_le_mul hKK (Real.exp_le_exp.2 (neg_le_neg ?_)) (Real.exp_pos _).le (by positivity)
    exact div_le_div₀ (by linarith) hm hr0 hrm
  have n1 : ∀ l m m', 1 ≤ l → l ≤ m → m ≤ m' → |1 / kR m - 1 / kR m'| ≤ (K1 + K2) * Real.exp (-(l / max r1 r2)) := by
    intro l m m' hl hm hmm
    obtain ⟨k, k', g1, g2, -, -, g3, -⟩ := c1 m m' (by linarith) hmm
    rw [a1 m (by linarith)] at g1
    rw [a1 m' (by linarith)] at g2
    simp only [Prod.mk.injEq, Except.ok.injEq, and_true] at g1 g2
    rw [g1, g2]
    exact g3.trans (dec K1 r1 l hK1 hr1 (le_max_left _ _) (by linarith) (by linarith) m hm)
  have n2 : ∀ l m m', 1 ≤ l → l ≤ m → m ≤ m' → |1 / kN m - 1 / kN m'| ≤ (K1 + K2) * Real.exp (-(l / max r1 r2)) := by
    intro l m m' hl hm hmm
    obtain ⟨k, k', g1, g2, g3⟩ := c2 m m' (by linarith) hmm
    rw [b1 m (by linarith)] at g1
    rw [b1 m' (by linarith)] at g2
    simp only [Prod.mk.injEq, Except.ok.injEq, and_true] at g1 g2
    rw [g1, g2]
    exact g3.trans (dec K2 r2 l hK2 hr2 (le_max_right _ _) (by linarith) (by linarith) m hm)
  have p1 : 0 < rotBound s.beam 1 := lt_of_lt_of_le (one_div_pos.2 (a2 1 one_pos)) (a3 1 one_pos 1 one_pos le_rfl)
  have p2 : 0 < deflBound s.beam 1 := lt_of_lt_of_le (one_div_pos.2 (b2 1 one_pos)) (b3 1 one_pos 1 one_pos le_rfl)
  refine ⟨max r1 r2, K1 + K2, rotBound s.beam 1 + deflBound s.beam 1, kR, kN, hr, by positivity, by positivity,
    a1, b1, a2, b2, fun l hl => ?_, fun l hl => ?_, fun l m m' hl hm hm' => ?_, fun l m m' hl hm hm' => ?_⟩
  · have := a3 l (by linarith) 1 one_pos hl; linarith
  · have := b3 l (by linarith) 1 one_pos hl; linarith
  · rcases le_total m m' with g | g
    · exact n1 l m m' hl hm g
    · rw [abs_sub_comm]; exact n1 l m' m hl hm' g
  · rcases le_total m m' with g | g
    · exact n2 l m m' hl hm g
    · rw [abs_sub_comm]; exact n2 l m' m hl hm' g

section
variable {eig : EigSolver} {s : Self} {r K B : ℝ} {kR kN : ℝ → ℝ}

theorem polyA1_column (h : LongColumn eig s) (ht : TipSprings eig s r K B kR kN) {L x : ℝ} (hx : x < L) :
    polyA1 eig (bsOf s) s.kA55 L s.tc (calcQn s) x (s.column L)
      = (.ok (tipC (bsOf s) s.kA55 (1 / kR (L - x)) (1 / kN (L - x)) x + -s.tc / calcQn s), s.column L) := by
  unfold polyA1
  rw [Py.bind_of_ok (sub_column h.fresh (by simp) (ht.rot _ (by linarith)) L),
    Py.bind_of_ok (sub_column h.fresh (by simp) (ht.trans _ (by linarith)) L), ← tip_tipC]
  rfl

theorem polyA2_column (h : LongColumn eig s) (ht : TipSprings eig s r K B kR kN) {L x : ℝ} (hx : x < L) :
    polyA2 eig (bsOf s) s.kA55 L s.tc (calcQn s) x (s.column L)
      = (.ok (kR (L - x) * kN (L - x) * (calcQn s * numC (bsOf s) s.kA55 (1 / kR (L - x)) (1 / kN (L - x)) x
          - s.tc * denC (bsOf s) s.kA55 (1 / kR (L - x)) x)), s.column L) := by
  unfold polyA2
  rw [Py.bind_of_ok (sub_column h.fresh (by simp) (ht.rot _ (by linarith)) L),
    Py.bind_of_ok (sub_column h.fresh (by simp) (ht.trans _ (by linarith)) L),
    ← contact_numC (ht.rotPos _ (by linarith)) (ht.transPos _ (by linarith))]
  simp only [Py.pure_apply, Prod.mk.injEq, Except.ok.injEq, and_true]
  unfold contactPoly
  ring

end

/-- C76, stage limits. Two columns that differ in their length only have, up to
the accuracy `δ` of the root finder, the same crack lengths of first and of full
contact if the shorter one is long: the difference is exponentially small. -/
theorem C76_limits {eig : EigSolver} {s : Self} (h : LongColumn eig s) {A : ℝ} (hA1 : 1 ≤ A)
    (hA : 72 * bsOf s * s.tc ≤ calcQn s * A ^ 4) :
    ∃ r K, 0 < r ∧ 0 < K ∧ ∀ (num : Numerics) (δ L L' : ℝ), num.eig = eig → 0 ≤ δ → A + 1 ≤ L → L ≤ L' →
      BrentFinds num L' δ →
      (∀ a a', calcA1 num (s.column L) = (.ok a, s.column L) → calcA1 num (s.column L') = (.ok a', s.column L') →
        |a - a'| ≤ 2 * δ + K * Real.exp (-(L / r))) ∧
      ∀ a a', calcA2 num (s.column L) = (.ok a, s.column L) → calcA2 num (s.column L') = (.ok a', s.column L') →
        |a - a'| ≤ 2 * δ + K * Real.exp (-(L / r)) := by
  obtain ⟨r, K, B, kR, kN, hr, hK, hB, ht⟩ := tip_springs h
  have hbs := bsOf_pos h.bed h.shear
  have hss : 0 < s.kA55 := h.bed.stiff.kA55
  have hq := h.qn
  have htc := h.tc
  set bs := bsOf s with hbsd
  set ss := s.kA55 with hssd
  set q := calcQn s with hqd
  set tc := s.tc with htcd
  have hAq : ∀ p, A < p → 72 * bs * tc < q * p ^ 4 := by
    intro p hp
    have h2 : A ^ 4 < p ^ 4 := pow_lt_pow_left₀ hp (by linarith) (by norm_num)
    have := mul_lt_mul_of_pos_left h2 hq
    linarith
  set m := tc / (q * (1 / (8 * bs) * A ^ 3 + B / 2 * A ^ 2 + 1 / (2 * ss) * A + B + 1)) with hm
  have hm0 : 0 < m := by positivity
  set K1 := ss * (A ^ 3 + A) / m with hK1
  set K2 := changeC bs ss q tc B A * denC bs ss B A / (20736 * bs ^ 4 * ss * q * m) with hK2
  have hK10 : 0 ≤ K1 := by positivity
  have hK20 : 0 ≤ K2 := by
    have : 0 ≤ changeC bs ss q tc B A := by unfold changeC; positivity
    have : 0 ≤ denC bs ss B A := by unfold denC; positivity
    positivity
  have upper1 : ∀ (R W p : ℝ), 0 ≤ R → 0 ≤ W → 0 < p → q * tipC bs ss R W p ≤ tc → p ≤ A := by
    intro R W p hR hW hp hle
    by_contra hn
    push Not at hn
    have h1 := hAq p hn
    have h2 : 1 / (8 * bs) * p ^ 4 ≤ tipC bs ss R W p := by
      unfold tipC
      have : 0 ≤ R / 2 * p ^ 3 + 1 / (2 * ss) * p ^ 2 + W * p := by positivity
      linarith
    have h3 := mul_le_mul_of_nonneg_left h2 hq.le
    have h4 : q * p ^ 4 ≤ 8 * bs * tc := by
      have e : q * (1 / (8 * bs) * p ^ 4) = q * p ^ 4 / (8 * bs) := by ring
      rw [e] at h3
      have := h3.trans hle
      rw [div_le_iff₀ (by positivity)] at this
      linarith
    have : 0 < bs * tc := by positivity
    linarith
  have low2 : ∀ kr kn p : ℝ, 0 < kr → 0 < kn → 0 < p → tc * denC bs ss (1 / kr) p ≤ q * numC bs ss (1 / kr) (1 / kn) p →
      tc ≤ q * tipC bs ss (1 / kr) (1 / kn) p := by
    intro kr kn p h1 h2 hp hle
    by_contra hn
    push Not at hn
    rw [← tip_tipC] at hn
    have h3 := polyA2_neg hbs hss h1 h2 hq hp hn.le
    have h4 := contact_numC (bs := bs) (ss := ss) (tc := tc) (q := q) (x := p) h1 h2
    have h5 : 0 ≤ contactPoly bs ss kr kn 0 tc q p := by
      rw [h4]; exact mul_nonneg (by positivity) (by linarith)
    unfold contactPoly at h5
    linarith
  have upper2 : ∀ kr kn p : ℝ, 0 < kr → 0 < kn → 0 < p → q * numC bs ss (1 / kr) (1 / kn) p ≤ tc * denC bs ss (1 / kr) p → p ≤ A := by
    intro kr kn p h1 h2 hp hle
    by_contra hn
    push Not at hn
    have h3 := polyA2_pos hbs hss h1 h2 hq hp (hAq p hn).le
    have h4 := contact_numC (bs := bs) (ss := ss) (tc := tc) (q := q) (x := p) h1 h2
    have h5 : contactPoly bs ss kr kn 0 tc q p ≤ 0 := by
      rw [h4]; exact mul_nonpos_of_nonneg_of_nonpos (by positivity) (by linarith)
    unfold contactPoly at h5
    linarith
  -- signs of the two functions, and what follows from opposite ones
  have side1 : ∀ L M M' p x, A + 1 ≤ L → L ≤ M → L ≤ M' → 0 < p → p < M → 0 < x → x < M' →
      q * tipC bs ss (1 / kR (M - p)) (1 / kN (M - p)) p ≤ tc → tc ≤ q * tipC bs ss (1 / kR (M' - x)) (1 / kN (M' - x)) x →
      p - x ≤ K1 * (K * Real.exp (-((L - A) / r))) := by
    intro L M M' p x hL hM hM' hp0 hpM hx0 hxM hp hx
    have r1 := one_div_pos.2 (ht.rotPos (M - p) (by linarith))
    have r2 := one_div_pos.2 (ht.transPos (M - p) (by linarith))
    have hpA := upper1 _ _ p r1.le r2.le hp0 hp
    have hE : 0 ≤ K * Real.exp (-((L - A) / r)) := by positivity
    rcases le_or_gt x A with hxA | hxA
    swap
    · have : 0 ≤ K1 * (K * Real.exp (-((L - A) / r))) := by positivity
      linarith
    have l1 := ht.rotLe (M' - x) (by linarith)
    have l2 := ht.transLe (M' - x) (by linarith)
    exact first_close hbs hss hq r1.le r2.le hE (ht.rotNear (L - A) _ _ (by linarith) (by linarith) (by linarith))
      (ht.transNear (L - A) _ _ (by linarith) (by linarith) (by linarith)) hm0
      (reach_ge hbs hss hq l1 l2 hB.le hx0 hxA hx) hxA hp hx
  have side2 : ∀ L M M' p x, A + 1 ≤ L → L ≤ M → L ≤ M' → 0 < p → p < M → 0 < x → x < M' →
      q * numC bs ss (1 / kR (M - p)) (1 / kN (M - p)) p ≤ tc * denC bs ss (1 / kR (M - p)) p →
      tc * denC bs ss (1 / kR (M' - x)) x ≤ q * numC bs ss (1 / kR (M' - x)) (1 / kN (M' - x)) x →
      p - x ≤ K2 * (K * Real.exp (-((L - A) / r))) := by
    intro L M M' p x hL hM hM' hp0 hpM hx0 hxM hp hx
    have s1 := ht.rotPos (M - p) (by linarith)
    have s2 := ht.transPos (M - p) (by linarith)
    have s3 := ht.rotPos (M' - x) (by linarith)
    have s4 := ht.transPos (M' - x) (by linarith)
    have hpA := upper2 _ _ p s1 s2 hp0 hp
    have hE : 0 ≤ K * Real.exp (-((L - A) / r)) := by positivity
    rcases le_or_gt x A with hxA | hxA
    swap
    · have : 0 ≤ K2 * (K * Real.exp (-((L - A) / r))) := by positivity
      linarith
    have l1 := ht.rotLe (M' - x) (by linarith)
    have l2 := ht.transLe (M' - x) (by linarith)
    have l3 := ht.rotLe (M - p) (by linarith)
    have hreach := reach_ge hbs hss hq l1 l2 hB.le hx0 hxA (low2 _ _ x s3 s4 hx0 hx)
    exact second_close hbs hss hq htc.le hE (one_div_pos.2 s1).le l3 (one_div_pos.2 s2).le (one_div_pos.2 s4).le l2
      (ht.rotNear (L - A) _ _ (by linarith) (by linarith) (by linarith))
      (ht.transNear (L - A) _ _ (by linarith) (by linarith) (by linarith)) hm0 hreach hpA hxA hp hx
  refine ⟨r, (K1 + K2 + 1) * K * Real.exp (A / r), hr, by positivity, ?_⟩
  intro num δ L L' he hδ hL hLL hfind
  have hfindL : BrentFinds num L δ := fun f F a b s hab hW => hfind f F a b s hab (hW.trans hLL)
  have hexp : K * Real.exp (-((L - A) / r)) = K * Real.exp (A / r) * Real.exp (-(L / r)) := by
    rw [mul_assoc, ← Real.exp_add]
    congr 2
    ring
  have hle : ∀ k, 0 ≤ k → k ≤ K1 + K2 + 1 → k * (K * Real.exp (-((L - A) / r)))
      ≤ (K1 + K2 + 1) * K * Real.exp (A / r) * Real.exp (-(L / r)) := by
    intro k hk0 hk
    rw [hexp]
    have : 0 ≤ K * Real.exp (A / r) * Real.exp (-(L / r)) := by positivity
    have := mul_le_mul_of_nonneg_right hk this
    linarith
  -- what a returned limit tells
  have run1 : ∀ M a, L ≤ M → M ≤ L' → calcA1 num (s.column M) = (.ok a, s.column M) → ∃ p x, 0 < p ∧ p < M ∧ 0 < x ∧ x < M ∧
      q * tipC bs ss (1 / kR (M - p)) (1 / kN (M - p)) p ≤ tc ∧ tc ≤ q * tipC bs ss (1 / kR (M - x)) (1 / kN (M - x)) x ∧
      |p - a| ≤ δ ∧ |x - a| ≤ δ := by
    intro M a hLM hML hrun
    unfold calcA1 at hrun
    rw [Py.get_bind, he] at hrun
    change brentq num (polyA1 eig bs ss M tc q) (M / 1000) (999 / 1000 * M) (s.column M) = _ at hrun
    have hM : 0 < M := by linarith
    have hfM : BrentFinds num M δ := fun f F a b s hab hW => hfind f F a b s hab (hW.trans hML)
    obtain ⟨p, x, yp, yx, p1, p2, x1, x2, fp, fx, sp, sx, dp, dx⟩ := brent_sides hfM hδ (by linarith) (by linarith)
      (fun x h1 h2 => ⟨_, polyA1_column h ht (by linarith : x < M)⟩) hrun
    have hp0 : 0 < p := by linarith
    have hx0 : 0 < x := by linarith
    rw [polyA1_column h ht (by linarith : p < M)] at fp
    rw [polyA1_column h ht (by linarith : x < M)] at fx
    simp only [Prod.mk.injEq, Except.ok.injEq, and_true] at fp fx
    refine ⟨p, x, hp0, by linarith, hx0, by linarith, ?_, ?_, dp, dx⟩
    · rw [← fp] at sp
      have e : tipC bs ss (1 / kR (M - p)) (1 / kN (M - p)) p ≤ tc / q := by
        have : -tc / q = -(tc / q) := by ring
        rw [this] at sp
        linarith
      rw [le_div_iff₀ hq] at e
      linarith
    · rw [← fx] at sx
      have e : tc / q ≤ tipC bs ss (1 / kR (M - x)) (1 / kN (M - x)) x := by
        have : -tc / q = -(tc / q) := by ring
        rw [this] at sx
        linarith
      rw [div_le_iff₀ hq] at e
      linarith
  have run2 : ∀ M a, L ≤ M → M ≤ L' → calcA2 num (s.column M) = (.ok a, s.column M) → ∃ p x, 0 < p ∧ p < M ∧ 0 < x ∧ x < M ∧
      q * numC bs ss (1 / kR (M - p)) (1 / kN (M - p)) p ≤ tc * denC bs ss (1 / kR (M - p)) p ∧
      tc * denC bs ss (1 / kR (M - x)) x ≤ q * numC bs ss (1 / kR (M - x)) (1 / kN (M - x)) x ∧
      |p - a| ≤ δ ∧ |x - a| ≤ δ := by
    intro M a hLM hML hrun
    unfold calcA2 at hrun
    rw [Py.get_bind, he] at hrun
    change brentq num (polyA2 eig bs ss M tc q) (M / 1000) (999 / 1000 * M) (s.column M) = _ at hrun
    have hM : 0 < M := by linarith
    have hfM : BrentFinds num M δ := fun f F a b s hab hW => hfind f F a b s hab (hW.trans hML)
    obtain ⟨p, x, yp, yx, p1, p2, x1, x2, fp, fx, sp, sx, dp, dx⟩ := brent_sides hfM hδ (by linarith) (by linarith)
      (fun x h1 h2 => ⟨_, polyA2_column h ht (by linarith : x < M)⟩) hrun
    have hp0 : 0 < p := by linarith
    have hx0 : 0 < x := by linarith
    rw [polyA2_column h ht (by linarith : p < M)] at fp
    rw [polyA2_column h ht (by linarith : x < M)] at fx
    simp only [Prod.mk.injEq, Except.ok.injEq, and_true] at fp fx
    have g1 := mul_pos (ht.rotPos (M - p) (by linarith)) (ht.transPos (M - p) (by linarith))
    have g2 := mul_pos (ht.rotPos (M - x) (by linarith)) (ht.transPos (M - x) (by linarith))
    refine ⟨p, x, hp0, by linarith, hx0, by linarith, ?_, ?_, dp, dx⟩
    · rw [← fp] at sp
      have := nonpos_of_mul_nonpos_right sp g1
      linarith
    · rw [← fx] at sx
      have := nonneg_of_mul_nonneg_right sx g2
      linarith
  constructor
  · intro a a' h1 h2
    obtain ⟨p, x, p0, pM, x0, xM, sp, sx, dp, dx⟩ := run1 L a le_rfl hLL h1
    obtain ⟨p', x', p0', pM', x0', xM', sp', sx', dp', dx'⟩ := run1 L' a' hLL le_rfl h2
    have c1 := side1 L L L' p x' hL le_rfl hLL p0 pM x0' xM' sp sx'
    have c2 := side1 L L' L p' x hL hLL le_rfl p0' pM' x0 xM sp' sx
    have c3 := hle K1 hK10 (by linarith)
    rw [abs_le] at dp dx dp' dx' ⊢
    constructor <;> linarith [dp.1, dp.2, dx.1, dx.2, dp'.1, dp'.2, dx'.1, dx'.2]
  · intro a a' h1 h2
    obtain ⟨p, x, p0, pM, x0, xM, sp, sx, dp, dx⟩ := run2 L a le_rfl hLL h1
    obtain ⟨p', x', p0', pM', x0', xM', sp', sx', dp', dx'⟩ := run2 L' a' hLL le_rfl h2
    have c1 := side2 L L L' p x' hL le_rfl hLL p0 pM x0' xM' sp sx'
    have c2 := side2 L L' L p' x hL hLL le_rfl p0' pM' x0 xM sp' sx
    have c3 := hle K2 hK20 (by linarith)
    rw [abs_le] at dp dx dp' dx' ⊢
    constructor <;> linarith [dp.1, dp.2, dx.1, dx.2, dp'.1, dp'.2, dx'.1, dx'.2]

/-- C76, columns that are too long. The crack length of first contact is searched
between a thousandth and 999 thousandths of the column. If the slab, clamped at the
crack tip, sags down to the collapsed layer over less than a thousandth of the
column, both ends of the bracket are on the same side and the run is refused. -/
theorem C76_too_long (num : Numerics) (s : Self) (L a cf phi ratio : ℝ) (htd : s.touchdown = true) (hL : 0 < L)
    (h : LongColumn num.eig (setTouchdownAttributes 0 a cf phi ratio s))
    (hl : 8 * bsOf s * (setTouchdownAttributes 0 a cf phi ratio s).tc
      ≤ calcQn (setTouchdownAttributes 0 a cf phi ratio s) * (L / 1000) ^ 4) :
    ∃ t, calcTouchdownSystem num L a cf phi ratio s = (.error .valueError, t) := by
  obtain ⟨r, K, B, kR, kN, hr, hK, hB, ht⟩ := tip_springs h
  set s0 := setTouchdownAttributes 0 a cf phi ratio s with hs0
  have hbs : 0 < bsOf s0 := bsOf_pos h.bed h.shear
  have hss : 0 < s0.kA55 := h.bed.stiff.kA55
  have hq := h.qn
  have hl0 : 8 * bsOf s0 * s0.tc ≤ calcQn s0 * (L / 1000) ^ 4 := hl
  have pos : ∀ x, L / 1000 ≤ x → x < L → ∃ y, 0 < y ∧
      polyA1 num.eig (bsOf s0) s0.kA55 L s0.tc (calcQn s0) x (s0.column L) = (.ok y, s0.column L) := by
    intro x hx hxL
    refine ⟨_, ?_, polyA1_column h ht hxL⟩
    have hx0 : 0 < x := lt_of_lt_of_le (by positivity) hx
    have hR := ht.rotPos (L - x) (by linarith)
    have hN := ht.transPos (L - x) (by linarith)
    have e1 : s0.tc / calcQn s0 ≤ 1 / (8 * bsOf s0) * x ^ 4 := by
      rw [div_le_iff₀ hq, one_div, inv_mul_eq_div, div_mul_eq_mul_div, le_div_iff₀ (by positivity)]
      have := mul_le_mul_of_nonneg_left (pow_le_pow_left₀ (by positivity) hx 4) hq.le
      linarith
    have e2 : 0 < 1 / kR (L - x) / 2 * x ^ 3 + 1 / (2 * s0.kA55) * x ^ 2 + 1 / kN (L - x) * x := by positivity
    unfold tipC
    rw [neg_div]
    linarith
  obtain ⟨ya, ha, ea⟩ := pos (L / 1000) le_rfl (by linarith)
  obtain ⟨yb, hb, eb⟩ := pos (999 / 1000 * L) (by linarith) (by linarith)
  refine ⟨s0.column L, ?_⟩
  have hA1 : calcA1 num (s0.column L) = (.error .valueError, s0.column L) := by
    unfold calcA1
    rw [Py.get_bind]
    unfold brentq
    erw [Py.bind_of_ok ea, Py.bind_of_ok eb]
    rw [if_neg ha.ne', if_neg hb.ne', if_pos (by positivity)]
    rfl
  unfold calcTouchdownSystem
  rw [Py.modify_bind]
  change (calcTouchdownMode num >>= fun _ => calcTouchdownLength num) (s0.column L) = _
  refine Py.bind_of_error ?_
  unfold calcTouchdownMode
  rw [Py.get_bind]
  rw [if_pos (show (s0.column L).touchdown = true from htd)]
  exact Py.bind_of_error hA1

/-! ## Stages -/

/-- What `calc_touchdown_system` leaves behind in stages A and B. -/
theorem system_stage {num : Numerics} {L a cf phi ratio : ℝ} {s t : Self} (hf : EigFresh num.eig s) (htd : s.touchdown = true)
    (h : calcTouchdownSystem num L a cf phi ratio s = (.ok (), t)) :
    ∃ a1 a2, calcA1 num ((setTouchdownAttributes 0 a cf phi ratio s).column L)
        = (.ok a1, (setTouchdownAttributes 0 a cf phi ratio s).column L) ∧
      calcA2 num ((setTouchdownAttributes 0 a cf phi ratio s).column L)
        = (.ok a2, (setTouchdownAttributes 0 a cf phi ratio s).column L) ∧
      t.mode = (if a ≤ a1 then .A else if a ≤ a2 then .B else .C) ∧
      (t.mode ≠ .C → t = ({ setTouchdownAttributes 0 a cf phi ratio s with mode := t.mode, td := a } : Self).column L) := by
  unfold calcTouchdownSystem at h
  rw [Py.modify_bind] at h
  have hf1 := setTouchdownAttributes_fresh hf L a cf phi ratio
  change (calcTouchdownMode num >>= fun _ => calcTouchdownLength num) ((setTouchdownAttributes 0 a cf phi ratio s).column L) = _ at h
  change EigFresh num.eig ((setTouchdownAttributes 0 a cf phi ratio s).column L) at hf1
  obtain ⟨u, s1, h1, h2⟩ := Py.bind_ok.mp h
  rcases touchdownMode_ok hf1 h1 with ⟨e, -⟩ | ⟨-, a1, a2, r1, r2, hm⟩
  · change s.touchdown = false at e
    rw [htd] at e
    cases e
  refine ⟨a1, a2, r1, r2, ?_⟩
  have hf2 : EigFresh num.eig s1 := by
    rcases hm with ⟨-, e⟩ | ⟨-, -, e⟩ | ⟨-, -, e⟩ <;> rw [e] <;> exact hf1.stage _ _ _ _ _ _ _ _
  have hl := touchdownLength_ok hf2 h2
  rcases hm with ⟨c1, e⟩ | ⟨c1, c2, e⟩ | ⟨c1, c2, e⟩
  · change a ≤ a1 at c1
    rw [if_pos c1]
    have em : s1.mode = .A := by rw [e]
    rw [em] at hl
    simp only [reduceCtorEq, false_and, or_false, true_and, false_or] at hl
    have e2 : t = ({ setTouchdownAttributes 0 a cf phi ratio s with mode := .A, td := a } : Self).column L := by
      rw [hl, e]; rfl
    have : t.mode = .A := by rw [e2]; rfl
    exact ⟨this, fun _ => by rw [this]; exact e2⟩
  · change a1 < a at c1
    change a ≤ a2 at c2
    rw [if_neg (not_le.2 c1), if_pos c2]
    have em : s1.mode = .B := by rw [e]
    rw [em] at hl
    simp only [reduceCtorEq, false_and, or_false, or_true, true_and, false_or] at hl
    have e2 : t = ({ setTouchdownAttributes 0 a cf phi ratio s with mode := .B, td := a } : Self).column L := by
      rw [hl, e]; rfl
    have : t.mode = .B := by rw [e2]; rfl
    exact ⟨this, fun _ => by rw [this]; exact e2⟩
  · change a1 < a at c1
    change a2 < a at c2
    rw [if_neg (not_le.2 c1), if_neg (not_le.2 c2)]
    have em : s1.mode = .C := by rw [e]
    rw [em] at hl
    simp only [reduceCtorEq, false_and, or_self, true_and, false_or] at hl
    obtain ⟨l, -, e2⟩ := hl
    have : t.mode = .C := by rw [e2, e]
    exact ⟨this, fun hn => absurd this hn⟩

/-- C76, stage. Unless the cut is within the accuracy of the limits of one of
them, the touchdown stages of two long columns are the same; in stages A and B
so is everything else that is stored, apart from the length. -/
theorem C76_stage {eig : EigSolver} (s : Self) (a cf phi ratio : ℝ) (hf : EigFresh eig s) (htd : s.touchdown = true)
    (h : LongColumn eig (setTouchdownAttributes 0 a cf phi ratio s)) {A : ℝ} (hA1 : 1 ≤ A)
    (hA : 72 * bsOf s * (setTouchdownAttributes 0 a cf phi ratio s).tc ≤ calcQn (setTouchdownAttributes 0 a cf phi ratio s) * A ^ 4) :
    ∃ r K, 0 < r ∧ 0 < K ∧ ∀ (num : Numerics) (δ L L' : ℝ), num.eig = eig → 0 ≤ δ → A + 1 ≤ L → L ≤ L' →
      BrentFinds num L' δ → ∀ t t' a1 a2,
      calcA1 num ((setTouchdownAttributes 0 a cf phi ratio s).column L)
        = (.ok a1, (setTouchdownAttributes 0 a cf phi ratio s).column L) →
      calcA2 num ((setTouchdownAttributes 0 a cf phi ratio s).column L)
        = (.ok a2, (setTouchdownAttributes 0 a cf phi ratio s).column L) →
      2 * δ + K * Real.exp (-(L / r)) < |a - a1| → 2 * δ + K * Real.exp (-(L / r)) < |a - a2| →
      calcTouchdownSystem num L a cf phi ratio s = (.ok (), t) → calcTouchdownSystem num L' a cf phi ratio s = (.ok (), t') →
      t'.mode = t.mode ∧ (t.mode ≠ .C → t' = t.column L') := by
  obtain ⟨r, K, hr, hK, H⟩ := C76_limits h hA1 hA
  refine ⟨r, K, hr, hK, ?_⟩
  intro num δ L L' he hδ hL hLL hfind t t' a1 a2 h1 h2 d1 d2 r1 r2
  have hf' : EigFresh num.eig s := he ▸ hf
  obtain ⟨b1, b2, g1, g2, m1, e1⟩ := system_stage hf' htd r1
  obtain ⟨b1', b2', g1', g2', m2, e2⟩ := system_stage hf' htd r2
  rw [h1] at g1
  rw [h2] at g2
  simp only [Prod.mk.injEq, Except.ok.injEq, and_true] at g1 g2
  rw [← g1, ← g2] at m1
  obtain ⟨k1, k2⟩ := H num δ L L' he hδ hL hLL hfind
  have n1 := k1 _ _ h1 g1'
  have n2 := k2 _ _ h2 g2'
  have i1 : a ≤ b1' ↔ a ≤ a1 := by
    rw [abs_le] at n1
    rcases lt_abs.1 d1 with d | d
    · constructor <;> intro hh <;> linarith [n1.1, n1.2]
    · constructor <;> intro hh <;> linarith [n1.1, n1.2]
  have i2 : a ≤ b2' ↔ a ≤ a2 := by
    rw [abs_le] at n2
    rcases lt_abs.1 d2 with d | d
    · constructor <;> intro hh <;> linarith [n2.1, n2.2]
    · constructor <;> intro hh <;> linarith [n2.1, n2.2]
  have hm : t'.mode = t.mode := by rw [m1, m2]; simp only [i1, i2]
  refine ⟨hm, fun hC => ?_⟩
  rw [e2 (by rw [hm]; exact hC), hm]
  conv_rhs => rw [e1 hC]
  rfl

/-- C76, saw test. Two saw tests with the same cut in columns of lengths `L` and
`L'`, computed by `calc_segments`, `assemble_and_solve` and `gdif`: unless the
cut is within the accuracy of the limits of one of them, and if the slab is not
in full contact, the energy release rates of the columns agree up to a multiple
of `exp (-L / r)`. -/
theorem C76_saw_test (num : Numerics) (s : Self) (a cf phi ratio : ℝ) (hf : EigFresh num.eig s) (htd : s.touchdown = true)
    (hsys : s.system = "pst-") (ha : 0 ≤ a) (h : LongColumn num.eig (setTouchdownAttributes 0 a cf phi ratio s))
    {A : ℝ} (hA1 : 1 ≤ A)
    (hA : 72 * bsOf s * (setTouchdownAttributes 0 a cf phi ratio s).tc ≤ calcQn (setTouchdownAttributes 0 a cf phi ratio s) * A ^ 4)
    (unit : String) (c : ℝ) (hu : convertEnergy unit = .ok c) :
    ∃ r K, 0 < r ∧ 0 < K ∧ ∀ (δ L L' : ℝ), 0 ≤ δ → A + 1 ≤ L → a + 1 ≤ L → L ≤ L' → BrentFinds num L' δ →
      ∀ (kind : SeqKind) (li mi : List ℝ) (ki k0 : List Bool) (m : ℝ) (t t' : Self) (g g' : Segments) (a1 a2 : ℝ),
      calcA1 num ((setTouchdownAttributes 0 a cf phi ratio s).column L)
        = (.ok a1, (setTouchdownAttributes 0 a cf phi ratio s).column L) →
      calcA2 num ((setTouchdownAttributes 0 a cf phi ratio s).column L)
        = (.ok a2, (setTouchdownAttributes 0 a cf phi ratio s).column L) →
      2 * δ + K * Real.exp (-(L / r)) < |a - a1| → 2 * δ + K * Real.exp (-(L / r)) < |a - a2| →
      calcSegments num li mi ki k0 L a m phi cf ratio s = (.ok g, t) →
      calcSegments num li mi ki k0 L' a m phi cf ratio s = (.ok g', t') → t.mode ≠ .C →
      ∃ C C' G G', assembleAndSolve num kind phi ⟨g.li, g.mi, g.ki⟩ t = (.ok (C, ⟨g.li, g.mi, g.ki⟩), t) ∧
        assembleAndSolve num kind phi ⟨g'.li, g'.mi, g'.ki⟩ t' = (.ok (C', ⟨g'.li, g'.mi, g'.ki⟩), t') ∧
        gdif t phi (segsOf C ⟨g.li, g.mi, g.ki⟩) unit true = .ok G ∧
        gdif t' phi (segsOf C' ⟨g'.li, g'.mi, g'.ki⟩) unit true = .ok G' ∧
        |G.1 - G'.1| ≤ K * Real.exp (-(L / r)) ∧ |G.2.1 - G'.2.1| ≤ K * Real.exp (-(L / r)) ∧
        |G.2.2 - G'.2.2| ≤ K * Real.exp (-(L / r)) := by
  obtain ⟨r1, K1, hr1, hK1, H⟩ := C76_stage s a cf phi ratio hf htd h hA1 hA
  set base : Mode → Self := fun md => { setTouchdownAttributes 0 a cf phi ratio s with mode := md, td := a } with hbase
  have bed : ∀ md, BedOk (base md) := fun md => h.bed.stage _ md _ _ _ a _ _
  have shear : ∀ md, ShearOk (base md) := fun md => h.shear
  have fresh : ∀ md, EigFresh num.eig (base md) := fun md => h.fresh.stage _ md _ _ _ a _ _
  have pst : ∀ md, IsPst (base md) := fun md => .inl hsys
  have face : ∀ md, NoFaceTouchdown (base md) := fun md hv => absurd hv (by
    have : (base md).system = "pst-" := hsys
    unfold IsVpst
    rw [this]
    decide)
  have cut : ∀ md, md ≠ .unset → md ≠ .C → CutOut num (base md) [a] [0] [false] := fun md hu hC =>
    ⟨.inl (pst md), face md, by simp, rfl, rfl, by simpa using ha, fun _ _ => hu, fun _ _ e => absurd e hC⟩
  have rates : ∀ md, md ≠ .unset → md ≠ .C → ∃ r K, 0 < r ∧ 0 < K ∧ ∀ (kind : SeqKind) L L', 1 ≤ L → L ≤ L' → ∃ C C' G G',
      assembleAndSolve num kind phi ⟨[L, a], [0], [true, false]⟩ (base md) = (.ok (C, ⟨[L, a], [0], [true, false]⟩), base md) ∧
      assembleAndSolve num kind phi ⟨[L', a], [0], [true, false]⟩ (base md) = (.ok (C', ⟨[L', a], [0], [true, false]⟩), base md) ∧
      gdif (base md) phi (segsOf C ⟨[L, a], [0], [true, false]⟩) unit true = .ok G ∧
      gdif (base md) phi (segsOf C' ⟨[L', a], [0], [true, false]⟩) unit true = .ok G' ∧
      |G.1 - G'.1| ≤ K * Real.exp (-(L / r)) ∧ |G.2.1 - G'.2.1| ≤ K * Real.exp (-(L / r)) ∧
      |G.2.2 - G'.2.2| ≤ K * Real.exp (-(L / r)) := by
    intro md hu1 hC
    obtain ⟨r, hr, H⟩ := C75_rates num (base md) (bed md) (shear md) (fresh md)
    obtain ⟨K, hK, H1⟩ := H .list phi [a] [0] [false] unit c hu (cut md hu1 hC)
    obtain ⟨K', hK', H2⟩ := H .ndarray phi [a] [0] [false] unit c hu (cut md hu1 hC)
    refine ⟨r, K + K', hr, by positivity, fun kind L L' hL hLL => ?_⟩
    have up : ∀ k, 0 < k → k ≤ K + K' → k * Real.exp (-(L / r)) ≤ (K + K') * Real.exp (-(L / r)) := fun k _ hk =>
      mul_le_mul_of_nonneg_right hk (Real.exp_pos _).le
    cases kind with
    | list =>
      obtain ⟨C, C', G, G', x1, x2, x3, x4, x5, x6, x7⟩ := H1 L L' hL hLL
      have u := up K hK (by linarith)
      exact ⟨C, C', G, G', x1, x2, x3, x4, x5.trans u, x6.trans u, x7.trans u⟩
    | ndarray =>
      obtain ⟨C, C', G, G', x1, x2, x3, x4, x5, x6, x7⟩ := H2 L L' hL hLL
      have u := up K' hK' (by linarith)
      exact ⟨C, C', G, G', x1, x2, x3, x4, x5.trans u, x6.trans u, x7.trans u⟩
  obtain ⟨rA, KA, hrA, hKA, HA⟩ := rates .A (by simp) (by simp)
  obtain ⟨rB, KB, hrB, hKB, HB⟩ := rates .B (by simp) (by simp)
  set R := max r1 (max rA rB) with hR
  have hR0 : 0 < R := lt_max_of_lt_left hr1
  set Kt := K1 + KA * Real.exp (a / rA) + KB * Real.exp (a / rB) with hKt
  have hKt0 : 0 < Kt := by positivity
  refine ⟨R, Kt, hR0, hKt0, ?_⟩
  intro δ L L' hδ hL1 hLa hLL hfind kind li mi ki k0 m t t' g g' a1 a2 h1 h2 d1 d2 c1 c2 hC
  have dec : ∀ k r, 0 < k → 0 < r → r ≤ R → k ≤ Kt → k * Real.exp (-(L / r)) ≤ Kt * Real.exp (-(L / R)) := by
    intro k r hk hr hrR hkK
    refine mul_le_mul hkK (Real.exp_le_exp.2 (neg_le_neg ?_)) (Real.exp_pos _).le hKt0.le
    exact div_le_div_of_nonneg_left (by linarith) hr hrR
  have sh : ∀ k r, k * Real.exp (-((L - a) / r)) = k * Real.exp (a / r) * Real.exp (-(L / r)) := by
    intro k r
    rw [mul_assoc, ← Real.exp_add]
    congr 2
    ring
  have pA : 0 < KA * Real.exp (a / rA) := by positivity
  have pB : 0 < KB * Real.exp (a / rB) := by positivity
  have z1 := dec K1 r1 hK1 hr1 (le_max_left _ _) (by rw [hKt]; linarith)
  obtain ⟨-, s1, q1⟩ := calcSegments_ok c1
  obtain ⟨-, s2, q2⟩ := calcSegments_ok c2
  obtain ⟨em, et⟩ := H num δ L L' rfl hδ hL1 hLL hfind t t' a1 a2 h1 h2 (by linarith) (by linarith) s1 s2
  obtain ⟨b1, b2, -, -, hm, e1⟩ := system_stage hf htd s1
  have ht : t = (base t.mode).column L := e1 hC
  have ht' : t' = (base t.mode).column L' := by
    rw [et hC]
    conv_lhs => rw [ht]
    rfl
  have tsys : t.system = "pst-" := by rw [ht]; exact hsys
  have tsys' : t'.system = "pst-" := by rw [ht']; exact hsys
  have ta : t.a = a := by rw [ht]; rfl
  have ta' : t'.a = a := by rw [ht']; rfl
  have ttd : t.td = a := by rw [ht]; rfl
  have ttd' : t'.td = a := by rw [ht']; rfl
  have hg : g = ⟨[L - a, a], [0], [true, false], [true, true]⟩ := by
    rw [tsys, ta, ttd] at q1
    simpa using q1
  have hg' : g' = ⟨[L' - a, a], [0], [true, false], [true, true]⟩ := by
    rw [tsys', ta', ttd'] at q2
    simpa using q2
  have fin : ∀ r K, 0 < r → 0 < K → r ≤ R → K * Real.exp (a / r) ≤ Kt → (∀ (kind : SeqKind) L L', 1 ≤ L → L ≤ L' → ∃ C C' G G',
      assembleAndSolve num kind phi ⟨[L, a], [0], [true, false]⟩ (base t.mode) = (.ok (C, ⟨[L, a], [0], [true, false]⟩), base t.mode) ∧
      assembleAndSolve num kind phi ⟨[L', a], [0], [true, false]⟩ (base t.mode) = (.ok (C', ⟨[L', a], [0], [true, false]⟩), base t.mode) ∧
      gdif (base t.mode) phi (segsOf C ⟨[L, a], [0], [true, false]⟩) unit true = .ok G ∧
      gdif (base t.mode) phi (segsOf C' ⟨[L', a], [0], [true, false]⟩) unit true = .ok G' ∧
      |G.1 - G'.1| ≤ K * Real.exp (-(L / r)) ∧ |G.2.1 - G'.2.1| ≤ K * Real.exp (-(L / r)) ∧
      |G.2.2 - G'.2.2| ≤ K * Real.exp (-(L / r))) → ∃ C C' G G', assembleAndSolve num kind phi ⟨g.li, g.mi, g.ki⟩ t = (.ok (C, ⟨g.li, g.mi, g.ki⟩), t) ∧
        assembleAndSolve num kind phi ⟨g'.li, g'.mi, g'.ki⟩ t' = (.ok (C', ⟨g'.li, g'.mi, g'.ki⟩), t') ∧
        gdif t phi (segsOf C ⟨g.li, g.mi, g.ki⟩) unit true = .ok G ∧
        gdif t' phi (segsOf C' ⟨g'.li, g'.mi, g'.ki⟩) unit true = .ok G' ∧
        |G.1 - G'.1| ≤ Kt * Real.exp (-(L / R)) ∧ |G.2.1 - G'.2.1| ≤ Kt * Real.exp (-(L / R)) ∧
        |G.2.2 - G'.2.2| ≤ Kt * Real.exp (-(L / R)) := by
    intro r K hr hK hrR hKK hh
    obtain ⟨C, C', G, G', x1, x2, x3, x4, x5, x6, x7⟩ := hh kind (L - a) (L' - a) (by linarith) (by linarith)
    rw [sh] at x5 x6 x7
    have u := dec _ r (by positivity) hr hrR hKK
    refine ⟨C, C', G, G', ?_, ?_, ?_, ?_, x5.trans u, x6.trans u, x7.trans u⟩
    · rw [hg, ht]
      exact (solve_column num kind phi _ _ (fresh _) L).run x1
    · rw [hg', ht']
      exact (solve_column num kind phi _ _ (fresh _) L').run x2
    · rw [hg, ht]
      exact x3
    · rw [hg', ht']
      exact x4
  rcases hmd : t.mode with _ | _ | _ | _
  · rw [hmd] at hm
    split_ifs at hm
  · rw [hmd] at fin
    exact fin rA KA hrA hKA ((le_max_left _ _).trans (le_max_right _ _)) (by rw [hKt]; linarith) HA
  · rw [hmd] at fin
    exact fin rB KB hrB hKB ((le_max_right _ _).trans (le_max_right _ _)) (by rw [hKt]; linarith) HB
  · exact absurd hmd hC

/-! ## The demonstration -/

/-- The saw test of the profile `comp` on level ground, layer collapsing to half. -/
theorem demo_long (a : ℝ) : LongColumn stdEig (setTouchdownAttributes 0 a (1 / 2) 0 1000 (demo stdEig "pst-" true)) := by
  have hb : Bracketed midNum (setTouchdownAttributes 100000 0 (1 / 2) 0 1000 (demo stdEig "pst-" true)) 200 :=
    demo_bracketed' midNum_runs rfl (.inr rfl) 0 0 (by norm_num [deg2rad]) (by norm_num [deg2rad]) _ 0 _ le_rfl (by norm_num)
  obtain ⟨h1, h2, h3, h4, h5, h6, h7, h8, -⟩ := demo_fields stdEig "pst-" true
  have hq := demo_load "pst-" true 0
  refine ⟨setTouchdownAttributes_fresh (demo_ready _ _ _).fresh.eigFresh _ _ _ _ _, hb.bed.stage _ _ _ _ _ _ _ _,
    hb.shear.stage _ _ _ _ _ _ _ _, hb.qn, hb.q0, ?_, ?_⟩
  · refine ⟨200, by norm_num, ?_⟩
    show (((demo stdEig "pst-" true).loads 0).qn + ((demo stdEig "pst-" true).loads 0).pn) * (demo stdEig "pst-" true).beam.decay 200
      < (demo stdEig "pst-" true).kn
    have e : (demo stdEig "pst-" true).beam.S = 1046 / 3 := h6
    have eS : (demo stdEig "pst-" true).beam.Sred = 1046 / 3 - 3 / 16 := by
      have : (demo stdEig "pst-" true).beam.Sred
        = (demo stdEig "pst-" true).kA55 - (demo stdEig "pst-" true).kt * (demo stdEig "pst-" true).t ^ 2 / 16 := rfl
      rw [this, h6, h2, h8]; norm_num
    have ek : (demo stdEig "pst-" true).beam.kn = 2 / 225 := h1
    unfold Spec.Beam.decay
    rw [hq, h1, eS, e, ek]
    simp only [deg2rad, zero_mul, Real.cos_zero]
    norm_num
  · exact lt_of_lt_of_le (by norm_num) (demo_collapse 0 (by norm_num [deg2rad])).1

theorem demo_bs (a : ℝ) :
    bsOf (setTouchdownAttributes 0 a (1 / 2) 0 1000 (demo stdEig "pst-" true)) = 33472000 / 9 ∧
    calcQn (setTouchdownAttributes 0 a (1 / 2) 0 1000 (demo stdEig "pst-" true)) = 240 * 200 * 9810 / 10 ^ 12 ∧
    (setTouchdownAttributes 0 a (1 / 2) 0 1000 (demo stdEig "pst-" true)).tc ≤ 15 := by
  obtain ⟨-, -, -, h4, h5, -⟩ := demo_fields stdEig "pst-" true
  refine ⟨?_, ?_, (demo_collapse 0 (by norm_num [deg2rad])).2⟩
  · show bsOf (demo stdEig "pst-" true) = _
    unfold bsOf
    rw [h4, h5]; norm_num
  · have hq := demo_load "pst-" true 0
    have : calcQn (setTouchdownAttributes 0 a (1 / 2) 0 1000 (demo stdEig "pst-" true))
      = ((demo stdEig "pst-" true).loads 0).qn + ((demo stdEig "pst-" true).loads 0).pn := rfl
    rw [this, hq]
    simp [deg2rad]

theorem demo_reach (a : ℝ) :
    72 * bsOf (setTouchdownAttributes 0 a (1 / 2) 0 1000 (demo stdEig "pst-" true))
      * (setTouchdownAttributes 0 a (1 / 2) 0 1000 (demo stdEig "pst-" true)).tc
      ≤ calcQn (setTouchdownAttributes 0 a (1 / 2) 0 1000 (demo stdEig "pst-" true)) * 1750 ^ 4 := by
  obtain ⟨e1, e2, e3⟩ := demo_bs a
  rw [e1, e2]
  refine (mul_le_mul_of_nonneg_left e3 (by norm_num)).trans (by norm_num)

theorem demo_runs {L : ℝ} (hL : L = 2000 ∨ L = 100000) {f : ℝ → Py ℝ}
    (hf : f ∈ [polyA1 stdEig (bsOf (demo stdEig "pst-" true)) (demo stdEig "pst-" true).kA55 L
        (setTouchdownAttributes 0 400 (1 / 2) 0 1000 (demo stdEig "pst-" true)).tc
        (calcQn (setTouchdownAttributes 0 400 (1 / 2) 0 1000 (demo stdEig "pst-" true))),
      polyA2 stdEig (bsOf (demo stdEig "pst-" true)) (demo stdEig "pst-" true).kA55 L
        (setTouchdownAttributes 0 400 (1 / 2) 0 1000 (demo stdEig "pst-" true)).tc
        (calcQn (setTouchdownAttributes 0 400 (1 / 2) 0 1000 (demo stdEig "pst-" true)))]) :
    ∃ x, brentq (bisectNum 0.001) f (L / 1000) (999 / 1000 * L)
      ((setTouchdownAttributes 0 400 (1 / 2) 0 1000 (demo stdEig "pst-" true)).column L)
      = (.ok x, (setTouchdownAttributes 0 400 (1 / 2) 0 1000 (demo stdEig "pst-" true)).column L) := by
  have hb : Bracketed midNum ((setTouchdownAttributes 0 400 (1 / 2) 0 1000 (demo stdEig "pst-" true)).column L) 200 :=
    demo_bracketed' midNum_runs rfl hL 0 0 (by norm_num [deg2rad]) (by norm_num [deg2rad]) _ 400 _ (by norm_num)
      (by rcases hL with e | e <;> rw [e] <;> norm_num)
  obtain ⟨-, H⟩ := calcA_brackets hb
  obtain ⟨h1, ya, yb, h2, h3, h4, h5⟩ := H f hf
  have hL0 : 0 < L := by rcases hL with e | e <;> rw [e] <;> norm_num
  change ∀ x, L / 1000 ≤ x → x ≤ 999 / 1000 * L → _ at h1
  change f (L / 1000) _ = _ at h2
  change f (999 / 1000 * L) _ = _ at h3
  choose! F hF using h1
  have ea := (hF (L / 1000) le_rfl (by linarith)).symm.trans h2
  have eb := (hF (999 / 1000 * L) (by linarith) le_rfl).symm.trans h3
  simp only [Prod.mk.injEq, Except.ok.injEq, and_true] at ea eb
  obtain ⟨x, hx, -⟩ := bisectNum_finds (δ := 0.001) (by norm_num) (W := 100000) (by norm_num) f F (L / 1000) (999 / 1000 * L) _
    (by linarith) (by rcases hL with e | e <;> rw [e] <;> norm_num) hF (by rw [ea, eb]; exact mul_neg_of_neg_of_pos h4 h5)
  exact ⟨x, hx⟩

/-- Both limits are found for a column of 2 m and for one of 100 m; they differ by
the accuracy of the root finder, 0.002 mm, and a term that decays with the length. -/
example : ∃ r K, 0 < r ∧ 0 < K ∧ ∃ a1 a2 a1' a2',
    calcA1 (bisectNum 0.001) ((setTouchdownAttributes 0 400 (1 / 2) 0 1000 (demo stdEig "pst-" true)).column 2000)
      = (.ok a1, (setTouchdownAttributes 0 400 (1 / 2) 0 1000 (demo stdEig "pst-" true)).column 2000) ∧
    calcA2 (bisectNum 0.001) ((setTouchdownAttributes 0 400 (1 / 2) 0 1000 (demo stdEig "pst-" true)).column 2000)
      = (.ok a2, (setTouchdownAttributes 0 400 (1 / 2) 0 1000 (demo stdEig "pst-" true)).column 2000) ∧
    calcA1 (bisectNum 0.001) ((setTouchdownAttributes 0 400 (1 / 2) 0 1000 (demo stdEig "pst-" true)).column 100000)
      = (.ok a1', (setTouchdownAttributes 0 400 (1 / 2) 0 1000 (demo stdEig "pst-" true)).column 100000) ∧
    calcA2 (bisectNum 0.001) ((setTouchdownAttributes 0 400 (1 / 2) 0 1000 (demo stdEig "pst-" true)).column 100000)
      = (.ok a2', (setTouchdownAttributes 0 400 (1 / 2) 0 1000 (demo stdEig "pst-" true)).column 100000) ∧
    |a1 - a1'| ≤ 2 * 0.001 + K * Real.exp (-(2000 / r)) ∧ |a2 - a2'| ≤ 2 * 0.001 + K * Real.exp (-(2000 / r)) := by
  obtain ⟨r, K, hr, hK, H⟩ := C76_limits (demo_long 400) (A := 1750) (by norm_num) (demo_reach 400)
  obtain ⟨h1, h2⟩ := H (bisectNum 0.001) 0.001 2000 100000 rfl (by norm_num) (by norm_num) (by norm_num)
    (bisectNum_finds (by norm_num) (by norm_num))
  obtain ⟨a1, e1⟩ := demo_runs (.inl rfl) (List.mem_cons_self ..)
  obtain ⟨a2, e2⟩ := demo_runs (.inl rfl) (List.mem_cons_of_mem _ (List.mem_cons_self ..))
  obtain ⟨a1', e1'⟩ := demo_runs (.inr rfl) (List.mem_cons_self ..)
  obtain ⟨a2', e2'⟩ := demo_runs (.inr rfl) (List.mem_cons_of_mem _ (List.mem_cons_self ..))
  exact ⟨r, K, hr, hK, a1, a2, a1', a2', e1, e2, e1', e2', h1 a1 a1' e1 e1', h2 a2 a2' e2 e2'⟩

/-- A column of 1 km of the same slab is refused. -/
example : ∃ t, calcTouchdownSystem (bisectNum 0.001) 1000000 400 (1 / 2) 0 1000 (demo stdEig "pst-" true)
    = (.error .valueError, t) := by
  obtain ⟨e1, e2, e3⟩ := demo_bs 400
  refine C76_too_long _ _ _ _ _ _ _ (demo_fields stdEig "pst-" true).2.2.2.2.2.2.2.2.2.2.2.2.2.2.1 (by norm_num) (demo_long 400) ?_
  change 8 * bsOf (setTouchdownAttributes 0 400 (1 / 2) 0 1000 (demo stdEig "pst-" true)) * _ ≤ _
  rw [e1, e2]
  exact (mul_le_mul_of_nonneg_left e3 (by norm_num)).trans (by norm_num)

/-- The whole saw test of the demonstration, columns of 2 m and more. -/
example : ∃ r K, 0 < r ∧ 0 < K ∧ ∀ (L : ℝ), 2000 ≤ L → L ≤ 100000 → ∀ (t t' : Self) (g g' : Segments) (a1 a2 : ℝ),
    calcA1 (bisectNum 0.001) ((setTouchdownAttributes 0 400 (1 / 2) 0 1000 (demo stdEig "pst-" true)).column L)
      = (.ok a1, (setTouchdownAttributes 0 400 (1 / 2) 0 1000 (demo stdEig "pst-" true)).column L) →
    calcA2 (bisectNum 0.001) ((setTouchdownAttributes 0 400 (1 / 2) 0 1000 (demo stdEig "pst-" true)).column L)
      = (.ok a2, (setTouchdownAttributes 0 400 (1 / 2) 0 1000 (demo stdEig "pst-" true)).column L) →
    2 * 0.001 + K * Real.exp (-(L / r)) < |400 - a1| → 2 * 0.001 + K * Real.exp (-(L / r)) < |400 - a2| →
    calcSegments (bisectNum 0.001) [] [] [] [] L 400 0 0 (1 / 2) 1000 (demo stdEig "pst-" true) = (.ok g, t) →
    calcSegments (bisectNum 0.001) [] [] [] [] 100000 400 0 0 (1 / 2) 1000 (demo stdEig "pst-" true) = (.ok g', t') →
    t.mode ≠ .C →
    ∃ C C' G G', assembleAndSolve (bisectNum 0.001) .list 0 ⟨g.li, g.mi, g.ki⟩ t = (.ok (C, ⟨g.li, g.mi, g.ki⟩), t) ∧
      assembleAndSolve (bisectNum 0.001) .list 0 ⟨g'.li, g'.mi, g'.ki⟩ t' = (.ok (C', ⟨g'.li, g'.mi, g'.ki⟩), t') ∧
      gdif t 0 (segsOf C ⟨g.li, g.mi, g.ki⟩) "J/m^2" true = .ok G ∧
      gdif t' 0 (segsOf C' ⟨g'.li, g'.mi, g'.ki⟩) "J/m^2" true = .ok G' ∧ |G.1 - G'.1| ≤ K * Real.exp (-(L / r)) := by
  obtain ⟨r, K, hr, hK, H⟩ := C76_saw_test (bisectNum 0.001) (demo stdEig "pst-" true) 400 (1 / 2) 0 1000
    (demo_ready _ _ _).fresh.eigFresh (demo_fields stdEig "pst-" true).2.2.2.2.2.2.2.2.2.2.2.2.2.2.1
    (demo_fields stdEig "pst-" true).2.2.2.2.2.2.2.2.2.2.2.2.2.1 (by norm_num) (demo_long 400) (A := 1750) (by norm_num)
    (demo_reach 400) "J/m^2" 1e3 (by simp [convertEnergy])
  refine ⟨r, K, hr, hK, fun L hL hL' t t' g g' a1 a2 h1 h2 d1 d2 h3 h4 h5 => ?_⟩
  obtain ⟨C, C', G, G', q1, q2, q3, q4, q5, -⟩ := H 0.001 L 100000 (by norm_num) (by linarith) (by linarith) hL'
    (bisectNum_finds (by norm_num) (by norm_num)) .list [] [] [] [] 0 t t' g g' a1 a2 h1 h2 d1 d2 h3 h4 h5
  exact ⟨C, C', G, G', q1, q2, q3, q4, q5⟩

end Weac
