import Verif.Spec.Rounding
import Mathlib.Algebra.Order.BigOperators.Group.List
import Mathlib.Tactic.Linarith
import Mathlib.Tactic.Positivity
import Mathlib.Tactic.FieldSimp
import Mathlib.Algebra.Order.Ring.Pow

/-!
# Calculus of rounding errors
-/

namespace Weac.Spec

/-- Factor by which `k` roundings can increase a number. -/
noncomputable def grow (u : ℝ) (k : ℕ) : ℝ := ((1 - u)⁻¹) ^ k

/-- `x'` is `x` up to `k` roundings of quantities of magnitude `B`. -/
def Err (u : ℝ) (k : ℕ) (B x x' : ℝ) : Prop := |x| ≤ B ∧ |x' - x| ≤ (grow u k - 1) * B

variable {u : ℝ} {fl : ℝ → ℝ} {k m : ℕ} {x x' y y' B B' : ℝ}

theorem RoundOk.inv (h : RoundOk u fl) : 1 ≤ (1 - u)⁻¹ := by
  have := h.lt
  have := h.nonneg
  exact (one_le_inv₀ (by linarith)).2 (by linarith)

theorem RoundOk.grow_ge (h : RoundOk u fl) (k : ℕ) : 1 ≤ grow u k := one_le_pow₀ h.inv

theorem RoundOk.grow_mono (h : RoundOk u fl) (hk : k ≤ m) : grow u k ≤ grow u m := pow_le_pow_right₀ h.inv hk

theorem grow_add (u : ℝ) (k m : ℕ) : grow u (k + m) = grow u k * grow u m := pow_add _ _ _

theorem RoundOk.grow_succ (h : RoundOk u fl) (k : ℕ) : (1 + u) * grow u k ≤ grow u (k + 1) := by
  have h1 : 1 + u ≤ (1 - u)⁻¹ := by
    have := h.lt
    rw [le_inv_comm₀ (by have := h.nonneg; linarith) (by linarith), inv_eq_one_div, le_div_iff₀ (by have := h.nonneg; linarith)]
    nlinarith [sq_nonneg u]
  have := h.grow_ge k
  unfold grow at *
  rw [pow_succ']
  exact mul_le_mul_of_nonneg_right h1 (by linarith)

theorem RoundOk.pow_pos (h : RoundOk u fl) (k : ℕ) : 0 < (1 - u) ^ k := _root_.pow_pos (by have := h.lt; linarith) k

theorem grow_eq (u : ℝ) (k : ℕ) : grow u k = ((1 - u) ^ k)⁻¹ := inv_pow _ _

/-- Higham's bound. -/
theorem RoundOk.grow_le (h : RoundOk u fl) (hk : k * u < 1) : grow u k - 1 ≤ gamma u k := by
  have b : 1 - k * u ≤ (1 - u) ^ k := by
    have := one_add_mul_le_pow (show (-2 : ℝ) ≤ -u by have := h.lt; linarith) k
    have e : 1 + -u = 1 - u := by ring
    rw [e] at this
    linarith
  have : grow u k ≤ (1 - k * u)⁻¹ := by rw [grow_eq]; exact inv_anti₀ (by linarith) b
  have e : gamma u k = (1 - k * u)⁻¹ - 1 := by
    unfold gamma
    have : 1 - k * u ≠ 0 := by linarith
    field_simp
    ring
  rw [e]
  linarith

/-! ### Relative errors -/

theorem Rel.refl (u : ℝ) (x : ℝ) : Rel u 0 x x := ⟨1, by simp, by simp, by simp⟩

theorem RoundOk.rel_mono (h : RoundOk u fl) (hr : Rel u k x x') (hk : k ≤ m) : Rel u m x x' := by
  obtain ⟨θ, h1, h2, e⟩ := hr
  have hp : (1 - u) ^ m ≤ (1 - u) ^ k := pow_le_pow_of_le_one (by have := h.lt; linarith) (by have := h.nonneg; linarith) hk
  refine ⟨θ, hp.trans h1, le_trans (mul_le_mul_of_nonneg_left hp ?_) h2, e⟩
  exact (h.pow_pos k).le.trans h1

theorem RoundOk.rel_fl (h : RoundOk u fl) (hr : Rel u k x x') : Rel u (k + 1) x (fl x') := by
  obtain ⟨θ, h1, h2, e⟩ := hr
  have hu := h.lt
  have hu0 := h.nonneg
  have hc := h.close x'
  have hθ : 0 < θ := (h.pow_pos k).trans_le h1
  by_cases hx : x' = 0
  · have hx0 : x = 0 := by
      rcases mul_eq_zero.1 (e ▸ hx) with h | h
      · exact h
      · exact absurd h hθ.ne'
    rw [hx, abs_zero, mul_zero, sub_zero] at hc
    refine ⟨1, pow_le_one₀ (by linarith) (by linarith), ?_, ?_⟩
    · rw [one_mul]; exact pow_le_one₀ (by linarith) (by linarith)
    · rw [hx, hx0, abs_nonpos_iff.1 hc, zero_mul]
  · set δ := (fl x' - x') / x' with hδ
    have hd : |δ| ≤ u := by
      rw [hδ, abs_div]
      exact (div_le_iff₀ (abs_pos.2 hx)).2 hc
    have ef : fl x' = x' * (1 + δ) := by rw [hδ]; field_simp; ring
    obtain ⟨d1, d2⟩ := abs_le.1 hd
    refine ⟨θ * (1 + δ), ?_, ?_, by rw [ef, e]; ring⟩
    · rw [pow_succ]
      exact mul_le_mul h1 (by linarith) (by linarith) hθ.le
    · have a : (1 + δ) * (1 - u) ≤ 1 := by nlinarith
      calc θ * (1 + δ) * (1 - u) ^ (k + 1) = (θ * (1 - u) ^ k) * ((1 + δ) * (1 - u)) := by rw [pow_succ]; ring
        _ ≤ 1 * 1 := mul_le_mul h2 a (mul_nonneg (by linarith) (by linarith)) zero_le_one
        _ = 1 := one_mul 1

theorem RoundOk.rel_mul (h : RoundOk u fl) (hx : Rel u k x x') (hy : Rel u m y y') : Rel u (k + m) (x * y) (x' * y') := by
  obtain ⟨θ, h1, h2, e⟩ := hx
  obtain ⟨η, g1, g2, f⟩ := hy
  have p := h.pow_pos k
  have q := h.pow_pos m
  refine ⟨θ * η, ?_, ?_, by rw [e, f]; ring⟩
  · rw [pow_add]; exact mul_le_mul h1 g1 q.le (p.le.trans h1)
  · calc θ * η * (1 - u) ^ (k + m) = (θ * (1 - u) ^ k) * (η * (1 - u) ^ m) := by rw [pow_add]; ring
      _ ≤ 1 * 1 := mul_le_mul h2 g2 (mul_nonneg (q.le.trans g1) q.le) zero_le_one
      _ = 1 := one_mul 1

theorem RoundOk.rel_inv (h : RoundOk u fl) (hx : Rel u k x x') : Rel u k x⁻¹ x'⁻¹ := by
  obtain ⟨θ, h1, h2, e⟩ := hx
  have p := h.pow_pos k
  have hθ : 0 < θ := p.trans_le h1
  refine ⟨θ⁻¹, ?_, ?_, by rw [e, mul_inv]⟩
  · rw [← one_div, le_div_iff₀ hθ, mul_comm]; exact h2
  · rw [inv_mul_le_iff₀ hθ, mul_one]; exact h1

theorem RoundOk.rel_div (h : RoundOk u fl) (hx : Rel u k x x') (hy : Rel u m y y') : Rel u (k + m) (x / y) (x' / y') := by
  rw [div_eq_mul_inv, div_eq_mul_inv]
  exact h.rel_mul hx (h.rel_inv hy)

theorem RoundOk.rel_iff (h : RoundOk u fl) (hx : 0 ≤ x) :
    Rel u k x x' ↔ x * (1 - u) ^ k ≤ x' ∧ x' * (1 - u) ^ k ≤ x := by
  have p := h.pow_pos k
  constructor
  · rintro ⟨θ, h1, h2, e⟩
    rw [e]
    refine ⟨mul_le_mul_of_nonneg_left h1 hx, ?_⟩
    calc x * θ * (1 - u) ^ k = x * (θ * (1 - u) ^ k) := by ring
      _ ≤ x * 1 := mul_le_mul_of_nonneg_left h2 hx
      _ = x := mul_one x
  · rintro ⟨h1, h2⟩
    rcases hx.eq_or_lt with h0 | h0
    · rw [← h0] at h1 h2 ⊢
      rw [zero_mul] at h1
      have : x' = 0 := le_antisymm (nonpos_of_mul_nonpos_left h2 p) h1
      refine ⟨1, pow_le_one₀ (by have := h.lt; linarith) (by have := h.nonneg; linarith), ?_, by rw [this, zero_mul]⟩
      rw [one_mul]; exact pow_le_one₀ (by have := h.lt; linarith) (by have := h.nonneg; linarith)
    · refine ⟨x' / x, ?_, ?_, by field_simp⟩
      · rw [le_div_iff₀ h0]; linarith
      · rw [div_mul_eq_mul_div, div_le_one h0]; exact h2

theorem RoundOk.rel_nonneg (h : RoundOk u fl) (hx : 0 ≤ x) (hr : Rel u k x x') : 0 ≤ x' := by
  obtain ⟨θ, h1, -, e⟩ := hr
  rw [e]
  exact mul_nonneg hx ((h.pow_pos k).le.trans h1)

theorem RoundOk.rel_pos (h : RoundOk u fl) (hx : 0 < x) (hr : Rel u k x x') : 0 < x' := by
  obtain ⟨θ, h1, -, e⟩ := hr
  rw [e]
  exact mul_pos hx ((h.pow_pos k).trans_le h1)

theorem RoundOk.rel_add (h : RoundOk u fl) (h0 : 0 ≤ x) (h1 : 0 ≤ y) (hx : Rel u k x x') (hy : Rel u k y y') :
    Rel u k (x + y) (x' + y') := by
  rw [h.rel_iff h0] at hx
  rw [h.rel_iff h1] at hy
  rw [h.rel_iff (add_nonneg h0 h1), add_mul, add_mul]
  exact ⟨add_le_add hx.1 hy.1, add_le_add hx.2 hy.2⟩

theorem RoundOk.rel_rpow (h : RoundOk u fl) (hx : 0 < x) (hr : Rel u k x x') {C : ℝ} {N : ℕ} (hC : 0 ≤ C) (hN : C ≤ N) :
    Rel u (k * N) (x ^ C) (x' ^ C) := by
  obtain ⟨θ, h1, h2, e⟩ := hr
  have p := h.pow_pos k
  have hθ : 0 < θ := p.trans_le h1
  have p1 : (1 - u) ^ k ≤ 1 := pow_le_one₀ (by have := h.lt; linarith) (by have := h.nonneg; linarith)
  have b : ((1 - u) ^ k) ^ N ≤ ((1 - u) ^ k) ^ C := by
    rw [← Real.rpow_natCast ((1 - u) ^ k) N]
    exact Real.rpow_le_rpow_of_exponent_ge p p1 hN
  refine ⟨θ ^ C, ?_, ?_, by rw [e, Real.mul_rpow hx.le hθ.le]⟩
  · rw [pow_mul]; exact b.trans (Real.rpow_le_rpow p.le h1 hC)
  · rw [pow_mul]
    calc θ ^ C * ((1 - u) ^ k) ^ N ≤ θ ^ C * ((1 - u) ^ k) ^ C := mul_le_mul_of_nonneg_left b (Real.rpow_nonneg hθ.le C)
      _ = (θ * (1 - u) ^ k) ^ C := (Real.mul_rpow hθ.le p.le).symm
      _ ≤ 1 := Real.rpow_le_one (mul_nonneg hθ.le p.le) h2 hC

/-! ### Absolute errors -/

theorem Err.refl (u : ℝ) (x : ℝ) : Err u 0 |x| x x := ⟨le_rfl, by simp [grow]⟩

theorem RoundOk.err_mono (h : RoundOk u fl) (hx : Err u k B x x') (hk : k ≤ m) (hB : B ≤ B') : Err u m B' x x' := by
  refine ⟨hx.1.trans hB, hx.2.trans ?_⟩
  have := h.grow_mono hk
  have := h.grow_ge k
  have := (abs_nonneg x).trans hx.1
  exact mul_le_mul (by linarith) hB this (by linarith)

theorem RoundOk.err_fl (h : RoundOk u fl) (hx : Err u k B x x') : Err u (k + 1) B x (fl x') := by
  refine ⟨hx.1, ?_⟩
  have hc := h.close x'
  have hB := (abs_nonneg x).trans hx.1
  have a : |x'| ≤ grow u k * B := by
    have := abs_add_le (x' - x) x
    rw [sub_add_cancel] at this
    linarith [hx.1, hx.2]
  have t : |fl x' - x| ≤ |fl x' - x'| + |x' - x| := abs_sub_le _ _ _
  have g := mul_le_mul_of_nonneg_right (h.grow_succ k) hB
  have := mul_le_mul_of_nonneg_left a h.nonneg
  linarith [hx.2]

theorem Err.add (hx : Err u k B x x') (hy : Err u k B' y y') : Err u k (B + B') (x + y) (x' + y') := by
  refine ⟨(abs_add_le x y).trans (add_le_add hx.1 hy.1), ?_⟩
  have e : x' + y' - (x + y) = (x' - x) + (y' - y) := by ring
  rw [e, mul_add]
  exact (abs_add_le _ _).trans (add_le_add hx.2 hy.2)

theorem Err.sub (hx : Err u k B x x') (hy : Err u k B' y y') : Err u k (B + B') (x - y) (x' - y') := by
  refine ⟨(abs_sub x y).trans (add_le_add hx.1 hy.1), ?_⟩
  have e : x' - y' - (x - y) = (x' - x) - (y' - y) := by ring
  rw [e, mul_add]
  exact (abs_sub _ _).trans (add_le_add hx.2 hy.2)

theorem RoundOk.err_mul (h : RoundOk u fl) (hx : Err u k B x x') (hy : Err u m B' y y') : Err u (k + m) (B * B') (x * y) (x' * y') := by
  have hB := (abs_nonneg x).trans hx.1
  have hB' := (abs_nonneg y).trans hy.1
  refine ⟨?_, ?_⟩
  · rw [abs_mul]; exact mul_le_mul hx.1 hy.1 (abs_nonneg _) hB
  · have a : |y'| ≤ grow u m * B' := by
      have := abs_add_le (y' - y) y
      rw [sub_add_cancel] at this
      linarith [hy.1, hy.2]
    have e : x' * y' - x * y = (x' - x) * y' + x * (y' - y) := by ring
    have gk := h.grow_ge k
    have gm := h.grow_ge m
    have t1 : |(x' - x) * y'| ≤ (grow u k - 1) * B * (grow u m * B') := by
      rw [abs_mul]; exact mul_le_mul hx.2 a (abs_nonneg _) (mul_nonneg (by linarith) hB)
    have t2 : |x * (y' - y)| ≤ B * ((grow u m - 1) * B') := by
      rw [abs_mul]; exact mul_le_mul hx.1 hy.2 (abs_nonneg _) hB
    rw [e, grow_add]
    refine (abs_add_le _ _).trans ((add_le_add t1 t2).trans (le_of_eq ?_))
    ring

theorem RoundOk.rel_err (h : RoundOk u fl) (hx : Rel u k x x') : Err u k |x| x x' := by
  refine ⟨le_rfl, ?_⟩
  obtain ⟨θ, h1, h2, e⟩ := hx
  have p := h.pow_pos k
  have up : θ ≤ grow u k := by
    rw [grow_eq, ← one_div, le_div_iff₀ p]; exact h2
  have lo : 1 - (grow u k - 1) ≤ θ := by
    refine le_trans ?_ h1
    rw [grow_eq]
    have : (1 - u) ^ k * ((1 - u) ^ k)⁻¹ = 1 := mul_inv_cancel₀ p.ne'
    have q := inv_pos.2 p
    nlinarith [sq_nonneg ((1 - u) ^ k - 1)]
  have e2 : x' - x = (θ - 1) * x := by rw [e]; ring
  rw [e2, abs_mul]
  exact mul_le_mul_of_nonneg_right (abs_le.2 ⟨by linarith, by linarith⟩) (abs_nonneg _)

theorem RoundOk.err_of_rel (h : RoundOk u fl) (h0 : 0 ≤ x) (hx : Rel u k x x') : Err u k x x x' := by
  have := h.rel_err hx
  rwa [abs_of_nonneg h0] at this

theorem RoundOk.err_div (h : RoundOk u fl) (hx : Err u k B x x') (h0 : 0 < y) (hy : Rel u m y y') : Err u (k + m) (B / y) (x / y) (x' / y') := by
  have hi := h.err_of_rel (inv_pos.2 h0).le (h.rel_inv hy)
  simpa only [div_eq_mul_inv] using h.err_mul hx hi

theorem RoundOk.err_sq (h : RoundOk u fl) (hx : Err u k B x x') : Err u (2 * k) (B ^ 2) (x ^ 2) (x' ^ 2) := by
  rw [two_mul, pow_two, pow_two, pow_two]
  exact h.err_mul hx hx

theorem RoundOk.err_cube (h : RoundOk u fl) (hx : Err u k B x x') : Err u (3 * k) (B ^ 3) (x ^ 3) (x' ^ 3) := by
  have := h.err_mul (h.err_sq hx) hx
  have e : 2 * k + k = 3 * k := by ring
  rw [e, ← pow_succ, ← pow_succ, ← pow_succ] at this
  exact this

theorem RoundOk.err_bound (h : RoundOk u fl) (hx : Err u k B x x') (hk : k * u < 1) : |x' - x| ≤ gamma u k * B :=
  hx.2.trans (mul_le_mul_of_nonneg_right (h.grow_le hk) ((abs_nonneg x).trans hx.1))

end Weac.Spec
