import Mathlib.Analysis.Calculus.Deriv.Pow
import Verif.Lemmas.Energy

/-!
# Bounds for the state of a supported chain under one normal point load

Functions of the state that grow along each segment and do not jump at the
joints grow along the chain. With suitable functions this bounds deflection and
slip everywhere by the load.
-/

namespace Weac.Spec

/-- A function that does not decrease along the segments and jumps at joint `j`
only lies between its values at the ends of the two parts. -/
theorem chain_mono {n j : ℕ} {l : ℕ → ℝ} {G : ℕ → ℝ → ℝ} (hl : ∀ i < n, 0 ≤ l i)
    (hm : ∀ i < n, MonotoneOn (G i) (Set.Icc 0 (l i))) (hc : ∀ i, i + 1 < n → i ≠ j → G i (l i) = G (i + 1) 0)
    (hj : j + 1 < n) :
    (∀ i ≤ j, ∀ x ∈ Set.Icc 0 (l i), G 0 0 ≤ G i x ∧ G i x ≤ G j (l j)) ∧
      ∀ i, j < i → i < n → ∀ x ∈ Set.Icc 0 (l i), G (j + 1) 0 ≤ G i x ∧ G i x ≤ G (n - 1) (l (n - 1)) := by
  have seg : ∀ i < n, G i 0 ≤ G i (l i) := fun i hi =>
    hm i hi (Set.left_mem_Icc.2 (hl i hi)) (Set.right_mem_Icc.2 (hl i hi)) (hl i hi)
  have lo : ∀ i < n, ∀ x ∈ Set.Icc 0 (l i), G i 0 ≤ G i x := fun i hi x hx =>
    hm i hi (Set.left_mem_Icc.2 (hl i hi)) hx hx.1
  have up : ∀ i < n, ∀ x ∈ Set.Icc 0 (l i), G i x ≤ G i (l i) := fun i hi x hx =>
    hm i hi hx (Set.right_mem_Icc.2 (hl i hi)) hx.2
  constructor
  · have a : ∀ i, i ≤ j → G 0 0 ≤ G i 0 := by
      intro i
      induction i with
      | zero => intro _; rfl
      | succ i ih =>
        intro hi
        rw [← hc i (by omega) (by omega)]
        exact (ih (by omega)).trans (seg i (by omega))
    have b : ∀ d i, i + d = j → G i (l i) ≤ G j (l j) := by
      intro d
      induction d with
      | zero => intro i hi; obtain rfl : i = j := by omega
                rfl
      | succ d ih =>
        intro i hi
        rw [hc i (by omega) (by omega)]
        exact (seg _ (by omega)).trans (ih (i + 1) (by omega))
    exact fun i hi x hx => ⟨(a i hi).trans (lo i (by omega) x hx), (up i (by omega) x hx).trans (b (j - i) i (by omega))⟩
  · have a : ∀ d, j + 1 + d < n → G (j + 1) 0 ≤ G (j + 1 + d) 0 := by
      intro d
      induction d with
      | zero => intro _; rfl
      | succ d ih =>
        intro hd
        have := hc (j + 1 + d) (by omega) (by omega)
        rw [show j + 1 + (d + 1) = j + 1 + d + 1 by omega, ← this]
        exact (ih (by omega)).trans (seg _ (by omega))
    have b : ∀ d i, j < i → i + d = n - 1 → G i (l i) ≤ G (n - 1) (l (n - 1)) := by
      intro d
      induction d with
      | zero => intro i _ hi; obtain rfl : i = n - 1 := by omega
                rfl
      | succ d ih =>
        intro i hi hd
        rw [hc i (by omega) (by omega)]
        exact (seg _ (by omega)).trans (ih (i + 1) (by omega) (by omega))
    intro i hji hi x hx
    have := a (i - (j + 1)) (by omega)
    rw [show j + 1 + (i - (j + 1)) = i by omega] at this
    exact ⟨this.trans (lo i hi x hx), (up i hi x hx).trans (b (n - 1 - i) i hji (by omega))⟩

/-- Tangential displacement of the bottom face of the slab relative to the
base of the weak layer. -/
noncomputable def Beam.slip (b : Beam) (z : Vec6) : ℝ := z 0 + b.h / 2 * z 4 - b.t / 2 * z 3

/-- Derivative of the slip along an unloaded supported segment. -/
noncomputable def Beam.slipRate (b : Beam) (z : Vec6) : ℝ := z 1 + (b.h + b.t) / 2 * z 5 - b.t * b.kn / (2 * b.S) * z 2

variable {b : Beam}

theorem slip_deriv (hb : b.Coercive) {f : ℝ → Vec6} (hf : SolvesODE b Loads.zero true f) (x : ℝ) :
    HasDerivAt (fun y => b.slip (f y)) (b.slipRate (f x)) x := by
  obtain ⟨dz, h1, h2⟩ := hf x
  have k : EquilBedded b Loads.zero (f x) dz := by simpa [Equil] using h2
  have h := hasDerivAt_pi.mp h1
  refine (((h 0).add ((h 4).const_mul (b.h / 2))).sub ((h 3).const_mul (b.t / 2))).congr_deriv ?_
  have hV := k.V
  simp only [Loads.zero, add_zero, sub_zero] at hV
  have h3 : dz 3 = b.kn * f x 2 / b.S - f x 5 := by
    rw [eq_sub_iff_add_eq, eq_div_iff hb.S.ne', ← hV, k.kin.psi]; ring
  rw [k.kin.u, k.kin.psi, h3]
  unfold Beam.slipRate
  field_simp [hb.S.ne']
  ring

theorem bend_deriv (hb : b.Coercive) {f : ℝ → Vec6} (hf : SolvesODE b Loads.zero true f) (x : ℝ) :
    HasDerivAt (fun y => f y 2) (f x 3) x ∧ HasDerivAt (fun y => f y 3) (b.kn / b.S * f x 2 - f x 5) x := by
  obtain ⟨dz, h1, h2⟩ := hf x
  have k : EquilBedded b Loads.zero (f x) dz := by simpa [Equil] using h2
  have h := hasDerivAt_pi.mp h1
  have hV := k.V
  simp only [Loads.zero, add_zero, sub_zero] at hV
  refine ⟨(h 2).congr_deriv k.kin.w, (h 3).congr_deriv ?_⟩
  rw [eq_sub_iff_add_eq, div_mul_eq_mul_div, eq_div_iff hb.S.ne', ← hV, k.kin.psi]; ring

theorem bedded_flux_deriv {f : ℝ → Vec6} (hf : SolvesODE b Loads.zero true f) (x : ℝ) :
    HasDerivAt (fun y => b.flux (f y)) (b.diss true (f x)) x := by
  obtain ⟨dz, h1, h2⟩ := hf x
  exact b.flux_deriv true f x dz h1 h2

/-- The combination of power, deflection and slope whose growth bounds the
deflection. -/
noncomputable def Beam.sink (b : Beam) (a β σ : ℝ) (z : Vec6) : ℝ := a * b.flux z + β * (z 2 * z 3) + σ * z 2 ^ 2

theorem sink_mono (hb : b.Coercive) {δ β σ : ℝ} (hδ : ∀ x y, δ * y ^ 2 ≤ b.A * x ^ 2 + 2 * b.B * x * y + b.D * y ^ 2)
    (hβ : 0 < β) (hβ' : β ^ 4 * b.kn ≤ 8 * δ) (hσ : σ ^ 2 = 1) {f : ℝ → Vec6} (hf : SolvesODE b Loads.zero true f) :
    Monotone fun x => b.sink (2 / (b.kn * β)) β σ (f x) := by
  have hk := hb.kn
  have hd : ∀ x, HasDerivAt (fun x => b.sink (2 / (b.kn * β)) β σ (f x)) (2 / (b.kn * β) * b.diss true (f x) +
      β * (f x 3 * f x 3 + f x 2 * (b.kn / b.S * f x 2 - f x 5)) + σ * (2 * f x 2 * f x 3)) x := fun x => by
    obtain ⟨d2, d3⟩ := bend_deriv hb hf x
    unfold Beam.sink
    refine ((((bedded_flux_deriv hf x).const_mul _).add ((d2.mul d3).const_mul β)).add ((d2.pow 2).const_mul σ)).congr_deriv ?_
    simp
  refine monotone_of_deriv_nonneg (fun x => (hd x).differentiableAt) fun x => ?_
  rw [(hd x).deriv]
  set w := f x 2
  set w' := f x 3
  set p := f x 5
  have h1 : b.kn * w ^ 2 + δ * p ^ 2 ≤ b.diss true (f x) := by
    rw [Beam.Coercive.diss_eq]
    have := hδ (f x 1) (f x 5)
    have := (hb.layer (f x 3 + f x 4) (f x 0 + b.h / 2 * f x 4 - b.t / 2 * f x 3)).1
    linarith
  have h2 := mul_le_mul_of_nonneg_left h1 (show 0 ≤ 2 / (b.kn * β) by positivity)
  have h3 : 0 ≤ β * (b.kn / b.S * w ^ 2) := by have := hb.S; positivity
  have h4 : 0 ≤ β * (w' + σ * w / β) ^ 2 := by positivity
  have e4 : β * (w' + σ * w / β) ^ 2 = β * (w' * w') + σ * (2 * w * w') + w ^ 2 / β := by
    field_simp
    ring_nf
    rw [hσ]; ring
  have e2 : 2 / (b.kn * β) * (b.kn * w ^ 2 + δ * p ^ 2) = 2 * w ^ 2 / β + 2 * δ / (b.kn * β) * p ^ 2 := by field_simp
  have h5 : 0 ≤ w ^ 2 / β - β * (w * p) + 2 * δ / (b.kn * β) * p ^ 2 := by
    have h6 : β ^ 3 / 4 ≤ 2 * δ / (b.kn * β) := by
      rw [div_le_div_iff₀ (by norm_num) (by positivity)]
      nlinarith
    have h7 := mul_le_mul_of_nonneg_right h6 (sq_nonneg p)
    have e : w ^ 2 / β - β * (w * p) + β ^ 3 / 4 * p ^ 2 = (w - β ^ 2 * p / 2) ^ 2 / β := by field_simp; ring
    have : 0 ≤ (w - β ^ 2 * p / 2) ^ 2 / β := by positivity
    linarith
  have e5 : β * (w' * w' + w * (b.kn / b.S * w - p)) = β * (w' * w') + β * (b.kn / b.S * w ^ 2) - β * (w * p) := by ring
  rw [e5]
  rw [e4] at h4
  rw [e2] at h2
  have e6 : 2 * w ^ 2 / β = w ^ 2 / β + w ^ 2 / β := by ring
  linarith

/-- Deflection and work of a normal load `V` at joint `j` of a supported chain
with fixed ends. -/
theorem chain_deflection (hb : b.Coercive) {δ β : ℝ} (hδ : ∀ x y, δ * y ^ 2 ≤ b.A * x ^ 2 + 2 * b.B * x * y + b.D * y ^ 2)
    (hβ : 0 < β) (hβ' : β ^ 4 * b.kn ≤ 8 * δ) (n : ℕ) (l : ℕ → ℝ) (Z : ℕ → ℝ → Vec6) (F : ℕ → ℝ × ℝ × ℝ) (V : ℝ)
    (hl : ∀ i < n, 0 ≤ l i) (hZ : ∀ i < n, SolvesODE b Loads.zero true (Z i))
    (hbvp : Bvp b n F (.state 0 0 0) (.state 0 0 0) (fun i => Z i 0) (fun i => Z i (l i))) (j : ℕ) (hj : j + 1 < n)
    (hF : ∀ i, i ≠ j → F i = (0, 0, 0)) (hFj : F j = (0, 0, V)) (hV : 0 ≤ V) :
    (0 ≤ Z (j + 1) 0 2 ∧ Z (j + 1) 0 2 ≤ (1 / (b.kn * β) + β / (2 * b.S)) * V) ∧
      (∀ i < n, ∀ x ∈ Set.Icc 0 (l i), |Z i x 2| ≤ (1 / (b.kn * β) + β / (2 * b.S)) * V) ∧
      b.flux (Z j (l j)) ≤ V * Z (j + 1) 0 2 ∧ -b.flux (Z (j + 1) 0) ≤ V * Z (j + 1) 0 2 := by
  have hk := hb.kn
  have hS := hb.S
  set c := 1 / (b.kn * β) + β / (2 * b.S) with hc
  have hcpos : 0 < c := by positivity
  set W := Z (j + 1) 0 2 with hW
  have cont : ∀ i, i + 1 < n → i ≠ j → ∀ a σ, b.sink a β σ (Z i (l i)) = b.sink a β σ (Z (i + 1) 0) := by
    intro i hi hij a σ
    have ht := hbvp.trans i hi
    rw [hF i hij] at ht
    have hfl := transmission_flux ht
    have h3 : Z i (l i) 3 = Z (i + 1) 0 3 := by
      have hv := ht.V
      have hp := ht.psi
      simp only [Beam.V, sub_eq_zero] at hv hp
      have := mul_left_cancel₀ hS.ne' hv
      linarith
    have h2 := ht.w
    unfold Beam.sink
    rw [hfl, h2, h3]
  obtain ⟨t0, t2, t4, tN, tM, tV⟩ := hbvp.trans j hj
  rw [hFj] at tN tM tV
  simp only [sub_eq_iff_eq_add, zero_add] at t0 t2 t4 tN tM tV
  have tflux : b.flux (Z j (l j)) = b.flux (Z (j + 1) 0) + V * W := by
    simp only [Beam.flux, t0, t2, t4, tN, tM, tV]
    ring
  have t3 : Z j (l j) 3 = Z (j + 1) 0 3 + V / b.S := by
    have := tV
    simp only [Beam.V] at this
    rw [t4] at this
    field_simp
    linarith
  have tsink : ∀ σ, b.sink (2 / (b.kn * β)) β σ (Z j (l j)) = b.sink (2 / (b.kn * β)) β σ (Z (j + 1) 0) + 2 * c * (V * W) := by
    intro σ
    unfold Beam.sink
    rw [tflux, t3, t2, hc]
    field_simp
    ring
  have h0 : ∀ σ, b.sink (2 / (b.kn * β)) β σ (Z 0 0) = 0 := by
    intro σ
    obtain ⟨a1, a2, a3⟩ := hbvp.left
    simp [Beam.sink, Beam.flux, a1, a2, a3]
  have h1 : ∀ σ, b.sink (2 / (b.kn * β)) β σ (Z (n - 1) (l (n - 1))) = 0 := by
    intro σ
    obtain ⟨a1, a2, a3⟩ := hbvp.right
    simp [Beam.sink, Beam.flux, a1, a2, a3]
  have mono := fun σ (hσ : σ ^ 2 = 1) => chain_mono (G := fun i x => b.sink (2 / (b.kn * β)) β σ (Z i x)) hl
    (fun i hi => (sink_mono hb hδ hβ hβ' hσ (hZ i hi)).monotoneOn _) (fun i hi hij => cont i hi hij _ _) hj
  obtain ⟨pl, pr⟩ := mono 1 (by norm_num)
  obtain ⟨ml, mr⟩ := mono (-1) (by norm_num)
  simp only [h0, h1] at pl pr ml mr
  have hjl : l j ∈ Set.Icc 0 (l j) := Set.right_mem_Icc.2 (hl j (by omega))
  have hj0 : (0 : ℝ) ∈ Set.Icc 0 (l (j + 1)) := Set.left_mem_Icc.2 (hl _ hj)
  have pj : b.sink (2 / (b.kn * β)) β 1 (Z (j + 1) 0) ≤ 0 := (pr (j + 1) (by omega) hj 0 hj0).2
  have mj : 0 ≤ b.sink (2 / (b.kn * β)) β (-1) (Z j (l j)) := (ml j le_rfl _ hjl).1
  have diff : ∀ z, b.sink (2 / (b.kn * β)) β 1 z - b.sink (2 / (b.kn * β)) β (-1) z = 2 * z 2 ^ 2 := by
    intro z; unfold Beam.sink; ring
  have hsq : ∀ i < n, ∀ x ∈ Set.Icc 0 (l i), Z i x 2 ^ 2 ≤ c * (V * W) := by
    intro i hi x hx
    have hd := diff (Z i x)
    rcases le_or_gt i j with hij | hij
    · have u := (pl i hij x hx).2
      have v := (ml i hij x hx).1
      rw [tsink] at u
      linarith
    · have u := (pr i hij hi x hx).2
      have v := (mr i hij hi x hx).1
      have := tsink (-1)
      linarith
  have hWW := hsq (j + 1) hj 0 hj0
  have hWW : W ^ 2 ≤ c * (V * W) := hWW
  have hWn : 0 ≤ W := by
    by_contra hn
    push Not at hn
    have : c * (V * W) ≤ 0 := mul_nonpos_of_nonneg_of_nonpos hcpos.le (mul_nonpos_of_nonneg_of_nonpos hV hn.le)
    have := pow_pos (neg_pos.2 hn) 2
    nlinarith
  have hWc : W ≤ c * V := by
    rcases hWn.eq_or_lt with e | hp
    · rw [← e]; positivity
    · refine le_of_mul_le_mul_right ?_ hp
      nlinarith
  refine ⟨⟨hWn, hWc⟩, fun i hi x hx => ?_, ?_, ?_⟩
  · refine abs_le_of_sq_le_sq ?_ (by positivity)
    refine (hsq i hi x hx).trans ?_
    have := mul_le_mul_of_nonneg_left hWc (show 0 ≤ c * V by positivity)
    nlinarith
  · have hm := chain_mono (G := fun i x => b.flux (Z i x)) hl (fun i hi => (flux_mono hb (hZ i hi)).monotoneOn _)
      (fun i hi hij => by have := hbvp.trans i hi; rw [hF i hij] at this; exact transmission_flux this) hj
    have := (hm.2 (j + 1) (by omega) hj 0 hj0).2
    obtain ⟨a1, a2, a3⟩ := hbvp.right
    have e : b.flux (Z (n - 1) (l (n - 1))) = 0 := by simp [Beam.flux, a1, a2, a3]
    simp only [e] at this
    linarith
  · have hm := chain_mono (G := fun i x => b.flux (Z i x)) hl (fun i hi => (flux_mono hb (hZ i hi)).monotoneOn _)
      (fun i hi hij => by have := hbvp.trans i hi; rw [hF i hij] at this; exact transmission_flux this) hj
    have := (hm.1 j le_rfl _ hjl).1
    obtain ⟨a1, a2, a3⟩ := hbvp.left
    have e : b.flux (Z 0 0) = 0 := by simp [Beam.flux, a1, a2, a3]
    simp only [e] at this
    linarith

/-- The power weighted with the position, whose growth bounds the slip. -/
theorem slip_mono (hb : b.Coercive) {C1 C2 lam κ m : ℝ} (h1 : ∀ z, b.slip z ^ 2 ≤ C1 * b.diss true z)
    (h2 : ∀ z, b.slipRate z ^ 2 ≤ C2 * b.diss true z) (hlam : 0 < lam) (hm : 0 < m) (hκ : C1 / m + lam * C1 + C2 / lam ≤ κ)
    {f : ℝ → Vec6} (hf : SolvesODE b Loads.zero true f) {p σ : ℝ} (hσ : σ ^ 2 = 1) {l : ℝ}
    (hp : ∀ x ∈ Set.Icc 0 l, 0 ≤ p + σ * x ∧ p + σ * x ≤ m) :
    MonotoneOn (fun x => κ * b.flux (f x) - σ * ((p + σ * x) / m * b.slip (f x) ^ 2)) (Set.Icc 0 l) := by
  have hd : ∀ x, HasDerivAt (fun x => κ * b.flux (f x) - σ * ((p + σ * x) / m * b.slip (f x) ^ 2))
      (κ * b.diss true (f x) - σ * (σ / m * b.slip (f x) ^ 2 + (p + σ * x) / m * (2 * b.slip (f x) * b.slipRate (f x)))) x := by
    intro x
    have hs := slip_deriv hb hf x
    have hx : HasDerivAt (fun x : ℝ => (p + σ * x) / m) (σ / m) x := by
      have := (((hasDerivAt_id x).const_mul σ).const_add p).div_const m
      simpa using this
    refine (((bedded_flux_deriv hf x).const_mul κ).sub ((hx.mul (hs.pow 2)).const_mul σ)).congr_deriv ?_
    simp
  refine monotoneOn_of_deriv_nonneg (convex_Icc 0 l) (fun x _ => (hd x).continuousAt.continuousWithinAt)
    (fun x _ => (hd x).differentiableAt.differentiableWithinAt) fun x hx => ?_
  rw [interior_Icc] at hx
  rw [(hd x).deriv]
  obtain ⟨q1, q2⟩ := hp x ⟨hx.1.le, hx.2.le⟩
  set y := b.slip (f x)
  set y' := b.slipRate (f x)
  set D := b.diss true (f x)
  have hD : 0 ≤ D := hb.diss_nonneg true (f x)
  set φ := (p + σ * x) / m with hφ
  have φ0 : 0 ≤ φ := by positivity
  have φ1 : φ ≤ 1 := by rw [hφ, div_le_one hm]; exact q2
  have e : σ * (σ / m * y ^ 2 + φ * (2 * y * y')) = y ^ 2 / m + φ * (σ * (2 * y * y')) := by
    have : σ * (σ / m * y ^ 2) = σ ^ 2 * (y ^ 2 / m) := by ring
    rw [mul_add, this, hσ]; ring
  rw [e]
  have k1 : y ^ 2 / m ≤ C1 / m * D := by
    rw [div_mul_eq_mul_div]; exact div_le_div_of_nonneg_right (h1 _) hm.le
  have k2 : σ * (2 * y * y') ≤ lam * y ^ 2 + y' ^ 2 / lam := by
    have : 0 ≤ (lam * y - σ * y') ^ 2 / lam := by positivity
    have e : (lam * y - σ * y') ^ 2 / lam = lam * y ^ 2 - σ * (2 * y * y') + σ ^ 2 * (y' ^ 2 / lam) := by
      field_simp
      ring
    rw [e, hσ] at this
    linarith
  have k3 : 0 ≤ lam * y ^ 2 + y' ^ 2 / lam := by positivity
  have k4 : φ * (σ * (2 * y * y')) ≤ lam * y ^ 2 + y' ^ 2 / lam := by
    calc φ * (σ * (2 * y * y')) ≤ φ * (lam * y ^ 2 + y' ^ 2 / lam) := mul_le_mul_of_nonneg_left k2 φ0
      _ ≤ _ := by nlinarith
  have k5 : lam * y ^ 2 ≤ lam * C1 * D := by
    have := mul_le_mul_of_nonneg_left (h1 (f x)) hlam.le
    linarith
  have k6 : y' ^ 2 / lam ≤ C2 / lam * D := by
    rw [div_mul_eq_mul_div]; exact div_le_div_of_nonneg_right (h2 _) hlam.le
  have k7 := mul_le_mul_of_nonneg_right hκ hD
  nlinarith

/-- Slip of the weak layer under a normal load in the middle of a supported
chain with fixed ends. -/
theorem chain_slip (hb : b.Coercive) {C1 C2 lam κ m : ℝ} (h1 : ∀ z, b.slip z ^ 2 ≤ C1 * b.diss true z)
    (h2 : ∀ z, b.slipRate z ^ 2 ≤ C2 * b.diss true z) (hlam : 0 < lam) (hm : 0 < m) (hκ : C1 / m + lam * C1 + C2 / lam ≤ κ)
    (n : ℕ) (l start : ℕ → ℝ) (Z : ℕ → ℝ → Vec6) (F : ℕ → ℝ × ℝ × ℝ)
    (hl : ∀ i < n, 0 ≤ l i) (hZ : ∀ i < n, SolvesODE b Loads.zero true (Z i))
    (hbvp : Bvp b n F (.state 0 0 0) (.state 0 0 0) (fun i => Z i 0) (fun i => Z i (l i))) (j : ℕ) (hj : j + 1 < n)
    (hF : ∀ i, i ≠ j → F i = (0, 0, 0)) (s0 : start 0 = 0) (s1 : ∀ i < n, start (i + 1) = start i + l i)
    (sm : start (j + 1) = m) (sn : start n = m + m) :
    (∀ i ≤ j, ∀ x ∈ Set.Icc 0 (l i), b.slip (Z i x) ^ 2 ≤ κ * b.flux (Z j (l j))) ∧
      ∀ i, j < i → i < n → ∀ x ∈ Set.Icc 0 (l i), b.slip (Z i x) ^ 2 ≤ κ * -b.flux (Z (j + 1) 0) := by
  have hS := hb.S
  have smono : ∀ d i, i + d ≤ n → start i ≤ start (i + d) := by
    intro d
    induction d with
    | zero => intro i _; exact le_rfl
    | succ d ih =>
      intro i hi
      have := s1 (i + d) (by omega)
      have := hl (i + d) (by omega)
      have := ih i (by omega)
      rw [show i + (d + 1) = i + d + 1 by omega]
      linarith
  have mono' : ∀ i k, i ≤ k → k ≤ n → start i ≤ start k := fun i k h h' => by
    have := smono (k - i) i (by omega)
    rwa [show i + (k - i) = k by omega] at this
  have hslip : ∀ i, i + 1 < n → i ≠ j → b.slip (Z i (l i)) = b.slip (Z (i + 1) 0) ∧ b.flux (Z i (l i)) = b.flux (Z (i + 1) 0) := by
    intro i hi hij
    have ht := hbvp.trans i hi
    rw [hF i hij] at ht
    have h3 : Z i (l i) 3 = Z (i + 1) 0 3 := by
      have hv := ht.V
      have hp := ht.psi
      simp only [Beam.V, sub_eq_zero] at hv hp
      have := mul_left_cancel₀ hS.ne' hv
      linarith
    have h0 := ht.u
    have h4 := ht.psi
    refine ⟨?_, transmission_flux ht⟩
    unfold Beam.slip
    rw [h0, h3, h4]
  have hjl : l j ∈ Set.Icc 0 (l j) := Set.right_mem_Icc.2 (hl j (by omega))
  have hj0 : (0 : ℝ) ∈ Set.Icc 0 (l (j + 1)) := Set.left_mem_Icc.2 (hl _ hj)
  have f0 : b.flux (Z 0 0) = 0 := by
    obtain ⟨a1, a2, a3⟩ := hbvp.left
    simp [Beam.flux, a1, a2, a3]
  have f1 : b.flux (Z (n - 1) (l (n - 1))) = 0 := by
    obtain ⟨a1, a2, a3⟩ := hbvp.right
    simp [Beam.flux, a1, a2, a3]
  -- position measured within the part of the chain that contains the segment
  set pos : ℕ → ℝ := fun i => start i - if i ≤ j then 0 else m with hpos
  have pin : ∀ i < n, ∀ x ∈ Set.Icc 0 (l i), 0 ≤ pos i + x ∧ pos i + x ≤ m := by
    intro i hi x hx
    have e := s1 i hi
    by_cases hij : i ≤ j
    · have a := mono' 0 i (by omega) (by omega)
      have c := mono' (i + 1) (j + 1) (by omega) (by omega)
      simp only [hpos, if_pos hij, sub_zero]
      exact ⟨by linarith [hx.1], by linarith [hx.2]⟩
    · have a := mono' (j + 1) i (by omega) (by omega)
      have c := mono' (i + 1) n (by omega) (by omega)
      simp only [hpos, if_neg hij]
      exact ⟨by linarith [hx.1], by linarith [hx.2]⟩
  have pnext : ∀ i, i + 1 < n → i ≠ j → pos i + l i = pos (i + 1) := by
    intro i hi hij
    have e := s1 i (by omega)
    by_cases h : i ≤ j
    · simp only [hpos, if_pos h, if_pos (show i + 1 ≤ j by omega)]; linarith
    · simp only [hpos, if_neg h, if_neg (show ¬ i + 1 ≤ j by omega)]; linarith
  have up := chain_mono (G := fun i x => κ * b.flux (Z i x) - 1 * ((pos i + 1 * x) / m * b.slip (Z i x) ^ 2)) hl
    (fun i hi => slip_mono hb h1 h2 hlam hm hκ (hZ i hi) (one_pow 2) (fun x hx => by rw [one_mul]; exact pin i hi x hx))
    (fun i hi hij => by
      obtain ⟨e1, e2⟩ := hslip i hi hij
      simp only [one_mul, e1, e2, pnext i hi hij, add_zero]) hj
  have dn := chain_mono (G := fun i x => κ * b.flux (Z i x) - -1 * ((m - pos i + -1 * x) / m * b.slip (Z i x) ^ 2)) hl
    (fun i hi => slip_mono hb h1 h2 hlam hm hκ (hZ i hi) (by norm_num) (fun x hx => by
      have := pin i hi x hx
      exact ⟨by linarith, by linarith⟩))
    (fun i hi hij => by
      obtain ⟨e1, e2⟩ := hslip i hi hij
      have : m - pos i + -1 * l i = m - pos (i + 1) := by rw [← pnext i hi hij]; ring
      simp only [e1, e2, this, mul_zero, add_zero]) hj
  have split : ∀ p y : ℝ, (p + 1 * y) / m + (m - p + -1 * y) / m = 1 := fun p y => by field_simp; ring
  have pj : pos j + l j = m := by
    simp only [hpos, if_pos le_rfl]
    have := s1 j (by omega)
    linarith
  have pj1 : pos (j + 1) = 0 := by
    simp only [hpos, if_neg (show ¬ j + 1 ≤ j by omega)]; linarith
  have pn : pos (n - 1) + l (n - 1) = m := by
    simp only [hpos, if_neg (show ¬ n - 1 ≤ j by omega)]
    have := s1 (n - 1) (by omega)
    rw [show n - 1 + 1 = n by omega] at this
    linarith
  have p0 : pos 0 = 0 := by simp [hpos, s0]
  constructor
  · intro i hi x hx
    have a := (up.1 i hi x hx).1
    have c := (dn.1 i hi x hx).2
    simp only [f0, p0] at a
    have e : m - pos j + -1 * l j = 0 := by linarith
    simp only [e] at c
    have e' : (pos i + 1 * x) / m * b.slip (Z i x) ^ 2 + (m - pos i + -1 * x) / m * b.slip (Z i x) ^ 2 = b.slip (Z i x) ^ 2 := by
      rw [← add_mul, split, one_mul]
    simp only [mul_zero, zero_div, add_zero, zero_mul, sub_zero] at a c
    linarith
  · intro i hij hi x hx
    have a := (up.2 i hij hi x hx).1
    have c := (dn.2 i hij hi x hx).2
    have e : m - pos (n - 1) + -1 * l (n - 1) = 0 := by linarith
    simp only [f1, e] at c
    simp only [pj1] at a
    have e' : (pos i + 1 * x) / m * b.slip (Z i x) ^ 2 + (m - pos i + -1 * x) / m * b.slip (Z i x) ^ 2 = b.slip (Z i x) ^ 2 := by
      rw [← add_mul, split, one_mul]
    simp only [mul_zero, zero_div, add_zero, zero_mul, sub_zero] at a c
    linarith

/-- Square of the slip per strain energy. -/
noncomputable def Beam.slipCompliance (b : Beam) : ℝ := 1 / b.kt + b.t ^ 2 / (16 * b.S - b.kt * b.t ^ 2)

/-- Square of the rate of slip per strain energy. -/
noncomputable def Beam.slipRateCompliance (b : Beam) : ℝ :=
  (b.D - 2 * b.B * ((b.h + b.t) / 2) + b.A * ((b.h + b.t) / 2) ^ 2) / (b.A * b.D - b.B ^ 2) + b.t ^ 2 * b.kn / (4 * b.S ^ 2)

theorem slip_compliance (hb : b.Coercive) (z : Vec6) : b.slip z ^ 2 ≤ b.slipCompliance * b.diss true z := by
  have hk := hb.kt
  have hq : 0 < 16 * b.S - b.kt * b.t ^ 2 := by linarith [hb.shear]
  have hd : b.kt * (b.slip z + b.t / 4 * (z 3 + z 4)) ^ 2 + (16 * b.S - b.kt * b.t ^ 2) / 16 * (z 3 + z 4) ^ 2 ≤ b.diss true z := by
    rw [Beam.Coercive.diss_eq]
    have h1 := (hb.slab (z 1) (z 5)).1
    have h2 := mul_nonneg hb.kn.le (sq_nonneg (z 2))
    unfold Beam.slip
    nlinarith
  have h0 : 0 ≤ b.slipCompliance := by unfold Beam.slipCompliance; positivity
  refine le_trans ?_ (mul_le_mul_of_nonneg_left hd h0)
  unfold Beam.slipCompliance
  set y := b.slip z
  set g := z 3 + z 4
  set q := 16 * b.S - b.kt * b.t ^ 2
  have e : (1 / b.kt + b.t ^ 2 / q) * (b.kt * (y + b.t / 4 * g) ^ 2 + q / 16 * g ^ 2) - y ^ 2 =
      (b.kt * b.t * (y + b.t / 4 * g) + q / 4 * g) ^ 2 / (b.kt * q) := by
    field_simp
    ring
  have : 0 ≤ (b.kt * b.t * (y + b.t / 4 * g) + q / 4 * g) ^ 2 / (b.kt * q) := by positivity
  linarith

theorem slipRate_compliance (hb : b.Coercive) (z : Vec6) : b.slipRate z ^ 2 ≤ b.slipRateCompliance * b.diss true z := by
  have hk := hb.kn
  have hS := hb.S
  have hdet := hb.det
  have hA := hb.A
  have hd : (b.A * z 1 ^ 2 + 2 * b.B * z 1 * z 5 + b.D * z 5 ^ 2) + b.kn * z 2 ^ 2 ≤ b.diss true z := by
    rw [Beam.Coercive.diss_eq]
    have h2 := (hb.layer (z 3 + z 4) (z 0 + b.h / 2 * z 4 - b.t / 2 * z 3)).1
    linarith
  obtain ⟨e, he⟩ : ∃ e, e = (b.h + b.t) / 2 := ⟨_, rfl⟩
  have hnum : 0 ≤ b.D - 2 * b.B * e + b.A * e ^ 2 := by
    have := (hb.slab (-e) 1).1
    have h3 : b.A * (b.D - 2 * b.B * e + b.A * e ^ 2) = (b.A * e - b.B) ^ 2 + (b.A * b.D - b.B ^ 2) := by ring
    have h4 : 0 ≤ b.A * (b.D - 2 * b.B * e + b.A * e ^ 2) := by rw [h3]; positivity
    exact nonneg_of_mul_nonneg_right h4 hA
  set P := (b.D - 2 * b.B * e + b.A * e ^ 2) / (b.A * b.D - b.B ^ 2) with hP
  set Q := b.t ^ 2 * b.kn / (4 * b.S ^ 2) with hQ
  have hP0 : 0 ≤ P := by positivity
  have hQ0 : 0 ≤ Q := by positivity
  have hPQ : b.slipRateCompliance = P + Q := by unfold Beam.slipRateCompliance; rw [hP, hQ, he]
  rw [hPQ]
  refine le_trans ?_ (mul_le_mul_of_nonneg_left hd (add_nonneg hP0 hQ0))
  have k1 : (z 1 + e * z 5) ^ 2 ≤ P * (b.A * z 1 ^ 2 + 2 * b.B * z 1 * z 5 + b.D * z 5 ^ 2) := by
    rw [hP, div_mul_eq_mul_div, le_div_iff₀ hdet]
    have e1 : (b.D - 2 * b.B * e + b.A * e ^ 2) * (b.A * z 1 ^ 2 + 2 * b.B * z 1 * z 5 + b.D * z 5 ^ 2) -
        (z 1 + e * z 5) ^ 2 * (b.A * b.D - b.B ^ 2) = ((b.A * e - b.B) * z 1 + (b.B * e - b.D) * z 5) ^ 2 := by ring
    nlinarith [sq_nonneg ((b.A * e - b.B) * z 1 + (b.B * e - b.D) * z 5)]
  have k2 : (b.t * b.kn / (2 * b.S) * z 2) ^ 2 ≤ Q * (b.kn * z 2 ^ 2) := by
    rw [hQ]
    apply le_of_eq
    field_simp
    ring
  have hr : b.slipRate z = (z 1 + e * z 5) - b.t * b.kn / (2 * b.S) * z 2 := by rw [he]; rfl
  rw [hr]
  set X := z 1 + e * z 5
  set Y := b.t * b.kn / (2 * b.S) * z 2
  set E1 := b.A * z 1 ^ 2 + 2 * b.B * z 1 * z 5 + b.D * z 5 ^ 2
  set E2 := b.kn * z 2 ^ 2
  have hE1 : 0 ≤ E1 := (hb.slab _ _).1
  have hE2 : 0 ≤ E2 := by positivity
  -- Cauchy-Schwarz for the two parts
  have k3 : -(2 * X * Y) ≤ P * E2 + Q * E1 := by
    have h1 : (X * Y) ^ 2 ≤ (P * E1) * (Q * E2) := by
      rw [mul_pow]; exact mul_le_mul k1 k2 (sq_nonneg _) (by positivity)
    have h2 : (2 * (X * Y)) ^ 2 ≤ (P * E2 + Q * E1) ^ 2 := by
      nlinarith [sq_nonneg (P * E2 - Q * E1)]
    have h3 := abs_le_of_sq_le_sq h2 (by positivity)
    have := (abs_le.1 h3).1
    linarith
  nlinarith

end Weac.Spec
