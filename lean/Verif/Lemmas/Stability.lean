import Verif.Lemmas.Lengthen
import Verif.Spec.Nearly

/-!
# Chains that meet their conditions up to a residual
-/

namespace Weac.Spec

variable {b : Beam}

theorem Beam.force_le (z : Vec6) : |b.N z| ≤ b.fluxNorm * ‖z‖ ∧ |b.M z| ≤ b.fluxNorm * ‖z‖ ∧ |b.V z| ≤ b.fluxNorm * ‖z‖ := by
  have hz := fun q => norm_le_pi_norm z q
  simp only [Real.norm_eq_abs] at hz
  have hA := abs_nonneg b.A
  have hB := abs_nonneg b.B
  have hD := abs_nonneg b.D
  have hS := abs_nonneg b.S
  have hn := norm_nonneg z
  have a1 := mul_nonneg hA hn
  have a2 := mul_nonneg hB hn
  have a3 := mul_nonneg hD hn
  have a4 := mul_nonneg hS hn
  unfold Beam.fluxNorm Beam.N Beam.M Beam.V
  refine ⟨?_, ?_, ?_⟩
  · refine (abs_add_le _ _).trans ?_
    rw [abs_mul, abs_mul]
    have := mul_le_mul_of_nonneg_left (hz 1) hA
    have := mul_le_mul_of_nonneg_left (hz 5) hB
    linarith
  · refine (abs_add_le _ _).trans ?_
    rw [abs_mul, abs_mul]
    have := mul_le_mul_of_nonneg_left (hz 1) hB
    have := mul_le_mul_of_nonneg_left (hz 5) hD
    linarith
  · rw [abs_mul]
    have h1 := abs_add_le (z 3) (z 4)
    have := mul_le_mul_of_nonneg_left (h1.trans (add_le_add (hz 3) (hz 4))) hS
    linarith

theorem fluxNorm_nonneg : 0 ≤ b.fluxNorm := by unfold Beam.fluxNorm; positivity

theorem abs_prod_le {x y p q : ℝ} (h1 : |x| ≤ p) (h2 : |y| ≤ q) : |x * y| ≤ p * q := by
  rw [abs_mul]
  exact mul_le_mul h1 h2 (abs_nonneg _) ((abs_nonneg _).trans h1)

/-- Power that enters through a passive end. -/
theorem EndCond.near_flux_left {e : EndCond} (he : e.PassiveLeft) {ε : ℝ} {z : Vec6} (h : e.hom.Near b ε z) :
    -((b.fluxNorm + 3) * ‖z‖ * ε) ≤ b.flux z := by
  have hz := fun q => norm_le_pi_norm z q
  simp only [Real.norm_eq_abs] at hz
  obtain ⟨f1, f2, f3⟩ := Beam.force_le (b := b) z
  have hF := fluxNorm_nonneg (b := b)
  have hn := norm_nonneg z
  cases e with
  | forces N M V =>
    obtain ⟨h1, h2, h3⟩ := h
    simp only [sub_zero] at h1 h2 h3
    have p1 := (abs_le.1 (abs_prod_le h1 (hz 0))).1
    have p2 := (abs_le.1 (abs_prod_le h2 (hz 4))).1
    have p3 := (abs_le.1 (abs_prod_le h3 (hz 2))).1
    have hε := (abs_nonneg _).trans h1
    have := mul_nonneg (mul_nonneg hF hn) hε
    unfold Beam.flux
    linarith
  | contact N kR w =>
    obtain ⟨h1, h2, h3⟩ := h
    simp only [sub_zero] at h1 h3
    have p1 := (abs_le.1 (abs_prod_le h1 (hz 0))).1
    have p2 := (abs_le.1 (abs_prod_le h2 (hz 4))).1
    have p3 := (abs_le.1 (abs_prod_le f3 h3)).1
    have hε := (abs_nonneg _).trans h1
    have := mul_nonneg hn hε
    have he : kR ≤ 0 := he
    have := mul_nonneg (neg_nonneg.2 he) (sq_nonneg (z 4))
    unfold Beam.flux
    linarith
  | state u w psi =>
    obtain ⟨h1, h2, h3⟩ := h
    simp only [sub_zero] at h1 h2 h3
    have := (abs_le.1 (flux_le (b := b) z h1 h2 h3)).1
    have hε := (abs_nonneg _).trans h1
    have := mul_nonneg hn hε
    linarith

theorem EndCond.near_flux_right {e : EndCond} (he : e.PassiveRight) {ε : ℝ} {z : Vec6} (h : e.hom.Near b ε z) :
    b.flux z ≤ (b.fluxNorm + 3) * ‖z‖ * ε := by
  have hz := fun q => norm_le_pi_norm z q
  simp only [Real.norm_eq_abs] at hz
  obtain ⟨f1, f2, f3⟩ := Beam.force_le (b := b) z
  have hF := fluxNorm_nonneg (b := b)
  have hn := norm_nonneg z
  cases e with
  | forces N M V =>
    obtain ⟨h1, h2, h3⟩ := h
    simp only [sub_zero] at h1 h2 h3
    have p1 := (abs_le.1 (abs_prod_le h1 (hz 0))).2
    have p2 := (abs_le.1 (abs_prod_le h2 (hz 4))).2
    have p3 := (abs_le.1 (abs_prod_le h3 (hz 2))).2
    have hε := (abs_nonneg _).trans h1
    have := mul_nonneg (mul_nonneg hF hn) hε
    unfold Beam.flux
    linarith
  | contact N kR w =>
    obtain ⟨h1, h2, h3⟩ := h
    simp only [sub_zero] at h1 h3
    have p1 := (abs_le.1 (abs_prod_le h1 (hz 0))).2
    have p2 := (abs_le.1 (abs_prod_le h2 (hz 4))).2
    have p3 := (abs_le.1 (abs_prod_le f3 h3)).2
    have hε := (abs_nonneg _).trans h1
    have := mul_nonneg hn hε
    have he : 0 ≤ kR := he
    have := mul_nonneg he (sq_nonneg (z 4))
    unfold Beam.flux
    linarith
  | state u w psi =>
    obtain ⟨h1, h2, h3⟩ := h
    simp only [sub_zero] at h1 h2 h3
    have := (abs_le.1 (flux_le (b := b) z h1 h2 h3)).2
    have hε := (abs_nonneg _).trans h1
    have := mul_nonneg hn hε
    linarith

/-- Bound for the jump of the state per residual. -/
noncomputable def Beam.jumpNorm (b : Beam) : ℝ := 1 + (|b.A| + |b.B| + |b.D|) / (b.A * b.D - b.B ^ 2) + 1 / b.S

theorem near_jump (hb : b.Coercive) {ε : ℝ} {zl zr : Vec6} (h : NearTransmission b ε (0, 0, 0) zl zr) :
    ‖zl - zr‖ ≤ b.jumpNorm * ε := by
  have hε := (abs_nonneg _).trans h.u
  have hd := hb.det
  have hS := hb.S
  have hN : |b.N (zl - zr)| ≤ ε := by
    have := h.N
    simp only [sub_zero] at this
    have e : b.N (zl - zr) = b.N zl - b.N zr := by simp [Beam.N]; ring
    rwa [e]
  have hM : |b.M (zl - zr)| ≤ ε := by
    have := h.M
    simp only [sub_zero] at this
    have e : b.M (zl - zr) = b.M zl - b.M zr := by simp [Beam.M]; ring
    rwa [e]
  have hV : |b.V (zl - zr)| ≤ ε := by
    have := h.V
    simp only [sub_zero] at this
    have e : b.V (zl - zr) = b.V zl - b.V zr := by simp [Beam.V]; ring
    rwa [e]
  have h0 := h.u
  have h2 := h.w
  have h4 := h.psi
  rw [← Pi.sub_apply] at h0 h2 h4
  set r := zl - zr
  set δ := b.A * b.D - b.B ^ 2 with hδ
  have hT : 0 ≤ (|b.A| + |b.B| + |b.D|) / δ := by positivity
  have hS1 : 0 ≤ 1 / b.S := by positivity
  have big1 : ε ≤ b.jumpNorm * ε := by
    unfold Beam.jumpNorm
    have := mul_nonneg hT hε
    have := mul_nonneg hS1 hε
    linarith
  have h1 : |r 1| ≤ (|b.A| + |b.B| + |b.D|) / δ * ε := by
    have e : r 1 = (b.D * b.N r - b.B * b.M r) / δ := by
      rw [eq_div_iff hd.ne', hδ]; unfold Beam.N Beam.M; ring
    rw [e, abs_div, abs_of_pos hd, div_mul_eq_mul_div]
    refine div_le_div_of_nonneg_right ?_ hd.le
    refine (abs_sub _ _).trans ?_
    have p := abs_prod_le (le_refl |b.D|) hN
    have q := abs_prod_le (le_refl |b.B|) hM
    have := mul_nonneg (abs_nonneg b.A) hε
    linarith
  have h5 : |r 5| ≤ (|b.A| + |b.B| + |b.D|) / δ * ε := by
    have e : r 5 = (b.A * b.M r - b.B * b.N r) / δ := by
      rw [eq_div_iff hd.ne', hδ]; unfold Beam.N Beam.M; ring
    rw [e, abs_div, abs_of_pos hd, div_mul_eq_mul_div]
    refine div_le_div_of_nonneg_right ?_ hd.le
    refine (abs_sub _ _).trans ?_
    have p := abs_prod_le (le_refl |b.A|) hM
    have q := abs_prod_le (le_refl |b.B|) hN
    have := mul_nonneg (abs_nonneg b.D) hε
    linarith
  have h3 : |r 3| ≤ ε + 1 / b.S * ε := by
    have e : r 3 = 1 / b.S * b.V r - r 4 := by unfold Beam.V; field_simp; ring
    rw [e]
    refine (abs_sub _ _).trans ?_
    have p := abs_prod_le (abs_of_pos (by positivity : 0 < 1 / b.S)).le hV
    linarith
  rw [pi_norm_le_iff_of_nonneg (hε.trans big1)]
  have k := mul_nonneg hT hε
  have k' := mul_nonneg hS1 hε
  have e : b.jumpNorm * ε = ε + (|b.A| + |b.B| + |b.D|) / δ * ε + 1 / b.S * ε := by unfold Beam.jumpNorm; ring
  intro q
  rw [Real.norm_eq_abs]
  fin_cases q
  · exact h0.trans big1
  · exact h1.trans (by linarith)
  · exact h2.trans big1
  · exact h3.trans (by linarith)
  · exact h4.trans big1
  · exact h5.trans (by linarith)

theorem near_flux {ε : ℝ} {zl zr : Vec6} (h : NearTransmission b ε (0, 0, 0) zl zr) :
    b.flux zl - b.flux zr ≤ (b.fluxNorm * 3 * ‖zl‖ + 3 * ‖zr‖) * ε := by
  have hz := fun q => norm_le_pi_norm zr q
  simp only [Real.norm_eq_abs] at hz
  obtain ⟨f1, f2, f3⟩ := Beam.force_le (b := b) zl
  have hN := h.N
  have hM := h.M
  have hV := h.V
  simp only [sub_zero] at hN hM hV
  have a1 := (abs_le.1 (abs_prod_le f1 h.u)).2
  have a2 := (abs_le.1 (abs_prod_le f2 h.psi)).2
  have a3 := (abs_le.1 (abs_prod_le f3 h.w)).2
  have b1 := (abs_le.1 (abs_prod_le hN (hz 0))).2
  have b2 := (abs_le.1 (abs_prod_le hM (hz 4))).2
  have b3 := (abs_le.1 (abs_prod_le hV (hz 2))).2
  have e : b.flux zl - b.flux zr = b.N zl * (zl 0 - zr 0) + b.M zl * (zl 4 - zr 4) + b.V zl * (zl 2 - zr 2) +
      ((b.N zl - b.N zr) * zr 0 + (b.M zl - b.M zr) * zr 4 + (b.V zl - b.V zr) * zr 2) := by
    unfold Beam.flux; ring
  rw [e]
  linarith

/-- An unloaded chain that meets its conditions up to `ε`. -/
structure Rough (b : Beam) (ε : ℝ) (n : ℕ) (k : ℕ → Bool) (l : ℕ → ℝ) (e0 e1 : EndCond) (D : ℕ → ℝ → Vec6) : Prop where
  solves : ∀ i < n, SolvesODE b Loads.zero (k i) (D i)
  bvp : NearBvp b ε n (fun _ => (0, 0, 0)) e0.hom e1.hom (fun i => D i 0) (fun i => D i (l i))

/-- Strain energy of a chain whose states are bounded by `X`. -/
theorem Rough.energy {ε : ℝ} {n : ℕ} {k : ℕ → Bool} {l : ℕ → ℝ} {e0 e1 : EndCond} {D : ℕ → ℝ → Vec6}
    (h : Rough b ε n k l e0 e1 D) (hn : 0 < n) (he0 : e0.PassiveLeft) (he1 : e1.PassiveRight) (hε : 0 ≤ ε)
    {X : ℝ} (hX : ∀ i < n, ‖D i 0‖ ≤ X ∧ ‖D i (l i)‖ ≤ X) :
    ∑ i ∈ Finset.range n, (b.flux (D i (l i)) - b.flux (D i 0)) ≤ (n + 1) * ((3 * b.fluxNorm + 3) * X * ε) := by
  have hF := fluxNorm_nonneg (b := b)
  have hX0 : 0 ≤ X := (norm_nonneg _).trans (hX 0 hn).1
  have part : ∀ m, m < n → ∑ i ∈ Finset.range (m + 1), (b.flux (D i (l i)) - b.flux (D i 0)) ≤
      m * ((3 * b.fluxNorm + 3) * X * ε) + (b.flux (D m (l m)) - b.flux (D 0 0)) := by
    intro m
    induction m with
    | zero => intro _; simp
    | succ m ih =>
      intro hm
      rw [Finset.sum_range_succ]
      have h1 := ih (by omega)
      have h2 := near_flux (h.bvp.trans m hm)
      have h3 : (b.fluxNorm * 3 * ‖D m (l m)‖ + 3 * ‖D (m + 1) 0‖) * ε ≤ (3 * b.fluxNorm + 3) * X * ε := by
        refine mul_le_mul_of_nonneg_right ?_ hε
        have := mul_le_mul_of_nonneg_left (hX m (by omega)).2 hF
        have := (hX (m + 1) hm).1
        linarith
      push_cast
      linarith
  have h1 := part (n - 1) (by omega)
  rw [Nat.sub_add_cancel hn] at h1
  have h2 := EndCond.near_flux_left (b := b) he0 h.bvp.left
  have h3 := EndCond.near_flux_right (b := b) he1 h.bvp.right
  have up : ∀ y, 0 ≤ y → y ≤ X → (b.fluxNorm + 3) * y * ε ≤ (3 * b.fluxNorm + 3) * X * ε := by
    intro y hy hyX
    refine mul_le_mul_of_nonneg_right ?_ hε
    exact mul_le_mul (by linarith) hyX hy (by linarith)
  have h4 := up _ (norm_nonneg _) (hX 0 hn).1
  have h5 := up _ (norm_nonneg _) (hX (n - 1) (by omega)).2
  have e : ((n - 1 : ℕ) : ℝ) = (n : ℝ) - 1 := by rw [Nat.cast_sub hn]; simp
  rw [e] at h1
  linarith

theorem linear_of_quadratic {y p q ε : ℝ} (hp : 0 ≤ p) (hq : 0 ≤ q) (hε : 0 ≤ ε) (h : y ^ 2 ≤ p * ε * y + q * ε ^ 2) :
    y ≤ (p + q + 1) * ε := by
  by_contra hn
  push Not at hn
  have h0 : 0 ≤ (p + q + 1) * ε := by positivity
  have hy : 0 < y := by linarith
  have h1 : ε ≤ y := by nlinarith
  have h2 : (p + q + 1) * ε * y < y ^ 2 := by rw [pow_two]; exact mul_lt_mul_of_pos_right hn hy
  have h3 : q * ε * ε ≤ q * ε * y := mul_le_mul_of_nonneg_left h1 (by positivity)
  have h4 : 0 ≤ ε * y := by positivity
  nlinarith

/-- Chains that meet their conditions up to `ε` are within a multiple of `ε`
of rest. The multiple does not depend on the length of the supported
segments. -/
theorem rough_bound (hb : b.Coercive) (n : ℕ) {d : ℝ} (R : ℝ) (hd : 0 < d) : ∃ K, 0 < K ∧ ∀ (k : ℕ → Bool) (l : ℕ → ℝ) (e0 e1 : EndCond)
      (D : ℕ → ℝ → Vec6) (ε : ℝ), e0.PassiveLeft → e1.PassiveRight → 0 ≤ ε → Rough b ε n k l e0 e1 D → Anchored d R n k l →
        ∀ i < n, ∀ x ∈ Set.Icc 0 (l i), ‖D i x‖ ≤ K * ε := by
  obtain ⟨C, hC, hloc⟩ := local_bound hb hd
  obtain ⟨Kt, hKt, gt⟩ := solves_growth hb true R
  obtain ⟨Kf, hKf, gf⟩ := solves_growth hb false R
  set G := max Kt Kf with hG
  have hG1 : 1 ≤ G := hKt.trans (le_max_left _ _)
  have grow : ∀ (bed : Bool) (f : ℝ → Vec6), SolvesODE b Loads.zero bed f → ∀ p x, |x - p| ≤ R → ‖f x‖ ≤ G * ‖f p‖ := by
    intro bed f hf p x hx
    cases bed with
    | true => exact (gt f hf p x hx).trans (mul_le_mul_of_nonneg_right (le_max_left _ _) (norm_nonneg _))
    | false => exact (gf f hf p x hx).trans (mul_le_mul_of_nonneg_right (le_max_right _ _) (norm_nonneg _))
  have hF := fluxNorm_nonneg (b := b)
  set J := b.jumpNorm with hJ
  have hJ0 : 0 ≤ J := by
    have := hb.det
    have := hb.S
    rw [hJ]; unfold Beam.jumpNorm; positivity
  set c := (n + 1) * (3 * b.fluxNorm + 3) * G ^ n with hc
  have hc0 : 0 ≤ c := by positivity
  set p := c * Real.sqrt C with hp
  set q := c * (n * J) with hq
  have hp0 : 0 ≤ p := by positivity
  have hq0 : 0 ≤ q := by positivity
  refine ⟨G ^ n * (Real.sqrt C * (p + q + 1) + n * J) + 1, by positivity, fun k l e0 e1 D ε he0 he1 hε h ha => ?_⟩
  set E := ∑ i ∈ Finset.range n, (b.flux (D i (l i)) - b.flux (D i 0)) with hE
  have mono := fun i (hi : i < n) => flux_mono hb (h.solves i hi)
  have terms : ∀ i < n, 0 ≤ b.flux (D i (l i)) - b.flux (D i 0) := fun i hi => sub_nonneg.2 (mono i hi (ha.nonneg i hi))
  have hE0 : 0 ≤ E := Finset.sum_nonneg fun i hi => terms i (Finset.mem_range.1 hi)
  have one : ∀ i < n, b.flux (D i (l i)) - b.flux (D i 0) ≤ E := fun i hi =>
    Finset.single_le_sum (f := fun i => b.flux (D i (l i)) - b.flux (D i 0)) (fun i hi => terms i (Finset.mem_range.1 hi))
      (Finset.mem_range.2 hi)
  set Y := Real.sqrt C * Real.sqrt E with hY
  have hY0 : 0 ≤ Y := by positivity
  -- segments supported over the length `d`
  have long : ∀ i < n, k i = true → d ≤ l i → ∀ x ∈ Set.Icc 0 (l i), ‖D i x‖ ≤ Y := by
    intro i hi hk hdl x hx
    have s0 : SolvesODE b Loads.zero true (D i) := hk ▸ h.solves i hi
    have hp : x ∈ Set.Icc (min x (l i - d)) (min x (l i - d) + d) := by
      refine ⟨min_le_left _ _, ?_⟩
      rcases le_total x (l i - d) with h | h
      · rw [min_eq_left h]; linarith
      · rw [min_eq_right h]; linarith [hx.2]
    have h1 : min x (l i - d) + d ≤ l i := by linarith [min_le_right x (l i - d)]
    have h2 : 0 ≤ min x (l i - d) := le_min hx.1 (by linarith)
    have h3 := hloc _ s0 _ _ hp
    have a1 := mono i hi h1
    have a2 := mono i hi h2
    have a3 := one i hi
    simp only at a1 a2
    have h4 : ‖D i x‖ ^ 2 ≤ C * E := h3.trans (mul_le_mul_of_nonneg_left (by linarith) hC.le)
    rw [hY, ← Real.sqrt_mul hC.le]
    exact Real.le_sqrt_of_sq_le h4
  -- all others
  set B : ℕ → ℝ := fun m => G ^ m * (Y + m * (J * ε)) with hB
  have B0 : ∀ m, Y ≤ B m := fun m => by
    have h1 : 1 ≤ G ^ m := one_le_pow₀ hG1
    have h2 : 0 ≤ (m : ℝ) * (J * ε) := by positivity
    simp only [hB]
    nlinarith
  have Bs : ∀ m, G * (B m + J * ε) ≤ B (m + 1) := fun m => by
    have h1 : 1 ≤ G ^ m := one_le_pow₀ hG1
    have h2 : 0 ≤ J * ε := by positivity
    simp only [hB, pow_succ]
    push_cast
    have h3 := mul_le_mul_of_nonneg_right h1 h2
    have h4 : G * (J * ε) ≤ G * (G ^ m * (J * ε)) := mul_le_mul_of_nonneg_left (by linarith) (by linarith)
    nlinarith
  have jl : ∀ i, i + 1 < n → ‖D (i + 1) 0‖ ≤ ‖D i (l i)‖ + J * ε ∧ ‖D i (l i)‖ ≤ ‖D (i + 1) 0‖ + J * ε := by
    intro i hi
    have h1 := near_jump hb (h.bvp.trans i hi)
    constructor
    · have := norm_sub_norm_le (D (i + 1) 0) (D i (l i))
      rw [norm_sub_rev] at this
      linarith
    · have := norm_sub_norm_le (D i (l i)) (D (i + 1) 0)
      linarith
  have short : ∀ i < n, ∀ P, Y ≤ P → (‖D i 0‖ ≤ P ∨ ‖D i (l i)‖ ≤ P) → ∀ x ∈ Set.Icc 0 (l i), ‖D i x‖ ≤ G * P := by
    intro i hi P hYP hP x hx
    have hP0 : 0 ≤ P := hY0.trans hYP
    rcases ha.all i hi with ⟨a1, a2⟩ | a1
    · refine (long i hi a1 a2 x hx).trans (hYP.trans ?_)
      exact le_mul_of_one_le_left hP0 hG1
    · rcases hP with hP | hP
      · refine (grow _ _ (h.solves i hi) 0 x ?_).trans (mul_le_mul_of_nonneg_left hP (by linarith))
        rw [sub_zero, abs_of_nonneg hx.1]
        exact hx.2.trans a1
      · refine (grow _ _ (h.solves i hi) (l i) x ?_).trans (mul_le_mul_of_nonneg_left hP (by linarith))
        rw [abs_sub_comm, abs_of_nonneg (by linarith [hx.2])]
        linarith [hx.1]
  obtain ⟨j, hj, hkj, hlj⟩ := ha.some
  have right : ∀ m, j + m < n → ∀ x ∈ Set.Icc 0 (l (j + m)), ‖D (j + m) x‖ ≤ B m := by
    intro m
    induction m with
    | zero => intro _ x hx; exact (long j hj hkj hlj x hx).trans (B0 0)
    | succ m ih =>
      intro hm x hx
      have h1 := ih (by omega) _ (Set.right_mem_Icc.2 (ha.nonneg _ (by omega)))
      have h2 := (jl (j + m) hm).1
      refine (short (j + (m + 1)) hm (B m + J * ε) ?_ (.inl (by rw [← add_assoc]; linarith)) x hx).trans (Bs m)
      have := B0 m
      have : 0 ≤ J * ε := by positivity
      linarith
  have left : ∀ m i, i + m = j → ∀ x ∈ Set.Icc 0 (l i), ‖D i x‖ ≤ B m := by
    intro m
    induction m with
    | zero =>
      intro i hi x hx
      obtain rfl : i = j := by omega
      exact (long i hj hkj hlj x hx).trans (B0 0)
    | succ m ih =>
      intro i hi x hx
      have h1 := ih (i + 1) (by omega) _ (Set.left_mem_Icc.2 (ha.nonneg _ (by omega)))
      have h2 := (jl i (by omega)).2
      refine (short i (by omega) (B m + J * ε) ?_ (.inr (by linarith)) x hx).trans (Bs m)
      have := B0 m
      have : 0 ≤ J * ε := by positivity
      linarith
  have Bm : ∀ m, m ≤ n → B m ≤ B n := fun m hm => by
    have h1 : G ^ m ≤ G ^ n := pow_le_pow_right₀ hG1 hm
    have h2 : (m : ℝ) * (J * ε) ≤ n * (J * ε) := mul_le_mul_of_nonneg_right (by exact_mod_cast hm) (by positivity)
    simp only [hB]
    exact mul_le_mul h1 (by linarith) (by positivity) (by positivity)
  have all : ∀ i < n, ∀ x ∈ Set.Icc 0 (l i), ‖D i x‖ ≤ B n := by
    intro i hi x hx
    rcases le_total i j with hij | hij
    · exact (left (j - i) i (by omega) x hx).trans (Bm _ (by omega))
    · have e : j + (i - j) = i := by omega
      have := right (i - j) (by omega) x (by rw [e]; exact hx)
      rw [e] at this
      exact this.trans (Bm _ (by omega))
  -- energy
  have hen := h.energy (by omega) he0 he1 hε (X := B n) fun i hi =>
    ⟨all i hi _ (Set.left_mem_Icc.2 (ha.nonneg i hi)), all i hi _ (Set.right_mem_Icc.2 (ha.nonneg i hi))⟩
  have hs : Real.sqrt E ^ 2 = E := Real.sq_sqrt hE0
  have hsq : Real.sqrt E ≤ (p + q + 1) * ε := by
    refine linear_of_quadratic hp0 hq0 hε ?_
    rw [hs]
    refine hen.trans (le_of_eq ?_)
    simp only [hB, hp, hq, hc, hY]
    ring
  intro i hi x hx
  refine (all i hi x hx).trans ?_
  have h1 : Y ≤ Real.sqrt C * ((p + q + 1) * ε) := mul_le_mul_of_nonneg_left hsq (Real.sqrt_nonneg _)
  have h2 : B n ≤ G ^ n * (Real.sqrt C * ((p + q + 1) * ε) + n * (J * ε)) :=
    mul_le_mul_of_nonneg_left (by linarith) (by positivity)
  have e : (G ^ n * (Real.sqrt C * (p + q + 1) + n * J) + 1) * ε = G ^ n * (Real.sqrt C * ((p + q + 1) * ε) + n * (J * ε)) + ε := by ring
  rw [e]
  linarith

end Weac.Spec
