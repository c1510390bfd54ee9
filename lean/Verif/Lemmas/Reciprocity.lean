import Verif.Lemmas.Weights

/-!
# Reciprocity of chains under point loads

Two sets of point loads on the same chain: the work of the first on the
displacements of the second and the work of the second on those of the first
differ by what the shear traction of the weak layer does on its lever arm `t/2`.
-/

namespace Weac.Spec

variable {b : Beam}

/-- Derivative of `cross`. -/
noncomputable def Beam.powerRate (b : Beam) (bed : Bool) (y z : Vec6) : ℝ :=
  b.N y * z 1 + b.M y * z 5 + b.V y * (z 3 + z 4)
    + if bed then b.tau y * (z 0 + (b.h + b.t) / 2 * z 4) + b.kn * y 2 * z 2 else 0

theorem cross_deriv {bed : Bool} {f g : ℝ → Vec6} (hf : SolvesODE b Loads.zero bed f) (hg : SolvesODE b Loads.zero bed g) (x : ℝ) :
    HasDerivAt (fun y => b.cross (f y) (g y)) (b.powerRate bed (f x) (g x)) x := by
  obtain ⟨df, h1, h2⟩ := hf x
  obtain ⟨dg, k1, k2⟩ := hg x
  have h := fun i => (hasDerivAt_pi.mp h1) i
  have k := fun i => (hasDerivAt_pi.mp k1) i
  have hN : HasDerivAt (fun y => b.N (f y)) (b.A * df 1 + b.B * df 5) x :=
    ((h 1).const_mul _).add ((h 5).const_mul _)
  have hM : HasDerivAt (fun y => b.M (f y)) (b.B * df 1 + b.D * df 5) x :=
    ((h 1).const_mul _).add ((h 5).const_mul _)
  have hV : HasDerivAt (fun y => b.V (f y)) (b.S * (df 3 + df 4)) x :=
    ((h 3).add (h 4)).const_mul _
  refine (((hN.mul (k 0)).add (hM.mul (k 4))).add (hV.mul (k 2))).congr_deriv ?_
  cases bed with
  | true =>
    simp only [Equil, if_true] at h2 k2
    rw [h2.N, h2.M, h2.V, k2.kin.u, k2.kin.w, k2.kin.psi]
    simp only [Beam.powerRate, Loads.zero, if_true]
    ring
  | false =>
    simp only [Equil, Bool.false_eq_true, if_false] at h2 k2
    rw [h2.N, h2.M, h2.V, k2.kin.u, k2.kin.w, k2.kin.psi]
    simp only [Beam.powerRate, Loads.zero, Bool.false_eq_true, if_false]
    ring

theorem shear_pair {kt S t c : ℝ} (hkt : 0 ≤ kt) (hS : 0 ≤ S) (hc : 0 ≤ c) (h : t ^ 2 * kt ≤ 16 * c ^ 2 * S) (p y : ℝ) :
    |t / 2 * (kt * p) * y| ≤ c * (kt * p ^ 2 + S * y ^ 2) := by
  have := shear_bound hkt hS hc h p y
  have e : t / 2 * (kt * p) * y = 2 * (t / 4 * (kt * p) * y) := by ring
  rw [e, abs_mul, abs_two]
  linarith

/-- The strain energy that the shear strains store at least. -/
theorem diss_shear (hb : b.Coercive) {c : ℝ} (hc : 0 ≤ c) (h : b.t ^ 2 * b.kt ≤ 16 * c ^ 2 * b.S) (bed : Bool) (z : Vec6) :
    (1 - c) * ((if bed then b.kt * (z 0 + b.h / 2 * z 4 - b.t / 2 * z 3) ^ 2 else 0) + b.S * (z 3 + z 4) ^ 2) ≤ b.diss bed z := by
  have q : 0 ≤ b.A * z 1 ^ 2 + 2 * b.B * z 1 * z 5 + b.D * z 5 ^ 2 := by
    have e : b.A * (b.A * z 1 ^ 2 + 2 * b.B * z 1 * z 5 + b.D * z 5 ^ 2)
        = (b.A * z 1 + b.B * z 5) ^ 2 + (b.A * b.D - b.B ^ 2) * z 5 ^ 2 := by ring
    have : 0 ≤ b.A * (b.A * z 1 ^ 2 + 2 * b.B * z 1 * z 5 + b.D * z 5 ^ 2) := by
      rw [e]
      have := mul_nonneg hb.det.le (sq_nonneg (z 5))
      have := sq_nonneg (b.A * z 1 + b.B * z 5)
      linarith
    exact nonneg_of_mul_nonneg_right this hb.A
  have hs := mul_nonneg hb.S.le (sq_nonneg (z 3 + z 4))
  cases bed with
  | true =>
    have hk := mul_nonneg hb.kn.le (sq_nonneg (z 2))
    have hp := abs_le.1 (shear_pair hb.kt.le hb.S.le hc h (z 0 + b.h / 2 * z 4 - b.t / 2 * z 3) (z 3 + z 4))
    simp only [Beam.diss, Beam.tau, if_true]
    nlinarith [hp.1]
  | false =>
    simp only [Beam.diss, Bool.false_eq_true, if_false]
    nlinarith

/-- How far `cross` can be from symmetric. -/
theorem crossRate_gap (hb : b.Coercive) {c : ℝ} (hc : 0 ≤ c) (hc1 : c < 1) (h : b.t ^ 2 * b.kt ≤ 16 * c ^ 2 * b.S) (bed : Bool)
    (y z : Vec6) (r : ℝ) :
    |r * (b.powerRate bed y z - b.powerRate bed z y)| ≤ c / (1 - c) * (r ^ 2 * b.diss bed y + b.diss bed z) := by
  have hd := diss_shear hb hc h bed
  have h1 : 0 < 1 - c := by linarith
  have key : |r * (b.powerRate bed y z - b.powerRate bed z y)|
      ≤ c * (r ^ 2 * ((if bed then b.kt * (y 0 + b.h / 2 * y 4 - b.t / 2 * y 3) ^ 2 else 0) + b.S * (y 3 + y 4) ^ 2)
        + ((if bed then b.kt * (z 0 + b.h / 2 * z 4 - b.t / 2 * z 3) ^ 2 else 0) + b.S * (z 3 + z 4) ^ 2)) := by
    cases bed with
    | true =>
      have e : r * (b.powerRate true y z - b.powerRate true z y)
          = b.t / 2 * (b.kt * (r * (y 0 + b.h / 2 * y 4 - b.t / 2 * y 3))) * (z 3 + z 4)
            - b.t / 2 * (b.kt * (z 0 + b.h / 2 * z 4 - b.t / 2 * z 3)) * (r * (y 3 + y 4)) := by
        simp only [Beam.powerRate, Beam.N, Beam.M, Beam.V, Beam.tau, if_true]
        ring
      rw [e]
      refine (abs_sub _ _).trans ?_
      have p1 := shear_pair hb.kt.le hb.S.le hc h (r * (y 0 + b.h / 2 * y 4 - b.t / 2 * y 3)) (z 3 + z 4)
      have p2 := shear_pair hb.kt.le hb.S.le hc h (z 0 + b.h / 2 * z 4 - b.t / 2 * z 3) (r * (y 3 + y 4))
      refine (add_le_add p1 p2).trans (le_of_eq ?_)
      simp only [if_true]
      ring
    | false =>
      have e : r * (b.powerRate false y z - b.powerRate false z y) = 0 := by
        simp only [Beam.powerRate, Beam.N, Beam.M, Beam.V, Bool.false_eq_true, if_false]
        ring
      rw [e, abs_zero]
      have := hb.S
      simp only [Bool.false_eq_true, if_false, zero_add]
      positivity
  refine key.trans ?_
  rw [div_mul_eq_mul_div c (1 - c), le_div_iff₀ h1]
  have a1 := mul_le_mul_of_nonneg_left (hd y) (sq_nonneg r)
  have a2 := hd z
  calc _ = c * (r ^ 2 * ((1 - c) * ((if bed then b.kt * (y 0 + b.h / 2 * y 4 - b.t / 2 * y 3) ^ 2 else 0) + b.S * (y 3 + y 4) ^ 2))
        + (1 - c) * ((if bed then b.kt * (z 0 + b.h / 2 * z 4 - b.t / 2 * z 3) ^ 2 else 0) + b.S * (z 3 + z 4) ^ 2)) := by ring
    _ ≤ _ := mul_le_mul_of_nonneg_left (add_le_add a1 a2) hc

theorem cross_growth (hb : b.Coercive) {c : ℝ} (hc : 0 ≤ c) (hc1 : c < 1) (h : b.t ^ 2 * b.kt ≤ 16 * c ^ 2 * b.S) {bed : Bool}
    {f g : ℝ → Vec6} (hf : SolvesODE b Loads.zero bed f) (hg : SolvesODE b Loads.zero bed g) (r : ℝ) {l : ℝ} (hl : 0 ≤ l) :
    r * ((b.cross (f l) (g l) - b.cross (g l) (f l)) - (b.cross (f 0) (g 0) - b.cross (g 0) (f 0)))
      ≤ c / (1 - c) * (r ^ 2 * (b.flux (f l) - b.flux (f 0)) + (b.flux (g l) - b.flux (g 0))) := by
  set G : ℝ → ℝ := fun x => c / (1 - c) * (r ^ 2 * b.flux (f x) + b.flux (g x)) - r * (b.cross (f x) (g x) - b.cross (g x) (f x)) with hG
  have hd : ∀ x, HasDerivAt G (c / (1 - c) * (r ^ 2 * b.diss bed (f x) + b.diss bed (g x))
      - r * (b.powerRate bed (f x) (g x) - b.powerRate bed (g x) (f x))) x := by
    intro x
    have d1 : HasDerivAt (fun y => b.flux (f y)) (b.diss bed (f x)) x := by
      obtain ⟨dz, h1, h2⟩ := hf x
      exact b.flux_deriv bed f x dz h1 h2
    have d2 : HasDerivAt (fun y => b.flux (g y)) (b.diss bed (g x)) x := by
      obtain ⟨dz, h1, h2⟩ := hg x
      exact b.flux_deriv bed g x dz h1 h2
    exact (((d1.const_mul _).add d2).const_mul _).sub (((cross_deriv hf hg x).sub (cross_deriv hg hf x)).const_mul _)
  have hm : Monotone G := by
    refine monotone_of_deriv_nonneg (fun x => (hd x).differentiableAt) fun x => ?_
    rw [(hd x).deriv]
    exact sub_nonneg.2 ((le_abs_self _).trans (crossRate_gap hb hc hc1 h bed (f x) (g x) r))
  have := hm hl
  simp only [hG] at this
  nlinarith [this]

theorem EndCond.cross_symm {e : EndCond} {y z : Vec6} (hy : e.hom.Holds b y) (hz : e.hom.Holds b z) :
    b.cross y z - b.cross z y = 0 := by
  cases e with
  | forces N M V =>
    obtain ⟨h1, h2, h3⟩ := hy
    obtain ⟨k1, k2, k3⟩ := hz
    simp [Beam.cross, h1, h2, h3, k1, k2, k3]
  | contact N kR w =>
    obtain ⟨h1, h2, h3⟩ := hy
    obtain ⟨k1, k2, k3⟩ := hz
    simp only [Beam.cross, h1, h3, k1, k3]
    linear_combination z 4 * h2 - y 4 * k2
  | state u w psi =>
    obtain ⟨h1, h2, h3⟩ := hy
    obtain ⟨k1, k2, k3⟩ := hz
    simp [Beam.cross, h1, h2, h3, k1, k2, k3]

variable {n : ℕ} {l : ℕ → ℝ} {k : ℕ → Bool} {Y Z : ℕ → ℝ → Vec6} {F G : ℕ → ℝ × ℝ × ℝ} {e0 e1 : EndCond}

theorem cross_sum (hY : Bvp b (n + 1) F e0.hom e1.hom (fun i => Y i 0) (fun i => Y i (l i)))
    (hZ : Bvp b (n + 1) G e0.hom e1.hom (fun i => Z i 0) (fun i => Z i (l i))) :
    ∑ i ∈ Finset.range (n + 1), ((b.cross (Y i (l i)) (Z i (l i)) - b.cross (Z i (l i)) (Y i (l i)))
        - (b.cross (Y i 0) (Z i 0) - b.cross (Z i 0) (Y i 0)))
      = ∑ i ∈ Finset.range n, (jumpWork (F i) (Z i (l i)) - jumpWork (G i) (Y i (l i))) := by
  rw [chain_telescope n (fun i => b.cross (Y i 0) (Z i 0) - b.cross (Z i 0) (Y i 0))
    (fun i => b.cross (Y i (l i)) (Z i (l i)) - b.cross (Z i (l i)) (Y i (l i)))
    (fun i => jumpWork (F i) (Z i (l i)) - jumpWork (G i) (Y i (l i))) ?_]
  · have h0 := EndCond.cross_symm hY.left hZ.left
    have h1 := EndCond.cross_symm hY.right hZ.right
    simp only [Nat.add_sub_cancel] at h1
    simp only [h0, h1]
    ring
  · intro i hi
    have h := hY.trans i hi
    have k := hZ.trans i hi
    simp only [Beam.cross, jumpWork]
    rw [← h.N, ← h.M, ← h.V, ← h.u, ← h.w, ← h.psi, ← k.N, ← k.M, ← k.V, ← k.u, ← k.w, ← k.psi]
    ring

/-- Reciprocity of two sets of point loads on a chain. -/
theorem reciprocity (hb : b.Coercive) {c : ℝ} (hc : 0 ≤ c) (hc1 : c < 1) (h : b.t ^ 2 * b.kt ≤ 16 * c ^ 2 * b.S)
    (hl : ∀ i ≤ n, 0 ≤ l i) (sY : ∀ i ≤ n, SolvesODE b Loads.zero (k i) (Y i)) (sZ : ∀ i ≤ n, SolvesODE b Loads.zero (k i) (Z i))
    (he0 : e0.PassiveLeft) (he1 : e1.PassiveRight)
    (hY : Bvp b (n + 1) F e0.hom e1.hom (fun i => Y i 0) (fun i => Y i (l i)))
    (hZ : Bvp b (n + 1) G e0.hom e1.hom (fun i => Z i 0) (fun i => Z i (l i))) :
    (∑ i ∈ Finset.range n, (jumpWork (F i) (Z i (l i)) - jumpWork (G i) (Y i (l i)))) ^ 2
      ≤ (2 * c / (1 - c)) ^ 2 * ((∑ i ∈ Finset.range n, jumpWork (F i) (Y i (l i))) * ∑ i ∈ Finset.range n, jumpWork (G i) (Z i (l i))) := by
  have w1 := flux_sum_le he0 he1 hY
  have w2 := flux_sum_le he0 he1 hZ
  have h1 : 0 < 1 - c := by linarith
  have hK : 0 ≤ c / (1 - c) := div_nonneg hc h1.le
  set X := ∑ i ∈ Finset.range n, (jumpWork (F i) (Z i (l i)) - jumpWork (G i) (Y i (l i))) with hX
  set P := ∑ i ∈ Finset.range n, jumpWork (F i) (Y i (l i))
  set Q := ∑ i ∈ Finset.range n, jumpWork (G i) (Z i (l i))
  set K := c / (1 - c)
  have key : ∀ r : ℝ, r * X ≤ K * (r ^ 2 * P + Q) := by
    intro r
    have := Finset.sum_le_sum fun i (hi : i ∈ Finset.range (n + 1)) => cross_growth hb hc hc1 h (sY i (by have := Finset.mem_range.1 hi; omega))
      (sZ i (by have := Finset.mem_range.1 hi; omega)) r (hl i (by have := Finset.mem_range.1 hi; omega))
    rw [← Finset.mul_sum, cross_sum hY hZ, ← hX, ← Finset.mul_sum, Finset.sum_add_distrib, ← Finset.mul_sum] at this
    refine this.trans (mul_le_mul_of_nonneg_left (add_le_add (mul_le_mul_of_nonneg_left w1 (sq_nonneg r)) w2) hK)
  have hd : discrim (K * P) (-X) (K * Q) ≤ 0 := by
    refine discrim_le_zero fun r => ?_
    have := key r
    nlinarith
  unfold discrim at hd
  have e : 2 * c / (1 - c) = 2 * K := by rw [mul_div_assoc]
  rw [e]
  nlinarith [hd]

end Weac.Spec
