import Mathlib.Analysis.Calculus.Deriv.MeanValue
import Mathlib.Analysis.Calculus.Deriv.Prod
import Mathlib.Analysis.Calculus.Deriv.Mul
import Mathlib.Analysis.Calculus.Deriv.Add
import Verif.Spec.Bvp

/-!
# Energy flux along an unloaded chain of beam segments

The power `N u + M psi + V w` of the section forces never decreases along an
unloaded segment. A chain with homogeneous end conditions is therefore at rest
as soon as one segment of positive length is supported.
-/

namespace Weac.Spec

/-- Positive stiffnesses, and a weak layer that is not excessively stiff in
shear compared to the slab. -/
structure Beam.Coercive (b : Beam) : Prop where
  A : 0 < b.A
  det : 0 < b.A * b.D - b.B ^ 2
  S : 0 < b.S
  kn : 0 < b.kn
  kt : 0 < b.kt
  shear : b.kt * b.t ^ 2 < 16 * b.S

/-- Power of the section forces. -/
def Beam.flux (b : Beam) (z : Vec6) : ℝ := b.N z * z 0 + b.M z * z 4 + b.V z * z 2

/-- Strain energy density (twice) of slab and weak layer. -/
noncomputable def Beam.diss (b : Beam) (bed : Bool) (z : Vec6) : ℝ :=
  b.A * z 1 ^ 2 + 2 * b.B * z 1 * z 5 + b.D * z 5 ^ 2 + b.S * (z 3 + z 4) ^ 2 +
    if bed then b.tau z * (z 0 + b.h / 2 * z 4 - b.t / 2 * z 3 + b.t / 2 * (z 3 + z 4)) + b.kn * z 2 ^ 2 else 0

theorem Beam.flux_deriv (b : Beam) (bed : Bool) (f : ℝ → Vec6) (x : ℝ) (dz : Vec6)
    (hd : HasDerivAt f dz x) (he : Equil b Loads.zero bed (f x) dz) :
    HasDerivAt (fun y => b.flux (f y)) (b.diss bed (f x)) x := by
  have h := fun i => (hasDerivAt_pi.mp hd) i
  have hN : HasDerivAt (fun y => b.N (f y)) (b.A * dz 1 + b.B * dz 5) x :=
    ((h 1).const_mul _).add ((h 5).const_mul _)
  have hM : HasDerivAt (fun y => b.M (f y)) (b.B * dz 1 + b.D * dz 5) x :=
    ((h 1).const_mul _).add ((h 5).const_mul _)
  have hV : HasDerivAt (fun y => b.V (f y)) (b.S * (dz 3 + dz 4)) x :=
    ((h 3).add (h 4)).const_mul _
  refine (((hN.mul (h 0)).add (hM.mul (h 4))).add (hV.mul (h 2))).congr_deriv ?_
  cases bed with
  | true =>
    obtain ⟨⟨k0, k2, k4⟩, eN, eV, eM⟩ : EquilBedded b Loads.zero (f x) dz := by simpa [Equil] using he
    rw [eN, eV, eM, k0, k2, k4]
    simp only [Beam.diss, Loads.zero, if_true, Beam.N, Beam.M, Beam.V]
    ring
  | false =>
    obtain ⟨⟨k0, k2, k4⟩, eN, eV, eM⟩ : EquilFree b Loads.zero (f x) dz := by simpa [Equil] using he
    rw [eN, eV, eM, k0, k2, k4]
    simp only [Beam.diss, Loads.zero, Bool.false_eq_true, if_false, Beam.N, Beam.M, Beam.V]
    ring

variable {b : Beam}

theorem Beam.Coercive.slab (hb : b.Coercive) (x y : ℝ) :
    0 ≤ b.A * x ^ 2 + 2 * b.B * x * y + b.D * y ^ 2 ∧
    (b.A * x ^ 2 + 2 * b.B * x * y + b.D * y ^ 2 = 0 → x = 0 ∧ y = 0) := by
  have hA := hb.A
  have hd := hb.det
  have e : b.A * (b.A * x ^ 2 + 2 * b.B * x * y + b.D * y ^ 2)
      = (b.A * x + b.B * y) ^ 2 + (b.A * b.D - b.B ^ 2) * y ^ 2 := by ring
  have p1 := sq_nonneg (b.A * x + b.B * y)
  have p2 := mul_nonneg hd.le (sq_nonneg y)
  constructor
  · by_contra hc
    push Not at hc
    have := mul_neg_of_pos_of_neg hA hc
    linarith
  · intro h0
    rw [h0, mul_zero] at e
    have h1 : (b.A * b.D - b.B ^ 2) * y ^ 2 = 0 := by linarith
    have h2 : (b.A * x + b.B * y) ^ 2 = 0 := by linarith
    have hy : y = 0 := by
      rcases mul_eq_zero.mp h1 with h | h
      · exact absurd h hd.ne'
      · exact pow_eq_zero_iff (two_ne_zero) |>.mp h
    have h3 := pow_eq_zero_iff (two_ne_zero) |>.mp h2
    rw [hy, mul_zero, add_zero] at h3
    exact ⟨(mul_eq_zero.mp h3).resolve_left hA.ne', hy⟩

theorem Beam.Coercive.layer (hb : b.Coercive) (x y : ℝ) :
    0 ≤ b.S * x ^ 2 + b.kt * y * (y + b.t / 2 * x) ∧
    (b.S * x ^ 2 + b.kt * y * (y + b.t / 2 * x) = 0 → x = 0 ∧ y = 0) := by
  have hk := hb.kt
  have hs := hb.shear
  have e : b.S * x ^ 2 + b.kt * y * (y + b.t / 2 * x)
      = b.kt * (y + b.t / 4 * x) ^ 2 + (16 * b.S - b.kt * b.t ^ 2) / 16 * x ^ 2 := by ring
  have p1 := mul_nonneg hk.le (sq_nonneg (y + b.t / 4 * x))
  have p0 : 0 < (16 * b.S - b.kt * b.t ^ 2) / 16 := by linarith
  have p2 := mul_nonneg p0.le (sq_nonneg x)
  constructor
  · rw [e]; linarith
  · intro h0
    rw [h0] at e
    have h1 : (16 * b.S - b.kt * b.t ^ 2) / 16 * x ^ 2 = 0 := by linarith
    have h2 : b.kt * (y + b.t / 4 * x) ^ 2 = 0 := by linarith
    have hx : x = 0 := by
      rcases mul_eq_zero.mp h1 with h | h
      · exact absurd h p0.ne'
      · exact pow_eq_zero_iff (two_ne_zero) |>.mp h
    have h3 := pow_eq_zero_iff (two_ne_zero) |>.mp ((mul_eq_zero.mp h2).resolve_left hk.ne')
    rw [hx, mul_zero, add_zero] at h3
    exact ⟨hx, h3⟩

theorem Beam.Coercive.diss_eq (b : Beam) (z : Vec6) :
    b.diss true z = (b.A * z 1 ^ 2 + 2 * b.B * z 1 * z 5 + b.D * z 5 ^ 2)
      + (b.S * (z 3 + z 4) ^ 2 + b.kt * (z 0 + b.h / 2 * z 4 - b.t / 2 * z 3) *
          ((z 0 + b.h / 2 * z 4 - b.t / 2 * z 3) + b.t / 2 * (z 3 + z 4))) + b.kn * z 2 ^ 2 := by
  simp only [Beam.diss, if_true, Beam.tau]
  ring

theorem Beam.Coercive.diss_nonneg (hb : b.Coercive) (bed : Bool) (z : Vec6) : 0 ≤ b.diss bed z := by
  have h1 := (hb.slab (z 1) (z 5)).1
  cases bed with
  | true =>
    rw [diss_eq]
    have h2 := (hb.layer (z 3 + z 4) (z 0 + b.h / 2 * z 4 - b.t / 2 * z 3)).1
    have h3 := mul_nonneg hb.kn.le (sq_nonneg (z 2))
    linarith
  | false =>
    simp only [Beam.diss, Bool.false_eq_true, if_false]
    have h3 := mul_nonneg hb.S.le (sq_nonneg (z 3 + z 4))
    linarith

theorem Beam.Coercive.diss_zero (hb : b.Coercive) (z : Vec6) (h : b.diss true z = 0) :
    z 1 = 0 ∧ z 5 = 0 ∧ z 2 = 0 ∧ z 3 + z 4 = 0 ∧ z 0 + b.h / 2 * z 4 - b.t / 2 * z 3 = 0 := by
  rw [diss_eq] at h
  have h1 := hb.slab (z 1) (z 5)
  have h2 := hb.layer (z 3 + z 4) (z 0 + b.h / 2 * z 4 - b.t / 2 * z 3)
  have h3 := mul_nonneg hb.kn.le (sq_nonneg (z 2))
  obtain ⟨a1, a2⟩ := h1.2 (by linarith)
  obtain ⟨a3, a4⟩ := h2.2 (by linarith)
  have a5 : b.kn * z 2 ^ 2 = 0 := by linarith
  exact ⟨a1, a2, pow_eq_zero_iff (two_ne_zero) |>.mp ((mul_eq_zero.mp a5).resolve_left hb.kn.ne'), a3, a4⟩

theorem Beam.Coercive.diss_zero_free (hb : b.Coercive) (z : Vec6) (h : b.diss false z = 0) :
    z 1 = 0 ∧ z 5 = 0 ∧ z 3 + z 4 = 0 := by
  simp only [Beam.diss, Bool.false_eq_true, if_false, add_zero] at h
  have h1 := hb.slab (z 1) (z 5)
  have h3 := mul_nonneg hb.S.le (sq_nonneg (z 3 + z 4))
  obtain ⟨a1, a2⟩ := h1.2 (by linarith)
  have a5 : b.S * (z 3 + z 4) ^ 2 = 0 := by linarith
  exact ⟨a1, a2, pow_eq_zero_iff (two_ne_zero) |>.mp ((mul_eq_zero.mp a5).resolve_left hb.S.ne')⟩

/-- The flux never decreases. -/
theorem flux_mono (hb : b.Coercive) {bed : Bool} {f : ℝ → Vec6} (hf : SolvesODE b Loads.zero bed f) :
    Monotone fun x => b.flux (f x) := by
  have hd : ∀ x, HasDerivAt (fun y => b.flux (f y)) (b.diss bed (f x)) x := fun x => by
    obtain ⟨dz, h1, h2⟩ := hf x
    exact b.flux_deriv bed f x dz h1 h2
  refine monotone_of_deriv_nonneg (fun x => (hd x).differentiableAt) fun x => ?_
  rw [(hd x).deriv]
  exact hb.diss_nonneg bed (f x)

/-- Where the flux does not grow, nothing is strained. -/
theorem diss_zero_of_flux_const (hb : b.Coercive) {bed : Bool} {f : ℝ → Vec6}
    (hf : SolvesODE b Loads.zero bed f) {l : ℝ} (h : b.flux (f l) ≤ b.flux (f 0)) (x : ℝ) (hx : x ∈ Set.Ioo 0 l) :
    b.diss bed (f x) = 0 := by
  obtain ⟨dz, h1, h2⟩ := hf x
  have hd := b.flux_deriv bed f x dz h1 h2
  have hc : ∀ y ∈ Set.Ioo 0 l, b.flux (f y) = b.flux (f 0) := by
    intro y hy
    have m1 := flux_mono hb hf hy.1.le
    have m2 := flux_mono hb hf hy.2.le
    simp only at m1 m2
    linarith
  have hev : (fun y => b.flux (f y)) =ᶠ[nhds x] fun _ => b.flux (f 0) :=
    Filter.eventually_of_mem (Ioo_mem_nhds hx.1 hx.2) hc
  exact (hd.congr_of_eventuallyEq hev.symm).unique (hasDerivAt_const _ _)

/-- A supported segment of positive length without growth of the flux is at
rest somewhere. -/
theorem bedded_rest (hb : b.Coercive) {f : ℝ → Vec6} (hf : SolvesODE b Loads.zero true f) {l : ℝ} (hl : 0 < l)
    (h : b.flux (f l) ≤ b.flux (f 0)) : f (l / 2) = 0 := by
  have hz : ∀ x ∈ Set.Ioo 0 l, f x 2 = 0 := fun x hx =>
    (hb.diss_zero _ (diss_zero_of_flux_const hb hf h x hx)).2.2.1
  have hm : l / 2 ∈ Set.Ioo 0 l := ⟨by linarith, by linarith⟩
  obtain ⟨a1, a5, a2, a34, ag⟩ := hb.diss_zero _ (diss_zero_of_flux_const hb hf h _ hm)
  obtain ⟨dz, h1, h2⟩ := hf (l / 2)
  have hw := hasDerivAt_pi.mp h1 2
  have hev : (fun y => f y 2) =ᶠ[nhds (l / 2)] fun _ => (0 : ℝ) :=
    Filter.eventually_of_mem (Ioo_mem_nhds hm.1 hm.2) hz
  have h0 := (hw.congr_of_eventuallyEq hev.symm).unique (hasDerivAt_const _ _)
  have k : EquilBedded b Loads.zero (f (l / 2)) dz := by simpa [Equil] using h2
  have a3 : f (l / 2) 3 = 0 := by rw [← k.kin.w]; exact h0
  have a4 : f (l / 2) 4 = 0 := by rw [a3, zero_add] at a34; exact a34
  have a0 : f (l / 2) 0 = 0 := by rw [a3, a4] at ag; simpa using ag
  funext i
  fin_cases i <;> simp [a0, a1, a2, a3, a4, a5]

/-- Vanishing displacements and section forces. -/
theorem state_zero (hb : b.Coercive) (z : Vec6) (h0 : z 0 = 0) (h2 : z 2 = 0) (h4 : z 4 = 0) (hN : b.N z = 0)
    (hM : b.M z = 0) (hV : b.V z = 0) : z = 0 := by
  have hd := hb.det
  have e5 : (b.A * b.D - b.B ^ 2) * z 5 = 0 := by
    simp only [Beam.N, Beam.M] at hN hM
    linear_combination b.A * hM - b.B * hN
  have e1 : (b.A * b.D - b.B ^ 2) * z 1 = 0 := by
    simp only [Beam.N, Beam.M] at hN hM
    linear_combination b.D * hN - b.B * hM
  have z5 := (mul_eq_zero.mp e5).resolve_left hd.ne'
  have z1 := (mul_eq_zero.mp e1).resolve_left hd.ne'
  have z3 : z 3 = 0 := by
    have := (mul_eq_zero.mp hV).resolve_left hb.S.ne'
    rwa [h4, add_zero] at this
  funext i
  fin_cases i <;> simp [h0, h2, h4, z1, z3, z5]

theorem transmission_flux {zl zr : Vec6} (h : Transmission b (0, 0, 0) zl zr) : b.flux zl = b.flux zr := by
  obtain ⟨h0, h2, h4, hN, hM, hV⟩ := h
  simp only [sub_eq_zero] at hN hM hV
  simp only [Beam.flux, h0, h2, h4, hN, hM, hV]

theorem transmission_zero_right (hb : b.Coercive) {zl zr : Vec6} (h : Transmission b (0, 0, 0) zl zr)
    (hz : zl = 0) : zr = 0 := by
  obtain ⟨h0, h2, h4, hN, hM, hV⟩ := h
  simp only [sub_eq_zero] at hN hM hV
  subst hz
  simp only [Pi.zero_apply] at h0 h2 h4
  refine state_zero hb zr h0.symm h2.symm h4.symm ?_ ?_ ?_
  · rw [← hN]; simp [Beam.N]
  · rw [← hM]; simp [Beam.M]
  · rw [← hV]; simp [Beam.V]

theorem transmission_zero_left (hb : b.Coercive) {zl zr : Vec6} (h : Transmission b (0, 0, 0) zl zr)
    (hz : zr = 0) : zl = 0 := by
  obtain ⟨h0, h2, h4, hN, hM, hV⟩ := h
  exact transmission_zero_right hb ⟨h0.symm, h2.symm, h4.symm, by simp only [sub_eq_zero] at *; exact hN.symm,
    by simp only [sub_eq_zero] at *; exact hM.symm, by simp only [sub_eq_zero] at *; exact hV.symm⟩ hz

/-- A segment of positive length without growth of the flux is at rest at a
clamped left end. -/
theorem clamped_rest (hb : b.Coercive) {bed : Bool} {f : ℝ → Vec6} (hf : SolvesODE b Loads.zero bed f) {l : ℝ} (hl : 0 < l)
    (h : b.flux (f l) ≤ b.flux (f 0)) (h0 : f 0 0 = 0 ∧ f 0 2 = 0 ∧ f 0 4 = 0) : f 0 = 0 := by
  have hz : ∀ x ∈ Set.Ioo 0 l, f x 1 = 0 ∧ f x 5 = 0 ∧ f x 3 + f x 4 = 0 := by
    intro x hx
    have := diss_zero_of_flux_const hb hf h x hx
    cases bed with
    | true =>
      obtain ⟨a1, a5, -, a34, -⟩ := hb.diss_zero _ this
      exact ⟨a1, a5, a34⟩
    | false => exact hb.diss_zero_free _ this
  have hc : ∀ i, Continuous fun x => f x i := fun i => by
    rw [continuous_iff_continuousAt]
    intro x
    obtain ⟨dz, h1, -⟩ := hf x
    exact (hasDerivAt_pi.mp h1 i).continuousAt
  have lim : ∀ g : ℝ → ℝ, Continuous g → (∀ x ∈ Set.Ioo 0 l, g x = 0) → g 0 = 0 := by
    intro g hg hx
    have hcl : (0 : ℝ) ∈ closure (Set.Ioo 0 l) := by
      rw [closure_Ioo hl.ne]
      exact ⟨le_refl _, hl.le⟩
    exact (isClosed_eq hg continuous_const).closure_subset_iff.mpr hx hcl
  have c1 := lim _ (hc 1) fun x hx => (hz x hx).1
  have c5 := lim _ (hc 5) fun x hx => (hz x hx).2.1
  have c34 := lim _ ((hc 3).add (hc 4)) fun x hx => (hz x hx).2.2
  obtain ⟨c0, c2, c4⟩ := h0
  have c3 : f 0 3 = 0 := by have : f 0 3 + f 0 4 = 0 := c34; rwa [c4, add_zero] at this
  funext i
  fin_cases i <;> simp [c0, c1, c2, c3, c4, c5]

/-- End conditions that do not feed energy into the chain at its left end. -/
def EndCond.PassiveLeft : EndCond → Prop
  | .contact _ kR _ => kR ≤ 0
  | _ => True

def EndCond.PassiveRight : EndCond → Prop
  | .contact _ kR _ => 0 ≤ kR
  | _ => True

theorem EndCond.flux_left {e : EndCond} (he : e.PassiveLeft) {z : Vec6} (h : e.hom.Holds b z) : 0 ≤ b.flux z := by
  cases e with
  | forces N M V =>
    obtain ⟨h1, h2, h3⟩ := h
    simp [Beam.flux, h1, h2, h3]
  | contact N kR w =>
    obtain ⟨h1, h2, h3⟩ := h
    have : b.M z = -kR * z 4 := by linarith
    simp only [Beam.flux, h1, h3, this]
    have hk : kR ≤ 0 := he
    nlinarith [mul_nonneg (neg_nonneg.mpr hk) (sq_nonneg (z 4))]
  | state u w psi =>
    obtain ⟨h1, h2, h3⟩ := h
    simp [Beam.flux, h1, h2, h3]

theorem EndCond.flux_right {e : EndCond} (he : e.PassiveRight) {z : Vec6} (h : e.hom.Holds b z) : b.flux z ≤ 0 := by
  cases e with
  | forces N M V =>
    obtain ⟨h1, h2, h3⟩ := h
    simp [Beam.flux, h1, h2, h3]
  | contact N kR w =>
    obtain ⟨h1, h2, h3⟩ := h
    have : b.M z = -kR * z 4 := by linarith
    simp only [Beam.flux, h1, h3, this]
    have hk : 0 ≤ kR := he
    nlinarith [mul_nonneg hk (sq_nonneg (z 4))]
  | state u w psi =>
    obtain ⟨h1, h2, h3⟩ := h
    simp [Beam.flux, h1, h2, h3]

/-- Uniqueness: an unloaded chain with passive ends, one of whose segments of
positive length is supported, is at rest. -/
theorem unloaded_at_rest (hb : b.Coercive) (n : ℕ) (l : ℕ → ℝ) (k : ℕ → Bool) (Z : ℕ → ℝ → Vec6)
    (hl : ∀ i < n, 0 ≤ l i) (hZ : ∀ i < n, SolvesODE b Loads.zero (k i) (Z i))
    (huniq : ∀ i < n, ∀ x, Z i x = 0 → ∀ y, Z i y = 0) (e0 e1 : EndCond) (he0 : e0.PassiveLeft)
    (he1 : e1.PassiveRight)
    (hbvp : Bvp b n (fun _ => (0, 0, 0)) e0.hom e1.hom (fun i => Z i 0) (fun i => Z i (l i)))
    (j : ℕ) (hj : j < n) (hlj : 0 < l j)
    (hkj : k j = true ∨ (∃ u w psi, e0 = .state u w psi) ∧ ∀ i < j, l i = 0) : ∀ i < n, ∀ x, Z i x = 0 := by
  have mono : ∀ i < n, b.flux (Z i 0) ≤ b.flux (Z i (l i)) := fun i hi => flux_mono hb (hZ i hi) (hl i hi)
  have step : ∀ i, i + 1 < n → b.flux (Z i (l i)) = b.flux (Z (i + 1) 0) := fun i hi =>
    transmission_flux (hbvp.trans i hi)
  have lo : ∀ i, i < n → 0 ≤ b.flux (Z i 0) := by
    intro i
    induction i with
    | zero => intro _; exact EndCond.flux_left he0 hbvp.left
    | succ i ih =>
      intro hi
      rw [← step i hi]
      exact (ih (by omega)).trans (mono i (by omega))
  have hi' : ∀ d, ∀ i, i + d + 1 = n → b.flux (Z i (l i)) ≤ 0 := by
    intro d
    induction d with
    | zero =>
      intro i hi
      have : i = n - 1 := by omega
      subst this
      exact EndCond.flux_right he1 hbvp.right
    | succ d ih =>
      intro i hi
      rw [step i (by omega)]
      exact (mono _ (by omega)).trans (ih (i + 1) (by omega))
  have hjr := hi' (n - 1 - j) j (by omega)
  have hj0 := lo j hj
  have hrest : ∃ x, Z j x = 0 := by
    rcases hkj with hkj | ⟨⟨u, w, psi, rfl⟩, hz⟩
    · exact ⟨_, bedded_rest hb (f := Z j) (by have := hZ j hj; rwa [hkj] at this) hlj (by linarith)⟩
    · refine ⟨0, clamped_rest hb (hZ j hj) hlj (by linarith) ?_⟩
      have key : ∀ i, i ≤ j → Z i 0 0 = 0 ∧ Z i 0 2 = 0 ∧ Z i 0 4 = 0 := by
        intro i
        induction i with
        | zero => intro _; exact hbvp.left
        | succ i ih =>
          intro hi
          obtain ⟨c0, c2, c4⟩ := ih (by omega)
          obtain ⟨t0, t2, t4, -⟩ := hbvp.trans i (by omega)
          simp only [hz i (by omega)] at t0 t2 t4
          exact ⟨by rw [← t0, c0], by rw [← t2, c2], by rw [← t4, c4]⟩
      exact key j (le_refl _)
  have hzj := huniq j hj _ hrest.choose_spec
  have up : ∀ d, j + d < n → ∀ x, Z (j + d) x = 0 := by
    intro d
    induction d with
    | zero => intro _; exact hzj
    | succ d ih =>
      intro hd
      have := transmission_zero_right hb (hbvp.trans (j + d) hd) (ih (by omega) _)
      exact huniq _ hd _ this
  have down : ∀ d, d ≤ j → ∀ x, Z (j - d) x = 0 := by
    intro d
    induction d with
    | zero => intro _; exact hzj
    | succ d ih =>
      intro hd
      have e : j - (d + 1) + 1 = j - d := by omega
      have ht := hbvp.trans (j - (d + 1)) (by omega)
      simp only [e] at ht
      have := transmission_zero_left hb ht (ih (by omega) _)
      exact huniq _ (by omega) _ this
  intro i hi
  rcases le_total j i with h | h
  · have := up (i - j) (by omega)
    rwa [show j + (i - j) = i by omega] at this
  · have := down (j - i) (by omega)
    rwa [show j - (j - i) = i by omega] at this

end Weac.Spec
