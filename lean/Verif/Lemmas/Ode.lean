import Mathlib.Analysis.ODE.Gronwall
import Mathlib.Topology.Algebra.Module.FiniteDimension
import Mathlib.Analysis.Normed.Module.FiniteDimension
import Verif.Lemmas.Energy

/-!
# Solutions of the equilibrium equations are determined by one state
-/

namespace Weac.Spec

/-- Derivative demanded by unloaded equilibrium, as a linear map. -/
noncomputable def Beam.sys (b : Beam) (bed : Bool) : Vec6 →ₗ[ℝ] Vec6 where
  toFun z :=
    let tau := if bed then b.tau z else 0
    let R := b.V z + (b.h + b.t) / 2 * tau
    let d := b.A * b.D - b.B ^ 2
    ![z 1, (b.D * tau - b.B * R) / d, z 3, (if bed then b.kn * z 2 / b.S else 0) - z 5, z 5,
      (b.A * R - b.B * tau) / d]
  map_add' z z' := by
    cases bed <;> funext i <;> fin_cases i <;> simp [Beam.tau, Beam.V] <;> ring
  map_smul' c z := by
    cases bed <;> funext i <;> fin_cases i <;> simp [Beam.tau, Beam.V] <;> ring

theorem Beam.equil_sys {b : Beam} (hb : b.Coercive) {bed : Bool} {z dz : Vec6} (h : Equil b Loads.zero bed z dz) :
    dz = b.sys bed z := by
  have hd := hb.det.ne'
  have hS := hb.S.ne'
  cases bed with
  | true =>
    obtain ⟨⟨k0, k2, k4⟩, eN, eV, eM⟩ : EquilBedded b Loads.zero z dz := by simpa [Equil] using h
    simp only [Loads.zero, add_zero, sub_zero, mul_zero] at eN eV eM
    funext i
    fin_cases i
    · simpa [Beam.sys] using k0
    · simp [Beam.sys]
      rw [eq_div_iff hd]
      linear_combination b.D * eN - b.B * eM
    · simpa [Beam.sys] using k2
    · simp [Beam.sys]
      rw [k4] at eV
      field_simp
      linear_combination eV
    · simpa [Beam.sys] using k4
    · simp [Beam.sys]
      rw [eq_div_iff hd]
      linear_combination b.A * eM - b.B * eN
  | false =>
    obtain ⟨⟨k0, k2, k4⟩, eN, eV, eM⟩ : EquilFree b Loads.zero z dz := by simpa [Equil] using h
    simp only [Loads.zero, add_zero, sub_zero, mul_zero, neg_zero] at eN eV eM
    have e3 := (mul_eq_zero.mp eV).resolve_left hS
    funext i
    fin_cases i
    · simpa [Beam.sys] using k0
    · simp [Beam.sys]
      rw [eq_div_iff hd]
      linear_combination b.D * eN - b.B * eM
    · simpa [Beam.sys] using k2
    · simp [Beam.sys]
      linear_combination e3 - k4
    · simpa [Beam.sys] using k4
    · simp [Beam.sys]
      rw [eq_div_iff hd]
      linear_combination b.A * eM - b.B * eN

theorem zero_forward (T : Vec6 →ₗ[ℝ] Vec6) (f : ℝ → Vec6) (hf : ∀ x, HasDerivAt f (T (f x)) x) (x0 : ℝ)
    (h0 : f x0 = 0) (x : ℝ) (hx : x0 ≤ x) : f x = 0 := by
  refine eq_zero_of_abs_deriv_le_mul_abs_self_of_eq_zero_right (K := ‖LinearMap.toContinuousLinearMap T‖)
    (fun y _ => (hf y).continuousAt.continuousWithinAt) (fun y _ => (hf y).hasDerivWithinAt) h0 ?_ x ⟨hx, le_rfl⟩
  intro y _
  exact (LinearMap.toContinuousLinearMap T).le_opNorm (f y)

theorem zero_everywhere (T : Vec6 →ₗ[ℝ] Vec6) (f : ℝ → Vec6) (hf : ∀ x, HasDerivAt f (T (f x)) x) (x0 : ℝ)
    (h0 : f x0 = 0) (x : ℝ) : f x = 0 := by
  rcases le_total x0 x with h | h
  · exact zero_forward T f hf x0 h0 x h
  · have hg : ∀ y, HasDerivAt (fun y => f (-y)) ((-T) (f (-y))) y := by
      intro y
      have h1 := (hf (-y)).scomp y ((hasDerivAt_id' y).neg)
      exact h1.congr_deriv (by simp)
    have := zero_forward (-T) (fun y => f (-y)) hg (-x0) (by simpa using h0) (-x) (by linarith)
    simpa using this

/-- An unloaded curve that is at rest somewhere is at rest everywhere. -/
theorem SolvesODE.at_rest {b : Beam} (hb : b.Coercive) {bed : Bool} {f : ℝ → Vec6}
    (hf : SolvesODE b Loads.zero bed f) (x0 : ℝ) (h0 : f x0 = 0) (x : ℝ) : f x = 0 := by
  refine zero_everywhere (b.sys bed) f (fun y => ?_) x0 h0 x
  obtain ⟨dz, h1, h2⟩ := hf y
  rwa [← Beam.equil_sys hb h2]

/-- Balance of forces and moments with a constant tangential load `d.1`, normal
load `d.2.1` and distributed moment `d.2.2` per length. -/
structure Balance (b : Beam) (bed : Bool) (d : ℝ × ℝ × ℝ) (z dz : Vec6) : Prop where
  kin : Kinematic z dz
  N : b.A * dz 1 + b.B * dz 5 = (if bed then b.tau z else 0) - d.1
  V : b.S * (dz 3 + dz 4) = (if bed then b.kn * z 2 else 0) - d.2.1
  M : b.B * dz 1 + b.D * dz 5 = b.V z + (b.h + b.t) / 2 * (if bed then b.tau z else 0) + d.2.2

/-- The loads of the specification. -/
noncomputable def Beam.drive (b : Beam) (l : Loads) : ℝ × ℝ × ℝ :=
  (l.qt + l.pt, l.qn + l.pn, -(b.zs * l.qt) + b.h / 2 * l.pt)

theorem equil_iff_balance (b : Beam) (l : Loads) (bed : Bool) (z dz : Vec6) :
    Equil b l bed z dz ↔ Balance b bed (b.drive l) z dz := by
  cases bed with
  | true =>
    constructor
    · intro h
      obtain ⟨k, hN, hV, hM⟩ : EquilBedded b l z dz := by simpa [Equil] using h
      exact ⟨k, by simpa [Beam.drive] using hN, by simpa [Beam.drive] using hV, by
        simp only [Beam.drive, if_true]; rw [hM]; ring⟩
    · rintro ⟨k, hN, hV, hM⟩
      simp only [Beam.drive, if_true] at hN hV hM
      have : EquilBedded b l z dz := ⟨k, hN, hV, by rw [hM]; ring⟩
      simpa [Equil] using this
  | false =>
    constructor
    · intro h
      obtain ⟨k, hN, hV, hM⟩ : EquilFree b l z dz := by simpa [Equil] using h
      exact ⟨k, by simp only [Beam.drive, Bool.false_eq_true, if_false]; rw [hN]; ring,
        by simp only [Beam.drive, Bool.false_eq_true, if_false]; rw [hV]; ring, by
        simp only [Beam.drive, Bool.false_eq_true, if_false]; rw [hM]; ring⟩
    · rintro ⟨k, hN, hV, hM⟩
      simp only [Beam.drive, Bool.false_eq_true, if_false] at hN hV hM
      have : EquilFree b l z dz := ⟨k, by rw [hN]; ring, by rw [hV]; ring, by rw [hM]; ring⟩
      simpa [Equil] using this

/-- A curve in balance with the load `d`. -/
def Driven (b : Beam) (bed : Bool) (d : ℝ × ℝ × ℝ) (f : ℝ → Vec6) : Prop :=
  ∀ x, ∃ dz, HasDerivAt f dz x ∧ Balance b bed d (f x) dz

theorem solvesODE_iff_driven (b : Beam) (l : Loads) (bed : Bool) (f : ℝ → Vec6) :
    SolvesODE b l bed f ↔ Driven b bed (b.drive l) f := by
  unfold SolvesODE Driven
  simp only [equil_iff_balance]

/-- Superposition. -/
theorem Balance.add {b : Beam} {bed : Bool} {d d' : ℝ × ℝ × ℝ} {z z' dz dz' : Vec6} (h : Balance b bed d z dz)
    (h' : Balance b bed d' z' dz') : Balance b bed (d + d') (z + z') (dz + dz') := by
  obtain ⟨⟨k0, k2, k4⟩, eN, eV, eM⟩ := h
  obtain ⟨⟨j0, j2, j4⟩, dN, dV, dM⟩ := h'
  cases bed with
  | true =>
    simp only [if_true, Beam.tau, Beam.V] at *
    refine ⟨⟨?_, ?_, ?_⟩, ?_, ?_, ?_⟩ <;>
      simp only [Pi.add_apply, if_true, Beam.tau, Beam.V, Prod.fst_add, Prod.snd_add]
    · rw [k0, j0]
    · rw [k2, j2]
    · rw [k4, j4]
    · linear_combination eN + dN
    · linear_combination eV + dV
    · linear_combination eM + dM
  | false =>
    simp only [Bool.false_eq_true, if_false, Beam.V] at *
    refine ⟨⟨?_, ?_, ?_⟩, ?_, ?_, ?_⟩ <;>
      simp only [Pi.add_apply, Bool.false_eq_true, if_false, Beam.V, Prod.fst_add, Prod.snd_add]
    · rw [k0, j0]
    · rw [k2, j2]
    · rw [k4, j4]
    · linear_combination eN + dN
    · linear_combination eV + dV
    · linear_combination eM + dM

theorem Balance.smul {b : Beam} {bed : Bool} {d : ℝ × ℝ × ℝ} {z dz : Vec6} (c : ℝ) (h : Balance b bed d z dz) :
    Balance b bed (c • d) (c • z) (c • dz) := by
  obtain ⟨⟨k0, k2, k4⟩, eN, eV, eM⟩ := h
  cases bed with
  | true =>
    simp only [if_true, Beam.tau, Beam.V] at *
    refine ⟨⟨?_, ?_, ?_⟩, ?_, ?_, ?_⟩ <;>
      simp only [Pi.smul_apply, if_true, Beam.tau, Beam.V, Prod.smul_fst, Prod.smul_snd, smul_eq_mul]
    · rw [k0]
    · rw [k2]
    · rw [k4]
    · linear_combination c * eN
    · linear_combination c * eV
    · linear_combination c * eM
  | false =>
    simp only [Bool.false_eq_true, if_false, Beam.V] at *
    refine ⟨⟨?_, ?_, ?_⟩, ?_, ?_, ?_⟩ <;>
      simp only [Pi.smul_apply, Bool.false_eq_true, if_false, Beam.V, Prod.smul_fst, Prod.smul_snd, smul_eq_mul]
    · rw [k0]
    · rw [k2]
    · rw [k4]
    · linear_combination c * eN
    · linear_combination c * eV
    · linear_combination c * eM

theorem Driven.add {b : Beam} {bed : Bool} {d d' : ℝ × ℝ × ℝ} {f g : ℝ → Vec6} (hf : Driven b bed d f)
    (hg : Driven b bed d' g) : Driven b bed (d + d') (fun x => f x + g x) := by
  intro x
  obtain ⟨df, f1, f2⟩ := hf x
  obtain ⟨dg, g1, g2⟩ := hg x
  exact ⟨df + dg, f1.add g1, f2.add g2⟩

theorem Driven.smul {b : Beam} {bed : Bool} {d : ℝ × ℝ × ℝ} {f : ℝ → Vec6} (c : ℝ) (hf : Driven b bed d f) :
    Driven b bed (c • d) (fun x => c • f x) := by
  intro x
  obtain ⟨df, f1, f2⟩ := hf x
  exact ⟨c • df, f1.const_smul c, f2.smul c⟩

/-- Translation along the beam. -/
theorem Driven.shift {b : Beam} {bed : Bool} {d : ℝ × ℝ × ℝ} {f : ℝ → Vec6} (hf : Driven b bed d f) (c : ℝ) :
    Driven b bed d (fun x => f (x + c)) := by
  intro x
  obtain ⟨df, f1, f2⟩ := hf (x + c)
  exact ⟨df, by simpa using f1.comp_add_const x c, f2⟩

/-- The difference of two loaded solutions is an unloaded one. -/
theorem Driven.sub {b : Beam} {d : ℝ × ℝ × ℝ} {bed : Bool} {f g : ℝ → Vec6}
    (hf : Driven b bed d f) (hg : Driven b bed d g) : SolvesODE b Loads.zero bed (fun x => f x - g x) := by
  rw [solvesODE_iff_driven]
  have h := hf.add (hg.smul (-1))
  have e : d + (-1 : ℝ) • d = b.drive Loads.zero := by
    simp [Beam.drive, Loads.zero]
    rfl
  rw [e] at h
  simpa [sub_eq_add_neg] using h

theorem EndCond.Holds.sub {b : Beam} {e : EndCond} {z z' : Vec6} (h : e.Holds b z) (h' : e.Holds b z') :
    e.hom.Holds b (z - z') := by
  cases e with
  | forces N M V =>
    obtain ⟨h1, h2, h3⟩ := h
    obtain ⟨k1, k2, k3⟩ := h'
    simp only [Beam.N, Beam.M, Beam.V] at *
    refine ⟨?_, ?_, ?_⟩ <;> simp only [Beam.N, Beam.M, Beam.V, Pi.sub_apply]
    · linear_combination h1 - k1
    · linear_combination h2 - k2
    · linear_combination h3 - k3
  | contact N kR w =>
    obtain ⟨h1, h2, h3⟩ := h
    obtain ⟨k1, k2, k3⟩ := h'
    simp only [Beam.N, Beam.M] at *
    refine ⟨?_, ?_, ?_⟩ <;> simp only [Beam.N, Beam.M, Pi.sub_apply]
    · linear_combination h1 - k1
    · linear_combination h2 - k2
    · linear_combination h3 - k3
  | state u w psi =>
    obtain ⟨h1, h2, h3⟩ := h
    obtain ⟨k1, k2, k3⟩ := h'
    refine ⟨?_, ?_, ?_⟩ <;> simp only [Pi.sub_apply]
    · linear_combination h1 - k1
    · linear_combination h2 - k2
    · linear_combination h3 - k3

theorem Transmission.sub {b : Beam} {F : ℝ × ℝ × ℝ} {zl zr yl yr : Vec6} (h : Transmission b F zl zr)
    (h' : Transmission b F yl yr) : Transmission b (0, 0, 0) (zl - yl) (zr - yr) := by
  obtain ⟨h1, h2, h3, h4, h5, h6⟩ := h
  obtain ⟨k1, k2, k3, k4, k5, k6⟩ := h'
  simp only [Beam.N, Beam.M, Beam.V] at *
  refine ⟨?_, ?_, ?_, ?_, ?_, ?_⟩ <;> simp only [Pi.sub_apply, Beam.N, Beam.M, Beam.V]
  · rw [h1, k1]
  · rw [h2, k2]
  · rw [h3, k3]
  · linear_combination h4 - k4
  · linear_combination h5 - k5
  · linear_combination h6 - k6

/-- Two loaded chains with the same loads, jumps and end conditions coincide. -/
theorem chain_unique {b : Beam} (hb : b.Coercive) (n : ℕ) (l : ℕ → ℝ) (k : ℕ → Bool) (d : ℕ → ℝ × ℝ × ℝ)
    (Y Z : ℕ → ℝ → Vec6) (hl : ∀ i < n, 0 ≤ l i) (hY : ∀ i < n, Driven b (k i) (d i) (Y i))
    (hZ : ∀ i < n, Driven b (k i) (d i) (Z i)) (F : ℕ → ℝ × ℝ × ℝ) (e0 e1 : EndCond) (he0 : e0.PassiveLeft)
    (he1 : e1.PassiveRight) (bY : Bvp b n F e0 e1 (fun i => Y i 0) (fun i => Y i (l i)))
    (bZ : Bvp b n F e0 e1 (fun i => Z i 0) (fun i => Z i (l i))) 
    (hbed : ∃ j < n, 0 < l j ∧ (k j = true ∨ (∃ u w psi, e0 = .state u w psi) ∧ ∀ i < j, l i = 0)) :
    ∀ i < n, ∀ x, Y i x = Z i x := by
  obtain ⟨j, hj, hlj, hk⟩ := hbed
  intro i hi x
  refine sub_eq_zero.mp (unloaded_at_rest hb n l k (fun i x => Y i x - Z i x) hl
    (fun i hi => (hY i hi).sub (hZ i hi)) (fun i hi x hx y => ((hY i hi).sub (hZ i hi)).at_rest hb x hx y)
    e0 e1 he0 he1 ⟨bY.left.sub bZ.left, bY.right.sub bZ.right, fun i hi => (bY.trans i hi).sub (bZ.trans i hi)⟩
    j hj hlj hk i hi x)

end Weac.Spec
