import Mathlib.Analysis.SpecialFunctions.Trigonometric.Deriv
import Mathlib.Analysis.Calculus.Deriv.Pow
import Mathlib.LinearAlgebra.Matrix.NonsingularInverse
import Verif.Spec.Mechanics
import Verif.Spec.State
import Verif.Model.Fields
import Verif.Props.Lifecycle

/-!
# C09–C12, C15: governing equations, particular integrals, free solutions, loads
-/

namespace Weac
open Spec

/-- What the algebra needs: non-degenerate slab and weak layer. -/
structure Regular (s : Self) : Prop where
  A11 : s.A11 ≠ 0
  kA55 : s.kA55 ≠ 0
  kn : s.kn ≠ 0
  kt : s.kt ≠ 0
  K0 : s.K0 ≠ 0
  K0_eq : s.K0 = s.B11 ^ 2 - s.A11 * s.D11

theorem Stiff.regular {s : Self} (h : Stiff s) : Regular s :=
  ⟨h.A11.ne', h.kA55.ne', h.kn.ne', h.kt.ne', h.K0.ne, h.K0_eq⟩

section components
variable (s : Self) (z : Vec6) (phi : ℝ)

theorem dzdx_0 : dzdx s z phi 0 = z 1 := by
  simp [dzdx, calcSystemMatrix, getLoadVector, dotProduct, Fin.sum_univ_six]
theorem dzdx_2 : dzdx s z phi 2 = z 3 := by
  simp [dzdx, calcSystemMatrix, getLoadVector, dotProduct, Fin.sum_univ_six]
theorem dzdx_4 : dzdx s z phi 4 = z 5 := by
  simp [dzdx, calcSystemMatrix, getLoadVector, dotProduct, Fin.sum_univ_six]
theorem dzdx_3 : dzdx s z phi 3
    = s.kn / s.kA55 * z 2 - z 5 - ((s.loads phi).qn + (s.loads phi).pn) / s.kA55 := by
  simp [dzdx, calcSystemMatrix, getLoadVector, dotProduct, Fin.sum_univ_six, Self.loads]
  ring
theorem dzdx_1 : dzdx s z phi 1
    = s.kt * (-2 * s.D11 + s.B11 * (s.h + s.t)) / (2 * s.K0) * z 0
      + (2 * s.D11 * s.kt * s.t - s.B11 * s.kt * s.t * (s.h + s.t) + 4 * s.B11 * s.kA55) / (4 * s.K0) * z 3
      + (-2 * s.D11 * s.h * s.kt + s.B11 * s.h * s.kt * (s.h + s.t) + 4 * s.B11 * s.kA55) / (4 * s.K0) * z 4
      + (s.B11 * (s.h * (s.loads phi).pt - 2 * (s.loads phi).qt * s.zs)
          + 2 * s.D11 * ((s.loads phi).qt + (s.loads phi).pt)) / (2 * s.K0) := by
  simp [dzdx, calcSystemMatrix, getLoadVector, dotProduct, Fin.sum_univ_six, Self.loads]
theorem dzdx_5 : dzdx s z phi 5
    = s.kt * (2 * s.B11 - s.A11 * (s.h + s.t)) / (2 * s.K0) * z 0
      + (-2 * s.B11 * s.kt * s.t + s.A11 * s.kt * s.t * (s.h + s.t) - 4 * s.A11 * s.kA55) / (4 * s.K0) * z 3
      + (2 * s.B11 * s.h * s.kt - s.A11 * s.h * s.kt * (s.h + s.t) - 4 * s.A11 * s.kA55) / (4 * s.K0) * z 4
      + -(s.A11 * (s.h * (s.loads phi).pt - 2 * (s.loads phi).qt * s.zs)
          + 2 * s.B11 * ((s.loads phi).qt + (s.loads phi).pt)) / (2 * s.K0) := by
  simp [dzdx, calcSystemMatrix, getLoadVector, dotProduct, Fin.sum_univ_six, Self.loads]

end components

/-! ## C09 -/

/-- The library's section forces and weak-layer stresses are those of the
specification. -/
theorem C09_field_quantities (s : Self) (Z : Vec6) :
    fN s Z = s.beam.N Z ∧ fM s Z = s.beam.M Z ∧ fV s Z = s.beam.V Z ∧
    ftau s Z = s.beam.tau Z ∧ fsig s Z = -(s.beam.kn * Z 2) := by
  refine ⟨rfl, rfl, rfl, ?_, ?_⟩
  · simp only [ftau, Beam.tau, Self.beam, fdw, fu, fpsi]; ring
  · simp only [fsig, Self.beam, fw]; ring

/-- `dz_dx` is the derivative demanded by equilibrium, and the only one. -/
theorem C09_dzdx_iff_equilibrium (s : Self) (hs : Regular s) (z dz : Vec6) (phi : ℝ) :
    dz = dzdx s z phi ↔ EquilBedded s.beam (s.loads phi) z dz := by
  obtain ⟨-, hk, -, -, hK, hKe⟩ := hs
  have h1 := dzdx_1 s z phi
  have h3 := dzdx_3 s z phi
  have h5 := dzdx_5 s z phi
  set qn := (s.loads phi).qn
  set qt := (s.loads phi).qt
  set pn := (s.loads phi).pn
  set pt := (s.loads phi).pt
  set T := s.beam.tau z with hT
  -- the rows of `K z + q` solved for the section-force derivatives
  have e1 : s.K0 * dzdx s z phi 1 = s.B11 * (s.kA55 * (z 3 + z 4) + (s.h + s.t) / 2 * T - s.zs * qt
      + s.h / 2 * pt) - s.D11 * (T - (qt + pt)) := by
    rw [h1, hT]; simp only [Beam.tau, Self.beam]; field_simp; ring
  have e5 : s.K0 * dzdx s z phi 5 = s.B11 * (T - (qt + pt)) - s.A11 * (s.kA55 * (z 3 + z 4)
      + (s.h + s.t) / 2 * T - s.zs * qt + s.h / 2 * pt) := by
    rw [h5, hT]; simp only [Beam.tau, Self.beam]; field_simp; ring
  have e3 : s.kA55 * (dzdx s z phi 3 + z 5) = s.kn * z 2 - (qn + pn) := by
    rw [h3]; field_simp; ring
  constructor
  · rintro rfl
    refine ⟨⟨dzdx_0 s z phi, dzdx_2 s z phi, dzdx_4 s z phi⟩, ?_, ?_, ?_⟩
    · apply mul_left_cancel₀ hK
      show s.K0 * (s.A11 * _ + s.B11 * _) = s.K0 * (T - (qt + pt))
      linear_combination s.A11 * e1 + s.B11 * e5 - (T - (qt + pt)) * hKe
    · rw [dzdx_4]; exact e3
    · apply mul_left_cancel₀ hK
      show s.K0 * (s.B11 * _ + s.D11 * _) = s.K0 * (s.kA55 * (z 3 + z 4) + (s.h + s.t) / 2 * T
        - s.zs * qt + s.h / 2 * pt)
      linear_combination s.B11 * e1 + s.D11 * e5 - (s.kA55 * (z 3 + z 4) + (s.h + s.t) / 2 * T
        - s.zs * qt + s.h / 2 * pt) * hKe
  · rintro ⟨⟨k0, k2, k4⟩, hN, hV, hM⟩
    change s.A11 * dz 1 + s.B11 * dz 5 = T - (qt + pt) at hN
    change s.kA55 * (dz 3 + dz 4) = s.kn * z 2 - (qn + pn) at hV
    change s.B11 * dz 1 + s.D11 * dz 5 = s.kA55 * (z 3 + z 4) + (s.h + s.t) / 2 * T
        - s.zs * qt + s.h / 2 * pt at hM
    funext i
    fin_cases i
    · exact k0.trans (dzdx_0 s z phi).symm
    · apply mul_left_cancel₀ hK
      show s.K0 * dz 1 = s.K0 * dzdx s z phi 1
      linear_combination dz 1 * hKe + s.B11 * hM - s.D11 * hN - e1
    · exact k2.trans (dzdx_2 s z phi).symm
    · apply mul_left_cancel₀ hk
      show s.kA55 * dz 3 = s.kA55 * dzdx s z phi 3
      rw [k4] at hV
      linear_combination hV - e3
    · exact k4.trans (dzdx_4 s z phi).symm
    · apply mul_left_cancel₀ hK
      show s.K0 * dz 5 = s.K0 * dzdx s z phi 5
      linear_combination dz 5 * hKe + s.B11 * hN - s.A11 * hM - e5

/-! ## C10 -/

/-- The bedded particular integral is a uniform equilibrium state without
section forces in which the weak layer carries exactly the loads. -/
theorem C10_bedded_particular (s : Self) (hs : Regular s) (x x' phi : ℝ) :
    zp s x phi true = zp s x' phi true ∧
    dzdx s (zp s x phi true) phi = 0 ∧
    fN s (zp s x phi true) = 0 ∧ fM s (zp s x phi true) = 0 ∧
    fsig s (zp s x phi true) = -((s.loads phi).qn + (s.loads phi).pn) ∧
    ftau s (zp s x phi true) = (s.loads phi).qt + (s.loads phi).pt := by
  have hk := hs.kA55
  have hn := hs.kn
  have ht := hs.kt
  have hsig : s.kn * ((s.loads phi).qn + (s.loads phi).pn) / s.kn
      = (s.loads phi).qn + (s.loads phi).pn := by field_simp
  have htau : s.beam.tau (zp s x phi true) = (s.loads phi).qt + (s.loads phi).pt := by
    simp [Beam.tau, Self.beam, zp, Self.loads]
    field_simp; ring
  have hV : s.beam.V (zp s x phi true) = -((s.h + s.t) / 2 * ((s.loads phi).qt + (s.loads phi).pt)
      - s.zs * (s.loads phi).qt + s.h / 2 * (s.loads phi).pt) := by
    simp [Beam.V, Self.beam, zp, Self.loads]
    field_simp; ring
  refine ⟨by simp [zp], ?_, ?_, ?_, ?_, ?_⟩
  · symm
    rw [C09_dzdx_iff_equilibrium s hs]
    refine ⟨⟨by simp [zp], by simp [zp], by simp [zp]⟩, ?_, ?_, ?_⟩
    · rw [htau]; simp
    · simp [zp, Self.loads, Self.beam]; field_simp; ring
    · rw [htau, hV]; simp only [Self.beam, Pi.zero_apply]; ring
  · simp [fN, zp]
  · simp [fM, zp]
  · simp [fsig, fw, zp, Self.loads]; field_simp; ring
  · rw [(C09_field_quantities s _).2.2.2.1, htau]

/-! ## C11 -/

/-- Derivative of the free complementary matrix, entry by entry. -/
noncomputable def dzhFree (s : Self) (x : ℝ) : Mat6 :=
  !![0, 0, 0, 6 * s.B11 / s.A11 * x, 0, 1;
     0, 0, 0, 6 * s.B11 / s.A11, 0, 0;
     0, 1, 2 * x, 3 * x ^ 2, 0, 0;
     0, 0, 2, 6 * x, 0, 0;
     0, 0, -2, -6 * x, 0, 0;
     0, 0, 0, -6, 0, 0]

theorem hasDerivAt_zhFree (s : Self) (C : Vec6) (x : ℝ) :
    HasDerivAt (fun y => (zhFree s y).mulVec C) ((dzhFree s x).mulVec C) x := by
  have h2 : HasDerivAt (fun y : ℝ => y ^ 2) (2 * x) x := by simpa using hasDerivAt_pow 2 x
  have h3 : HasDerivAt (fun y : ℝ => y ^ 3) (3 * x ^ 2) x := by simpa using hasDerivAt_pow 3 x
  have h1 := hasDerivAt_id' x
  rw [hasDerivAt_pi]
  intro i
  fin_cases i <;>
    simp [zhFree, dzhFree, Matrix.mulVec, dotProduct, Fin.sum_univ_six]
  · refine ((((h2.const_mul (3 * s.B11 / s.A11)).mul_const (C 3)).add_const (C 4)).add
      (h1.mul_const (C 5))).congr_deriv ?_
    ring
  · refine ((h1.const_mul (6 * s.B11 / s.A11)).mul_const (C 3)).congr_deriv ?_
    ring
  · refine ((((h1.mul_const (C 1)).const_add (C 0)).add (h2.mul_const (C 2))).add
      (h3.mul_const (C 3))).congr_deriv ?_
    ring
  · refine ((((h1.const_mul 2).mul_const (C 2)).const_add (C 1)).add
      ((h2.const_mul 3).mul_const (C 3))).congr_deriv ?_
    ring
  · refine ((((h1.const_mul 2).mul_const (C 2)).neg.const_add (-C 1)).add
      (((h2.const_mul 3).neg.add_const (6 * s.K0 / (s.A11 * s.kA55))).mul_const (C 3))).congr_deriv ?_
    ring
  · refine ((h1.const_mul 6).mul_const (C 3)).neg.congr_deriv ?_
    ring

/-- For every choice of constants, the free complementary solution is
differentiable and satisfies the unsupported-beam equations without load. -/
theorem C11_free_complementary (s : Self) (hs : Regular s) (C : Vec6) (l x : ℝ) :
    HasDerivAt (fun y => (zh s y l false).mulVec C) ((dzhFree s x).mulVec C) x ∧
    EquilFree s.beam Loads.zero ((zh s x l false).mulVec C) ((dzhFree s x).mulVec C) := by
  refine ⟨by simpa [zh] using hasDerivAt_zhFree s C x, ?_⟩
  have hA := hs.A11
  have hk := hs.kA55
  have hK := hs.K0_eq
  refine ⟨⟨?_, ?_, ?_⟩, ?_, ?_, ?_⟩ <;>
    simp [zh, zhFree, dzhFree, Matrix.mulVec, dotProduct, Fin.sum_univ_six, Self.beam, Beam.V,
      Loads.zero, hK] <;> first | done | (right; ring) | (field_simp; ring)

/-- The free complementary matrix is invertible everywhere. -/
theorem zhFree_injective (s : Self) (hs : Regular s) (x : ℝ) (C : Vec6)
    (h : (zhFree s x).mulVec C = 0) : C = 0 := by
  have hA := hs.A11
  have hk := hs.kA55
  have hK := hs.K0
  have h0 := congrFun h 0
  have h1 := congrFun h 1
  have h2 := congrFun h 2
  have h3 := congrFun h 3
  have h4 := congrFun h 4
  have h5 := congrFun h 5
  simp [zhFree, Matrix.mulVec, dotProduct, Fin.sum_univ_six] at h0 h1 h2 h3 h4 h5
  have c3 : C 3 = 0 := by
    have : 6 * s.K0 / (s.A11 * s.kA55) * C 3 = 0 := by linear_combination h3 + h4
    rcases mul_eq_zero.mp this with h | h
    · exact absurd h (by simp [hK, hA, hk])
    · exact h
  have c2 : C 2 = 0 := by rw [c3] at h5; linear_combination (-1 / 2) * h5
  have c1 : C 1 = 0 := by rw [c3, c2] at h3; linear_combination h3
  have c0 : C 0 = 0 := by rw [c3, c2, c1] at h2; linear_combination h2
  have c5 : C 5 = 0 := by rw [c3] at h1; linear_combination h1
  have c4 : C 4 = 0 := by rw [c3, c5] at h0; linear_combination h0
  funext i
  fin_cases i <;> assumption

/-- Any state at any position is attained by exactly one set of constants. -/
theorem C11_free_complete (s : Self) (hs : Regular s) (l x : ℝ) (Z : Vec6) :
    ∃! C : Vec6, (zh s x l false).mulVec C = Z := by
  have hinj : Function.Injective (zhFree s x).mulVec := by
    intro C C' h
    have : (zhFree s x).mulVec (C - C') = 0 := by rw [Matrix.mulVec_sub, h, sub_self]
    exact sub_eq_zero.mp (zhFree_injective s hs x _ this)
  have hu := (Matrix.mulVec_injective_iff_isUnit).mp hinj
  have hsurj := (Matrix.mulVec_surjective_iff_isUnit).mpr hu
  obtain ⟨C, hC⟩ := hsurj Z
  refine ⟨C, by simpa [zh] using hC, fun C' hC' => hinj ?_⟩
  rw [hC]; simpa [zh] using hC'

/-! ## C12 -/

/-- Derivative of the free particular integral. -/
noncomputable def dzpFree (s : Self) (x phi : ℝ) : Vec6 :=
  let qn := (s.loads phi).qn
  let qt := (s.loads phi).qt
  let pn := (s.loads phi).pn
  let pt := (s.loads phi).pt
  ![(-2 * (qt + pt) / s.A11 - s.B11 * (qn + pn) * x / s.K0) / 2 * x,
    -(qt + pt) / s.A11 - s.B11 * (qn + pn) * x / s.K0,
    -s.A11 * (qn + pn) * x ^ 3 / (6 * s.K0),
    -s.A11 * (qn + pn) * x ^ 2 / (2 * s.K0),
    (qn + pn) * (s.A11 * x ^ 2 / (2 * s.K0) - 1 / s.kA55),
    (qn + pn) * (s.A11 * x / s.K0)]

theorem hasDerivAt_zpFree (s : Self) (x phi : ℝ) :
    HasDerivAt (fun y => zp s y phi false) (dzpFree s x phi) x := by
  have h2 : HasDerivAt (fun y : ℝ => y ^ 2) (2 * x) x := by simpa using hasDerivAt_pow 2 x
  have h3 : HasDerivAt (fun y : ℝ => y ^ 3) (3 * x ^ 2) x := by simpa using hasDerivAt_pow 3 x
  have h4 : HasDerivAt (fun y : ℝ => y ^ 4) (4 * x ^ 3) x := by simpa using hasDerivAt_pow 4 x
  have h1 := hasDerivAt_id' x
  set qn := (s.loads phi).qn with hqn
  set qt := (s.loads phi).qt with hqt
  set pn := (s.loads phi).pn with hpn
  set pt := (s.loads phi).pt with hpt
  have e : (fun y => zp s y phi false) = fun y =>
      ![(-3 * (qt + pt) / s.A11 - s.B11 * (qn + pn) * y / s.K0) / 6 * y ^ 2,
        (-2 * (qt + pt) / s.A11 - s.B11 * (qn + pn) * y / s.K0) / 2 * y,
        -s.A11 * (qn + pn) * y ^ 4 / (24 * s.K0),
        -s.A11 * (qn + pn) * y ^ 3 / (6 * s.K0),
        s.A11 * (qn + pn) * y ^ 3 / (6 * s.K0)
          + ((s.zs - s.B11 / s.A11) * qt - s.h * pt / 2 - (qn + pn) * y) / s.kA55,
        (qn + pn) * (s.A11 * y ^ 2 / (2 * s.K0) - 1 / s.kA55)] := by
    funext y; simp [zp, hqn, hqt, hpn, hpt, Self.loads]
  rw [e, hasDerivAt_pi]
  intro i
  fin_cases i <;> simp [dzpFree]
  · refine ((((h1.const_mul (s.B11 * (qn + pn))).div_const s.K0).const_sub
      (-(3 * (qt + pt)) / s.A11)).div_const 6 |>.mul h2).congr_deriv ?_
    ring
  · refine ((((h1.const_mul (s.B11 * (qn + pn))).div_const s.K0).const_sub
      (-(2 * (qt + pt)) / s.A11)).div_const 2 |>.mul h1).congr_deriv ?_
    ring
  · refine ((h4.const_mul (s.A11 * (qn + pn))).neg.div_const (24 * s.K0)).congr_deriv ?_
    ring
  · refine ((h3.const_mul (s.A11 * (qn + pn))).neg.div_const (6 * s.K0)).congr_deriv ?_
    ring
  · refine (((h3.const_mul (s.A11 * (qn + pn))).div_const (6 * s.K0)).add
      (((h1.const_mul (qn + pn)).const_sub ((s.zs - s.B11 / s.A11) * qt - s.h * pt / 2)).div_const
        s.kA55)).congr_deriv ?_
    ring
  · refine (((((h2.const_mul s.A11).div_const (2 * s.K0)).sub_const (s.kA55)⁻¹)).const_mul
      (qn + pn)).congr_deriv ?_
    ring

/-- The free particular integral balances the loads if and only if
`B11 * pt = 0`. -/
theorem C12_free_particular_iff (s : Self) (hs : Regular s) (x phi : ℝ) :
    EquilFree s.beam (s.loads phi) (zp s x phi false) (dzpFree s x phi)
      ↔ s.B11 * (s.loads phi).pt = 0 := by
  have hA := hs.A11
  have hk := hs.kA55
  have hK := hs.K0
  have hKe := hs.K0_eq
  constructor
  · rintro ⟨-, -, -, hM⟩
    simp [zp, dzpFree, Self.beam, Beam.V, Self.loads] at hM ⊢
    set qn := (getWeightLoad s phi).1
    set qt := (getWeightLoad s phi).2
    set pn := (getSurfaceLoad s phi).1
    set pt := (getSurfaceLoad s phi).2
    have e : s.D11 = (s.B11 ^ 2 - s.K0) / s.A11 := by field_simp; linear_combination hKe
    rw [e] at hM
    field_simp at hM
    have : s.B11 * pt * (12 * s.K0) = 0 := by linear_combination (-1) * hM
    rcases mul_eq_zero.mp this with h | h
    · exact mul_eq_zero.mp h
    · exact absurd h (by simpa using hK)
  · intro h0
    refine ⟨⟨?_, ?_, ?_⟩, ?_, ?_, ?_⟩
    · simp [zp, dzpFree, Self.loads]
    · simp [zp, dzpFree, Self.loads]
    · simp [zp, dzpFree, Self.loads]
    · simp [dzpFree, Self.beam]; field_simp; ring
    · simp [dzpFree, Self.beam]; field_simp; ring
    · simp [zp, dzpFree, Self.beam, Beam.V, Self.loads] at h0 ⊢
      set qn := (getWeightLoad s phi).1
      set qt := (getWeightLoad s phi).2
      set pn := (getSurfaceLoad s phi).1
      set pt := (getSurfaceLoad s phi).2
      have h0' : s.B11 * pt = 0 := mul_eq_zero.mpr h0
      have e : s.D11 = (s.B11 ^ 2 - s.K0) / s.A11 := by field_simp; linear_combination hKe
      rw [e]
      field_simp
      linear_combination (-12 * s.K0) * h0'

/-- The free particular integral obeys equilibrium when there is no surface
load, on flat ground, or when the slab is not bending-extension coupled. Missing
for the full statement: surface load on a slope acting on a coupled slab, where
the code is wrong (`C12_free_particular_violated`). -/
theorem C12_free_particular_partial (s : Self) (hs : Stiff s) (phi : ℝ)
    (h : s.p = 0 ∨ Real.sin (deg2rad phi) = 0 ∨ s.B11 = 0) :
    SolvesODE s.beam (s.loads phi) false (fun x => zp s x phi false) := by
  intro x
  refine ⟨_, hasDerivAt_zpFree s x phi, ?_⟩
  have := (C12_free_particular_iff s hs.regular x phi).mpr ?_
  · simpa [Equil] using this
  · rcases h with h | h | h <;> simp [Self.loads, getSurfaceLoad, h]

/-- Two layers of equal thickness: the coupling stiffness is proportional to
the difference of the moduli. -/
theorem two_layer_B11 (s : Self) (l1 l2 : Layer) (h : ℝ) (hsl : s.slab = [l1, l2]) (h1 : l1.h = h)
    (h2 : l2.h = h) (hh : s.h = 2 * h) :
    (calcLaminateStiffnessMatrix s).B11 = h ^ 2 / 2 * (l2.Ep - l1.Ep) := by
  rw [laminate_eq]
  simp only [hsl, layerSum, h1, h2, hh, Layer.Ep]
  ring

/-- A soft layer on top of a hard one. -/
noncomputable def softOnHard : List Ply := [⟨100, 100⟩, ⟨300, 100⟩]

theorem softOnHard_valid : ValidPlies softOnHard := by
  refine ⟨by simp [softOnHard], ?_⟩
  intro l hl
  simp only [softOnHard, List.mem_cons, List.not_mem_nil, or_false] at hl
  rcases hl with rfl | rfl <;> constructor <;> norm_num

/-- `Layered(system, layers=[[100, 100], [300, 100]])`. -/
noncomputable def coupled (eig : EigSolver) (system : String) (td : Bool) : Self :=
  calcFundamentalSystem eig (setFoundationProperties eig 30 0.25 0.25 false
    (setBeamProperties eig (.rows softOnHard) 6.5 4.4 0.25 false (Self.init system td true)).2)

theorem coupled_init (eig : EigSolver) (system : String) (td : Bool) :
    layeredInit eig system (.rows softOnHard) td = .ok (coupled eig system td) := rfl

theorem coupled_ready (eig : EigSolver) (system : String) (td : Bool) :
    Ready eig (coupled eig system td) := by
  obtain ⟨s, h1, h2, -⟩ := layeredInit_ready eig system softOnHard td softOnHard_valid
  rw [coupled_init] at h1
  injection h1 with h1
  rwa [h1]

theorem setSurfaceLoad_B11 (p : ℝ) (s : Self) : (setSurfaceLoad p s).B11 = s.B11 := rfl

theorem Ready.surface {eig : EigSolver} {s : Self} (h : Ready eig s) (p : ℝ) :
    Ready eig (setSurfaceLoad p s) :=
  ⟨h.slab.congr rfl, ⟨h.weak.t, h.weak.E, h.weak.nu_lo, h.weak.nu_hi⟩,
    (C27_update_flag eig s).2.2 p h.fresh, h.g, h.lski⟩

theorem coupled_B11 (eig : EigSolver) (system : String) (td : Bool) :
    0 < (coupled eig system td).B11 := by
  have h := (fundamental_fields eig (setFoundationProperties eig 30 0.25 0.25 false
    (setBeamProperties eig (.rows softOnHard) 6.5 4.4 0.25 false (Self.init system td true)).2)).2.2.2.1
  show 0 < (calcFundamentalSystem eig _).B11
  rw [h, two_layer_B11 _ ⟨100, 100, bergfeld 100 917 6.5 4.4, bergfeld 100 917 6.5 4.4 / (2 * (1 + 0.25)), 0.25⟩
    ⟨300, 100, bergfeld 300 917 6.5 4.4, bergfeld 300 917 6.5 4.4 / (2 * (1 + 0.25)), 0.25⟩ 100 rfl rfl rfl ?_]
  · have hm := (C04_bergfeld 917 6.5 4.4 (by norm_num) (by norm_num) (by norm_num)).2.1
    have : bergfeld 100 917 6.5 4.4 < bergfeld 300 917 6.5 4.4 := by
      exact hm 100 300 (by norm_num) (by norm_num)
    have h2 : (0:ℝ) < 1 - 0.25 ^ 2 := by norm_num
    have := div_lt_div_of_pos_right this h2
    simp only [Layer.Ep]
    linarith
  · show (calcCenterOfGravity softOnHard).1 = 2 * 100
    rw [cog_fst]
    norm_num [total, softOnHard]

/-- The full statement of C12 is false: on a slope of 30° with surface load
the particular integral of a free segment of the coupled slab violates moment
equilibrium at every position. -/
theorem C12_free_particular_violated (eig : EigSolver) :
    ∃ s, Ready eig s ∧ ∃ phi, ∀ x, ∃ dz, HasDerivAt (fun y => zp s y phi false) dz x ∧
      ¬ EquilFree s.beam (s.loads phi) (zp s x phi false) dz := by
  refine ⟨setSurfaceLoad 1 (coupled eig "pst-" false), (coupled_ready eig _ _).surface 1, 30,
    fun x => ⟨_, hasDerivAt_zpFree _ x 30, ?_⟩⟩
  have hr := ((coupled_ready eig "pst-" false).surface 1).stiff.regular
  rw [C12_free_particular_iff _ hr]
  have hB : (setSurfaceLoad 1 (coupled eig "pst-" false)).B11 ≠ 0 := by
    rw [setSurfaceLoad_B11]; exact (coupled_B11 eig _ _).ne'
  refine mul_ne_zero hB ?_
  have : Real.sin (deg2rad 30) = 1 / 2 := by
    rw [← Real.sin_pi_div_six]; congr 1; simp only [deg2rad]; ring
  simp only [Self.loads, getSurfaceLoad, setSurfaceLoad, this]
  norm_num

/-- The hypotheses of C09–C12 are met by objects built with the public
constructor, for instance this coupled two-layer slab (here with `B11 > 0`). -/
example (eig : EigSolver) : Stiff (coupled eig "pst-" false) ∧ Regular (coupled eig "pst-" false) ∧
    0 < (coupled eig "pst-" false).B11 :=
  ⟨(coupled_ready eig _ _).stiff, (coupled_ready eig _ _).stiff.regular, coupled_B11 eig _ _⟩

/-! ## C15 -/

/-- Weight, surface and skier loads decompose into slope-normal and
slope-parallel parts. -/
theorem C15_decomposition (s : Self) (m phi : ℝ) :
    (getWeightLoad s phi).1 ^ 2 + (getWeightLoad s phi).2 ^ 2
      = (s.g * (s.slab.map fun l => l.rho * 1e-12 * l.h).sum) ^ 2 ∧
    (getSurfaceLoad s phi).1 ^ 2 + (getSurfaceLoad s phi).2 ^ 2 = s.p ^ 2 ∧
    (getSkierLoad s m phi).1 ^ 2 + (getSkierLoad s m phi).2 ^ 2 = (1e-3 * (m * s.g / s.lski)) ^ 2 := by
  have h := Real.sin_sq_add_cos_sq (deg2rad phi)
  have key : ∀ q : ℝ, (q * Real.cos (deg2rad phi)) ^ 2 + (-q * Real.sin (deg2rad phi)) ^ 2 = q ^ 2 := by
    intro q; linear_combination q ^ 2 * h
  refine ⟨?_, ?_, ?_⟩
  · simp only [getWeightLoad, key]
    congr 1
    rw [← List.sum_map_mul_left]
    congr 1
    apply List.map_congr_left
    intro l _; ring
  · simp only [getSurfaceLoad, key]
  · simp only [getSkierLoad, key]; ring

/-- On flat ground there is no slope-parallel part and the normal part is the
whole load. -/
theorem C15_flat (s : Self) (m : ℝ) :
    getWeightLoad s 0 = (s.g * (s.slab.map fun l => l.rho * 1e-12 * l.h).sum, 0) ∧
    getSurfaceLoad s 0 = (s.p, 0) ∧ getSkierLoad s m 0 = (1e-3 * (m * s.g / s.lski), 0) := by
  refine ⟨?_, ?_, ?_⟩
  · simp only [getWeightLoad, deg2rad, zero_mul, Real.cos_zero, Real.sin_zero, mul_zero, mul_one]
    congr 1
    rw [← List.sum_map_mul_left]
    congr 1
    apply List.map_congr_left
    intro l _; ring
  · simp [getSurfaceLoad, deg2rad]
  · simp only [getSkierLoad, deg2rad, zero_mul, Real.cos_zero, Real.sin_zero, mul_zero, mul_one]
    congr 1; ring

/-- Normal parts are even and slope-parallel parts odd in the inclination; on
a slope between 0° and 180° the slope-parallel part of a positive load is
negative. -/
theorem C15_parity (s : Self) (m phi : ℝ) :
    (getWeightLoad s (-phi)) = ((getWeightLoad s phi).1, -(getWeightLoad s phi).2) ∧
    (getSurfaceLoad s (-phi)) = ((getSurfaceLoad s phi).1, -(getSurfaceLoad s phi).2) ∧
    (getSkierLoad s m (-phi)) = ((getSkierLoad s m phi).1, -(getSkierLoad s m phi).2) ∧
    (0 < phi → phi < 180 → 0 < s.p → (getSurfaceLoad s phi).2 < 0) := by
  have e : deg2rad (-phi) = -deg2rad phi := by simp [deg2rad]
  refine ⟨?_, ?_, ?_, ?_⟩
  · simp [getWeightLoad, e]
  · simp [getSurfaceLoad, e]
  · simp [getSkierLoad, e]
  · intro h0 h1 hp
    have hs : 0 < Real.sin (deg2rad phi) := by
      apply Real.sin_pos_of_pos_of_lt_pi
      · simp only [deg2rad]; positivity
      · simp only [deg2rad]; nlinarith [Real.pi_pos]
    simp only [getSurfaceLoad]
    nlinarith

/-- The weight load adds up over layers and the skier load is additive and
homogeneous in the mass. -/
theorem C15_linear (s s1 s2 : Self) (phi m m' c : ℝ) (h : s.slab = s1.slab ++ s2.slab)
    (h1 : s1.g = s.g) (h2 : s2.g = s.g) :
    getWeightLoad s phi = getWeightLoad s1 phi + getWeightLoad s2 phi ∧
    getSkierLoad s (m + m') phi = getSkierLoad s m phi + getSkierLoad s m' phi ∧
    getSkierLoad s (c * m) phi = (c * (getSkierLoad s m phi).1, c * (getSkierLoad s m phi).2) := by
  refine ⟨?_, ?_, ?_⟩
  · simp only [getWeightLoad, h, h1, h2, List.map_append, List.sum_append, Prod.mk_add_mk]
    congr 1 <;> ring
  · simp only [getSkierLoad, Prod.mk_add_mk]
    congr 1 <;> ring
  · simp only [getSkierLoad]
    congr 1 <;> ring

/-- An 80 kg skier on the default lateral length of 1 m: 0.7848 N/mm. -/
example (eig : EigSolver) : (getSkierLoad (coupled eig "skier" false) 80 0).1 = 0.7848 := by
  rw [(C15_flat _ 80).2.2]
  have h1 : (coupled eig "skier" false).g = 9810 := rfl
  have h2 : (coupled eig "skier" false).lski = 1000 := rfl
  rw [h1, h2]
  norm_num

end Weac
