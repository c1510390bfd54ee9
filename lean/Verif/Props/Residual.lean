import Verif.Lemmas.Stability
import Verif.Props.Unique
import Verif.Props.SolveDemo

/-!
# C71: small residuals of the linear solver mean small errors
-/

namespace Weac

open Spec

/-! ## Residuals of the rows -/

theorem bcFun_left_near (s : Self) (phi kR : ℝ) (k : Bool) (ε : ℝ)
    (hsys : IsPst s ∨ IsVpst s ∨ IsSkier s ∨ IsAux s) (z : Vec6) :
    (∀ t : Fin 3, |bcFun s kR k .l z t - ![(rhsEnd s phi .left k).1, (rhsEnd s phi .left k).2.1,
        (rhsEnd s phi .left k).2.2] t| ≤ ε)
      ↔ (endCond s phi kR .left k).Near s.beam ε z := by
  rw [Fin.forall_fin_succ, Fin.forall_fin_succ, Fin.forall_fin_one]
  unfold bcFun rhsEnd endCond
  rcases sys_kinds hsys with ⟨h1, h2, h3, h4⟩ | ⟨h1, h2, h3, h4⟩ | ⟨h1, h2, h3, h4⟩ | ⟨h1, h2, h3, h4, h5⟩ |
    ⟨h1, h2, h3, h4, h5⟩
  · simp only [if_pos h1]
    cases k with
    | true => simp [EndCond.Near, tdData, fN, fM, fV, Self.beam, Beam.N, Beam.M, Beam.V]
    | false =>
      rcases hm : s.mode with _ | _ | _ | _ <;>
        simp [EndCond.Near, tdData, hm, fN, fM, fV, fw, fpsi, Self.beam, Beam.N, Beam.M, Beam.V, Side.sgn,
          calcQt, Self.tangential, Self.loads, sub_eq_add_neg]
  · simp only [if_neg h1, if_pos h2, if_neg h3]
    simp [EndCond.Near, faceForces, verticalForces, fN, fM, fV, Self.beam, Beam.N, Beam.M, Beam.V]
  · simp only [if_neg h1, if_neg h2, if_pos h3]
    simp [EndCond.Near, fu, fw, fpsi]
  · simp only [if_neg h1, if_neg h2, if_neg h3, if_pos h5]
    simp [EndCond.Near, fN, fM, fV, Self.beam, Beam.N, Beam.M, Beam.V]
  · have h6 : s.system ≠ "rot" := by rw [h5]; decide
    simp only [if_neg h1, if_neg h2, if_neg h3, if_neg h6]
    simp [EndCond.Near, fN, fM, fV, Self.beam, Beam.N, Beam.M, Beam.V]

theorem bcFun_right_near (s : Self) (phi kR : ℝ) (k : Bool) (ε : ℝ)
    (hsys : IsPst s ∨ IsVpst s ∨ IsSkier s ∨ IsAux s) (z : Vec6) :
    (∀ t : Fin 3, |bcFun s kR k .r z t - ![(rhsEnd s phi .right k).1, (rhsEnd s phi .right k).2.1,
        (rhsEnd s phi .right k).2.2] t| ≤ ε)
      ↔ (endCond s phi kR .right k).Near s.beam ε z := by
  rw [Fin.forall_fin_succ, Fin.forall_fin_succ, Fin.forall_fin_one]
  unfold bcFun rhsEnd endCond
  rcases sys_kinds hsys with ⟨h1, h2, h3, h4⟩ | ⟨h1, h2, h3, h4⟩ | ⟨h1, h2, h3, h4⟩ | ⟨h1, h2, h3, h4, h5⟩ |
    ⟨h1, h2, h3, h4, h5⟩
  · simp only [if_pos h1]
    cases k with
    | true => simp [EndCond.Near, tdData, fN, fM, fV, Self.beam, Beam.N, Beam.M, Beam.V]
    | false =>
      rcases hm : s.mode with _ | _ | _ | _ <;>
        simp [EndCond.Near, tdData, hm, fN, fM, fV, fw, fpsi, Self.beam, Beam.N, Beam.M, Beam.V, Side.sgn,
          calcQt, Self.tangential, Self.loads]
  · simp only [if_neg h1, if_pos h2, if_neg h3]
    simp [EndCond.Near, faceForces, verticalForces, fN, fM, fV, Self.beam, Beam.N, Beam.M, Beam.V]
  · simp only [if_neg h1, if_neg h2, if_pos h3]
    simp [EndCond.Near, fu, fw, fpsi]
  · simp only [if_neg h1, if_neg h2, if_neg h3, if_pos h5]
    simp [EndCond.Near, fN, fM, fV, Self.beam, Beam.N, Beam.M, Beam.V]
  · have h6 : s.system ≠ "rot" := by rw [h5]; decide
    simp only [if_neg h1, if_neg h2, if_neg h3, if_neg h6]
    simp [EndCond.Near, fN, fM, fV, Self.beam, Beam.N, Beam.M, Beam.V]

theorem six_near (s : Self) (F : ℝ × ℝ × ℝ) (zl zr : Vec6) {ε : ℝ}
    (h : ∀ t : Fin 6, |six s zl t - six s zr t - (![0, 0, 0, F.1, F.2.1, F.2.2] : Fin 6 → ℝ) t| ≤ ε) :
    NearTransmission s.beam ε F zl zr := by
  have h0 := h 0
  have h1 := h 1
  have h2 := h 2
  have h3 := h 3
  have h4 := h 4
  have h5 := h 5
  simp [six, fu, fw, fpsi, fN, fM, fV] at h0 h1 h2 h3 h4 h5
  exact ⟨h0, h1, h2, h3, h4, h5⟩

/-- Residuals of the linear system bound those of the conditions. -/
theorem rows_nearly (s : Self) (phi kR : ℝ) (a : SegLists) (hl : ListsOk s a)
    (hsys : IsPst s ∨ IsVpst s ∨ IsSkier s ∨ IsAux s) (hv : NoFaceTouchdown s) (x : ℕ → ℝ) {ε : ℝ}
    (h : ∀ r < 6 * a.li.length, |∑ c ∈ Finset.range (6 * a.li.length), matAt s kR a.li.length a.li a.ki a.li.length r c * x c
        - (rhsFinal s phi a r - vecAt s kR phi a.li.length a.li a.ki a.li.length r)| ≤ ε) :
    NearlyMeets ε s phi kR a (constsOf x) := by
  have e : ∀ r, ∑ c ∈ Finset.range (6 * a.li.length), matAt s kR a.li.length a.li a.ki a.li.length r c * x c
        - (rhsFinal s phi a r - vecAt s kR phi a.li.length a.li a.ki a.li.length r)
      = ∑ i ∈ Finset.range a.li.length, rowOf s kR a.li.length a.ki i r (stateAt s phi a.li a.ki (constsOf x) i 0)
        (stateAt s phi a.li a.ki (constsOf x) i (nth a.li i)) - rhsFinal s phi a r := by
    intro r
    rw [← row_sum s kR phi]
    ring
  simp only [e] at h
  rw [forall_rows _ _ hl.two] at h
  simp only [row_left s kR _ hl.two, row_right s kR _ hl.two, rhsFinal_left s phi a hl hsys hv,
    rhsFinal_right s phi a hl hsys hv] at h
  rw [bcFun_left_near s phi kR _ ε hsys, bcFun_right_near s phi kR _ ε hsys] at h
  obtain ⟨h1, h2, h3⟩ := h
  refine ⟨h1, h2, fun i hi => six_near _ _ _ _ fun t => ?_⟩
  have := h3 i hi t
  rwa [row_mid s kR _ _ _ _ i hi, rhsFinal_mid s phi a hl i hi] at this

/-! ## Errors of the fields -/

theorem _root_.Weac.Spec.EndCond.Near.sub {b : Beam} {ε : ℝ} {e : EndCond} {z z' : Vec6} (h : e.Near b ε z) (h' : e.Holds b z') :
    e.hom.Near b ε (z - z') := by
  have eN : b.N (z - z') = b.N z - b.N z' := by simp [Beam.N]; ring
  have eM : b.M (z - z') = b.M z - b.M z' := by simp [Beam.M]; ring
  have eV : b.V (z - z') = b.V z - b.V z' := by simp [Beam.V]; ring
  cases e with
  | forces N M V =>
    obtain ⟨h1, h2, h3⟩ := h
    obtain ⟨k1, k2, k3⟩ := h'
    simp only [EndCond.hom, EndCond.Near, eN, eM, eV, sub_zero, k1, k2, k3]
    exact ⟨h1, h2, h3⟩
  | contact N kR w =>
    obtain ⟨h1, h2, h3⟩ := h
    obtain ⟨k1, k2, k3⟩ := h'
    have : b.M z - b.M z' + kR * (z 4 - z' 4) = b.M z + kR * z 4 := by linear_combination -k2
    simp only [EndCond.hom, EndCond.Near, eN, eM, Pi.sub_apply, sub_zero, k1, k3, this]
    exact ⟨h1, h2, h3⟩
  | state u w psi =>
    obtain ⟨h1, h2, h3⟩ := h
    obtain ⟨k1, k2, k3⟩ := h'
    simp only [EndCond.hom, EndCond.Near, Pi.sub_apply, sub_zero, k1, k2, k3]
    exact ⟨h1, h2, h3⟩

theorem _root_.Weac.Spec.NearTransmission.sub {b : Beam} {ε : ℝ} {F : ℝ × ℝ × ℝ} {zl zr yl yr : Vec6}
    (h : NearTransmission b ε F zl zr) (h' : Transmission b F yl yr) : NearTransmission b ε (0, 0, 0) (zl - yl) (zr - yr) := by
  have eN : ∀ z z', b.N (z - z') = b.N z - b.N z' := fun z z' => by simp [Beam.N]; ring
  have eM : ∀ z z', b.M (z - z') = b.M z - b.M z' := fun z z' => by simp [Beam.M]; ring
  have eV : ∀ z z', b.V (z - z') = b.V z - b.V z' := fun z z' => by simp [Beam.V]; ring
  obtain ⟨h1, h2, h3, h4, h5, h6⟩ := h
  obtain ⟨k1, k2, k3, k4, k5, k6⟩ := h'
  rw [← k4] at h4
  rw [← k5] at h5
  rw [← k6] at h6
  refine ⟨?_, ?_, ?_, ?_, ?_, ?_⟩
  · rw [Pi.sub_apply, Pi.sub_apply, k1, sub_sub_sub_cancel_right]; exact h1
  · rw [Pi.sub_apply, Pi.sub_apply, k2, sub_sub_sub_cancel_right]; exact h2
  · rw [Pi.sub_apply, Pi.sub_apply, k3, sub_sub_sub_cancel_right]; exact h3
  · rw [eN, eN]; refine le_of_eq_of_le (congrArg _ ?_) h4; ring
  · rw [eM, eM]; refine le_of_eq_of_le (congrArg _ ?_) h5; ring
  · rw [eV, eV]; refine le_of_eq_of_le (congrArg _ ?_) h6; ring

/-- C71. Constants that meet the end and transmission conditions up to `ε` give
fields that differ from the solution by a multiple of `ε` at most. The multiple
depends on slab and weak layer, on the number of segments, on the length of the
unsupported segments and on a lower bound for the length of the supported ones:
not on inclination, weights, rotational spring and touchdown data, and not on
how long the supported segments are. -/
theorem C71_nearly (s : Self) (hb : BedOk s) (hc : ShearOk s) (n : ℕ) {d : ℝ} (R : ℝ) (hd : 0 < d) :
    ∃ K, 0 < K ∧ ∀ (s' : Self) (phi kR ε : ℝ) (a : SegLists) (C C' : ℕ → Vec6), s'.beam = s.beam → BedOk s' → 0 ≤ kR →
      a.li.length = n → Anchored d R n (fun i => a.ki.getD i false) (nth a.li) → Meets s' phi kR a C →
      NearlyMeets ε s' phi kR a C' → ∀ i < n, ∀ x ∈ Set.Icc 0 (nth a.li i), ∀ q,
        |stateAt s' phi a.li a.ki C' i x q - stateAt s' phi a.li a.ki C i x q| ≤ K * ε := by
  obtain ⟨K, hK, h⟩ := rough_bound (hb.stiff.coercive hc) n R hd
  refine ⟨K, hK, fun s' phi kR ε a C C' hbeam hb' hkR hn ha hm hnm i hi x hx q => ?_⟩
  subst hn
  unfold Meets at hm
  unfold NearlyMeets at hnm
  rw [hbeam] at hm hnm
  have hε : 0 ≤ ε := by
    have := hnm.left
    revert this
    cases endCond s' phi kR .left (a.ki.getD 0 false) <;> exact fun h => (abs_nonneg _).trans h.1
  have h1 := h (fun i => a.ki.getD i false) (nth a.li) _ _
    (fun i x => stateAt s' phi a.li a.ki C' i x - stateAt s' phi a.li a.ki C i x) ε
    (endCond_passive_left s' phi kR (a.ki.getD 0 false) hkR)
    (endCond_passive_right s' phi kR (a.ki.getD (a.li.length - 1) false) hkR) hε ⟨fun j _ => ?_, ?_⟩ ha i hi x hx
  · have h2 := norm_le_pi_norm (stateAt s' phi a.li a.ki C' i x - stateAt s' phi a.li a.ki C i x) q
    rw [Real.norm_eq_abs, Pi.sub_apply] at h2
    exact h2.trans h1
  · have := zh_solves s' hb' (a.ki.getD j false) (nth a.li j) (C' j - C j)
    rw [hbeam] at this
    have e : (fun x => stateAt s' phi a.li a.ki C' j x - stateAt s' phi a.li a.ki C j x) =
        fun x => (zh s' x (nth a.li j) (a.ki.getD j false)).mulVec (C' j - C j) := by
      funext x
      rw [Matrix.mulVec_sub]
      simp [stateAt, zsol]
    rw [e]
    exact this
  · exact ⟨hnm.left.sub hm.left, hnm.right.sub hm.right, fun j hj => (hnm.trans j hj).sub (hm.trans j hj)⟩

/-- The linear system of a successful run. -/
theorem system_of_run {num : Numerics} {s : Self} (hf : EigFresh num.eig s) (hv : NoFaceTouchdown s) {kind : SeqKind} {phi : ℝ}
    {a a' : SegLists} {s' : Self} {C : List Vec6} (hC : assembleAndSolve num kind phi a s = (.ok (C, a'), s')) :
    a' = full a ∧ ListsOk s (full a) ∧ (IsPst s ∨ IsVpst s ∨ IsSkier s ∨ IsAux s) ∧
    Meets s phi (valOf (spring num) s) (full a) (fun i => C.getD i 0) ∧
    ∀ solve, assembleAndSolveBy solve num kind phi a s =
      ((solve (6 * (full a).li.length)
        (matAt s (valOf (spring num) s) (full a).li.length (full a).li (full a).ki (full a).li.length)
        (fun r => rhsFinal s phi (full a) r - vecAt s (valOf (spring num) s) phi (full a).li.length (full a).li (full a).ki
          (full a).li.length r)).map fun x => ((List.range (full a).li.length).map fun i (j : Fin 6) => x (6 * i + j), full a), s) := by
  have hfr := spring_frame num s hf
  obtain ⟨-, rfl, hlen, hm, -⟩ := C16_solution_meets_all_conditions num kind phi a a' s s' C hf hv hC
  obtain ⟨hV, -, h2⟩ := assembleWith_valid (sub := spring num) hC
  have hkd : kind = .list ∨ a.li.length ≠ 1 := by
    by_contra hc
    push Not at hc
    have : kind = .ndarray := by
      cases kind with
      | list => exact absurd rfl hc.1
      | ndarray => rfl
    have h3 := C17_single_ndarray (spring num) phi a s hV hc.2
    rw [← this] at h3
    have h4 : assembleAndSolve num kind phi a s = _ := h3
    rw [hC] at h4
    simp at h4
  have hl := hV.listsOk
  have hdef := asmSolve_defined hfr h2
  refine ⟨rfl, hl, hdef.sys hl.two, hm, fun solve => ?_⟩
  have h3 := assembleBy_accepts solve (spring num) kind phi a s hV hkd
  rw [asmSolveBy_run solve hl.two hdef] at h3
  refine h3.trans ?_
  rcases solve _ _ _ with e | x <;> rfl

/-- C71. `assemble_and_solve` passes one linear system to the solver. Any vector
that solves it up to the residual `ε` in each equation, for example the result
of a solver in floating-point arithmetic, gives fields that differ from those of
the exact solution by `K ε` at most. The constant `K` is the same for all
inclinations, weights and lengths of the supported segments. -/
theorem C71_residual (num : Numerics) (s : Self) (hb : BedOk s) (hc : ShearOk s) (hf : EigFresh num.eig s) (hv : NoFaceTouchdown s)
    (n : ℕ) {d : ℝ} (R : ℝ) (hd : 0 < d) :
    ∃ K, 0 < K ∧ ∀ (kind : SeqKind) (phi : ℝ) (a a' : SegLists) (s' : Self) (C : List Vec6),
      assembleAndSolve num kind phi a s = (.ok (C, a'), s') → a'.li.length = n →
      Anchored d R n (fun i => a'.ki.getD i false) (nth a'.li) →
      ∃ (M : ℕ → ℕ → ℝ) (r : ℕ → ℝ),
        (∀ solve, assembleAndSolveBy solve num kind phi a s =
          ((solve (6 * n) M r).map fun x => ((List.range n).map fun i (j : Fin 6) => x (6 * i + j), a'), s)) ∧
        ∀ (x : ℕ → ℝ) (ε : ℝ), (∀ i < 6 * n, |∑ j ∈ Finset.range (6 * n), M i j * x j - r i| ≤ ε) →
          ∀ i < n, ∀ y ∈ Set.Icc 0 (nth a'.li i), ∀ q,
            |zsol s y (fun j => x (6 * i + j)) (nth a'.li i) phi (a'.ki.getD i false) q -
              zsol s y (C.getD i 0) (nth a'.li i) phi (a'.ki.getD i false) q| ≤ K * ε := by
  obtain ⟨K, hK, h⟩ := C71_nearly s hb hc n R hd
  refine ⟨K, hK, fun kind phi a a' s' C hC hn ha => ?_⟩
  obtain ⟨rfl, hl, hsys, hm, hsol⟩ := system_of_run hf hv hC
  subst hn
  exact ⟨_, _, hsol, fun x ε hx i hi y hy q => h s phi (valOf (spring num) s) ε (full a) (fun i => C.getD i 0) (constsOf x) rfl hb
    (spring_nonneg num s) rfl ha hm (rows_nearly s phi _ (full a) hl hsys hv x hx) i hi y hy q⟩

/-- C71. An error `δ` of every component of the state means an error of the
stresses in the weak layer in proportion to its stiffness. -/
theorem C71_stresses (s : Self) (hkn : 0 ≤ s.kn) (hkt : 0 ≤ s.kt) (ht : 0 ≤ s.t) (hh : 0 ≤ s.h) {z z' : Vec6} {δ : ℝ}
    (h : ∀ q, |z' q - z q| ≤ δ) :
    |fsig s z' - fsig s z| ≤ s.kn * δ ∧ |ftau s z' - ftau s z| ≤ s.kt * (1 + (s.t + s.h) / 2) * δ := by
  constructor
  · have e : fsig s z' - fsig s z = -(s.kn * (z' 2 - z 2)) := by simp only [fsig, fw]; ring
    rw [e, abs_neg, abs_mul, abs_of_nonneg hkn]
    exact mul_le_mul_of_nonneg_left (h 2) hkn
  · have e : ftau s z' - ftau s z = s.kt * ((z' 0 - z 0) + s.h / 2 * (z' 4 - z 4) - s.t / 2 * (z' 3 - z 3)) := by
      simp only [ftau, fdw, fu, fpsi]; ring
    rw [e, abs_mul, abs_of_nonneg hkt, mul_assoc]
    refine mul_le_mul_of_nonneg_left ?_ hkt
    have h0 := h 0
    have h3 := mul_le_mul_of_nonneg_left (h 3) (by positivity : 0 ≤ s.t / 2)
    have h4 := mul_le_mul_of_nonneg_left (h 4) (by positivity : 0 ≤ s.h / 2)
    have a3 : |s.t / 2 * (z' 3 - z 3)| = s.t / 2 * |z' 3 - z 3| := by rw [abs_mul, abs_of_nonneg (by positivity)]
    have a4 : |s.h / 2 * (z' 4 - z 4)| = s.h / 2 * |z' 4 - z 4| := by rw [abs_mul, abs_of_nonneg (by positivity)]
    have t1 := abs_sub (z' 0 - z 0 + s.h / 2 * (z' 4 - z 4)) (s.t / 2 * (z' 3 - z 3))
    have t2 := abs_add_le (z' 0 - z 0) (s.h / 2 * (z' 4 - z 4))
    linarith

/-- Load of a weight of `δ` kg and its moment about the mid-plane of the slab. -/
noncomputable def loadNorm (s : Self) (δ : ℝ) : ℝ := (1 + s.h / 2) * (1e-3 * δ * s.g / s.lski)

theorem jump_weights {s : Self} (hg : 0 ≤ s.g) (hl : 0 ≤ s.lski) (hh : 0 ≤ s.h) (phi : ℝ) {mi mi' : List ℝ} {i : ℕ} {δ : ℝ}
    (h : |nth mi' i - nth mi i| ≤ δ) :
    |(jump s phi mi' i).1 - (jump s phi mi i).1| ≤ loadNorm s δ ∧ |(jump s phi mi' i).2.1 - (jump s phi mi i).2.1| ≤ loadNorm s δ ∧
      |(jump s phi mi' i).2.2 - (jump s phi mi i).2.2| ≤ loadNorm s δ := by
  have hδ := (abs_nonneg _).trans h
  have hP : 0 ≤ 1e-3 * δ * s.g / s.lski := by positivity
  have hL : 1e-3 * δ * s.g / s.lski ≤ loadNorm s δ := by unfold loadNorm; nlinarith [mul_nonneg (div_nonneg hh zero_le_two) hP]
  have hM : s.h / 2 * (1e-3 * δ * s.g / s.lski) ≤ loadNorm s δ := by unfold loadNorm; linarith
  by_cases ha : IsAux s
  · simp only [jump, if_pos ha, sub_self, abs_zero]
    exact ⟨hP.trans hL, hP.trans hL, hP.trans hL⟩
  · have key : ∀ c : ℝ, |c| ≤ 1 → |1e-3 * (nth mi' i - nth mi i) * s.g / s.lski * c| ≤ 1e-3 * δ * s.g / s.lski := by
      intro c hc
      have h1 : |1e-3 * (nth mi' i - nth mi i) * s.g / s.lski| ≤ 1e-3 * δ * s.g / s.lski := by
        rw [abs_div, abs_mul, abs_mul, abs_of_nonneg hg, abs_of_nonneg hl, abs_of_nonneg (by norm_num : (0 : ℝ) ≤ 1e-3)]
        exact div_le_div_of_nonneg_right (mul_le_mul_of_nonneg_right (mul_le_mul_of_nonneg_left h (by norm_num)) hg) hl
      have := abs_prod_le h1 hc
      rwa [mul_one] at this
    have hc := key _ (Real.abs_cos_le_one (deg2rad phi))
    have hs := key _ (Real.abs_sin_le_one (deg2rad phi))
    simp only [jump, if_neg ha, getSkierLoad]
    refine ⟨?_, ?_, ?_⟩
    · refine le_trans (le_of_eq ?_) (hs.trans hL)
      rw [← abs_neg]; congr 1; ring
    · refine le_trans (le_of_eq ?_) ((mul_le_mul_of_nonneg_left hs (by positivity : 0 ≤ s.h / 2)).trans hM)
      rw [← abs_of_nonneg (by positivity : 0 ≤ s.h / 2), ← abs_mul, abs_of_nonneg (by positivity : 0 ≤ s.h / 2)]
      congr 1; ring
    · refine le_trans (le_of_eq ?_) (hc.trans hL)
      congr 1; ring

/-- C71. Weights that differ by `δ` kg at most give fields that differ by a
multiple of `δ` at most, however long the supported segments are. -/
theorem C71_weights (num : Numerics) (s : Self) (hb : BedOk s) (hc : ShearOk s) (hf : EigFresh num.eig s) (hv : NoFaceTouchdown s)
    (hg : 0 ≤ s.g) (hl : 0 ≤ s.lski) (hh : 0 ≤ s.h) (n : ℕ) {d : ℝ} (R : ℝ) (hd : 0 < d) :
    ∃ K, 0 < K ∧ ∀ (kind kind' : SeqKind) (phi δ : ℝ) (li mi mi' : List ℝ) (ki : List Bool) (s1 s2 : Self) (C C' : List Vec6),
      assembleAndSolve num kind phi ⟨li, mi, ki⟩ s = (.ok (C, ⟨li, mi, ki⟩), s1) →
      assembleAndSolve num kind' phi ⟨li, mi', ki⟩ s = (.ok (C', ⟨li, mi', ki⟩), s2) → li.length = n →
      Anchored d R n (fun i => ki.getD i false) (nth li) → (∀ i, i + 1 < n → |nth mi' i - nth mi i| ≤ δ) →
      ∀ i < n, ∀ y ∈ Set.Icc 0 (nth li i), ∀ q,
        |zsol s y (C'.getD i 0) (nth li i) phi (ki.getD i false) q - zsol s y (C.getD i 0) (nth li i) phi (ki.getD i false) q| ≤
          K * (1e-3 * δ * s.g / s.lski) := by
  obtain ⟨K, hK, h⟩ := C71_nearly s hb hc n R hd
  refine ⟨K * (1 + s.h / 2), by positivity, fun kind kind' phi δ li mi mi' ki s1 s2 C C' hC hC' hn ha hδ i hi y hy q => ?_⟩
  obtain ⟨-, -, -, hm, -⟩ := C16_solution_meets_all_conditions num kind phi _ _ s s1 C hf hv hC
  obtain ⟨-, -, -, hm', -⟩ := C16_solution_meets_all_conditions num kind' phi _ _ s s2 C' hf hv hC'
  have h2 : 2 ≤ n := by
    obtain ⟨hV, h1, -⟩ := assembleWith_valid (sub := spring num) hC
    have h2 := hV.listsOk.two
    rw [← h1] at h2
    exact hn ▸ h2
  have h0 : 0 ≤ loadNorm s δ := by
    have := (abs_nonneg _).trans (hδ 0 (by omega))
    unfold loadNorm; positivity
  have near : ∀ (e : EndCond) (z : Vec6), e.Holds s.beam z → e.Near s.beam (loadNorm s δ) z := by
    intro e z he
    cases e <;> obtain ⟨k1, k2, k3⟩ := he <;> simp [EndCond.Near, k1, k2, k3, h0]
  have := h s phi (valOf (spring num) s) (loadNorm s δ) ⟨li, mi, ki⟩ (fun i => C.getD i 0) (fun i => C'.getD i 0) rfl hb
    (spring_nonneg num s) hn ha hm ⟨near _ _ hm'.left, near _ _ hm'.right, fun j hj => ?_⟩ i hi y hy q
  · refine this.trans (le_of_eq ?_)
    unfold loadNorm
    ring
  · obtain ⟨t1, t2, t3, t4, t5, t6⟩ := hm'.trans j hj
    obtain ⟨w1, w2, w3⟩ := jump_weights hg hl hh phi (hδ j (by rw [← hn]; exact hj))
    refine ⟨?_, ?_, ?_, ?_, ?_, ?_⟩
    · rw [t1, sub_self, abs_zero]; exact h0
    · rw [t2, sub_self, abs_zero]; exact h0
    · rw [t3, sub_self, abs_zero]; exact h0
    · rw [t4]; exact w1
    · rw [t5]; exact w2
    · rw [t6]; exact w3

/-! ## Concrete cases -/

/-- A skier of 80 kg over an unsupported piece of 0.3 m between supported
segments of any lengths from 1 m: one constant bounds the error of the deflection
for all of them. -/
example : ∃ K, 0 < K ∧ ∀ l, 1000 ≤ l → ∃ C M r,
    assembleAndSolve stdNum .list 38 ⟨[l, 150, 150, l], [0, 80, 0], [true, false, false, true]⟩ skierDemo =
      (.ok (C, ⟨[l, 150, 150, l], [0, 80, 0], [true, false, false, true]⟩), skierDemo) ∧
    (∀ solve, assembleAndSolveBy solve stdNum .list 38 ⟨[l, 150, 150, l], [0, 80, 0], [true, false, false, true]⟩ skierDemo =
      ((solve 24 M r).map fun x => ((List.range 4).map fun i (j : Fin 6) => x (6 * i + j),
        ⟨[l, 150, 150, l], [0, 80, 0], [true, false, false, true]⟩), skierDemo)) ∧
    ∀ (x : ℕ → ℝ) (ε : ℝ), (∀ i < 24, |∑ j ∈ Finset.range 24, M i j * x j - r i| ≤ ε) →
      |zsol skierDemo 150 (fun j => x (6 + j)) 150 38 false 2 - zsol skierDemo 150 (C.getD 1 0) 150 38 false 2| ≤ K * ε := by
  obtain ⟨K, hK, h⟩ := C71_residual stdNum skierDemo (demo_bedOk _ _) (demo_shear _ _ _) (demo_ready _ _ _).fresh.eigFresh
    skierDemo_noFace 4 150 (by norm_num : (0 : ℝ) < 1000)
  refine ⟨K, hK, fun l hl => ?_⟩
  have hsk := skierDemo_isSkier
  have hval : Valid skierDemo ⟨[l, 150, 150, l], [0, 80, 0], [true, false, false, true]⟩ :=
    ⟨by simp, by simp, by simp, by simp⟩
  have hfull : full ⟨[l, 150, 150, l], [0, 80, 0], [true, false, false, true]⟩ =
      ⟨[l, 150, 150, l], [0, 80, 0], [true, false, false, true]⟩ := by simp [full]
  obtain ⟨C, hC, -⟩ := C18_held stdNum .list 38 _ skierDemo (demo_bedOk _ _) (demo_shear _ _ _) (demo_ready _ _ _).fresh.eigFresh
    hval (.inl rfl) (.inr (.inr (.inl hsk))) (fun h => absurd h skierDemo_not_pst) (fun h => absurd h skierDemo_not_pst)
    ⟨by simp; linarith, 0, by simp, .inl (by simp), by simp [nth]; linarith⟩
  rw [hfull] at hC
  obtain ⟨M, r, h1, h2⟩ := h .list 38 _ _ _ C hC rfl ⟨by
      intro i hi; interval_cases i <;> simp [nth] <;> linarith, ⟨0, by simp, rfl, hl⟩, by
      intro i hi; interval_cases i <;> simp [nth] <;> exact .inl hl⟩
  refine ⟨C, M, r, hC, h1, fun x ε hx => ?_⟩
  simpa [nth] using h2 x ε hx 1 (by norm_num) 150 (by simp [nth]) 2

/-- A PST of which 0.2 m are cut and touch the base: unsupported end, contact
conditions, rotational spring. -/
example : ∃ K, 0 < K ∧ ∃ C, assembleAndSolve stdNum .list 30 (pstLists 200) (pstDemo .C 200) = (.ok (C, pstLists 200), pstDemo .C 200) ∧
    ∃ (M : ℕ → ℕ → ℝ) (r : ℕ → ℝ), (∀ solve, assembleAndSolveBy solve stdNum .list 30 (pstLists 200) (pstDemo .C 200) =
      ((solve 12 M r).map fun x => ((List.range 2).map fun i (j : Fin 6) => x (6 * i + j), pstLists 200), pstDemo .C 200)) ∧
    ∀ (x : ℕ → ℝ) (ε : ℝ), (∀ i < 12, |∑ j ∈ Finset.range 12, M i j * x j - r i| ≤ ε) →
      |zsol (pstDemo .C 200) 0 (fun j => x (6 + j)) 200 30 false 4 - zsol (pstDemo .C 200) 0 (C.getD 1 0) 200 30 false 4| ≤ K * ε := by
  obtain ⟨K, hK, h⟩ := C71_residual stdNum (pstDemo .C 200) (pstDemo_bedOk _ _) (pstDemo_shear _ _) (pstDemo_fresh _ _)
    (pstDemo_noFace _ _) 2 200 (by norm_num : (0 : ℝ) < 1000)
  obtain ⟨C, hC, -⟩ := C18_unique_solution stdNum .list 30 (pstLists 200) (pstDemo .C 200) (pstDemo_bedOk _ _) (pstDemo_shear _ _)
    (pstDemo_fresh _ _) (pstLists_valid _ _ _) (.inl rfl) (.inl (pstDemo_isPst _ _)) (fun _ _ => by decide)
    (fun _ _ _ => pstDemo_rest _) (pstLists_supported 200 (by norm_num))
  rw [pstLists_full] at hC
  obtain ⟨M, r, h1, h2⟩ := h .list 30 _ _ _ C hC rfl ⟨by
      intro i hi; interval_cases i <;> simp [nth, pstLists], ⟨0, by simp, rfl, by simp [nth, pstLists]⟩, by
      intro i hi; interval_cases i <;> simp [nth, pstLists]⟩
  refine ⟨K, hK, C, hC, M, r, h1, fun x ε hx => ?_⟩
  simpa [nth, pstLists] using h2 x ε hx 1 (by norm_num) 0 (by simp [nth, pstLists]) 4

end Weac
