import Verif.Props.RoundingSaw
import Verif.Props.RoundingFace
import Verif.Cases.RoundingSystem

/-!
# C91 for saw tests on the demonstration object
-/

namespace Weac

open Spec

theorem pstDemo_stored (mode : Mode) : Stored (pstDemo mode 200) := by
  have := (demo_ready stdEig "pst-" true).stored
  exact ⟨this.valid, this.g, this.h, this.t, this.kn, this.kt, this.A11, this.kA55, this.re, this.cx⟩

theorem pstDemo_slab (mode : Mode) : (pstDemo mode 200).slab.length = 1 := by
  obtain ⟨-, -, -, -, -, -, -, -, -, hsl, -⟩ := demo_fields stdEig "pst-" true
  rw [show (pstDemo mode 200).slab = (demo stdEig "pst-" true).slab from rfl, hsl]
  rfl

theorem pstDemo_spring : ∃ kR, substituteStiffness stdNum.eig ((pstDemo .C 200).a - (pstDemo .C 200).td) true .rot (pstDemo .C 200)
    = (.ok kR, pstDemo .C 200) := by
  obtain ⟨kR, hk⟩ := spring_ok stdNum (pstDemo .C 200) (pstDemo_fresh _ _) (pstDemo_rest _)
  unfold spring at hk
  rw [Py.get_bind] at hk
  exact ⟨kR, hk⟩

theorem pstDemo_stageC : ∃ C, assembleAndSolve stdNum .list 30 (pstLists 200) (pstDemo .C 200) = (.ok (C, pstLists 200), pstDemo .C 200) := by
  obtain ⟨C, hC, -⟩ := C18_unique_solution stdNum .list 30 (pstLists 200) (pstDemo .C 200) (pstDemo_bedOk _ _) (pstDemo_shear _ _)
    (pstDemo_fresh _ _) (pstLists_valid _ _ _) (.inl rfl) (.inl (pstDemo_isPst _ _)) (fun _ _ => by decide)
    (fun _ _ _ => pstDemo_rest _) (pstLists_supported 200 (by norm_num))
  rw [pstLists_full] at hC
  exact ⟨C, hC⟩

/-- Coefficients and right-hand side in double precision, with a spring that is slightly wrong. -/
example : ∃ B Q F M r kR kR', kR' ≠ kR ∧ SystemScale (pstDemo .C 200) 30 (pstLists 200) B Q F ∧
    (∀ solve, assembleAndSolveBy solve stdNum .list 30 (pstLists 200) (pstDemo .C 200) =
      ((solve 12 M r).map fun x => ((List.range 2).map fun i (j : Fin 6) => x (6 * i + j), pstLists 200), pstDemo .C 200)) ∧
    (∀ i j, |(asmFl offFl offLib (pstDemo .C 200) kR' 30 (pstLists 200) 2).1 i j - M i j| ≤
      gamma (2⁻¹ ^ 53) 12 * (rowNorm (pstDemo .C 200) kR' * B) + 2⁻¹ ^ 40 * B) ∧
    ∀ i, |offFl (rhsSawFl offFl offLib (pstDemo .C 200) 30 (pstLists 200) i - (asmFl offFl offLib (pstDemo .C 200) kR' 30 (pstLists 200) 2).2 i)
      - r i| ≤ gamma (2⁻¹ ^ 53) 25 * sawScale (pstDemo .C 200) kR' 2 Q F + 2 * (2⁻¹ ^ 40 * Q) := by
  obtain ⟨C, hC⟩ := pstDemo_stageC
  obtain ⟨B, Q, F, hsc⟩ := SystemScale.exists (pstDemo .C 200) 30 (pstLists 200)
  obtain ⟨kR, hk⟩ := pstDemo_spring
  have hn := pstDemo_slab .C
  have hd : |kR + 2⁻¹ ^ 40 - kR| = (2⁻¹ ^ 40 : ℝ) := by
    rw [add_sub_cancel_left]
    exact abs_of_pos (by positivity)
  obtain ⟨M, r, h1, h2, -, h3⟩ := C91_saw_system offFl_ok offLib_ok stdNum (pstDemo .C 200) (pstDemo_stored _)
    (demo_ready stdEig "pst-" true).lski (pstDemo_fresh _ _) (pstDemo_isPst _ _) kR (kR + 2⁻¹ ^ 40) (fun _ => hk) hC
    (by intro i hi; have : i < 2 := hi; interval_cases i <;> simp [nth, pstLists]) hsc (by norm_num) (by rw [hn]; simp [pstLists]; norm_num)
  rw [hd] at h2
  simp only [hd, hn] at h3
  exact ⟨B, Q, F, M, r, kR, kR + 2⁻¹ ^ 40, by simp, hsc, h1, h2, h3⟩

/-- With a rounding fine enough, always off by `u > 0`, and a spring off by `u`, the saw test in stage C is solved to
within a multiple of `u`. -/
example : ∃ K B Q F kR, SystemScale (pstDemo .C 200) 30 (pstLists 200) B Q F ∧ ∃ C,
    assembleAndSolve stdNum .list 30 (pstLists 200) (pstDemo .C 200) = (.ok (C, pstLists 200), pstDemo .C 200) ∧ ∃ u, 0 < u ∧
    let fl := offBy u
    let s := pstDemo .C 200
    let A := asmFl fl pureLib s (kR + u) 30 (pstLists 200) 2
    ∃ x, npSolve 12 A.1 (fun i => fl (rhsSawFl fl pureLib s 30 (pstLists 200) i - A.2 i)) = .ok x ∧
      |zsol s 200 (fun j => x (6 + j)) 200 30 false 2 - zsol s 200 (C.getD 1 0) 200 30 false 2| ≤
        K * (gamma u 24 * sawScale s (kR + u) 2 Q F + 2 * (u * Q) +
          (gamma u 10 * (rowNorm s (kR + u) * B) + u * B) * sawScale s kR 2 Q F) := by
  obtain ⟨C, hC⟩ := pstDemo_stageC
  obtain ⟨B, Q, F, hsc⟩ := SystemScale.exists (pstDemo .C 200) 30 (pstLists 200)
  obtain ⟨kR, hk⟩ := pstDemo_spring
  have hn := pstDemo_slab .C
  have ha : Anchored 1000 200 2 (fun i => (pstLists 200).ki.getD i false) (nth (pstLists 200).li) :=
    ⟨by intro i hi; interval_cases i <;> simp [nth, pstLists], ⟨0, by simp, rfl, by simp [nth, pstLists]⟩, by
      intro i hi; interval_cases i <;> simp [nth, pstLists]⟩
  obtain ⟨K, hK, h⟩ := C91_saw_solution stdNum (pstDemo .C 200) (pstDemo_bedOk _ _) (pstDemo_shear _ _) (pstDemo_stored _)
    (demo_ready stdEig "pst-" true).lski (pstDemo_fresh _ _) (pstDemo_isPst _ _) kR (fun _ => hk) 2 200 (by norm_num : (0 : ℝ) < 1000)
  have hP := rowNorm_pos (pstDemo .C 200) kR
  set P : ℝ := rowNorm (pstDemo .C 200) kR + 1 with hPd
  have pP : 0 < P := by linarith
  set T : ℝ := K * (P * |B|) with hT
  have pT : 0 ≤ T := by positivity
  set u : ℝ := 1 / (100 + 21 * T) with hu
  have pu : 0 < u := by positivity
  have uT : 100 * u + 21 * T * u = 1 := by rw [hu]; field_simp
  have Tu : 0 ≤ T * u := by positivity
  have hB : 0 ≤ B := (abs_nonneg _).trans (column_rounded (offBy_ok pu.le (by linarith)) (pureLib_ok pu.le (by linarith)) (pstDemo_stored _) hsc
    (fun i hi => ha.nonneg i hi) (i := 0) (by simp [pstLists]) (.inl rfl) (c := 0) (by omega) 0).1
  have hg : gamma u 10 ≤ 20 * u := by
    unfold gamma
    rw [div_le_iff₀ (by push_cast; linarith)]
    push_cast
    nlinarith
  have hd : |kR + u - kR| = u := by
    rw [add_sub_cancel_left]
    exact abs_of_pos pu
  have hR : rowNorm (pstDemo .C 200) (kR + u) ≤ P := by
    have := abs_add_le kR u
    rw [abs_of_pos pu] at this
    rw [hPd]
    unfold rowNorm
    linarith
  have hR0 := (rowNorm_pos (pstDemo .C 200) (kR + u)).le
  have P1 : 1 ≤ P := by linarith
  have sm : K * (0 + (gamma u (2 * 0 + 10) * (rowNorm (pstDemo .C 200) (kR + u) * B) + |kR + u - kR| * B)) ≤ 1 := by
    rw [hd, zero_add]
    have e1 : gamma u (2 * 0 + 10) * (rowNorm (pstDemo .C 200) (kR + u) * B) ≤ 20 * u * (P * B) :=
      mul_le_mul hg (mul_le_mul_of_nonneg_right hR hB) (mul_nonneg hR0 hB) (by positivity)
    have e2 : u * B ≤ u * (P * B) := mul_le_mul_of_nonneg_left (le_mul_of_one_le_left hB P1) pu.le
    have e3 := mul_le_mul_of_nonneg_left (add_le_add e1 e2) hK.le
    refine e3.trans ?_
    have : K * (20 * u * (P * B) + u * (P * B)) = 21 * T * u := by rw [hT, abs_of_nonneg hB]; ring
    rw [this]
    linarith
  obtain ⟨⟨x, hx⟩, h2⟩ := h u (offBy u) pureLib 0 (kR + u) .list 30 _ _ _ C B Q F 0 0 (offBy_ok pu.le (by linarith))
    (pureLib_ok pu.le (by linarith)) hC rfl ha hsc (by push_cast; linarith) (by rw [hn]; push_cast; linarith) sm _ _
    (fun i _ j _ => by rw [sub_self, abs_zero]) (fun i _ => by rw [sub_self, abs_zero])
  refine ⟨K, B, Q, F, kR, hsc, C, hC, u, pu, x, hx, ?_⟩
  have := h2 x (npSolve_ok hx).1 1 (by norm_num) 200 (by simp [nth, pstLists]) 2
  rw [hn, hd] at this
  simpa [nth, pstLists] using this

/-- The wedge of a slab of 300 mm at 45° in double precision: its forces are accurate to 10⁻¹⁴ N per mm of width. -/
example (s : Self) (hg : s.g = 9810) (hsl : s.slab = [⟨200, 300, 5, 2, 0.25⟩]) :
    |(faceForcesFl offFl offLib s 45 1).1 - (verticalForces s 45).1| ≤ 1e-14 ∧
    |(faceForcesFl offFl offLib s 45 1).2 - (verticalForces s 45).2.2| ≤ 1e-14 := by
  have a : deg2rad 45 = Real.pi / 4 := by unfold deg2rad; ring
  have t1 : Real.tan (deg2rad 45) = 1 := by rw [a, Real.tan_pi_div_four]
  have key := C91_face_forces offFl_ok offLib_ok s (by rw [hg]; norm_num) (by rw [hsl]; refine ⟨by simp, ?_⟩; simp [Layer.ply]) 45 1
    (by rw [a]; positivity) (k := 0) (by rw [t1]; exact Rel.refl _ 1) (by rw [hsl]; norm_num)
  rw [t1, hg, hsl] at key
  have b : loadScale (9810 * (2 * (total Layer.h [⟨200, 300, 5, 2, 0.25⟩] * |(1 : ℝ)|) *
      total (fun l => 1e-12 * l.rho * l.h) [(⟨200, 300, 5, 2, 0.25⟩ : Layer)])) 45 ≤ 1 := by
    have p4 := Real.pi_le_four
    have p0 := Real.pi_pos
    unfold loadScale
    rw [abs_of_pos (by positivity : (0 : ℝ) < 45 * (Real.pi / 180))]
    norm_num [total]
    nlinarith
  have c := mul_le_mul_of_nonneg_left b (show 0 ≤ gamma (2⁻¹ ^ 53) (2 * 1 + 0 + 1 + 15) by norm_num [gamma])
  have d : gamma (2⁻¹ ^ 53) (2 * 1 + 0 + 1 + 15) * 1 ≤ 1e-14 := by norm_num [gamma]
  exact ⟨key.1.trans (c.trans d), key.2.trans (c.trans d)⟩

end Weac
