import Verif.Props.RoundingResults
import Verif.Cases.RoundingSaw

/-!
# C92 on the demonstration object
-/

namespace Weac

open Spec

/-- With a rounding fine enough, always off by `u > 0`: the normal stress (kPa) and the mode I energy release rate
at the edge of the unsupported piece, from the segments to the result. -/
example {l : ℝ} (hl : 1000 ≤ l) : ∃ K B Q F, SystemScale skierDemo 38 (gapLists l) B Q F ∧ ∃ C,
    assembleAndSolve stdNum .list 38 (gapLists l) skierDemo = (.ok (C, gapLists l), skierDemo) ∧ ∃ u, 0 < u ∧
    let fl := offBy u
    let s := skierDemo
    let A := asmFl fl pureLib s 0 38 (gapLists l) 4
    let D := stateError K B Q (rhsScale s 4 Q F) (gamma u 10 * (rowNorm s 0 * B)) (gamma u 26 * rhsScale s 4 Q F) (gamma u 18)
    let Z := zsol s l (C.getD 0 0) l 38 true
    ∃ x, npSolve 24 A.1 (fun i => fl (rhsFl fl pureLib s 38 (gapLists l) i - A.2 i)) = .ok x ∧
      let Z' := zsolFl fl pureLib s l (fun j => x j) l 38 true
      |fsigFl fl s 1e3 Z' - 1e3 * fsig s Z| ≤ |1e3| * s.kn * (D + gamma u 18 * (|Z 2| + D)) ∧
      |fGiFl fl s 1 Z' - 1 * fGi s Z| ≤ |1| * s.kn / 2 * (2 * (|Z 2| + D) * D + gamma u 18 * (|Z 2| + D) ^ 2) := by
  obtain ⟨C, hC, ha⟩ := gapLists_run hl
  obtain ⟨B, Q, F, hsc⟩ := SystemScale.exists skierDemo 38 (gapLists l)
  have hr := demo_ready stdEig "skiers" false
  have hn := skierDemo_slab
  obtain ⟨K, hK, h⟩ := C92_skier stdNum skierDemo (demo_bedOk _ _) (demo_shear _ _ _) hr.stored hr.lski hr.fresh.eigFresh skierDemo_noFace
    skierDemo_isSkier 4 150 (by norm_num : (0 : ℝ) < 1000)
  have hP := rowNorm_pos skierDemo 0
  set T : ℝ := K * (rowNorm skierDemo 0 * |B|) with hT
  have pT : 0 ≤ T := by positivity
  set u : ℝ := 1 / (100 + 20 * T) with hu
  have pu : 0 < u := by positivity
  have uT : 100 * u + 20 * T * u = 1 := by rw [hu]; field_simp
  have Tu : 0 ≤ T * u := by positivity
  have hB : 0 ≤ B := (abs_nonneg _).trans (column_rounded (offBy_ok pu.le (by linarith)) (pureLib_ok pu.le (by linarith)) hr.stored hsc
    (fun i hi => ha.nonneg i hi) (i := 0) (by simp [gapLists]) (.inl rfl) (c := 0) (by omega) 0).1
  have hg : gamma u 10 ≤ 20 * u := by
    unfold gamma
    rw [div_le_iff₀ (by push_cast; linarith)]
    push_cast
    nlinarith
  have sm : K * (0 + gamma u (2 * 0 + 10) * (rowNorm skierDemo 0 * B)) ≤ 1 := by
    have := mul_le_mul_of_nonneg_right hg pT
    have e : K * (0 + gamma u (2 * 0 + 10) * (rowNorm skierDemo 0 * B)) = gamma u 10 * T := by
      rw [hT, abs_of_nonneg hB]; ring
    rw [e]
    linarith
  obtain ⟨⟨x, hx⟩, h2⟩ := h u (offBy u) pureLib 0 .list 38 _ _ _ C B Q F 0 0 (offBy_ok pu.le (by linarith)) (pureLib_ok pu.le (by linarith))
    hC rfl ha hsc (by rw [hn]; push_cast; linarith) sm _ _ (fun i _ j _ => by rw [sub_self, abs_zero])
    (fun i _ => by rw [sub_self, abs_zero])
  refine ⟨K, B, Q, F, hsc, C, hC, u, pu, x, hx, ?_⟩
  have hl0 : 0 ≤ l := by linarith
  have st := fun q => h2 x (npSolve_ok hx).1 0 (by norm_num) l (by simpa [nth, gapLists] using hl0) q
  rw [hn] at st
  simp only [zero_add, mul_zero] at st
  have res := fun c => C92_results (offBy_ok pu.le (by linarith)) (by push_cast; linarith) skierDemo hr.stored st c
  exact ⟨(res 1e3).1, (res 1).2.2.1⟩

/-- The same for a saw test in stage C with a spring off by `u`: bending moment at the tip of the cut. -/
example : ∃ K B Q F kR, SystemScale (pstDemo .C 200) 30 (pstLists 200) B Q F ∧ ∃ C,
    assembleAndSolve stdNum .list 30 (pstLists 200) (pstDemo .C 200) = (.ok (C, pstLists 200), pstDemo .C 200) ∧ ∃ u, 0 < u ∧
    let fl := offBy u
    let s := pstDemo .C 200
    let A := asmFl fl pureLib s (kR + u) 30 (pstLists 200) 2
    let D := stateError K B Q (sawScale s kR 2 Q F) (gamma u 10 * (rowNorm s (kR + u) * B) + u * B)
      (gamma u 24 * sawScale s (kR + u) 2 Q F + 2 * (u * Q)) (gamma u 18)
    let Z := zsol s 1000 (C.getD 0 0) 1000 30 true
    ∃ x, npSolve 12 A.1 (fun i => fl (rhsSawFl fl pureLib s 30 (pstLists 200) i - A.2 i)) = .ok x ∧
      |fMFl fl s (zsolFl fl pureLib s 1000 (fun j => x j) 1000 30 true) - fM s Z| ≤
        |s.B11| * (D + gamma u 18 * (|Z 1| + D)) + |s.D11| * (D + gamma u 18 * (|Z 5| + D)) := by
  obtain ⟨C, hC⟩ := pstDemo_stageC
  obtain ⟨B, Q, F, hsc⟩ := SystemScale.exists (pstDemo .C 200) 30 (pstLists 200)
  obtain ⟨kR, hk⟩ := pstDemo_spring
  have hn := pstDemo_slab .C
  have ha : Anchored 1000 200 2 (fun i => (pstLists 200).ki.getD i false) (nth (pstLists 200).li) :=
    ⟨by intro i hi; interval_cases i <;> simp [nth, pstLists], ⟨0, by simp, rfl, by simp [nth, pstLists]⟩, by
      intro i hi; interval_cases i <;> simp [nth, pstLists]⟩
  obtain ⟨K, hK, h⟩ := C92_saw stdNum (pstDemo .C 200) (pstDemo_bedOk _ _) (pstDemo_shear _ _) (pstDemo_stored _)
    (demo_ready stdEig "pst-" true).lski (pstDemo_fresh _ _) (pstDemo_isPst _ _) kR (fun _ => hk) 2 200 (by norm_num : (0 : ℝ) < 1000)
  have hP := rowNorm_pos (pstDemo .C 200) kR
  set P : ℝ := rowNorm (pstDemo .C 200) kR + 1 with hPd
  have pP : 0 < P := by linarith
  set T : ℝ := K * (P * |B|) with hT
  have pT : 0 ≤ T := by positivity
  set u : ℝ := 1 / (100 + 21 * T) with hu
  have pu : 0 < u := by positivity
  have uT : 100 * u + 21 * T * u = 1 := by rw [hu]; field_simp
  have Tu : 0 ≤ T * u := by positivity
  have hB : 0 ≤ B := (abs_nonneg _).trans (column_rounded (offBy_ok pu.le (by linarith)) (pureLib_ok pu.le (by linarith)) (pstDemo_stored _) hsc
    (fun i hi => ha.nonneg i hi) (i := 0) (by simp [pstLists]) (.inl rfl) (c := 0) (by omega) 0).1
  have hg : gamma u 10 ≤ 20 * u := by
    unfold gamma
    rw [div_le_iff₀ (by push_cast; linarith)]
    push_cast
    nlinarith
  have hd : |kR + u - kR| = u := by
    rw [add_sub_cancel_left]
    exact abs_of_pos pu
  have hR : rowNorm (pstDemo .C 200) (kR + u) ≤ P := by
    have := abs_add_le kR u
    rw [abs_of_pos pu] at this
    rw [hPd]
    unfold rowNorm
    linarith
  have hR0 := (rowNorm_pos (pstDemo .C 200) (kR + u)).le
  have P1 : 1 ≤ P := by linarith
  have sm : K * (0 + (gamma u (2 * 0 + 10) * (rowNorm (pstDemo .C 200) (kR + u) * B) + |kR + u - kR| * B)) ≤ 1 := by
    rw [hd, zero_add]
    have e1 : gamma u (2 * 0 + 10) * (rowNorm (pstDemo .C 200) (kR + u) * B) ≤ 20 * u * (P * B) :=
      mul_le_mul hg (mul_le_mul_of_nonneg_right hR hB) (mul_nonneg hR0 hB) (by positivity)
    have e2 : u * B ≤ u * (P * B) := mul_le_mul_of_nonneg_left (le_mul_of_one_le_left hB P1) pu.le
    have e3 := mul_le_mul_of_nonneg_left (add_le_add e1 e2) hK.le
    refine e3.trans ?_
    have : K * (20 * u * (P * B) + u * (P * B)) = 21 * T * u := by rw [hT, abs_of_nonneg hB]; ring
    rw [this]
    linarith
  obtain ⟨⟨x, hx⟩, h2⟩ := h u (offBy u) pureLib 0 (kR + u) .list 30 _ _ _ C B Q F 0 0 (offBy_ok pu.le (by linarith))
    (pureLib_ok pu.le (by linarith)) hC rfl ha hsc (by rw [hn]; push_cast; linarith) sm _ _
    (fun i _ j _ => by rw [sub_self, abs_zero]) (fun i _ => by rw [sub_self, abs_zero])
  refine ⟨K, B, Q, F, kR, hsc, C, hC, u, pu, x, hx, ?_⟩
  have st := fun q => h2 x (npSolve_ok hx).1 0 (by norm_num) 1000 (by simp [nth, pstLists]) q
  rw [hn, hd] at st
  simp only [zero_add, mul_zero] at st
  exact (C92_results (offBy_ok pu.le (by linarith)) (by push_cast; linarith) (pstDemo .C 200) (pstDemo_stored _) st 1).2.2.2.2.2.1

end Weac
