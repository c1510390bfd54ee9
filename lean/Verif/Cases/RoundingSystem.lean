import Verif.Props.RoundingSystem
import Verif.Cases.RoundingFields
import Verif.Props.SolveDemo

/-!
# C91 for the linear system of the demonstration object
-/

namespace Weac

open Spec

/-- Bounds for the magnitudes exist for every system. -/
theorem SystemScale.exists (s : Self) (phi : ℝ) (a : SegLists) : ∃ B Q F, SystemScale s phi a B Q F := by
  let pos : ℕ → Bool → ℝ := fun i b => if b then nth a.li i else 0
  have hpos : ∀ i x, x = 0 ∨ x = nth a.li i → ∃ b, pos i b = x := by
    rintro i x (rfl | rfl)
    · exact ⟨false, rfl⟩
    · exact ⟨true, rfl⟩
  obtain ⟨B1, hB1⟩ := (Set.finite_range fun p : Fin a.li.length × Bool × Fin 6 × Fin 6 =>
    (bedScale s.eigs (pos p.1 p.2.1)).getD p.2.2.1 0 p.2.2.2).bddAbove
  obtain ⟨B2, hB2⟩ := (Set.finite_range fun p : Fin a.li.length × Bool × Fin 6 × Fin 6 =>
    freeScale s (pos p.1 p.2.1) p.2.2.1 p.2.2.2).bddAbove
  let part : ℕ → ℝ → Fin 6 → ℝ := fun i x q => if a.ki.getD i false then
      particularScale s (loadScale (s.slab.map fun l => l.rho * 1e-12 * s.g * l.h).sum phi) (loadScale |s.p| phi) q
    else freeParticularScale s x (loadScale (s.slab.map fun l => l.rho * 1e-12 * s.g * l.h).sum phi) (loadScale |s.p| phi) q
  obtain ⟨Q, hQ⟩ := (Set.finite_range fun p : Fin a.li.length × Bool × Fin 6 => part p.1 (pos p.1 p.2.1) p.2.2).bddAbove
  obtain ⟨F, hF⟩ := (a.mi.finite_toSet.image fun m => loadScale (1e-3 * |m| * s.g / s.lski) phi).bddAbove
  refine ⟨max B1 B2, Q, max F 0, fun i hi _ x hx q j => ?_, fun i hi _ x hx q j => ?_, fun i hi x hx q => ?_, fun m hm => ?_, le_max_right _ _⟩
  · obtain ⟨b, rfl⟩ := hpos i x hx
    exact (hB1 ⟨(⟨i, hi⟩, b, j, q), rfl⟩).trans (le_max_left _ _)
  · obtain ⟨b, rfl⟩ := hpos i x hx
    exact (hB2 ⟨(⟨i, hi⟩, b, q, j), rfl⟩).trans (le_max_right _ _)
  · obtain ⟨b, rfl⟩ := hpos i x hx
    exact hQ ⟨(⟨i, hi⟩, b, q), rfl⟩
  · exact (hF ⟨m, hm, rfl⟩).trans (le_max_left _ _)

/-- A rounding that is always off by the relative error `u`, and a library without errors. -/
noncomputable def offBy (u : ℝ) (x : ℝ) : ℝ := x * (1 + u)

noncomputable def pureLib : Libm := ⟨Real.exp, Real.cos, Real.sin, fun a b => ∑ j, a j * b j⟩

theorem offBy_ok {u : ℝ} (h0 : 0 ≤ u) (h1 : u < 1) : RoundOk u (offBy u) :=
  ⟨h0, h1, fun x => by
    have e : offBy u x - x = u * x := by unfold offBy; ring
    rw [e, abs_mul, abs_of_nonneg h0]⟩

theorem pureLib_ok {u : ℝ} (h0 : 0 ≤ u) (h1 : u < 1) : LibmOk u 0 pureLib := by
  refine ⟨fun y => ⟨1, by simp, by simp, by simp [pureLib]⟩, fun y => by simp [pureLib], fun y => by simp [pureLib], fun a b => ?_⟩
  have h2 : 1 ≤ (1 - u)⁻¹ := (one_le_inv₀ (by linarith)).2 (by linarith)
  have h3 : 0 ≤ (1 - u)⁻¹ ^ 6 - 1 := sub_nonneg.2 (one_le_pow₀ h2)
  simp only [pureLib, sub_self, abs_zero]
  exact mul_nonneg h3 (Finset.sum_nonneg fun j _ => abs_nonneg _)

/-- A skier of 80 kg above an unsupported piece of 0.3 m in a slab of at least 2.3 m. -/
def gapLists (l : ℝ) : SegLists := ⟨[l, 150, 150, l], [0, 80, 0], [true, false, false, true]⟩

theorem gapLists_run {l : ℝ} (hl : 1000 ≤ l) : ∃ C,
    assembleAndSolve stdNum .list 38 (gapLists l) skierDemo = (.ok (C, gapLists l), skierDemo) ∧
      Anchored 1000 150 4 (fun i => (gapLists l).ki.getD i false) (nth (gapLists l).li) := by
  have hsk := skierDemo_isSkier
  have hval : Valid skierDemo (gapLists l) := ⟨by simp [gapLists], by simp [gapLists], by simp [gapLists], by simp [gapLists]⟩
  have hfull : full (gapLists l) = gapLists l := by simp [full, gapLists]
  obtain ⟨C, hC, -⟩ := C18_held stdNum .list 38 _ skierDemo (demo_bedOk _ _) (demo_shear _ _ _) (demo_ready _ _ _).fresh.eigFresh
    hval (.inl rfl) (.inr (.inr (.inl hsk))) (fun h => absurd h skierDemo_not_pst) (fun h => absurd h skierDemo_not_pst)
    ⟨by simp [gapLists]; linarith, 0, by simp [gapLists], .inl (by simp [gapLists]), by simp [nth, gapLists]; linarith⟩
  rw [hfull] at hC
  exact ⟨C, hC, by intro i hi; interval_cases i <;> simp [nth, gapLists] <;> linarith, ⟨0, by simp, rfl, hl⟩, by
      intro i hi; interval_cases i <;> simp [nth, gapLists] <;> exact .inl hl⟩

theorem skierDemo_slab : skierDemo.slab.length = 1 := by
  obtain ⟨-, -, -, -, -, -, -, -, -, hsl, -⟩ := demo_fields stdEig "skiers" false
  rw [show skierDemo = demo stdEig "skiers" false from rfl, hsl]
  rfl

/-- Coefficients and right-hand side in double precision. -/
example {l : ℝ} (hl : 1000 ≤ l) : ∃ B Q F M r, SystemScale skierDemo 38 (gapLists l) B Q F ∧
    (∀ solve, assembleAndSolveBy solve stdNum .list 38 (gapLists l) skierDemo =
      ((solve 24 M r).map fun x => ((List.range 4).map fun i (j : Fin 6) => x (6 * i + j), gapLists l), skierDemo)) ∧
    (∀ i j, |(asmFl offFl offLib skierDemo 0 38 (gapLists l) 4).1 i j - M i j| ≤ gamma (2⁻¹ ^ 53) 12 * (rowNorm skierDemo 0 * B)) ∧
    ∀ i, |offFl (rhsFl offFl offLib skierDemo 38 (gapLists l) i - (asmFl offFl offLib skierDemo 0 38 (gapLists l) 4).2 i) - r i| ≤
      gamma (2⁻¹ ^ 53) 27 * rhsScale skierDemo 4 Q F := by
  obtain ⟨C, hC, ha⟩ := gapLists_run hl
  obtain ⟨B, Q, F, hsc⟩ := SystemScale.exists skierDemo 38 (gapLists l)
  have hr := demo_ready stdEig "skiers" false
  have hn := skierDemo_slab
  obtain ⟨M, r, h1, h2, -, h3⟩ := C91_system offFl_ok offLib_ok stdNum skierDemo hr.stored hr.lski hr.fresh.eigFresh skierDemo_noFace
    skierDemo_isSkier hC (fun i hi => ha.nonneg i hi) hsc (by norm_num) (by rw [hn]; simp [gapLists]; norm_num)
  rw [hn] at h3
  exact ⟨B, Q, F, M, r, hsc, h1, h2, h3⟩

/-- The matrix of a saw test in stage C, for which the spring is needed. -/
example : ∃ B Q F M r kR, SystemScale (pstDemo .C 200) 30 (pstLists 200) B Q F ∧
    (∀ solve, assembleAndSolveBy solve stdNum .list 30 (pstLists 200) (pstDemo .C 200) =
      ((solve 12 M r).map fun x => ((List.range 2).map fun i (j : Fin 6) => x (6 * i + j), pstLists 200), pstDemo .C 200)) ∧
    ∀ i j, |(asmFl offFl offLib (pstDemo .C 200) kR 30 (pstLists 200) 2).1 i j - M i j| ≤
      gamma (2⁻¹ ^ 53) 12 * (rowNorm (pstDemo .C 200) kR * B) := by
  obtain ⟨C, hC, -⟩ := C18_unique_solution stdNum .list 30 (pstLists 200) (pstDemo .C 200) (pstDemo_bedOk _ _) (pstDemo_shear _ _)
    (pstDemo_fresh _ _) (pstLists_valid _ _ _) (.inl rfl) (.inl (pstDemo_isPst _ _)) (fun _ _ => by decide)
    (fun _ _ _ => pstDemo_rest _) (pstLists_supported 200 (by norm_num))
  rw [pstLists_full] at hC
  obtain ⟨B, Q, F, hsc⟩ := SystemScale.exists (pstDemo .C 200) 30 (pstLists 200)
  obtain ⟨kR, hk⟩ := spring_ok stdNum (pstDemo .C 200) (pstDemo_fresh _ _) (pstDemo_rest _)
  have hk' : substituteStiffness stdNum.eig ((pstDemo .C 200).a - (pstDemo .C 200).td) true .rot (pstDemo .C 200) = (.ok kR, pstDemo .C 200) := by
    unfold spring at hk
    rw [Py.get_bind] at hk
    exact hk
  have hst : Stored (pstDemo .C 200) := by
    have := (demo_ready stdEig "pst-" true).stored
    exact ⟨this.valid, this.g, this.h, this.t, this.kn, this.kt, this.A11, this.kA55, this.re, this.cx⟩
  obtain ⟨M, r, h1, h2⟩ := C91_matrix offFl_ok offLib_ok stdNum (pstDemo .C 200) hst (pstDemo_fresh _ _) (pstDemo_noFace _ _) kR
    (fun _ _ => hk') hC (by intro i hi; have : i < 2 := hi; interval_cases i <;> simp [nth, pstLists]) hsc (by norm_num)
  exact ⟨B, Q, F, M, r, kR, hsc, h1, h2⟩

/-- With a rounding fine enough, always off by `u > 0`, the skier's linear system is solved to within a multiple of `u`. -/
example {l : ℝ} (hl : 1000 ≤ l) : ∃ K B Q F, SystemScale skierDemo 38 (gapLists l) B Q F ∧ ∃ C,
    assembleAndSolve stdNum .list 38 (gapLists l) skierDemo = (.ok (C, gapLists l), skierDemo) ∧ ∃ u, 0 < u ∧
    let fl := offBy u
    let A := asmFl fl pureLib skierDemo 0 38 (gapLists l) 4
    ∃ x, npSolve 24 A.1 (fun i => fl (rhsFl fl pureLib skierDemo 38 (gapLists l) i - A.2 i)) = .ok x ∧
      |zsol skierDemo 150 (fun j => x (6 + j)) 150 38 false 2 - zsol skierDemo 150 (C.getD 1 0) 150 38 false 2| ≤
        K * (gamma u 26 * rhsScale skierDemo 4 Q F + gamma u 10 * (rowNorm skierDemo 0 * B) * rhsScale skierDemo 4 Q F) := by
  obtain ⟨C, hC, ha⟩ := gapLists_run hl
  obtain ⟨B, Q, F, hsc⟩ := SystemScale.exists skierDemo 38 (gapLists l)
  have hr := demo_ready stdEig "skiers" false
  have hn := skierDemo_slab
  obtain ⟨K, hK, h⟩ := C91_solution stdNum skierDemo (demo_bedOk _ _) (demo_shear _ _ _) hr.stored hr.lski hr.fresh.eigFresh skierDemo_noFace
    skierDemo_isSkier 4 150 (by norm_num : (0 : ℝ) < 1000)
  have hP := rowNorm_pos skierDemo 0
  set T : ℝ := K * (rowNorm skierDemo 0 * |B|) with hT
  have pT : 0 ≤ T := by positivity
  set u : ℝ := 1 / (100 + 20 * T) with hu
  have pu : 0 < u := by positivity
  have uT : 100 * u + 20 * T * u = 1 := by rw [hu]; field_simp
  have Tu : 0 ≤ T * u := by positivity
  have hB : 0 ≤ B := (abs_nonneg _).trans (column_rounded (offBy_ok pu.le (by linarith)) (pureLib_ok pu.le (by linarith)) hr.stored hsc
    (fun i hi => ha.nonneg i hi) (i := 0) (by simp [gapLists]) (.inl rfl) (c := 0) (by omega) 0).1
  have hg : gamma u 10 ≤ 20 * u := by
    unfold gamma
    rw [div_le_iff₀ (by push_cast; linarith)]
    push_cast
    nlinarith
  have sm : K * (0 + gamma u (2 * 0 + 10) * (rowNorm skierDemo 0 * B)) ≤ 1 := by
    have := mul_le_mul_of_nonneg_right hg pT
    have e : K * (0 + gamma u (2 * 0 + 10) * (rowNorm skierDemo 0 * B)) = gamma u 10 * T := by
      rw [hT, abs_of_nonneg hB]; ring
    rw [e]
    linarith
  obtain ⟨⟨x, hx⟩, h2⟩ := h u (offBy u) pureLib 0 .list 38 _ _ _ C B Q F 0 0 (offBy_ok pu.le (by linarith)) (pureLib_ok pu.le (by linarith))
    hC rfl ha hsc (by push_cast; linarith) (by rw [hn]; push_cast; linarith) sm _ _ (fun i _ j _ => by rw [sub_self, abs_zero])
    (fun i _ => by rw [sub_self, abs_zero])
  refine ⟨K, B, Q, F, hsc, C, hC, u, pu, x, hx, ?_⟩
  have := h2 x (npSolve_ok hx).1 1 (by norm_num) 150 (by simp [nth, gapLists]) 2
  rw [hn] at this
  simpa [nth, gapLists] using this

end Weac
