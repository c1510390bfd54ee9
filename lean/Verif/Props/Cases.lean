import Verif.Props.FullContact
import Verif.Props.Weights
import Verif.Props.FirstContact
import Verif.Props.Envelope
import Verif.Props.SameSnow
import Verif.Props.Residual
import Verif.Props.Principal
import Verif.Props.PlotHelpers
import Verif.Props.Output
import Verif.Props.Distance
import Verif.Props.Springs

/-!
# Concrete cases

Theorems applied to the slab `comp` (one layer of 240 kg/m³ and 200 mm), where
the file of the theorem shows no such case itself.
-/

namespace Weac

open Spec

/-! ## C06, C11–C14: laminate and fundamental systems -/

/-- The bedded solutions of the slab: six columns, complete, and every curve obeys
equilibrium. -/
example (l x : ℝ) (Z : Vec6) :
    (∀ x, (zhBed (demo stdEig "pst-" true).eigs x l).length = 6) ∧ ∃! C : Vec6, (zh (demo stdEig "pst-" true) x l true).mulVec C = Z := by
  have hr := demo_ready stdEig "pst-" true
  have he := stdEig_ok (calcSystemMatrix (demo stdEig "pst-" true))
  exact ⟨(C13_columns stdEig _ hr.stiff hr.fresh.eigFresh he l).1,
    C13_complete stdEig _ hr.stiff hr.fresh.eigFresh he (demo_bedOk _ _).indep l x Z⟩

example (C : Vec6) (l phi : ℝ) := C14_bedded_curve stdEig (demo stdEig "pst-" true) (demo_ready _ _ _).stiff
  (demo_ready _ _ _).fresh.eigFresh (stdEig_ok _) C l phi

example (l x : ℝ) (Z : Vec6) : ∃! C : Vec6, (zh (demo stdEig "pst-" true) x l false).mulVec C = Z :=
  C11_free_complete _ (demo_ready _ _ _).stiff.regular l x Z

/-- On a slope of 38°, without surface load. -/
example : SolvesODE (demo stdEig "pst-" true).beam ((demo stdEig "pst-" true).loads 38) false
    (fun x => zp (demo stdEig "pst-" true) x 38 false) :=
  C12_free_particular_partial _ (demo_ready _ _ _).stiff 38 (.inl (demo_fields _ _ _).2.2.2.2.2.2.2.2.2.2.1)

/-- The slab of 200 mm modelled as two layers of 120 mm and 80 mm. -/
example : ∃ s' : Self, s'.slab.length = 2 ∧
    (calcLaminateStiffnessMatrix s').D11 = (calcLaminateStiffnessMatrix (demo stdEig "pst-" true)).D11 := by
  refine ⟨{ demo stdEig "pst-" true with slab := [{ compLayer with h := 120 }, { compLayer with h := 80 }] }, rfl, ?_⟩
  refine (C06_split (demo stdEig "pst-" true) { demo stdEig "pst-" true with slab := [{ compLayer with h := 120 }, { compLayer with h := 80 }] } [] [] compLayer 120 80 rfl rfl ?_ rfl).2.2.1
  rw [(demo_fields stdEig "pst-" true).2.2.2.2.2.2.2.2.2.1]
  norm_num [compLayer]

/-! ## C30, C32: energy release rates and strains -/

/-- The energy release rate of a saw test, and a wrong unit. -/
example : ∃ C G, assembleAndSolve stdNum .list 38 (pstLists 200) (pstDemo .A 200) = (.ok (C, pstLists 200), pstDemo .A 200) ∧
    gdif (pstDemo .A 200) 38 (segsOf C (pstLists 200)) "J/m^2" true = .ok G ∧ 0 ≤ G.1 ∧ G.1 = G.2.1 + G.2.2 ∧
    gdif (pstDemo .A 200) 38 (segsOf C (pstLists 200)) "J" true = .error .keyError := by
  obtain ⟨C, h, -⟩ := pstDemo_solved .A (by decide) .list 38
  have hb := pstDemo_bedOk .A 200
  obtain ⟨-, -, hC, -⟩ := C16_solution_meets_all_conditions stdNum .list 38 _ _ _ _ C (pstDemo_fresh _ _) (pstDemo_noFace _ _) h
  have hS : SegsOk C (pstLists 200) := ⟨rfl, hC.ge, by simp [pstLists]⟩
  have hu : convertEnergy "J/m^2" = .ok 1e3 := by simp [convertEnergy]
  have hg := C30_gdif (pstDemo .A 200) 38 (segsOf C (pstLists 200)) "J/m^2" _ hu
  obtain ⟨g1, -, -, g4⟩ := C30_nonneg _ hb.stiff.kn hb.stiff.kt _ _ _ _ hg
  refine ⟨C, _, h, hg, g1, g4, ?_⟩
  refine (C30_errors (pstDemo .A 200) 38 _ "J" true 0 ?_).1 (by decide)
  rw [hS.support]
  unfold CrackTip
  simp [pstLists]

/-- No crack tip, no energy release, whatever the unit. -/
example (C : Vec6) : gdif (pstDemo .A 200) 38 [⟨C, true, 500⟩, ⟨C, true, 500⟩] "bananas" true = .ok (0, 0, 0) := by
  refine C30_no_tip _ _ _ _ _ fun j => ?_
  unfold CrackTip
  rcases j with _ | _ | j <;> simp

example (Z : Vec6) : fsig (pstDemo .A 200) Z = (pstDemo .A 200).kn * (pstDemo .A 200).t * feps (pstDemo .A 200) Z :=
  (C32_normal _ (pstDemo_bedOk .A 200).stiff.t.ne' (pstDemo_bedOk .A 200).stiff.kn.ne' Z).1

/-- A crack that does not grow: no rate. -/
example (quad : Quad) (C : Vec6) : ginc quad (pstDemo .A 200) 38 [⟨C, C, 0, false, true⟩] = none :=
  C31_zero_length quad _ _ _ ⟨C, C, 0, false, true⟩ (by simp) ⟨rfl, rfl⟩ (by simp)

/-! ## C64: energy balance -/

/-- Work and energy of a saw test with a crack of 200 mm, up to 3.5 %. -/
example : ∃ C, assembleAndSolve stdNum .list 38 (pstLists 200) (pstDemo .A 200) = (.ok (C, pstLists 200), pstDemo .A 200) ∧
    |workOfLoads (pstDemo .A 200) 38 (pstLists 200) C + workOfFaces (pstDemo .A 200) 38 (pstLists 200) C
      - 2 * elasticEnergy (pstDemo .A 200) 38 (pstLists 200) C|
      ≤ 35 / 1000 * (2 * elasticEnergy (pstDemo .A 200) 38 (pstLists 200) C) := by
  obtain ⟨C, h, -⟩ := pstDemo_solved .A (by decide) .list 38
  obtain ⟨-, h2, -, h4, -, h6, -, h8, -⟩ := demo_fields stdEig "pst-" true
  refine ⟨C, h, C64_clapeyron_partial stdNum .list 38 _ _ _ _ C (pstDemo_bedOk _ _) (pstDemo_fresh _ _)
    ⟨.inl (pstDemo_isPst _ _), fun h => ⟨h, fun _ => .inr rfl⟩, pstDemo_noFace _ _⟩ ?_ ?_ h ?_ _ (by norm_num) ?_⟩
  · rintro (h | h) <;> exact absurd (show "pst-" = _ from h) (by decide)
  · rw [show (pstDemo .A 200).B11 = 0 from h4, zero_mul]
  · intro i
    rcases i with _ | _ | i <;> simp [pstLists, nth]
  · rw [show (pstDemo .A 200).t = 30 from h8, show (pstDemo .A 200).kt = 1 / 300 from h2, show (pstDemo .A 200).kA55 = 1046 / 3 from h6]
    norm_num

/-! ## C46: envelopes -/

/-- The sample s-RG1 under 1 kPa of compression. -/
example : ∃ v c, stressEnvelope ⟨"mede_s-RG1", 1, 1, 200⟩ (-1) 2 = .ok v ∧
    failureEnvelopeMede false "s-RG1" |-1| = .ok c ∧ (v = 1 ↔ |2| = c) :=
  C46_mede_partial (m := medeRG1) (.inl ⟨rfl, rfl, rfl⟩) 1 1 200 (by norm_num [medeRG1])

/-! ## C77, C78: limits of the touchdown stages -/

example := C77_sinks_violated stdNum _ 1000 (demo_level rfl (by norm_num))

/-- What a root finder of any accuracy reports for the column of 2 m. -/
example {num : Numerics} (he : num.eig = stdEig) {δ a2 : ℝ} (hδ : 0 ≤ δ) (hfind : BrentFinds num 2000 δ)
    (h2 : calcA2 num (setTouchdownAttributes 2000 0 (1 / 2) 0 1000 (demo stdEig "pst-" true))
      = (.ok a2, setTouchdownAttributes 2000 0 (1 / 2) 0 1000 (demo stdEig "pst-" true))) : 0 < a2 + δ ∧ a2 - δ ≤ 1750 := by
  obtain ⟨y, h0, h1, -, h3⟩ := C78_reported_limit demo_contact num he hδ hfind h2
  have := abs_le.mp h3
  exact ⟨by linarith, by linarith⟩

/-! ## C18: other fields -/

/-- The only field in equilibrium with the skier on the slab over a crack. -/
example : ∃ C, assembleAndSolve stdNum .list 38 skierLists skierDemo = (.ok (C, skierLists), skierDemo) ∧
    ∀ Y : ℕ → ℝ → Vec6, (∀ i < 4, SolvesODE skierDemo.beam (skierDemo.loads 38) (skierLists.ki.getD i false) (Y i)) →
      Bvp skierDemo.beam 4 (jump skierDemo 38 skierLists.mi) (endCond skierDemo 38 (valOf (spring stdNum) skierDemo) .left true)
        (endCond skierDemo 38 (valOf (spring stdNum) skierDemo) .right true) (fun i => Y i 0) (fun i => Y i (nth skierLists.li i)) →
      ∀ x, Y 1 x = zsol skierDemo x (C.getD 1 0) 150 38 false := by
  obtain ⟨C, h, -⟩ := skierDemo_solved 38
  refine ⟨C, h, fun Y hY hB => ?_⟩
  exact C18_only_equilibrium stdNum .list 38 _ _ skierDemo _ C (demo_bedOk _ _) (demo_shear _ _ _) (demo_ready _ _ _).fresh.eigFresh
    skierDemo_noFace (by rw [show skierDemo.B11 = 0 from (demo_fields stdEig "skiers" false).2.2.2.1, zero_mul])
    (skierLists_supported.held _) h Y hY hB 1 (by simp [skierLists])

/-! ## C22–C24: segments and stages -/

/-- A misspelt system. -/
example : (calcSegments stdNum [] [] [] [] 2000 500 0 0 (1 / 2) 1000 (demo stdEig "pst" false)).1 = .error .valueError := by
  obtain ⟨-, -, -, -, -, -, -, -, -, -, -, -, -, h14, h15, h16⟩ := demo_fields stdEig "pst" false
  obtain ⟨s', h⟩ : ∃ s', calcTouchdownSystem stdNum 2000 500 (1 / 2) 0 1000 (demo stdEig "pst" false) = (.ok (), s') := by
    unfold calcTouchdownSystem
    rw [Py.modify_bind, Py.bind_of_ok ((C24_stage_total stdNum
      (setTouchdownAttributes 2000 500 (1 / 2) 0 1000 (demo stdEig "pst" false))).1 h15)]
    exact ⟨_, rfl⟩
  exact congrArg Prod.fst (C22_unknown_system stdNum [] [] [] [] 2000 500 0 0 (1 / 2) 1000 (demo stdEig "pst" false) s'
    (demo_ready _ _ _).fresh.eigFresh h16 (by rw [h14]; decide) h)

/-- Of cracks of 500 mm and 1800 mm in a column of 2 m the longer one is in the later stage. -/
example : ∃ s1 s2, calcTouchdownMode midNum (setTouchdownAttributes 2000 500 (1 / 2) 0 1000 (demo stdEig "pst-" true)) = (.ok (), s1) ∧
    calcTouchdownMode midNum (setTouchdownAttributes 2000 1800 (1 / 2) 0 1000 (demo stdEig "pst-" true)) = (.ok (), s2) ∧
    s1.mode.rank ≤ s2.mode.rank := by
  have ht : (demo stdEig "pst-" true).touchdown = true := (demo_fields stdEig "pst-" true).2.2.2.2.2.2.2.2.2.2.2.2.2.2.1
  obtain ⟨⟨a1, h1⟩, a2, h2⟩ := calcA_runs (demo_bracketed 500 (by norm_num) (by norm_num))
  obtain ⟨⟨b1, k1⟩, b2, k2⟩ := calcA_runs (demo_bracketed 1800 (by norm_num) (by norm_num))
  refine ⟨_, _, (C24_stage_total midNum _).2 a1 a2 ht h1 h2, (C24_stage_total midNum _).2 b1 b2 ht k1 k2, ?_⟩
  exact (C24_stage_monotone midNum (setTouchdownAttributes 2000 500 (1 / 2) 0 1000 (demo stdEig "pst-" true)) _ _
    ((demo_ready stdEig "pst-" true).fresh.eigFresh.stage _ _ _ _ _ _ _ _) (demo stdEig "pst-" true).mode 1800
    (demo stdEig "pst-" true).td (show (500 : ℝ) ≤ 1800 by norm_num) ((C24_stage_total midNum _).2 a1 a2 ht h1 h2)
    ((C24_stage_total midNum _).2 b1 b2 ht k1 k2)).2

/-- Segments without touchdown do not depend on earlier calls. -/
example (a' tc' : ℝ) :
    (calcSegments stdNum [] [] [] [] 2000 500 0 0 (1 / 2) 1000 ((demo stdEig "pst-" false).stage "pst-" .C 1000 a' tc' 300 10 1)).1
      = (calcSegments stdNum [] [] [] [] 2000 500 0 0 (1 / 2) 1000 (demo stdEig "pst-" false)).1 := by
  obtain ⟨-, -, -, -, -, -, -, -, -, -, -, -, -, h14, h15, -⟩ := demo_fields stdEig "pst-" false
  have := (C23_no_touchdown stdNum [] [] [] [] 2000 500 0 0 (1 / 2) 1000 _ h15 .C 1000 a' tc' 300 10 1).1
  rwa [h14] at this

/-! ## C26: springs -/

/-- A slab without gravity. -/
example : ∃ k, substituteStiffness stdEig 1000 false .trans { demo stdEig "pst-" true with g := 0 }
    = (.ok k, { demo stdEig "pst-" true with g := 0 }) ∧ 0 < k := by
  have hb := demo_bedOk "pst-" true
  have hp : (demo stdEig "pst-" true).p = 0 := (demo_fields stdEig "pst-" true).2.2.2.2.2.2.2.2.2.2.1
  obtain ⟨k, h1, h2, -⟩ := C26_translational_spring_partial stdEig 1000 (by norm_num) false { demo stdEig "pst-" true with g := 0 }
    (show calcEigensystem stdEig { demo stdEig "pst-" true with g := 0 } = { demo stdEig "pst-" true with g := 0 } from
      congrArg (fun s : Self => { s with g := 0 })
        (show calcEigensystem stdEig (demo stdEig "pst-" true) = demo stdEig "pst-" true from
          (demo_ready stdEig "pst-" true).fresh.eigFresh))
    (prep_false_bedOk _ _ ⟨⟨hb.stiff.h, hb.stiff.t, hb.stiff.kn, hb.stiff.kt, hb.stiff.A11, hb.stiff.D11, hb.stiff.kA55, hb.stiff.K0_eq,
      hb.stiff.K0⟩, hb.modes, hb.six, hb.indep⟩)
    (prep_false_shear _ _ (demo_shear stdEig "pst-" true)) (by
      show _ + (getSurfaceLoad _ 0).1 = (0 : ℝ)
      simp [Self.loads, getWeightLoad, getSurfaceLoad, hp])
  exact ⟨k, h1, h2⟩

/-! ## C35, C36: slab stresses -/

example (Z : Vec6) : ∃ S, fSxx (demo stdEig "pst-" true) Z 0 2 "MPa" = .ok S ∧
    trapz (List.zip ((getZmesh (demo stdEig "pst-" true) 2).map MeshPt.z) S) = (demo stdEig "pst-" true).beam.N Z :=
  C35_axial_force_flat stdEig _ (demo_ready _ _ _) 2 (by norm_num) Z

/-- Every mesh point has a principal stress. -/
example (Z : Vec6) : ∃ P, principalSlab (demo stdEig "pst-" true) Z 38 2 "kPa" "max" false = .ok P ∧
    P.length = (getZmesh (demo stdEig "pst-" true) 2).length := by
  obtain ⟨x, t, w, P, Q, hx, ht, hw, hP, -, -, -, hl⟩ := C36_slab (demo stdEig "pst-" true) Z 38 2 "kPa" (.inl rfl)
  obtain ⟨l1, l2, l3⟩ := C36_lengths stdEig _ (demo_ready stdEig "pst-" true) 2 (by norm_num) 38 Z "kPa" (.inl rfl) x t w hx ht hw
  exact ⟨P, hP, (hl (by rw [l1, l2]) (by rw [l1, l3])).1.trans l1⟩

example (Z : Vec6) := C36_weak_layer (demo stdEig "pst-" true) Z 2.6 "kPa" 1e3 (by simp [convertStress])

/-! ## C42: displacements -/

example (z : List Vec6) := C42_mean (demo stdEig "pst-" true) (z.map fun _ => some 1) z "um" (by simp [perMetre])

/-! ## C61: distribution of weights -/

/-- Eleven weights up to 300 kg. -/
example : 0 ∈ tightCentralDistribution 300 12 2 ∧ (tightCentralDistribution 300 12 2).getLast? = some 300 :=
  have h := C61_shape 300 2 12 (by norm_num) (by norm_num) (by norm_num)
  ⟨h.2.2.2.1, h.2.2.1⟩

/-! ## C69: same snow -/

/-- The lower layer of 200 mm entered as two. -/
example : touchdownDistance stdNum (.rows [⟨180, 120⟩, ⟨270, 50⟩, ⟨270, 150⟩]) 6.5 4.4 0.25 30 38
    = touchdownDistance stdNum (.rows [⟨180, 120⟩, ⟨270, 200⟩]) 6.5 4.4 0.25 30 38 := by
  have h := SameSnow.split [⟨180, 120⟩] [] 270 50 150 (by norm_num)
  norm_num at h
  refine C69_same_touchdown stdNum h ⟨by simp, ?_⟩ ⟨by simp, ?_⟩ _ _ _ _ _
  all_goals
    intro l hl
    simp only [List.mem_cons, List.not_mem_nil, or_false] at hl
    rcases hl with rfl | rfl | rfl <;> norm_num

/-! ## C71: stresses -/

example {z z' : Vec6} (h : ∀ q, |z' q - z q| ≤ 1 / 1000) :
    |fsig (demo stdEig "pst-" true) z' - fsig (demo stdEig "pst-" true) z| ≤ 2 / 225 * (1 / 1000) := by
  have hs := (demo_ready stdEig "pst-" true).stiff
  have := (C71_stresses (demo stdEig "pst-" true) hs.kn.le hs.kt.le hs.t.le hs.h.le h).1
  rwa [(demo_fields stdEig "pst-" true).1] at this

end Weac
