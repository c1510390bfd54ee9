import Verif.Props.Cases
import Verif.Props.Column
import Verif.Props.ColumnLimits
import Verif.Props.Conditioning
import Verif.Props.Continuity
import Verif.Props.Distance
import Verif.Props.Doubling
import Verif.Props.EitherSide
import Verif.Props.EnergyBalance
import Verif.Props.FirmSlab
import Verif.Props.FirstContact
import Verif.Props.ForceBalance

/-!
# Concrete cases for the solution of slabs

C10, C13, C17, C19, C25, C30, C44, C55, C64, C75–C77, C79, C82, C84, applied to the
slab `comp` (240 kg/m³, 200 mm).
-/

namespace Weac
open Spec

/-! ## C17, C25, C13 -/

/-- No support. -/
example : assembleAndSolve stdNum .list 38 ⟨[100, 100], [0], [false, false]⟩ skierDemo = (.error .valueError, skierDemo) :=
  C17_rejects _ _ _ _ _ fun h => by simpa using h.support

/-- One segment as a list is completed, as an array it is not. -/
example (sub : Py ℝ) : assembleWith sub .list 38 ⟨[100], [], [true]⟩ skierDemo
      = (((asmSolve sub 38 ⟨[100, 0], [0], [true, true]⟩ skierDemo).1).map fun C => (C, ⟨[100, 0], [0], [true, true]⟩),
        (asmSolve sub 38 ⟨[100, 0], [0], [true, true]⟩ skierDemo).2) ∧
    assembleWith sub .ndarray 38 ⟨[100], [], [true]⟩ skierDemo = (.error .attributeError, skierDemo) := by
  have hv : Valid skierDemo ⟨[100], [], [true]⟩ := ⟨by simp, rfl, rfl, fun _ => by simp⟩
  exact ⟨(C17_accepts sub .list 38 _ skierDemo hv (.inl rfl)).trans (by simp [full]), C17_single_ndarray sub 38 _ _ hv rfl⟩

example (k : ℝ) (s' : Self) (h : substituteStiffness stdEig 300 true .rot (pstDemo .C 200) = (.ok k, s')) : s' = pstDemo .C 200 :=
  C25_substitute_stiffness_frame stdEig 300 true .rot _ s' k (pstDemo_fresh _ _) h

/-! ## C19, C10, C64 -/

/-- A saw test of 1.2 m with a crack of 0.2 m: the springs carry the weight. -/
example : ∃ C, assembleAndSolve stdNum .list 30 (pstLists 200) (pstDemo .A 200) = (.ok (C, pstLists 200), pstDemo .A 200) ∧
    overSupport (pstDemo .A 200) 30 (pstLists 200) C (fun z => -fsig (pstDemo .A 200) z)
      = ((getWeightLoad (pstDemo .A 200) 30).1 + (getSurfaceLoad (pstDemo .A 200) 30).1) * totalLength (pstLists 200)
        + ∑ i ∈ Finset.range ((pstLists 200).li.length - 1), (getSkierLoad (pstDemo .A 200) (nth (pstLists 200).mi i) 30).1 :=
  let ⟨C, h, _⟩ := pstDemo_solved .A (by simp) .list 30
  ⟨C, h, (C19_force_balance stdNum .list 30 _ _ _ _ C (pstDemo_bedOk _ _) (pstDemo_fresh _ _) ⟨pstDemo_isPst _ _, fun _ => .inr rfl⟩ h).1⟩

/-- A slab without skier and without crack has the same state everywhere. -/
example : ∃ C, assembleAndSolve stdNum .list 30 undisturbed skierDemo = (.ok (C, undisturbed), skierDemo) ∧
    ∀ i < undisturbed.li.length, ∀ x, zsol skierDemo x (C.getD i 0) (nth undisturbed.li i) 30 (undisturbed.ki.getD i false)
      = zp skierDemo 0 30 true := by
  have hfull : full undisturbed = undisturbed := by unfold full; rw [if_neg (by simp [undisturbed])]
  obtain ⟨C, h1, -⟩ := C18_unique_solution stdNum .list 30 undisturbed skierDemo (demo_bedOk _ _)
    (demo_shear _ _ _) (demo_ready _ _ _).fresh.eigFresh ⟨by simp [undisturbed], rfl, rfl, fun _ => by simp [undisturbed]⟩ (.inl rfl)
    (.inr (.inr (.inl skierDemo_isSkier))) (fun h => absurd h skierDemo_not_pst)
    (fun h => absurd h skierDemo_not_pst)
    ⟨by simp [undisturbed], 0, by simp [undisturbed], by simp [undisturbed], by simp [undisturbed, nth]⟩
  rw [hfull] at h1
  refine ⟨C, h1, fun i hi x => C10_undisturbed stdNum .list 30 _ _ _ _ C (demo_ready _ _ _).fresh.eigFresh skierDemo_isSkier ?_ ?_ h1 i hi x⟩
  · intro i hi
    simp only [undisturbed, List.length_cons, List.length_nil] at hi
    interval_cases i <;> rfl
  · intro i
    rcases i with _ | i <;> simp [undisturbed, nth]

/-! ## C75, C76 -/

/-- Columns of 1 m and more that are cut by 200 mm at the right end. -/
theorem demo_cut (mode : Mode) (hm : mode ≠ .unset) : CutOut stdNum (pstDemo mode 200) [200] [0] [false] :=
  ⟨.inl (pstDemo_isPst _ _), pstDemo_noFace _ _, by simp, rfl, rfl, by simp, fun _ _ => hm, fun _ _ _ => pstDemo_rest _⟩

example (mode : Mode) (hm : mode ≠ .unset) (phi : ℝ) :
    ∃ r K, 0 < r ∧ 0 < K ∧ ∀ L L', 1000 ≤ L → L ≤ L' → ∃ C C',
      assembleAndSolve stdNum .list phi (columnOf [200] [0] [false] L) (pstDemo mode 200) =
        (.ok (C, columnOf [200] [0] [false] L), pstDemo mode 200) ∧
      assembleAndSolve stdNum .list phi (columnOf [200] [0] [false] L') (pstDemo mode 200) =
        (.ok (C', columnOf [200] [0] [false] L'), pstDemo mode 200) ∧
      ∀ x ∈ Set.Icc (0 : ℝ) 200, ∀ q, |zsol (pstDemo mode 200) x (C.getD 1 0) 200 phi false q -
        zsol (pstDemo mode 200) x (C'.getD 1 0) 200 phi false q| ≤ K * Real.exp (-(L / r)) := by
  obtain ⟨r, hr, H⟩ := C75_states stdNum (pstDemo mode 200) (pstDemo_bedOk _ _) (pstDemo_shear _ _) (pstDemo_fresh _ _)
  obtain ⟨K, hK, H⟩ := H .list phi [200] [0] [false] (demo_cut mode hm)
  refine ⟨r, K, hr, hK, fun L L' h1 h2 => ?_⟩
  obtain ⟨C, C', e1, e2, -, e3⟩ := H L L' (by linarith) h2
  exact ⟨C, C', e1, e2, fun x hx q => e3 0 (by simp) x hx q⟩

example (mode : Mode) (hm : mode ≠ .unset) (phi : ℝ) :
    ∃ r K, 0 < r ∧ 0 < K ∧ ∀ L L', 1000 ≤ L → L ≤ L' → ∀ C C' a a' s1 s2,
      assembleAndSolve stdNum .list (-phi) ⟨[200, L], [0], [false, true]⟩ (pstDemo mode 200).mirror = (.ok (C, a), s1) →
      assembleAndSolve stdNum .list (-phi) ⟨[200, L'], [0], [false, true]⟩ (pstDemo mode 200).mirror = (.ok (C', a'), s2) →
      ∀ x ∈ Set.Icc (0 : ℝ) 200, ∀ q, |zsol (pstDemo mode 200).mirror x (C.getD 0 0) 200 (-phi) false q -
        zsol (pstDemo mode 200).mirror x (C'.getD 0 0) 200 (-phi) false q| ≤ K * Real.exp (-(L / r)) := by
  obtain ⟨r, hr, H⟩ := C75_mirror stdNum (pstDemo mode 200) (pstDemo_bedOk _ _) (pstDemo_shear _ _) (pstDemo_fresh _ _)
  obtain ⟨K, hK, H⟩ := H .list phi [200] [0] [false] (demo_cut mode hm)
  exact ⟨r, K, hr, hK, fun L L' h1 h2 C C' a a' s1 s2 e1 e2 x hx q => (H L L' (by linarith) h2 C C' a a' s1 s2 e1 e2).2 0 (by simp) x hx q⟩

example : ∃ s : Self, s = setTouchdownAttributes 0 400 (1 / 2) 0 1000 (demo stdEig "pst-" true) ∧
    ∃ r K, 0 < r ∧ 0 < K ∧ ∀ L L', 1 ≤ L → L ≤ L' → ∃ k k', substituteStiffness stdEig L false .rot s = (.ok k, s) ∧
      substituteStiffness stdEig L' false .rot s = (.ok k', s) ∧ |k - k'| ≤ K * Real.exp (-(L / r)) := by
  have h := demo_long 400
  obtain ⟨r, K, hr, hK, H⟩ := C76_rotational_spring stdEig false _ h.fresh (prep_false_bedOk _ _ h.bed) (prep_false_shear _ _ h.shear)
  refine ⟨_, rfl, r, K, hr, hK, fun L L' h1 h2 => ?_⟩
  obtain ⟨k, k', e1, e2, -, -, -, e3⟩ := H L L' h1 h2
  exact ⟨k, k', e1, e2, e3⟩

example := C76_vertical_spring stdEig false _ (demo_long 400).fresh (prep_false_bedOk _ _ (demo_long 400).bed)
  (prep_false_shear _ _ (demo_long 400).shear)

/-- The stage of a crack of 400 mm in columns of 1.751 m and more. -/
example := C76_stage (demo stdEig "pst-" true) 400 (1 / 2) 0 1000 (demo_ready _ _ _).fresh.eigFresh
  (demo_fields stdEig "pst-" true).2.2.2.2.2.2.2.2.2.2.2.2.2.2.1 (demo_long 400) (A := 1750) (by norm_num) (demo_reach 400)

/-! ## C79, C55 -/

example : ∃ K, 0 < K ∧ ∀ (l : ℝ) (C : Vec6) (B : ℝ), 0 ≤ l → (∀ q, |C q| ≤ B) → ∀ x ∈ Set.Icc 0 l, ∀ q,
    |(zh (pstDemo .A 200) x l true).mulVec C q| ≤ K * B := by
  obtain ⟨K, hK, H⟩ := C79_constants stdEig (pstDemo .A 200) (pstDemo_bedOk _ _) (pstDemo_fresh _ _) 500
  exact ⟨K, hK, fun l C B hl => (H true l C B hl (.inl rfl)).2⟩

/-! ## C64: the energy released by the last cut -/

example (quad : Quad) (e : ℝ) (hq : QuadOk quad e) :
    ∃ C0 C1 I II, assembleAndSolve stdNum .list 30 beforeCut (pstDemo .A 200) = (.ok (C0, beforeCut), pstDemo .A 200) ∧
    assembleAndSolve stdNum .list 30 afterCut (pstDemo .A 200) = (.ok (C1, afterCut), pstDemo .A 200) ∧
    ginc quad (pstDemo .A 200) 30 (advance beforeCut afterCut.ki C0 C1) = some (I + II, I, II) ∧
    |potential (pstDemo .A 200) 30 beforeCut C0 - potential (pstDemo .A 200) 30 afterCut C1
      - departure (pstDemo .A 200) 30 beforeCut afterCut.ki C0 C1 - 100 * (I - II)| ≤ e := by
  have hf0 : full beforeCut = beforeCut := by unfold full; rw [if_neg (by simp [beforeCut])]
  have hf1 : full afterCut = afterCut := by unfold full; rw [if_neg (by simp [afterCut])]
  obtain ⟨C0, h0, -⟩ := C18_unique_solution stdNum .list 30 beforeCut (pstDemo .A 200) (pstDemo_bedOk _ _)
    (pstDemo_shear _ _) (pstDemo_fresh _ _) ⟨by simp [beforeCut], rfl, rfl, fun h => absurd (show finiteSystem "pst-" by decide) h⟩
    (.inl rfl) (.inl (pstDemo_isPst _ _)) (fun _ _ => by simp [pstDemo, Self.stage]) (fun _ _ _ => pstDemo_rest _)
    ⟨by simp [beforeCut], 0, by simp [beforeCut], by simp [beforeCut], by simp [beforeCut, nth]⟩
  obtain ⟨C1, h1, -⟩ := C18_unique_solution stdNum .list 30 afterCut (pstDemo .A 200) (pstDemo_bedOk _ _)
    (pstDemo_shear _ _) (pstDemo_fresh _ _) ⟨by simp [afterCut], rfl, rfl, fun h => absurd (show finiteSystem "pst-" by decide) h⟩
    (.inl rfl) (.inl (pstDemo_isPst _ _)) (fun _ _ => by simp [pstDemo, Self.stage]) (fun _ _ _ => pstDemo_rest _)
    ⟨by simp [afterCut], 0, by simp [afterCut], by simp [afterCut], by simp [afterCut, nth]⟩
  rw [hf0] at h0
  rw [hf1] at h1
  have hd : ∀ a, DeadLoads (pstDemo .A 200) a := fun a =>
    ⟨.inl (pstDemo_isPst _ _), fun h => ⟨h, fun _ => .inr rfl⟩, pstDemo_noFace _ _⟩
  obtain ⟨-, f2, -, f4, -, f6, -, f8, -⟩ := demo_fields stdEig "pst-" true
  obtain ⟨I, II, g1, g2⟩ := C64_ginc_partial stdNum quad e hq .list .list 30 _ _ _ _ (pstDemo .A 200) _ _ C0 C1 (pstDemo_bedOk _ _) (pstDemo_fresh _ _)
    (hd _) (hd _) (by rw [show (pstDemo .A 200).B11 = 0 from f4, zero_mul]) h0 h1 rfl rfl (fun i h => by
      match i, h with
      | 0, _ => rfl
      | i + 1, h => exfalso; revert h; cases i with
        | zero => decide
        | succ i => cases i with
          | zero => decide
          | succ i => simp [afterCut]) [⟨C0.getD 1 0, C1.getD 1 0, 100, false, true⟩] (by
      simp [advance, beforeCut, afterCut, List.range_succ, nth]) 100 (by simp) (by norm_num)
  exact ⟨C0, C1, I, II, h0, h1, g1, by simpa using g2⟩

/-! ## C30 -/

/-- One crack tip: the rate of the state at the end of the supported part. -/
example (C D : Vec6) : gdif (pstDemo .A 200) 38 [⟨C, true, 1000⟩, ⟨D, false, 200⟩] "kJ/m^2" true = .ok
    (fGi (pstDemo .A 200) (zsol (pstDemo .A 200) 1000 C 1000 38 true) + fGii (pstDemo .A 200) (zsol (pstDemo .A 200) 1000 C 1000 38 true),
      fGi (pstDemo .A 200) (zsol (pstDemo .A 200) 1000 C 1000 38 true), fGii (pstDemo .A 200) (zsol (pstDemo .A 200) 1000 C 1000 38 true)) := by
  refine C30_edge_crack (pstDemo .A 200) 38 _ 0 fun i => ?_
  unfold CrackTip
  rcases i with _ | _ | i <;> simp

/-- Two crack tips: the mean of the rates. -/
example (C D E : Vec6) (G : ℝ × ℝ × ℝ)
    (h : gdif (pstDemo .A 200) 38 [⟨C, true, 1000⟩, ⟨D, false, 200⟩, ⟨E, true, 1000⟩] "kJ/m^2" true = .ok G) :
    G.2.1 = (fGi (pstDemo .A 200) (endState (pstDemo .A 200) 38 [⟨C, true, 1000⟩, ⟨D, false, 200⟩, ⟨E, true, 1000⟩] 0) +
      fGi (pstDemo .A 200) (endState (pstDemo .A 200) 38 [⟨C, true, 1000⟩, ⟨D, false, 200⟩, ⟨E, true, 1000⟩] 1)) / 2 := by
  rw [C30_centre_crack (pstDemo .A 200) 38 _ 0 1 (by norm_num) (by simp [SupportedAt]) fun i => ?_] at h
  · injection h with h
    rw [← h]
  · unfold CrackTip
    rcases i with _ | _ | _ | i <;> simp

/-- Tilt, normal force and moment may jump at the tip. -/
example (z : Vec6) (N M : ℝ) (zr : Vec6) (h : Transmission (pstDemo .A 200).beam (N, M, 0) z zr) :
    fGi (pstDemo .A 200) z = fGi (pstDemo .A 200) zr :=
  (C30_either_side _ (pstDemo_bedOk .A 200).stiff.kA55.ne' (N, M, 0) rfl z zr h).1

/-! ## C44 -/

example : ∃ l s' x, touchdownCalls sixNum 30 (demo stdEig "pst-" true) = (.ok (600, 600, l), s') ∧ x = longColumn (demo stdEig "pst-" true) (collapseHeight (demo stdEig "pst-" true) 0.5 0) 0 30 ∧
    (calcA1 sixNum x).1 = .ok 600 := by
  have h30 : 4 / 5 ≤ Real.cos (deg2rad 30) := by
    rw [cos_thirty]
    have : (8 / 5 : ℝ) ≤ √3 := Real.le_sqrt_of_sq_le (by norm_num)
    linarith
  obtain ⟨l, h⟩ := calls_run 30 h30
  obtain ⟨s', hs⟩ : ∃ s', touchdownCalls sixNum 30 (demo stdEig "pst-" true) = (.ok (600, 600, l), s') := ⟨_, Prod.ext h rfl⟩
  exact ⟨l, s', _, hs, rfl, (C44_calls sixNum 30 _ s' 600 600 l (demo_ready _ _ _).fresh.eigFresh rfl hs).1⟩

example : touchdownDistance sixNum (.ndarray [⟨240, 200⟩]) 6.5 4.4 0.25 30 38 = .error .valueError :=
  C44_array_violated sixNum _ _ _ _ _ _ ⟨by simp, by norm_num⟩

/-- At 30° the tip of a column whose first contact is searched. -/
example (y : ℝ) (hy : (polyA1 stdEig (bsOf (demo stdEig "pst-" true)) (demo stdEig "pst-" true).kA55 1e5
      (collapseHeight (demo stdEig "pst-" true) 0.5 0) (calcQn (longColumn (demo stdEig "pst-" true) (collapseHeight (demo stdEig "pst-" true) 0.5 0) 0 30)) 600
      (longColumn (demo stdEig "pst-" true) (collapseHeight (demo stdEig "pst-" true) 0.5 0) 0 30)).1 = .ok y)
    (h : SpringsOk stdNum (longColumn (demo stdEig "pst-" true) (collapseHeight (demo stdEig "pst-" true) 0.5 0) 0 30) (1e5 - 600)) :=
  C44_slope_violated stdNum (demo stdEig "pst-" true) 30 600 y (by
    rw [cos_thirty]
    have : √3 < 2 := (Real.sqrt_lt' (by norm_num)).2 (by norm_num)
    linarith) (by rw [demo_load]; norm_num [deg2rad]) h hy

/-! ## C84 -/

example := C84_energy_grows midNum (offQuad 0) 0 (by simpa using offQuad_ok 0) le_rfl demoSite demoSite_ok _ _ demoBeam_ok (by simp [unsupported])

example : ∃ n, ∀ m, n ≤ m → ∃ W, doubleWeight
    (fun w => do let (_, _, g) ← energyCheck midNum (offQuad 0) demoSite w (crackStart 20000) [true, false, false, true]; return g) m 100
      = .ok (some W) :=
  C84_doubling_ends midNum (offQuad 0) 0 (by simpa using offQuad_ok 0) le_rfl demoSite demoSite_ok (by norm_num) (by norm_num)

example : ∃ n, ∀ fuel, n ≤ fuel → coupledDampened midNum (offQuad 0) fuel demoSite 0.1 ≠ .ok none :=
  C84_dampened_ends midNum (offQuad 0) 0 (by simpa using offQuad_ok 0) le_rfl demoSite demoSite_ok (by
    have : profileHeight demoSite.profile = 200 := by simp [profileHeight, demoSite]
    rw [this]; norm_num) 0.1

/-! ## C82 -/

/-- The mirror image of a saw test of 2 m with a cut of 300 mm. -/
example : ∃ g t, calcSegments midNum [] [] [] [] 2000 300 0 0 (1 / 2) 1000 (demo stdEig "pst-" true) = (.ok g, t) ∧
    calcSegments midNum [] [] [] [] 2000 300 0 (-0) (1 / 2) 1000 (demo stdEig "pst-" true).mirror = (.ok g.mirror, t.mirror) := by
  obtain ⟨g, t, h, -⟩ := demo_segments 300 (by norm_num) (by norm_num) (fun h => absurd h (by norm_num))
  exact ⟨g, t, h, C82_segments (demo_ready stdEig "pst-" true).fresh.eigFresh h⟩

/-- A column that is not accepted in either direction. -/
example (L a : ℝ) : (∃ g t, calcSegments midNum [].reverse [].reverse [].reverse [].reverse L a 0 (-0) (1 / 2) 1000 (demo stdEig "pst-" true).mirror = (.ok g, t)) ↔
    ∃ g t, calcSegments midNum [] [] [] [] L a 0 0 (1 / 2) 1000 (demo stdEig "pst-" true) = (.ok g, t) :=
  C82_segments_iff midNum [] [] [] [] L a 0 0 (1 / 2) 1000 _ (demo_ready stdEig "pst-" true).fresh.eigFresh

/-! ## C85 -/

/-- Three layers of at least 300 kg/m³ on a weak layer of 20 mm with 0.2 MPa. -/
example : SiteOk midNum { profile := [⟨320, 100⟩, ⟨450, 50⟩, ⟨380, 250⟩], phi := 35, t := 20, E := 0.2 } := by
  refine C85_layered midNum stdEig_ok _ ⟨by simp, ?_⟩ (by norm_num) (by norm_num) 45 (by norm_num) (fun p hp => bergfeld_hard p.rho ?_) ?_ ?_
  · intro p hp
    fin_cases hp <;> norm_num
  · fin_cases hp <;> norm_num
  · norm_num [total]
  · norm_num [total]

/-! ## C77 -/

/-- A saw test of 2 m cut by 300 mm, not yet in contact. -/
example : ∃ g t C y Zm Zv, calcSegments midNum [] [] [] [] 2000 300 0 0 (1 / 2) 1000 (demo stdEig "pst-" true) = (.ok g, t) ∧
    assembleAndSolve midNum .list 0 ⟨g.li, g.mi, g.ki⟩ t = (.ok (C, ⟨g.li, g.mi, g.ki⟩), t) ∧
    polyA1 midNum.eig (bsOf t) t.kA55 2000 t.tc (calcQn t) 300 t = (.ok y, t) ∧
    TipLoaded t.beam (2000 - 300) 0 1 0 Zm ∧ TipLoaded t.beam (2000 - 300) 0 0 1 Zv ∧
    zsol t 300 (C.getD 1 0) 300 0 false 2 - t.tc = calcQn t * y + calcQn t / t.kn * (1 + calcQn t * 300)
      - calcQn t * 300 ^ 2 * (Zm 0 2 / 2 + Zv 0 4) := by
  obtain ⟨g, t, h, hm⟩ := demo_segments 300 (by norm_num) (by norm_num) (fun h => absurd h (by norm_num))
  rw [if_pos (by norm_num)] at hm
  have hl : LongColumn stdEig (setTouchdownAttributes 2000 300 (1 / 2) 0 1000 (demo stdEig "pst-" true)) := by
    have e : setTouchdownAttributes 2000 300 (1 / 2) 0 1000 (demo stdEig "pst-" true)
      = (setTouchdownAttributes 0 300 (1 / 2) 0 1000 (demo stdEig "pst-" true)).column 2000 := rfl
    have l := demo_long 300
    rw [e]
    exact ⟨l.fresh.stage _ _ _ _ _ _ _ _, l.bed.stage _ _ _ _ _ _ _ _, l.shear.stage _ _ _ _ _ _ _ _, l.qn, l.q0, l.light, l.tc⟩
  obtain ⟨C, y, Zm, Zv, e⟩ := C77_computed_partial midNum .list (demo stdEig "pst-" true) t [] [] [] [] 2000 300 0 (1 / 2) 1000 g
    (demo_ready _ _ _).fresh.eigFresh (demo_fields stdEig "pst-" true).2.2.2.2.2.2.2.2.2.2.2.2.2.1 (by norm_num) (by norm_num)
    hl h hm
  exact ⟨g, t, C, y, Zm, Zv, h, e⟩

/-- The crack of 400 mm at which the end is said to touch down. -/
example : ∃ (tc : ℝ) (s : Self) (C : List Vec6), s.tc = tc ∧
    polyA1 stdNum.eig (bsOf s) s.kA55 (1000 + 400) tc (calcQn s) 400 s = (.ok 0, s) ∧
    assembleAndSolve stdNum .list 0 ⟨[1000, 400], [0], [true, false]⟩ s = (.ok (C, ⟨[1000, 400], [0], [true, false]⟩), s) ∧
    ∀ Zm Zv, TipLoaded s.beam 1000 0 1 0 Zm → TipLoaded s.beam 1000 0 0 1 Zv →
      (zsol s 400 (C.getD 1 0) 400 0 false 2 = tc ↔ (1 + calcQn s * 400) / s.kn = 400 ^ 2 * (Zm 0 2 / 2 + Zv 0 4)) := by
  have h := demo_level (num := stdNum) rfl (l := 1000) (by norm_num)
  obtain ⟨tc, t1, t2⟩ := contact_depth h (show (0 : ℝ) < 400 by norm_num)
  obtain ⟨C, -, -, -, c1, -⟩ := C77_gap_partial stdNum .list _ 1000 400 (by norm_num) (h.atCrack 400 tc)
  refine ⟨tc, _, C, rfl, t2, c1, fun Zm Zv hm hv => ?_⟩
  obtain ⟨C', e1, e2, -⟩ := C77_touches_iff stdNum .list _ 1000 400 (by norm_num) (h.atCrack 400 tc) t2 hm hv
  rw [c1] at e1
  injection e1 with e1
  injection e1 with e1
  injection e1 with e1
  rw [e1]
  exact e2

end Weac
