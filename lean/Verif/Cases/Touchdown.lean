import Verif.Props.Cases
import Verif.Props.TouchdownEq
import Verif.Props.TouchdownRuns
import Verif.Props.VerticalFace
import Verif.Props.Workflow
import Verif.Props.Standing
import Verif.Props.Spectrum
import Verif.Props.Loads

/-!
# Concrete cases for segments, touchdown and the set-up of objects

C13, C22–C26, C38, C40, C43, C85, applied to the slab `comp` (240 kg/m³, 200 mm).
-/

namespace Weac
open Spec

/-! ## C22–C25 -/

/-- Segments of a system with several skiers are passed on. -/
example : ∃ s', calcSegments stdNum [500, 500] [80] [true, true] [true, true] 0 0 0 38 (1 / 2) 1000 (demo stdEig "skiers" false)
    = (.ok ⟨[500, 500], [80], [true, true], [true, true]⟩, s') := by
  obtain ⟨s, h1, H⟩ := C38_skiers_partial stdNum stdEig_ok (.str "comp") ⟨"comp", by decide, by decide⟩ (by simp [IsArray])
  rw [show layeredInit stdNum.eig "skiers" (.str "comp") false = .ok (demo stdEig "skiers" false) from demo_init _ _ _] at h1
  injection h1 with h1
  subst h1
  obtain ⟨g, s', C, e1, -⟩ := H (demo_disc _ _) (demo_shear _ _ _) [500, 500] [80] [true, true] [true, true] 0 0 0 38 (1 / 2) 1000 rfl rfl rfl rfl
    (by norm_num)
  have e2 := C22_skiers stdNum _ _ _ _ _ _ _ _ _ _ _ _ g (demo_ready _ _ _).fresh.eigFresh
    (demo_fields stdEig "skiers" false).2.2.2.2.2.2.2.2.2.2.2.2.2.1 e1
  rw [e2] at e1
  exact ⟨s', e1⟩

/-- The segments of a saw test of 2 m cut by 300 mm can be solved. -/
example : ∃ g t, calcSegments midNum [] [] [] [] 2000 300 0 0 (1 / 2) 1000 (demo stdEig "pst-" true) = (.ok g, t) ∧
    Valid t ⟨g.li, g.mi, g.ki⟩ ∧ Supported ⟨g.li, g.mi, g.ki⟩ := by
  obtain ⟨g, t, h, -⟩ := demo_segments 300 (by norm_num) (by norm_num) (fun h => absurd h (by norm_num))
  obtain ⟨a1, a2, -⟩ := C22_accepted midNum midNum_runs.inside _ _ _ _ _ _ _ _ _ _ _ _ g (demo_ready stdEig "pst-" true).fresh.eigFresh
    (by rw [(demo_fields stdEig "pst-" true).2.2.2.2.2.2.2.2.2.2.2.2.2.1]; decide) (by norm_num) (by norm_num) h
  exact ⟨g, t, h, a1, a2⟩

/-- The same test after one with another column. -/
example (mode : Mode) (L' a' tc' td' ratio' : ℝ) : ∃ g t,
    calcSegments midNum [] [] [] [] 2000 300 0 0 (1 / 2) 1000 (demo stdEig "pst-" true) = (.ok g, t) ∧
    calcSegments midNum [] [] [] [] 2000 300 0 0 (1 / 2) 1000
      ((demo stdEig "pst-" true).stage (demo stdEig "pst-" true).system mode L' a' tc' td' (demo stdEig "pst-" true).phi ratio') = (.ok g, t) := by
  obtain ⟨g, t, h, -⟩ := demo_segments 300 (by norm_num) (by norm_num) (fun h => absurd h (by norm_num))
  exact ⟨g, t, h, (C23_history_partial midNum [] [] [] [] 2000 300 0 0 (1 / 2) 1000 _ (demo_ready stdEig "pst-" true).fresh.eigFresh
    mode L' a' tc' td' ratio').2 g t h⟩

/-- The collapse height belongs to the inclination of the object, not of the call. -/
example (s' : Self) (h : calcTouchdownSystem midNum 2000 300 (1 / 2) 38 1000 (demo stdEig "pst-" true) = (.ok (), s')) :
    s'.tc = collapseHeight (demo stdEig "pst-" true) (1 / 2) 0 ∧ s'.phi = 38 :=
  C23_tc_of_previous_inclination midNum 2000 300 (1 / 2) 38 1000 (demo stdEig "pst-" true) s' (demo_ready stdEig "pst-" true).fresh.eigFresh h

/-- A second and a third call with the same arguments. -/
example : ∃ g t, calcSegments midNum [] [] [] [] 2000 300 0 0 (1 / 2) 1000 (demo stdEig "pst-" true) = (.ok g, t) ∧
    ∀ g2 t2, calcSegments midNum [] [] [] [] 2000 300 0 0 (1 / 2) 1000 t = (.ok g2, t2) →
      calcSegments midNum [] [] [] [] 2000 300 0 0 (1 / 2) 1000 t2 = (.ok g2, t2) := by
  obtain ⟨g, t, h, -⟩ := demo_segments 300 (by norm_num) (by norm_num) (fun h => absurd h (by norm_num))
  exact ⟨g, t, h, fun g2 t2 h2 => (C23_repeat midNum _ _ _ _ _ _ _ _ _ _ _ t t2 g g2 (demo_ready stdEig "pst-" true).fresh.eigFresh h h2).2⟩

example := C23_violated

/-- The stage of a crack of 300 mm in a column of 2 m is computed. -/
example : ∃ s', calcTouchdownSystem midNum 2000 300 (1 / 2) 0 1000 (demo stdEig "pst-" true) = (.ok (), s') ∧ s'.mode = .A := by
  obtain ⟨g, t, h, hm⟩ := demo_segments 300 (by norm_num) (by norm_num) (fun h => absurd h (by norm_num))
  rw [if_pos (by norm_num)] at hm
  obtain ⟨a1, a2, -, -, H⟩ := C24_computation_succeeds midNum 2000 300 (1 / 2) 0 1000 200 (demo stdEig "pst-" true)
    (demo_bracketed 300 (by norm_num) (by norm_num)) (demo_fields stdEig "pst-" true).2.2.2.2.2.2.2.2.2.2.2.2.2.2.1
  exact ⟨t, (calcSegments_ok h).2.1, hm⟩

example (s' : Self) (h : calcTouchdownMode midNum (demo stdEig "pst-" true) = (.ok (), s')) :
    s' = { demo stdEig "pst-" true with mode := s'.mode } :=
  C25_touchdown_mode_frame midNum _ s' (demo_ready stdEig "pst-" true).fresh.eigFresh h

example (s' : Self) (h : calcTouchdownLength midNum (demo stdEig "pst-" true) = (.ok (), s')) :
    s' = { demo stdEig "pst-" true with td := s'.td } :=
  C25_touchdown_length_frame midNum _ s' (demo_ready stdEig "pst-" true).fresh.eigFresh h

/-! ## C26 -/

example : ∃ k, substituteStiffness stdEig 300 false .rot (pstDemo .A 200) = (.ok k, pstDemo .A 200) ∧ 0 < k ∧
    ∃ Z, TipLoaded ((pstDemo .A 200).auxBeam false) 300 0 1 0 Z ∧ Z 0 4 = -1 / k := by
  obtain ⟨k, h1, h2, ⟨Z, hZ⟩, h3⟩ := C26_rotational_spring stdEig 300 (by norm_num) false (pstDemo .A 200) (pstDemo_fresh _ _)
    (prep_false_bedOk _ _ (pstDemo_bedOk _ _)) (prep_false_shear _ _ (pstDemo_shear _ _))
  exact ⟨k, h1, h2, Z, hZ, h3 Z hZ⟩

/-- With and without a surface load of 2 kPa. -/
example : (substituteStiffness stdEig 300 false .rot (loaded (pstDemo .A 200) 2 6)).1
    = (substituteStiffness stdEig 300 false .rot (pstDemo .A 200)).1 :=
  C26_rotational_spring_load_independent stdEig 300 (by norm_num) false (pstDemo .A 200) (loaded (pstDemo .A 200) 2 6)
    (pstDemo_fresh _ _) (pstDemo_fresh .A 200).loaded (prep_false_bedOk _ _ (pstDemo_bedOk _ _))
    (prep_false_bedOk _ _ (pstDemo_bedOk _ _).loaded) (prep_false_shear _ _ (pstDemo_shear _ _))
    (prep_false_shear _ _ (pstDemo_shear .A 200).loaded) ⟨_, rfl⟩

example := C26_trans_depends_on_load stdEig 300 (by norm_num) false (pstDemo .A 200) (pstDemo_fresh _ _)
  (prep_false_bedOk _ _ (pstDemo_bedOk _ _)) (prep_false_shear _ _ (pstDemo_shear _ _))

/-! ## C43 -/

/-- The first and the last limit reported for a column of 2 m. -/
example : ∃ s a1 y c, s = setTouchdownAttributes 2000 300 (1 / 2) 0 1000 (demo stdEig "pst-" true) ∧ calcA1 midNum s = (.ok a1, s) ∧
    polyA1 midNum.eig (bsOf s) s.kA55 s.L s.tc (calcQn s) a1 s = (.ok y, s) ∧ 0 < c ∧
    ∃ kN kR Z, Overhang s.beam (calcQn s) kN kR a1 Z ∧ HeldAt s.beam s.tc 0 a1 Z ∧ -s.beam.V (Z a1) * c = calcQn s * y := by
  obtain ⟨a1, -, h1, -, h2, -, h3, -⟩ := C43_reported_limits _ _ _ (demo_bracketed 300 (by norm_num) (by norm_num))
  obtain ⟨kR, kN, y, c, -, -, h4, h5, ⟨Z, z1, z2⟩, h6⟩ := C43_contact_force _ _ _ h2 h3
  exact ⟨_, a1, y, c, rfl, h1, h4, h5, kN, kR, Z, z1, z2, h6 Z z1 z2⟩

example : ∃ s a2 y c, s = setTouchdownAttributes 2000 300 (1 / 2) 0 1000 (demo stdEig "pst-" true) ∧ calcA2 midNum s = (.ok a2, s) ∧
    polyA2 midNum.eig (bsOf s) s.kA55 s.L s.tc (calcQn s) a2 s = (.ok y, s) ∧ 0 < c ∧
    ∃ kN kR Z, Overhang s.beam (calcQn s) kN kR a2 Z ∧ HeldAt s.beam s.tc 0 a2 Z ∧ c * Z a2 3 = -y := by
  obtain ⟨-, a2, -, h1, -, h2, -, h3, -⟩ := C43_reported_limits _ _ _ (demo_bracketed 300 (by norm_num) (by norm_num))
  obtain ⟨kR, kN, y, c, -, -, h4, h5, ⟨Z, z1, z2⟩, h6⟩ := C43_full_contact _ _ _ h2 h3
  exact ⟨_, a2, y, c, rfl, h1, h4, h5, kN, kR, Z, z1, z2, h6 Z z1 z2⟩

/-- A crack of 1.8 m of which 1 m may hang. -/
example : ∃ s y c, s = setTouchdownAttributes 2000 1800 (1 / 2) 0 1000 (demo stdEig "pst-" true) ∧
    polyLC midNum.eig (bsOf s) s.kA55 s.L s.a s.tc (calcQn s) 1000 s = (.ok y, s) ∧ 0 < c ∧
    ∃ kN kR kr Z, Overhang s.beam (calcQn s) kN kR 1000 Z ∧ HeldAt s.beam s.tc kr 1000 Z ∧ c * Z 1000 3 = -y := by
  have hb := demo_bracketed 1800 (by norm_num) (by norm_num)
  obtain ⟨-, -, -, -, -, -, -, -, h3⟩ := C43_reported_limits _ _ _ hb
  obtain ⟨kR, kN, kr, y, c, -, -, -, h4, h5, ⟨Z, z1, z2⟩, h6⟩ := C43_touchdown_length _ _ 1000 (by norm_num)
    (show (1000 : ℝ) < 1800 by norm_num) h3 hb.restBed hb.restShear
  exact ⟨_, y, c, rfl, h4, h5, kN, kR, kr, Z, z1, z2, h6 Z z1 z2⟩

/-! ## C40 -/

example (tc : ℝ) : ∃ C, assembleAndSolve stdNum .list 30 (pstLists 500) (vpstDemo tc) = (.ok (C, full (pstLists 500)), vpstDemo tc) ∧
    FaceMeets (vpstDemo tc) 30 (full (pstLists 500)) (fun i => C.getD i 0) := by
  obtain ⟨C, a', s', h⟩ := vpstDemo_solved tc
  obtain ⟨h1, h2, h3⟩ := C40_vertical_face_partial stdNum .list 30 _ a' (vpstDemo tc) s' C
    ((demo_ready stdEig "vpst-" true).fresh.eigFresh.stage _ _ _ _ _ _ _ _) (.inr rfl) h
  subst h1 h2
  exact ⟨C, h, h3⟩

/-- Of two collapse heights one is missed. -/
example : ∃ C C' a1 a2 s1 s2, assembleAndSolve stdNum .list 30 (pstLists 500) (vpstDemo 6) = (.ok (C, a1), s1) ∧
    assembleAndSolve stdNum .list 30 (pstLists 500) (vpstDemo 7) = (.ok (C', a2), s2) ∧
    ¬ (fw (zsol (vpstDemo 6) 500 (C.getD 1 0) 500 30 false) = 6 ∧ fw (zsol (vpstDemo 6) 500 (C'.getD 1 0) 500 30 false) = 7) := by
  obtain ⟨C, a1, s1, h⟩ := vpstDemo_solved 6
  obtain ⟨C', a2, s2, h'⟩ := vpstDemo_solved 7
  refine ⟨C, C', a1, a2, s1, s2, h, h', ?_⟩
  refine C40_deflection_not_prescribed stdNum .list 30 7 1000 500 a1 a2 (vpstDemo 6) s1 s2 C C'
    ((demo_bedOk "vpst-" true).stage _ _ _ _ _ _ _ _) ((demo_shear stdEig "vpst-" true).stage _ _ _ _ _ _ _ _)
    ((demo_ready stdEig "vpst-" true).fresh.eigFresh.stage _ _ _ _ _ _ _ _) rfl rfl (by norm_num) ?_ (show (7 : ℝ) ≠ 6 by norm_num) h h'
  show (demo stdEig "vpst-" true).kA55 < 500
  rw [(demo_fields stdEig "vpst-" true).2.2.2.2.2.1]
  norm_num

example := C40_violated

/-! ## C38 -/

example : ∃ s, layeredInit stdEig "pst-" (.rows demoPlies) true = .ok s ∧ Ready stdEig s := by
  obtain ⟨s, h1, h2, -⟩ := C38_layered_init_partial stdEig "pst-" (.rows demoPlies) true demoPlies_valid (by simp [IsArray])
  exact ⟨s, h1, h2⟩

example : layeredInit stdEig "pst-" (.ndarray demoPlies) true = .error .valueError :=
  C38_array_violated stdEig "pst-" demoPlies true demoPlies_valid

/-- A saw test of 2 m on the slab `comp`, without touchdown. -/
example : ∃ g s' C, calcSegments midNum [] [] [] [] 2000 500 0 38 (1 / 2) 1000 (demo stdEig "pst-" false) = (.ok g, s') ∧
    assembleAndSolve midNum .list 38 ⟨g.li, g.mi, g.ki⟩ s' = (.ok (C, ⟨g.li, g.mi, g.ki⟩), s') := by
  obtain ⟨s, h1, H⟩ := C38_layered_workflow_partial midNum stdEig_ok midNum_runs.inside "pst-" (by simp) (.str "comp") ⟨"comp", by decide, by decide⟩
    (by simp [IsArray])
  rw [show layeredInit midNum.eig "pst-" (.str "comp") false = .ok (demo stdEig "pst-" false) from demo_init _ _ _] at h1
  injection h1 with h1
  subst h1
  obtain ⟨g, s', C, e1, e2, -⟩ := H (demo_disc _ _) (demo_shear _ _ _) 2000 500 0 38 (1 / 2) 1000 .list (by norm_num) (by norm_num)
  exact ⟨g, s', C, e1, e2⟩

example : inverseInit stdEig "pst-" .none 6 4.6 0.25 = .error .indexError := C38_inverse_default_violated _ _ _ _ _

/-- An object with fitted parameters has no segments and solves no open system. -/
example : ∃ s, inverseInit stdEig "pst-" (.rows demoPlies) 6 4.6 0.25 = .ok s ∧
    calcSegments stdNum [] [] [] [] 1500 500 0 38 (1 / 2) 1000 s = (.error .attributeError, s) ∧
    ∀ out s', assembleAndSolve stdNum .list 38 (pstLists 200) s ≠ (.ok out, s') := by
  obtain ⟨s, h1, h2, h3, h4⟩ := C38_inverse_init_partial stdEig "pst-" (.rows demoPlies) 6 4.6 0.25 (by norm_num)
    (by norm_num) demoPlies_valid (by simp)
  exact ⟨s, h1, C38_inverse_segments_violated stdNum _ _ _ _ _ s h1 _ _ _ _ _ _ _ _ _ _,
    fun out s' => C38_inverse_pst_violated stdNum s h2.fresh.eigFresh h4 (.inl h3) _ (by rw [pstLists_full]; right; rfl) _ _ out s'⟩

/-! ## C13, C85 -/

example : BedOk (demo stdEig "skier" false) :=
  C13_discriminant stdEig _ (demo_ready _ _ _).stiff (demo_ready _ _ _).fresh.eigFresh (stdEig_ok _) (demo_disc _ _)

/-- The slab `comp` on its weak layer. -/
example (x l : ℝ) (Z : Vec6) : ∃! C : Vec6, (zh (demo stdEig "skier" false) x l true).mulVec C = Z := by
  refine C85_complete_partial stdEig stdEig_ok _ (demo_ready _ _ _) ?_ x l Z
  obtain ⟨h1, h2, h3, h4, h5, h6, h7, h8, -⟩ := demo_fields stdEig "skier" false
  simp only [h1, h2, h3, h4, h5, h6, h7, h8]
  norm_num

example := C85_almost_all stdEig stdEig_ok _ (demo_ready stdEig "skier" false) 30 0.25 (by norm_num) (by norm_num) (by norm_num)
example := C85_soft stdEig stdEig_ok _ (demo_ready stdEig "skier" false) 30 0.25 (by norm_num) (by norm_num) (by norm_num)
example := C85_unsolved_violated stdNum stdEig_ok _ (demo_ready stdEig "skier" false) 30 0.25 (by norm_num) (by norm_num) (by norm_num)
example := C85_any_slab stdNum stdEig_ok demoPlies demoPlies_valid 30 (by norm_num)

/-- Half a metre of 917 kg/m³ on a weak layer of 30 mm. -/
example (phi : ℝ) (env : Env) : SiteOk midNum ⟨[⟨917, 500⟩], phi, 0.25, 30, env⟩ :=
  C85_one_layer midNum stdEig_ok _ _ _ _ _ (by norm_num) (by norm_num) (by norm_num) (by norm_num) (by norm_num) (by
    have : bergfeld 917 917 6.5 4.4 = 6500 := by
      unfold bergfeld
      rw [div_self (by norm_num), Real.one_rpow]
      norm_num
    rw [this]
    norm_num)

end Weac
