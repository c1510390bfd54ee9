import Verif.Props.Cases
import Verif.Props.Scale
import Verif.Props.SmallAdvance
import Verif.Props.Continuity

/-!
# Concrete cases for scale models and small crack advances

C55, C65, C70, applied to the slab `comp` (240 kg/m³, 200 mm).
-/

namespace Weac
open Spec Filter Topology

/-! ## C70 -/

theorem pstDemo_ready (mode : Mode) : Ready stdEig (pstDemo mode 200) := (demo_ready stdEig "pst-" true).stage _ _ _ _ _ _ _ _

theorem halfScale_rest (mode : Mode) : RestOk stdNum (halfScale.object stdEig (pstDemo mode 200)) := by
  refine (object_similar halfScale stdEig (pstDemo mode 200)).restOk (num := stdNum) (pstDemo_ready mode)
    (object_ready halfScale (pstDemo_ready mode)) ?_ ?_ (stdEig_ok _) (pstDemo_disc mode 200) ?_
  · show (0 : ℝ) < 1000; norm_num
  · show (200 : ℝ) < 500; norm_num
  · obtain ⟨-, h2, -, -, -, h6, -, h8, -⟩ := demo_fields stdEig "pst-" true
    show 1000 * (demo stdEig "pst-" true).kt * (demo stdEig "pst-" true).t ^ 2 < 16 * (demo stdEig "pst-" true).kA55
    rw [h2, h6, h8]; norm_num

theorem halfScale_bedOk (mode : Mode) : BedOk (halfScale.object stdEig (pstDemo mode 200)) :=
  (object_similar halfScale stdEig (pstDemo mode 200)).bedOk (pstDemo_ready mode) (object_ready halfScale (pstDemo_ready mode))
    (stdEig_ok _) (pstDemo_plain_disc mode)

theorem halfScale_solved (mode : Mode) (hm : mode ≠ .unset) (phi : ℝ) : ∃ C',
    assembleAndSolve stdNum .list phi (halfScale.lists (pstLists 200)) (halfScale.object stdEig (pstDemo mode 200))
        = (.ok (C', halfScale.lists (pstLists 200)), halfScale.object stdEig (pstDemo mode 200)) := by
  obtain ⟨C', hC'⟩ := C70_solvable (c := halfScale) stdNum .list phi (pstLists 200) (object_similar halfScale stdEig (pstDemo mode 200))
    (pstDemo_ready mode) (object_ready halfScale (pstDemo_ready mode)) (stdEig_ok _) (pstDemo_plain_disc mode)
    (pstDemo_shear mode 200) (pstLists_valid mode 200 200) (.inl rfl) (.inl (pstDemo_isPst mode 200)) (fun _ _ => hm)
    (fun _ _ _ => halfScale_rest mode) ((pstLists_supported 200 (by norm_num)).held _)
  rw [pstLists_full] at hC'
  exact ⟨C', hC'⟩

/-- Returned arrays and energy release rates of a saw test in stage C and of its
model at half the length. -/
example (phi : ℝ) : ∃ C C',
    assembleAndSolve stdNum .list phi (pstLists 200) (pstDemo .C 200) = (.ok (C, pstLists 200), pstDemo .C 200) ∧
    (∀ n, rasterize (halfScale.object stdEig (pstDemo .C 200)) phi n (segsOf C' (halfScale.lists (pstLists 200)))
      = (rasterize (pstDemo .C 200) phi n (segsOf C (pstLists 200))).map (List.map halfScale.pt)) ∧
    ∀ unit arr, gdif (halfScale.object stdEig (pstDemo .C 200)) phi (segsOf C' (halfScale.lists (pstLists 200))) unit arr
      = (gdif (pstDemo .C 200) phi (segsOf C (pstLists 200)) unit arr).map fun v =>
        (halfScale.energy * v.1, halfScale.energy * v.2.1, halfScale.energy * v.2.2) := by
  obtain ⟨C, hC, -⟩ := pstDemo_solved .C (by simp) .list phi
  obtain ⟨C', hC'⟩ := halfScale_solved .C (by simp) phi
  have hr := pstDemo_ready .C
  obtain ⟨h1, h2⟩ := C70_results_partial (c := halfScale) stdNum .list .list phi (pstLists 200) _ _ _ _ C C'
    (object_similar halfScale stdEig (pstDemo .C 200)) hr (object_ready halfScale hr)
    (pstDemo_bedOk .C 200) (halfScale_bedOk .C) (pstDemo_shear .C 200) (pstDemo_noFace .C 200) (.inl (pstDemo_isPst .C 200))
    (fun _ _ _ => ⟨pstDemo_rest .C, halfScale_rest .C⟩) ((pstLists_supported 200 (by norm_num)).held _) hC hC'
  exact ⟨C, C', hC, h1, h2⟩

/-- Stresses at the end of the cut. -/
example (phi : ℝ) : ∃ C C' : List Vec6,
    assembleAndSolve stdNum .list phi (pstLists 200) (pstDemo .C 200) = (.ok (C, pstLists 200), pstDemo .C 200) ∧
    fsig (halfScale.object stdEig (pstDemo .C 200)) (zsol (halfScale.object stdEig (pstDemo .C 200)) (halfScale.len * 1000)
        (C'.getD 0 0) (halfScale.len * nth (pstLists 200).li 0) phi true)
      = halfScale.stress * fsig (pstDemo .C 200) (zsol (pstDemo .C 200) 1000 (C.getD 0 0) (nth (pstLists 200).li 0) phi true) := by
  obtain ⟨C, hC, -⟩ := pstDemo_solved .C (by simp) .list phi
  obtain ⟨C', hC'⟩ := halfScale_solved .C (by simp) phi
  have hr := pstDemo_ready .C
  have := C70_stresses_partial (c := halfScale) stdNum .list .list phi (pstLists 200) _ _ _ _ C C'
    (object_similar halfScale stdEig (pstDemo .C 200)) hr (object_ready halfScale hr)
    (pstDemo_bedOk .C 200) (halfScale_bedOk .C) (pstDemo_shear .C 200) (pstDemo_noFace .C 200) (.inl (pstDemo_isPst .C 200))
    (fun _ _ _ => ⟨pstDemo_rest .C, halfScale_rest .C⟩) ((pstLists_supported 200 (by norm_num)).held _) hC hC' 0 (by simp [pstLists]) 1000
  exact ⟨C, C', hC, this.2.1⟩

/-- Field quantities, mesh and slab stresses, for any state. -/
example (z : Vec6) : fM (halfScale.object stdEig (pstDemo .C 200)) (halfScale.state z) = halfScale.moment * fM (pstDemo .C 200) z :=
  have hr := pstDemo_ready .C
  (C70_fields (s := pstDemo .C 200) ((object_similar halfScale stdEig (pstDemo .C 200)).beams hr (object_ready halfScale hr))
    hr.stiff.kn hr.stiff.kt hr.stiff.t z 0).2.2.2.2.2.2.2.1

example (dz : ℝ) : getZmesh (halfScale.object stdEig (pstDemo .C 200)) (halfScale.len * dz) = (getZmesh (pstDemo .C 200) dz).map halfScale.mesh :=
  have hr := pstDemo_ready .C
  C70_mesh (object_similar halfScale stdEig (pstDemo .C 200))
    ((object_similar halfScale stdEig (pstDemo .C 200)).beams hr (object_ready halfScale hr)).h dz

example (z : Vec6) (phi dz : ℝ) : fTxz (halfScale.object stdEig (pstDemo .C 200)) (halfScale.state z) phi (halfScale.len * dz) "kPa"
    = (fTxz (pstDemo .C 200) z phi dz "kPa").map (List.map (halfScale.stress * ·)) :=
  have hr := pstDemo_ready .C
  (C70_slab_stresses (object_similar halfScale stdEig (pstDemo .C 200))
    ((object_similar halfScale stdEig (pstDemo .C 200)).beams hr (object_ready halfScale hr)) hr.stiff (object_ready halfScale hr).stiff
    z phi dz "kPa").2.1

/-- The bedded part alone. -/
example (phi : ℝ) : ∃ C C', (∀ n, rasterize (halfScale.object stdEig (pstDemo .C 200)) phi n
      [⟨C', true, halfScale.len * 1000⟩] = (rasterize (pstDemo .C 200) phi n [⟨C, true, 1000⟩]).map (List.map halfScale.pt)) ∧
    gdif (halfScale.object stdEig (pstDemo .C 200)) phi [⟨C', true, halfScale.len * 1000⟩] "J/m^2" true
      = (gdif (pstDemo .C 200) phi [⟨C, true, 1000⟩] "J/m^2" true).map (fun v =>
        (halfScale.energy * v.1, halfScale.energy * v.2.1, halfScale.energy * v.2.2)) ∧
    ∀ quad, QuadOk quad 0 → ginc quad (halfScale.object stdEig (pstDemo .C 200)) phi [⟨C', C', halfScale.len * 1000, true, true⟩]
      = (ginc quad (pstDemo .C 200) phi [⟨C, C, 1000, true, true⟩]).map fun v =>
        (halfScale.energy * v.1, halfScale.energy * v.2.1, halfScale.energy * v.2.2) := by
  obtain ⟨C, hC, -⟩ := pstDemo_solved .C (by simp) .list phi
  obtain ⟨C', hC'⟩ := halfScale_solved .C (by simp) phi
  have hr := pstDemo_ready .C
  have hb := (object_similar halfScale stdEig (pstDemo .C 200)).beams hr (object_ready halfScale hr)
  have hz := fun x => C70_solution_partial (c := halfScale) stdNum .list .list phi (pstLists 200) _ _ _ _ C C'
    (object_similar halfScale stdEig (pstDemo .C 200)) hr (object_ready halfScale hr)
    (pstDemo_bedOk .C 200) (halfScale_bedOk .C) (pstDemo_shear .C 200) (pstDemo_noFace .C 200) (.inl (pstDemo_isPst .C 200))
    (fun _ _ _ => ⟨pstDemo_rest .C, halfScale_rest .C⟩) ((pstLists_supported 200 (by norm_num)).held _) hC hC' 0 (by simp [pstLists]) x
  have hs : List.Forall₂ (SegScaled halfScale (pstDemo .C 200) (halfScale.object stdEig (pstDemo .C 200)) phi)
      [⟨C.getD 0 0, true, 1000⟩] [⟨C'.getD 0 0, true, halfScale.len * 1000⟩] :=
    .cons ⟨rfl, rfl, by norm_num, hz⟩ .nil
  exact ⟨C.getD 0 0, C'.getD 0 0, fun n => C70_grid phi n hs, C70_gdif hb hr.stiff phi "J/m^2" true hs, fun quad hq =>
    C70_ginc hq hb hr.stiff phi (.cons ⟨rfl, rfl, rfl, hz, hz⟩ .nil)⟩

/-! ## C65 -/

/-- A crack of 0.3 m below a skier of 80 kg which grows by `d` at both ends. -/
theorem skierDemo_growing (b : Bool) (d : ℝ) : ∃ C, d ∈ Set.Icc (0 : ℝ) 500 → assembleAndSolve stdNum .list 30
    ⟨[2000 - d, d, 150, 150, d, 2000 - d], [0, 0, 80, 0, 0], [true, b, false, false, b, true]⟩ skierDemo
    = (.ok (C, ⟨[2000 - d, d, 150, 150, d, 2000 - d], [0, 0, 80, 0, 0], [true, b, false, false, b, true]⟩), skierDemo) := by
  by_cases hd : d ∈ Set.Icc (0 : ℝ) 500
  · have d0 := hd.1
    have d5 := hd.2
    obtain ⟨C, h1, -⟩ := C18_unique_solution stdNum .list 30
      ⟨[2000 - d, d, 150, 150, d, 2000 - d], [0, 0, 80, 0, 0], [true, b, false, false, b, true]⟩ skierDemo
      (demo_bedOk _ _) (demo_shear _ _ _) (demo_ready _ _ _).fresh.eigFresh ⟨by simp, rfl, rfl, fun _ => by simp⟩ (.inl rfl)
      (.inr (.inr (.inl skierDemo_isSkier))) (fun h => absurd h skierDemo_not_pst) (fun h => absurd h skierDemo_not_pst)
      ⟨by
        intro x hx
        simp only [List.mem_cons, List.not_mem_nil, or_false] at hx
        rcases hx with rfl | rfl | rfl | rfl | rfl | rfl <;> linarith, 0, by simp, by simp, by simp only [nth, List.getD_cons_zero]; linarith⟩
    exact ⟨C, fun _ => h1⟩
  · exact ⟨[], fun h => absurd h hd⟩

example (quad : Quad) (hq : QuadOk quad 0) : ∃ (C : List Vec6) (C0 C1 : ℝ → List Vec6) (I II : ℝ → ℝ) (GI GII : ℝ),
    assembleAndSolve stdNum .list 30 skierLists skierDemo = (.ok (C, skierLists), skierDemo) ∧
    gdif skierDemo 30 [⟨C.getD 0 0, true, 2000⟩, ⟨C.getD 1 0, false, 150⟩, ⟨C.getD 2 0, false, 150⟩, ⟨C.getD 3 0, true, 2000⟩]
      "kJ/m^2" true = .ok (GI + GII, GI, GII) ∧
    (∀ d ∈ Set.Ioc (0 : ℝ) 500, ginc quad skierDemo 30 (advance
      ⟨[2000 - d, d, 150, 150, d, 2000 - d], [0, 0, 80, 0, 0], [true, true, false, false, true, true]⟩
      [true, false, false, false, false, true] (C0 d) (C1 d)) = some (I d + II d, I d, II d)) ∧
    Tendsto I (𝓝[>] 0) (𝓝 GI) ∧ Tendsto II (𝓝[>] 0) (𝓝 (-GII)) := by
  obtain ⟨C, h, -⟩ := skierDemo_solved 30
  choose C0 h0 using skierDemo_growing true
  choose C1 h1 using skierDemo_growing false
  obtain ⟨I, II, GI, GII, g1, g2, g3, g4⟩ := C65_centre_partial stdNum quad hq .list .list .list skierDemo _ (demo_bedOk _ _)
    (demo_shear _ _ _) (demo_ready _ _ _).fresh.eigFresh skierDemo_isSkier 30 2000 150 150 2000 80 500 (by norm_num) (by norm_num)
    (by norm_num) (by norm_num) (by norm_num) C _ h C0 C1 h0 h1
  exact ⟨C, C0, C1, I, II, GI, GII, h, g1, g2, g3, g4⟩

/-- The same, seen as a chain of segments. -/
example (quad : Quad) (hq : QuadOk quad 0) : ∃ (C : List Vec6) (C0 C1 : ℝ → List Vec6) (I II : ℝ → ℝ),
    (∀ d ∈ Set.Ioc (0 : ℝ) 500, ginc quad skierDemo 30 (advance (aheadBoth [] [] [] [] [] [] 2000 150 150 2000 80 d)
        (grownBoth [] [] [] [] [] [] 2000 150 150 2000 80 d).ki (C0 d) (C1 d)) = some (I d + II d, I d, II d)) ∧
    Tendsto I (𝓝[>] 0) (𝓝 ((fGi skierDemo (zsol skierDemo 2000 (C.getD 0 0) 2000 30 true)
        + fGi skierDemo (zsol skierDemo 150 (C.getD 2 0) 150 30 false)) / 2)) := by
  obtain ⟨C, h, -⟩ := skierDemo_solved 30
  choose C0 h0 using skierDemo_growing true
  choose C1 h1 using skierDemo_growing false
  obtain ⟨I, II, g1, g2, -⟩ := C65_both_partial stdNum quad hq .list .list .list skierDemo _ (demo_bedOk _ _)
    (demo_shear _ _ _) (demo_ready _ _ _).fresh.eigFresh skierDemo_noFace (.inr (.inr (.inl skierDemo_isSkier)))
    (fun h => absurd h skierDemo_not_pst) (fun h => absurd h skierDemo_not_pst) 30 [] [] [] [] [] [] rfl rfl
    2000 150 150 2000 80 500 (by norm_num) (by norm_num) skierLists_supported C _ h C0 C1 h0 h1
  exact ⟨C, C0, C1, I, II, g1, g2⟩

/-- A crack of 0.3 m that grows by `d` to one side, with a skier of 80 kg 1 m away. -/
theorem skierDemo_growing_right (b : Bool) (d : ℝ) : ∃ C, d ∈ Set.Icc (0 : ℝ) 500 → assembleAndSolve stdNum .list 30
    ⟨[1000, 1000, 300, d, 2000 - d], [80, 0, 0, 0], [true, true, false, b, true]⟩ skierDemo
    = (.ok (C, ⟨[1000, 1000, 300, d, 2000 - d], [80, 0, 0, 0], [true, true, false, b, true]⟩), skierDemo) := by
  by_cases hd : d ∈ Set.Icc (0 : ℝ) 500
  · have d0 := hd.1
    have d5 := hd.2
    obtain ⟨C, h1, -⟩ := C18_unique_solution stdNum .list 30
      ⟨[1000, 1000, 300, d, 2000 - d], [80, 0, 0, 0], [true, true, false, b, true]⟩ skierDemo
      (demo_bedOk _ _) (demo_shear _ _ _) (demo_ready _ _ _).fresh.eigFresh ⟨by simp, rfl, rfl, fun _ => by simp⟩ (.inl rfl)
      (.inr (.inr (.inl skierDemo_isSkier))) (fun h => absurd h skierDemo_not_pst) (fun h => absurd h skierDemo_not_pst)
      ⟨by
        intro x hx
        simp only [List.mem_cons, List.not_mem_nil, or_false] at hx
        rcases hx with rfl | rfl | rfl | rfl | rfl <;> linarith, 0, by simp, by simp, by simp only [nth, List.getD_cons_zero]; linarith⟩
    exact ⟨C, fun _ => h1⟩
  · exact ⟨[], fun h => absurd h hd⟩

example (quad : Quad) (hq : QuadOk quad 0) : ∃ (C : List Vec6) (C0 C1 : ℝ → List Vec6) (I II : ℝ → ℝ),
    assembleAndSolve stdNum .list 30 ⟨[1000, 1000, 300, 2000], [80, 0, 0], [true, true, false, true]⟩ skierDemo
      = (.ok (C, ⟨[1000, 1000, 300, 2000], [80, 0, 0], [true, true, false, true]⟩), skierDemo) ∧
    (∀ d ∈ Set.Ioc (0 : ℝ) 500, ginc quad skierDemo 30 (advance
      ⟨[1000, 1000, 300, d, 2000 - d], [80, 0, 0, 0], [true, true, false, true, true]⟩
      [true, true, false, false, true] (C0 d) (C1 d)) = some (I d + II d, I d, II d)) ∧
    Tendsto I (𝓝[>] 0) (𝓝 (fGi skierDemo (zsol skierDemo 300 (C.getD 2 0) 300 30 false))) ∧
    Tendsto II (𝓝[>] 0) (𝓝 (-fGii skierDemo (zsol skierDemo 300 (C.getD 2 0) 300 30 false))) := by
  have hsup : Supported ⟨[1000, 1000, 300, 2000], [80, 0, 0], [true, true, false, true]⟩ :=
    ⟨by simp, 0, by simp, by simp, by simp [nth]⟩
  obtain ⟨C, h, -⟩ := C18_unique_solution stdNum .list 30
    ⟨[1000, 1000, 300, 2000], [80, 0, 0], [true, true, false, true]⟩ skierDemo
    (demo_bedOk _ _) (demo_shear _ _ _) (demo_ready _ _ _).fresh.eigFresh ⟨by simp, rfl, rfl, fun _ => by simp⟩ (.inl rfl)
    (.inr (.inr (.inl skierDemo_isSkier))) (fun h => absurd h skierDemo_not_pst) (fun h => absurd h skierDemo_not_pst) hsup
  choose C0 h0 using skierDemo_growing_right true
  choose C1 h1 using skierDemo_growing_right false
  obtain ⟨I, II, g1, g2, g3⟩ := C65_right_partial stdNum quad hq .list .list .list skierDemo _ (demo_bedOk _ _)
    (demo_shear _ _ _) (demo_ready _ _ _).fresh.eigFresh skierDemo_noFace 30 [1000, 1000] [] [80, 0] [] [true, true] [] rfl rfl
    2000 300 500 (by norm_num) (by norm_num) (by norm_num) hsup C _ h C0 C1 h0 h1
  exact ⟨C, C0, C1, I, II, h, g1, g2, g3⟩

end Weac
