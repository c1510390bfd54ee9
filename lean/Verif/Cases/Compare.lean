import Verif.Props.Cases
import Verif.Props.Loads
import Verif.Props.MirrorOutput
import Verif.Props.Release
import Verif.Props.Residual
import Verif.Props.Sag
import Verif.Props.Sampling
import Verif.Props.Symmetry
import Verif.Props.Tolerance
import Verif.Props.Weights

/-!
# Concrete cases for comparisons between solutions

C20, C21, C31, C71–C74, C80, C81, C83, applied to the slab `comp` (240 kg/m³,
200 mm).
-/

namespace Weac
open Spec

/-- The skier's slab is solved for every choice of the three weights. -/
theorem skierDemo_weights (phi : ℝ) (mi : List ℝ) (hm : mi.length = 3) :
    ∃ C, assembleAndSolve stdNum .list phi ⟨skierLists.li, mi, skierLists.ki⟩ skierDemo
      = (.ok (C, ⟨skierLists.li, mi, skierLists.ki⟩), skierDemo) :=
  loads_solved (demo_bedOk _ _) (demo_shear _ _ _) skierDemo_sound
    (.inr (.inr (.inl skierDemo_isSkier))) (fun h => absurd h skierDemo_not_pst) rfl (by simp [skierLists])
    (fun _ => by simp [skierLists])
    ⟨by simp [skierLists], 0, by simp [skierLists], by simp [skierLists], by simp [skierLists, nth]⟩ .list phi skierDemo.p
    skierDemo.tc mi (by simpa [skierLists] using hm)

theorem skierDemo_not_aux : ¬ IsAux skierDemo := by
  rcases skierDemo_isSkier with h | h <;> rintro (h' | h') <;> rw [h] at h' <;> exact absurd h' (by decide)

theorem skierDemo_g : skierDemo.g = 9810 := (demo_fields stdEig "skiers" false).2.2.2.2.2.2.2.2.2.2.2.1

theorem skierDemo_lski : skierDemo.lski = 1000 := (demo_fields stdEig "skiers" false).2.2.2.2.2.2.2.2.2.2.2.2.1

/-! ## C20, C72 -/

/-- The skier at midspan and their mirror image: equal deflections and normal
stresses, opposite rotations and shear stresses, at mirrored positions. -/
example : ∃ C C', assembleAndSolve stdNum .list 38 skierLists skierDemo = (.ok (C, skierLists), skierDemo) ∧
    assembleAndSolve stdNum .list (-38) skierLists.mirror skierDemo.mirror = (.ok (C', skierLists.mirror), skierDemo.mirror) ∧
    ∀ i < skierLists.li.length, ∀ x,
      zsol skierDemo.mirror x (C'.getD i 0) (nth skierLists.mirror.li i) (-38) (skierLists.mirror.ki.getD i false)
        = flip (zsol skierDemo (nth skierLists.li (skierLists.li.length - 1 - i) - x) (C.getD (skierLists.li.length - 1 - i) 0)
            (nth skierLists.li (skierLists.li.length - 1 - i)) 38 (skierLists.ki.getD (skierLists.li.length - 1 - i) false)) := by
  obtain ⟨C, hC, -⟩ := skierDemo_solved 38
  obtain ⟨C', hC'⟩ := skierDemo_mirror 38
  have hf : EigFresh stdNum.eig skierDemo := (demo_ready _ _ _).fresh.eigFresh
  exact ⟨C, C', hC, hC', C20_mirror stdNum .list .list 38 skierLists _ _ skierDemo _ _ C C' (demo_bedOk _ _) (demo_shear _ _ _) hf
    skierDemo_noFace (.inr (.inr skierDemo_isSkier)) (fun h => absurd h skierDemo_not_pst) skierLists_supported hC hC'⟩

/-- In particular below the skier, from the second segment. -/
example : ∃ C C', assembleAndSolve stdNum .list 38 skierLists skierDemo = (.ok (C, skierLists), skierDemo) ∧
    assembleAndSolve stdNum .list (-38) skierLists.mirror skierDemo.mirror = (.ok (C', skierLists.mirror), skierDemo.mirror) ∧
    ∀ x, fsig skierDemo.mirror (zsol skierDemo.mirror x (C'.getD 1 0) (nth skierLists.mirror.li 1) (-38) (skierLists.mirror.ki.getD 1 false))
      = fsig skierDemo (zsol skierDemo (nth skierLists.li 2 - x) (C.getD 2 0) (nth skierLists.li 2) 38 (skierLists.ki.getD 2 false)) := by
  obtain ⟨C, hC, -⟩ := skierDemo_solved 38
  obtain ⟨C', hC'⟩ := skierDemo_mirror 38
  have hf : EigFresh stdNum.eig skierDemo := (demo_ready _ _ _).fresh.eigFresh
  refine ⟨C, C', hC, hC', fun x => ?_⟩
  have := C20_mirror_stresses stdNum .list .list 38 skierLists _ _ skierDemo _ _ C C' (demo_bedOk _ _) (demo_shear _ _ _) hf
    skierDemo_noFace (.inr (.inr skierDemo_isSkier)) (fun h => absurd h skierDemo_not_pst) skierLists_supported hC hC' 1
    (by simp [skierLists]) x
  exact this.2.2.2.1

/-- The returned shear stress under the skier differs from the mirrored one by
the jump that the point load causes. -/
example : ∃ C C', assembleAndSolve stdNum .list 38 skierLists skierDemo = (.ok (C, skierLists), skierDemo) ∧
    assembleAndSolve stdNum .list (-38) skierLists.mirror skierDemo.mirror = (.ok (C', skierLists.mirror), skierDemo.mirror) ∧
    ∀ pts pts', rasterize skierDemo 38 100 (segsOf C skierLists) = .ok pts →
      rasterize skierDemo.mirror (-38) 100 (segsOf C' skierLists.mirror) = .ok pts' → ∀ p ∈ pts, ∀ q ∈ pts',
      p.x = 2150 → q.x = 2150 → ftau skierDemo.mirror q.z = -ftau skierDemo p.z
        + skierDemo.kt * skierDemo.t * (getSkierLoad skierDemo 80 38).1 / (2 * skierDemo.kA55) := by
  obtain ⟨C, hC, -⟩ := skierDemo_solved 38
  obtain ⟨C', hC'⟩ := skierDemo_mirror 38
  have hf : EigFresh stdNum.eig skierDemo := (demo_ready _ _ _).fresh.eigFresh
  refine ⟨C, C', hC, hC', fun pts pts' hp hp' p h q h' hx hx' => ?_⟩
  have := C72_under_skier stdNum .list .list 38 skierLists _ _ skierDemo _ _ C C' (demo_bedOk _ _) (demo_shear _ _ _) hf
    skierDemo_noFace (.inr (.inr skierDemo_isSkier)) (fun h => absurd h skierDemo_not_pst) skierLists_supported hC hC' 100
    (by norm_num) pts pts' hp hp' 1 (by simp [skierLists]) (by simp [skierLists, nth]) (by simp [skierLists, nth]) p q h h'
    (by rw [hx]; norm_num [startOf, skierLists]) (by rw [hx, hx']; norm_num [skierLists])
  simpa [skierLists, nth] using this

/-! ## C21 -/

/-- The bedded part of a saw test, entered as one segment of 1 m or as 0.4 m and
0.6 m: the same state. -/
example (mode : Mode) (hm : mode ≠ .unset) : ∃ C C',
    assembleAndSolve stdNum .list 30 (pstLists 200) (pstDemo mode 200) = (.ok (C, pstLists 200), pstDemo mode 200) ∧
    assembleAndSolve stdNum .list 30 ⟨[400, 600, 200], [0, 0], [true, true, false]⟩ (pstDemo mode 200)
      = (.ok (C', ⟨[400, 600, 200], [0, 0], [true, true, false]⟩), pstDemo mode 200) ∧
    ∀ x, zsol (pstDemo mode 200) x (C'.getD 1 0) 600 30 true = zsol (pstDemo mode 200) (x + 400) (C.getD 0 0) 1000 30 true := by
  obtain ⟨C, hC, -⟩ := pstDemo_solved mode hm .list 30
  have hfull : full ⟨[400, 600, 200], [0, 0], [true, true, false]⟩ = ⟨[400, 600, 200], [0, 0], [true, true, false]⟩ := by
    unfold full; rw [if_neg (by simp)]
  obtain ⟨C', hC', -⟩ := C18_unique_solution stdNum .list 30 ⟨[400, 600, 200], [0, 0], [true, true, false]⟩ (pstDemo mode 200)
    (pstDemo_bedOk _ _) (pstDemo_shear _ _) (pstDemo_fresh _ _)
    ⟨by simp, rfl, rfl, fun h => absurd (show finiteSystem "pst-" by decide) h⟩ (.inl rfl) (.inl (pstDemo_isPst _ _))
    (fun _ _ => hm) (fun _ _ _ => pstDemo_rest _) ⟨by simp, 0, by simp, by simp, by simp [nth]⟩
  rw [hfull] at hC'
  have hB : before [] [200] [] [0] [] [false] (400 + 600) true = pstLists 200 := by simp [before, pstLists]; norm_num
  refine ⟨C, C', hC, hC', fun x => ?_⟩
  have := C21_splitting stdNum .list .list 30 [] [200] [] [0] [] [false] 400 600 true (pstDemo mode 200) _ _ C C' _ _ (pstDemo_bedOk _ _)
    (pstDemo_shear _ _) (pstDemo_fresh _ _) (pstDemo_noFace _ _) rfl rfl (by norm_num) (by norm_num)
    (by rw [hB]; exact pstLists_supported 200 (by norm_num)) (by rw [hB]; exact hC) hC' 1 (by simp [after]) x
  rw [hB] at this
  simpa [after, offset, origin, nth, pstLists] using this

/-! ## C71 -/

/-- Weights that differ by at most `δ`, on slabs of 1 m and more either side. -/
example : ∃ K, 0 < K ∧ ∀ δ l, 1000 ≤ l → ∀ mi mi' : List ℝ, (∀ i, |nth mi' i - nth mi i| ≤ δ) → ∀ C C',
    assembleAndSolve stdNum .list 38 ⟨[l, l], mi, [true, true]⟩ skierDemo = (.ok (C, ⟨[l, l], mi, [true, true]⟩), skierDemo) →
    assembleAndSolve stdNum .list 38 ⟨[l, l], mi', [true, true]⟩ skierDemo = (.ok (C', ⟨[l, l], mi', [true, true]⟩), skierDemo) →
    |zsol skierDemo l (C'.getD 0 0) l 38 true 2 - zsol skierDemo l (C.getD 0 0) l 38 true 2| ≤ K * (1e-3 * δ * skierDemo.g / skierDemo.lski) := by
  obtain ⟨K, hK, h⟩ := C71_weights stdNum skierDemo (demo_bedOk _ _) (demo_shear _ _ _) (demo_ready _ _ _).fresh.eigFresh skierDemo_noFace
    (by rw [skierDemo_g]; norm_num) (by rw [skierDemo_lski]; norm_num)
    (by rw [show skierDemo.h = 200 from (demo_fields stdEig "skiers" false).2.2.2.2.2.2.1]; norm_num) 2 150 (by norm_num : (0 : ℝ) < 1000)
  refine ⟨K, hK, fun δ l hl mi mi' hm C C' r r' => ?_⟩
  have := h .list .list 38 δ [l, l] mi mi' [true, true] _ _ C C' r r' rfl ⟨by
    intro i hi; interval_cases i <;> simp [nth] <;> linarith, ⟨0, by simp, rfl, hl⟩, by
    intro i hi; interval_cases i <;> simp [nth] <;> exact .inl hl⟩ (fun i _ => hm i) 0 (by norm_num) l
    ⟨by linarith, by simp [nth]⟩ 2
  simpa [nth] using this

example : ∃ K, 0 < K ∧ ∀ (ε : ℝ) (C C' : ℕ → Vec6), Meets (pstDemo .C 200) 30 0 (pstLists 200) C →
    NearlyMeets ε (pstDemo .C 200) 30 0 (pstLists 200) C' →
    |stateAt (pstDemo .C 200) 30 (pstLists 200).li (pstLists 200).ki C' 1 200 2
      - stateAt (pstDemo .C 200) 30 (pstLists 200).li (pstLists 200).ki C 1 200 2| ≤ K * ε := by
  obtain ⟨K, hK, h⟩ := C71_nearly (pstDemo .C 200) (pstDemo_bedOk _ _) (pstDemo_shear _ _) 2 200 (by norm_num : (0 : ℝ) < 1000)
  exact ⟨K, hK, fun ε C C' m m' => h (pstDemo .C 200) 30 0 ε (pstLists 200) C C' rfl (pstDemo_bedOk _ _) le_rfl rfl ⟨by
      intro i hi; interval_cases i <;> simp [nth, pstLists], ⟨0, by simp, rfl, by simp [nth, pstLists]⟩, by
      intro i hi; interval_cases i <;> simp [nth, pstLists]⟩ m m' 1 (by norm_num) 200 (by simp [nth, pstLists]) 2⟩

/-! ## C73 -/

/-- A saw test without and with 2 kPa on it, and the mean of the two. -/
theorem pstDemo_combined : ∃ (C : Fin 2 → List Vec6) (C0 : List Vec6),
    Combined stdNum (pstDemo .C 200) 38 (pstLists 200).li (pstLists 200).ki ![1 / 2, 1 / 2] ![0, 0.002] ![6, 6]
      (fun _ => [0]) [0] C C0 := by
  have run := fun p tc => loads_solved (pstDemo_bedOk .C 200) (pstDemo_shear _ _) (pstDemo_sound .C (pstLists 200).li (pstLists 200).ki)
    (.inl (pstDemo_isPst _ _)) (fun _ _ => by show Mode.C ≠ Mode.unset; decide) rfl (by simp [pstLists])
    (fun h => absurd (show finiteSystem "pst-" by decide) h)
    ⟨by simp [pstLists], 0, by simp [pstLists], by simp [pstLists], by simp [pstLists, nth]⟩ .list 38 p tc [0] rfl
  choose C r using run
  refine ⟨fun j => C ((![0, 0.002] : Fin 2 → ℝ) j) ((![6, 6] : Fin 2 → ℝ) j), C _ _, by simp; norm_num, fun i => ?_, fun j => ⟨_, _, r _ _⟩,
    ⟨_, _, r _ _⟩⟩
  simp; ring

example : ∃ (C : Fin 2 → List Vec6) (C0 : List Vec6), ∀ x,
    let s0 := loaded (pstDemo .C 200) 0.001 6
    fM s0 (zsol s0 x (C0.getD 0 0) 1000 38 true)
      = 1 / 2 * fM (loaded (pstDemo .C 200) 0 6) (zsol (loaded (pstDemo .C 200) 0 6) x ((C 0).getD 0 0) 1000 38 true)
        + 1 / 2 * fM (loaded (pstDemo .C 200) 0.002 6) (zsol (loaded (pstDemo .C 200) 0.002 6) x ((C 1).getD 0 0) 1000 38 true) := by
  obtain ⟨C, C0, h⟩ := pstDemo_combined
  refine ⟨C, C0, fun x => ?_⟩
  have := (C73_stresses (pstDemo_sound .C _ _) h 0 (by simp [pstLists]) x).2.2.2.2.2.2.1
  simp only [Fin.sum_univ_two, Matrix.cons_val_zero, Matrix.cons_val_one, nth, pstLists] at this
  norm_num at this ⊢
  exact this

example : ∃ (C : Fin 2 → List Vec6) (C0 : List Vec6), Combined stdNum (pstDemo .C 200) 38 (pstLists 200).li (pstLists 200).ki
      ![1 / 2, 1 / 2] ![0, 0.002] ![6, 6] (fun _ => [0]) [0] C C0 ∧ ∀ n pts0,
    rasterize (loaded (pstDemo .C 200) (∑ j, ![1 / 2, 1 / 2] j * ![0, 0.002] j) (∑ j, ![1 / 2, 1 / 2] j * ![6, 6] j)) 38 n
      (segsOf C0 ⟨(pstLists 200).li, [0], (pstLists 200).ki⟩) = .ok pts0 → ∃ pts : Fin 2 → List GridPt,
      ∀ m < pts0.length, ∀ q, (pts0.map fun g => g.z q).getD m 0
        = ∑ j, ![1 / 2, 1 / 2] j * ((pts j).map fun g => g.z q).getD m 0 := by
  obtain ⟨C, C0, h⟩ := pstDemo_combined
  refine ⟨C, C0, h, fun n pts0 hp => ?_⟩
  obtain ⟨pts, -, -, h3⟩ := C73_arrays (pstDemo_sound .C _ _) h (by simp [pstLists]) n pts0 hp
  exact ⟨pts, h3⟩

/-- A skier of 160 kg moves the slab by twice as much as one of 80 kg. -/
example : ∃ C C' C0 : List Vec6, ∀ x, zsol skierDemo x (C'.getD 1 0) 150 38 false - zsol skierDemo x (C0.getD 1 0) 150 38 false
    = (2 : ℝ) • (zsol skierDemo x (C.getD 1 0) 150 38 false - zsol skierDemo x (C0.getD 1 0) 150 38 false) := by
  obtain ⟨C, r⟩ := skierDemo_weights 38 [0, 80, 0] rfl
  obtain ⟨C', r'⟩ := skierDemo_weights 38 [0, 160, 0] rfl
  obtain ⟨C0, r0⟩ := skierDemo_weights 38 [0, 0, 0] rfl
  have hp : loaded skierDemo 0 skierDemo.tc = skierDemo := by
    have : skierDemo.p = 0 := (demo_fields stdEig "skiers" false).2.2.2.2.2.2.2.2.2.2.1
    unfold loaded
    rw [← this]
  refine ⟨C, C', C0, fun x => ?_⟩
  have := C73_proportional skierDemo_sound 2 0 [0, 80, 0] [0, 160, 0] [0, 0, 0]
    (fun i => by rcases i with _ | _ | _ | i <;> norm_num [nth]) (fun i => by rcases i with _ | _ | _ | i <;> simp [nth])
    .list .list .list _ _ _ C C' C0 (by rw [hp]; exact r) (by rw [mul_zero, hp]; exact r') (by rw [hp]; exact r0) 1 (by simp [skierLists]) x
  simp only [mul_zero, hp] at this
  exact this

/-! ## C74 -/

/-- Between the returned positions the normal stress leaves the range of the
returned values by at most a multiple of the spacing. -/
example : ∃ C K, assembleAndSolve stdNum .list 38 skierLists skierDemo = (.ok (C, skierLists), skierDemo) ∧
    ∀ n, 1 ≤ n → ∀ pts, rasterize skierDemo 38 n (segsOf C skierLists) = .ok pts → ∀ hi,
      (∀ p ∈ pts, p.xb ≠ none → 0 ≤ fsig skierDemo p.z ∧ fsig skierDemo p.z ≤ hi) → ∀ x, 0 ≤ x → x ≤ 2000 →
      fsig skierDemo (zsol skierDemo x (C.getD 0 0) 2000 38 true) ≤ hi + K * (4300 / n) := by
  obtain ⟨C, h, -⟩ := skierDemo_solved 38
  obtain ⟨K, -, h1⟩ := C74_extremes skierDemo 38 (segsOf C skierLists)
  obtain ⟨hv, -⟩ := solved_meets skierDemo_sound.fresh skierDemo_noFace h
  obtain ⟨-, -, n1, -⟩ := C16_solution_meets_all_conditions stdNum .list 38 _ _ _ _ C skierDemo_sound.fresh skierDemo_noFace h
  have hS : SegsOk C skierLists := ⟨hv.ki, by rw [n1], by simp [skierLists]⟩
  have hL : beamLength (segsOf C skierLists) = 4300 := by rw [hS.beam]; norm_num [skierLists]
  have hB : Begins 0 (segsOf C skierLists) 0 ⟨C.getD 0 0, true, 2000⟩ :=
    (hS.begins _ _).2 ⟨0, by simp [skierLists], rfl, rfl⟩
  refine ⟨C, K, h, fun n hn pts hp hi hh x hx hx' => ?_⟩
  have := (h1 n pts hn hp 0 _ hB (by norm_num) rfl x hx (by norm_num; exact hx') (fsig skierDemo) (by simp) 0 hi hh).2
  rw [hL] at this
  simpa using this

/-! ## C80, C81 -/

/-- Two weights changed in opposite directions. -/
example : ∃ C C' : List Vec6,
    0 < (100 - 80) * (sinkAt skierDemo 38 skierLists.li skierLists.ki C' 1 - sinkAt skierDemo 38 skierLists.li skierLists.ki C 1)
      + (20 - 50) * (sinkAt skierDemo 38 skierLists.li skierLists.ki C' 2 - sinkAt skierDemo 38 skierLists.li skierLists.ki C 2) := by
  obtain ⟨C, r⟩ := skierDemo_weights 38 [0, 80, 50] rfl
  obtain ⟨C', r'⟩ := skierDemo_weights 38 [0, 100, 20] rfl
  refine ⟨C, C', ?_⟩
  have := C80_weights_strict (s := skierDemo) (demo_bedOk _ _) (demo_shear _ _ _) skierDemo_sound.fresh skierDemo_sound.face skierDemo_not_aux
    (by rw [skierDemo_g]; norm_num) (by rw [skierDemo_lski]; norm_num) (by simp [skierLists]) r r' 1 (by simp [skierLists])
    (by norm_num [nth])
  rw [show skierLists.li.length - 1 = 3 by simp [skierLists]] at this
  simpa [Finset.sum_range_succ, nth] using this

example (phi : ℝ) : ∃ C C' : List Vec6, 0 ≤ ∑ i ∈ Finset.range (skierLists.li.length - 1),
    (nth [10, 100, 20] i - nth [0, 80, 50] i) * (sinkAt skierDemo phi skierLists.li skierLists.ki C' i
      - sinkAt skierDemo phi skierLists.li skierLists.ki C i) := by
  obtain ⟨C, r⟩ := skierDemo_weights phi [0, 80, 50] rfl
  obtain ⟨C', r'⟩ := skierDemo_weights phi [10, 100, 20] rfl
  exact ⟨C, C', C80_weights_monotone (demo_bedOk _ _) (demo_shear _ _ _) skierDemo_sound.fresh skierDemo_sound.face skierDemo_not_aux
    (by rw [skierDemo_g]; norm_num) (by rw [skierDemo_lski]; norm_num) (by simp [skierLists]) r r'⟩

/-- A skier of 80 kg above a crack of 0.3 m on level ground. -/
example : ∃ C, 0 < levelLoad skierDemo * sagOverCracks skierDemo ⟨skierLists.li, [0, 80, 0], skierLists.ki⟩ C
    + sagBelowWeights skierDemo ⟨skierLists.li, [0, 80, 0], skierLists.ki⟩ C := by
  obtain ⟨C, r⟩ := skierDemo_weights 0 [0, 80, 0] rfl
  refine ⟨C, C81_sag_strict (demo_bedOk _ _) (demo_shear _ _ _) skierDemo_sound.fresh
    ⟨.inr (.inr skierDemo_isSkier), fun h => absurd h skierDemo_not_pst, skierDemo_sound.face⟩ r (by simp [skierLists]) ?_
    1 (by simp [skierLists]) (by norm_num [skierLists, nth]) (by simp [skierLists])⟩
  have := demo_load "skiers" false 0
  refine ne_of_gt (show 0 < (skierDemo.loads 0).qn + (skierDemo.loads 0).pn from lt_of_lt_of_eq (by norm_num [deg2rad]) this.symm)

/-- On support throughout, the sag under the skier alone. -/
example : ∃ C, 0 ≤ levelLoad skierDemo * sagOverCracks skierDemo ⟨skierLists.li, [0, 80, 0], skierLists.ki⟩ C
    + sagBelowWeights skierDemo ⟨skierLists.li, [0, 80, 0], skierLists.ki⟩ C :=
  let ⟨C, r⟩ := skierDemo_weights 0 [0, 80, 0] rfl
  ⟨C, C81_sag (demo_bedOk _ _) (demo_shear _ _ _) skierDemo_sound.fresh
    ⟨.inr (.inr skierDemo_isSkier), fun h => absurd h skierDemo_not_pst, skierDemo_sound.face⟩ r (by simp [skierLists])⟩

/-! ## C83, C31 -/

/-- A saw test before and after the cut grows by 0.1 m. -/
theorem cut_solved : ∃ C0 C1, assembleAndSolve stdNum .list 30 beforeCut (pstDemo .A 200) = (.ok (C0, beforeCut), pstDemo .A 200) ∧
    assembleAndSolve stdNum .list 30 afterCut (pstDemo .A 200) = (.ok (C1, afterCut), pstDemo .A 200) := by
  have hf0 : full beforeCut = beforeCut := by unfold full; rw [if_neg (by simp [beforeCut])]
  have hf1 : full afterCut = afterCut := by unfold full; rw [if_neg (by simp [afterCut])]
  obtain ⟨C0, h0, -⟩ := C18_unique_solution stdNum .list 30 beforeCut (pstDemo .A 200) (pstDemo_bedOk _ _)
    (pstDemo_shear _ _) (pstDemo_fresh _ _) ⟨by simp [beforeCut], rfl, rfl, fun h => absurd (show finiteSystem "pst-" by decide) h⟩
    (.inl rfl) (.inl (pstDemo_isPst _ _)) (fun _ _ => by simp [pstDemo, Self.stage]) (fun _ _ _ => pstDemo_rest _)
    ⟨by simp [beforeCut], 0, by simp [beforeCut], by simp [beforeCut], by simp [beforeCut, nth]⟩
  obtain ⟨C1, h1, -⟩ := C18_unique_solution stdNum .list 30 afterCut (pstDemo .A 200) (pstDemo_bedOk _ _)
    (pstDemo_shear _ _) (pstDemo_fresh _ _) ⟨by simp [afterCut], rfl, rfl, fun h => absurd (show finiteSystem "pst-" by decide) h⟩
    (.inl rfl) (.inl (pstDemo_isPst _ _)) (fun _ _ => by simp [pstDemo, Self.stage]) (fun _ _ _ => pstDemo_rest _)
    ⟨by simp [afterCut], 0, by simp [afterCut], by simp [afterCut], by simp [afterCut, nth]⟩
  rw [hf0] at h0
  rw [hf1] at h1
  exact ⟨C0, C1, h0, h1⟩

theorem cut_grows (i : ℕ) (h : afterCut.ki.getD i false = true) : beforeCut.ki.getD i false = true := by
  match i, h with
  | 0, _ => rfl
  | i + 1, h => exfalso; revert h; cases i with
    | zero => decide
    | succ i => cases i with
      | zero => decide
      | succ i => simp [afterCut]

theorem pstDemo_dead (a : SegLists) : DeadLoads (pstDemo .A 200) a :=
  ⟨.inl (pstDemo_isPst _ _), fun h => ⟨h, fun _ => .inr rfl⟩, pstDemo_noFace _ _⟩

theorem pstDemo_uncoupled (phi : ℝ) : (pstDemo .A 200).B11 * ((pstDemo .A 200).loads phi).pt = 0 := by
  obtain ⟨-, -, -, f4, -⟩ := demo_fields stdEig "pst-" true
  rw [show (pstDemo .A 200).B11 = 0 from f4, zero_mul]

/-- The energy stored in the springs that break is released at least. -/
example : ∃ C0 C1, brokenEnergy (pstDemo .A 200) 30 ⟨C0, C1, 100, false, true⟩
    ≤ normalWork (pstDemo .A 200) 30 ⟨C0, C1, 100, false, true⟩ + shearWork (pstDemo .A 200) 30 ⟨C0, C1, 100, false, true⟩ := by
  obtain ⟨C0, C1, h0, h1⟩ := cut_solved
  have := C83_released (pstDemo_bedOk _ _) (pstDemo_shear _ _) (pstDemo_fresh _ _)
    (pstDemo_dead _) (pstDemo_dead _) (pstDemo_uncoupled 30) h0 h1 rfl rfl cut_grows (by simp [beforeCut])
    [⟨C0.getD 1 0, C1.getD 1 0, 100, false, true⟩] (by simp [advance, beforeCut, afterCut, List.range_succ, nth])
  exact ⟨C0.getD 1 0, C1.getD 1 0, by simpa using this⟩

example (quad : Quad) (e : ℝ) (hq : QuadOk quad e) : ∃ (segs : List IncSeg) (g : IncSeg) (I II : ℝ), g ∈ segs ∧ g.l = 100 ∧
    ginc quad (pstDemo .A 200) 30 segs = some (I + II, I, II) ∧
    brokenEnergy (pstDemo .A 200) 30 g / 200 - e / 100 ≤ I - II := by
  obtain ⟨C0, C1, h0, h1⟩ := cut_solved
  have hc : [⟨C0.getD 1 0, C1.getD 1 0, 100, false, true⟩] = (advance beforeCut afterCut.ki C0 C1).filter fun g => g.k0 && !g.ki := by
    simp [advance, beforeCut, afterCut, List.range_succ, nth]
  obtain ⟨I, II, r1, r2⟩ := C83_ginc quad e hq (pstDemo_bedOk _ _) (pstDemo_shear _ _) (pstDemo_fresh _ _)
    (pstDemo_dead _) (pstDemo_dead _) (pstDemo_uncoupled 30) h0 h1 rfl rfl cut_grows (by simp [beforeCut])
    [⟨C0.getD 1 0, C1.getD 1 0, 100, false, true⟩] hc 100 (by simp) (by norm_num)
  refine ⟨_, ⟨C0.getD 1 0, C1.getD 1 0, 100, false, true⟩, I, II, ?_, rfl, r1, ?_⟩
  · exact (List.mem_filter.1 (hc ▸ List.mem_singleton_self _)).1
  · norm_num at r2 ⊢
    exact r2

/-- Two parts of a crack advance, of 0.1 m and 0.2 m, next to an intact part. -/
example (quad : Quad) (hq : QuadTol quad tolAsked) (C0 C1 : Vec6) : ∃ I II,
    ginc quad (pstDemo .A 200) 30 [⟨C0, C1, 100, false, true⟩, ⟨C0, C1, 500, true, true⟩, ⟨C0, C1, 200, false, true⟩]
      = some (I + II, I, II) ∧
    |I - (normalWork (pstDemo .A 200) 30 ⟨C0, C1, 100, false, true⟩ + normalWork (pstDemo .A 200) 30 ⟨C0, C1, 200, false, true⟩) / 600|
      ≤ (max tolAsked (tolAsked * |normalWork (pstDemo .A 200) 30 ⟨C0, C1, 100, false, true⟩|)
        + max tolAsked (tolAsked * |normalWork (pstDemo .A 200) 30 ⟨C0, C1, 200, false, true⟩|)) / 600 := by
  obtain ⟨I, II, h1, h2, -⟩ := C31_tolerance_partial quad tolAsked hq (pstDemo .A 200) (by rw [show (pstDemo .A 200).t = 30 from (demo_fields stdEig "pst-" true).2.2.2.2.2.2.2.1]; norm_num) 30
    [⟨C0, C1, 100, false, true⟩, ⟨C0, C1, 500, true, true⟩, ⟨C0, C1, 200, false, true⟩]
    [⟨C0, C1, 100, false, true⟩, ⟨C0, C1, 200, false, true⟩] (by simp) 300 (by norm_num) (by norm_num)
  refine ⟨I, II, h1, ?_⟩
  norm_num at h2 ⊢
  exact h2

end Weac
