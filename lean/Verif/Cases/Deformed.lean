import Verif.Props.PlotFields
import Verif.Props.PlotDeformed

/-!
# Concrete cases for the plots of deformed slabs (C57, C58)

The slab is `comp` (240 kg/m³, 200 mm); it is drawn at three points, the last of
which is not supported, or at two.
-/

namespace Weac
open Spec

/-- C57, C58: the deflection of a propagation saw test. -/
theorem draws_w (eig : EigSolver) (system : String) (window : Option ℝ) (xw : List (Option ℝ)) (hl : xw.length = 3) (hx : ∃ x, some x ∈ xw) :
    ∃ d, deformed (demo eig system false) [0, 100, 200] xw [deflection 0.1, deflection 0.2, deflection 0.4] 30 2 100 window 2 300 "w" true = .ok d :=
  C57_draws _ (demo_ready eig system false).slab _ _ _ 30 2 100 2 (by norm_num) window 300 true rfl hl (by simp) (by norm_num)
    ⟨_, List.mem_cons_self, by norm_num [deflection]⟩ hx

example (eig : EigSolver) : ∃ d, deformed (demo eig "pst-" false) [0, 100, 200] [some 0, some 100, none]
      [deflection 0.1, deflection 0.2, deflection 0.4] 30 2 100 none 2 300 "w" true = .ok d ∧ d.WeakComplete ∧
    (∃ top, d.levels.getLast? = some top ∧ 0 < top ∧ ∀ v, d.Holds v → |v| < 3 / 2 * top) ∧
    (∃ c, SymmetricLevels c 300 d.levels) ∧
    (∀ j, d.geom.Z0.val 0 j = 0) ∧ d.geom.ylim = (-2, d.geom.baseline) ∧
    d.slab.val 0 1 = 1000 * deflection 0.2 2 ∧
    (∀ i j, i < d.geom.slabX.rows → j < d.geom.slabX.cols → d.geom.xlim.1 + 2 ≤ d.geom.slabX.val i j) ∧
    (d.geom.X0.val 0 0, d.geom.Z0.val 0 0) ∈ d.undeformed := by
  have hs := (demo_ready eig "pst-" false).slab
  obtain ⟨d, h⟩ := draws_w eig "pst-" none [some 0, some 100, none] rfl ⟨0, by simp⟩
  have hc := C58_complete _ _ _ _ _ _ _ _ _ _ _ _ d h (by decide) (by decide)
  obtain ⟨a, c, k, e, -, hsym, -⟩ := C58_levels_partial _ _ _ _ _ _ _ _ _ _ _ _ d h
  have m2 : 2 ≤ (getZmesh (demo eig "pst-" false) 2).length := mesh_length_two _ hs 2 (by norm_num)
  refine ⟨d, h, hc, C58_factor _ _ _ _ _ _ _ _ _ _ _ _ d h hc, ⟨c, hsym⟩, (C57_depth _ hs _ _ _ _ _ _ _ (by norm_num) _ _ _ _ d h).1,
    (C57_visible_partial _ hs _ _ _ _ _ _ _ (by norm_num) _ _ _ _ d h).1,
    ((C58_displacements _ hs _ _ _ _ _ _ _ (by norm_num) _ _ _ d).1 h 0 1 (by omega) (by simp)).1,
    fun i j hi hj => ((C57_full_view _ _ _ _ _ _ _ _ _ _ _ d h).1 i j hi hj).1, ?_⟩
  refine ((C57_outlines _ _ _ _ _ _ _ _ _ _ _ _ d h m2 (by simp)).1 _).2 ⟨(0, 0), ?_, rfl⟩
  refine ⟨by simp only; omega, by simp, .inl rfl⟩

/-- C57: a window of 10 cm is centred at the deepest point, the third. -/
example (eig : EigSolver) : ∃ d j, deformed (demo eig "pst-" false) [0, 100, 200] [some 0, some 100, none]
      [deflection 0.1, deflection 0.2, deflection 0.4] 30 2 100 (some 10) 2 300 "w" true = .ok d ∧
    d.geom.X0.val 0 j - 10 / 2 ≤ d.geom.xlim.1 ∧ d.geom.xlim.2 ≤ d.geom.X0.val 0 j + 10 / 2 := by
  obtain ⟨d, h⟩ := draws_w eig "pst-" (some 10) [some 0, some 100, none] rfl ⟨0, by simp⟩
  obtain ⟨j, -, -, h1, h2⟩ := C57_window _ _ _ _ _ _ _ _ _ _ _ _ d h
  exact ⟨d, j, h, h1, h2⟩

/-- C57 (violated): skier systems with an unsupported first or last point. -/
example (eig : EigSolver) : ∃ d, deformed (demo eig "skier" false) [0, 100, 200] [none, some 100, some 200]
      [deflection 0.1, deflection 0.2, deflection 0.4] 30 2 100 none 2 300 "w" true = .ok d ∧ d.geom.weakX.val 0 1 = none := by
  obtain ⟨d, h⟩ := draws_w eig "skier" none [none, some 100, some 200] rfl ⟨100, by simp⟩
  exact ⟨d, h, (C57_weak_gone_violated _ _ _ _ _ _ _ _ _ _ _ _ d h (.inl rfl) rfl 1).1⟩

example (eig : EigSolver) : ∃ d, deformed (demo eig "skier" false) [0, 100, 200] [some 0, some 100, none]
      [deflection 0.1, deflection 0.2, deflection 0.4] 30 2 100 none 2 300 "w" true = .ok d ∧
    d.geom.weakX.val 0 1 = some (d.geom.slabX.val (d.geom.slabX.rows - 1) 1 + 5) := by
  obtain ⟨d, h⟩ := draws_w eig "skier" none [some 0, some 100, none] rfl ⟨0, by simp⟩
  have masked : Masked [0, 100, 200] [some 0, some 100, none] := by
    refine ⟨rfl, fun j x hj => ?_⟩
    match j with
    | 0 => simpa using hj
    | 1 => simpa using hj
    | 2 => simp at hj
    | j + 3 => simp at hj
  have := (C57_weak_shifted_violated _ _ _ _ _ _ _ _ _ _ _ _ d h (.inl rfl) masked ⟨0, rfl⟩ 200 100
    ⟨by simp, by simp; norm_num⟩ ⟨by simp, by simp⟩ 1 100 rfl).1
  refine ⟨d, h, this.trans ?_⟩
  norm_num

example (eig : EigSolver) := C58_saturates_violated _ (demo_ready eig "pst-" false).slab 30
example (eig : EigSolver) := C58_zero_violated _ (demo_ready eig "pst-" false).slab 30
example (eig : EigSolver) := C57_cropped_violated _ (demo_ready eig "pst-" false).slab 30

/-- C57: coordinates as rasterised. -/
example (s : Self) : ∃ pts, rasterize s 38 2 gridDemo = .ok pts ∧ Masked (pts.map GridPt.x) (pts.map GridPt.xb) := by
  obtain ⟨pts, h, -, -⟩ := gridDemo_pts s 38
  exact ⟨pts, h, (C57_rasterized s 38 2 (by norm_num) gridDemo pts h).1⟩

/-! ## Shear and principal stresses -/

/-- The shear stress is drawn if the weak layer is sheared somewhere. -/
theorem draws_shear (eig : EigSolver) (s : Self) (hs : Ready eig s) (hp : s.p = 0) (xsl : List ℝ) (xwl : List (Option ℝ)) (z : List Vec6)
    (phi dz scale pad : ℝ) (hdz : 0 < dz) (window : Option ℝ) (levels : ℕ) (normalize : Bool) (h1 : xsl.length = z.length)
    (h2 : xwl.length = z.length) (hz : 2 ≤ z.length) (hl : 1 ≤ levels) (hne : ∃ Z ∈ z, s.beam.tau Z ≠ 0) (hsup : ∃ x, some x ∈ xwl) :
    ∃ d, deformed s xsl xwl z phi dz scale window pad levels "Txz" normalize = .ok d := by
  refine C57_draws_field s hs.slab xsl xwl z phi dz scale pad hdz window levels "Txz" normalize h1 h2 hz hl (fun xw hw => ?_) hsup
  have m0 := mesh_length_two s hs.slab dz hdz
  obtain ⟨Z, hZ, hne⟩ := hne
  obtain ⟨j, hj, ej⟩ := List.getElem_of_mem hZ
  have hc : convertStress "kPa" = .ok 1000 := by simp [convertStress]; norm_num
  choose T t1 t2 t3 t4 using fun Z => C34_surfaces_partial eig s hs dz hdz phi Z "kPa" 1000 hc
  have all := mapM_ok (f := fun Z => fTxz s Z phi dz "kPa") z fun Z _ => t1 Z
  obtain ⟨X, W, w1, w2, w3, -⟩ := (C37_shear s).kept xw z hw "kPa" 1000 (by simp)
  have pt : (s.loads phi).pt = 0 := by simp [Self.loads, getSurfaceLoad, hp]
  unfold plotField
  simp only [convertLength_cm, bind, Except.bind, pure, Except.pure]
  rw [if_neg (by decide), if_neg (by decide), if_neg (by decide), if_pos trivial, all]
  dsimp only
  rw [w1]
  refine ⟨_, rfl, by simp, rfl, by dsimp only; omega, 1000 * s.beam.tau Z, (Grid.mem_toList _ _).2
    ⟨(getZmesh s dz).length - 1, j, by dsimp only; rw [List.length_map]; omega, hj, ?_⟩, by positivity⟩
  dsimp only
  rw [List.getD_eq_getElem?_getD, List.getElem?_map, List.getElem?_eq_getElem hj, ej]
  simp only [Option.map_some, Option.getD_some, nth]
  have h4 := t4 Z
  rw [List.getLast?_eq_getElem?, t2, pt, sub_zero] at h4
  rw [List.getD_eq_getElem?_getD, h4, Option.getD_some]

example (eig : EigSolver) : ∃ d, deformed (demo eig "pst-" false) [0, 100] [some 0, some 100] [0, fun i => if i = 0 then 1 else 0] 30 2 100 none 2 300
      "Txz" true = .ok d ∧ ∃ top, d.levels.getLast? = some top ∧ 0 < top ∧ ∀ v, d.Holds v → |v| < 3 / 2 * top := by
  obtain ⟨-, hkt, -⟩ := demo_fields eig "pst-" false
  obtain ⟨d, h⟩ := draws_shear eig _ (demo_ready eig "pst-" false) rfl [0, 100] [some 0, some 100] [0, fun i => if i = 0 then 1 else 0] 30 2 100 2
    (by norm_num) none 300 true rfl rfl (by simp) (by norm_num) ⟨_, List.mem_cons_of_mem _ List.mem_cons_self, by
      simp only [Beam.tau, Self.beam, hkt]
      norm_num [show (4 : Fin 6) ≠ 0 by decide, show (3 : Fin 6) ≠ 0 by decide]⟩ ⟨0, by simp⟩
  exact ⟨d, h, C58_shear eig _ (demo_ready eig "pst-" false) rfl _ _ _ _ _ _ _ (by norm_num) _ _ _ d h⟩

/-- The principal stress is drawn if the surface is stretched somewhere. -/
theorem draws_principal (eig : EigSolver) (s : Self) (hs : Ready eig s) (xsl : List ℝ) (xwl : List (Option ℝ)) (z : List Vec6)
    (dz scale pad : ℝ) (hdz : 0 < dz) (window : Option ℝ) (levels : ℕ) (h1 : xsl.length = z.length)
    (h2 : xwl.length = z.length) (hz : 2 ≤ z.length) (hl : 1 ≤ levels) (hne : ∃ Z ∈ z, 0 < Z 1 ∧ Z 5 = 0) (hsup : ∃ x, some x ∈ xwl) :
    ∃ d, deformed s xsl xwl z 0 dz scale window pad levels "principal" false = .ok d := by
  refine C57_draws_field s hs.slab xsl xwl z 0 dz scale pad hdz window levels "principal" false h1 h2 hz hl (fun xw hw => ?_) hsup
  have m0 := mesh_length_two s hs.slab dz hdz
  obtain ⟨Z, hZ, hZ1, hZ5⟩ := hne
  obtain ⟨j, hj, ej⟩ := List.getElem_of_mem hZ
  have hc : convertStress "kPa" = .ok 1000 := by simp [convertStress]; norm_num
  choose x t w P Q p1 p2 p3 p4 _ p5 _ p6 using fun Z => C36_slab s Z 0 dz "kPa" (.inl rfl)
  have all := mapM_ok (f := fun Z => principalSlab s Z 0 dz "kPa" "max" false) z fun Z _ => p4 Z
  have weak := mapM_ok (f := fun Z => principalWeak s Z 2.6 "kPa" "min" false) z fun Z _ => principalWeak_plain s Z 2.6 "kPa" "min" (-1) 1000 rfl hc
  obtain ⟨l1, l2, l3⟩ := C36_lengths eig s hs dz hdz 0 Z "kPa" (.inl rfl) _ _ _ (p1 Z) (p2 Z) (p3 Z)
  obtain ⟨l4, -⟩ := p6 Z (by rw [l1, l2]) (by rw [l1, l3])
  obtain ⟨p, q, r, hm, -⟩ := mesh_two s hs.slab hdz
  have g0 : ∃ e, (gapped s dz)[0]? = some (p, e) := by
    refine ⟨gap ((getZmesh s dz).map MeshPt.z) 0, ?_⟩
    unfold gapped
    rw [List.getElem?_mapIdx, hm]
    rfl
  obtain ⟨e, g0⟩ := g0
  have pe : 0 < p.E / (1 - p.nu ^ 2) := by
    obtain ⟨l, hl, e1, e2, -⟩ := (C33_range s hs.slab dz hdz).2.2.2.2 p (by rw [hm]; simp)
    rw [e1, e2]
    have := hs.slab.valid l hl
    apply div_pos this.E
    show 0 < 1 - l.nu ^ 2
    nlinarith [this.nu_lo, this.nu_hi]
  have hx0 : (x Z)[0]? = some (1000 * (p.E / (1 - p.nu ^ 2) * Z 1)) := by
    have h := p1 Z
    rw [fSxx_eq s Z 0 dz "kPa" 1000 hc] at h
    injection h with h
    rw [← h, List.getElem?_map, g0]
    simp [hZ5, deg2rad]
  have i1 : 0 < (x Z).length := by omega
  have i2 : 0 < (t Z).length := by omega
  have i3 : 0 < (w Z).length := by omega
  have i4 : 0 < (P Z).length := by omega
  have big : (x Z)[0] ≤ (P Z)[0] := by
    refine (p5 Z ((x Z)[0], (t Z)[0], (w Z)[0], (P Z)[0]) ?_).2.1
    refine List.mem_iff_getElem.2 ⟨0, by simp; omega, by simp⟩
  rw [List.getElem?_eq_getElem i1] at hx0
  injection hx0 with hx0
  have pos : (0 : ℝ) < (P Z)[0] := lt_of_lt_of_le (by rw [hx0]; positivity) big
  unfold plotField
  simp only [convertLength_cm, bind, Except.bind, pure, Except.pure]
  rw [if_neg (by decide), if_neg (by decide), if_neg (by decide), if_neg (by decide), if_neg (by decide), if_pos trivial, all]
  dsimp only
  rw [weak]
  refine ⟨_, rfl, by simp, rfl, by simp, (P Z)[0], (Grid.mem_toList _ _).2
    ⟨0, j, by dsimp only; rw [List.length_map]; omega, hj, ?_⟩, pos.ne'⟩
  dsimp only
  rw [List.getD_eq_getElem?_getD, List.getElem?_map, List.getElem?_eq_getElem hj, ej]
  simp only [Option.map_some, Option.getD_some, nth]
  rw [List.getD_eq_getElem?_getD, List.getElem?_eq_getElem i4, Option.getD_some]

example (eig : EigSolver) : ∃ d, deformed (demo eig "pst-" false) [0, 100] [some 0, some 100] [0, fun i => if i = 1 then 1e-5 else 0] 0 2 100 none 2 300
      "principal" false = .ok d ∧ ∃ v, principalWeak (demo eig "pst-" false) 0 2.6 "kPa" "min" false = .ok v ∧ d.weak.val 0 0 = some v := by
  obtain ⟨d, h⟩ := draws_principal eig _ (demo_ready eig "pst-" false) [0, 100] [some 0, some 100] [0, fun i => if i = 1 then 1e-5 else 0] 2 100 2
    (by norm_num) none 300 rfl rfl (by simp) (by norm_num) ⟨_, List.mem_cons_of_mem _ List.mem_cons_self, by norm_num [show (5 : Fin 6) ≠ 1 by decide]⟩ ⟨0, by simp⟩
  exact ⟨d, h, (C58_principal _ _ _ _ _ _ _ _ _ _ _ d h).2 0 0 rfl⟩

/-- C58: another name is rejected. -/
example (s : Self) (xsl : List ℝ) (xwl : List (Option ℝ)) (z : List Vec6) (d : Drawing) :
    deformed s xsl xwl z 0 (field := "Syy") ≠ .ok d := fun h => by
  have := C58_unknown s xsl xwl z 0 _ _ _ _ _ "Syy" _ d h
  exact absurd this (by decide)

end Weac
