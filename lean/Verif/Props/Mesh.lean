import Verif.Lemmas.Mesh
import Verif.Props.Incremental

/-!
# C33, C34: mesh through the slab thickness, shear stress in the slab
-/

namespace Weac

/-! ## Specification -/

/-- Plane-strain modulus of a layer. -/
noncomputable def Spec.planeStrain (l : Layer) : ℝ := l.E / (1 - l.nu ^ 2)

/-- Slope-parallel weight of a layer per volume (N/mm³). -/
noncomputable def Spec.weightT (g phi : ℝ) (l : Layer) : ℝ := -(1e-12 * l.rho) * g * Real.sin (deg2rad phi)

/-- Shear stress in the slab at depth `z` where the state changes at the rate
`dz`: rate of change of the axial force above `z` plus slope-parallel weight
above `z`. -/
noncomputable def Spec.slabShear (s : Self) (phi : ℝ) (dz : Vec6) (z : ℝ) : ℝ :=
  ∫ y in (-s.h / 2)..z, (profile Layer.h planeStrain (-s.h / 2) s.slab y * (dz 1 + dz 5 * y)
    + profile Layer.h (weightT s.g phi) (-s.h / 2) s.slab y)

open Spec

theorem SlabOk.pos {s : Self} (h : SlabOk s) : ∀ l ∈ s.slab, 0 < l.h := fun l hl => (h.valid l hl).h

/-! ## C33 -/

/-- The mesh runs from the top to the bottom surface and is non-decreasing;
neighbours are either the two faces of an interface or at most `dz` apart. -/
theorem C33_range (s : Self) (hs : SlabOk s) (dz : ℝ) (hdz : 0 < dz) :
    ((getZmesh s dz).head?).map MeshPt.z = some (-s.h / 2) ∧
    ((getZmesh s dz).getLast?).map MeshPt.z = some (s.h / 2) ∧
    ((getZmesh s dz).map MeshPt.z).Pairwise (· ≤ ·) ∧
    (getZmesh s dz).IsChain (fun p q => q.z ≤ p.z + dz) ∧
    ∀ p ∈ getZmesh s dz, ∃ l ∈ s.slab, p.E = l.E ∧ p.nu = l.nu ∧ p.rho = l.rho := by
  rw [getZmesh_eq]
  have hv := hs.pos
  have hc := meshFrom_chain hdz s.slab hv (-s.h / 2)
  refine ⟨?_, ?_, ?_, ?_, ?_⟩
  · obtain ⟨l, ls, hl⟩ := List.exists_cons_of_ne_nil hs.ne
    rw [hl, meshFrom_head]; rfl
  · rw [meshFrom_last hdz _ hv hs.ne, ← hs.h]; congr 1; ring
  · rw [← List.isChain_iff_pairwise, List.isChain_map]
    refine hc.imp fun p q h => ?_
    rcases h with h | ⟨a, l, -, h⟩
    · exact h.ge
    · exact h.lt.le
  · refine hc.imp fun p q h => ?_
    rcases h with h | ⟨a, l, -, h⟩
    · linarith
    · exact h.le
  · intro p hp
    obtain ⟨a, l, h1, h2, -⟩ := meshFrom_mem hdz _ hv _ hp
    refine ⟨l, h1.mem, ?_⟩
    rw [h2]
    exact ⟨rfl, rfl, rfl⟩

/-- Every layer owns a contiguous block of the mesh, from its top to its
bottom face, strictly increasing in steps of at most `dz`, and carrying its
properties; the rest of the mesh lies above and below. -/
theorem C33_layers (s : Self) (hs : SlabOk s) (dz : ℝ) (hdz : 0 < dz) (pre post : List Layer) (l : Layer)
    (hl : s.slab = pre ++ l :: post) :
    ∃ above block below, getZmesh s dz = above ++ block ++ below ∧
      (∀ p ∈ above, p.z ≤ -s.h / 2 + total Layer.h pre) ∧
      (∀ p ∈ below, -s.h / 2 + total Layer.h pre + l.h ≤ p.z) ∧
      block.head? = some ⟨-s.h / 2 + total Layer.h pre, l.E, l.nu, l.rho⟩ ∧
      block.getLast? = some ⟨-s.h / 2 + total Layer.h pre + l.h, l.E, l.nu, l.rho⟩ ∧
      (∀ p ∈ block, p.E = l.E ∧ p.nu = l.nu ∧ p.rho = l.rho) ∧
      block.IsChain (fun p q => p.z < q.z ∧ q.z ≤ p.z + dz) ∧
      2 ≤ block.length ∧ ((block.length : ℝ) - 2) * dz < l.h := by
  have hv := hs.pos
  have hpos := hv l (by rw [hl]; simp)
  refine ⟨meshFrom dz (-s.h / 2) pre, meshLayer dz (-s.h / 2 + total Layer.h pre)
    (-s.h / 2 + total Layer.h pre + l.h) l, meshFrom dz (-s.h / 2 + total Layer.h pre + l.h) post, ?_, ?_, ?_,
    meshLayer_head _ _ _, meshLayer_last hdz _ hpos, ?_, ?_, ?_, ?_⟩
  · rw [getZmesh_eq, hl, meshFrom_append, meshFrom, List.append_assoc]
  · intro p hp
    exact (meshFrom_bounds hdz pre (fun x hx => hv x (by rw [hl]; simp [hx])) _ hp).2
  · intro p hp
    exact (meshFrom_bounds hdz post (fun x hx => hv x (by rw [hl]; simp [hx])) _ hp).1
  · intro p hp
    rw [(meshLayer_mem hdz _ hpos hp).1]
    exact ⟨rfl, rfl, rfl⟩
  · exact (meshLayer_chain hdz _ hpos).imp fun p q h => ⟨h.lt, h.le⟩
  · rw [meshLayer_length]
    have := cells_pos hdz hpos
    omega
  · rw [meshLayer_length]
    have h1 := Nat.ceil_lt_add_one (div_pos hpos hdz).le
    have h2 : ((cells dz l : ℝ) - 1) < l.h / dz := by unfold cells; linarith
    rw [lt_div_iff₀ hdz] at h2
    push_cast
    linarith

example : ∃ above block below, getZmesh demoSlab 2 = above ++ block ++ below ∧ 2 ≤ block.length := by
  obtain ⟨l, ls, hl⟩ := List.exists_cons_of_ne_nil demoSlab_ok.ne
  obtain ⟨a, b, c, h, -, -, -, -, -, -, h2, -⟩ := C33_layers demoSlab demoSlab_ok 2 (by norm_num) [] ls l hl
  exact ⟨a, b, c, h, h2⟩

/-! ## C34 -/

theorem downTo_sum (s : Self) (hs : SlabOk s) (phi : ℝ) (d : Vec6) (z : ℝ) (h1 : -s.h / 2 ≤ z) (h2 : z ≤ s.h / 2) :
    downTo planeStrain s.slab (-s.h / 2) (fun y => d 1 + d 5 * y) z
      + downTo (weightT s.g phi) s.slab (-s.h / 2) (fun y => 1 + 0 * y) z = slabShear s phi d z := by
  unfold downTo slabShear
  have hn : ∀ l ∈ s.slab, 0 ≤ l.h := fun l hl => (hs.pos l hl).le
  have i1 := (integral_profile Layer.h planeStrain (fun y => d 1 + d 5 * y) (by fun_prop) s.slab (-s.h / 2) hn).1
  have i2 := (integral_profile Layer.h (weightT s.g phi) (fun y => 1 + 0 * y) (by fun_prop) s.slab (-s.h / 2) hn).1
  have sub : Set.uIcc (-s.h / 2) z ⊆ Set.uIcc (-s.h / 2) (-s.h / 2 + total Layer.h s.slab) := by
    rw [← hs.h, Set.uIcc_of_le h1, Set.uIcc_of_le (by linarith)]
    exact Set.Icc_subset_Icc le_rfl (by linarith)
  rw [← intervalIntegral.integral_add (i1.mono_set sub) (i2.mono_set sub)]
  congr 1
  funext y
  ring

theorem convertStress_dom {unit : String} (hu : unit = "kPa" ∨ unit = "MPa") :
    ∃ c, convertStress unit = .ok c ∧ 0 < c ∧ (unit = "MPa" → c = 1) ∧ (unit = "kPa" → c = 1000) := by
  rcases hu with rfl | rfl
  · exact ⟨1e3, by unfold convertStress; rw [if_pos rfl], by norm_num, by decide, fun _ => by norm_num⟩
  · exact ⟨1, by unfold convertStress; rw [if_neg (by decide), if_pos rfl], by norm_num, fun _ => rfl, by decide⟩

/-- Over supported parts the shear stress at every mesh point, for every mesh
size, is exactly the rate of change of the axial force above plus the weight
above that point. Missing: unsupported parts, see `C34_free_violated`. -/
theorem C34_shear_stress_partial (s : Self) (hr : Regular s) (hs : SlabOk s) (dz : ℝ) (hdz : 0 < dz) (phi : ℝ) (Z dZ : Vec6)
    (he : EquilBedded s.beam (s.loads phi) Z dZ) (unit : String) (c : ℝ) (hc : convertStress unit = .ok c) :
    fTxz s Z phi dz unit = .ok ((getZmesh s dz).map fun p => c * slabShear s phi dZ p.z) := by
  have hd : dZ = dzdx s Z phi := (C09_dzdx_iff_equilibrium s hr Z dZ phi).mpr he
  have hv := hs.pos
  unfold fTxz
  rw [hc]
  show Except.ok _ = _
  congr 1
  have h1 := cumTrap_mesh hdz s.slab hv (-s.h / 2) planeStrain (fun p => p.E / (1 - p.nu ^ 2)) (fun _ _ => rfl)
    (dZ 1) (dZ 5)
  have h2 := cumTrap_mesh hdz s.slab hv (-s.h / 2) (weightT s.g phi)
    (fun p => -(1e-12 * p.rho) * s.g * Real.sin (deg2rad phi)) (fun _ _ => rfl) 1 0
  have e1 : ∀ p : MeshPt, p.E / (1 - p.nu ^ 2) * (du0dxdx s Z phi + p.z * dpsidxdx s Z phi)
      = p.E / (1 - p.nu ^ 2) * (dZ 1 + dZ 5 * p.z) := by
    intro p; rw [hd]; unfold du0dxdx dpsidxdx; ring
  simp only [zero_mul, add_zero, mul_one] at h2
  simp only [e1]
  rw [getZmesh_eq, h1, h2, List.zipWith_map, List.zipWith_self, List.map_map]
  apply List.map_congr_left
  intro p hp
  have hb := meshFrom_bounds hdz _ hv _ hp
  rw [← hs.h] at hb
  have := downTo_sum s hs phi dZ p.z hb.1 (by linarith)
  simp only [zero_mul, add_zero] at this
  simp only [Function.comp_apply, this]

theorem Ready.laminate {eig : EigSolver} {s : Self} (hs : Ready eig s) :
    s.A11 = slabIntegral Layer.h planeStrain s.slab (fun _ => 1) ∧
    s.B11 = slabIntegral Layer.h planeStrain s.slab (fun z => z) ∧
    s.D11 = slabIntegral Layer.h planeStrain s.slab (fun z => z ^ 2) := by
  have h := C06_laminate_integrals s hs.slab
  have hfr := fundamental_fields eig s
  have hf : calcFundamentalSystem eig s = s := hs.fresh
  simp only [hf] at hfr
  exact ⟨hfr.2.2.1.trans h.1, hfr.2.2.2.1.trans h.2.1, hfr.2.2.2.2.1.trans h.2.2.1⟩

theorem slab_axial (eig : EigSolver) (s : Self) (hs : Ready eig s) (a b : ℝ) :
    slabIntegral Layer.h planeStrain s.slab (fun y => a + b * y) = s.A11 * a + s.B11 * b := by
  have hn : ∀ l ∈ s.slab, 0 ≤ l.h := fun l hl => (hs.slab.pos l hl).le
  rw [hs.laminate.1, hs.laminate.2.1, slabIntegral_eq _ _ _ (by fun_prop) _ hn, slabIntegral_eq _ _ _ continuous_const _ hn,
    slabIntegral_eq _ _ (fun z => z) continuous_id _ hn, mul_comm _ a, mul_comm _ b,
    ← layerSum_mul, ← layerSum_mul, ← layerSum_add]
  apply layerSum_congr
  intro l _ x y _
  rw [intervalIntegral.integral_add (by simp) (by apply Continuous.intervalIntegrable; fun_prop),
    intervalIntegral.integral_const_mul]
  simp only [intervalIntegral.integral_const, smul_eq_mul]
  ring

theorem slab_moment (eig : EigSolver) (s : Self) (hs : Ready eig s) (a b : ℝ) :
    slabIntegral Layer.h planeStrain s.slab (fun y => y * (a + b * y)) = s.B11 * a + s.D11 * b := by
  have hn : ∀ l ∈ s.slab, 0 ≤ l.h := fun l hl => (hs.slab.pos l hl).le
  rw [hs.laminate.2.2, hs.laminate.2.1, slabIntegral_eq _ _ _ (by fun_prop) _ hn,
    slabIntegral_eq _ _ (fun z => z ^ 2) (by fun_prop) _ hn,
    slabIntegral_eq _ _ (fun z => z) continuous_id _ hn, mul_comm _ a, mul_comm _ b,
    ← layerSum_mul, ← layerSum_mul, ← layerSum_add]
  apply layerSum_congr
  intro l _ x y _
  have e : (fun y : ℝ => y * (a + b * y)) = fun y => a * y + b * y ^ 2 := by funext y; ring
  rw [e, intervalIntegral.integral_add (by apply Continuous.intervalIntegrable; fun_prop)
    (by apply Continuous.intervalIntegrable; fun_prop), intervalIntegral.integral_const_mul,
    intervalIntegral.integral_const_mul]
  ring

theorem slab_weight (s : Self) (hs : SlabOk s) (phi : ℝ) :
    slabIntegral Layer.h (weightT s.g phi) s.slab (fun y => 1 + 0 * y) = (s.loads phi).qt := by
  have hn : ∀ l ∈ s.slab, 0 ≤ l.h := fun l hl => (hs.pos l hl).le
  rw [slabIntegral_eq _ _ _ (by fun_prop) _ hn]
  have : ∀ (ls : List Layer) (top : ℝ), layerSum Layer.h (fun l a b => weightT s.g phi l * ∫ y in a..b, (1 + 0 * y)) top ls
      = -((ls.map fun l => l.rho * s.g * 1e-12 * l.h).sum) * Real.sin (deg2rad phi) := by
    intro ls
    induction ls with
    | nil => intro top; simp [layerSum]
    | cons l ls ih =>
      intro top
      rw [layerSum, ih]
      simp only [List.map_cons, List.sum_cons, zero_mul, add_zero,
        intervalIntegral.integral_const, smul_eq_mul, weightT]
      ring
  rw [this]
  simp only [Self.loads, getWeightLoad]
  try (congr 2; congr 1; apply List.map_congr_left; intro l _; ring)

/-- At the top surface the shear is zero; at the bottom surface it is the
weak-layer shear stress minus the slope-parallel surface load, for every state
vector and mesh. -/
theorem C34_surfaces_partial (eig : EigSolver) (s : Self) (hs : Ready eig s) (dz : ℝ) (hdz : 0 < dz) (phi : ℝ) (Z : Vec6)
    (unit : String) (c : ℝ) (hc : convertStress unit = .ok c) :
    ∃ T, fTxz s Z phi dz unit = .ok T ∧ T.length = (getZmesh s dz).length ∧
      T.head? = some 0 ∧ T.getLast? = some (c * (s.beam.tau Z - (s.loads phi).pt)) := by
  have hr := hs.stiff.regular
  have he := (C09_dzdx_iff_equilibrium s hr Z _ phi).mp rfl
  refine ⟨_, C34_shear_stress_partial s hr hs.slab dz hdz phi Z _ he unit c hc, by simp, ?_, ?_⟩
  · have := (C33_range s hs.slab dz hdz).1
    rw [List.head?_map]
    cases hm : (getZmesh s dz).head? with
    | none => rw [hm] at this; simp at this
    | some p =>
      rw [hm] at this
      simp only [Option.map_some, Option.some.injEq] at this ⊢
      rw [this, slabShear, intervalIntegral.integral_same, mul_zero]
  · have := (C33_range s hs.slab dz hdz).2.1
    rw [List.getLast?_map]
    cases hm : (getZmesh s dz).getLast? with
    | none => rw [hm] at this; simp at this
    | some p =>
      rw [hm] at this
      simp only [Option.map_some, Option.some.injEq] at this ⊢
      rw [this]
      congr 1
      have hh : 0 ≤ s.h := hs.stiff.h.le
      rw [← downTo_sum s hs.slab phi _ _ (by linarith) le_rfl]
      have b1 : ∀ f g, downTo f s.slab (-s.h / 2) g (s.h / 2) = slabIntegral Layer.h f s.slab g := by
        intro f g; rw [hs.slab.h]; rfl
      rw [b1, b1, slab_axial eig s hs, slab_weight s hs.slab]
      have := he.N
      simp only [Self.beam] at this ⊢
      linarith

/-- Violation: under every inclination there are states of an unsupported part
of the slab for which the reported shear stress at the free bottom surface is
not zero. -/
theorem C34_free_violated (eig : EigSolver) (s : Self) (hs : Ready eig s) (hp : s.p = 0) (dz : ℝ) (hdz : 0 < dz)
    (phi x l : ℝ) (unit : String) (hu : unit = "kPa" ∨ unit = "MPa") :
    ∃ (C : Vec6) (T : List ℝ) (b : ℝ), fTxz s (zsol s x C l phi false) phi dz unit = .ok T ∧ T.getLast? = some b ∧ b ≠ 0 := by
  obtain ⟨c, hc, hc0, -⟩ := convertStress_dom hu
  set a := 1 - s.beam.slip (zp s x phi false) with ha
  obtain ⟨T, h1, -, -, h2⟩ := C34_surfaces_partial eig s hs dz hdz phi
    (zsol s x (fun i => if i = 4 then a else 0) l phi false) unit c hc
  refine ⟨_, T, _, h1, h2, ?_⟩
  have hpt : (s.loads phi).pt = 0 := by simp [Self.loads, getSurfaceLoad, hp]
  have e0 : ((zh s x l false).mulVec fun i => if i = 4 then a else 0) 0 = a := by
    simp [zh, zhFree, Matrix.mulVec, dotProduct]
  have e3 : ((zh s x l false).mulVec fun i => if i = 4 then a else 0) 3 = 0 := by
    simp [zh, zhFree, Matrix.mulVec, dotProduct]
  have e4 : ((zh s x l false).mulVec fun i => if i = 4 then a else 0) 4 = 0 := by
    simp [zh, zhFree, Matrix.mulVec, dotProduct]
  have hslip : s.beam.slip (zsol s x (fun i => if i = 4 then a else 0) l phi false) = 1 := by
    show s.beam.slip ((zh s x l false).mulVec (fun i => if i = 4 then a else 0) + zp s x phi false) = _
    have : s.beam.slip (zp s x phi false) = 1 - a := by rw [ha]; ring
    simp only [Beam.slip, Pi.add_apply, e0, e3, e4] at this ⊢
    linarith
  have htau : s.beam.tau (zsol s x (fun i => if i = 4 then a else 0) l phi false) = s.kt := by
    show s.kt * s.beam.slip _ = _
    rw [hslip, mul_one]
  rw [htau, hpt, sub_zero]
  exact (mul_pos hc0 hs.stiff.kt).ne'

example (eig : EigSolver) : ∃ (C : Vec6) (T : List ℝ) (b : ℝ), fTxz (demo eig "pst-" false)
    (zsol (demo eig "pst-" false) 10 C 100 30 false) 30 2 "kPa" = .ok T ∧ T.getLast? = some b ∧ b ≠ 0 :=
  C34_free_violated eig _ (demo_ready eig "pst-" false)
    (by obtain ⟨-, -, -, -, -, -, -, -, -, -, hp, -⟩ := demo_fields eig "pst-" false; exact hp) 2 (by norm_num)
    30 10 100 "kPa" (Or.inl rfl)

end Weac
