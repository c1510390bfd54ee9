import Verif.Props.Mesh

/-!
# C35, C41: axial and transverse normal stress in the slab
-/

namespace Weac

/-! ## Specification -/

/-- Trapezoidal integral of tabulated values `(x, y)`. -/
noncomputable def Spec.trapz : List (ℝ × ℝ) → ℝ
  | p :: q :: r => (q.1 - p.1) * (p.2 + q.2) / 2 + Spec.trapz (q :: r)
  | _ => 0

/-- Mass per area of the slab (t/mm²). -/
noncomputable def Spec.slabMass (ls : List Layer) : ℝ := (ls.map fun l => 1e-12 * l.rho * l.h).sum

/-- Normal weight of a layer per volume, as stress source. -/
noncomputable def Spec.weightN (g phi : ℝ) (l : Layer) : ℝ := -(1e-12 * l.rho * g * Real.cos (deg2rad phi))

/-- Transverse normal stress at depth `z`: the double integral of the second
derivative of the axial stress, `∫ (z - y) sxx'' dy` over everything above
`z`, plus the weight above. -/
noncomputable def Spec.slabTransverse (s : Self) (phi : ℝ) (d : Vec6) (z : ℝ) : ℝ :=
  ∫ y in (-s.h / 2)..z, (profile Layer.h planeStrain (-s.h / 2) s.slab y * ((z - y) * (d 1 + d 5 * y))
    + profile Layer.h (weightN s.g phi) (-s.h / 2) s.slab y)

open Spec

/-! ## Trapezoidal sums -/

theorem trapz_add {α : Type} (x f g : α → ℝ) (L : List α) :
    trapz (L.map fun p => (x p, f p + g p)) = trapz (L.map fun p => (x p, f p)) + trapz (L.map fun p => (x p, g p)) := by
  induction L with
  | nil => simp [trapz]
  | cons p L ih =>
    cases L with
    | nil => simp [trapz]
    | cons q L =>
      simp only [List.map_cons, trapz] at ih ⊢
      rw [ih]; ring

theorem trapz_mul {α : Type} (x f : α → ℝ) (c : ℝ) (L : List α) :
    trapz (L.map fun p => (x p, c * f p)) = c * trapz (L.map fun p => (x p, f p)) := by
  induction L with
  | nil => simp [trapz]
  | cons p L ih =>
    cases L with
    | nil => simp [trapz]
    | cons q L =>
      simp only [List.map_cons, trapz] at ih ⊢
      rw [ih]; ring

theorem trapz_mono {α : Type} (x f g : α → ℝ) (L : List α) (hc : L.IsChain fun p q => x p ≤ x q)
    (h : ∀ p ∈ L, f p ≤ g p) : trapz (L.map fun p => (x p, f p)) ≤ trapz (L.map fun p => (x p, g p)) := by
  induction L with
  | nil => simp [trapz]
  | cons p L ih =>
    cases L with
    | nil => simp [trapz]
    | cons q L =>
      rw [List.isChain_cons_cons] at hc
      have h1 := ih hc.2 fun y hy => h y (List.mem_cons_of_mem _ hy)
      have h2 := h p (by simp)
      have h3 := h q (by simp)
      simp only [List.map_cons, trapz] at h1 ⊢
      have : (x q - x p) * (f p + f q) ≤ (x q - x p) * (g p + g q) :=
        mul_le_mul_of_nonneg_left (by linarith) (by linarith [hc.1])
      linarith

theorem trapz_nonneg {α : Type} (x f : α → ℝ) (L : List α) (hc : L.IsChain fun p q => x p ≤ x q)
    (h : ∀ p ∈ L, 0 ≤ f p) : 0 ≤ trapz (L.map fun p => (x p, f p)) := by
  have h0 : trapz (L.map fun p => (x p, (0 : ℝ))) = 0 := by
    have := trapz_mul x (fun _ => (1 : ℝ)) 0 L
    simpa using this
  rw [← h0]
  exact trapz_mono x _ _ L hc h

/-- Telescoping estimate. -/
theorem trapz_le {α : Type} (x y H : α → ℝ) (p0 : α) (ps : List α)
    (hc : (p0 :: ps).IsChain fun p q => (x q - x p) * (y p + y q) / 2 ≤ H q - H p) :
    trapz ((p0 :: ps).map fun p => (x p, y p)) ≤ H ((p0 :: ps).getLast (by simp)) - H p0 := by
  induction ps generalizing p0 with
  | nil => simp [trapz]
  | cons p1 ps ih =>
    rw [List.isChain_cons_cons] at hc
    have := ih p1 hc.2
    simp only [List.map_cons, trapz] at this ⊢
    rw [List.getLast_cons (by simp)]
    linarith [hc.1]

theorem trapz_ge {α : Type} (x y H : α → ℝ) (p0 : α) (ps : List α)
    (hc : (p0 :: ps).IsChain fun p q => H q - H p ≤ (x q - x p) * (y p + y q) / 2) :
    H ((p0 :: ps).getLast (by simp)) - H p0 ≤ trapz ((p0 :: ps).map fun p => (x p, y p)) := by
  have h := trapz_le x (fun p => -y p) (fun p => -H p) p0 ps (hc.imp fun p q h => by linarith)
  have h2 := trapz_mul x y (-1) (p0 :: ps)
  simp only [neg_one_mul] at h2
  rw [h2] at h
  linarith

/-- Bracketing of a trapezoidal sum over the mesh of a slab. -/
theorem trapz_mesh_between (s : Self) (hs : SlabOk s) {dz : ℝ} (hdz : 0 < dz) (y : MeshPt → ℝ) (H K : ℝ → ℝ)
    (hH0 : H (-s.h / 2) = 0) (hK0 : K (-s.h / 2) = 0)
    (hH : ∀ p q, MeshStep dz (-s.h / 2) s.slab p q → H q.z - H p.z ≤ (q.z - p.z) * (y p + y q) / 2)
    (hK : ∀ p q, MeshStep dz (-s.h / 2) s.slab p q → (q.z - p.z) * (y p + y q) / 2 ≤ K q.z - K p.z) :
    H (s.h / 2) ≤ trapz ((getZmesh s dz).map fun p => (p.z, y p)) ∧
    trapz ((getZmesh s dz).map fun p => (p.z, y p)) ≤ K (s.h / 2) := by
  have h1 := (C33_range s hs dz hdz).1
  have h2 := (C33_range s hs dz hdz).2.1
  have hc := meshFrom_chain hdz s.slab hs.pos (-s.h / 2)
  rw [← getZmesh_eq] at hc
  cases hm : getZmesh s dz with
  | nil => rw [hm] at h1; simp at h1
  | cons p0 ps =>
    rw [hm] at h1 h2 hc
    simp only [List.head?_cons, Option.map_some, Option.some.injEq] at h1
    rw [List.getLast?_eq_some_getLast (by simp)] at h2
    simp only [Option.map_some, Option.some.injEq] at h2
    have a1 := trapz_ge MeshPt.z y (fun p => H p.z) p0 ps (hc.imp fun p q h => hH p q h)
    have a2 := trapz_le MeshPt.z y (fun p => K p.z) p0 ps (hc.imp fun p q h => hK p q h)
    simp only [h1, h2, hH0, hK0, sub_zero] at a1 a2
    exact ⟨a1, a2⟩

theorem trapz_mesh_affine (s : Self) (hs : SlabOk s) {dz : ℝ} (hdz : 0 < dz) (f : Layer → ℝ)
    (F : MeshPt → ℝ) (hF : ∀ (l : Layer) z, F (l.at z) = f l) (α β : ℝ) :
    trapz ((getZmesh s dz).map fun p => (p.z, F p * (α + β * p.z)))
      = slabIntegral Layer.h f s.slab (fun y => α + β * y) := by
  have h := trapz_mesh_between s hs hdz (fun p => F p * (α + β * p.z))
    (downTo f s.slab (-s.h / 2) fun y => α + β * y) (downTo f s.slab (-s.h / 2) fun y => α + β * y)
    (downTo_top _ _ _ _) (downTo_top _ _ _ _)
    (fun p q hpq => (trap_affine hs.pos f F hF α β hpq).ge) (fun p q hpq => (trap_affine hs.pos f F hF α β hpq).le)
  have b1 : downTo f s.slab (-s.h / 2) (fun y => α + β * y) (s.h / 2) = slabIntegral Layer.h f s.slab (fun y => α + β * y) := by
    rw [hs.h]; rfl
  rw [b1] at h
  exact le_antisymm h.2 h.1

theorem mesh_sorted (s : Self) (hs : SlabOk s) {dz : ℝ} (hdz : 0 < dz) :
    (getZmesh s dz).IsChain fun p q => p.z ≤ q.z ∧ q.z ≤ p.z + dz := by
  rw [getZmesh_eq]
  refine (meshFrom_chain hdz s.slab hs.pos _).imp fun p q h => ?_
  rcases h with h | ⟨a, l, -, h⟩
  · constructor <;> linarith
  · exact ⟨h.lt.le, h.le⟩

theorem slab_mass (s : Self) (hs : SlabOk s) :
    slabIntegral Layer.h (fun l => 1e-12 * l.rho) s.slab (fun y => 1 + 0 * y) = slabMass s.slab := by
  have hn : ∀ l ∈ s.slab, 0 ≤ l.h := fun l hl => (hs.pos l hl).le
  rw [slabIntegral_eq _ _ _ (by fun_prop) _ hn]
  have : ∀ (ls : List Layer) (top : ℝ), layerSum Layer.h (fun l a b => 1e-12 * l.rho * ∫ y in a..b, (1 + 0 * y)) top ls
      = slabMass ls := by
    intro ls
    induction ls with
    | nil => intro top; simp [layerSum, slabMass]
    | cons l ls ih =>
      intro top
      rw [layerSum, ih]
      simp only [slabMass, List.map_cons, List.sum_cons, zero_mul, add_zero,
        intervalIntegral.integral_const, smul_eq_mul]
      ring
  exact this _ _

/-! ## Axial stress -/

/-- Distance to the next mesh point (last point: to the previous one). -/
noncomputable def gap (zi : List ℝ) (i : ℕ) : ℝ :=
  if i + 1 = zi.length then nth zi (zi.length - 1) - nth zi (zi.length - 2) else nth zi (i + 1) - nth zi i

/-- Mesh points with gaps. -/
noncomputable def gapped (s : Self) (dz : ℝ) : List (MeshPt × ℝ) :=
  (getZmesh s dz).mapIdx fun i p => (p, gap ((getZmesh s dz).map MeshPt.z) i)

theorem gapped_fst (s : Self) (dz : ℝ) : (gapped s dz).map Prod.fst = getZmesh s dz := by
  apply List.ext_getElem <;> simp [gapped]

theorem fSxx_eq (s : Self) (Z : Vec6) (phi dz : ℝ) (unit : String) (c : ℝ) (hc : convertStress unit = .ok c) :
    fSxx s Z phi dz unit = .ok ((gapped s dz).map fun x =>
      c * (x.1.E / (1 - x.1.nu ^ 2) * (Z 1 + Z 5 * x.1.z) + -(s.g * Real.sin (deg2rad phi)) * (1e-12 * x.1.rho * x.2))) := by
  unfold fSxx
  rw [hc]
  show Except.ok _ = _
  congr 1
  apply List.ext_getElem
  · simp [gapped]
  · intro i h1 h2
    simp only [List.getElem_map, List.getElem_mapIdx, gapped, gap, List.length_map, fdu, fdpsi]
    congr 1
    split_ifs <;> ring

theorem mesh_two (s : Self) (hs : SlabOk s) {dz : ℝ} (hdz : 0 < dz) :
    ∃ p q r, getZmesh s dz = p :: q :: r ∧ p.z < q.z := by
  obtain ⟨l, ls, hl⟩ := List.exists_cons_of_ne_nil hs.ne
  have hpos := hs.pos l (by rw [hl]; simp)
  have hc := meshLayer_chain hdz (-s.h / 2) hpos
  have hlen := meshLayer_length dz (-s.h / 2) l
  have := cells_pos hdz hpos
  match hm : meshLayer dz (-s.h / 2) (-s.h / 2 + l.h) l with
  | [] => rw [hm] at hlen; simp at hlen
  | [p] => rw [hm] at hlen; simp at hlen; omega
  | p :: q :: r =>
    rw [hm, List.isChain_cons_cons] at hc
    exact ⟨p, q, r ++ meshFrom dz (-s.h / 2 + l.h) ls, by rw [getZmesh_eq, hl, meshFrom, hm]; rfl, hc.1.lt⟩

theorem gap_bounds (s : Self) (hs : SlabOk s) {dz : ℝ} (hdz : 0 < dz) (i : ℕ) (hi : i < (getZmesh s dz).length) :
    0 ≤ gap ((getZmesh s dz).map MeshPt.z) i ∧ gap ((getZmesh s dz).map MeshPt.z) i ≤ dz := by
  have hc := mesh_sorted s hs hdz
  rw [List.isChain_iff_getElem] at hc
  obtain ⟨p, q, r, hm, -⟩ := mesh_two s hs hdz
  have h2 : 2 ≤ (getZmesh s dz).length := by rw [hm]; simp
  have nz : ∀ j (hj : j < (getZmesh s dz).length), nth ((getZmesh s dz).map MeshPt.z) j = ((getZmesh s dz)[j]).z := by
    intro j hj
    rw [nth, List.getD_eq_getElem _ _ (by simpa using hj), List.getElem_map]
  unfold gap
  rw [List.length_map]
  split_ifs with h
  · have := hc ((getZmesh s dz).length - 2) (by omega)
    rw [nz _ (by omega), nz _ (by omega)]
    have e : (getZmesh s dz).length - 1 = (getZmesh s dz).length - 2 + 1 := by omega
    simp only [e]
    constructor <;> linarith [this.1, this.2]
  · have := hc i (by omega)
    rw [nz _ (by omega), nz _ (by omega)]
    constructor <;> linarith [this.1, this.2]

theorem gapped_mem (s : Self) (hs : SlabOk s) {dz : ℝ} (hdz : 0 < dz) {x : MeshPt × ℝ} (hx : x ∈ gapped s dz) :
    0 ≤ x.2 ∧ x.2 ≤ dz ∧ 0 < x.1.rho ∧ |x.1.z| ≤ s.h / 2 := by
  unfold gapped at hx
  rw [List.mem_mapIdx] at hx
  obtain ⟨i, hi, rfl⟩ := hx
  refine ⟨(gap_bounds s hs hdz i hi).1, (gap_bounds s hs hdz i hi).2, ?_, ?_⟩
  · obtain ⟨l, hl, -, -, h⟩ := (C33_range s hs dz hdz).2.2.2.2 _ (List.getElem_mem hi)
    show 0 < ((getZmesh s dz)[i]).rho
    rw [h]
    exact (hs.valid l hl).rho
  · have hin := List.getElem_mem hi
    show |((getZmesh s dz)[i]).z| ≤ s.h / 2
    generalize (getZmesh s dz)[i] = p at hin
    rw [getZmesh_eq] at hin
    have hb := meshFrom_bounds hdz s.slab hs.pos _ hin
    rw [← hs.h] at hb
    rw [abs_le]
    constructor <;> linarith [hb.1, hb.2]

theorem gapped_chain (s : Self) (hs : SlabOk s) {dz : ℝ} (hdz : 0 < dz) :
    (gapped s dz).IsChain fun x y => x.1.z ≤ y.1.z := by
  have h := (mesh_sorted s hs hdz).imp (S := fun p q : MeshPt => p.z ≤ q.z) fun p q h => h.1
  rw [← gapped_fst, List.isChain_map] at h
  exact h

theorem trapz_fst (s : Self) (dz : ℝ) (f : MeshPt → ℝ) :
    trapz ((gapped s dz).map fun x => (x.1.z, f x.1)) = trapz ((getZmesh s dz).map fun p => (p.z, f p)) := by
  conv_rhs => rw [← gapped_fst, List.map_map]
  rfl

theorem trapz_rho (s : Self) (hs : SlabOk s) {dz : ℝ} (hdz : 0 < dz) :
    trapz ((getZmesh s dz).map fun p => (p.z, 1e-12 * p.rho)) = slabMass s.slab := by
  have := trapz_mesh_affine s hs hdz (fun l => 1e-12 * l.rho) (fun p => 1e-12 * p.rho) (fun _ _ => rfl) 1 0
  rw [slab_mass s hs] at this
  rw [← this]
  congr 1
  apply List.map_congr_left
  intro p _
  congr 1; ring

/-- The weight contribution to the trapezoidal integral of the axial stress. -/
noncomputable def gapWeight (s : Self) (dz : ℝ) : ℝ := trapz ((gapped s dz).map fun x => (x.1.z, 1e-12 * x.1.rho * x.2))

theorem gapWeight_bounds (s : Self) (hs : SlabOk s) {dz : ℝ} (hdz : 0 < dz) :
    0 < gapWeight s dz ∧ gapWeight s dz ≤ dz * slabMass s.slab := by
  constructor
  · obtain ⟨p, q, r, hm, hpq⟩ := mesh_two s hs hdz
    have hch := gapped_chain s hs hdz
    have hmem := fun x (hx : x ∈ gapped s dz) => gapped_mem s hs hdz hx
    have hlen : (gapped s dz).length = r.length + 2 := by simp [gapped, hm]
    have hg0 : gap ((getZmesh s dz).map MeshPt.z) 0 = q.z - p.z := by
      unfold gap; rw [hm]; simp [nth]
    have hfst := gapped_fst s dz
    have h0 : ∃ hk, ((gapped s dz)[0]'hk).2 = q.z - p.z := by
      refine ⟨by omega, ?_⟩
      simp only [gapped, List.getElem_mapIdx]
      exact hg0
    unfold gapWeight
    match hG : gapped s dz with
    | [] => rw [hG] at hlen; simp at hlen
    | [x] => rw [hG] at hlen; simp at hlen
    | x :: y :: G =>
      rw [hG] at hch hmem hfst
      simp only [hG] at h0
      obtain ⟨_, h0⟩ := h0
      rw [hm] at hfst
      simp only [List.map_cons, List.cons.injEq] at hfst
      obtain ⟨hx, hy, -⟩ := hfst
      simp only [List.getElem_cons_zero] at h0
      rw [List.isChain_cons_cons] at hch
      have hn := trapz_nonneg (fun x : MeshPt × ℝ => x.1.z) (fun x => 1e-12 * x.1.rho * x.2) (y :: G) hch.2 (by
        intro z hz
        obtain ⟨g1, -, g2, -⟩ := hmem z (List.mem_cons_of_mem _ hz)
        positivity)
      have hx' := hmem x (by simp)
      have hy' := hmem y (by simp)
      simp only [List.map_cons, trapz] at hn ⊢
      have e1 : 0 < (y.1.z - x.1.z) * (1e-12 * x.1.rho * x.2 + 1e-12 * y.1.rho * y.2) / 2 := by
        rw [hx, hy]
        have h1 : 0 < q.z - p.z := by linarith
        have h2 : 0 < 1e-12 * p.rho * x.2 := by
          rw [h0]
          have := hx'.2.2.1
          rw [hx] at this
          positivity
        have h3 : 0 ≤ 1e-12 * q.rho * y.2 := by
          have := hy'.2.2.1
          rw [hy] at this
          have := hy'.1
          positivity
        positivity
      linarith
  · rw [← trapz_rho s hs hdz, ← trapz_fst s dz fun p => 1e-12 * p.rho, ← trapz_mul]
    refine trapz_mono _ _ _ _ (gapped_chain s hs hdz) fun x hx => ?_
    have h := gapped_mem s hs hdz hx
    have := mul_le_mul_of_nonneg_left h.2.1 (by have := h.2.2.1; positivity : (0 : ℝ) ≤ 1e-12 * x.1.rho)
    linarith

/-- The trapezoidal integral of the axial stress is the normal force minus a
weight term that vanishes linearly with the mesh size. Missing: equality,
see `C35_violated`. -/
theorem C35_axial_force_partial (eig : EigSolver) (s : Self) (hs : Ready eig s) (dz : ℝ) (hdz : 0 < dz) (phi : ℝ) (Z : Vec6)
    (unit : String) (c : ℝ) (hc : convertStress unit = .ok c) :
    ∃ S R, fSxx s Z phi dz unit = .ok S ∧ S.length = (getZmesh s dz).length ∧
      trapz (List.zip ((getZmesh s dz).map MeshPt.z) S) = c * (s.beam.N Z - s.g * Real.sin (deg2rad phi) * R) ∧
      0 < R ∧ R ≤ dz * slabMass s.slab := by
  refine ⟨_, gapWeight s dz, fSxx_eq s Z phi dz unit c hc, by simp [gapped], ?_, gapWeight_bounds s hs.slab hdz⟩
  rw [← gapped_fst, List.map_map, List.zip_map', ]
  simp only [Function.comp_apply]
  rw [trapz_mul, trapz_add, trapz_mul, trapz_fst s dz fun p => p.E / (1 - p.nu ^ 2) * (Z 1 + Z 5 * p.z),
    trapz_mesh_affine s hs.slab hdz planeStrain (fun p => p.E / (1 - p.nu ^ 2)) (fun _ _ => rfl), slab_axial eig s hs]
  simp only [Beam.N, Self.beam, gapWeight]
  ring

/-- On flat ground the trapezoidal integral is the normal force for every mesh. -/
theorem C35_axial_force_flat (eig : EigSolver) (s : Self) (hs : Ready eig s) (dz : ℝ) (hdz : 0 < dz) (Z : Vec6) :
    ∃ S, fSxx s Z 0 dz "MPa" = .ok S ∧ trapz (List.zip ((getZmesh s dz).map MeshPt.z) S) = s.beam.N Z := by
  obtain ⟨c, hc, -, h1, -⟩ := convertStress_dom (unit := "MPa") (Or.inr rfl)
  obtain ⟨S, R, hS, -, hT, -⟩ := C35_axial_force_partial eig s hs dz hdz 0 Z _ c hc
  refine ⟨S, hS, ?_⟩
  rw [hT, h1 rfl]
  simp [deg2rad]

/-- Violation: on a slope the integral of the reported axial stress is never
the normal force. -/
theorem C35_violated (eig : EigSolver) (s : Self) (hs : Ready eig s) (dz : ℝ) (hdz : 0 < dz) (phi : ℝ)
    (hphi : Real.sin (deg2rad phi) ≠ 0) (Z : Vec6) :
    ∃ S, fSxx s Z phi dz "MPa" = .ok S ∧ trapz (List.zip ((getZmesh s dz).map MeshPt.z) S) ≠ s.beam.N Z := by
  obtain ⟨c, hc, -, h1, -⟩ := convertStress_dom (unit := "MPa") (Or.inr rfl)
  obtain ⟨S, R, hS, -, hT, hR, -⟩ := C35_axial_force_partial eig s hs dz hdz phi Z _ c hc
  refine ⟨S, hS, ?_⟩
  rw [hT, h1 rfl, one_mul]
  intro h
  have : s.g * Real.sin (deg2rad phi) * R = 0 := by linarith
  rcases mul_eq_zero.mp this with h | h
  · rcases mul_eq_zero.mp h with h | h
    · exact hs.g.ne' h
    · exact hphi h
  · exact hR.ne' h

/-- First moment: within quadratic (bending) and linear (weight) error in the
mesh size of the bending moment. -/
theorem C35_moment_partial (eig : EigSolver) (s : Self) (hs : Ready eig s) (dz : ℝ) (hdz : 0 < dz) (phi : ℝ) (Z : Vec6)
    (unit : String) (c : ℝ) (hc : convertStress unit = .ok c) (hc0 : 0 ≤ c) :
    ∃ S, fSxx s Z phi dz unit = .ok S ∧
      |trapz ((List.zip ((getZmesh s dz).map MeshPt.z) S).map fun p => (p.1, p.1 * p.2)) - c * s.beam.M Z|
        ≤ c * (|Z 5| * s.A11 * dz ^ 2 / 6 + dz * (s.h / 2) * (s.g * |Real.sin (deg2rad phi)| * slabMass s.slab)) := by
  refine ⟨_, fSxx_eq s Z phi dz unit c hc, ?_⟩
  have hsl := hs.slab
  rw [← gapped_fst, List.map_map, List.zip_map', List.map_map]
  simp only [Function.comp_def]
  -- weight part
  set R := trapz ((gapped s dz).map fun x => (x.1.z, 1e-12 * x.1.rho * x.2 * x.1.z)) with hR
  have hRb : |R| ≤ dz * (s.h / 2) * slabMass s.slab := by
    have hup : ∀ x ∈ gapped s dz, |1e-12 * x.1.rho * x.2 * x.1.z| ≤ dz * (s.h / 2) * (1e-12 * x.1.rho) := by
      intro x hx
      have h := gapped_mem s hsl hdz hx
      have h3 := h.2.2.1
      rw [abs_mul, abs_of_nonneg (by have := h.1; positivity : (0 : ℝ) ≤ 1e-12 * x.1.rho * x.2)]
      have e1 : x.2 * |x.1.z| ≤ dz * (s.h / 2) := mul_le_mul h.2.1 h.2.2.2 (abs_nonneg _) hdz.le
      have := mul_le_mul_of_nonneg_left e1 (by positivity : (0 : ℝ) ≤ 1e-12 * x.1.rho)
      linarith
    have hch := gapped_chain s hsl hdz
    have u := trapz_mono (fun x : MeshPt × ℝ => x.1.z) _ _ _ hch fun x hx => (abs_le.mp (hup x hx)).2
    have l := trapz_mono (fun x : MeshPt × ℝ => x.1.z) (fun x => -(dz * (s.h / 2)) * (1e-12 * x.1.rho))
      (fun x => 1e-12 * x.1.rho * x.2 * x.1.z) _ hch fun x hx => by have := (abs_le.mp (hup x hx)).1; linarith
    rw [trapz_mul, trapz_fst s dz fun p => 1e-12 * p.rho, trapz_rho s hsl hdz] at u l
    rw [abs_le]
    constructor <;> linarith
  -- bending part
  set Q := trapz ((getZmesh s dz).map fun p => (p.z, p.E / (1 - p.nu ^ 2) * p.z ^ 2)) with hQ
  have hn : ∀ l ∈ s.slab, 0 ≤ l.h := fun l hl => (hsl.pos l hl).le
  have b1 : ∀ f g, downTo f s.slab (-s.h / 2) g (s.h / 2) = slabIntegral Layer.h f s.slab g := by
    intro f g; rw [hsl.h]; rfl
  have hD : downTo planeStrain s.slab (-s.h / 2) (fun y => y ^ 2) (s.h / 2) = s.D11 := by rw [b1, hs.laminate.2.2]
  have hA : downTo planeStrain s.slab (-s.h / 2) (fun _ => 1) (s.h / 2) = s.A11 := by rw [b1, hs.laminate.1]
  have hEp : ∀ l ∈ s.slab, 0 < planeStrain l := by
    intro l hl
    have h := hsl.valid l hl
    have : 0 < 1 - l.nu ^ 2 := by nlinarith [h.nu_lo, h.nu_hi]
    exact div_pos h.E this
  have step : ∀ p q, MeshStep dz (-s.h / 2) s.slab p q →
      downTo planeStrain s.slab (-s.h / 2) (fun y => y ^ 2) q.z - downTo planeStrain s.slab (-s.h / 2) (fun y => y ^ 2) p.z
        ≤ (q.z - p.z) * (p.E / (1 - p.nu ^ 2) * p.z ^ 2 + q.E / (1 - q.nu ^ 2) * q.z ^ 2) / 2 ∧
      (q.z - p.z) * (p.E / (1 - p.nu ^ 2) * p.z ^ 2 + q.E / (1 - q.nu ^ 2) * q.z ^ 2) / 2
        ≤ downTo planeStrain s.slab (-s.h / 2) (fun y => y ^ 2) q.z - downTo planeStrain s.slab (-s.h / 2) (fun y => y ^ 2) p.z
          + dz ^ 2 / 6 * (downTo planeStrain s.slab (-s.h / 2) (fun _ => 1) q.z
            - downTo planeStrain s.slab (-s.h / 2) (fun _ => 1) p.z) := by
    intro p q h
    rcases h with h | ⟨a, l, h1, h2⟩
    · rw [h]; simp
    · rw [downTo_step planeStrain _ (by fun_prop) hsl.pos h1 h2, downTo_step planeStrain _ (by fun_prop) hsl.pos h1 h2]
      have e1 : p.E / (1 - p.nu ^ 2) = planeStrain l := by rw [h2.p_eq]; rfl
      have e2 : q.E / (1 - q.nu ^ 2) = planeStrain l := by rw [h2.q_eq]; rfl
      have hE := hEp l h1.mem
      rw [e1, e2, integral_pow, intervalIntegral.integral_const]
      simp only [smul_eq_mul, mul_one]
      have hd : 0 < q.z - p.z := by linarith [h2.lt]
      have hd2 : q.z - p.z ≤ dz := by linarith [h2.le]
      have id : (q.z - p.z) * (planeStrain l * p.z ^ 2 + planeStrain l * q.z ^ 2) / 2
          = planeStrain l * ((q.z ^ (2 + 1) - p.z ^ (2 + 1)) / (((2 : ℕ) : ℝ) + 1)) + planeStrain l * (q.z - p.z) ^ 3 / 6 := by
        push_cast; ring
      rw [id]
      have hc3 : 0 ≤ planeStrain l * (q.z - p.z) ^ 3 / 6 := by positivity
      have hsq : (q.z - p.z) ^ 2 ≤ dz ^ 2 := pow_le_pow_left₀ hd.le hd2 2
      have : planeStrain l * (q.z - p.z) * (q.z - p.z) ^ 2 ≤ planeStrain l * (q.z - p.z) * dz ^ 2 :=
        mul_le_mul_of_nonneg_left hsq (by positivity)
      constructor <;> nlinarith
  have hQb := trapz_mesh_between s hsl hdz (fun p => p.E / (1 - p.nu ^ 2) * p.z ^ 2)
    (downTo planeStrain s.slab (-s.h / 2) (fun y => y ^ 2))
    (fun z => downTo planeStrain s.slab (-s.h / 2) (fun y => y ^ 2) z
      + dz ^ 2 / 6 * downTo planeStrain s.slab (-s.h / 2) (fun _ => 1) z)
    (downTo_top _ _ _ _) (by simp only [downTo_top]; ring) (fun p q h => (step p q h).1)
    (fun p q h => by have := (step p q h).2; linarith)
  rw [hD, hA, ← hQ] at hQb
  -- linear part
  have hB : trapz ((getZmesh s dz).map fun p => (p.z, p.E / (1 - p.nu ^ 2) * (0 + 1 * p.z))) = s.B11 := by
    rw [trapz_mesh_affine s hsl hdz planeStrain (fun p => p.E / (1 - p.nu ^ 2)) (fun _ _ => rfl), slab_axial eig s hs]
    ring
  have hsum : trapz ((gapped s dz).map fun x => (x.1.z, x.1.z *
      (c * (x.1.E / (1 - x.1.nu ^ 2) * (Z 1 + Z 5 * x.1.z) + -(s.g * Real.sin (deg2rad phi)) * (1e-12 * x.1.rho * x.2)))))
      = c * ((Z 1 * s.B11 + Z 5 * Q) + -(s.g * Real.sin (deg2rad phi)) * R) := by
    rw [← hB, hQ, hR, ← trapz_fst s dz fun p => p.E / (1 - p.nu ^ 2) * (0 + 1 * p.z),
      ← trapz_fst s dz fun p => p.E / (1 - p.nu ^ 2) * p.z ^ 2, ← trapz_mul, ← trapz_mul, ← trapz_add, ← trapz_mul, ← trapz_add,
      ← trapz_mul]
    congr 1
    apply List.map_congr_left
    intro x _
    congr 1; ring
  rw [hsum]
  have e : c * ((Z 1 * s.B11 + Z 5 * Q) + -(s.g * Real.sin (deg2rad phi)) * R) - c * s.beam.M Z
      = c * (Z 5 * (Q - s.D11) + -(s.g * Real.sin (deg2rad phi) * R)) := by
    simp only [Beam.M, Self.beam]; ring
  rw [e, abs_mul, abs_of_nonneg hc0]
  refine mul_le_mul_of_nonneg_left ?_ hc0
  refine (abs_add_le _ _).trans (add_le_add ?_ ?_)
  · rw [abs_mul, abs_of_nonneg (by linarith [hQb.1] : 0 ≤ Q - s.D11)]
    have : |Z 5| * (Q - s.D11) ≤ |Z 5| * (dz ^ 2 / 6 * s.A11) :=
      mul_le_mul_of_nonneg_left (by linarith [hQb.2]) (abs_nonneg _)
    linarith
  · rw [abs_neg, abs_mul, abs_mul, abs_of_pos hs.g]
    have : s.g * |Real.sin (deg2rad phi)| * |R| ≤ s.g * |Real.sin (deg2rad phi)| * (dz * (s.h / 2) * slabMass s.slab) :=
      mul_le_mul_of_nonneg_left hRb (by have := hs.g; positivity)
    linarith

example (eig : EigSolver) : ∃ S, fSxx (demo eig "pst-" false) (fun _ => 1) 30 2 "MPa" = .ok S ∧
    trapz (List.zip ((getZmesh (demo eig "pst-" false) 2).map MeshPt.z) S) ≠ (demo eig "pst-" false).beam.N (fun _ => 1) := by
  refine C35_violated eig _ (demo_ready eig "pst-" false) 2 (by norm_num) 30 ?_ _
  have h30 : Real.sin (deg2rad 30) = 1 / 2 := by
    rw [← Real.sin_pi_div_six]; congr 1; unfold deg2rad; ring
  rw [h30]; norm_num

/-! ## C41: transverse normal stress -/

/-- Cumulative sums that overshoot the exact ones by a controlled amount. -/
theorem cumTrap_between (y : MeshPt → ℝ) (G K : ℝ → ℝ) (b : ℝ) (p0 : MeshPt) (ps : List MeshPt)
    (hc : (p0 :: ps).IsChain fun p q => ∃ r, 0 ≤ r ∧ r ≤ K q.z - K p.z ∧
      (q.z - p.z) * (y p + y q) / 2 = G q.z - G p.z + b * r) (acc : ℝ) :
    ∃ rs : List ℝ, rs.length = (p0 :: ps).length ∧
      cumTrap acc ((p0 :: ps).map fun p => (p.z, y p))
        = List.zipWith (fun (p : MeshPt) r => acc + (G p.z - G p0.z) + b * r) (p0 :: ps) rs ∧
      ∀ x ∈ (p0 :: ps).zip rs, 0 ≤ x.2 ∧ x.2 ≤ K x.1.z - K p0.z := by
  induction ps generalizing p0 acc with
  | nil => exact ⟨[0], rfl, by simp [cumTrap], by simp⟩
  | cons p1 ps ih =>
    rw [List.isChain_cons_cons] at hc
    obtain ⟨⟨r, hr0, hr1, hr⟩, hc2⟩ := hc
    obtain ⟨rs, h1, h2, h3⟩ := ih p1 hc2 (acc + (p1.z - p0.z) * (y p0 + y p1) / 2)
    refine ⟨0 :: rs.map (r + ·), by simp at h1 ⊢; exact h1, ?_, ?_⟩
    · rw [List.map_cons, List.map_cons, cumTrap]
      rw [List.map_cons] at h2
      rw [h2, hr, List.zipWith_cons_cons, List.zipWith_map_right]
      congr 1
      · ring
      · congr 1
        funext p r'
        ring
    · intro x hx
      rw [List.zip_cons_cons, List.mem_cons] at hx
      rcases hx with rfl | hx
      · simp
      · rw [List.zip_map_right, List.mem_map] at hx
        obtain ⟨x', hx', rfl⟩ := hx
        have := h3 x' hx'
        simp only [Prod.map_fst, Prod.map_snd, id_eq]
        constructor <;> linarith [this.1, this.2]

/-- Exact double integral by Cauchy's formula. -/
theorem transverse_split (s : Self) (hs : SlabOk s) (phi : ℝ) (d : Vec6) (z : ℝ) (h1 : -s.h / 2 ≤ z) (h2 : z ≤ s.h / 2) :
    slabTransverse s phi d z = z * downTo planeStrain s.slab (-s.h / 2) (fun y => d 1 + d 5 * y) z
      - downTo planeStrain s.slab (-s.h / 2) (fun y => y * (d 1 + d 5 * y)) z
      + downTo (weightN s.g phi) s.slab (-s.h / 2) (fun y => 1 + 0 * y) z := by
  unfold downTo slabTransverse
  have hn : ∀ l ∈ s.slab, 0 ≤ l.h := fun l hl => (hs.pos l hl).le
  have i1 := (integral_profile Layer.h planeStrain (fun y => d 1 + d 5 * y) (by fun_prop) s.slab (-s.h / 2) hn).1
  have i2 := (integral_profile Layer.h planeStrain (fun y => y * (d 1 + d 5 * y)) (by fun_prop) s.slab (-s.h / 2) hn).1
  have i3 := (integral_profile Layer.h (weightN s.g phi) (fun y => 1 + 0 * y) (by fun_prop) s.slab (-s.h / 2) hn).1
  have sub : Set.uIcc (-s.h / 2) z ⊆ Set.uIcc (-s.h / 2) (-s.h / 2 + total Layer.h s.slab) := by
    rw [← hs.h, Set.uIcc_of_le h1, Set.uIcc_of_le (by linarith)]
    exact Set.Icc_subset_Icc le_rfl (by linarith)
  rw [← intervalIntegral.integral_const_mul, ← intervalIntegral.integral_sub ((i1.mono_set sub).const_mul z) (i2.mono_set sub),
    ← intervalIntegral.integral_add (((i1.mono_set sub).const_mul z).sub (i2.mono_set sub)) (i3.mono_set sub)]
  congr 1
  funext y
  ring

/-- Over supported parts the transverse normal stress at every mesh point is
the exact double integral up to a quadratic error in the mesh size. Missing:
unsupported parts, see `C41_free_violated`. -/
theorem C41_transverse_stress_partial (eig : EigSolver) (s : Self) (hs : Ready eig s) (dz : ℝ) (hdz : 0 < dz) (phi : ℝ)
    (Z dZ ddZ : Vec6) (he : EquilBedded s.beam (s.loads phi) Z dZ) (he' : EquilBedded s.beam Loads.zero dZ ddZ)
    (unit : String) (c : ℝ) (hc : convertStress unit = .ok c) (hc0 : 0 ≤ c) :
    ∃ S, fSzz s Z phi dz unit = .ok S ∧ S.length = (getZmesh s dz).length ∧
      S.head? = some 0 ∧
      ∀ x ∈ (getZmesh s dz).zip S, |x.2 - c * slabTransverse s phi ddZ x.1.z| ≤ c * (|ddZ 5| * s.A11 * dz ^ 2 / 12) := by
  have hr := hs.stiff.regular
  have hsl := hs.slab
  have hv := hsl.pos
  have hd : dZ = dzdx s Z phi := (C09_dzdx_iff_equilibrium s hr Z dZ phi).mpr he
  have hdd : ddZ = dzdxdx s Z phi := by
    have h0 : Loads.zero = ({ s with p := 0, g := 0 } : Self).loads phi := by
      simp [Loads.zero, Self.loads, getWeightLoad, getSurfaceLoad]
    have hb : s.beam = ({ s with p := 0, g := 0 } : Self).beam := rfl
    have hr' : Regular ({ s with p := 0, g := 0 } : Self) := ⟨hr.A11, hr.kA55, hr.kn, hr.kt, hr.K0, hr.K0_eq⟩
    rw [h0, hb] at he'
    have h1 := (C09_dzdx_iff_equilibrium _ hr' dZ ddZ phi).mpr he'
    rw [h1, hd]
    have hm : calcSystemMatrix ({ s with p := 0, g := 0 } : Self) = calcSystemMatrix s := rfl
    have hl : getLoadVector ({ s with p := 0, g := 0 } : Self) phi = 0 := by
      funext i
      fin_cases i <;> simp [getLoadVector, getWeightLoad, getSurfaceLoad]
    unfold dzdx dzdxdx
    rw [hm, hl, add_zero]
  set J := downTo planeStrain s.slab (-s.h / 2) (fun y => ddZ 1 + ddZ 5 * y) with hJ
  set L := downTo planeStrain s.slab (-s.h / 2) (fun y => y * (ddZ 1 + ddZ 5 * y)) with hL
  set A := downTo planeStrain s.slab (-s.h / 2) (fun _ => 1) with hA
  set W := downTo (weightN s.g phi) s.slab (-s.h / 2) (fun y => 1 + 0 * y) with hW
  have hEp : ∀ l ∈ s.slab, 0 < planeStrain l := by
    intro l hl
    have h := hsl.valid l hl
    have : 0 < 1 - l.nu ^ 2 := by nlinarith [h.nu_lo, h.nu_hi]
    exact div_pos h.E this
  have k1 := cumTrap_mesh hdz s.slab hv (-s.h / 2) planeStrain (fun p => p.E / (1 - p.nu ^ 2)) (fun _ _ => rfl)
    (ddZ 1) (ddZ 5)
  have k2 := cumTrap_mesh hdz s.slab hv (-s.h / 2) (weightN s.g phi)
    (fun p => -(1e-12 * p.rho * s.g * Real.cos (deg2rad phi))) (fun _ _ => rfl) 1 0
  have e1 : ∀ p : MeshPt, p.E / (1 - p.nu ^ 2) * (du0dxdxdx s Z phi + p.z * dpsidxdxdx s Z phi)
      = p.E / (1 - p.nu ^ 2) * (ddZ 1 + ddZ 5 * p.z) := by
    intro p; rw [hdd]; unfold du0dxdxdx dpsidxdxdx; ring
  rw [← getZmesh_eq] at k1 k2
  have k2' : cumTrap 0 ((getZmesh s dz).map fun p => (p.z, -(1e-12 * p.rho * s.g * Real.cos (deg2rad phi))))
      = (getZmesh s dz).map fun p => W p.z := by
    rw [hW, ← k2]; congr 1; apply List.map_congr_left; intro p _; congr 1; ring
  have hstep : ∀ p q, MeshStep dz (-s.h / 2) s.slab p q → ∃ r, 0 ≤ r ∧ r ≤ dz ^ 2 / 12 * A q.z - dz ^ 2 / 12 * A p.z ∧
      (q.z - p.z) * (J p.z + J q.z) / 2 = (q.z * J q.z - L q.z) - (p.z * J p.z - L p.z) + ddZ 5 * r := by
    intro p q h
    rcases h with h | ⟨a, l, h1, h2⟩
    · exact ⟨0, le_rfl, by rw [h]; simp, by rw [h]; ring⟩
    · have s1 := downTo_step planeStrain (fun y => ddZ 1 + ddZ 5 * y) (by fun_prop) hv h1 h2
      have s2 := downTo_step planeStrain (fun y => y * (ddZ 1 + ddZ 5 * y)) (by fun_prop) hv h1 h2
      have s3 := downTo_step planeStrain (fun _ => 1) (by fun_prop) hv h1 h2
      rw [← hJ] at s1
      rw [← hL] at s2
      rw [← hA, intervalIntegral.integral_const] at s3
      have i1 : (∫ y in p.z..q.z, (ddZ 1 + ddZ 5 * y)) = ddZ 1 * (q.z - p.z) + ddZ 5 * ((q.z ^ 2 - p.z ^ 2) / 2) := by
        rw [intervalIntegral.integral_add (by simp) (by apply Continuous.intervalIntegrable; fun_prop),
          intervalIntegral.integral_const_mul, integral_id, intervalIntegral.integral_const, smul_eq_mul]
        ring
      have i2 : (∫ y in p.z..q.z, y * (ddZ 1 + ddZ 5 * y))
          = ddZ 1 * ((q.z ^ 2 - p.z ^ 2) / 2) + ddZ 5 * ((q.z ^ 3 - p.z ^ 3) / 3) := by
        have e : (fun y : ℝ => y * (ddZ 1 + ddZ 5 * y)) = fun y => ddZ 1 * y + ddZ 5 * y ^ 2 := by funext y; ring
        rw [e, intervalIntegral.integral_add (by apply Continuous.intervalIntegrable; fun_prop)
          (by apply Continuous.intervalIntegrable; fun_prop), intervalIntegral.integral_const_mul,
          intervalIntegral.integral_const_mul, integral_id, integral_pow]
        push_cast; ring
      rw [i1] at s1
      rw [i2] at s2
      simp only [smul_eq_mul, mul_one] at s3
      have hE := hEp l h1.mem
      have hd0 : 0 < q.z - p.z := by linarith [h2.lt]
      have hd2 : q.z - p.z ≤ dz := by linarith [h2.le]
      have hsq : (q.z - p.z) ^ 2 ≤ dz ^ 2 := pow_le_pow_left₀ hd0.le hd2 2
      refine ⟨planeStrain l * (q.z - p.z) ^ 3 / 12, by positivity, ?_, ?_⟩
      · rw [← mul_sub, s3]
        have : planeStrain l * (q.z - p.z) * (q.z - p.z) ^ 2 ≤ planeStrain l * (q.z - p.z) * dz ^ 2 :=
          mul_le_mul_of_nonneg_left hsq (by positivity)
        nlinarith
      · have : J q.z = J p.z + planeStrain l * (ddZ 1 * (q.z - p.z) + ddZ 5 * ((q.z ^ 2 - p.z ^ 2) / 2)) := by linarith
        have hL2 : L q.z = L p.z + planeStrain l * (ddZ 1 * ((q.z ^ 2 - p.z ^ 2) / 2) + ddZ 5 * ((q.z ^ 3 - p.z ^ 3) / 3)) := by
          linarith
        rw [this, hL2]
        ring
  have hchain := meshFrom_chain hdz s.slab hv (-s.h / 2)
  have hhead := (C33_range s hsl dz hdz).1
  have hbnd : ∀ p ∈ getZmesh s dz, -s.h / 2 ≤ p.z ∧ p.z ≤ s.h / 2 := by
    intro p hp
    rw [getZmesh_eq] at hp
    have hb := meshFrom_bounds hdz s.slab hv _ hp
    rw [← hsl.h] at hb
    constructor <;> linarith [hb.1, hb.2]
  rw [← getZmesh_eq] at hchain
  have hAmono : ∀ p ∈ getZmesh s dz, A p.z ≤ s.A11 := by
    have hAend : A (s.h / 2) = s.A11 := by rw [hA, hs.laminate.1, hsl.h]; rfl
    have hchA : (getZmesh s dz).IsChain fun p q => A p.z ≤ A q.z := by
      refine hchain.imp fun p q h => ?_
      obtain ⟨r, hr0, hr1, -⟩ := hstep p q h
      have : 0 < dz ^ 2 / 12 := by positivity
      nlinarith
    have hlast := (C33_range s hsl dz hdz).2.1
    intro p hp
    have hpw : (getZmesh s dz).Pairwise fun p q => A p.z ≤ A q.z := by
      have : IsTrans MeshPt (fun p q => A p.z ≤ A q.z) := ⟨fun a b c h1 h2 => le_trans h1 h2⟩
      exact List.isChain_iff_pairwise.mp hchA
    cases hm : (getZmesh s dz).getLast? with
    | none => rw [hm] at hlast; simp at hlast
    | some q =>
      rw [hm] at hlast
      simp only [Option.map_some, Option.some.injEq] at hlast
      rw [← hAend, ← hlast]
      obtain ⟨ini, hini⟩ := List.getLast?_eq_some_iff.mp hm
      rw [hini, List.pairwise_append] at hpw
      rw [hini, List.mem_append] at hp
      rcases hp with hp | hp
      · exact hpw.2.2 p hp q (by simp)
      · simp only [List.mem_singleton] at hp; rw [hp]
  cases hm : getZmesh s dz with
  | nil => rw [hm] at hhead; simp at hhead
  | cons p0 ps =>
    rw [hm] at hchain hhead k1 k2' hAmono hbnd
    simp only [List.head?_cons, Option.map_some, Option.some.injEq] at hhead
    obtain ⟨rs, r1, r2, r3⟩ := cumTrap_between (fun p => J p.z) (fun z => z * J z - L z) (fun z => dz ^ 2 / 12 * A z)
      (ddZ 5) p0 ps (hchain.imp fun p q h => hstep p q h) 0
    have hG0 : p0.z * J p0.z - L p0.z = 0 := by rw [hhead, hJ, hL, downTo_top, downTo_top]; ring
    have hA0 : A p0.z = 0 := by rw [hhead, hA, downTo_top]
    have hW0 : W p0.z = 0 := by rw [hhead, hW, downTo_top]
    have hval : fSzz s Z phi dz unit = .ok (List.zipWith (fun (p : MeshPt) r =>
        c * (p.z * J p.z - L p.z + ddZ 5 * r + W p.z)) (p0 :: ps) rs) := by
      unfold fSzz
      rw [hc]
      show Except.ok _ = _
      congr 1
      simp only [e1]
      rw [hm, k1, k2']
      have hz : List.zipWith (fun (p : MeshPt) y => (p.z, y)) (p0 :: ps) ((p0 :: ps).map fun p => J p.z)
          = (p0 :: ps).map fun p => (p.z, J p.z) := by
        rw [List.zipWith_map_right, List.zipWith_self]
      rw [hz, r2]
      simp only [hG0, sub_zero, zero_add]
      apply List.ext_getElem
      · simp [r1]
      · intro i h1 h2
        simp only [List.getElem_map, List.getElem_zipWith]
    refine ⟨_, hval, ?_, ?_, ?_⟩
    · simp at r1 ⊢; omega
    · cases rs with
      | nil => simp at r1
      | cons r rs =>
        have := r3 (p0, r) (by simp)
        simp only [sub_self] at this
        have hr0 : r = 0 := le_antisymm this.2 this.1
        simp [hG0, hW0, hr0]
    · intro x hx
      obtain ⟨i, hi, rfl⟩ := List.getElem_of_mem hx
      have hi0 := hi
      rw [List.length_zip, List.length_zipWith, r1] at hi0
      have hi1 : i < (p0 :: ps).length := by omega
      have hi2 : i < rs.length := by omega
      simp only [List.getElem_zip, List.getElem_zipWith]
      have hp := List.getElem_mem hi1
      have hri := r3 ((p0 :: ps)[i], rs[i]) (by
        rw [List.mem_iff_getElem]
        exact ⟨i, by rw [List.length_zip]; omega, by simp only [List.getElem_zip]⟩)
      generalize (p0 :: ps)[i] = p at hp hri
      generalize rs[i] = r at hri
      simp only [hA0, mul_zero, sub_zero] at hri
      rw [transverse_split s hsl phi ddZ p.z (hbnd p hp).1 (hbnd p hp).2]
      have e : c * (p.z * J p.z - L p.z + ddZ 5 * r + W p.z) - c * (p.z * J p.z - L p.z + W p.z) = c * (ddZ 5 * r) := by ring
      rw [e, abs_mul, abs_of_nonneg hc0, abs_mul, abs_of_nonneg hri.1]
      refine mul_le_mul_of_nonneg_left ?_ hc0
      have h1 : dz ^ 2 / 12 * A p.z ≤ dz ^ 2 / 12 * s.A11 := mul_le_mul_of_nonneg_left (hAmono p hp) (by positivity)
      have : |ddZ 5| * r ≤ |ddZ 5| * (dz ^ 2 / 12 * s.A11) := mul_le_mul_of_nonneg_left (by linarith [hri.2]) (abs_nonneg _)
      linarith

/-- At the bottom surface the exact value is the weak-layer normal stress,
plus the normal surface load, minus half the weak-layer thickness times the
rate of its shear stress. -/
theorem slabTransverse_bottom (eig : EigSolver) (s : Self) (hs : Ready eig s) (phi : ℝ) (Z dZ ddZ : Vec6)
    (he : EquilBedded s.beam (s.loads phi) Z dZ) (he' : EquilBedded s.beam Loads.zero dZ ddZ) :
    slabTransverse s phi ddZ (s.h / 2) = fsig s Z + (s.loads phi).pn - s.t / 2 * s.beam.tau dZ := by
  have hh := hs.stiff.h.le
  have b1 : ∀ f g, downTo f s.slab (-s.h / 2) g (s.h / 2) = slabIntegral Layer.h f s.slab g := by
    intro f g; rw [hs.slab.h]; rfl
  rw [transverse_split s hs.slab phi ddZ _ (by linarith) le_rfl, b1, b1, b1, slab_axial eig s hs, slab_moment eig s hs]
  have hW : slabIntegral Layer.h (weightN s.g phi) s.slab (fun y => 1 + 0 * y) = -(s.loads phi).qn := by
    have hn : ∀ l ∈ s.slab, 0 ≤ l.h := fun l hl => (hs.slab.pos l hl).le
    rw [slabIntegral_eq _ _ _ (by fun_prop) _ hn]
    have : ∀ (ls : List Layer) (top : ℝ), layerSum Layer.h (fun l a b => weightN s.g phi l * ∫ y in a..b, (1 + 0 * y)) top ls
        = -((ls.map fun l => l.rho * s.g * 1e-12 * l.h).sum * Real.cos (deg2rad phi)) := by
      intro ls
      induction ls with
      | nil => intro top; simp [layerSum]
      | cons l ls ih =>
        intro top
        rw [layerSum, ih]
        simp only [List.map_cons, List.sum_cons, zero_mul, add_zero,
          intervalIntegral.integral_const, smul_eq_mul, weightN]
        ring
    rw [this]
    simp only [Self.loads, getWeightLoad]
    try (congr 2; congr 1; apply List.map_congr_left; intro l _; ring)
  rw [hW]
  have h1 := he'.N
  have h2 := he'.M
  have h3 := he.V
  have h4 : fsig s Z = -(s.kn * Z 2) := (C09_field_quantities s Z).2.2.2.2
  simp only [Loads.zero, add_zero, sub_zero, mul_zero, Beam.V] at h1 h2 h3
  rw [h4]
  simp only [Self.beam] at h1 h2 h3 ⊢
  rw [h3] at h2
  rw [h1, h2]
  ring

/-- Surfaces: zero at the top, weak-layer normal stress (with the corrections
above) at the bottom, up to a quadratic error in the mesh size. -/
theorem C41_surfaces_partial (eig : EigSolver) (s : Self) (hs : Ready eig s) (dz : ℝ) (hdz : 0 < dz) (phi : ℝ)
    (Z dZ ddZ : Vec6) (he : EquilBedded s.beam (s.loads phi) Z dZ) (he' : EquilBedded s.beam Loads.zero dZ ddZ)
    (unit : String) (c : ℝ) (hc : convertStress unit = .ok c) (hc0 : 0 ≤ c) :
    ∃ S b, fSzz s Z phi dz unit = .ok S ∧ S.head? = some 0 ∧ S.getLast? = some b ∧
      |b - c * (fsig s Z + (s.loads phi).pn - s.t / 2 * s.beam.tau dZ)| ≤ c * (|ddZ 5| * s.A11 * dz ^ 2 / 12) := by
  obtain ⟨S, h1, h2, h3, h4⟩ := C41_transverse_stress_partial eig s hs dz hdz phi Z dZ ddZ he he' unit c hc hc0
  have hlast := (C33_range s hs.slab dz hdz).2.1
  cases hm : (getZmesh s dz).getLast? with
  | none => rw [hm] at hlast; simp at hlast
  | some q =>
    cases hb : S.getLast? with
    | none =>
      rw [List.getLast?_eq_none_iff] at hb
      rw [hb] at h3; simp at h3
    | some b =>
      refine ⟨S, b, h1, h3, hb, ?_⟩
      rw [hm] at hlast
      simp only [Option.map_some, Option.some.injEq] at hlast
      have := h4 (q, b) (by
        obtain ⟨i1, e1⟩ := List.getLast?_eq_some_iff.mp hm
        obtain ⟨i2, e2⟩ := List.getLast?_eq_some_iff.mp hb
        rw [e1, e2] at h2 ⊢
        simp only [List.length_append, List.length_singleton] at h2
        rw [List.zip_append (by omega)]
        simp)
      simp only [hlast] at this
      rwa [slabTransverse_bottom eig s hs phi Z dZ ddZ he he'] at this

/-- The second derivative that equilibrium demands of a supported part. -/
theorem equil_second (s : Self) (hr : Regular s) (dZ : Vec6) :
    EquilBedded s.beam Loads.zero dZ ((calcSystemMatrix s).mulVec dZ) := by
  have h0 : Loads.zero = ({ s with p := 0, g := 0 } : Self).loads 0 := by
    simp [Loads.zero, Self.loads, getWeightLoad, getSurfaceLoad]
  have hr' : Regular ({ s with p := 0, g := 0 } : Self) := ⟨hr.A11, hr.kA55, hr.kn, hr.kt, hr.K0, hr.K0_eq⟩
  have h1 := (C09_dzdx_iff_equilibrium _ hr' dZ _ 0).mp rfl
  have hl : getLoadVector ({ s with p := 0, g := 0 } : Self) 0 = 0 := by
    funext i
    fin_cases i <;> simp [getLoadVector, getWeightLoad, getSurfaceLoad]
  unfold dzdx at h1
  rw [hl, add_zero, ← h0] at h1
  exact h1

/-- Violation: there are states of an unsupported part of the slab for which
the reported transverse stress at the free bottom surface is not zero, for
every sufficiently fine mesh. -/
theorem C41_free_violated (eig : EigSolver) (s : Self) (hs : Ready eig s) (hp : s.p = 0)
    (hk : s.t ^ 2 * s.kt ≠ 4 * s.kA55) (phi x l : ℝ) :
    ∃ (C : Vec6) (e : ℝ), 0 < e ∧ ∀ dz, 0 < dz → dz ≤ e →
      ∃ (S : List ℝ) (b : ℝ), fSzz s (zsol s x C l phi false) phi dz "MPa" = .ok S ∧ S.getLast? = some b ∧ b ≠ 0 := by
  have hst := hs.stiff
  have hr := hst.regular
  obtain ⟨c, hc, hc0, hc1, -⟩ := convertStress_dom (unit := "MPa") (Or.inr rfl)
  have hpn : (s.loads phi).pn = 0 := by simp [Self.loads, getSurfaceLoad, hp]
  set P := zp s x phi false with hP
  set B0 := fsig s P - s.t / 2 * s.beam.tau (dzdx s P phi) with hB0
  set al := -s.kn + s.t ^ 2 * s.kt * s.kn / (4 * s.kA55) with hal
  have hal0 : al ≠ 0 := by
    have h1 := hst.kn.ne'
    have h2 := hst.kA55.ne'
    rw [hal]
    intro h
    apply hk
    field_simp at h
    rw [mul_zero] at h
    rcases mul_eq_zero.mp h with h | h
    · exact absurd h h1
    · linarith
  set a := (1 - B0) / al with ha
  set C : Vec6 := fun i => if i = 0 then a else 0 with hC
  have hZ : ∀ i, zsol s x C l phi false i = (if i = 2 then a else 0) + P i := by
    intro i
    show ((zh s x l false).mulVec C + P) i = _
    rw [Pi.add_apply]
    congr 1
    rw [hC]
    fin_cases i <;> simp [zh, zhFree, Matrix.mulVec, dotProduct]
  set Z := zsol s x C l phi false with hZd
  have hZi : Z 1 = P 1 ∧ Z 2 = a + P 2 ∧ Z 5 = P 5 := by
    refine ⟨?_, ?_, ?_⟩
    · rw [hZ]; simp
    · rw [hZ]; simp
    · rw [hZ]; simp
  have hval : fsig s Z + (s.loads phi).pn - s.t / 2 * s.beam.tau (dzdx s Z phi) = 1 := by
    have t1 : ∀ z, s.beam.tau (dzdx s z phi) = s.kt * (z 1 + s.h / 2 * z 5 - s.t / 2 * (s.kn / s.kA55 * z 2 - z 5
        - ((s.loads phi).qn + (s.loads phi).pn) / s.kA55)) := by
      intro z
      simp only [Beam.tau, Self.beam, dzdx_0, dzdx_3, dzdx_4]
    have s1 : ∀ z : Vec6, fsig s z = -(s.kn * z 2) := fun z => (C09_field_quantities s z).2.2.2.2
    have e : fsig s Z + (s.loads phi).pn - s.t / 2 * s.beam.tau (dzdx s Z phi) = B0 + a * al := by
      rw [hpn, hB0, t1, t1, s1, s1, hZi.1, hZi.2.1, hZi.2.2, hal]
      have h2 := hst.kA55.ne'
      field_simp
      ring
    rw [e, ha]
    field_simp
    ring
  have he := (C09_dzdx_iff_equilibrium s hr Z _ phi).mp rfl
  have he' := equil_second s hr (dzdx s Z phi)
  set q := |(calcSystemMatrix s).mulVec (dzdx s Z phi) 5| * s.A11 / 12 with hq
  have hq0 : 0 ≤ q := by have := hst.A11; positivity
  refine ⟨C, min 1 (1 / (2 * (q + 1))), by positivity, fun dz hdz hle => ?_⟩
  obtain ⟨S, b, h1, -, h2, h3⟩ := C41_surfaces_partial eig s hs dz hdz phi Z _ _ he he' "MPa" c hc hc0.le
  refine ⟨S, b, h1, h2, ?_⟩
  rintro rfl
  rw [hval, hc1 rfl, mul_one, one_mul, zero_sub, abs_neg, abs_one] at h3
  have hle1 : dz ≤ 1 := hle.trans (min_le_left _ _)
  have hle2 : dz ≤ 1 / (2 * (q + 1)) := hle.trans (min_le_right _ _)
  have hd2 : dz ^ 2 ≤ dz := by nlinarith
  have h4 : q * dz ^ 2 ≤ (q + 1) * (1 / (2 * (q + 1))) := mul_le_mul (by linarith) (hd2.trans hle2) (by positivity) (by linarith)
  have h5 : (q + 1) * (1 / (2 * (q + 1))) = 1 / 2 := by field_simp
  have h6 : |(calcSystemMatrix s).mulVec (dzdx s Z phi) 5| * s.A11 * dz ^ 2 / 12 = q * dz ^ 2 := by rw [hq]; ring
  linarith

example (eig : EigSolver) : ∃ (C : Vec6) (e : ℝ), 0 < e ∧ ∀ dz, 0 < dz → dz ≤ e → ∃ (S : List ℝ) (b : ℝ),
    fSzz (demo eig "pst-" false) (zsol (demo eig "pst-" false) 10 C 100 30 false) 30 dz "MPa" = .ok S ∧
      S.getLast? = some b ∧ b ≠ 0 := by
  obtain ⟨-, hkt, -, -, -, hS, -, ht, -, -, hp, -⟩ := demo_fields eig "pst-" false
  refine C41_free_violated eig _ (demo_ready eig "pst-" false) hp ?_ 30 10 100
  rw [hkt, hS, ht]
  norm_num

end Weac
