import Verif.Lemmas.Drift
import Verif.Props.Continuity
import Verif.Props.Workflow

/-! # C89: the solution depends continuously on the materials -/

namespace Weac

variable {T : Type*} [TopologicalSpace T]

open Spec

/-- Objects and inputs that vary continuously: stiffnesses, geometry, weight and
surface load of the slab, stiffnesses of the weak layer, touchdown, slope,
segment lengths and skier weights. Fixed are system type, stage of touchdown and
support. Nothing is said about the
eigenvalues and eigenvectors stored in the objects. -/
structure Spec.Alters (s : T → Self) (phi : T → ℝ) (a : T → SegLists) (n : ℕ) (ki : List Bool) : Prop where
  system : ∀ t t', (s t).system = (s t').system
  mode : ∀ t t', (s t).mode = (s t').mode
  beam : Beam.Drifts fun t => (s t).beam
  zs : Continuous fun t => (s t).zs
  weight : Continuous fun t => ((s t).slab.map fun l => l.rho * 1e-12 * (s t).g * l.h).sum
  surface : Continuous fun t => (s t).p
  g : Continuous fun t => (s t).g
  lski : Continuous fun t => (s t).lski
  ski : ∀ t, (s t).lski ≠ 0
  slope : Continuous fun t => (s t).phi
  crack : Continuous fun t => (s t).a
  td : Continuous fun t => (s t).td
  tc : Continuous fun t => (s t).tc
  face : (∃ t, IsVpst (s t)) → EndCond.Drifts fun t => faceForces (s t) (phi t)
  len : ∀ t, (a t).li.length = n
  support : ∀ t, (a t).ki = ki
  angle : Continuous phi
  lengths : ∀ i, Continuous fun t => nth (a t).li i
  weights : ∀ i, Continuous fun t => nth (a t).mi i

namespace Spec.Alters

variable {s : T → Self} {phi : T → ℝ} {a : T → SegLists} {n : ℕ} {ki : List Bool}

theorem loads (h : Alters s phi a n ki) {psi : T → ℝ} (hp : Continuous psi) :
    (Continuous fun t => (getWeightLoad (s t) (psi t)).1) ∧ (Continuous fun t => (getWeightLoad (s t) (psi t)).2) ∧
    (Continuous fun t => (getSurfaceLoad (s t) (psi t)).1) ∧ Continuous fun t => (getSurfaceLoad (s t) (psi t)).2 := by
  have h1 := h.weight
  have h2 := h.surface
  have h3 := continuous_deg2rad hp
  simp only [getWeightLoad, getSurfaceLoad]
  exact ⟨by fun_prop, by fun_prop, by fun_prop, by fun_prop⟩

theorem zp (h : Alters s phi a n ki) (hs : ∀ t, Stiff (s t)) {x psi : T → ℝ} (hx : Continuous x) (hp : Continuous psi)
    (bed : Bool) : Continuous fun t => zp (s t) (x t) (psi t) bed := by
  obtain ⟨l1, l2, l3, l4⟩ := h.loads hp
  obtain ⟨hA, hB, hD, hS, hkn, hkt, hh, ht⟩ := h.beam
  have hzs := h.zs
  simp only [Self.beam] at hA hB hD hS hkn hkt hh ht
  have n1 : ∀ t, (s t).A11 ≠ 0 := fun t => (hs t).A11.ne'
  have n2 : ∀ t, (s t).kA55 ≠ 0 := fun t => (hs t).kA55.ne'
  have n3 : ∀ t, (s t).kn ≠ 0 := fun t => (hs t).kn.ne'
  have n4 : ∀ t, (s t).kt ≠ 0 := fun t => (hs t).kt.ne'
  have n5 : ∀ t, (s t).K0 ≠ 0 := fun t => (hs t).K0.ne
  have hK : Continuous fun t => (s t).K0 := by
    simp only [fun t => (hs t).K0_eq]
    fun_prop
  have m1 : ∀ t, 2 * (s t).kA55 ≠ 0 := fun t => mul_ne_zero two_ne_zero (n2 t)
  have m2 : ∀ t, 4 * (s t).kA55 ≠ 0 := fun t => mul_ne_zero four_ne_zero (n2 t)
  have m3 : ∀ t, 24 * (s t).K0 ≠ 0 := fun t => mul_ne_zero (by norm_num) (n5 t)
  have m4 : ∀ t, 6 * (s t).K0 ≠ 0 := fun t => mul_ne_zero (by norm_num) (n5 t)
  have m5 : ∀ t, 2 * (s t).K0 ≠ 0 := fun t => mul_ne_zero (by norm_num) (n5 t)
  refine continuous_pi fun q => ?_
  cases bed <;> fin_cases q <;> simp [Weac.zp] <;> fun_prop (disch := assumption)

theorem kinds (h : Alters s phi a n ki) (t t' : T) : (IsPst (s t) ↔ IsPst (s t')) ∧ (IsVpst (s t) ↔ IsVpst (s t')) ∧
    (IsSkier (s t) ↔ IsSkier (s t')) ∧ (IsAux (s t) ↔ IsAux (s t')) := by
  unfold IsPst IsVpst IsSkier IsAux
  rw [h.system t t']
  exact ⟨Iff.rfl, Iff.rfl, Iff.rfl, Iff.rfl⟩

theorem ends (h : Alters s phi a n ki) (hs : ∀ t, Stiff (s t)) {kR : T → ℝ} (hR : ∀ t, IsPst (s t) → (s t).mode = .C → Continuous kR)
    (t0 : T) (e : Side) (k : Bool) :
    EndCond.Drifts fun t => endCond (s t) (phi t) (kR t) e k := by
  have hk := fun t => h.kinds t t0
  unfold endCond
  simp only [fun t => propext (hk t).1, fun t => propext (hk t).2.1, fun t => propext (hk t).2.2.1, fun t => h.system t t0,
    fun t => h.mode t t0]
  obtain ⟨l1, l2, l3, l4⟩ := h.loads h.slope
  have c0 : Continuous fun _ : T => (0 : ℝ) := continuous_const
  have c1 : Continuous fun _ : T => (1 : ℝ) := continuous_const
  have h1 := h.crack; have h2 := h.td; have h3 := h.tc
  split_ifs with i1 i2 i3 i4 i5
  · exact .forces c0 c0 c0
  · cases hm : (s t0).mode with
    | unset => exact .forces c0 c0 c0
    | A => exact .forces c0 c0 c0
    | B => exact .contact c0 c0 h3
    | C =>
      refine .contact ?_ (continuous_const.mul (hR t0 i1 hm)) h3
      simp only [Self.tangential, Self.loads]
      fun_prop
  · exact h.face ⟨t0, i3⟩
  · have hz := continuous_pi_iff.1 (h.zp hs c0 h.angle true)
    exact .state (hz 0) (hz 2) (hz 4)
  · cases e
    · exact .forces c0 c1 c0
    · exact .forces c0 c0 c0
  · cases e
    · exact .forces c0 c0 c1
    · exact .forces c0 c0 c0

theorem jumps (h : Alters s phi a n ki) (t0 : T) (i : ℕ) : Continuous fun t => jump (s t) (phi t) (a t).mi i := by
  have hk := fun t => h.kinds t t0
  unfold jump getSkierLoad
  simp only [fun t => propext (hk t).2.2.2]
  have h1 := h.weights i; have h2 := continuous_deg2rad h.angle; have h3 := h.beam.h; have h4 := h.g; have h5 := h.lski; have h6 := h.ski
  simp only [Self.beam] at h3
  split_ifs
  · exact continuous_const
  · fun_prop (disch := assumption)

end Spec.Alters

/-- C89: the states of the slab depend continuously on stiffnesses, weights and
all other inputs, if they meet the conditions of the system and the objects hold
a complete set of solutions, whatever their eigenvectors are. -/
theorem meets_continuous {s : T → Self} {kR phi : T → ℝ} {a : T → SegLists} {n : ℕ} {ki : List Bool} (h : Alters s phi a n ki)
    (hb : ∀ t, BedOk (s t)) (hc : ∀ t, ShearOk (s t)) (hk : ∀ t, 0 ≤ kR t)
    (hR : ∀ t, IsPst (s t) → (s t).mode = .C → Continuous kR) (hsup : ∀ t, Held (s t) (a t)) {C : T → ℕ → Vec6}
    (hC : ∀ t, Meets (s t) (phi t) (kR t) (a t) (C t)) (i : ℕ) (hi : i < n) {x : T → ℝ} (hx : Continuous x) :
    Continuous fun t => stateAt (s t) (phi t) (a t).li (a t).ki (C t) i (x t) := by
  rcases isEmpty_or_nonempty T with hT | ⟨⟨t0⟩⟩
  · exact continuous_of_discreteTopology
  have hs := fun t => (hb t).stiff
  refine chain_drift h.beam (fun t => (hs t).coercive (hc t)) n (fun i t => nth (a t).li i) h.lengths (fun i => ki.getD i false)
    (fun t i hi => ?_) (fun i t => jump (s t) (phi t) (a t).mi i) (h.jumps t0) (h.ends hs hR t0 .left (ki.getD 0 false))
    (h.ends hs hR t0 .right (ki.getD (n - 1) false)) (fun t => endCond_passive_left _ _ _ _ (hk t))
    (fun t => endCond_passive_right _ _ _ _ (hk t)) (fun t => ?_) (fun t i x => zp (s t) x (phi t) (ki.getD i false))
    (fun t i x => (zh (s t) x (nth (a t).li i) ((a t).ki.getD i false)).mulVec (C t i)) (fun i x hx => h.zp hs hx h.angle _)
    (fun t i hi => ?_) (fun t => ?_) i hi x hx |>.congr fun t => ?_
  · apply (hsup t).nonneg
    rw [nth, List.getD_eq_getElem _ _ (by rw [h.len]; exact hi)]
    exact List.getElem_mem _
  · obtain ⟨j, h1, h2, h3⟩ := (hsup t).first
    rw [h.len] at h1
    rw [h.support] at h3
    exact ⟨j, h1, h2, h3.imp_right fun h => ⟨skier_state _ _ _ _ _ h.1, h.2⟩⟩
  · rw [← h.support t]
    exact zh_solves (s t) (hb t) _ _ _
  · have := hC t
    unfold Meets at this
    simp only [h.len, h.support] at this
    simp only [h.support]
    exact this
  · simp only [stateAt, zsol, h.support]

/-! ### From layers and weak layer to the object -/

theorem continuous_layerSum {α : Type} {thick : α → ℝ} (G : T → α → ℝ → ℝ → ℝ) (F : List (T → α))
    (hh : ∀ f ∈ F, Continuous fun t => thick (f t))
    (hG : ∀ f ∈ F, ∀ a b : T → ℝ, Continuous a → Continuous b → Continuous fun t => G t (f t) (a t) (b t))
    (top : T → ℝ) (ht : Continuous top) : Continuous fun t => layerSum thick (G t) (top t) (F.map (· t)) := by
  induction F generalizing top with
  | nil => exact continuous_const
  | cons f F ih =>
    have h1 := hh f (by simp)
    simp only [List.map_cons, layerSum]
    exact (hG f (by simp) _ _ ht (ht.add h1)).add
      (ih (fun g hg => hh g (by simp [hg])) (fun g hg => hG g (by simp [hg])) _ (ht.add h1))

theorem continuous_total {α : Type} {thick : α → ℝ} (F : List (T → α)) (hh : ∀ f ∈ F, Continuous fun t => thick (f t)) :
    Continuous fun t => total thick (F.map (· t)) := by
  induction F with
  | nil => exact continuous_const
  | cons f F ih =>
    simp only [List.map_cons, total_cons]
    exact (hh f (by simp)).add (ih fun g hg => hh g (by simp [hg]))

/-- Rows of the layering that vary continuously. -/
def Spec.PliesDrift (F : List (T → Ply)) : Prop :=
  ∀ f ∈ F, (Continuous fun t => (f t).rho) ∧ Continuous fun t => (f t).h

theorem continuous_centroid {F : List (T → Ply)} (hF : PliesDrift F) (hv : ∀ t, ValidPlies (F.map (· t))) :
    Continuous fun t => (calcCenterOfGravity (F.map (· t))).2 := by
  have hH := continuous_total (thick := Ply.h) F fun f hf => (hF f hf).2
  have hth : ∀ t, ∀ l ∈ F.map (· t), 0 ≤ l.h := fun t l hl => ((hv t).2 l hl).2.le
  have e : ∀ t, (calcCenterOfGravity (F.map (· t))).2 =
      slabIntegral Ply.h Ply.rho (F.map (· t)) (fun z => z) / slabIntegral Ply.h Ply.rho (F.map (· t)) (fun _ => 1) := fun t => by
    obtain ⟨-, h1, h2, -⟩ := C01_center_of_gravity _ (hv t)
    rw [eq_div_iff h1.ne']
    exact h2
  simp only [e]
  refine Continuous.div ?_ ?_ fun t => (C01_center_of_gravity _ (hv t)).2.1.ne'
  · simp only [fun t => slabIntegral_eq Ply.h Ply.rho (fun z => z) continuous_id _ (hth t), integral_id]
    refine continuous_layerSum _ F (fun f hf => (hF f hf).2) (fun f hf a b ha hb => ?_) _ (hH.neg.div_const 2)
    have := (hF f hf).1
    fun_prop
  · simp only [fun t => slabIntegral_eq Ply.h Ply.rho (fun _ => 1) continuous_const _ (hth t), intervalIntegral.integral_const, smul_eq_mul, mul_one]
    refine continuous_layerSum _ F (fun f hf => (hF f hf).2) (fun f hf a b ha hb => ?_) _ (hH.neg.div_const 2)
    have := (hF f hf).1
    fun_prop

/-- The row of `slab` that belongs to a row of the layering. -/
noncomputable def plyRow (l : Ply) : Layer := ⟨l.rho, l.h, bergfeld l.rho 917 6.5 4.4, bergfeld l.rho 917 6.5 4.4 / (2 * (1 + 0.25)), 0.25⟩

theorem plyRow_drift {f : T → Ply} (h1 : Continuous fun t => (f t).rho)
    (hp : ∀ t, 0 < (f t).rho) : (Continuous fun t => (plyRow (f t)).E) ∧ Continuous fun t => (plyRow (f t)).G := by
  have : Continuous fun t => bergfeld (f t).rho 917 6.5 4.4 := by
    unfold bergfeld
    exact continuous_const.mul ((h1.div_const _).rpow_const fun t => .inl (div_pos (hp t) (by norm_num)).ne')
  exact ⟨this, this.div_const _⟩

/-- An object that belongs to a layering, a weak layer and a surface load. -/
structure Spec.MadeOf (eig : EigSolver) (ls : List Ply) (tw E nu p : ℝ) (s : Self) : Prop where
  ready : Ready eig s
  slab : s.slab = ls.map plyRow
  t : s.t = tw
  weak : s.weak = ⟨nu, E⟩
  p : s.p = p
  g : s.g = 9810
  lski : s.lski = 1000

theorem beam_drifts {eig : EigSolver} {F : List (T → Ply)} (hF : PliesDrift F) (hv : ∀ t, ValidPlies (F.map (· t))) {tw E nu p : T → ℝ}
    (ht : Continuous tw) (hE : Continuous E) (hnu : Continuous nu) {s : T → Self}
    (hs : ∀ t, MadeOf eig (F.map (· t)) (tw t) (E t) (nu t) (p t) (s t)) : Beam.Drifts fun t => (s t).beam := by
  have hrow : ∀ t, (s t).slab = (F.map fun f t => plyRow (f t)).map (· t) := fun t => by
    rw [(hs t).slab, List.map_map, List.map_map]; rfl
  have hpos : ∀ f ∈ F, ∀ t, 0 < (f t).rho := fun f hf t => ((hv t).2 (f t) (List.mem_map.2 ⟨f, hf, rfl⟩)).1
  have hR : ∀ r ∈ F.map (fun f t => plyRow (f t)), (Continuous fun t => (r t).h) ∧ (Continuous fun t => (r t).E) ∧
      (Continuous fun t => (r t).G) ∧ ∀ t, (r t).nu = 0.25 := by
    intro r hr
    obtain ⟨f, hf, rfl⟩ := List.mem_map.1 hr
    obtain ⟨d1, d2⟩ := plyRow_drift (hF f hf).1 (hpos f hf)
    exact ⟨(hF f hf).2, d1, d2, fun t => rfl⟩
  have hh : Continuous fun t => (s t).h := by
    simp only [fun t => (hs t).ready.slab.h, hrow]
    exact continuous_total _ fun r hr => (hR r hr).1
  have hk : ∀ t, (s t).k = 5 / 6 := fun t => (hs t).ready.slab.k
  have hfun : ∀ t, _ := fun t => (by
    have h := fundamental_fields eig (s t)
    rw [(hs t).ready.fresh] at h
    exact h)
  have hlam := fun t => laminate_eq (s t)
  have hw : ∀ t, (s t).weak.E = E t ∧ (s t).weak.nu = nu t ∧ (s t).t = tw t := fun t => by
    rw [(hs t).weak]; exact ⟨rfl, rfl, (hs t).t⟩
  have htop : Continuous fun t => -(s t).h / 2 := hh.neg.div_const 2
  have n1 : ∀ t, tw t ≠ 0 := fun t => by rw [← (hw t).2.2]; exact (hs t).ready.weak.t.ne'
  have n2 : ∀ t, 1 - nu t ^ 2 ≠ 0 := fun t => by
    have h1 := (hs t).ready.weak.nu_lo
    have h2 := (hs t).ready.weak.nu_hi
    rw [(hw t).2.1] at h1 h2
    nlinarith
  have n3 : ∀ t, 2 * (1 + nu t) ≠ 0 := fun t => by
    have h1 := (hs t).ready.weak.nu_lo
    rw [(hw t).2.1] at h1
    linarith
  have key : ∀ G : T → Layer → ℝ → ℝ → ℝ, (∀ r : T → Layer, (Continuous fun t => (r t).E) → (Continuous fun t => (r t).G) →
      (∀ t, (r t).nu = 0.25) → ∀ a b : T → ℝ, Continuous a → Continuous b → Continuous fun t => G t (r t) (a t) (b t)) →
      Continuous fun t => layerSum Layer.h (G t) (-(s t).h / 2) (s t).slab := by
    intro G hG
    simp only [hrow]
    exact continuous_layerSum G _ (fun r hr => (hR r hr).1)
      (fun r hr a b => hG r (hR r hr).2.1 (hR r hr).2.2.1 (hR r hr).2.2.2 a b) _ htop
  constructor <;> simp only [Self.beam]
  · simp only [fun t => (hfun t).2.2.1, hlam]
    refine key (fun _ l a b => l.E / (1 - l.nu ^ 2) * (b - a)) fun r h1 h2 h3 a b ha hb => ?_
    simp only [h3]; fun_prop
  · simp only [fun t => (hfun t).2.2.2.1, hlam]
    refine key (fun _ l a b => 1 / 2 * l.E / (1 - l.nu ^ 2) * (b ^ 2 - a ^ 2)) fun r h1 h2 h3 a b ha hb => ?_
    simp only [h3]; fun_prop
  · simp only [fun t => (hfun t).2.2.2.2.1, hlam]
    refine key (fun _ l a b => 1 / 3 * l.E / (1 - l.nu ^ 2) * (b ^ 3 - a ^ 3)) fun r h1 h2 h3 a b ha hb => ?_
    simp only [h3]; fun_prop
  · simp only [fun t => (hfun t).2.2.2.2.2.1, hlam]
    refine key (fun t l a b => (s t).k * l.G * (b - a)) fun r h1 h2 h3 a b ha hb => ?_
    simp only [hk]; fun_prop
  · simp only [fun t => (hfun t).1, calcFoundationStiffness, hw]
    exact (hE.div (by fun_prop) n2).div ht n1
  · simp only [fun t => (hfun t).2.1, calcFoundationStiffness, hw]
    exact (hE.div (by fun_prop) n3).div ht n1
  · exact hh
  · simpa only [hw] using ht

theorem loads_drift {eig : EigSolver} {F : List (T → Ply)} (hF : PliesDrift F) (hv : ∀ t, ValidPlies (F.map (· t))) {tw E nu p : T → ℝ}
    {s : T → Self} (hs : ∀ t, MadeOf eig (F.map (· t)) (tw t) (E t) (nu t) (p t) (s t)) :
    (Continuous fun t => (s t).zs) ∧ Continuous fun t => ((s t).slab.map fun l => l.rho * 1e-12 * (s t).g * l.h).sum := by
  have hply : ∀ t, (s t).slab.map Layer.ply = F.map (· t) := fun t => by
    rw [(hs t).slab, List.map_map, List.map_map]; rfl
  constructor
  · simp only [fun t => (hs t).ready.slab.zs, hply]
    exact continuous_centroid hF hv
  · have e : ∀ t, ((s t).slab.map fun l => l.rho * 1e-12 * (s t).g * l.h).sum
        = total (fun l : Ply => l.rho * 1e-12 * 9810 * l.h) (F.map (· t)) := fun t => by
      rw [(hs t).slab, (hs t).g, List.map_map]; rfl
    simp only [e]
    refine continuous_total F fun f hf => ?_
    have h1 := (hF f hf).1
    have h2 := (hF f hf).2
    fun_prop

theorem face_products (ls : List Ply) (hv : ValidPlies ls) (phi : ℝ) (hp : |phi| < 90) :
    (calcVerticalBcCenterOfGravity ls phi).2.2 = wedgeMass ls (deg2rad phi) ∧
    (calcVerticalBcCenterOfGravity ls phi).2.2 * (calcVerticalBcCenterOfGravity ls phi).2.1 = wedgeMomentZ ls (deg2rad phi) ∧
    (calcVerticalBcCenterOfGravity ls phi).2.2 * (calcVerticalBcCenterOfGravity ls phi).1
      = (total Ply.h ls / 2 * wedgeMass ls (deg2rad phi) - wedgeMomentZ ls (deg2rad phi)) * Real.tan (deg2rad phi / 2) := by
  obtain ⟨h0, h1⟩ := C03_wedge_partial ls hv phi
  have hth : ∀ l ∈ ls, 0 ≤ l.h := fun l hl => (hv.2 l hl).2.le
  by_cases hz : deg2rad phi = 0
  · rw [h0 hz, hz]
    have e1 : wedgeMass ls 0 = 0 := by
      have : ∀ (L : List Ply) (top : ℝ), layerSum Ply.h (fun l a b => l.h / 2 * (total Ply.h ls - a - b) * Real.tan 0 * (1e-12 * l.rho)) top L = 0 := by
        intro L
        induction L with
        | nil => intro top; rfl
        | cons l L ih => intro top; rw [layerSum, ih]; simp
      rw [wedgeMass_eq _ _ hth, this]
    have e2 : wedgeMomentZ ls 0 = 0 := by
      have : ∀ (L : List Ply) (top : ℝ), layerSum Ply.h (fun l a b => (total Ply.h ls / 4 * (b ^ 2 - a ^ 2) - (b ^ 3 - a ^ 3) / 3)
          * Real.tan 0 * (1e-12 * l.rho)) top L = 0 := by
        intro L
        induction L with
        | nil => intro top; rfl
        | cons l L ih => intro top; rw [layerSum, ih]; simp
      rw [wedgeMomentZ_eq _ _ hth, this]
    simp [e1, e2]
  · obtain ⟨p1, p2⟩ := abs_lt.1 hp
    have ht : Real.tan (deg2rad phi) ≠ 0 := by
      have hpi := Real.pi_pos
      intro h
      rw [Real.tan_eq_sin_div_cos, div_eq_zero_iff] at h
      have hlo : -(Real.pi / 2) < deg2rad phi := by unfold deg2rad; nlinarith
      have hhi : deg2rad phi < Real.pi / 2 := by unfold deg2rad; nlinarith
      rcases h with h | h
      · exact hz ((Real.sin_eq_zero_iff_of_lt_of_lt (by linarith) (by linarith)).1 h)
      · exact absurd h (Real.cos_pos_of_mem_Ioo ⟨hlo, hhi⟩).ne'
    obtain ⟨w1, w2, w3, w4⟩ := h1 ht
    rw [w1, w3, w4]
    refine ⟨rfl, by field_simp, by field_simp⟩

theorem face_drift {eig : EigSolver} {F : List (T → Ply)} (hF : PliesDrift F) (hv : ∀ t, ValidPlies (F.map (· t))) {tw E nu p phi : T → ℝ}
    {s : T → Self} (hs : ∀ t, MadeOf eig (F.map (· t)) (tw t) (E t) (nu t) (p t) (s t)) (hphi : Continuous phi) (hp : ∀ t, |phi t| < 90) :
    EndCond.Drifts fun t => faceForces (s t) (phi t) := by
  have hply : ∀ t, (s t).slab.map Layer.ply = F.map (· t) := fun t => by
    rw [(hs t).slab, List.map_map, List.map_map]; rfl
  have hpi := Real.pi_pos
  have hd := continuous_deg2rad hphi
  have hr : ∀ t, -(Real.pi / 2) < deg2rad (phi t) ∧ deg2rad (phi t) < Real.pi / 2 := fun t => by
    obtain ⟨p1, p2⟩ := abs_lt.1 (hp t)
    exact ⟨by unfold deg2rad; nlinarith, by unfold deg2rad; nlinarith⟩
  have htan : Continuous fun t => Real.tan (deg2rad (phi t)) := by
    simp only [Real.tan_eq_sin_div_cos]
    exact (Real.continuous_sin.comp hd).div (Real.continuous_cos.comp hd) fun t => (Real.cos_pos_of_mem_Ioo (hr t)).ne'
  have htan2 : Continuous fun t => Real.tan (deg2rad (phi t) / 2) := by
    simp only [Real.tan_eq_sin_div_cos]
    exact (Real.continuous_sin.comp (hd.div_const 2)).div (Real.continuous_cos.comp (hd.div_const 2)) fun t =>
      (Real.cos_pos_of_mem_Ioo ⟨by linarith [(hr t).1], by linarith [(hr t).2]⟩).ne'
  have hth : ∀ t, ∀ l ∈ F.map (· t), 0 ≤ l.h := fun t l hl => ((hv t).2 l hl).2.le
  have hH := continuous_total (thick := Ply.h) F fun f hf => (hF f hf).2
  have hW : Continuous fun t => wedgeMass (F.map (· t)) (deg2rad (phi t)) := by
    simp only [fun t => wedgeMass_eq _ (deg2rad (phi t)) (hth t)]
    refine continuous_layerSum (fun t l a b => l.h / 2 * (total Ply.h (F.map (· t)) - a - b) * Real.tan (deg2rad (phi t)) * (1e-12 * l.rho))
      F (fun f hf => (hF f hf).2) (fun f hf a b ha hb => ?_) _ (hH.neg.div_const 2)
    have h1 := (hF f hf).1
    have h2 := (hF f hf).2
    fun_prop
  have hZ : Continuous fun t => wedgeMomentZ (F.map (· t)) (deg2rad (phi t)) := by
    simp only [fun t => wedgeMomentZ_eq _ (deg2rad (phi t)) (hth t)]
    refine continuous_layerSum (fun t l a b => (total Ply.h (F.map (· t)) / 4 * (b ^ 2 - a ^ 2) - (b ^ 3 - a ^ 3) / 3)
          * Real.tan (deg2rad (phi t)) * (1e-12 * l.rho)) F (fun f hf => (hF f hf).2) (fun f hf a b ha hb => ?_) _ (hH.neg.div_const 2)
    have h1 := (hF f hf).1
    fun_prop
  have hs1 := Real.continuous_sin.comp hd
  have hc1 := Real.continuous_cos.comp hd
  have e : ∀ t, faceForces (s t) (phi t) = .forces (-(9810 * wedgeMass (F.map (· t)) (deg2rad (phi t)) * Real.sin (deg2rad (phi t))))
      (-(9810 * ((total Ply.h (F.map (· t)) / 2 * wedgeMass (F.map (· t)) (deg2rad (phi t)) - wedgeMomentZ (F.map (· t)) (deg2rad (phi t)))
        * Real.tan (deg2rad (phi t) / 2) * Real.cos (deg2rad (phi t)) + wedgeMomentZ (F.map (· t)) (deg2rad (phi t)) * Real.sin (deg2rad (phi t)))))
      (9810 * wedgeMass (F.map (· t)) (deg2rad (phi t)) * Real.cos (deg2rad (phi t))) := fun t => by
    obtain ⟨q1, q2, q3⟩ := face_products _ (hv t) (phi t) (hp t)
    rw [← q3, ← q2, ← q1]
    simp only [faceForces, hply, (hs t).g]
    congr 1
    ring
  simp only [e]
  simp only [Function.comp_def] at hs1 hc1
  refine .forces ?_ ?_ ?_ <;> fun_prop

/-! ### Substitute springs -/

theorem tip_drift {b : T → Beam} (hd : Beam.Drifts b) (hb : ∀ t, (b t).Coercive) {L N M V : T → ℝ} (hLc : Continuous L)
    (hL : ∀ t, 0 < L t) (hN : Continuous N) (hM : Continuous M) (hV : Continuous V) {Z : T → ℝ → Vec6}
    (hZ : ∀ t, TipLoaded (b t) (L t) (N t) (M t) (V t) (Z t)) : Continuous fun t => Z t 0 := by
  have c0 : Continuous fun _ : T => (0 : ℝ) := continuous_const
  have := chain_drift hd hb 1 (fun _ => L) (fun _ => hLc) (fun _ => true) (fun t _ _ => (hL t).le) (fun _ _ => (0, 0, 0))
    (fun _ => continuous_const) (.forces hN hM hV) (.forces c0 c0 c0) (fun t => trivial) (fun t => trivial)
    (fun t => ⟨0, by norm_num, hL t, .inl rfl⟩) (fun _ _ _ => 0) (fun t _ => Z t) (fun _ _ _ => continuous_const)
    (fun t _ _ => (hZ t).ode)
    (fun t => ⟨by simpa using (hZ t).loaded, by simpa using (hZ t).free, fun i hi => by omega⟩) 0 (by norm_num) (fun _ => 0) c0
  simpa using this

/-- C89: the spring that stands for the part of the slab that rests on the
collapsed weak layer depends continuously on all inputs. -/
theorem spring_continuous (num : Numerics) {s : T → Self} (hf : ∀ t, EigFresh num.eig (s t)) (hd : Beam.Drifts fun t => (s t).beam)
    (ha : Continuous fun t => (s t).a) (htd : Continuous fun t => (s t).td) (hr : Continuous fun t => (s t).ratio)
    (h : ∀ t, RestOk num (s t)) : Continuous fun t => valOf (spring num) (s t) := by
  have key := fun t => substitute_response num.eig ((s t).a - (s t).td) (sub_pos.2 (h t).td) true .rot (by simp) (s t) (hf t)
    (h t).bed (h t).shear
  choose k Z h1 h2 h3 using key
  simp only [if_true] at h2 h3
  have hco : ∀ t, ((s t).auxBeam true).Coercive := fun t => by
    rw [← prep_beam num.eig true .rot]; exact (h t).bed.stiff.coercive (h t).shear
  have hdr : Beam.Drifts fun t => (s t).auxBeam true := by
    obtain ⟨d1, d2, d3, d4, d5, d6, d7, d8⟩ := hd
    simp only [Self.beam] at d1 d2 d3 d4 d5 d6 d7 d8
    constructor <;> simp only [Self.auxBeam, Self.beam, if_true] <;> fun_prop
  have c0 : Continuous fun _ : T => (0 : ℝ) := continuous_const
  have c1 : Continuous fun _ : T => (1 : ℝ) := continuous_const
  have hz := tip_drift hdr hco (ha.sub htd) (fun t => sub_pos.2 (h t).td) c0 c1 c0 h2
  have hne : ∀ t, Z t 0 4 ≠ 0 := fun t => by
    have := (h2 t).work_neg (hco t) (sub_pos.2 (h t).td) (.inr (.inl one_ne_zero))
    simp only [zero_mul, one_mul, zero_add, add_zero] at this
    exact this.ne
  have e : ∀ t, valOf (spring num) (s t) = |1 / Z t 0 4| := fun t => by
    rw [← h3]
    apply valOf_ok (s' := s t)
    unfold spring
    rw [Py.get_bind]
    exact h1 t
  simp only [e]
  exact (continuous_const.div (continuous_pi_iff.1 hz 4) hne).abs

/-! ### Solutions -/

theorem Spec.Alters.full {s : T → Self} {phi : T → ℝ} {a : T → SegLists} {n : ℕ} {ki : List Bool} (h : Alters s phi a n ki)
    (h1 : 1 ≤ n) (hm : ∀ t, (a t).mi.length + 1 = n) : ∃ n' ki', Alters s phi (fun t => full (a t)) n' ki' := by
  have hno : ¬ IsVpst (Self.init "pst-") := by rintro (h | h) <;> exact absurd h (by decide)
  obtain ⟨n', ki', -, v⟩ := Varies.full (s := Self.init "pst-")
    ⟨fun hv => absurd hv hno, h.len, h.support, h.angle, h.lengths, h.weights⟩ h1 hm
  exact ⟨n', ki', { h with len := v.len, support := v.support, lengths := v.lengths, weights := v.weights }⟩

/-- C89. Objects and inputs that vary continuously: every problem has a solution,
the solver finds it, and displacements, rotations, their derivatives, section
forces, and weak-layer stresses at any position depend continuously on all of
them. The eigenvectors from which the solver builds the constants need not. -/
theorem C89_solution (num : Numerics) (kind : SeqKind) {s : T → Self} {phi : T → ℝ} {a : T → SegLists} {n : ℕ} {ki : List Bool}
    (h : Alters s phi a n ki) (hr : Continuous fun t => (s t).ratio) (hb : ∀ t, BedOk (s t)) (hc : ∀ t, ShearOk (s t))
    (hf : ∀ t, EigFresh num.eig (s t)) (hval : ∀ t, Valid (s t) (a t)) (hkd : kind = .list ∨ n ≠ 1)
    (hsys : ∀ t, IsPst (s t) ∨ IsVpst (s t) ∨ IsSkier (s t) ∨ IsAux (s t)) (hv : ∀ t, NoFaceTouchdown (s t))
    (hst : ∀ t, IsPst (s t) → (s t).mode ≠ .unset) (hsp : ∀ t, IsPst (s t) → (s t).mode = .C → RestOk num (s t))
    (hsup : ∀ t, Held (s t) (a t)) :
    ∃ C : T → List Vec6, (∀ t, assembleAndSolve num kind (phi t) (a t) (s t) = (.ok (C t, full (a t)), s t)) ∧
      ∀ i, (∀ t, i < (full (a t)).li.length) → ∀ x : T → ℝ, Continuous x →
        let Z := fun t => stateAt (s t) (phi t) (full (a t)).li (full (a t)).ki (fun i => (C t).getD i 0) i (x t)
        Continuous Z ∧ (Continuous fun t => fsig (s t) (Z t)) ∧ (Continuous fun t => ftau (s t) (Z t)) ∧
        (Continuous fun t => fN (s t) (Z t)) ∧ (Continuous fun t => fM (s t) (Z t)) ∧ Continuous fun t => fV (s t) (Z t) := by
  have key := fun t => C18_held num kind (phi t) (a t) (s t) (hb t) (hc t) (hf t) (hval t) (by rw [h.len]; exact hkd) (hsys t)
    (fun h _ => hst t h) (fun h _ => hsp t h) (hsup t)
  choose C hC1 hC2 using key
  refine ⟨C, hC1, fun i hi x hx => ?_⟩
  intro Z
  have hZ : Continuous Z := by
    rcases isEmpty_or_nonempty T with hT | ⟨⟨t0⟩⟩
    · exact continuous_of_discreteTopology
    have hn : 1 ≤ n := by
      have := (hval t0).mi
      rw [h.len] at this
      omega
    obtain ⟨n', ki', h'⟩ := h.full hn fun t => by rw [(hval t).mi, h.len]
    refine meets_continuous h' hb hc (fun t => spring_nonneg num (s t)) (fun t hp hm => ?_) (fun t => (hsup t).full (hval t).ki)
      (fun t => (hC2 t (hv t)).1) i (by rw [← h'.len t0]; exact hi t0) hx
    refine spring_continuous num hf h.beam h.crack h.td hr fun t' => hsp t' ((h.kinds t' t).1.2 hp) ?_
    rw [h.mode t' t]; exact hm
  have hz := continuous_pi_iff.1 hZ
  have z0 := hz 0; have z1 := hz 1; have z2 := hz 2; have z3 := hz 3; have z4 := hz 4; have z5 := hz 5
  obtain ⟨hA, hB, hD, hS, hkn, hkt, hh, ht⟩ := h.beam
  simp only [Self.beam] at hA hB hD hS hkn hkt hh ht
  refine ⟨hZ, ?_, ?_, ?_, ?_, ?_⟩ <;> simp only [fsig, ftau, fN, fM, fV, fw, fdw, fu, fpsi] <;> fun_prop

end Weac
