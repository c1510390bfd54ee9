import Mathlib.Analysis.Calculus.Deriv.MeanValue
import Verif.Props.AnticrackEnds

/-!
# C53: level ground

On level ground grid and fields are symmetric, so less has to be assumed. A
soft slab under a skier serves as example: the envelope is exceeded under the
skier and not at the ends of the beam.
-/

namespace Weac
open Spec

/-- Along an unloaded half of the beam with a fixed end the shear force at both
ends is bounded by the work of the load. -/
theorem peak_dominates {b : Beam} (hb : b.Coercive) {f : ℝ → Vec6} (hf : SolvesODE b Loads.zero true f) {m c κ : ℝ} (hm : 0 < m)
    (hc : 0 < c) (hc' : c * b.S ^ 2 ≤ b.S - b.kt * b.t ^ 2 / 16) (hκ : 0 < κ) (hκ' : b.kn ≤ κ ^ 2 * c)
    (hend : b.flux (f m) = 0) :
    b.V (f 0) ^ 2 ≤ (1 / (c * m) + κ) * -b.flux (f 0) ∧ b.V (f m) ^ 2 ≤ (1 / (c * m) + κ) * -b.flux (f 0) := by
  have hflux : ∀ x, HasDerivAt (fun y => b.flux (f y)) (b.diss true (f x)) x := fun x => by
    obtain ⟨dz, h1, h2⟩ := hf x
    exact b.flux_deriv true f x dz h1 h2
  have hV : ∀ x, HasDerivAt (fun y => b.V (f y)) (b.kn * f x 2) x := fun x => by
    obtain ⟨dz, h1, h2⟩ := hf x
    have k : EquilBedded b Loads.zero (f x) dz := by simpa [Equil] using h2
    have h := hasDerivAt_pi.mp h1
    refine (((h 3).add (h 4)).const_mul b.S).congr_deriv ?_
    rw [k.V]
    simp [Loads.zero]
  have hdiss : ∀ x, c * b.V (f x) ^ 2 + b.kn * f x 2 ^ 2 ≤ b.diss true (f x) := by
    intro x
    rw [Beam.Coercive.diss_eq]
    have h1 := (hb.slab (f x 1) (f x 5)).1
    set y := f x 0 + b.h / 2 * f x 4 - b.t / 2 * f x 3
    set g := f x 3 + f x 4 with hg
    have e : b.S * g ^ 2 + b.kt * y * (y + b.t / 2 * g)
        = b.kt * (y + b.t / 4 * g) ^ 2 + (b.S - b.kt * b.t ^ 2 / 16) * g ^ 2 := by ring
    have h2 := mul_nonneg hb.kt.le (sq_nonneg (y + b.t / 4 * g))
    have h3 := mul_le_mul_of_nonneg_right hc' (sq_nonneg g)
    have h4 : c * b.V (f x) ^ 2 = c * b.S ^ 2 * g ^ 2 := by unfold Beam.V; rw [hg]; ring
    rw [e, h4]
    linarith
  have hV2 : ∀ x, HasDerivAt (fun y => b.V (f y) ^ 2) (2 * b.V (f x) * (b.kn * f x 2)) x := fun x => by
    refine ((hV x).pow 2).congr_deriv ?_
    simp
  have hcross : ∀ x (σ : ℝ), σ ^ 2 = 1 → 0 ≤ κ * b.diss true (f x) + σ * (2 * b.V (f x) * (b.kn * f x 2)) := by
    intro x σ hσ
    have h1 := mul_le_mul_of_nonneg_left (hdiss x) hκ.le
    have h2 : 0 ≤ κ * (κ * (c * b.V (f x) ^ 2 + b.kn * f x 2 ^ 2) + σ * (2 * b.V (f x) * (b.kn * f x 2))) := by
      have h3 := mul_le_mul_of_nonneg_right hκ' (sq_nonneg (b.V (f x)))
      have h4 := mul_nonneg hb.kn.le (sq_nonneg (b.V (f x) + σ * κ * f x 2))
      have e : b.kn * (b.V (f x) + σ * κ * f x 2) ^ 2
          = b.kn * b.V (f x) ^ 2 + σ ^ 2 * κ ^ 2 * b.kn * f x 2 ^ 2 + κ * (σ * (2 * b.V (f x) * (b.kn * f x 2))) := by ring
      rw [e, hσ] at h4
      nlinarith
    have := nonneg_of_mul_nonneg_right h2 hκ
    linarith
  have hmono : ∀ σ : ℝ, σ ^ 2 = 1 → Monotone fun x => κ * b.flux (f x) + σ * b.V (f x) ^ 2 := by
    intro σ hσ
    have hd := fun x => ((hflux x).const_mul κ).add ((hV2 x).const_mul σ)
    refine monotone_of_deriv_nonneg (fun x => (hd x).differentiableAt) fun x => ?_
    rw [show deriv (fun x => κ * b.flux (f x) + σ * b.V (f x) ^ 2) x = _ from (hd x).deriv]
    exact hcross x σ hσ
  obtain ⟨ξ, hξ, hmvt⟩ := exists_hasDerivAt_eq_slope (fun y => b.flux (f y)) (fun x => b.diss true (f x)) hm
    (fun x _ => (hflux x).continuousAt.continuousWithinAt) fun x _ => hflux x
  rw [hend, sub_zero, zero_sub] at hmvt
  have hξV : b.V (f ξ) ^ 2 ≤ 1 / (c * m) * -b.flux (f 0) := by
    have h1 := hdiss ξ
    have h2 := mul_nonneg hb.kn.le (sq_nonneg (f ξ 2))
    rw [hmvt] at h1
    have h3 : c * b.V (f ξ) ^ 2 ≤ -b.flux (f 0) / m := by linarith
    rw [show 1 / (c * m) * -b.flux (f 0) = (-b.flux (f 0) / m) / c by field_simp, le_div_iff₀ hc]
    linarith
  have hf1 := flux_mono hb hf hξ.1.le
  have hf2 := flux_mono hb hf hξ.2.le
  simp only [hend] at hf1 hf2
  have p1 := hmono 1 (by norm_num) hξ.1.le
  have p2 := hmono (-1) (by norm_num) hξ.2.le
  simp only [hend] at p1 p2
  constructor
  · nlinarith
  · nlinarith

/-! ## Response to the weight -/

/-- Field in the right half less the state without skier, on level ground. -/
theorem level_response (num : Numerics) (site : Site) (hs : SiteOk num site) (hphi : site.phi = 0) (w m : ℝ) (hm : 0 < m)
    {r : Skier} (hr : createSkierObject num site w [m, m] [true, true] .nocrack = .ok r) :
    r.skier.beam.Coercive ∧ ∃ Z : ℝ → Vec6, (∀ x, half r site.phi m 1 x = Z x + zp r.skier 0 site.phi true) ∧
      SolvesODE r.skier.beam Loads.zero true Z ∧ Z m 0 = 0 ∧ Z m 2 = 0 ∧ Z m 4 = 0 ∧ Z 0 0 = 0 ∧ Z 0 4 = 0 ∧
      r.skier.beam.V (Z 0) = -(w * (9.81 / 1000) / 2) := by
  have hbeam : BeamOk [m, m] [true, true] := by
    have := half_beam (show 0 < m + m by linarith)
    rwa [show (m + m) / 2 = m by ring] at this
  have hmir := level_halves num site hs hphi w m hm hr m
  rw [sub_self] at hmir
  obtain ⟨r', r1, r2⟩ := C50_solution_partial num site hs w [m, m] [true, true] hbeam .nocrack
  rw [hr] at r1
  injection r1 with r1
  subst r1
  obtain ⟨s, j, hsys, hbed, hshear, hj, H⟩ := create_run num site hs [m, m] [true, true] hbeam .nocrack
  obtain ⟨C, pts, c1, c2, c3, -, -⟩ := H w
  rw [hr] at c1
  injection c1 with c1
  obtain rfl : j = 0 := by simpa using hj
  have es : r.skier = s := by rw [c1]
  have eC : r.C = C := by rw [c1]
  have hload := r2.load
  have hsup : CrackCase.nocrack.support [true, true] = [true, true] := rfl
  have hmeet := c3 0
  rw [hsup] at hmeet
  obtain ⟨-, e2, e3⟩ := hmeet
  have he : ∀ e b, endCond s site.phi 0 e b = .state (zp s 0 site.phi true 0) (zp s 0 site.phi true 2) (zp s 0 site.phi true 4) := by
    intro e b
    unfold endCond IsPst IsVpst IsSkier
    simp [hsys]
  rw [he] at e2
  unfold half at hmir ⊢
  rw [es, eC] at hmir ⊢
  rw [es] at hload
  refine ⟨hbed.stiff.coercive hshear, homAt s [m, m] [true, true] (fun i => C.getD i 0) 1, fun x => rfl, ?_, ?_⟩
  · exact zh_solves s hbed true m (C.getD 1 0)
  have hZ : ∀ x, stateAt s site.phi [m, m] [true, true] (fun i => C.getD i 0) 1 x
      = homAt s [m, m] [true, true] (fun i => C.getD i 0) 1 x + zp s 0 site.phi true := fun x => rfl
  have hl2 : ∀ i, i < 2 → nth [m, m] i = m := by
    intro i hi
    interval_cases i <;> rfl
  obtain ⟨a1, a2, a3⟩ := e2
  simp only [List.length_cons, List.length_nil, Nat.reduceAdd, Nat.add_one_sub_one, hl2 1 (by omega), hZ, Pi.add_apply,
    add_eq_right] at a1 a2 a3
  have t := e3 0 (by simp)
  have ha : ¬ IsAux s := by
    rintro (e | e) <;> rw [hsys] at e <;> exact absurd e (by decide)
  simp only [hl2 0 (by omega), zero_add] at t
  rw [hmir] at t
  have hz0 : zp s 0 site.phi true 0 = 0 ∧ zp s 0 site.phi true 4 = 0 ∧ zp s 0 site.phi true 3 = 0 := by
    rw [hphi]
    refine ⟨?_, ?_, ?_⟩ <;> simp [zp, getWeightLoad, getSurfaceLoad, deg2rad]
  set Y := homAt s [m, m] [true, true] (fun i => C.getD i 0) 1 with hY
  have b0 := t.u
  have b4 := t.psi
  have bV := t.V
  have hjmp : (jump s site.phi ((List.replicate ([true, true].length - 1) 0).set 0 w) 0).2.2 = w * (9.81 / 1000) := by
    unfold jump
    rw [if_neg ha]
    simp [nth, getSkierLoad, hphi, deg2rad, hload.2.1, hload.2.2]
    ring
  rw [hjmp] at bV
  simp only [flip, Matrix.cons_val, hZ, Pi.add_apply, hz0.1, hz0.2.1, hz0.2.2, add_zero, Beam.V] at b0 b4 bV
  refine ⟨a1, a2, a3, by linarith, by linarith, ?_⟩
  unfold Beam.V
  linarith

/-- Fields in both halves are affine functions of the weight. -/
theorem half_affine (num : Numerics) (site : Site) (hs : SiteOk num site) (m : ℝ) (hm : 0 < m) :
    ∃ p q, createSkierObject num site 0 [m, m] [true, true] .nocrack = .ok p ∧
      createSkierObject num site 1 [m, m] [true, true] .nocrack = .ok q ∧ ∀ w, ∃ r,
      createSkierObject num site w [m, m] [true, true] .nocrack = .ok r ∧ p.skier = r.skier ∧ p.x = r.x ∧
      ∀ j < 2, ∀ x, half r site.phi m j x = mixVec w (zp r.skier 0 site.phi true) (half q site.phi m j x) := by
  have hbeam : BeamOk [m, m] [true, true] := by
    have := half_beam (show 0 < m + m by linarith)
    rwa [show (m + m) / 2 = m by ring] at this
  obtain ⟨p, q, -, h1, h2, -⟩ := C51_superposition num site hs [m, m] [true, true] hbeam .nocrack 0 1 0
  refine ⟨p, q, h1, h2, fun w => ?_⟩
  obtain ⟨p', q', r, h1', h2', h3, e1, e2, e3, -, -, -, -, -, hC, -⟩ :=
    C51_superposition num site hs [m, m] [true, true] hbeam .nocrack 0 1 w
  rw [h1] at h1'
  rw [h2] at h2'
  injection h1' with h1'
  injection h2' with h2'
  subst h1' h2'
  rw [show mix w 0 1 = w by unfold mix; ring] at h3
  refine ⟨r, h3, e1, e3, fun j hj x => ?_⟩
  obtain ⟨p', p1, p2⟩ := C50_solution_partial num site hs 0 [m, m] [true, true] hbeam .nocrack
  rw [h1] at p1
  injection p1 with p1
  subst p1
  obtain ⟨q', q1, q2⟩ := C50_solution_partial num site hs 1 [m, m] [true, true] hbeam .nocrack
  rw [h2] at q1
  injection q1 with q1
  subst q1
  have hp := slab_alone_state site [m, m] [true, true] hbeam p2 j (by simpa using hj) x
  have l1 : p.C.length = 2 := p2.constants
  have l2 : q.C.length = 2 := q2.constants
  have hCj : r.C.getD j 0 = mixVec w (p.C.getD j 0) (q.C.getD j 0) := by
    rw [hC]
    simp only [List.getD_eq_getElem?_getD]
    rw [List.getElem?_eq_getElem (by simp [l1, l2]; omega), List.getElem?_eq_getElem (by omega), List.getElem?_eq_getElem (by omega)]
    simp
  rw [e1] at hp
  rw [← hp]
  have hsup : CrackCase.nocrack.support [true, true] = [true, true] := rfl
  rw [hsup]
  unfold half stateAt zsol
  beta_reduce
  rw [hCj, e2]
  unfold mixVec
  rw [Matrix.mulVec_add, Matrix.mulVec_smul, Matrix.mulVec_smul]
  module

/-- The grid of two equal halves is symmetric. -/
theorem grid_mirror (num : Numerics) (site : Site) (hs : SiteOk num site) (w m : ℝ) (hm : 0 < m)
    {r : Skier} (hr : createSkierObject num site w [m, m] [true, true] .nocrack = .ok r) (x : ℝ) (hx : some x ∈ r.x) :
    some ((m + m) / 10 - x) ∈ r.x := by
  have hbeam : BeamOk [m, m] [true, true] := by
    have := half_beam (show 0 < m + m by linarith)
    rwa [show (m + m) / 2 = m by ring] at this
  obtain ⟨s, j, hsys, hbed, hshear, hj, H⟩ := create_run num site hs [m, m] [true, true] hbeam .nocrack
  obtain ⟨C, pts, c1, c2, -, -, c5⟩ := H w
  rw [hr] at c1
  injection c1 with c1
  have ex : r.x = pts.map (fun p => p.xb.map (· / 10)) := by rw [c1]
  have hsup : CrackCase.nocrack.support [true, true] = [true, true] := rfl
  rw [hsup] at c5
  obtain ⟨C0, C', rfl⟩ := List.exists_cons_of_length_eq_add_one c2
  obtain ⟨C1, C'', rfl⟩ := List.exists_cons_of_length_eq_add_one (show C'.length = 0 + 1 by simpa using c2)
  unfold rasterize dropZero at c5
  simp only [List.zip_cons_cons, List.zip_nil_right, List.zipWith_cons_cons, List.zipWith_nil_right, List.map_cons, List.map_nil,
    abs_of_pos hm, List.filter_cons, hm, decide_true, if_true, List.filter_nil, List.sum_cons, List.sum_nil, add_zero,
    Except.ok.injEq] at c5
  unfold rasterLoop rasterLoop rasterLoop at c5
  rw [segPts_eq, segPts_eq] at c5
  simp only [List.isEmpty_cons, List.isEmpty_nil, List.append_nil, zero_add, nqOf, Bool.false_eq_true, if_false, if_true, add_zero] at c5
  have h2 : (0 : ℝ) < m + m := by linarith
  set K := ⌈m / (m + m) * ((800 : ℕ) : ℝ)⌉₊ with hK
  have hK1 : 1 ≤ K := ceil_pos (by norm_num) h2 hm
  have hmul : stepOf 800 (m + m) m * (K : ℝ) = m := step_mul (by norm_num) h2 hm
  set h := stepOf 800 (m + m) m
  have hmem : ∀ y : ℝ, some y ∈ r.x ↔ (∃ j < K, y = h * (j : ℝ) / 10) ∨ ∃ j < K + 1, y = (m + h * (j : ℝ)) / 10 := by
    intro y
    rw [ex, ← c5]
    simp only [List.map_append, List.map_map, List.mem_append, List.mem_map, List.mem_range, Function.comp_apply, GridPt.xb,
      headMask, Bool.or_true, ite_self, if_true, Option.map_some, Option.some.injEq]
    constructor
    · rintro (⟨j, h1, h2⟩ | ⟨j, h1, h2⟩)
      · exact .inl ⟨j, h1, h2.symm⟩
      · exact .inr ⟨j, h1, h2.symm⟩
    · rintro (⟨j, h1, h2⟩ | ⟨j, h1, h2⟩)
      · exact .inl ⟨j, h1, h2.symm⟩
      · exact .inr ⟨j, h1, h2.symm⟩
  rw [hmem] at hx ⊢
  rcases hx with ⟨j, h1, rfl⟩ | ⟨j, h1, rfl⟩
  · refine .inr ⟨K - j, by omega, ?_⟩
    rw [Nat.cast_sub h1.le]
    linear_combination -hmul / 10
  · rcases Nat.eq_zero_or_pos j with rfl | hj
    · exact .inr ⟨0, by omega, by push_cast; ring⟩
    · refine .inl ⟨K - j, by omega, ?_⟩
      rw [Nat.cast_sub (by omega)]
      linear_combination -hmul / 10

/-! ## Accurate root finders -/

/-- The run does not depend on the root finder. -/
theorem create_eig (num num' : Numerics) (he : num'.eig = num.eig) (site : Site) (hs : SiteOk num site) (w : ℝ) (li : List ℝ)
    (ki : List Bool) (h : BeamOk li ki) (case : CrackCase) :
    createSkierObject num' site w li ki case = createSkierObject num site w li ki case := by
  obtain ⟨s, k1, k2, k3, k4, k5, -⟩ := siteObject_ready num.eig site hs.plies hs.t hs.E
  obtain ⟨hd, hsh⟩ := hs.generic s k1
  obtain ⟨j, j1, j2, j3⟩ := skierWeights_run li ki h.len h.nonneg h.middle h.last
  have hP := pointLoad_set w j1 h.len
  obtain ⟨C, pts, X, σ, τ, m1, m2, m3, m4, m5, rfl, rfl, rfl⟩ := solveSkier_run num site.phi hs.eig s k2 k3 k4 k5 hd hsh
    li _ ki h hP.1 case
  obtain ⟨C', pts', X', σ', τ', n1, n2, n3, n4, n5, rfl, rfl, rfl⟩ := solveSkier_run num' site.phi (by rw [he]; exact hs.eig) s
    (by rw [he]; exact k2) k3 k4 k5 hd hsh li _ ki h hP.1 case
  have hC : C' = C := by
    apply List.ext_getElem
    · rw [m2, n2]
    · intro i h1 h2
      have := m4 0 _ (n3 0) i (by omega)
      simpa only [List.getD_eq_getElem?_getD, List.getElem?_eq_getElem h1, List.getElem?_eq_getElem h2, Option.getD_some] using this
  subst hC
  rw [m5] at n5
  injection n5 with n5
  subst n5
  unfold createSkierObject
  rw [he, k1]
  simp only [bind, Except.bind]
  rw [j2]
  exact n1.trans m1.symm

theorem SiteOk.eig_only {num num' : Numerics} (he : num'.eig = num.eig) {site : Site} (hs : SiteOk num site) : SiteOk num' site :=
  ⟨by rw [he]; exact hs.eig, hs.plies, hs.t, hs.E, by rw [he]; exact hs.generic⟩

theorem least_of_list {α : Type*} {P : α → ℝ → Prop} (hP : ∀ x a b, a ≤ b → P x b → P x a) (xs : List α)
    (h : ∀ x ∈ xs, ∃ ε > 0, P x ε) : ∃ ε > 0, ∀ x ∈ xs, P x ε := by
  induction xs with
  | nil => exact ⟨1, one_pos, by simp⟩
  | cons a xs ih =>
    obtain ⟨e1, p1, q1⟩ := h a (by simp)
    obtain ⟨e2, p2, q2⟩ := ih fun x hx => h x (List.mem_cons_of_mem _ hx)
    refine ⟨min e1 e2, lt_min p1 p2, fun x hx => ?_⟩
    rcases List.mem_cons.1 hx with rfl | hx
    · exact hP _ _ _ (min_le_left _ _) q1
    · exact hP _ _ _ (min_le_right _ _) (q2 x hx)

/-- On level ground the stresses next to the skier are equally far from the
envelope on both sides. -/
theorem level_sides (num : Numerics) (site : Site) (hs : SiteOk num site) (hphi : site.phi = 0) {D : ℝ → ℝ → ℝ}
    (hsym : ∀ a b, D a (-b) = D a b) (w m : ℝ) (hm : 0 < m) {r : Skier}
    (hr : createSkierObject num site w [m, m] [true, true] .nocrack = .ok r) (x : ℝ) :
    distOf D r.skier (half r site.phi m 0 x) = distOf D r.skier (half r site.phi m 1 (m - x)) := by
  rw [level_halves num site hs hphi w _ hm hr]
  generalize half r site.phi m 1 (m - x) = z
  unfold distOf
  have : 1000 * r.skier.beam.tau (flip z) = -(1000 * r.skier.beam.tau z) := by
    simp [Beam.tau, flip]; ring
  rw [this, hsym]
  rfl

/-- On level ground the distance to the envelope is continuous along the beam. -/
theorem continuous_line (num : Numerics) (site : Site) (hs : SiteOk num site) (hphi : site.phi = 0) {D : ℝ → ℝ → ℝ}
    (hsym : ∀ a b, D a (-b) = D a b) (hc : Continuous fun p : ℝ × ℝ => D p.1 p.2) (w m : ℝ) (hm : 0 < m) {r : Skier}
    (hr : createSkierObject num site w [m, m] [true, true] .nocrack = .ok r) : Continuous (distLine D r site.phi m) := by
  have hside := level_sides num site hs hphi hsym w m hm hr
  unfold distLine
  refine Continuous.if_le (continuous_distOf hc r site.phi m 0)
    ((continuous_distOf hc r site.phi m 1).comp (continuous_id.sub continuous_const)) continuous_id continuous_const ?_
  intro x hx
  rw [show x = m from hx, hside m]

/-- On level ground the samples are those of the field along the beam, and
symmetric. -/
theorem level_grid (num : Numerics) (site : Site) (hs : SiteOk num site) (hphi : site.phi = 0) {D : ℝ → ℝ → ℝ}
    (hsym : ∀ a b, D a (-b) = D a b) (w m : ℝ) (hm : 0 < m) {r : Skier}
    (hr : createSkierObject num site w [m, m] [true, true] .nocrack = .ok r) :
    (∀ x, distGrid D r site.phi m x = distLine D r site.phi m x) ∧
      ∀ x, distGrid D r site.phi m (m + m - x) = distGrid D r site.phi m x := by
  have hside := level_sides num site hs hphi hsym w m hm hr
  constructor
  · intro x
    unfold distGrid distLine
    rcases lt_trichotomy x m with h | h | h
    · rw [if_pos h, if_pos h.le]
    · subst h
      rw [if_neg (lt_irrefl _), if_pos le_rfl, hside x, sub_self]
    · rw [if_neg (not_lt.2 h.le), if_neg (not_le.2 h)]
  · intro x
    unfold distGrid
    rcases lt_trichotomy x m with h | h | h
    · rw [if_pos h, if_neg (by linarith), hside x, show m + m - x - m = m - x by ring]
    · subst h
      rw [if_neg (by linarith), if_neg (lt_irrefl _), show x + x - x - x = x - x by ring]
    · rw [if_pos (by linarith), if_neg (by linarith), hside (m + m - x), show m - (m + m - x) = x - m by ring]

/-- On level ground the samples on the right are outside only if some on the
left are, and both ends have the same distance. -/
theorem level_left (num : Numerics) (site : Site) (hs : SiteOk num site) (hphi : site.phi = 0) {D : ℝ → ℝ → ℝ}
    (hD : ∀ a b, stressEnvelope site.env a b = .ok (D a b)) (hsym : ∀ a b, D a (-b) = D a b) (w T : ℝ) (hT : 0 < T) {r : Skier}
    {d : List ℝ} (hr : createSkierObject num site w [T / 2, T / 2] [true, true] .nocrack = .ok r)
    (hd : distances site.env r = .ok d) :
    ((∃ v ∈ d, 1 < v) → ∃ (n : ℕ) (x v : ℝ), r.x[n]? = some (some x) ∧ d[n]? = some v ∧ 1 < v ∧ 10 * x ≤ T / 2) ∧
      d.head? = d.getLast? := by
  have hm : 0 < T / 2 := by positivity
  obtain ⟨r', r1, r2⟩ := C50_solution_partial num site hs w [T / 2, T / 2] [true, true] (half_beam hT) .nocrack
  rw [hr] at r1
  injection r1 with r1
  subst r1
  obtain ⟨xs, h1, h2, h3, h4, h5, h6⟩ := half_samples site w (T / 2) hm hD r2
  rw [hd] at h6
  injection h6 with h6
  obtain ⟨-, hmir⟩ := level_grid num site hs hphi hsym w (T / 2) hm hr (D := D)
  constructor
  · rintro ⟨v, hv, hv1⟩
    have hfind : ∀ x ∈ xs, ∃ n : ℕ, r.x[n]? = some (some (x / 10)) ∧ d[n]? = some (distGrid D r site.phi (T / 2) x) := by
      intro x hx
      obtain ⟨n, hn, hget⟩ := List.getElem_of_mem hx
      refine ⟨n, ?_, ?_⟩
      · rw [h5, List.getElem?_map, List.getElem?_eq_getElem hn, hget]; rfl
      · rw [h6, List.getElem?_map, List.getElem?_eq_getElem hn, hget]; rfl
    rw [h6] at hv
    obtain ⟨x, hx, rfl⟩ := List.mem_map.1 hv
    rcases le_or_gt x (T / 2) with h | h
    · obtain ⟨n, n1, n2⟩ := hfind x hx
      exact ⟨n, _, _, n1, n2, hv1, by linarith⟩
    · have hsym' := grid_mirror num site hs w (T / 2) hm hr (x / 10) (by rw [h5]; exact List.mem_map.2 ⟨x, hx, rfl⟩)
      rw [h5] at hsym'
      obtain ⟨y, hy, hy'⟩ := List.mem_map.1 hsym'
      simp only [Option.some.injEq] at hy'
      have : y = T / 2 + T / 2 - x := by linarith
      obtain ⟨n, n1, n2⟩ := hfind y hy
      refine ⟨n, _, _, n1, n2, ?_, by linarith⟩
      rw [this, hmir]
      exact hv1
  · rw [h6, List.head?_map, List.getLast?_map, h1, h2]
    have := hmir 0
    rw [sub_zero] at this
    rw [Option.map_some, Option.map_some, this]

/-- On level ground the verdict at the grid points holds around them. -/
theorem margin_level (num : Numerics) (site : Site) (hs : SiteOk num site) (hphi : site.phi = 0) {D : ℝ → ℝ → ℝ}
    (hD : ∀ a b, stressEnvelope site.env a b = .ok (D a b)) (hsym : ∀ a b, D a (-b) = D a b)
    (hc : Continuous fun p : ℝ × ℝ => D p.1 p.2) (w T : ℝ) (hT : 0 < T) {r : Skier} {d : List ℝ}
    (hr : createSkierObject num site w [T / 2, T / 2] [true, true] .nocrack = .ok r)
    (hd : distances site.env r = .ok d) : ∃ ε > 0, Margin D r site.phi T d ε := by
  have hm : 0 < T / 2 := by positivity
  obtain ⟨r', r1, r2⟩ := C50_solution_partial num site hs w [T / 2, T / 2] [true, true] (half_beam hT) .nocrack
  rw [hr] at r1
  injection r1 with r1
  subst r1
  obtain ⟨xs, h1, h2, h3, h4, h5, h6⟩ := half_samples site w (T / 2) hm hD r2
  rw [hd] at h6
  injection h6 with h6
  have hcont := continuous_line num site hs hphi hsym hc w (T / 2) hm hr
  have hgrid := (level_grid num site hs hphi hsym w (T / 2) hm hr (D := D)).1
  obtain ⟨ε, e1, e2⟩ := least_of_list (P := fun x ε => ∀ y, |y - x| ≤ ε →
      (distLine D r site.phi (T / 2) x < 1 → distLine D r site.phi (T / 2) y < 1) ∧
      (1 < distLine D r site.phi (T / 2) x → 1 < distLine D r site.phi (T / 2) y)) (fun x a b hab h y hy => h y (hy.trans hab)) xs
    (fun x _ => by
      have key : ∀ᶠ y in nhds x, (distLine D r site.phi (T / 2) x < 1 → distLine D r site.phi (T / 2) y < 1) ∧
          (1 < distLine D r site.phi (T / 2) x → 1 < distLine D r site.phi (T / 2) y) := by
        rcases lt_trichotomy (distLine D r site.phi (T / 2) x) 1 with h | h | h
        · filter_upwards [hcont.continuousAt.eventually (gt_mem_nhds h)] with y hy
          exact ⟨fun _ => hy, fun h' => absurd h' (not_lt.2 h.le)⟩
        · filter_upwards with y
          exact ⟨fun h' => absurd h' (by rw [h]; exact lt_irrefl _), fun h' => absurd h' (by rw [h]; exact lt_irrefl _)⟩
        · filter_upwards [hcont.continuousAt.eventually (lt_mem_nhds h)] with y hy
          exact ⟨fun h' => absurd h' (not_lt.2 h.le), fun _ => hy⟩
      obtain ⟨ε, e1, e2⟩ := Metric.eventually_nhds_iff.1 key
      refine ⟨ε / 2, by positivity, fun y hy => e2 ?_⟩
      rw [Real.dist_eq]
      linarith)
  refine ⟨ε, e1, fun n x v y hx hv _ _ hy => ?_⟩
  rw [h5, List.getElem?_map] at hx
  obtain ⟨z, hz, hz'⟩ := Option.map_eq_some_iff.1 hx
  simp only [Option.some.injEq] at hz'
  have hzx : 10 * x = z := by rw [← hz']; ring
  rw [h6, List.getElem?_map, hz] at hv
  simp only [Option.map_some, Option.some.injEq] at hv
  rw [← hv, hgrid]
  rw [hzx] at hy
  exact e2 z (List.mem_of_getElem? hz) y hy

/-- C53 on level ground for sufficiently accurate root finders: if the left end of
the beam is inside the envelope and no sample is on it, grid points outside the
envelope lie in unsupported segments only, grid points inside the envelope in
supported segments only, the returned length is the length without support, and
where supported and unsupported segments meet the stresses reach the envelope
within the accuracy of the root finder. -/
theorem C53_accurate_partial (num : Numerics) (site : Site) (hs : SiteOk num site) (hphi : site.phi = 0) (li : List ℝ)
    (hT : 0 < li.sum) {D : ℝ → ℝ → ℝ} (hD : ∀ a b, stressEnvelope site.env a b = .ok (D a b)) (hsym : ∀ a b, D a (-b) = D a b)
    (hc : Continuous fun p : ℝ × ℝ => D p.1 p.2) (w : ℝ)
    {r : Skier} {d : List ℝ} (hr : createSkierObject num site w [li.sum / 2, li.sum / 2] [true, true] .nocrack = .ok r)
    (hd : distances site.env r = .ok d) (hon : ∀ v ∈ d, v ≠ 1) (hfirst : ∀ v ∈ d.head?, v < 1) :
    ∃ δ₀ > 0, ∀ (num' : Numerics) (δ : ℝ), num'.eig = num.eig → 0 ≤ δ → δ ≤ δ₀ → BrentFinds num' li.sum δ →
    ∃ a li' ki', findNewAnticrackLength num' site w li = .ok (a, li', ki') ∧ ki'.length = li'.length ∧ li'.sum = li.sum ∧
      (∀ l ∈ li', 0 ≤ l) ∧ (∃ i, i < li'.length ∧ startOf li' (i + 1) = li.sum / 2) ∧ a = unsupported li' ki' ∧
      (∀ x, 0 ≤ x → x ≤ li.sum → Touches li' ki' x true → Touches li' ki' x false →
        ∃ c, 0 ≤ c ∧ c ≤ li.sum ∧ |c - x| ≤ δ ∧ distLine D r site.phi (li.sum / 2) c = 1) ∧
      ∀ (n : ℕ) (x v : ℝ), r.x[n]? = some (some x) → d[n]? = some v →
        (1 < v → Touches li' ki' (10 * x) false ∧ ¬ Touches li' ki' (10 * x) true) ∧
        (v < 1 → Touches li' ki' (10 * x) true ∧ ¬ Touches li' ki' (10 * x) false) := by
  obtain ⟨ε, e1, e2⟩ := margin_level num site hs hphi hD hsym hc w li.sum hT hr hd
  obtain ⟨hleft, hends⟩ := level_left num site hs hphi hD hsym w li.sum hT hr hd
  refine ⟨ε / 2, by positivity, fun num' δ he h0 h1 hb => ?_⟩
  exact C53_ends_partial num' site (hs.eig_only he) li hT h0 hb hD hsym hc w
    (by rw [create_eig num num' he site hs _ _ _ (half_beam hT)]; exact hr) hd hon hfirst (by rw [← hends]; exact hfirst)
    (fun n x v y a b c d e => e2 n x v y a b c d (by linarith)) hleft

/-- Contract of the root finder: as `BrentFinds`, and the result is not an end of
the interval. -/
def Spec.BrentCrosses (num : Numerics) (W δ : ℝ) : Prop :=
  ∀ (f : ℝ → Py ℝ) (F : ℝ → ℝ) (a b : ℝ) (s : Self), a < b → b - a ≤ W →
    (∀ x, a ≤ x → x ≤ b → f x s = (.ok (F x), s)) → F a * F b < 0 →
    ∃ r, brentq num f a b s = (.ok r, s) ∧ a < r ∧ r < b ∧
      ∃ p q, a ≤ p ∧ p ≤ b ∧ a ≤ q ∧ q ≤ b ∧ F p * F q ≤ 0 ∧ |p - r| ≤ δ ∧ |q - r| ≤ δ

/-- C53 on level ground, for a root finder of the accuracy `δ` that returns inner
points: if the left end of the beam is inside the envelope and no sample is on
it, grid points outside the envelope lie in unsupported segments only, grid
points inside the envelope in supported segments only, the returned length is
the length without support, and where supported and unsupported segments meet
the stresses reach the envelope within `δ`. -/
theorem C53_level_ends_partial (num : Numerics) (site : Site) (hs : SiteOk num site) (hphi : site.phi = 0) {δ : ℝ} (li : List ℝ)
    (hT : 0 < li.sum) (hb : BrentCrosses num li.sum δ) {D : ℝ → ℝ → ℝ} (hD : ∀ a b, stressEnvelope site.env a b = .ok (D a b))
    (hsym : ∀ a b, D a (-b) = D a b) (hc : Continuous fun p : ℝ × ℝ => D p.1 p.2) (w : ℝ)
    {r : Skier} {d : List ℝ} (hr : createSkierObject num site w [li.sum / 2, li.sum / 2] [true, true] .nocrack = .ok r)
    (hd : distances site.env r = .ok d) (hon : ∀ v ∈ d, v ≠ 1) (hfirst : ∀ v ∈ d.head?, v < 1) :
    ∃ a li' ki', findNewAnticrackLength num site w li = .ok (a, li', ki') ∧ ki'.length = li'.length ∧ li'.sum = li.sum ∧
      (∀ l ∈ li', 0 ≤ l) ∧ (∃ i, i < li'.length ∧ startOf li' (i + 1) = li.sum / 2) ∧ a = unsupported li' ki' ∧
      (∀ x, 0 ≤ x → x ≤ li.sum → Touches li' ki' x true → Touches li' ki' x false →
        ∃ c, 0 ≤ c ∧ c ≤ li.sum ∧ |c - x| ≤ δ ∧ distLine D r site.phi (li.sum / 2) c = 1) ∧
      ∀ (n : ℕ) (x v : ℝ), r.x[n]? = some (some x) → d[n]? = some v →
        (1 < v → Touches li' ki' (10 * x) false ∧ ¬ Touches li' ki' (10 * x) true) ∧
        (v < 1 → Touches li' ki' (10 * x) true ∧ ¬ Touches li' ki' (10 * x) false) := by
  have hm : 0 < li.sum / 2 := by positivity
  obtain ⟨hleft, hends⟩ := level_left num site hs hphi hD hsym w li.sum hT hr hd
  have hcont := continuous_line num site hs hphi hsym hc w (li.sum / 2) hm hr
  obtain ⟨r', r1, r2⟩ := C50_solution_partial num site hs w _ _ (half_beam hT) .nocrack
  rw [hr] at r1
  injection r1 with r1
  subst r1
  obtain ⟨xs, h1, h2, h3, h4, h5, h6⟩ := half_samples site w _ hm hD r2
  rw [hd] at h6
  injection h6 with h6
  refine crack_core num site hs hD w li hT hr hd hon hfirst (by rw [← hends]; exact hfirst)
    (Q := fun x => ∃ c, 0 ≤ c ∧ c ≤ li.sum ∧ |c - x| ≤ δ ∧ distLine D r site.phi (li.sum / 2) c = 1)
    (fun n n' x x' hx hx' hlt hle hneg => ?_) ?_ hleft
  · have h0 : 0 ≤ 10 * x := by
      rw [h5, List.getElem?_map] at hx
      obtain ⟨y, hy, hy'⟩ := Option.map_eq_some_iff.1 hx
      simp only [Option.some.injEq] at hy'
      have hy := List.mem_of_getElem? hy
      rw [show 10 * x = y by rw [← hy']; ring]
      cases xs with
      | nil => simp at hy
      | cons a as =>
        simp only [List.head?_cons, Option.some.injEq] at h1
        subst h1
        rcases List.mem_cons.1 hy with rfl | hy
        · exact le_rfl
        · exact ((List.pairwise_cons.1 h3).1 y hy).le
    have hlift : ∀ y, 10 * x ≤ y → y ≤ 10 * x' →
        Py.lift (rootFunction site.env r.skier r.C [li.sum / 2, li.sum / 2] site.phi y) r.skier
          = (.ok (distLine D r site.phi (li.sum / 2) y - 1), r.skier) := by
      intro y _ hy
      rw [root_line site (li.sum / 2) hD hsym r y (by linarith)]
      rfl
    obtain ⟨y, y1, y2, y3, p, q, p1, p2, q1, q2, hs0, hp, hq⟩ := hb
      (fun y => Py.lift (rootFunction site.env r.skier r.C [li.sum / 2, li.sum / 2] site.phi y))
      (fun y => distLine D r site.phi (li.sum / 2) y - 1) (10 * x) (10 * x') r.skier (by linarith) (by linarith) hlift hneg
    refine ⟨y, by unfold rootIn; rw [y1], ⟨y2, y3⟩, ?_⟩
    have hz : (0 : ℝ) ∈ Set.uIcc (distLine D r site.phi (li.sum / 2) p - 1) (distLine D r site.phi (li.sum / 2) q - 1) := by
      rw [Set.mem_uIcc]
      rcases mul_nonpos_iff.1 hs0 with h | h
      · exact .inr ⟨h.2, h.1⟩
      · exact .inl ⟨h.1, h.2⟩
    obtain ⟨c, c1, c2⟩ := intermediate_value_uIcc (hcont.sub continuous_const).continuousOn hz
    have hcp := Set.uIcc_subset_Icc (a₂ := 10 * x) (b₂ := 10 * x') ⟨p1, p2⟩ ⟨q1, q2⟩ c1
    have hcy := Set.uIcc_subset_Icc (a₂ := y - δ) (b₂ := y + δ) (show p ∈ _ by rw [abs_le] at hp; constructor <;> linarith)
      (show q ∈ _ by rw [abs_le] at hq; constructor <;> linarith) c1
    exact ⟨c, by linarith [hcp.1], by linarith [hcp.2], by rw [abs_le]; constructor <;> linarith [hcy.1, hcy.2], sub_eq_zero.1 c2⟩
  · have hsd := level_sides num site hs hphi hsym w _ hm hr (li.sum / 2)
    rw [sub_self] at hsd
    rw [hsd]
    have := hon (distGrid D r site.phi (li.sum / 2) (li.sum / 2)) (by rw [h6]; exact List.mem_map_of_mem h4)
    unfold distGrid at this
    rw [if_neg (lt_irrefl _), sub_self] at this
    exact mul_self_pos.2 (sub_ne_zero.2 this)

/-- Bisection whose result is moved away from the ends of the interval. -/
noncomputable def innerNum (δ : ℝ) : Numerics where
  eig := stdEig
  brent a b hist := match bisect δ a b hist with
    | .inl x => .inl x
    | .inr r => .inr (if r ≤ (a + b) / 2 then r + min δ ((b - a) / 4) else r - min δ ((b - a) / 4))

theorem brentLoop_map {next : List (ℝ × ℝ) → ℝ ⊕ ℝ} {g : ℝ → ℝ} {f : ℝ → Py ℝ} :
    ∀ (n : ℕ) (hist : List (ℝ × ℝ)) (s s' : Self) (r : ℝ), brentLoop next f n hist s = (.ok r, s') →
      brentLoop (fun h => match next h with | .inl x => .inl x | .inr r => .inr (g r)) f n hist s = (.ok (g r), s') := by
  intro n
  induction n with
  | zero => intro hist s s' r h; simp [brentLoop, Py.raise] at h
  | succ n ih =>
    intro hist s s' r h
    unfold brentLoop at h ⊢
    cases hn : next hist with
    | inr x =>
      rw [hn] at h
      simp only at h ⊢
      obtain ⟨h1, h2⟩ := Prod.mk.inj h
      injection h1 with h1
      rw [h1, h2]
      rfl
    | inl x =>
      rw [hn] at h
      simp only at h ⊢
      cases hf : f x s with
      | mk v t =>
        cases v with
        | error e => rw [Py.bind_of_error hf] at h; simp at h
        | ok y =>
          rw [Py.bind_of_ok hf] at h ⊢
          exact ih _ _ _ _ h

theorem innerNum_crosses {δ : ℝ} (hδ : 0 < δ) {W : ℝ} (hW : W ≤ δ * 2 ^ 99) : BrentCrosses (innerNum δ) W (2 * δ) := by
  intro f F a b s hab hW' hf hs
  obtain ⟨r, h1, h2, h3, p, q, p1, p2, q1, q2, h4, h5, h6⟩ := bisectNum_finds hδ.le hW f F a b s hab hW' hf hs
  set μ := min δ ((b - a) / 4) with hμ
  have μ0 : 0 < μ := lt_min hδ (by linarith)
  have μ1 : μ ≤ δ := min_le_left _ _
  have μ2 : μ ≤ (b - a) / 4 := min_le_right _ _
  refine ⟨if r ≤ (a + b) / 2 then r + μ else r - μ, ?_, ?_, ?_, p, q, p1, p2, q1, q2, h4, ?_, ?_⟩
  · unfold brentq at h1 ⊢
    rw [Py.bind_of_ok (hf a le_rfl hab.le), Py.bind_of_ok (hf b hab.le le_rfl)] at h1 ⊢
    have n1 : F a ≠ 0 := fun e => by rw [e, zero_mul] at hs; exact lt_irrefl _ hs
    have n2 : F b ≠ 0 := fun e => by rw [e, mul_zero] at hs; exact lt_irrefl _ hs
    rw [if_neg n1, if_neg n2, if_neg (not_lt.mpr hs.le)] at h1 ⊢
    exact brentLoop_map (g := fun r => if r ≤ (a + b) / 2 then r + μ else r - μ) _ _ _ _ _ h1
  · split
    · linarith
    · rename_i h; push Not at h; linarith
  · split
    · linarith
    · linarith
  · rw [abs_le] at h5 ⊢
    split <;> constructor <;> linarith
  · rw [abs_le] at h6 ⊢
    split <;> constructor <;> linarith

/-! ## Weights that crack the middle only -/

theorem quad_once {α β γ : ℝ} (hα : 0 ≤ α) (hγ : γ < 0) : {u : ℝ | 0 < u ∧ α * u ^ 2 + β * u + γ = 0}.Finite := by
  apply Set.Subsingleton.finite
  have key : ∀ u v : ℝ, 0 < u → u < v → α * u ^ 2 + β * u + γ = 0 → α * v ^ 2 + β * v + γ = 0 → False := by
    intro u v hu huv h1 h2
    have h3 : (v - u) * (α * (u + v) + β) = 0 := by linear_combination h2 - h1
    have h4 := (mul_eq_zero.1 h3).resolve_left (by linarith)
    have h5 : γ = α * (u * v) := by linear_combination h1 - u * h4
    have : 0 ≤ α * (u * v) := mul_nonneg hα (mul_nonneg hu.le (by linarith))
    linarith
  rintro u ⟨hu, h1⟩ v ⟨hv, h2⟩
  rcases lt_trichotomy u v with h | h | h
  · exact (key u v hu h h1 h2).elim
  · exact h
  · exact (key v u hv h h2 h1).elim

theorem tau_add (b : Beam) (x y : Vec6) : b.tau (x + y) = b.tau x + b.tau y := by
  simp only [Beam.tau, Pi.add_apply]; ring

theorem tau_smul (b : Beam) (k : ℝ) (y : Vec6) : b.tau (k • y) = k * b.tau y := by
  simp only [Beam.tau, Pi.smul_apply, smul_eq_mul]; ring

/-- Stresses without skier, on level ground. -/
theorem level_alone (num : Numerics) (site : Site) (hs : SiteOk num site) (hphi : site.phi = 0) (w m : ℝ) (hm : 0 < m)
    {r : Skier} (hr : createSkierObject num site w [m, m] [true, true] .nocrack = .ok r) :
    1000 * (r.skier.kn * zp r.skier 0 site.phi true 2) = cover site.profile ∧
      r.skier.beam.tau (zp r.skier 0 site.phi true) = 0 ∧ 0 < r.skier.t ∧ 0 < r.skier.kn := by
  have hbeam : BeamOk [m, m] [true, true] := by
    have := half_beam (show 0 < m + m by linarith)
    rwa [show (m + m) / 2 = m by ring] at this
  obtain ⟨r', r1, r2⟩ := C50_solution_partial num site hs w [m, m] [true, true] hbeam .nocrack
  rw [hr] at r1
  injection r1 with r1
  subst r1
  have hqq : (r.skier.slab.map fun l => l.rho * 1e-12 * r.skier.g * l.h).sum
      = (site.profile.map fun p => p.rho * 1e-12 * 9810 * p.h).sum := by
    rw [← r2.profile, List.map_map, r2.load.2.1]
    rfl
  have hk := r2.stiff.kn.ne'
  refine ⟨?_, ?_, by rw [r2.weak.1]; exact hs.t, r2.stiff.kn⟩
  · simp only [zp, if_true, Matrix.cons_val, getWeightLoad, getSurfaceLoad, hqq, r2.load.1, cover, hphi, deg2rad]
    generalize (List.map (fun p : Ply => p.rho * 1e-12 * 9810 * p.h) site.profile).sum = Q
    field_simp
    simp
  · rw [zp_tau _ r2.stiff.kt.ne' r2.stiff.kA55.ne']
    simp [Self.loads, getWeightLoad, getSurfaceLoad, r2.load.1, hphi, deg2rad]

/-- Deflection under the skier and stresses at the right end. -/
theorem level_peak (num : Numerics) (site : Site) (hs : SiteOk num site) (hphi : site.phi = 0) (w m : ℝ) (hm : 0 < m) (hw : 0 < w)
    {r : Skier} (hr : createSkierObject num site w [m, m] [true, true] .nocrack = .ok r) {s : Self} (hobj : r.skier.beam = s.beam)
    {c κ B : ℝ} (hB : B = 1 / (c * m) + κ) (hc : 0 < c) (hc' : c * s.kA55 ^ 2 ≤ s.kA55 - s.kt * s.t ^ 2 / 16) (hκ : 0 < κ)
    (hκ' : s.kn ≤ κ ^ 2 * c) :
    ∃ W : ℝ, (0 < W ∧ w * (9.81 / 1000) / 2 ≤ B * W) ∧ half r site.phi m 1 0 2 = W + zp r.skier 0 site.phi true 2 ∧
      half r site.phi m 1 m 2 = zp r.skier 0 site.phi true 2 ∧
      |r.skier.beam.tau (half r site.phi m 1 m)| ≤ s.kt * s.t / 2 * (B * W / s.kA55) := by
  have hBpos : 0 < B := by rw [hB]; positivity
  obtain ⟨hco, Z, z1, z2, z3, z4, z5, z6, z7, z8⟩ := level_response num site hs hphi w m hm hr
  obtain ⟨a1, a2, a3, -⟩ := level_alone num site hs hphi w m hm hr
  have hb := hobj
  have eS : r.skier.kA55 = s.kA55 := congrArg Beam.S hb
  have ekt : r.skier.kt = s.kt := congrArg Beam.kt hb
  have et : r.skier.t = s.t := congrArg Beam.t hb
  have ekn : r.skier.kn = s.kn := congrArg Beam.kn hb
  have hS : 0 < s.kA55 := by rw [← eS]; exact hco.S
  have hkt : 0 < s.kt := by rw [← ekt]; exact hco.kt
  have htpos : 0 < s.t := by rw [← et]; exact a3
  have hflux0 : r.skier.beam.flux (Z 0) = -(w * (9.81 / 1000) / 2 * Z 0 2) := by
    unfold Beam.flux
    rw [z6, z7, z8]; ring
  have hfluxm : r.skier.beam.flux (Z m) = 0 := by
    unfold Beam.flux
    rw [z3, z4, z5]; ring
  obtain ⟨q1, q2⟩ := peak_dominates hco z2 hm hc (c := c) (κ := κ) (by
    show c * r.skier.kA55 ^ 2 ≤ r.skier.kA55 - r.skier.kt * r.skier.t ^ 2 / 16
    rw [eS, ekt, et]; exact hc') hκ (by
    show r.skier.kn ≤ _
    rw [ekn]; exact hκ') hfluxm
  rw [← hB, hflux0, neg_neg] at q1 q2
  rw [z8] at q1
  set F := w * (9.81 / 1000) / 2 with hF
  have hFpos : 0 < F := by positivity
  have h1 : F ≤ B * Z 0 2 := by
    have : F * F ≤ F * (B * Z 0 2) := by nlinarith
    exact le_of_mul_le_mul_left this hFpos
  have hW : 0 < Z 0 2 := by
    by_contra hn
    push Not at hn
    have := mul_nonpos_of_nonneg_of_nonpos hBpos.le hn
    linarith
  have h2 : r.skier.beam.V (Z m) ^ 2 ≤ (B * Z 0 2) ^ 2 := by
    have := mul_le_mul_of_nonneg_right h1 (mul_nonneg hBpos.le hW.le)
    nlinarith
  have h3 := abs_le_of_sq_le_sq h2 (by positivity)
  refine ⟨Z 0 2, ⟨hW, h1⟩, by rw [z1]; rfl, by rw [z1, Pi.add_apply, z4, zero_add], ?_⟩
  rw [z1, tau_add, a2, add_zero]
  have hV : r.skier.beam.V (Z m) = s.kA55 * Z m 3 := by
    unfold Beam.V
    rw [z5, add_zero]
    show r.skier.kA55 * _ = _
    rw [eS]
  have htau : r.skier.beam.tau (Z m) = -(s.kt * s.t / 2 * (r.skier.beam.V (Z m) / s.kA55)) := by
    rw [hV]
    unfold Beam.tau
    rw [z3, z5]
    show r.skier.kt * (0 + _ * 0 - r.skier.t / 2 * Z m 3) = _
    rw [ekt, et]
    field_simp
    ring
  rw [htau, abs_neg, abs_mul, abs_of_pos (by positivity : 0 < s.kt * s.t / 2), abs_div, abs_of_pos hS]
  exact mul_le_mul_of_nonneg_left (div_le_div_of_nonneg_right h3 hS.le) (by positivity)

/-- On level ground, if the shear stress at the ends of the beam is small
compared to the deflection under the skier, there are weights for which the
envelope is exceeded under the skier but not at the ends of the beam. `q` is the
weight of the snow cover (kPa). -/
theorem level_crack (num : Numerics) (site : Site) (hs : SiteOk num site) (hphi : site.phi = 0) {sc tc : ℝ} (hsc : 0 < sc)
    (he : Elliptic (fun sigma tau => stressEnvelope site.env sigma tau) sc tc) (m : ℝ) (hm : 0 < m) {s : Self}
    (hobj : ∀ r w, createSkierObject num site w [m, m] [true, true] .nocrack = .ok r → r.skier.beam = s.beam) {c κ q : ℝ}
    (hc : 0 < c) (hc' : c * s.kA55 ^ 2 ≤ s.kA55 - s.kt * s.t ^ 2 / 16) (hκ : 0 < κ) (hκ' : s.kn ≤ κ ^ 2 * c)
    (hq : cover site.profile = q) (hq0 : 0 ≤ q) (hq1 : q < sc)
    (hend : (q / sc) ^ 2 + (s.kt * s.t * (1 / (c * m) + κ) * (sc - q) / (2 * s.kA55 * s.kn) / tc) ^ 2 < 1) :
    ∃ w r d, 0 < w ∧ createSkierObject num site w [m, m] [true, true] .nocrack = .ok r ∧ distances site.env r = .ok d ∧
      (∀ v ∈ d, v ≠ 1) ∧ (∀ v ∈ d.head?, v < 1) ∧ (∀ v ∈ d.getLast?, v < 1) ∧
      ∃ (n : ℕ) (v : ℝ), r.x[n]? = some (some (m / 10)) ∧ d[n]? = some v ∧ 1 < v := by
  have hbeam : BeamOk [m, m] [true, true] := by
    have := half_beam (show 0 < m + m by linarith)
    rwa [show (m + m) / 2 = m by ring] at this
  set D : ℝ → ℝ → ℝ := fun a b => (a / sc) ^ 2 + (b / tc) ^ 2 with hDdef
  have hD : ∀ a b, stressEnvelope site.env a b = .ok (D a b) := fun a b => he a b
  have hsym : ∀ a b, D a (-b) = D a b := fun a b => by simp only [hDdef]; ring
  obtain ⟨p, u, p1, u1, H⟩ := half_affine num site hs m hm
  set B := 1 / (c * m) + κ with hB
  obtain ⟨W, ⟨w1, -⟩, w2, -, -⟩ := level_peak num site hs hphi 1 m hm one_pos u1 (hobj u 1 u1) hB hc hc' hκ hκ'
  obtain ⟨-, -, ut, ukn⟩ := level_alone num site hs hphi 1 m hm u1
  have ukn' : u.skier.kn = s.kn := congrArg Beam.kn (hobj u 1 u1)
  rw [ukn'] at ukn
  -- weights
  set K := 1000 * (s.kt * s.t / 2 * (B * W / s.kA55)) / tc with hK
  set v1 := (sc - q) / (1000 * s.kn * W) with hv1
  have hv1pos : 0 < v1 := div_pos (by linarith) (by positivity)
  have hcontv : ContinuousAt (fun v => (q / sc) ^ 2 + (v * K) ^ 2) v1 := by fun_prop
  have hSne : s.kA55 ≠ 0 := by
    have := (level_response num site hs hphi 1 m hm u1).1.S.ne'
    rwa [hobj u 1 u1] at this
  have hat : (q / sc) ^ 2 + (v1 * K) ^ 2 < 1 := by
    have : v1 * K = s.kt * s.t * B * (sc - q) / (2 * s.kA55 * s.kn) / tc := by
      rw [hv1, hK]
      have := w1.ne'
      have := ukn.ne'
      field_simp
    rw [this]; exact hend
  obtain ⟨ε, e1, e2⟩ := Metric.eventually_nhds_iff.1 (hcontv.eventually (gt_mem_nhds hat))
  obtain ⟨p', pp1, pp2⟩ := C50_solution_partial num site hs 0 [m, m] [true, true] hbeam .nocrack
  rw [p1] at pp1
  injection pp1 with pp1
  subst pp1
  obtain ⟨xs, x1, x2, x3, x4, x5, -⟩ := half_samples site 0 m hm hD pp2
  set y : ℝ → Vec6 := fun x => if x < m then half u site.phi m 0 x else half u site.phi m 1 (x - m) with hy
  set z := zp u.skier 0 site.phi true with hz
  obtain ⟨ua, ub, -, -⟩ := level_alone num site hs hphi 1 m hm u1
  rw [hq] at ua
  have hgrid : ∀ w r, createSkierObject num site w [m, m] [true, true] .nocrack = .ok r → ∀ x,
      distGrid D r site.phi m x = ((-q - w * (1000 * s.kn * (y x 2 - z 2))) / sc) ^ 2
        + (w * (1000 * u.skier.beam.tau (y x)) / tc) ^ 2 := by
    intro w r hr x
    obtain ⟨r', r1, r2, -, r4⟩ := H w
    rw [hr] at r1
    injection r1 with r1
    subst r1
    obtain ⟨u', u1', u2', -, -⟩ := H 1
    rw [u1] at u1'
    injection u1' with u1'
    subst u1'
    have hru : r.skier = u.skier := r2.symm.trans u2'
    have hst : distGrid D r site.phi m x = distOf D u.skier (mixVec w z (y x)) := by
      unfold distGrid
      rw [hy, hru]
      beta_reduce
      split
      · rw [r4 0 (by norm_num), hru]
      · rw [r4 1 (by norm_num), hru]
    rw [hst]
    unfold distOf
    have t1 : u.skier.beam.tau (mixVec w z (y x)) = w * u.skier.beam.tau (y x) := by
      unfold mixVec
      rw [tau_add, tau_smul, tau_smul, ub]; ring
    have t2 : 1000 * -(u.skier.kn * mixVec w z (y x) 2) = -q - w * (1000 * s.kn * (y x 2 - z 2)) := by
      rw [← ua, ukn']
      unfold mixVec
      simp only [Pi.add_apply, Pi.smul_apply, smul_eq_mul]
      ring
    rw [t1, t2]
    simp only [hDdef]
    ring
  set bad : ℝ → Set ℝ := fun x => {v | 0 < v ∧ (((1000 * s.kn * (y x 2 - z 2)) / sc) ^ 2 + (1000 * u.skier.beam.tau (y x) / tc) ^ 2) * v ^ 2
    + 2 * (q / sc) * ((1000 * s.kn * (y x 2 - z 2)) / sc) * v + ((q / sc) ^ 2 - 1) = 0} with hbad
  have hqs : (q / sc) ^ 2 - 1 < 0 := by
    have h1 : q / sc < 1 := by rwa [div_lt_one hsc]
    have h2 : 0 ≤ q / sc := by positivity
    nlinarith
  have hfin : (⋃ x ∈ xs.toFinset, bad x).Finite :=
    Set.Finite.biUnion (Finset.finite_toSet _) fun x _ => quad_once (by positivity) hqs
  obtain ⟨w, ⟨hw1, hw2⟩, hw3⟩ := ((Set.Ioo_infinite (show v1 < v1 + ε by linarith)).sdiff hfin).nonempty
  have hw0 : 0 < w := hv1pos.trans hw1
  obtain ⟨r, r1, r2, r3, r4⟩ := H w
  obtain ⟨r', rr1, rr2⟩ := C50_solution_partial num site hs w [m, m] [true, true] hbeam .nocrack
  rw [r1] at rr1
  injection rr1 with rr1
  subst rr1
  obtain ⟨xs', y1, y2, y3, y4, y5, y6⟩ := half_samples site w m hm hD rr2
  have hxs : xs' = xs := by
    rw [x5, y5] at r3
    exact (List.map_injective_iff.2 (fun a b hab => by
      simp only [Option.some.injEq] at hab
      linarith) r3).symm
  subst hxs
  obtain ⟨W', ⟨a1, -⟩, a2, a3, a4⟩ := level_peak num site hs hphi w m hm hw0 r1 (hobj r w r1) hB hc hc' hκ hκ'
  obtain ⟨b1, b2, -, -⟩ := level_alone num site hs hphi w m hm r1
  rw [hq] at b1
  have hkn : r.skier.kn = s.kn := congrArg Beam.kn (hobj r w r1)
  rw [hkn] at b1
  have hW' : W' = w * W := by
    obtain ⟨u', u1', u2', -, -⟩ := H 1
    rw [u1] at u1'
    injection u1' with u1'
    subst u1'
    have hru : r.skier = u.skier := r2.symm.trans u2'
    have := congrFun (r4 1 (by norm_num) 0) 2
    unfold mixVec at this
    simp only [Pi.add_apply, Pi.smul_apply, smul_eq_mul] at this
    rw [a2, w2, hru] at this
    linarith
  have hendv : distOf D r.skier (half r site.phi m 1 m) < 1 := by
    have hlt := e2 (show dist w v1 < ε by rw [Real.dist_eq, abs_of_pos (by linarith)]; linarith)
    have h1 : distOf D r.skier (half r site.phi m 1 m) = (q / sc) ^ 2 + (1000 * r.skier.beam.tau (half r site.phi m 1 m) / tc) ^ 2 := by
      unfold distOf
      rw [a3, hkn, show 1000 * -(s.kn * zp r.skier 0 site.phi true 2) = -q by rw [← b1]; ring]
      simp only [hDdef]
      ring
    rw [h1]
    refine lt_of_le_of_lt (add_le_add_right ?_ _) hlt
    rw [hK, show w * (1000 * (s.kt * s.t / 2 * (B * W / s.kA55)) / tc) = 1000 * (s.kt * s.t / 2 * (B * W' / s.kA55)) / tc by
      rw [hW']; ring, div_pow, div_pow]
    refine div_le_div_of_nonneg_right ?_ (sq_nonneg _)
    rw [sq_le_sq, abs_mul, abs_mul]
    exact mul_le_mul_of_nonneg_left (a4.trans (le_abs_self _)) (abs_nonneg _)
  refine ⟨w, r, _, hw0, r1, y6, ?_, ?_, ?_, ?_⟩
  · intro v hv e
    obtain ⟨x, hx, rfl⟩ := List.mem_map.1 hv
    apply hw3
    simp only [Set.mem_iUnion, List.mem_toFinset]
    refine ⟨x, hx, hw0, ?_⟩
    rw [hgrid w r r1] at e
    rw [← sub_eq_zero] at e
    rw [← e]
    ring
  · intro v hv
    rw [List.head?_map, y1] at hv
    simp only [Option.map_some, Option.mem_def, Option.some.injEq] at hv
    rw [← hv]
    unfold distGrid
    rw [if_pos hm, level_sides num site hs hphi hsym w m hm r1, sub_zero]
    exact hendv
  · intro v hv
    rw [List.getLast?_map, y2] at hv
    simp only [Option.map_some, Option.mem_def, Option.some.injEq] at hv
    rw [← hv]
    unfold distGrid
    rw [if_neg (by linarith), show m + m - m = m by ring]
    exact hendv
  · obtain ⟨n, hn, hget⟩ := List.getElem_of_mem y4
    refine ⟨n, distGrid D r site.phi m m, ?_, ?_, ?_⟩
    · rw [y5, List.getElem?_map, List.getElem?_eq_getElem hn, hget]; rfl
    · rw [List.getElem?_map, List.getElem?_eq_getElem hn, hget]; rfl
    · unfold distGrid
      rw [if_neg (lt_irrefl _), sub_self]
      unfold distOf
      rw [a2, hkn, show 1000 * -(s.kn * (W' + zp r.skier 0 site.phi true 2)) = -(q + 1000 * s.kn * W * w) by rw [← b1, hW']; ring]
      simp only [hDdef]
      have h1 : sc < q + 1000 * s.kn * W * w := by
        rw [hv1, div_lt_iff₀ (by positivity)] at hw1
        linarith
      have h2 : 1 < (-(q + 1000 * s.kn * W * w) / sc) ^ 2 := by
        have : 1 < (q + 1000 * s.kn * W * w) / sc := by rwa [one_lt_div hsc]
        rw [neg_div, neg_sq]
        nlinarith
      have h3 := sq_nonneg (1000 * r.skier.beam.tau (half r site.phi m 1 0) / tc)
      linarith

/-- Any weight on the soft slab gives an object with the same stiffnesses. -/
theorem softSite_object (num : Numerics) (hs : SiteOk num softSite) (m : ℝ) (hm : 0 < m) :
    ∃ s : Self, s.kn = 2 / 225 ∧ s.kt = 1 / 300 ∧ s.t = 30 ∧ s.kA55 = 6500 * (7 / 10) ^ 22 * (200 / 3) ∧ ∀ r w,
      createSkierObject num softSite w [m, m] [true, true] .nocrack = .ok r → r.skier.beam = s.beam := by
  have hbeam : BeamOk [m, m] [true, true] := by
    have := half_beam (show 0 < m + m by linarith)
    rwa [show (m + m) / 2 = m by ring] at this
  obtain ⟨s, k1, k2, k3, k4, k5, -⟩ := siteObject_ready num.eig softSite hs.plies hs.t hs.E
  obtain ⟨h1, h2, h3, h4, h5, h6, h7, h8, h9⟩ := softSite_fields _ s k1
  refine ⟨s, h1, h2, h5, h8, fun r w hr => ?_⟩
  obtain ⟨hd, hsh⟩ := hs.generic s k1
  obtain ⟨j, j1, j2, j3⟩ := skierWeights_run [m, m] [true, true] hbeam.len hbeam.nonneg hbeam.middle hbeam.last
  have hP := pointLoad_set w j1 hbeam.len
  obtain ⟨C, pts, X, σ, τ, m1, -⟩ := solveSkier_run num softSite.phi hs.eig s k2 k3 k4 k5 hd hsh [m, m] _ [true, true] hbeam hP.1
    .nocrack
  unfold createSkierObject at hr
  rw [k1] at hr
  simp only [bind, Except.bind] at hr
  rw [j2] at hr
  simp only at hr
  rw [m1] at hr
  injection hr with hr
  rw [← hr]
  rfl

/-- Some skier cracks the soft slab under their feet but not at the ends of the
beam. -/
theorem softSite_cracks (num : Numerics) (hs : SiteOk num softSite) : ∃ w r d, 0 < w ∧
    createSkierObject num softSite w [200000 / 2, 200000 / 2] [true, true] .nocrack = .ok r ∧
    distances softSite.env r = .ok d ∧
    (∀ v ∈ d, v ≠ 1) ∧ (∀ v ∈ d.head?, v < 1) ∧ (∀ v ∈ d.getLast?, v < 1) ∧
    ∃ (n : ℕ) (v : ℝ), r.x[n]? = some (some (200000 / 2 / 10)) ∧ d[n]? = some v ∧ 1 < v := by
  have hm : (0 : ℝ) < 200000 / 2 := by norm_num
  obtain ⟨s, h1, h2, h3, h4, h5⟩ := softSite_object num hs (200000 / 2) hm
  have hf : strengthFactor 1 1 = 1 := by unfold strengthFactor; norm_num
  have he := C46_adam 1 1 250 false
  rw [hf] at he
  refine level_crack num softSite hs rfl (sc := 6.16 * 1) (tc := 5.09 * 1) (by norm_num) he (200000 / 2) hm h5
    (c := 1 / 170) (κ := 2) (q := cover softSite.profile) (by norm_num) ?_ (by norm_num) ?_ rfl ?_ ?_ ?_
  · rw [h2, h3, h4]; norm_num
  · rw [h1]; norm_num
  · rw [softSite_cover]; norm_num
  · rw [softSite_cover]; norm_num
  · rw [softSite_cover, h1, h2, h3, h4]; norm_num

/-- The search for a crack under that skier, with bisection to a micrometre: it
returns a crack that contains the load point but not the ends of the beam, and
the crack ends where the stresses reach the envelope. -/
example : ∃ w r a li' ki', 0 < w ∧
    createSkierObject (innerNum 0.0005) softSite w [200000 / 2, 200000 / 2] [true, true] .nocrack = .ok r ∧
    findNewAnticrackLength (innerNum 0.0005) softSite w [200000] = .ok (a, li', ki') ∧ a = unsupported li' ki' ∧
    Touches li' ki' 100000 false ∧ ¬ Touches li' ki' 100000 true ∧
    Touches li' ki' 0 true ∧ ¬ Touches li' ki' 0 false ∧
    ∀ x, 0 ≤ x → x ≤ 200000 → Touches li' ki' x true → Touches li' ki' x false →
      ∃ c, |c - x| ≤ 0.001 ∧ distLine (fun a b => (a / 6.16) ^ 2 + (b / 5.09) ^ 2) r softSite.phi (200000 / 2) c = 1 := by
  have hT : ([200000] : List ℝ).sum = 200000 := by simp
  have hT0 : (0 : ℝ) < ([200000] : List ℝ).sum := by rw [hT]; norm_num
  have hs : SiteOk (innerNum 0.0005) softSite := SiteOk.eig_only (num := bisectNum 1) (num' := innerNum 0.0005) rfl (softSite_ok 1)
  obtain ⟨w, r, d, hw, hr, hd, hon, hfirst, hlast, n, v, hx, hv, hv1⟩ := softSite_cracks _ hs
  have hf : strengthFactor 1 1 = 1 := by unfold strengthFactor; norm_num
  have he := C46_adam 1 1 250 false
  rw [hf, mul_one, mul_one] at he
  obtain ⟨r', r1, r2⟩ := C50_solution_partial _ softSite hs w _ _ (half_beam (T := 200000) (by norm_num)) .nocrack
  rw [hr] at r1
  injection r1 with r1
  subst r1
  obtain ⟨xs, x1, x2, x3, x4, x5, x6⟩ := half_samples softSite w (200000 / 2) (by norm_num)
    (D := fun a b => (a / 6.16) ^ 2 + (b / 5.09) ^ 2) (fun a b => he a b) r2
  rw [hd] at x6
  injection x6 with x6
  obtain ⟨a, li', ki', h1, h2, h3, h4, h5, h6, h7, h8⟩ := C53_level_ends_partial (innerNum 0.0005) softSite hs rfl [200000] hT0
    (by rw [hT]; exact innerNum_crosses (by norm_num) (by norm_num))
    (D := fun a b => (a / 6.16) ^ 2 + (b / 5.09) ^ 2) (fun a b => he a b) (fun a b => by ring) (by fun_prop) w
    (by rw [hT]; exact hr) hd hon hfirst
  rw [hT] at h7
  have hmid := (h8 n _ v hx hv).1 hv1
  rw [show (10 : ℝ) * (200000 / 2 / 10) = 100000 by norm_num] at hmid
  have h0 : r.x[0]? = some (some (0 / 10)) ∧ d[0]? = some (distGrid (fun a b => (a / 6.16) ^ 2 + (b / 5.09) ^ 2) r softSite.phi
      (200000 / 2) 0) := by
    rw [List.head?_eq_getElem?] at x1
    rw [x5, x6, List.getElem?_map, List.getElem?_map, x1]
    exact ⟨rfl, rfl⟩
  have hv0 := hfirst _ (by rw [List.head?_eq_getElem?, h0.2]; rfl)
  have hleft := (h8 0 _ _ h0.1 h0.2).2 hv0
  rw [show (10 : ℝ) * (0 / 10) = 0 by norm_num] at hleft
  refine ⟨w, r, a, li', ki', hw, hr, h1, h6, hmid.1, hmid.2, hleft.1, hleft.2, fun x a1 a2 a3 a4 => ?_⟩
  obtain ⟨c, -, -, c1, c2⟩ := h7 x a1 a2 a3 a4
  exact ⟨c, by rw [show (0.001 : ℝ) = 2 * 0.0005 by norm_num]; exact c1, c2⟩

/-- The same skier and any sufficiently accurate root finder. -/
example : ∃ w > 0, ∃ δ₀ > 0, ∀ (num : Numerics) (δ : ℝ), num.eig = stdEig → 0 ≤ δ → δ ≤ δ₀ → BrentFinds num 200000 δ →
    ∃ a li' ki', findNewAnticrackLength num softSite w [200000] = .ok (a, li', ki') ∧ a = unsupported li' ki' ∧
      Touches li' ki' 100000 false ∧ ¬ Touches li' ki' 100000 true := by
  have hT : ([200000] : List ℝ).sum = 200000 := by simp
  have hT0 : (0 : ℝ) < ([200000] : List ℝ).sum := by rw [hT]; norm_num
  have hs := softSite_ok 1
  obtain ⟨w, r, d, hw, hr, hd, hon, hfirst, hlast, n, v, hx, hv, hv1⟩ := softSite_cracks _ hs
  have hf : strengthFactor 1 1 = 1 := by unfold strengthFactor; norm_num
  have he := C46_adam 1 1 250 false
  rw [hf, mul_one, mul_one] at he
  obtain ⟨δ₀, d1, d2⟩ := C53_accurate_partial (bisectNum 1) softSite hs rfl [200000] hT0
    (D := fun a b => (a / 6.16) ^ 2 + (b / 5.09) ^ 2) (fun a b => he a b) (fun a b => by ring) (by fun_prop) w
    (by rw [hT]; exact hr) hd hon hfirst
  refine ⟨w, hw, δ₀, d1, fun num δ e0 e1 e2 e3 => ?_⟩
  obtain ⟨a, li', ki', h1, -, -, -, -, h6, -, h8⟩ := d2 num δ e0 e1 e2 (by rw [hT]; exact e3)
  have hmid := (h8 n _ v hx hv).1 hv1
  rw [show (10 : ℝ) * (200000 / 2 / 10) = 100000 by norm_num] at hmid
  exact ⟨a, li', ki', h1, h6, hmid⟩

/-- The same skier and a root finder that returns the middle of its bracket. -/
example : ∃ w > 0, ∃ a li' ki', findNewAnticrackLength midNum softSite w [200000] = .ok (a, li', ki') ∧
    a = unsupported li' ki' ∧ Touches li' ki' 100000 false ∧ ¬ Touches li' ki' 100000 true := by
  have hT : ([200000] : List ℝ).sum = 200000 := by simp
  have hT0 : (0 : ℝ) < ([200000] : List ℝ).sum := by rw [hT]; norm_num
  have hs : SiteOk midNum softSite := SiteOk.eig_only (num := bisectNum 1) (num' := midNum) rfl (softSite_ok 1)
  obtain ⟨w, r, d, hw, hr, hd, hon, hfirst, hlast, n, v, hx, hv, hv1⟩ := softSite_cracks _ hs
  have hf : strengthFactor 1 1 = 1 := by unfold strengthFactor; norm_num
  have he := C46_adam 1 1 250 false
  rw [hf, mul_one, mul_one] at he
  obtain ⟨a, li', ki', h1, -, -, -, -, h6, h8⟩ := C53_level_partial midNum softSite hs rfl midNum_runs midNum_strict
    (D := fun a b => (a / 6.16) ^ 2 + (b / 5.09) ^ 2) (fun a b => he a b) (fun a b => by ring) w [200000] hT0
    (by rw [hT]; exact hr) hd hon hfirst hlast (fun _ => ⟨n, _, v, hx, hv, hv1, by rw [hT]; norm_num⟩)
  have hmid := (h8 n _ v hx hv).1 hv1
  rw [show (10 : ℝ) * (200000 / 2 / 10) = 100000 by norm_num] at hmid
  exact ⟨w, hw, a, li', ki', h1, h6, hmid⟩

end Weac
