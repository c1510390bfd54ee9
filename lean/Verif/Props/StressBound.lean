import Verif.Lemmas.ChainBound
import Verif.Props.LevelWeight

/-!
# C66: how much stress a skier adds on level ground
-/

namespace Weac

open Spec

/-- Part of the uncracked solution on level ground that is due to the skier:
an unloaded chain with fixed ends and a point load. -/
theorem level_chain (num : Numerics) (site : Site) (hs : SiteOk num site) (hphi : site.phi = 0) (li : List ℝ)
    (ki : List Bool) (h : BeamOk li ki) (w : ℝ) (r : Skier) (hr : createSkierObject num site w li ki .nocrack = .ok r) :
    r.skier.beam.Coercive ∧ ∃ (Z : ℕ → ℝ → Vec6) (F : ℕ → ℝ × ℝ × ℝ) (j : ℕ), j + 1 < li.length ∧
      FirstBoundary li (li.sum / 2) (startOf li (j + 1)) ∧ (∀ i, i ≠ j → F i = (0, 0, 0)) ∧ F j = (0, 0, w * (9.81 / 1000)) ∧
      (∀ i < li.length, SolvesODE r.skier.beam Loads.zero true (Z i)) ∧
      Bvp r.skier.beam li.length F (.state 0 0 0) (.state 0 0 0) (fun i => Z i 0) (fun i => Z i (nth li i)) ∧
      ∀ i < li.length, ∀ x, stateAt r.skier site.phi li (CrackCase.nocrack.support ki) (fun i => r.C.getD i 0) i x =
        Z i x + zp r.skier 0 site.phi true := by
  obtain ⟨r', r1, r2⟩ := C50_solution_partial num site hs w li ki h .nocrack
  rw [hr] at r1
  injection r1 with r1
  subst r1
  obtain ⟨s, j, hsys, hbed, hshear, hj, H⟩ := create_run num site hs li ki h .nocrack
  obtain ⟨C, pts, c1, c2, c3, -, -⟩ := H w
  obtain ⟨C1, pts1, d1, d2, -⟩ := H 1
  obtain ⟨r1', r1, r3⟩ := C50_solution_partial num site hs 1 li ki h .nocrack
  rw [r1] at d1
  injection d1 with d1
  rw [hr] at c1
  injection c1 with c1
  have es : r.skier = s := by rw [c1]
  have eC : r.C = C := by rw [c1]
  have hkl : ki.length = li.length := h.len
  have hki : ∀ i < li.length, (CrackCase.nocrack.support ki).getD i false = true := by
    intro i hi
    simp only [CrackCase.support, List.getD_eq_getElem?_getD, List.getElem?_replicate, hkl, if_pos hi, Option.getD_some]
  have hZ : ∀ i < li.length, ∀ x, stateAt s site.phi li (CrackCase.nocrack.support ki) (fun i => C.getD i 0) i x
      = homAt s li (CrackCase.nocrack.support ki) (fun i => C.getD i 0) i x + zp s 0 site.phi true := by
    intro i hi x
    unfold stateAt zsol homAt
    rw [hki i hi]
    rfl
  have hm := c3 0
  unfold Meets at hm
  have he : ∀ e b, endCond s site.phi 0 e b = .state (zp s 0 site.phi true 0) (zp s 0 site.phi true 2)
      (zp s 0 site.phi true 4) := by
    intro e b
    unfold endCond IsPst IsVpst IsSkier
    simp [hsys]
  rw [he, he] at hm
  have h2 := h.two
  set Z := homAt s li (CrackCase.nocrack.support ki) (fun i => C.getD i 0) with hZdef
  have hsub : ∀ (f : Vec6 → ℝ), (∀ y z, f (y + z) = f y + f z) → ∀ y z, f (y + zp s 0 site.phi true) - f (z + zp s 0 site.phi true)
      = f y - f z := by
    intro f hf y z; rw [hf, hf]; ring
  have hbvp : Bvp s.beam li.length (jump s site.phi ((List.replicate (ki.length - 1) 0).set j w)) (.state 0 0 0) (.state 0 0 0)
      (fun i => Z i 0) (fun i => Z i (nth li i)) := by
    constructor
    · have := hm.left
      simp only at this
      rw [hZ 0 (by omega)] at this
      obtain ⟨a1, a2, a3⟩ := this
      simp only [Pi.add_apply, add_eq_right] at a1 a2 a3
      exact ⟨a1, a2, a3⟩
    · have := hm.right
      simp only at this
      rw [hZ _ (by omega)] at this
      obtain ⟨a1, a2, a3⟩ := this
      simp only [Pi.add_apply, add_eq_right] at a1 a2 a3
      exact ⟨a1, a2, a3⟩
    · intro i hi
      have := hm.trans i hi
      simp only at this
      rw [hZ i (by omega), hZ (i + 1) hi] at this
      obtain ⟨a1, a2, a3, a4, a5, a6⟩ := this
      simp only [Pi.add_apply, add_left_inj] at a1 a2 a3
      refine ⟨a1, a2, a3, ?_, ?_, ?_⟩
      · rw [← a4]; exact (hsub _ (fun y z => by simp only [Beam.N, Pi.add_apply]; ring) _ _).symm
      · rw [← a5]; exact (hsub _ (fun y z => by simp only [Beam.M, Pi.add_apply]; ring) _ _).symm
      · rw [← a6]; exact (hsub _ (fun y z => by simp only [Beam.V, Pi.add_apply]; ring) _ _).symm
  have hg : s.g = 9810 ∧ s.lski = 1000 := by
    rw [← es]; exact ⟨r2.load.2.1, r2.load.2.2⟩
  have hjump : ∀ i, jump s site.phi ((List.replicate (ki.length - 1) 0).set j w) i
      = if i = j then (0, 0, w * (9.81 / 1000)) else (0, 0, 0) := by
    intro i
    have ha : ¬ IsAux s := by
      rintro (e | e) <;> rw [hsys] at e <;> exact absurd e (by decide)
    unfold jump
    rw [if_neg ha]
    have hn : nth ((List.replicate (ki.length - 1) 0).set j w) i = if i = j then w else 0 := by
      unfold nth
      simp only [List.getD_eq_getElem?_getD, List.getElem?_set, List.getElem?_replicate, List.length_replicate]
      by_cases hij : j = i
      · subst hij
        rw [if_pos rfl, if_pos (by omega), if_pos rfl]; rfl
      · have hji : ¬ i = j := fun e => hij e.symm
        rw [if_neg hij]
        simp only [hji, if_false]
        split <;> rfl
    rw [hn]
    split
    · simp only [getSkierLoad, hphi, deg2rad, hg.1, hg.2]
      norm_num
      ring
    · simp [getSkierLoad]
  -- the skier stands where the weight of 1 kg would
  obtain ⟨x, hP, hfb⟩ := r3.weight
  have hx : startOf li (j + 1) = x := by
    obtain ⟨m1, k, hk, m2, m3, m4⟩ := hP
    have emi : r1'.segments.mi = (List.replicate (ki.length - 1) 0).set j 1 := by rw [d1]
    have hjl : j < r1'.segments.mi.length := by rw [emi]; simp; omega
    by_cases hjk : j = k
    · rw [hjk]; exact m3
    · have := m4 j hjl hjk
      simp only [emi, List.getElem_set_self] at this
      exact absurd this one_ne_zero
  rw [es, eC]
  refine ⟨hbed.stiff.coercive hshear, Z, _, j, hj, hx ▸ hfb, fun i hi => by rw [hjump, if_neg hi], by rw [hjump, if_pos rfl],
    fun i hi => ?_, hbvp, hZ⟩
  have := zh_solves s hbed ((CrackCase.nocrack.support ki).getD i false) (nth li i) (C.getD i 0)
  rw [hki i hi] at this
  rw [hZdef]
  unfold homAt
  rw [hki i hi]
  exact this

/-- Every sample of an uncracked beam is the stress somewhere on the beam. -/
theorem Spec.Sampled.values {n : ℕ} {li : List ℝ} {Z : ℕ → ℝ → Vec6} {sig tau : Vec6 → ℝ} {X S T : List (Option ℝ)}
    (h : Sampled li (List.replicate n true) Z sig tau X S T) (hn : n = li.length) :
    ∀ p ∈ (Weac.reals S).zip (Weac.reals T), ∃ j < li.length, ∃ x ∈ Set.Icc 0 (nth li j), p.1 = sig (Z j x) ∧ p.2 = tau (Z j x) := by
  obtain ⟨us, ss, ts, e1, e2, e3, -⟩ := h.reals hn
  obtain ⟨xs, -, -, -, -, -, h2, h3, h4, h5⟩ := h
  rw [e2, e3, reals_some, reals_some]
  rw [e2, List.length_map] at h3
  rw [e3, List.length_map] at h4
  intro p hp
  obtain ⟨m, hm, rfl⟩ := List.mem_iff_getElem.1 hp
  rw [List.length_zip] at hm
  obtain ⟨j, a1, a2, a3, a4, -, a5⟩ := h5 m xs[m] (List.getElem?_eq_getElem (by omega))
  rcases a5 with ⟨-, -, b2, b3⟩ | ⟨b, -⟩
  · refine ⟨j, a1, xs[m] - startOf li j, ⟨by linarith, ?_⟩, ?_, ?_⟩
    · rw [startOf_succ li a1] at a4
      rw [nth_eq a1]
      linarith
    · rw [List.getElem_zip]
      rw [e2, List.getElem?_map, List.getElem?_eq_getElem (by omega)] at b2
      simpa using b2
    · rw [List.getElem_zip]
      rw [e3, List.getElem?_map, List.getElem?_eq_getElem (by omega)] at b3
      simpa using b3
  · exact absurd (support_full hn j a1 a2 a3 a4) b

/-- Normal stress per load per length under a beam with characteristic length
`β`. -/
noncomputable def Spec.Beam.spread (b : Beam) (β : ℝ) : ℝ := 1 / β + b.kn * β / (2 * b.S)

/-- Square of the slip per work of the load on a beam of half length `m`. -/
noncomputable def Spec.Beam.slipWork (b : Beam) (m : ℝ) : ℝ :=
  b.slipCompliance / m + 2 * Real.sqrt (b.slipCompliance * b.slipRateCompliance)

/-- Stresses on level ground without skier. -/
theorem level_ground_alone {site : Site} (hphi : site.phi = 0) {w : ℝ} {li : List ℝ} {ki : List Bool} {r : Skier}
    (r2 : SkierSolution site w li ki r) :
    r.skier.kn * zp r.skier 0 site.phi true 2 = cover site.profile / 1000 ∧ r.skier.beam.tau (zp r.skier 0 site.phi true) = 0 := by
  have hqq : (r.skier.slab.map fun l => l.rho * 1e-12 * r.skier.g * l.h).sum
      = (site.profile.map fun p => p.rho * 1e-12 * 9810 * p.h).sum := by
    rw [← r2.profile, List.map_map, r2.load.2.1]
    rfl
  have hc : Real.cos (deg2rad site.phi) = 1 ∧ Real.sin (deg2rad site.phi) = 0 := by simp [hphi, deg2rad]
  constructor
  · have hk' := r2.stiff.kn.ne'
    simp only [zp, if_true, Matrix.cons_val, getWeightLoad, getSurfaceLoad, hqq, r2.load.1, hc.1, mul_one, add_zero, cover]
    field_simp
    ring_nf
  · rw [zp_tau _ r2.stiff.kt.ne' r2.stiff.kA55.ne']
    simp only [Self.loads, getWeightLoad, getSurfaceLoad, hqq, r2.load.1, hc.2]
    ring

/-- C66: on level ground a skier of weight `w` changes the stresses of the
uncracked weak layer by no more than a multiple of their load per length
`F = w g`. The normal stress changes by at most `(1 / β + kn β / (2 S)) F`,
where `β` is any length with `kn β ^ 4 ≤ 8 (D - B ^ 2 / A)`: the longer the slab
spreads the load, the less. A concrete case is `deepSite_stress` in
`Verif/Props/WeightLost.lean`. -/
theorem C66_bound (num : Numerics) (site : Site) (hs : SiteOk num site) (hphi : site.phi = 0) (li : List ℝ)
    (ki : List Bool) (h : BeamOk li ki) (hmid : ∃ i, i + 1 < li.length ∧ startOf li (i + 1) = li.sum / 2)
    (w : ℝ) (hw : 0 ≤ w) (r : Skier) (hr : createSkierObject num site w li ki .nocrack = .ok r) {β : ℝ} (hβ : 0 < β)
    (hβ' : r.skier.kn * β ^ 4 ≤ 8 * (r.skier.D11 - r.skier.B11 ^ 2 / r.skier.A11)) :
    ∀ p ∈ (reals r.sigma).zip (reals r.tau),
      |p.1 + cover site.profile| ≤ 1000 * (r.skier.beam.spread β * (w * (9.81 / 1000))) ∧
      (p.2 / 1000) ^ 2 ≤ r.skier.kt ^ 2 / r.skier.kn * r.skier.beam.spread β * r.skier.beam.slipWork (li.sum / 2) *
        (w * (9.81 / 1000)) ^ 2 := by
  obtain ⟨hco, Z, F, j, hj, hfb, hF, hFj, hode, hbvp, hstate⟩ := level_chain num site hs hphi li ki h w r hr
  obtain ⟨r', r1, r2⟩ := C50_solution_partial num site hs w li ki h .nocrack
  rw [hr] at r1
  injection r1 with r1
  subst r1
  set b := r.skier.beam with hb
  have hk : 0 < b.kn := hco.kn
  have hS := hco.S
  set V := w * (9.81 / 1000) with hV
  have hV0 : 0 ≤ V := by positivity
  have hnn : ∀ i < li.length, 0 ≤ nth li i := fun i hi => by rw [nth_eq hi]; exact h.nonneg _ (List.getElem_mem hi)
  have hx : startOf li (j + 1) = li.sum / 2 := by
    obtain ⟨i, i1, i2⟩ := hmid
    exact hfb.middle i1 i2
  have hsum : 0 < li.sum := by
    have h2 := h.two
    have e := startOf_succ li (show li.length - 1 < li.length by omega)
    rw [show li.length - 1 + 1 = li.length by omega, startOf_length] at e
    have hl := h.last
    rw [nth_eq (by omega)] at hl
    have := startOf_mono h.nonneg (Nat.zero_le (li.length - 1))
    simp only [startOf, List.take_zero, List.sum_nil] at this e
    linarith
  have hδ : ∀ x y, (b.D - b.B ^ 2 / b.A) * y ^ 2 ≤ b.A * x ^ 2 + 2 * b.B * x * y + b.D * y ^ 2 := by
    intro x y
    have hA := hco.A
    have e : b.A * x ^ 2 + 2 * b.B * x * y + b.D * y ^ 2 - (b.D - b.B ^ 2 / b.A) * y ^ 2 = (b.A * x + b.B * y) ^ 2 / b.A := by
      field_simp
      ring
    have : 0 ≤ (b.A * x + b.B * y) ^ 2 / b.A := by positivity
    linarith
  obtain ⟨⟨d0, d1⟩, d2, d3, d4⟩ := chain_deflection hco hδ hβ (by rw [mul_comm]; exact hβ') li.length (nth li) Z F V hnn hode hbvp
    j hj hF hFj hV0
  have hspread : 1 / (b.kn * β) + β / (2 * b.S) = b.spread β / b.kn := by
    unfold Beam.spread
    field_simp
  rw [hspread] at d1 d2
  have hC1 : 0 < b.slipCompliance := by
    have hq : 0 < 16 * b.S - b.kt * b.t ^ 2 := by linarith [hco.shear]
    have := hco.kt
    unfold Beam.slipCompliance
    positivity
  have hC2 : 0 < b.slipRateCompliance := by
    have hdet := hco.det
    have hA := hco.A
    unfold Beam.slipRateCompliance
    set e := (b.h + b.t) / 2
    have h4 : 0 < b.A * (b.D - 2 * b.B * e + b.A * e ^ 2) := by
      have h3 : b.A * (b.D - 2 * b.B * e + b.A * e ^ 2) = (b.A * e - b.B) ^ 2 + (b.A * b.D - b.B ^ 2) := by ring
      rw [h3]; positivity
    have := (mul_pos_iff_of_pos_left hA).1 h4
    positivity
  have hlam : 0 < Real.sqrt (b.slipRateCompliance / b.slipCompliance) := Real.sqrt_pos.2 (by positivity)
  have hκ : b.slipCompliance / (li.sum / 2) + Real.sqrt (b.slipRateCompliance / b.slipCompliance) * b.slipCompliance +
      b.slipRateCompliance / Real.sqrt (b.slipRateCompliance / b.slipCompliance) ≤ b.slipWork (li.sum / 2) := by
    have e1 : Real.sqrt (b.slipRateCompliance / b.slipCompliance) * b.slipCompliance =
        Real.sqrt (b.slipCompliance * b.slipRateCompliance) := by
      rw [Real.sqrt_div hC2.le, Real.sqrt_mul hC1.le, div_mul_eq_mul_div, div_eq_iff (Real.sqrt_pos.2 hC1).ne']
      linear_combination -Real.sqrt b.slipRateCompliance * Real.mul_self_sqrt hC1.le
    have e2 : b.slipRateCompliance / Real.sqrt (b.slipRateCompliance / b.slipCompliance) =
        Real.sqrt (b.slipCompliance * b.slipRateCompliance) := by
      rw [div_eq_iff hlam.ne', ← Real.sqrt_mul (by positivity)]
      rw [show b.slipCompliance * b.slipRateCompliance * (b.slipRateCompliance / b.slipCompliance) = b.slipRateCompliance ^ 2 by
        field_simp, Real.sqrt_sq hC2.le]
    rw [e1, e2]
    unfold Beam.slipWork
    linarith
  obtain ⟨y1, y2⟩ := chain_slip hco (slip_compliance hco) (slipRate_compliance hco) hlam (half_pos hsum) hκ li.length (nth li)
    (startOf li) Z F hnn hode hbvp j hj hF (by simp [startOf]) (fun i hi => by rw [startOf_succ li hi, nth_eq hi]) hx
    (by rw [startOf_length]; ring)
  have hw0 : 0 ≤ b.slipWork (li.sum / 2) := by unfold Beam.slipWork; positivity
  have hslip : ∀ i < li.length, ∀ x ∈ Set.Icc 0 (nth li i), b.slip (Z i x) ^ 2 ≤
      b.slipWork (li.sum / 2) * (b.spread β / b.kn * V ^ 2) := by
    intro i hi x hx
    have hVW : V * Z (j + 1) 0 2 ≤ b.spread β / b.kn * V ^ 2 := by
      have := mul_le_mul_of_nonneg_left d1 hV0
      linarith
    rcases le_or_gt i j with hij | hij
    · exact (y1 i hij x hx).trans (mul_le_mul_of_nonneg_left (d3.trans hVW) hw0)
    · exact (y2 i hij hi x hx).trans (mul_le_mul_of_nonneg_left (d4.trans hVW) hw0)
  have halone := level_ground_alone hphi r2
  intro p hp
  obtain ⟨i, hi, x, hx', p1, p2⟩ := r2.samples.values h.len p hp
  rw [hstate i hi] at p1 p2
  constructor
  · rw [p1]
    have e : 1000 * -(r.skier.kn * (Z i x + zp r.skier 0 site.phi true) 2) + cover site.profile = -(1000 * (b.kn * Z i x 2)) := by
      rw [Pi.add_apply, mul_add, halone.1]
      show 1000 * -(b.kn * _ + _) + _ = _
      ring
    rw [e, abs_neg, abs_mul, abs_mul, abs_of_pos hk, abs_of_pos (by norm_num : (0 : ℝ) < 1000)]
    refine mul_le_mul_of_nonneg_left ?_ (by norm_num)
    have := mul_le_mul_of_nonneg_left (d2 i hi x hx') hk.le
    have e2 : b.kn * (b.spread β / b.kn * V) = b.spread β * V := by field_simp
    rw [e2] at this
    exact this
  · rw [p2]
    have e : 1000 * b.tau (Z i x + zp r.skier 0 site.phi true) / 1000 = b.kt * b.slip (Z i x) := by
      have : b.tau (Z i x + zp r.skier 0 site.phi true) = b.tau (Z i x) + b.tau (zp r.skier 0 site.phi true) := by
        unfold Beam.tau; simp only [Pi.add_apply]; ring
      rw [this, halone.2, add_zero]
      unfold Beam.tau Beam.slip
      ring
    rw [e, mul_pow]
    have := mul_le_mul_of_nonneg_left (hslip i hi x hx') (sq_nonneg b.kt)
    refine this.trans (le_of_eq ?_)
    show _ = b.kt ^ 2 / b.kn * _ * _ * _
    ring

end Weac
