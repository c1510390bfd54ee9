import Verif.Props.Nucleation

/-!
# C31 and C54: the accuracy asked of the quadrature

`ginc` calls `quad` with `epsabs = epsrel = tol`, where `tol = 1e-3`
(`weac/eigensystem.py` 113, `weac/mixins.py` 1396-1397). This contract has an absolute
and a relative part. For the initial crack of one millimetre its absolute part
exceeds the fracture toughness.
-/

namespace Weac

namespace Spec

/-- What `scipy.integrate.quad` promises for `epsabs = epsrel = tol`. -/
def QuadTol (quad : Quad) (tol : ℝ) : Prop :=
  ∀ (f : ℝ → ℝ) (a b : ℝ), Continuous f → |quad f a b - ∫ x in a..b, f x| ≤ max tol (tol * |∫ x in a..b, f x|)

/-- The tolerance that `ginc` asks for. -/
noncomputable def tolAsked : ℝ := 1e-3

end Spec

open Spec

theorem sum_close {α : Type*} (cr : List α) (f w r : α → ℝ) {c : ℝ} (hc : 0 < c) (h : ∀ g, |f g - w g| ≤ r g) :
    |(cr.map fun g => f g / c).sum - (cr.map w).sum / c| ≤ (cr.map r).sum / c := by
  induction cr with
  | nil => simp
  | cons g cr ih =>
    simp only [List.map_cons, List.sum_cons]
    have h1 : |(f g - w g) / c| ≤ r g / c := by
      rw [abs_div, abs_of_pos hc]
      exact div_le_div_of_nonneg_right (h g) hc.le
    calc |f g / c + (cr.map fun g => f g / c).sum - (w g + (cr.map w).sum) / c|
        = |(f g - w g) / c + ((cr.map fun g => f g / c).sum - (cr.map w).sum / c)| := by congr 1; ring
      _ ≤ r g / c + (cr.map r).sum / c := (abs_add_le _ _).trans (add_le_add h1 ih)
      _ = (r g + (cr.map r).sum) / c := by ring

theorem int1_work (s : Self) (ht : s.t ≠ 0) (phi : ℝ) (g : IncSeg) :
    (∫ x in (0 : ℝ)..g.l, int1 s x (fun x => zsol s x g.C0 g.l phi true) (fun x => zsol s x g.C1 g.l phi false))
      = normalWork s phi g ∧
    Continuous fun x => int1 s x (fun x => zsol s x g.C0 g.l phi true) (fun x => zsol s x g.C1 g.l phi false) := by
  constructor
  · unfold normalWork
    congr 1
    funext x
    simp only [int1, fsig, feps, fw]; field_simp
  · have c0 := continuous_zsol s g.C0 g.l phi true
    have c1 := continuous_zsol s g.C1 g.l phi false
    unfold int1 fsig feps fw
    have d0 := (continuous_apply (2 : Fin 6)).comp c0
    have d1 := (continuous_apply (2 : Fin 6)).comp c1
    simp only [Function.comp_def] at d0 d1
    fun_prop

theorem int2_work (s : Self) (ht : s.t ≠ 0) (phi : ℝ) (g : IncSeg) :
    (∫ x in (0 : ℝ)..g.l, int2 s x (fun x => zsol s x g.C0 g.l phi true) (fun x => zsol s x g.C1 g.l phi false))
      = -shearWork s phi g ∧
    Continuous fun x => int2 s x (fun x => zsol s x g.C0 g.l phi true) (fun x => zsol s x g.C1 g.l phi false) := by
  constructor
  · unfold shearWork
    rw [← intervalIntegral.integral_neg]
    congr 1
    funext x
    have h1 := (C09_field_quantities s (zsol s x g.C0 g.l phi true)).2.2.2.1
    simp only [int2]
    rw [h1]
    simp only [fgamma, fdw, fu, fpsi, Beam.slip, Self.beam]
    field_simp
    ring
  · have c0 := continuous_zsol s g.C0 g.l phi true
    have c1 := continuous_zsol s g.C1 g.l phi false
    unfold int2 ftau fgamma fdw fu fpsi
    have d0 := (continuous_apply (3 : Fin 6)).comp c0
    have d1 := (continuous_apply (3 : Fin 6)).comp c1
    have d2 := (continuous_apply (0 : Fin 6)).comp c0
    have d3 := (continuous_apply (0 : Fin 6)).comp c1
    have d4 := (continuous_apply (4 : Fin 6)).comp c0
    have d5 := (continuous_apply (4 : Fin 6)).comp c1
    simp only [Function.comp_def] at d0 d1 d2 d3 d4 d5
    fun_prop

/-- C31 for the contract that `quad` is called with: every segment contributes the larger of the
absolute and the relative error. (Mode II with the wrong sign, as before.) -/
theorem C31_tolerance_partial (quad : Quad) (tol : ℝ) (hq : QuadTol quad tol) (s : Self) (ht : s.t ≠ 0) (phi : ℝ)
    (segs cr : List IncSeg) (hcr : cr = segs.filter fun g => g.k0 && !g.ki) (da : ℝ)
    (hda : da = (cr.map IncSeg.l).sum) (hpos : 0 < da) :
    ∃ I II, ginc quad s phi segs = some (I + II, I, II) ∧
      |I - (cr.map (normalWork s phi)).sum / (2 * da)| ≤ (cr.map fun g => max tol (tol * |normalWork s phi g|)).sum / (2 * da) ∧
      |II + (cr.map (shearWork s phi)).sum / (2 * da)| ≤ (cr.map fun g => max tol (tol * |shearWork s phi g|)).sum / (2 * da) := by
  have hgs := ginc_some quad s phi segs (by rw [crackSegs, ← hcr, ← hda]; exact hpos)
  rw [crackSegs, ← hcr, ← hda] at hgs
  refine ⟨_, _, hgs, ?_, ?_⟩
  · refine sum_close cr _ (normalWork s phi) _ (by positivity) fun g => ?_
    have h := hq _ 0 g.l (int1_work s ht phi g).2
    rw [(int1_work s ht phi g).1] at h
    exact h
  · have hneg : (cr.map (shearWork s phi)).sum = -(cr.map fun g => -shearWork s phi g).sum := by
      clear hcr hda hgs
      induction cr with
      | nil => simp
      | cons g cr ih => simp only [List.map_cons, List.sum_cons, ih]; ring
    rw [hneg, neg_div, ← sub_eq_add_neg]
    refine sum_close cr _ (fun g => -shearWork s phi g) _ (by positivity) fun g => ?_
    have h := hq _ 0 g.l (int2_work s ht phi g).2
    rw [(int2_work s ht phi g).1, abs_neg] at h
    exact h

/-- C54: the tolerance asked of the quadrature does not settle whether the initial crack of one
millimetre releases enough energy. For every slab and weight, however little energy there is,
some quadrature within the tolerance makes the check succeed. -/
theorem C54_tolerance (num : Numerics) (site : Site) (hs : SiteOk num site) (w : ℝ) {L : ℝ} (hL : 1 < L) :
    ∃ quad r c v, QuadTol quad tolAsked ∧
      energyCheck num quad site w (crackStart L) [true, false, false, true] = .ok (r, c, some v) ∧ 1 < v := by
  have hB := crackStart_ok hL
  have hB0 : BeamOk (crackStart L) (List.replicate 4 true) := CrackCase.support_ok .nocrack hB
  obtain ⟨r, r1, -⟩ := C50_solution_partial num site hs w _ _ hB0 .nocrack
  obtain ⟨c, c1, -⟩ := C50_solution_partial num site hs w _ _ hB .crack
  obtain ⟨a1, a2, a3, a4, -⟩ := create_parts hs r1
  obtain ⟨b1, b2, b3, b4, -⟩ := create_parts hs c1
  have hf := incSegs_filter 4 r.C c.C (crackStart L) [true, false, false, true] a1 b1 rfl rfl
  have hl := (hf IncSeg.l).1
  rw [overCrack_length _ _ rfl, ← (crackStart_segs hL.le).crack] at hl
  set I : IncSeg → ℝ := fun g => ∫ x in (0 : ℝ)..g.l, int1 c.skier x (fun x => zsol c.skier x g.C0 g.l site.phi true)
    (fun x => zsol c.skier x g.C1 g.l site.phi false) with hI
  set g1 : IncSeg := ⟨r.C.getD 1 0, c.C.getD 1 0, 1 / 2, false, true⟩ with hg1
  set g2 : IncSeg := ⟨r.C.getD 2 0, c.C.getD 2 0, 1 / 2, false, true⟩ with hg2
  -- an error of one thousandth in the direction of the true value
  obtain ⟨K, hK, hbig⟩ : ∃ K : ℝ, |K| ≤ 1e-3 ∧ 1e-3 ≤ |(I g1 + K) / (2 * 1) + (I g2 + K) / (2 * 1)| := by
    rcases le_total 0 (I g1 + I g2) with h | h
    · refine ⟨1e-3, by rw [abs_of_pos (by norm_num)], ?_⟩
      have : (I g1 + 1e-3) / (2 * 1) + (I g2 + 1e-3) / (2 * 1) = (I g1 + I g2) / 2 + 1e-3 := by ring
      rw [this, abs_of_nonneg (by positivity)]
      linarith
    · refine ⟨-1e-3, by rw [abs_neg, abs_of_pos (by norm_num)], ?_⟩
      have : (I g1 + -1e-3) / (2 * 1) + (I g2 + -1e-3) / (2 * 1) = -((-(I g1 + I g2)) / 2 + 1e-3) := by ring
      have h' : 0 ≤ -(I g1 + I g2) := by linarith
      rw [this, abs_neg, abs_of_nonneg (by positivity)]
      linarith
  refine ⟨offQuad K, r, c, ?_⟩
  obtain ⟨G, hG, hG1⟩ : ∃ G, ginc (offQuad K) c.skier site.phi
      (incSegs r.C c.C (crackStart L) [true, false, false, true] (List.replicate 4 true)) = some G ∧ 1e-3 ≤ |G.2.1| := by
    refine ⟨_, ginc_some _ _ _ _ (by rw [crackSegs, hl]; exact one_pos), ?_⟩
    dsimp only [crackSegs]
    rw [hl, (hf _).1]
    have hsum : ∀ f : IncSeg → ℝ, overCrack f (crackStart L) [true, false, false, true] r.C c.C = f g1 + f g2 := by
      intro f
      simp [overCrack, crackStart, List.range_succ, nth, hg1, hg2]
    rw [hsum]
    exact hbig
  refine ⟨fractureToughnessCriterion (1000 * G.2.1) (1000 * G.2.2), ?_, ?_, ?_⟩
  · intro f a b hfc
    exact (offQuad_ok K f a b hfc).trans (hK.trans (le_max_left _ _))
  · unfold energyCheck
    rw [show List.replicate [true, false, false, true].length true = List.replicate 4 true from rfl]
    simp only [bind, Except.bind, r1, c1, b2, b3, pure, Except.pure]
    rw [show CrackCase.crack.support [true, false, false, true] = [true, false, false, true] from rfl, hG]
    rfl
  · unfold fractureToughnessCriterion
    refine lt_add_of_lt_of_nonneg (Real.one_lt_rpow ?_ (by norm_num)) (by positivity)
    rw [lt_div_iff₀ (by norm_num), abs_mul, abs_of_pos (by norm_num : (0 : ℝ) < 1000)]
    norm_num at hG1 ⊢
    linarith

/-- The slab of the examples without any skier. -/
example : ∃ quad r c v, QuadTol quad tolAsked ∧
    energyCheck midNum quad demoSite 0 (crackStart 2000) [true, false, false, true] = .ok (r, c, some v) ∧ 1 < v :=
  C54_tolerance midNum demoSite demoSite_ok 0 (by norm_num)

end Weac
