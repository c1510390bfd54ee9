import Verif.Props.Nucleation
import Verif.Props.WeightLost
import Verif.Props.Doubling

/-!
# When the dampened search does not start

C54 for the answers of the dampened version that need no pass.
-/

namespace Weac

open Spec

/-- C54: the dampened version judges the slab without a crack as the other one
does, for a beam ten times shorter. If all stresses at the critical weight exceed
the envelope, the returned solution is that without a skier and a crack as long as
the beam. If they do not and the critical weight is below one kilogram, no
anticrack is reported, and the solution is that without a crack at the critical
weight. In both cases no pass is counted and the histories are empty. -/
theorem C54_slab_alone_dampened (num : Numerics) (quad : Quad) (e : ℝ) (hq : QuadOk quad e) (he : 0 ≤ e) (site : Site)
    (hs : SiteOk num site) (hb : BrentOk num) (hH : 1 ≤ 100 * profileHeight site.profile) (fuel : ℕ) (damp : ℝ) (o : Outcome)
    (h : coupledDampened num quad fuel site damp = .ok (some o)) :
    ∃ p, minForce (trial num site [100 * profileHeight site.profile / 2, 0, 0, 100 * profileHeight site.profile / 2]
        [true, true, true, true]) = .ok p ∧
      (1 < p.distMin → o.result = true ∧ o.selfCollapse = true ∧ o.weight = 0 ∧ o.critical = p.weight ∧
        o.crackLength = 100 * profileHeight site.profile ∧
        o.crackLength = unsupported o.run.segments.li o.run.segments.ki ∧
        ∃ v, o.gDelta = some v ∧ Released e site 0 o.run.segments.li o.run.segments.ki o.run v) ∧
      (p.distMin ≤ 1 → p.weight < 1 → o.result = false ∧ o.crackLength = 0 ∧ o.weight = p.weight ∧ o.run = p.run ∧
        o.gDelta = some 0) ∧
      (1 < p.distMin ∨ p.weight < 1 → o.iterations = 0 ∧ o.weights = [] ∧ o.cracks = [] ∧ o.gValues = [] ∧ o.distValues = [] ∧
        o.pureStress = false ∧ (o.selfCollapse = true ↔ 1 < p.distMin) ∧ o.critical = p.weight ∧
        o.dist = if 1 < p.distMin then p.distMin else p.distMax) := by
  obtain ⟨p, hp, h1⟩ := dampened_cases hq he hs hb hH h
  refine ⟨p, hp, fun hd => ?_, fun hd hw => ?_, fun hor => ?_⟩
  · obtain ⟨-, -, hc⟩ | ⟨-, hd', -⟩ := h1
    · generalize 100 * profileHeight site.profile = L at *
      unfold selfCollapse at hc
      simp only [bind, Except.bind] at hc
      cases hE : energyCheck num quad site 0 [50000, L / 2, 0, 0, L / 2, 50000] [true, false, false, false, false, true] with
      | error e => rw [hE] at hc; simp at hc
      | ok x =>
        obtain ⟨r, c, g⟩ := x
        rw [hE] at hc
        simp only [pure, Except.pure, Except.ok.injEq] at hc
        have hu : unsupported [50000, L / 2, 0, 0, L / 2, 50000] [true, false, false, false, false, true] = L := by
          simp [unsupported]
        obtain ⟨v, v1, v2⟩ := energy_released hq he hs hE (by
          intro l hl
          simp only [List.mem_cons, List.not_mem_nil, or_false] at hl
          rcases hl with rfl | rfl | rfl | rfl | rfl | rfl <;> positivity) (by simp [nth])
          (.inr (by rw [hu]; linarith))
        obtain ⟨p1, p2, -⟩ := energy_parts hs hE
        subst hc
        refine ⟨rfl, rfl, rfl, rfl, rfl, ?_, v, v1, ?_⟩
        · simp only [p1, p2, hu]
        · simp only [p1, p2]; exact v2
    · exact absurd hd (not_lt.2 hd')
  · obtain ⟨-, hd', -⟩ | ⟨-, -, ⟨-, h2⟩ | ⟨hw', -⟩⟩ := h1
    · exact absurd hd' (not_lt.2 hd)
    · rw [h2]; exact ⟨rfl, rfl, rfl, rfl, rfl⟩
    · exact absurd hw (not_lt.2 hw')
  · obtain ⟨-, hd, hc⟩ | ⟨-, hd, ⟨-, h2⟩ | ⟨hw', -⟩⟩ := h1
    · unfold selfCollapse at hc
      simp only [bind, Except.bind] at hc
      split at hc
      · simp at hc
      · simp only [pure, Except.pure, Except.ok.injEq] at hc
        rw [← hc, if_pos hd]
        exact ⟨rfl, rfl, rfl, rfl, rfl, rfl, ⟨fun _ => hd, fun _ => rfl⟩, rfl, rfl⟩
    · rw [h2, if_neg (not_lt.2 hd)]
      exact ⟨rfl, rfl, rfl, rfl, rfl, rfl, ⟨fun h => by simp [tooLight] at h, fun h => absurd h (not_lt.2 hd)⟩, rfl, rfl⟩
    · rcases hor with h | h
      · exact absurd h (not_lt.2 hd)
      · exact absurd h (not_lt.2 hw')


/-! ## Slabs that fail on their own -/

theorem collapsed_ok {L : ℝ} (hL : 0 < L) :
    BeamOk [50000, L / 2, 0, 0, L / 2, 50000] [true, false, false, false, false, true] := by
  refine ⟨rfl, ?_, ?_, ?_, rfl, rfl⟩
  · intro x hx
    simp only [List.mem_cons, List.not_mem_nil, or_false] at hx
    rcases hx with rfl | rfl | rfl | rfl | rfl | rfl <;> positivity
  · simp [startOf]; linarith
  · simp [nth]

/-- If one kilogram leaves all stresses outside the envelope, the search for the
critical weight ends there. -/
theorem minForce_collapse (num : Numerics) (site : Site) (hs : SiteOk num site) (hphi : site.phi = 0) {sc tc : ℝ}
    (henv : EllipticEnv site.env) (hel : Elliptic (fun sigma tau => stressEnvelope site.env sigma tau) sc tc) (hsc : 0 < sc)
    {β : ℝ} (hβ : 0 < β) {L : ℝ} (hL : 0 < L)
    (hstiff : ∀ r li ki, BeamOk li ki → createSkierObject num site 1 li ki .nocrack = .ok r →
      r.skier.kn * β ^ 4 ≤ 8 * (r.skier.D11 - r.skier.B11 ^ 2 / r.skier.A11) ∧
      sc < cover site.profile - 9.81 * r.skier.beam.spread β) :
    ∃ p, minForce (trial num site [L / 2, 0, 0, L / 2] [true, true, true, true]) = .ok p ∧ p.weight = 1 ∧ 1 < p.distMin := by
  obtain ⟨n, -, a, b, c, d, sc', tc', -, -, H, -⟩ := trial_family num site hs henv _ _ (halves_ok L hL)
  obtain ⟨p, p1, pw, p3, -⟩ := H 1
  obtain ⟨s1, s2⟩ := hstiff _ _ _ (halves_ok L hL) p3
  have hb := C66_bound num site hs hphi _ _ (halves_ok L hL) ⟨0, by norm_num, by simp [startOf]⟩ 1 zero_le_one p.run p3 hβ s1
  have hd : 1 < p.distMin := by
    have p1' := p1
    unfold trial at p1'
    rw [p3] at p1'
    simp only [bind, Except.bind, distances_elliptic hel] at p1'
    set l := (reals p.run.sigma).zip (reals p.run.tau) with hl
    cases hM : npMax (l.map fun p => (p.1 / sc) ^ 2 + (p.2 / tc) ^ 2) with
    | error e => rw [hM] at p1'; simp at p1'
    | ok hi =>
      rw [hM] at p1'
      have hne : (l.map fun p => (p.1 / sc) ^ 2 + (p.2 / tc) ^ 2) ≠ [] := by
        intro h0
        rw [h0] at hM
        simp [npMax] at hM
      obtain ⟨lo, l1, l2, -⟩ := npMin_ok hne
      rw [l1] at p1'
      simp only [pure, Except.pure, Except.ok.injEq] at p1'
      rw [← p1']
      obtain ⟨y, y1, y2⟩ := List.mem_map.1 l2
      show 1 < lo
      rw [← y2]
      have h1 := (hb y y1).1
      have h2 := (abs_le.1 h1).2
      have h3 : sc < -y.1 := by norm_num at h2 s2 ⊢; linarith
      have h4 : 1 < (y.1 / sc) ^ 2 := by
        rw [← neg_sq, ← neg_div]
        exact one_lt_pow₀ ((one_lt_div hsc).2 h3) two_ne_zero
      nlinarith [sq_nonneg (y.2 / tc)]
  refine ⟨p, ?_, pw, hd⟩
  unfold minForce
  rw [p1]
  simp only [bind, Except.bind]
  rw [if_pos hd.le]
  rfl

/-- C54: on level ground a weak layer that cannot carry the snow, not even where a
kilogram relieves it, is reported to collapse without a skier, by both versions,
with a crack as long as the beam and a finite energy. The critical weight is given
as 1 kg, the first one tried. `spread β` bounds the stress of a
load of unit length as in C66. -/
theorem C54_collapse (num : Numerics) (quad : Quad) (e : ℝ) (hq : QuadOk quad e) (he : 0 ≤ e) (site : Site) (hs : SiteOk num site)
    (hphi : site.phi = 0) {sc tc : ℝ} (henv : EllipticEnv site.env)
    (hel : Elliptic (fun sigma tau => stressEnvelope site.env sigma tau) sc tc) (hsc : 0 < sc) {β : ℝ} (hβ : 0 < β)
    (hH : 0 < profileHeight site.profile)
    (hstiff : ∀ r li ki, BeamOk li ki → createSkierObject num site 1 li ki .nocrack = .ok r →
      r.skier.kn * β ^ 4 ≤ 8 * (r.skier.D11 - r.skier.B11 ^ 2 / r.skier.A11) ∧
      sc < cover site.profile - 9.81 * r.skier.beam.spread β) (fuel : ℕ) (damp : ℝ) :
    (∃ o v, coupledCriterion num quad fuel site = .ok (some o) ∧ o.result = true ∧ o.selfCollapse = true ∧ o.weight = 0 ∧ o.critical = 1 ∧
      o.crackLength = 1000 * profileHeight site.profile ∧ o.gDelta = some v ∧ 1 < o.dist) ∧
    ∃ o v, coupledDampened num quad fuel site damp = .ok (some o) ∧ o.result = true ∧ o.selfCollapse = true ∧ o.weight = 0 ∧ o.critical = 1 ∧
      o.crackLength = 100 * profileHeight site.profile ∧ o.gDelta = some v ∧ 1 < o.dist := by
  have key : ∀ L : ℝ, 0 < L → ∃ p o v, minForce (trial num site [L / 2, 0, 0, L / 2] [true, true, true, true]) = .ok p ∧ 1 < p.distMin ∧
      selfCollapse num quad site L p = .ok o ∧ o.result = true ∧ o.selfCollapse = true ∧ o.weight = 0 ∧ o.critical = 1 ∧
      o.crackLength = L ∧ o.gDelta = some v ∧ 1 < o.dist := by
    intro L hL
    obtain ⟨p, p1, pw, p2⟩ := minForce_collapse num site hs hphi henv hel hsc hβ hL hstiff
    obtain ⟨r, c, v, hE⟩ := (C84_sufficient num quad e hq he site hs _ _ (collapsed_ok hL) (by simp [unsupported]; linarith)).1 0
    refine ⟨p, ⟨true, L, 0, c, 0, [], [], true, false, p.weight, some v, p.distMin, [], []⟩, v, p1, p2, ?_, rfl, rfl, rfl, pw, rfl, rfl, p2⟩
    unfold selfCollapse
    simp only [bind, Except.bind, hE]
    rfl
  constructor
  · obtain ⟨p, o, v, p1, p2, o1, h⟩ := key (1000 * profileHeight site.profile) (by linarith)
    refine ⟨o, v, ?_, h⟩
    unfold coupledCriterion
    simp only [bind, Except.bind, p1]
    rw [if_pos p2, o1]
    rfl
  · obtain ⟨p, o, v, p1, p2, o1, h⟩ := key (100 * profileHeight site.profile) (by linarith)
    refine ⟨o, v, ?_, h⟩
    unfold coupledDampened
    simp only [bind, Except.bind, p1]
    rw [if_pos p2, o1]
    rfl

/-- Two metres of snow on a weak layer of less than a tenth of the usual strength. -/
theorem deepSite_collapse (quad : Quad) (e : ℝ) (hq : QuadOk quad e) (he : 0 ≤ e) (fuel : ℕ) (damp : ℝ) :
    (∃ o v, coupledCriterion midNum quad fuel (deepSite 5) = .ok (some o) ∧ o.result = true ∧ o.selfCollapse = true ∧ o.weight = 0 ∧ o.critical = 1 ∧
      o.crackLength = 1000 * profileHeight (deepSite 5).profile ∧ o.gDelta = some v ∧ 1 < o.dist) ∧
    ∃ o v, coupledDampened midNum quad fuel (deepSite 5) damp = .ok (some o) ∧ o.result = true ∧ o.selfCollapse = true ∧ o.weight = 0 ∧ o.critical = 1 ∧
      o.crackLength = 100 * profileHeight (deepSite 5).profile ∧ o.gDelta = some v ∧ 1 < o.dist := by
  have hel := C46_adam 0.55 5 250 false
  rw [scaled_factor] at hel
  refine C54_collapse midNum quad e hq he (deepSite 5) (deepSite_ok 5) rfl (EllipticEnv.adam 0.55 5 250) hel (by positivity)
    (β := 2300) (by norm_num) (by simp [profileHeight, deepSite]) (fun r li ki hB hr => ?_) fuel damp
  have hb := deepSite_object midNum 5 (deepSite_ok 5) hB hr
  have eA : r.skier.A11 = 4 * (6500 * (4 / 5) ^ 22) * (1600 / 3) := congrArg Beam.A hb
  have eB : r.skier.B11 = 0 := congrArg Beam.B hb
  have eD : r.skier.D11 = 4 * (6500 * (4 / 5) ^ 22) * (1600000000 / 9) := congrArg Beam.D hb
  have ekn : r.skier.kn = 2 / 225 := congrArg Beam.kn hb
  have hspread : r.skier.beam.spread 2300 ≤ 0.00077 := by
    rw [hb]; unfold Beam.spread; norm_num
  refine ⟨by rw [eB, eD, ekn]; norm_num, ?_⟩
  rw [deepSite_cover, show (0.55 : ℝ) ^ (5 : ℝ) = 0.55 ^ (5 : ℕ) by rw [← Real.rpow_natCast]; norm_num]
  norm_num at hspread ⊢
  linarith

/-- Such a slab in the dampened version. -/
example (quad : Quad) (e : ℝ) (hq : QuadOk quad e) (he : 0 ≤ e) (fuel : ℕ) (damp : ℝ) : ∃ o p,
    coupledDampened midNum quad fuel (deepSite 5) damp = .ok (some o) ∧
    minForce (trial midNum (deepSite 5) [100 * profileHeight (deepSite 5).profile / 2, 0, 0, 100 * profileHeight (deepSite 5).profile / 2]
      [true, true, true, true]) = .ok p ∧ (1 < p.distMin → ∃ v, o.gDelta = some v ∧
        Released e (deepSite 5) 0 o.run.segments.li o.run.segments.ki o.run v) := by
  obtain ⟨-, o, v, h, -⟩ := deepSite_collapse quad e hq he fuel damp
  obtain ⟨p, p1, p2, -⟩ := C54_slab_alone_dampened midNum quad e hq he (deepSite 5) (deepSite_ok 5) midNum_runs.inside (by
    simp [profileHeight, deepSite]; norm_num) fuel damp o h
  exact ⟨o, p, h, p1, fun hd => (p2 hd).2.2.2.2.2.2⟩

end Weac
