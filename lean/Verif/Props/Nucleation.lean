import Verif.Props.Coupled
import Verif.Props.LevelWeight

/-!
# What the coupled criterion returns

C54 from the passes of the search in `Props/Coupled`.
-/

namespace Weac

open Spec

/-- C54, partial: if the search reports an anticrack that is not due to the slab
alone, and the returned weight is one of those it lists, then weight, crack
length, solution and energy belong to one state. The energy is within 0.2 % of
the toughness, or more than 98 % of it for a crack of one millimetre (`pureStress`).
Missing: the weight that is not listed (`C54_two_states`), and that the state is
one of the given weak layer: after 25 passes the thickness is set to 30 mm. -/
theorem C54_one_state_partial (num : Numerics) (quad : Quad) (e : ℝ) (hq : QuadOk quad e) (he : 0 ≤ e) (site : Site)
    (hs : SiteOk num site) (hs' : SiteOk num { site with t := 30 }) (hb : BrentOk num)
    (hH : 1 ≤ 100 * profileHeight site.profile) (fuel : ℕ) (o : Outcome)
    (h : coupledCriterion num quad fuel site = .ok (some o)) (hr : o.result = true) (hc : o.selfCollapse = false)
    (hw : o.weight ∈ o.weights) :
    ∃ site' v, (site' = site ∨ site' = { site with t := 30 }) ∧ OneState e site' o v ∧
      (o.pureStress = false → |v - 1| ≤ 0.002) ∧ (o.pureStress = true → 0.98 < v) := by
  obtain ⟨p, -, ⟨h1, -⟩ | ⟨-, ⟨-, h2⟩ | ⟨-, ⟨-, -, k, -, v, v1, v2, -⟩ | ⟨-, -, k, -, v, v1, v2, -⟩ | ⟨-, -, -, -, w, v, v1⟩ | hd⟩⟩⟩ :=
    coupled_cases hq he hs hb (by linarith) h
  · rw [hc] at h1; simp at h1
  · rw [h2] at hr; simp [tooLight] at hr
  · refine ⟨site, v, .inl rfl, v1, fun hf => by rw [k] at hf; simp at hf, fun _ => ?_⟩
    rcases v2 with v2 | v2
    · norm_num; linarith
    · rw [abs_lt] at v2
      norm_num at v2 ⊢
      linarith
  · exact ⟨site, v, .inl rfl, v1, fun _ => v2, fun hf => by rw [k] at hf; simp at hf⟩
  · exact absurd hw v1.fresh
  · obtain ⟨p, -, ⟨h1, -⟩ | ⟨-, -, ⟨-, h2⟩ | ⟨-, -, h3⟩⟩⟩ := dampened_cases hq he hs' hb hH hd
    · rw [hc] at h1; simp at h1
    · rw [h2] at hr; simp [tooLight] at hr
    · obtain ⟨v, v1, v2, v3, -⟩ := h3 hr
      exact ⟨_, v, .inr rfl, v1, v3, fun hp => by have := v2 hp; norm_num; linarith⟩

/-- C54 for the dampened version: a reported anticrack that is not due to the slab
alone is one state, without exception. -/
theorem C54_dampened (num : Numerics) (quad : Quad) (e : ℝ) (hq : QuadOk quad e) (he : 0 ≤ e) (site : Site)
    (hs : SiteOk num site) (hb : BrentOk num) (hH : 1 ≤ 100 * profileHeight site.profile) (fuel : ℕ) (damp : ℝ) (o : Outcome)
    (h : coupledDampened num quad fuel site damp = .ok (some o)) (hr : o.result = true) (hc : o.selfCollapse = false) :
    ∃ v, OneState e site o v ∧ (o.pureStress = false → |v - 1| ≤ 0.002) ∧ (o.pureStress = true → 1 < v) ∧
      (o.iterations = 1 ∧ o.weight = o.critical * 1.005 ∧ o.crackLength = 1 ∧
          Centred (100 * profileHeight site.profile) o.run.segments.li ∨
        ∃ li, findNewAnticrackLength num site o.weight li = .ok (o.crackLength, o.run.segments.li, o.run.segments.ki)) := by
  obtain ⟨p, -, ⟨h1, -⟩ | ⟨-, -, ⟨-, h2⟩ | ⟨-, k, h3⟩⟩⟩ := dampened_cases hq he hs hb hH h
  · rw [hc] at h1; simp at h1
  · rw [h2] at hr; simp [tooLight] at hr
  · obtain ⟨v, v1, v2, v3, v4⟩ := h3 hr
    rw [k]
    exact ⟨v, v1, v3, v2, v4⟩

/-- C54: an anticrack that follows from the stresses alone is found in the first
pass: 0.5 % above the critical weight, for a crack of one millimetre below the
skier in the middle of the slab. Or the dampened version has found it. -/
theorem C54_short_crack (num : Numerics) (quad : Quad) (e : ℝ) (hq : QuadOk quad e) (he : 0 ≤ e) (site : Site)
    (hs : SiteOk num site) (hb : BrentOk num) (hH : 1 ≤ 1000 * profileHeight site.profile) (fuel : ℕ) (o : Outcome)
    (h : coupledCriterion num quad fuel site = .ok (some o)) (hr : o.result = true) (hc : o.selfCollapse = false)
    (hp : o.pureStress = true) :
    o.iterations = 1 ∧ o.weight = o.critical * 1.005 ∧ o.crackLength = 1 ∧
        Centred (1000 * profileHeight site.profile) o.run.segments.li ∨
      coupledDampened num quad fuel { site with t := 30 } 1 = .ok (some o) := by
  obtain ⟨p, -, ⟨h1, -⟩ | ⟨-, ⟨-, h2⟩ | ⟨-, ⟨-, -, -, k, v, -, -, v3⟩ | ⟨-, -, k, -⟩ | ⟨-, -, k, -⟩ | hd⟩⟩⟩ :=
    coupled_cases hq he hs hb hH h
  · rw [hc] at h1; simp at h1
  · rw [h2] at hr; simp [tooLight] at hr
  · rw [k]; exact .inl v3
  · rw [hp] at k; simp at k
  · rw [hp] at k; simp at k
  · exact .inr hd

/-- C54: the search without the dampened version ends between the lighter weights
that do not release enough energy and the heavier ones that do, within 1.005 and
5.025 times the critical weight, with the crack that `find_new_anticrack_length`
gives for the returned weight. -/
theorem C54_bracket (num : Numerics) (quad : Quad) (e : ℝ) (hq : QuadOk quad e) (he : 0 ≤ e) (site : Site)
    (hs : SiteOk num site) (hb : BrentOk num) (hH : 1 ≤ 1000 * profileHeight site.profile) (fuel : ℕ) (o : Outcome)
    (h : coupledCriterion num quad fuel site = .ok (some o)) (hr : o.result = true) (hc : o.selfCollapse = false)
    (hp : o.pureStress = false) (hw : o.weight ∈ o.weights)
    (hd : coupledDampened num quad fuel { site with t := 30 } 1 ≠ .ok (some o)) :
    (∃ li, findNewAnticrackLength num site o.weight li = .ok (o.crackLength, o.run.segments.li, o.run.segments.ki)) ∧
      o.critical * 1.005 ≤ o.weight ∧ o.weight ≤ 5 * (o.critical * 1.005) ∧
      ∀ (i : ℕ) w g, o.weights[i]? = some w → o.gValues[i]? = some g →
        ∃ x, g = some x ∧ (x < 1 → w ≤ o.weight) ∧ (1 ≤ x → o.weight ≤ w) := by
  obtain ⟨p, -, ⟨h1, -⟩ | ⟨-, ⟨-, h2⟩ | ⟨-, ⟨-, -, k, -⟩ | ⟨-, -, -, k, v, v1, v2, v3⟩ | ⟨-, -, -, -, w, v, v1⟩ | hd'⟩⟩⟩ :=
    coupled_cases hq he hs hb hH h
  · rw [hc] at h1; simp at h1
  · rw [h2] at hr; simp [tooLight] at hr
  · rw [hp] at k; simp at k
  · rw [k]; exact v3
  · exact absurd hw v1.fresh
  · exact absurd hd' hd

/-- C54: what is missing above. If the returned weight is not one of those listed,
the solution and the energy belong to another weight, the last one listed; the
energy does not meet the toughness, and the returned crack is as long as the whole
beam of the solution or longer, though part of it is supported. -/
theorem C54_two_states (num : Numerics) (quad : Quad) (e : ℝ) (hq : QuadOk quad e) (he : 0 ≤ e) (site : Site)
    (hs : SiteOk num site) (hs' : SiteOk num { site with t := 30 }) (hb : BrentOk num)
    (hH : 1 ≤ 100 * profileHeight site.profile) (fuel : ℕ) (o : Outcome)
    (h : coupledCriterion num quad fuel site = .ok (some o)) (hr : o.result = true) (hc : o.selfCollapse = false)
    (hw : o.weight ∉ o.weights) : ∃ w v, w ≠ o.weight ∧ TwoStates e site o w v := by
  have hmem : ∀ {site' : Site} {v : ℝ}, OneState e site' o v → o.weight ∈ o.weights :=
    fun hv => List.mem_of_mem_getLast? hv.weights
  obtain ⟨p, -, ⟨h1, -⟩ | ⟨-, ⟨-, h2⟩ | ⟨-, ⟨-, -, k, -, v, v1, v2, -⟩ | ⟨-, -, k, -, v, v1, v2, -⟩ | ⟨-, -, -, -, w, v, v1⟩ | hd⟩⟩⟩ :=
    coupled_cases hq he hs hb (by linarith) h
  · rw [hc] at h1; simp at h1
  · rw [h2] at hr; simp [tooLight] at hr
  · exact absurd (hmem v1) hw
  · exact absurd (hmem v1) hw
  · exact ⟨w, v, fun he => hw (he ▸ List.mem_of_mem_getLast? v1.weights), v1⟩
  · obtain ⟨p, -, ⟨h1, -⟩ | ⟨-, -, ⟨-, h2⟩ | ⟨-, -, h3⟩⟩⟩ := dampened_cases hq he hs' hb hH hd
    · rw [hc] at h1; simp at h1
    · rw [h2] at hr; simp [tooLight] at hr
    · obtain ⟨v, v1, -⟩ := h3 hr
      exact absurd (hmem v1) hw

/-- C54: the stresses of the slab without a crack at the critical weight decide
first. If all of them exceed the envelope, the slab fails without a skier: the
returned solution is that without a skier and a crack as long as the beam. If
they do not and the critical weight is below one kilogram, no anticrack is
reported, and the solution is that without a crack at the critical weight. In both
cases no pass is counted and the histories are empty. -/
theorem C54_slab_alone (num : Numerics) (quad : Quad) (e : ℝ) (hq : QuadOk quad e) (he : 0 ≤ e) (site : Site)
    (hs : SiteOk num site) (hb : BrentOk num) (hH : 1 ≤ 1000 * profileHeight site.profile) (fuel : ℕ) (o : Outcome)
    (h : coupledCriterion num quad fuel site = .ok (some o)) :
    ∃ p, minForce (trial num site [1000 * profileHeight site.profile / 2, 0, 0, 1000 * profileHeight site.profile / 2]
        [true, true, true, true]) = .ok p ∧
      (1 < p.distMin → o.result = true ∧ o.selfCollapse = true ∧ o.weight = 0 ∧ o.critical = p.weight ∧
        o.crackLength = 1000 * profileHeight site.profile ∧
        o.crackLength = unsupported o.run.segments.li o.run.segments.ki ∧
        ∃ v, o.gDelta = some v ∧ Released e site 0 o.run.segments.li o.run.segments.ki o.run v) ∧
      (p.distMin ≤ 1 → p.weight < 1 → o.result = false ∧ o.crackLength = 0 ∧ o.weight = p.weight ∧ o.run = p.run ∧
        o.gDelta = some 0) ∧
      (1 < p.distMin ∨ p.weight < 1 → o.iterations = 0 ∧ o.weights = [] ∧ o.cracks = [] ∧ o.gValues = [] ∧ o.distValues = [] ∧
        o.pureStress = false ∧ (o.selfCollapse = true ↔ 1 < p.distMin) ∧ o.critical = p.weight ∧
        o.dist = if 1 < p.distMin then p.distMin else p.distMax) := by
  obtain ⟨p, hp, h1⟩ := coupled_cases hq he hs hb hH h
  refine ⟨p, hp, fun hd => ?_, fun hd hw => ?_, fun hor => ?_⟩
  · obtain ⟨-, -, hc⟩ | ⟨hd', -⟩ := h1
    · generalize 1000 * profileHeight site.profile = L at *
      unfold selfCollapse at hc
      simp only [bind, Except.bind] at hc
      cases hE : energyCheck num quad site 0 [50000, L / 2, 0, 0, L / 2, 50000] [true, false, false, false, false, true] with
      | error e => rw [hE] at hc; simp at hc
      | ok x =>
        obtain ⟨r, c, g⟩ := x
        rw [hE] at hc
        simp only [pure, Except.pure, Except.ok.injEq] at hc
        have hu : unsupported [50000, L / 2, 0, 0, L / 2, 50000] [true, false, false, false, false, true] = L := by
          simp [unsupported]
        obtain ⟨v, v1, v2⟩ := energy_released hq he hs hE (by
          intro l hl
          simp only [List.mem_cons, List.not_mem_nil, or_false] at hl
          rcases hl with rfl | rfl | rfl | rfl | rfl | rfl <;> positivity) (by simp [nth])
          (.inr (by rw [hu]; linarith))
        obtain ⟨p1, p2, -⟩ := energy_parts hs hE
        subst hc
        refine ⟨rfl, rfl, rfl, rfl, rfl, ?_, v, v1, ?_⟩
        · simp only [p1, p2, hu]
        · simp only [p1, p2]; exact v2
    · exact absurd hd (not_lt.2 hd')
  · obtain ⟨-, hd', -⟩ | ⟨-, ⟨-, h2⟩ | ⟨hw', -⟩⟩ := h1
    · exact absurd hd' (not_lt.2 hd)
    · rw [h2]; exact ⟨rfl, rfl, rfl, rfl, rfl⟩
    · exact absurd hw (not_lt.2 hw')
  · obtain ⟨-, hd, hc⟩ | ⟨hd, ⟨-, h2⟩ | ⟨hw', -⟩⟩ := h1
    · unfold selfCollapse at hc
      simp only [bind, Except.bind] at hc
      split at hc
      · simp at hc
      · simp only [pure, Except.pure, Except.ok.injEq] at hc
        rw [← hc, if_pos hd]
        exact ⟨rfl, rfl, rfl, rfl, rfl, rfl, ⟨fun _ => hd, fun _ => rfl⟩, rfl, rfl⟩
    · rw [h2, if_neg (not_lt.2 hd)]
      exact ⟨rfl, rfl, rfl, rfl, rfl, rfl, ⟨fun h => by simp [tooLight] at h, fun h => absurd h (not_lt.2 hd)⟩, rfl, rfl⟩
    · rcases hor with h | h
      · exact absurd h (not_lt.2 hd)
      · exact absurd h (not_lt.2 hw')

/-! ## A run -/

theorem distances_elliptic {env : Env} {sc tc : ℝ} (he : Elliptic (fun sigma tau => stressEnvelope env sigma tau) sc tc) (r : Skier) :
    distances env r = .ok (((reals r.sigma).zip (reals r.tau)).map fun p => (p.1 / sc) ^ 2 + (p.2 / tc) ^ 2) := by
  unfold distances
  exact mapM_ok (g := fun p : ℝ × ℝ => (p.1 / sc) ^ 2 + (p.2 / tc) ^ 2) _ fun p _ => he p.1 p.2

/-- The site with the envelope of Schöttner and some density. -/
noncomputable def withDensity (site : Site) (d : ℝ) : Site := { site with env := ⟨"schottner", 1, 1, d⟩ }

theorem withDensity_ok {num : Numerics} {site : Site} (hs : SiteOk num site) (d : ℝ) : SiteOk num (withDensity site d) :=
  ⟨hs.eig, hs.plies, hs.t, hs.E, hs.generic⟩

/-- For some density the greatest distance at one kilogram is one. -/
theorem one_kilogram (num : Numerics) (site : Site) (hs : SiteOk num site) (hphi : 0 < Real.cos (deg2rad site.phi)) (li : List ℝ)
    (ki : List Bool) (h : BeamOk li ki) (hl : 0 < nth li 0) :
    ∃ d p, 0 < d ∧ trial num (withDensity site d) li ki 1 = .ok p ∧ p.weight = 1 ∧ p.distMax = 1 ∧ p.distMin ≤ 1 := by
  obtain ⟨n, hn, a, b, c, d, sc, tc, s1, s2, H, H', -⟩ := trial_family num (withDensity site 1) (withDensity_ok hs 1)
    (EllipticEnv.schottner 1 1 1 one_pos) li ki h
  obtain ⟨p, p1, p2, p3, -, p5, -⟩ := H 1
  obtain ⟨hb0, ha0⟩ := H' hl
  have ha0 := ha0 hphi
  have hpos : 0 < p.distMax := by
    refine lt_of_lt_of_le ?_ (p5 0 hn)
    unfold gridDist
    rw [hb0]
    have : 0 < ((a 0 + 1 * 0) / sc) ^ 2 := by
      rw [mul_zero, add_zero]
      have := div_ne_zero ha0.ne s1.ne'
      positivity
    positivity
  set l := (reals p.run.sigma).zip (reals p.run.tau) with hl'
  have hq : ∀ x : ℝ, 0 < x → distances (withDensity site (916.7 * x / 26000)).env p.run
      = .ok (l.map fun y => (y.1 ^ 2 + (6.16 / 5.09 * y.2) ^ 2) / x ^ 2) := by
    intro x hx
    rw [show (withDensity site (916.7 * x / 26000)).env = ⟨"schottner", 1, 1, 916.7 * x / 26000⟩ from rfl,
      distances_elliptic (C46_schottner 1 1 _ false), Real.rpow_one,
      show (26000 : ℝ) * (916.7 * x / 26000 / 916.7) = x by field_simp]
    congr 1
    refine List.map_congr_left fun y _ => ?_
    field_simp
  -- the trial with density one
  have hone : (916.7 : ℝ) * (26000 / 916.7) / 26000 = 1 := by norm_num
  have hq1 := hq (26000 / 916.7) (by norm_num)
  rw [hone] at hq1
  unfold trial at p1
  rw [p3] at p1
  simp only [bind, Except.bind, hq1] at p1
  have hne : l ≠ [] := by
    rintro h0
    rw [h0] at p1
    simp [npMax] at p1
  obtain ⟨M, m1, m2, m3⟩ := npMax_ok (l := l.map fun y => y.1 ^ 2 + (6.16 / 5.09 * y.2) ^ 2) (by simpa using hne)
  have hM : 0 < M := by
    obtain ⟨K, k1, k2, -⟩ := npMax_ok (l := l.map fun y => (y.1 ^ 2 + (6.16 / 5.09 * y.2) ^ 2) / (26000 / 916.7 : ℝ) ^ 2)
      (by simpa using hne)
    obtain ⟨m, n1, -⟩ := npMin_ok (l := l.map fun y => (y.1 ^ 2 + (6.16 / 5.09 * y.2) ^ 2) / (26000 / 916.7 : ℝ) ^ 2)
      (by simpa using hne)
    rw [k1, n1] at p1
    simp only [pure, Except.pure, Except.ok.injEq] at p1
    obtain ⟨y, y1, y2⟩ := List.mem_map.1 k2
    have hK : K = p.distMax := by rw [← p1]
    have : 0 < K := by rw [hK]; exact hpos
    rw [← y2] at this
    have h2 : 0 < y.1 ^ 2 + (6.16 / 5.09 * y.2) ^ 2 := by
      by_contra hn
      exact absurd this (not_lt.2 (div_nonpos_of_nonpos_of_nonneg (not_lt.1 hn) (by positivity)))
    exact lt_of_lt_of_le h2 (m3 _ (List.mem_map_of_mem y1))
  have hs' := Real.sqrt_pos.2 hM
  have hqM := hq _ hs'
  rw [Real.sq_sqrt hM.le] at hqM
  obtain ⟨hi, h1, h2, h3⟩ := npMax_ok (l := l.map fun y => (y.1 ^ 2 + (6.16 / 5.09 * y.2) ^ 2) / M) (by simpa using hne)
  obtain ⟨lo, l1, l2, l3⟩ := npMin_ok (l := l.map fun y => (y.1 ^ 2 + (6.16 / 5.09 * y.2) ^ 2) / M) (by simpa using hne)
  have hhi : hi = 1 := by
    apply le_antisymm
    · obtain ⟨y, y1, y2⟩ := List.mem_map.1 h2
      rw [← y2, div_le_one hM]
      exact m3 _ (List.mem_map_of_mem y1)
    · obtain ⟨y, y1, y2⟩ := List.mem_map.1 m2
      have := h3 _ (List.mem_map_of_mem y1)
      rwa [y2, div_self hM.ne'] at this
  refine ⟨916.7 * Real.sqrt M / 26000, ⟨1, p.run, hi, lo⟩, div_pos (mul_pos (by norm_num) hs') (by norm_num : (0 : ℝ) < 26000), ?_, rfl, hhi, ?_⟩
  · unfold trial
    rw [show createSkierObject num (withDensity site (916.7 * Real.sqrt M / 26000)) 1 li ki .nocrack = .ok p.run from p3]
    simp only [bind, Except.bind, hqM, h1, l1]
    rfl
  · rw [← hhi]
    exact h3 _ l2

/-- At this density one kilogram is the critical weight. -/
theorem one_kilogram_critical (num : Numerics) (site : Site) (hs : SiteOk num site) (hphi : 0 < Real.cos (deg2rad site.phi))
    (li : List ℝ) (ki : List Bool) (h : BeamOk li ki) (hl : 0 < nth li 0) :
    ∃ d p, 0 < d ∧ minForce (trial num (withDensity site d) li ki) = .ok p ∧ p.weight = 1 ∧ p.distMax = 1 ∧ p.distMin ≤ 1 := by
  obtain ⟨d, p, hd, h1, h2, h3, h4⟩ := one_kilogram num site hs hphi li ki h hl
  refine ⟨d, p, hd, ?_, h2, h3, h4⟩
  unfold minForce
  rw [h1]
  simp only [bind, Except.bind]
  split_ifs with hm
  · rfl
  · simp only [forceLoop, h3, sub_self, abs_zero]
    norm_num
    rfl

theorem crackStart_ok {L : ℝ} (hL : 1 < L) : BeamOk (crackStart L) [true, false, false, true] := by
  refine ⟨rfl, (crackStart_segs hL.le).nonneg, ?_, ?_, rfl, rfl⟩
  · simp [crackStart, startOf]; linarith
  · simp [crackStart, nth]; linarith

/-- A quadrature that is off by the same amount everywhere. -/
noncomputable def offQuad (K : ℝ) : Quad := fun f a b => (∫ x in a..b, f x) + K

theorem offQuad_ok (K : ℝ) : QuadOk (offQuad K) |K| := by
  intro f a b _
  simp [offQuad]

/-- Enough energy is released in the first pass for some such quadrature. -/
theorem energy_off (num : Numerics) (site : Site) (hs : SiteOk num site) (w : ℝ) {L : ℝ} (hL : 1 < L) :
    ∃ K0 r c, createSkierObject num site w (crackStart L) [true, true, true, true] .nocrack = .ok r ∧ ∀ K, K0 ≤ K →
      ∃ v, energyCheck num (offQuad K) site w (crackStart L) [true, false, false, true] = .ok (r, c, some v) ∧ 2 < v := by
  have hB := crackStart_ok hL
  have hB0 : BeamOk (crackStart L) (List.replicate 4 true) := CrackCase.support_ok .nocrack hB
  obtain ⟨r, r1, -⟩ := C50_solution_partial num site hs w _ _ hB0 .nocrack
  obtain ⟨c, c1, -⟩ := C50_solution_partial num site hs w _ _ hB .crack
  obtain ⟨a1, a2, a3, a4, -⟩ := create_parts hs r1
  obtain ⟨b1, b2, b3, b4, -⟩ := create_parts hs c1
  have hf := incSegs_filter 4 r.C c.C (crackStart L) [true, false, false, true] a1 b1 rfl rfl
  have hl := (hf IncSeg.l).1
  rw [overCrack_length _ _ rfl, ← (crackStart_segs hL.le).crack] at hl
  set I : IncSeg → ℝ := fun g => ∫ x in (0 : ℝ)..g.l, int1 c.skier x (fun x => zsol c.skier x g.C0 g.l site.phi true)
    (fun x => zsol c.skier x g.C1 g.l site.phi false) with hI
  set g1 : IncSeg := ⟨r.C.getD 1 0, c.C.getD 1 0, 1 / 2, false, true⟩ with hg1
  set g2 : IncSeg := ⟨r.C.getD 2 0, c.C.getD 2 0, 1 / 2, false, true⟩ with hg2
  refine ⟨|I g1| + |I g2| + 1, r, c, r1, fun K hK => ?_⟩
  obtain ⟨G, hG, hG1⟩ : ∃ G, ginc (offQuad K) c.skier site.phi
      (incSegs r.C c.C (crackStart L) [true, false, false, true] (List.replicate 4 true)) = some G ∧ 1 ≤ G.2.1 := by
    refine ⟨_, ginc_some _ _ _ _ (by rw [crackSegs, hl]; exact one_pos), ?_⟩
    dsimp only [crackSegs]
    rw [hl, (hf _).1]
    have hsum : ∀ f : IncSeg → ℝ, overCrack f (crackStart L) [true, false, false, true] r.C c.C = f g1 + f g2 := by
      intro f
      simp [overCrack, crackStart, List.range_succ, nth, hg1, hg2]
    rw [hsum]
    change 1 ≤ (I g1 + K) / (2 * 1) + (I g2 + K) / (2 * 1)
    have := neg_abs_le (I g1)
    have := neg_abs_le (I g2)
    have := abs_nonneg (I g1)
    have := abs_nonneg (I g2)
    linarith
  refine ⟨fractureToughnessCriterion (1000 * G.2.1) (1000 * G.2.2), ?_, ?_⟩
  · unfold energyCheck
    rw [show List.replicate [true, false, false, true].length true = List.replicate 4 true from rfl]
    simp only [bind, Except.bind, r1, c1, b2, b3, pure, Except.pure]
    rw [show CrackCase.crack.support [true, false, false, true] = [true, false, false, true] from rfl, hG]
    rfl
  · unfold fractureToughnessCriterion
    have hb : 2 < |1000 * G.2.1| / 0.56 := by
      rw [abs_of_pos (by linarith), lt_div_iff₀ (by norm_num)]
      norm_num
      linarith
    refine lt_add_of_lt_of_nonneg (hb.trans_le ?_) (by positivity)
    exact Real.self_le_rpow_of_one_le (by linarith) (by norm_num)

theorem pass_data (num : Numerics) (site : Site) (hs : SiteOk num site) (he : EllipticEnv site.env) (w : ℝ) {L : ℝ} (hL : 1 < L)
    {r : Skier} (hr : createSkierObject num site w (crackStart L) [true, true, true, true] .nocrack = .ok r) :
    ∃ ds hi lo, distances site.env r = .ok ds ∧ npMax ds = .ok hi ∧ npMin ds = .ok lo := by
  obtain ⟨n, -, a, b, c', d', sc, tc, -, -, H, -⟩ := trial_family num site hs he _ _
    (CrackCase.support_ok .nocrack (crackStart_ok hL))
  obtain ⟨q, q1, -⟩ := H w
  unfold trial at q1
  rw [show CrackCase.nocrack.support [true, false, false, true] = [true, true, true, true] from rfl, hr] at q1
  simp only [bind, Except.bind] at q1
  cases hdist : distances site.env r with
  | error e => rw [hdist] at q1; simp at q1
  | ok ds =>
    rw [hdist] at q1
    simp only at q1
    cases hmax : npMax ds with
    | error e => rw [hmax] at q1; simp at q1
    | ok hi =>
      rw [hmax] at q1
      simp only at q1
      cases hmin : npMin ds with
      | error e => rw [hmin] at q1; simp at q1
      | ok lo => exact ⟨ds, hi, lo, rfl, hmax, hmin⟩

/-- A run that reports an anticrack: the weak layer is just strong enough for one
kilogram, and the quadrature finds much energy. -/
theorem pure_run (num : Numerics) (site : Site) (hs : SiteOk num site) (hphi : 0 < Real.cos (deg2rad site.phi))
    (hH : 1 < 1000 * profileHeight site.profile) (fuel : ℕ) :
    ∃ d K o, 0 < d ∧ coupledCriterion num (offQuad K) fuel (withDensity site d) = .ok (some o) ∧ o.result = true ∧
      o.selfCollapse = false ∧ o.pureStress = true ∧ o.weight ∈ o.weights := by
  generalize hL : 1000 * profileHeight site.profile = L at *
  obtain ⟨d, p, hd, p1, p2, p3, p4⟩ := one_kilogram_critical num site hs hphi _ _ (halves_ok L (by linarith))
    (by simp [nth]; linarith)
  obtain ⟨K, r, c, e3, hK⟩ := energy_off num (withDensity site d) (withDensity_ok hs d) (1 * 1.005) hH
  obtain ⟨v, e1, e2⟩ := hK K le_rfl
  have e2 : 1 < v := by linarith
  obtain ⟨ds, hi, lo, hdist, hmax, hmin⟩ := pass_data num (withDensity site d) (withDensity_ok hs d)
    (EllipticEnv.schottner 1 1 d hd) _ hH e3
  refine ⟨d, K, ⟨true, 1, 1 * 1.005, c, 1, [1 * 1.005], [1], false, true, 1, some v, hi, [some v], [p.distMax]⟩, hd, ?_, rfl, rfl,
    rfl, by simp⟩
  unfold coupledCriterion
  rw [show (withDensity site d).profile = site.profile from rfl, hL]
  simp only [bind, Except.bind, p1, p2]
  rw [if_neg (not_lt.2 p4), if_pos le_rfl]
  unfold searchLoop
  rw [start_goes rfl rfl rfl (by norm_num)]
  simp only [if_true, bind, Except.bind, coupledPass, trackPass, e1, hdist, hmax, hmin, pure, Except.pure]
  simp [above, e2]

/-- The same for the dampened version. -/
theorem pure_run_dampened (num : Numerics) (site : Site) (hs : SiteOk num site) (hphi : 0 < Real.cos (deg2rad site.phi))
    (hH : 1 < 100 * profileHeight site.profile) (fuel : ℕ) (damp : ℝ) :
    ∃ d K o, 0 < d ∧ coupledDampened num (offQuad K) (fuel + 1) (withDensity site d) damp = .ok (some o) ∧ o.result = true ∧
      o.selfCollapse = false ∧ o.pureStress = true := by
  generalize hL : 100 * profileHeight site.profile = L at *
  obtain ⟨d, p, hd, p1, p2, p3, p4⟩ := one_kilogram_critical num site hs hphi _ _ (halves_ok L (by linarith))
    (by simp [nth]; linarith)
  obtain ⟨K, r, c, e3, hK⟩ := energy_off num (withDensity site d) (withDensity_ok hs d) (1 * 1.005) hH
  obtain ⟨K', r', c', -, hK'⟩ := energy_off num (withDensity site d) (withDensity_ok hs d) (3 * 1 * 2) hH
  obtain ⟨v, e1, e2⟩ := hK (max K K') (le_max_left _ _)
  have e2 : 1 < v := by linarith
  obtain ⟨v', f1, f2⟩ := hK' (max K K') (le_max_right _ _)
  obtain ⟨ds, hi, lo, hdist, hmax, hmin⟩ := pass_data num (withDensity site d) (withDensity_ok hs d)
    (EllipticEnv.schottner 1 1 d hd) _ hH e3
  refine ⟨d, max K K', ⟨true, 1, 1 * 1.005, c, 1, [1 * 1.005], [1], false, true, 1, some v, hi, [some v], [hi]⟩, hd, ?_, rfl, rfl,
    rfl⟩
  unfold coupledDampened
  rw [show (withDensity site d).profile = site.profile from rfl, hL]
  simp only [bind, Except.bind, p1, p2]
  rw [if_neg (not_lt.2 p4), if_pos le_rfl]
  simp only [doubleWeight, bind, Except.bind, f1, pure, Except.pure]
  have hb : below (some v') 1 = false := by
    simp only [below, Option.any_some, decide_eq_false_iff_not, not_lt]
    linarith
  simp only [hb, Bool.false_eq_true, if_false]
  unfold searchLoop
  rw [start_goes rfl rfl rfl (by norm_num)]
  simp only [if_true, bind, Except.bind, dampenedPass, trackPass, e1, hdist, hmax, hmin, pure, Except.pure]
  simp [above, e2]

theorem demoSite_cos : 0 < Real.cos (deg2rad demoSite.phi) := by
  apply Real.cos_pos_of_mem_Ioo
  unfold deg2rad demoSite
  have := Real.pi_pos
  constructor <;> norm_num <;> linarith

example : ∃ d K o, coupledCriterion midNum (offQuad K) 5 (withDensity demoSite d) = .ok (some o) ∧
    ∃ site' v, OneState |K| site' o v ∧ 0.98 < v ∧ (nth o.run.segments.li (o.run.segments.li.length - 1) ≠ 0 →
      Released |K| site' o.weight o.run.segments.li o.run.segments.ki o.run v) := by
  have hH : profileHeight demoSite.profile = 200 := by simp [profileHeight, demoSite]
  obtain ⟨d, K, o, hd, h1, h2, h3, h4, h5⟩ := pure_run midNum demoSite demoSite_ok demoSite_cos (by rw [hH]; norm_num) 5
  obtain ⟨site', v, -, k1, -, k2⟩ := C54_one_state_partial midNum (offQuad K) |K| (offQuad_ok K) (abs_nonneg _)
    (withDensity demoSite d) (withDensity_ok demoSite_ok d) (withDensity_ok demoSite_ok d) midNum_runs.inside
    (by rw [show (withDensity demoSite d).profile = demoSite.profile from rfl, hH]; norm_num) 5 o h1 h2 h3 h5
  exact ⟨d, K, o, h1, site', v, k1, k2 h4, k1.released⟩

example : ∃ d K o, coupledCriterion midNum (offQuad K) 5 (withDensity demoSite d) = .ok (some o) ∧
    (o.iterations = 1 ∧ o.weight = o.critical * 1.005 ∧ o.crackLength = 1 ∧ Centred 200000 o.run.segments.li ∨
      coupledDampened midNum (offQuad K) 5 { withDensity demoSite d with t := 30 } 1 = .ok (some o)) := by
  have hH : profileHeight demoSite.profile = 200 := by simp [profileHeight, demoSite]
  have hH' : ∀ d, profileHeight (withDensity demoSite d).profile = 200 := fun d => hH
  obtain ⟨d, K, o, hd, h1, h2, h3, h4, h5⟩ := pure_run midNum demoSite demoSite_ok demoSite_cos (by rw [hH]; norm_num) 5
  have := C54_short_crack midNum (offQuad K) |K| (offQuad_ok K) (abs_nonneg _) (withDensity demoSite d) (withDensity_ok demoSite_ok d)
    midNum_runs.inside (by rw [hH']; norm_num) 5 o h1 h2 h3 h4
  rw [hH', show (1000 : ℝ) * 200 = 200000 by norm_num] at this
  exact ⟨d, K, o, h1, this⟩

example : ∃ d K o, coupledDampened midNum (offQuad K) 6 (withDensity demoSite d) 1 = .ok (some o) ∧
    ∃ v, OneState |K| (withDensity demoSite d) o v ∧ 1 < v := by
  have hH : profileHeight demoSite.profile = 200 := by simp [profileHeight, demoSite]
  obtain ⟨d, K, o, hd, h1, h2, h3, h4⟩ := pure_run_dampened midNum demoSite demoSite_ok demoSite_cos (by rw [hH]; norm_num) 5 1
  obtain ⟨v, k1, -, k2, -⟩ := C54_dampened midNum (offQuad K) |K| (offQuad_ok K) (abs_nonneg _)
    (withDensity demoSite d) (withDensity_ok demoSite_ok d) midNum_runs.inside
    (by rw [show (withDensity demoSite d).profile = demoSite.profile from rfl, hH]; norm_num) 6 1 o h1 h2 h3
  exact ⟨d, K, o, h1, v, k1, k2 h4⟩

end Weac
