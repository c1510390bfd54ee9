import Mathlib.Analysis.SpecialFunctions.Log.Base
import Verif.Props.LevelWeight
import Verif.Props.AnticrackLevel

/-!
# C52: `find_minimum_force` does not give up

The third of the dampened iterations (dampening 3) converges. Written with the
ratio of the trial weight and the critical weight, the greatest distance grows
at most like the square of `2 r - 1` and at least along the chord from the slab
alone, so the trial weight cannot jump past the critical weight from below and
its distance from it falls by a fixed factor in every pass.
-/

namespace Weac

open Spec

/-- Bounds for the greatest distance in terms of the ratio of the trial weight
and the critical weight `c`. -/
structure Spec.Growth (eval : ℝ → Res Trial) (c e : ℝ) : Prop where
  pos : 0 < c
  rate : 0 < e
  le : e ≤ 1
  below : ∀ p, IsTrial eval p → p.weight ≤ c →
    4 * (p.weight / c) - 3 ≤ p.distMax ∧ p.distMax ≤ 1 - e * (1 - p.weight / c)
  above : ∀ p, IsTrial eval p → c ≤ p.weight →
    1 + e * (p.weight / c - 1) ≤ p.distMax ∧ p.distMax ≤ (2 * (p.weight / c) - 1) ^ 2

theorem below_converges {eval : ℝ → Res Trial} (h : Trials eval) {c e : ℝ} (g : Growth eval c e) (n : ℕ) :
    ∀ p, IsTrial eval p → p.weight ≤ c → (c / p.weight - 1) * (1 - e / 4) ^ n ≤ 1 / 500 →
      ∃ q, forceLoop eval (fun p => (3 + 1) * p.weight / (3 + p.distMax)) 0.01 (n + 1) p = .ok (q, false) := by
  have hc := g.pos
  have he := g.rate
  induction n with
  | zero =>
    intro p hp hw hr
    refine ⟨p, ?_⟩
    unfold forceLoop
    rw [if_neg]
    have hp0 := hp.1
    obtain ⟨b1, b2⟩ := g.below p hp hw
    have hr' : c / p.weight ≤ 1 + 1 / 500 := by rw [pow_zero, mul_one] at hr; linarith
    have hl : p.weight / c ≤ 1 := by rw [div_le_one hc]; exact hw
    have hl2 : 1 - 1 / 500 ≤ p.weight / c := by
      rw [le_div_iff₀ hc]
      rw [div_le_iff₀ hp0] at hr'
      nlinarith
    push Not
    rw [abs_le]
    constructor
    · norm_num at hl2 ⊢; linarith
    · norm_num; nlinarith [mul_nonneg he.le (sub_nonneg.2 hl)]
  | succ n ih =>
    intro p hp hw hr
    unfold forceLoop
    split
    swap
    · exact ⟨p, rfl⟩
    have hp0 := hp.1
    have hf := h.pos hp
    obtain ⟨b1, b2⟩ := g.below p hp hw
    obtain ⟨q, q1, q2, q3⟩ := h.is (show 0 < (3 + 1) * p.weight / (3 + p.distMax) by positivity)
    rw [q1]
    refine ih q q2 ?_ ?_
    · rw [q3, div_le_iff₀ (by positivity)]
      have := mul_le_mul_of_nonneg_left b1 hc.le
      have e1 : c * (4 * (p.weight / c) - 3) = 4 * p.weight - 3 * c := by field_simp
      rw [e1] at this
      linarith
    · refine le_trans ?_ hr
      rw [pow_succ' (1 - e / 4), ← mul_assoc]
      have hr1 : 0 ≤ 1 - e / 4 := by have := g.le; linarith
      refine mul_le_mul_of_nonneg_right ?_ (pow_nonneg hr1 n)
      rw [q3]
      have e1 : c / ((3 + 1) * p.weight / (3 + p.distMax)) - 1 = (c / p.weight * (3 + p.distMax) - 4) / 4 := by
        field_simp; ring
      rw [e1, div_le_iff₀ (by norm_num)]
      have := mul_le_mul_of_nonneg_left b2 (show 0 ≤ c / p.weight by positivity)
      have e2 : c / p.weight * (1 - e * (1 - p.weight / c)) = c / p.weight - e * (c / p.weight - 1) := by
        field_simp
      rw [e2] at this
      linarith

theorem above_converges {eval : ℝ → Res Trial} (h : Trials eval) {c e : ℝ} (g : Growth eval c e) (n : ℕ) :
    ∀ p, IsTrial eval p → c ≤ p.weight → (p.weight / c - 1) * (1 - e / 4) ^ n ≤ 1 / 500 →
      ∃ q, forceLoop eval (fun p => (3 + 1) * p.weight / (3 + p.distMax)) 0.01 (n + 2) p = .ok (q, false) := by
  have hc := g.pos
  have he := g.rate
  induction n with
  | zero =>
    intro p hp hw hr
    refine ⟨p, ?_⟩
    unfold forceLoop
    rw [if_neg]
    obtain ⟨b1, b2⟩ := g.above p hp hw
    have hl2 : p.weight / c ≤ 1 + 1 / 500 := by rw [pow_zero, mul_one] at hr; linarith
    have hl : 1 ≤ p.weight / c := by rw [one_le_div hc]; exact hw
    push Not
    rw [abs_le]
    constructor
    · norm_num; nlinarith [mul_nonneg he.le (sub_nonneg.2 hl)]
    · norm_num at hl2 ⊢; nlinarith
  | succ n ih =>
    intro p hp hw hr
    unfold forceLoop
    split
    swap
    · exact ⟨p, rfl⟩
    have hp0 := hp.1
    have hf := h.pos hp
    obtain ⟨b1, b2⟩ := g.above p hp hw
    have hr1 : 0 ≤ 1 - e / 4 := by have := g.le; linarith
    have hl : 1 ≤ p.weight / c := by rw [one_le_div hc]; exact hw
    obtain ⟨q, q1, q2, q3⟩ := h.is (show 0 < (3 + 1) * p.weight / (3 + p.distMax) by positivity)
    rw [q1]
    rcases le_total c q.weight with hq | hq
    · refine ih q q2 hq (le_trans ?_ hr)
      rw [pow_succ' (1 - e / 4), ← mul_assoc]
      refine mul_le_mul_of_nonneg_right ?_ (pow_nonneg hr1 n)
      rw [q3]
      have e1 : (3 + 1) * p.weight / (3 + p.distMax) / c - 1 = (4 * (p.weight / c) - 3 - p.distMax) / (3 + p.distMax) := by
        field_simp; ring
      rw [e1, div_le_iff₀ (by positivity)]
      set l := p.weight / c
      have k : 0 ≤ (l - 1) * (1 - e / 4) := mul_nonneg (by linarith) hr1
      have k2 : 4 ≤ 3 + p.distMax := by nlinarith [mul_nonneg he.le (sub_nonneg.2 hl)]
      nlinarith [mul_le_mul_of_nonneg_left k2 k]
    · refine below_converges h g (n + 1) q q2 hq (le_trans ?_ hr)
      refine mul_le_mul_of_nonneg_right ?_ (pow_nonneg hr1 _)
      rw [q3]
      have e1 : c / ((3 + 1) * p.weight / (3 + p.distMax)) - 1 = (3 + p.distMax) / (4 * (p.weight / c)) - 1 := by
        have : (3 + p.distMax) ≠ 0 := by positivity
        field_simp
        ring
      rw [e1]
      set l := p.weight / c
      have : (3 + p.distMax) / (4 * l) ≤ l := by
        rw [div_le_iff₀ (by linarith)]
        nlinarith
      linarith

/-- With dampening 3 the limit of iterations is not reached. -/
theorem dampened_converges {eval : ℝ → Res Trial} (h : Trials eval) {c e : ℝ} (g : Growth eval c e)
    (hr : (max c c⁻¹ - 1) * (1 - e / 4) ^ 48 ≤ 1 / 500) : ∃ q, dampenedForce eval 3 = .ok (q, false) := by
  have hc := g.pos
  have he := g.rate
  have hr1 : 0 ≤ 1 - e / 4 := by have := g.le; linarith
  have hr2 : 1 - e / 4 ≤ 1 := by linarith
  obtain ⟨p, p1, p2, p3⟩ := h.is one_pos
  unfold dampenedForce
  rw [p1]
  simp only [bind, Except.bind]
  split
  · exact ⟨p, rfl⟩
  rcases le_total p.weight c with hw | hw
  · refine below_converges h g 49 p p2 hw (le_trans ?_ hr)
    rw [p3] at hw ⊢
    rw [div_one]
    have h1 : c - 1 ≤ max c c⁻¹ - 1 := by have := le_max_left c c⁻¹; linarith
    have h2 : (1 - e / 4) ^ 49 ≤ (1 - e / 4) ^ 48 := pow_le_pow_of_le_one hr1 hr2 (by norm_num)
    exact mul_le_mul h1 h2 (by positivity) (by linarith)
  · refine above_converges h g 48 p p2 hw (le_trans ?_ hr)
    rw [p3] at hw ⊢
    rw [one_div]
    have h1 : c⁻¹ - 1 ≤ max c c⁻¹ - 1 := by have := le_max_right c c⁻¹; linarith
    exact mul_le_mul_of_nonneg_right h1 (by positivity)

theorem minForce_converges {eval : ℝ → Res Trial} (h : Trials eval) {c e : ℝ} (g : Growth eval c e)
    (hr : (max c c⁻¹ - 1) * (1 - e / 4) ^ 48 ≤ 1 / 500) :
    ∃ p, minForce eval = .ok p ∧ IsTrial eval p ∧ (p.weight = 1 ∧ 1 ≤ p.distMin ∨ |p.distMax - 1| ≤ 0.01) := by
  have h2 : ∃ p, minForceDampened eval 2 = .ok p ∧ IsTrial eval p ∧
      (p.weight = 1 ∧ 1 ≤ p.distMin ∨ |p.distMax - 1| ≤ 0.01) := by
    obtain ⟨q, q1⟩ := dampened_converges h g hr
    obtain ⟨q', lim, r1, r2, r3⟩ := dampenedForce_spec h 3 (by norm_num)
    rw [q1] at r1
    injection r1 with r1
    injection r1 with r1 r4
    subst r1 r4
    refine ⟨q, ?_, r2, r3 rfl⟩
    unfold minForceDampened
    rw [show (5 - ((1 + 1 : ℕ) : ℝ)) = 3 by norm_num, q1]
    rfl
  have step : ∀ k : ℕ, k < 4 → (∃ p, minForceDampened eval k = .ok p ∧ IsTrial eval p ∧
      (p.weight = 1 ∧ 1 ≤ p.distMin ∨ |p.distMax - 1| ≤ 0.01)) → ∃ p, minForceDampened eval (k + 1) = .ok p ∧
      IsTrial eval p ∧ (p.weight = 1 ∧ 1 ≤ p.distMin ∨ |p.distMax - 1| ≤ 0.01) := by
    intro k hk ih
    have : ((k + 1 : ℕ) : ℝ) < 5 := by exact_mod_cast (by omega : k + 1 < 5)
    obtain ⟨q, lim, q1, q2, q3⟩ := dampenedForce_spec h (5 - ((k + 1 : ℕ) : ℝ)) (by linarith)
    unfold minForceDampened
    rw [q1]
    cases lim with
    | false => exact ⟨q, rfl, q2, q3 rfl⟩
    | true => exact ih
  have h4 := step 3 (by norm_num) (step 2 (by norm_num) h2)
  obtain ⟨p, p1, p2, p3⟩ := h.is one_pos
  unfold minForce
  rw [p1]
  simp only [bind, Except.bind]
  split
  · exact ⟨p, rfl, p2, .inl ⟨p3, ‹_›⟩⟩
  · obtain ⟨q, lim, q1, q2, q3⟩ := forceLoop_spec h (fun p => p.weight / p.distMax) 0.005
      (fun p hp => by have := h.pos hp; have := hp.1; positivity) 50 p p2
    rw [q1]
    cases lim with
    | false =>
      have := q3 rfl
      exact ⟨q, rfl, q2, .inr (this.trans (by norm_num))⟩
    | true => exact h4

theorem trial_growth (num : Numerics) (site : Site) (hs : SiteOk num site) (he : EllipticEnv site.env)
    (li : List ℝ) (ki : List Bool) (h : BeamOk li ki) {c : ℝ} {t0 tc : Trial} (h0 : trial num site li ki 0 = .ok t0)
    (hin : t0.distMax < 1) (hc : trial num site li ki c = .ok tc) (h1 : tc.distMax = 1) (hpos : 0 < c) :
    Growth (trial num site li ki) c (1 - t0.distMax) := by
  obtain ⟨n, hn, a, b, c', d, sc, tc', s1, s2, H, -⟩ := trial_family num site hs he li ki h
  have hD : ∀ w p, trial num site li ki w = .ok p → (∃ i < n, p.distMax = gridDist a b c' d sc tc' w i) ∧
      ∀ i < n, gridDist a b c' d sc tc' w i ≤ p.distMax := by
    intro w p hp
    obtain ⟨p', k1, -, -, k2, k3, -⟩ := H w
    rw [hp] at k1
    injection k1 with k1
    subst k1
    exact ⟨k2, k3⟩
  obtain ⟨-, hB0⟩ := hD 0 t0 h0
  obtain ⟨⟨j, hj, hjc⟩, hBc⟩ := hD c tc hc
  obtain ⟨⟨j0, hj0, hjt⟩, -⟩ := hD 0 t0 h0
  have hnn : 0 ≤ t0.distMax := by rw [hjt]; unfold gridDist; positivity
  -- the distance as a function of the ratio
  have hmix : ∀ w i, gridDist a b c' d sc tc' w i =
      ((1 - w / c) * (a i / sc) + w / c * ((a i + c * b i) / sc)) ^ 2 +
      ((1 - w / c) * (c' i / tc') + w / c * ((c' i + c * d i) / tc')) ^ 2 := by
    intro w i
    unfold gridDist
    congr 2 <;> field_simp <;> ring
  have hz : ∀ i, gridDist a b c' d sc tc' 0 i = (a i / sc) ^ 2 + (c' i / tc') ^ 2 := by
    intro i; unfold gridDist; simp
  have hcc : ∀ i, gridDist a b c' d sc tc' c i = ((a i + c * b i) / sc) ^ 2 + ((c' i + c * d i) / tc') ^ 2 := fun i => rfl
  refine ⟨hpos, by linarith, by linarith, fun p hp hw => ?_, fun p hp hw => ?_⟩
  · have hl : p.weight / c ≤ 1 := by rw [div_le_one hpos]; exact hw
    have hl0 : 0 < p.weight / c := div_pos hp.1 hpos
    obtain ⟨⟨i, hi, k1⟩, k2⟩ := hD p.weight p hp.2
    constructor
    · refine le_trans ?_ (k2 j hj)
      rw [hmix]
      have e0 := hB0 j hj
      rw [hz] at e0
      rw [hcc, h1] at hjc
      generalize p.weight / c = l at *
      generalize (a j + c * b j) / sc = x at *
      generalize (c' j + c * d j) / tc' = y at *
      generalize a j / sc = u at *
      generalize c' j / tc' = v at *
      have hin1 : -1 ≤ u * x + v * y := by nlinarith [sq_nonneg (u + x), sq_nonneg (v + y)]
      have e1 : ((1 - l) * u + l * x) ^ 2 + ((1 - l) * v + l * y) ^ 2 =
          (1 - l) ^ 2 * (u ^ 2 + v ^ 2) + 2 * (l * (1 - l)) * (u * x + v * y) + l ^ 2 * (x ^ 2 + y ^ 2) := by ring
      rw [e1, ← hjc]
      have k3 : 0 ≤ (1 - l) ^ 2 * (u ^ 2 + v ^ 2) := by positivity
      have k4 := mul_le_mul_of_nonneg_left hin1 (show 0 ≤ 2 * (l * (1 - l)) from by
        have := mul_nonneg hl0.le (sub_nonneg.2 hl); linarith)
      nlinarith [sq_nonneg (1 - l)]
    · rw [k1]
      have e := gridDist_convex a b c' d sc tc' 0 c (p.weight / c) i hl0.le hl
      have e2 : mix (p.weight / c) 0 c = p.weight := by unfold mix; field_simp; ring
      rw [e2] at e
      have k3 := mul_le_mul_of_nonneg_left (hB0 i hi) (sub_nonneg.2 hl)
      have k4 := mul_le_mul_of_nonneg_left (hBc i hi) hl0.le
      rw [h1] at k4
      refine e.trans ?_
      unfold mix
      linarith
  · have hl : 1 ≤ p.weight / c := by rw [one_le_div hpos]; exact hw
    obtain ⟨⟨i, hi, k1⟩, k2⟩ := hD p.weight p hp.2
    constructor
    · refine le_trans ?_ (k2 j hj)
      have hi0 : c / p.weight ≤ 1 := by rw [div_le_one hp.1]; exact hw
      have e := gridDist_convex a b c' d sc tc' 0 p.weight (c / p.weight) j (div_pos hpos hp.1).le hi0
      have e2 : mix (c / p.weight) 0 p.weight = c := by
        have := hp.1.ne'
        unfold mix; field_simp; ring
      rw [e2, ← hjc, h1] at e
      have k3 := mul_le_mul_of_nonneg_left (hB0 j hj) (sub_nonneg.2 hi0)
      have k4 : 1 ≤ mix (c / p.weight) t0.distMax (gridDist a b c' d sc tc' p.weight j) := by
        refine e.trans ?_
        unfold mix
        linarith
      unfold mix at k4
      have k5 := mul_le_mul_of_nonneg_left k4 (show 0 ≤ p.weight / c by linarith)
      have e3 : p.weight / c * ((1 - c / p.weight) * t0.distMax + c / p.weight * gridDist a b c' d sc tc' p.weight j)
          = (p.weight / c - 1) * t0.distMax + gridDist a b c' d sc tc' p.weight j := by
        have := hp.1.ne'
        field_simp
      rw [e3] at k5
      linarith
    · rw [k1, hmix]
      have e0 := hB0 i hi
      rw [hz] at e0
      have ec := hBc i hi
      rw [hcc, h1] at ec
      generalize p.weight / c = l at *
      generalize (a i + c * b i) / sc = x at *
      generalize (c' i + c * d i) / tc' = y at *
      generalize a i / sc = u at *
      generalize c' i / tc' = v at *
      have hin1 : -1 ≤ u * x + v * y := by nlinarith [sq_nonneg (u + x), sq_nonneg (v + y)]
      have e1 : ((1 - l) * u + l * x) ^ 2 + ((1 - l) * v + l * y) ^ 2 =
          (l - 1) ^ 2 * (u ^ 2 + v ^ 2) - 2 * (l * (l - 1)) * (u * x + v * y) + l ^ 2 * (x ^ 2 + y ^ 2) := by ring
      rw [e1]
      have k3 := mul_le_mul_of_nonneg_left (show u ^ 2 + v ^ 2 ≤ 1 by linarith) (sq_nonneg (l - 1))
      have k4 := mul_le_mul_of_nonneg_left hin1 (show 0 ≤ 2 * (l * (l - 1)) from by
        have := mul_nonneg (show 0 ≤ l by linarith) (sub_nonneg.2 hl); linarith)
      have k5 := mul_le_mul_of_nonneg_left ec (sq_nonneg l)
      nlinarith

/-- C52: `find_minimum_force` does not give up. Let `d < 1` be the greatest
distance for the slab alone and `c` the weight that just reaches the envelope. If
`c` and `1 / c` are not too large in terms of `d`, the weight returned is positive,
the solution and distances are those of this weight, and it differs from `c` by
at most the fraction `0.01 / (1 - d)`; only if a skier of 1 kg takes the weak layer
outside the envelope everywhere is 1 kg returned instead. -/
theorem C52_found (num : Numerics) (site : Site) (hs : SiteOk num site) (he : EllipticEnv site.env)
    (hphi : 0 < Real.cos (deg2rad site.phi)) (li : List ℝ) (ki : List Bool) (h : BeamOk li ki) (hl : 0 < nth li 0)
    {c : ℝ} {t0 tc : Trial} (h0 : trial num site li ki 0 = .ok t0) (hin : t0.distMax < 1)
    (hc : trial num site li ki c = .ok tc) (h1 : tc.distMax = 1) (hpos : 0 < c)
    (hr : (max c c⁻¹ - 1) * (1 - (1 - t0.distMax) / 4) ^ 48 ≤ 1 / 500) :
    ∃ p, minForce (trial num site li ki) = .ok p ∧ 0 < p.weight ∧ trial num site li ki p.weight = .ok p ∧
      createSkierObject num site p.weight li ki .nocrack = .ok p.run ∧
      (|p.distMax - 1| ≤ 0.01 ∧ |p.weight - c| ≤ 0.01 / (1 - t0.distMax) * c ∨ p.weight = 1 ∧ 1 ≤ p.distMin ∧ c < 1) := by
  have ht := site_trials num site hs he hphi li ki h hl
  have hg := trial_growth num site hs he li ki h h0 hin hc h1 hpos
  obtain ⟨p, p1, ⟨p2, p3⟩, p4⟩ := minForce_converges ht hg hr
  obtain ⟨n, hn, a, b, c', d, sc, tc', s1, s2, H, -⟩ := trial_family num site hs he li ki h
  obtain ⟨q, q1, -, q2, ⟨i, hi, q3⟩, -, -, q4⟩ := H p.weight
  rw [p3] at q1
  injection q1 with q1
  subst q1
  refine ⟨p, p1, p2, p3, q2, ?_⟩
  have key : |p.distMax - 1| ≤ 0.01 → |p.weight - c| ≤ 0.01 / (1 - t0.distMax) * c := by
    intro k
    rw [abs_le] at k
    rw [div_mul_eq_mul_div, le_div_iff₀ (by linarith : (0 : ℝ) < 1 - t0.distMax)]
    rcases le_total p.weight c with hw | hw
    · obtain ⟨-, b2⟩ := hg.below p ⟨p2, p3⟩ hw
      rw [abs_of_nonpos (by linarith)]
      have := mul_le_mul_of_nonneg_right (b2.trans' (show (1 - 0.01 : ℝ) ≤ p.distMax by linarith)) hpos.le
      have e : (1 - (1 - t0.distMax) * (1 - p.weight / c)) * c = c - (1 - t0.distMax) * (c - p.weight) := by field_simp
      rw [e] at this
      linarith
    · obtain ⟨b1, -⟩ := hg.above p ⟨p2, p3⟩ hw
      rw [abs_of_nonneg (by linarith)]
      have := mul_le_mul_of_nonneg_right (b1.trans (show p.distMax ≤ 1 + 0.01 by linarith)) hpos.le
      have e : (1 + (1 - t0.distMax) * (p.weight / c - 1)) * c = c + (1 - t0.distMax) * (p.weight - c) := by field_simp
      rw [e] at this
      linarith
  rcases p4 with ⟨w1, w2⟩ | w
  · rcases lt_or_ge c 1 with c1 | c1
    · exact .inr ⟨w1, w2, c1⟩
    · left
      have hlow : 1 ≤ p.distMax := by rw [q3]; exact w2.trans (q4 i hi)
      obtain ⟨-, b2⟩ := hg.below p ⟨p2, p3⟩ (by rw [w1]; exact c1)
      have : 0 ≤ (1 - t0.distMax) * (1 - p.weight / c) :=
        mul_nonneg (by linarith) (by rw [w1, sub_nonneg, div_le_one hpos]; exact c1)
      have k : |p.distMax - 1| ≤ 0.01 := by
        rw [show p.distMax = 1 by linarith]; norm_num
      exact ⟨k, key k⟩
  · exact .inl ⟨w, key w⟩

/-- C52: for slabs that bring the weak layer no more than a tenth of the way to
failure and critical weights between 1 kg and 400 kg the weight returned by
`find_minimum_force` is the critical one up to 1.2 percent. -/
theorem C52_usual (num : Numerics) (site : Site) (hs : SiteOk num site) (he : EllipticEnv site.env)
    (hphi : 0 < Real.cos (deg2rad site.phi)) (li : List ℝ) (ki : List Bool) (h : BeamOk li ki) (hl : 0 < nth li 0)
    {c : ℝ} {t0 tc : Trial} (h0 : trial num site li ki 0 = .ok t0) (hin : t0.distMax ≤ 0.1)
    (hc : trial num site li ki c = .ok tc) (h1 : tc.distMax = 1) (hpos : 1 ≤ c) (hle : c ≤ 400) :
    ∃ p, minForce (trial num site li ki) = .ok p ∧ createSkierObject num site p.weight li ki .nocrack = .ok p.run ∧
      |p.distMax - 1| ≤ 0.01 ∧ |p.weight - c| ≤ 0.012 * c := by
  have hc0 : 0 < c := by linarith
  have hm : max c c⁻¹ = c := max_eq_left ((inv_le_one_of_one_le₀ hpos).trans hpos)
  obtain ⟨n, hn, a, b, c', d, sc, tc', -, -, H, -⟩ := trial_family num site hs he li ki h
  have hnn : 0 ≤ t0.distMax := by
    obtain ⟨q, q1, -, -, ⟨i, hi, q2⟩, -⟩ := H 0
    rw [h0] at q1
    injection q1 with q1
    rw [q1, q2]
    unfold gridDist
    positivity
  obtain ⟨p, p1, -, -, p2, p3⟩ := C52_found num site hs he hphi li ki h hl h0 (by norm_num at hin; linarith) hc h1 hc0 (by
    rw [hm]
    have h3 : (1 - (1 - t0.distMax) / 4) ^ 48 ≤ (0.775 : ℝ) ^ 48 := by
      refine pow_le_pow_left₀ (by linarith) ?_ 48
      norm_num at hin ⊢; linarith
    calc (c - 1) * (1 - (1 - t0.distMax) / 4) ^ 48 ≤ 400 * 0.775 ^ 48 :=
          mul_le_mul (by linarith) h3 (pow_nonneg (by linarith) _) (by norm_num)
      _ ≤ 1 / 500 := by norm_num)
  rcases p3 with ⟨p3, p4⟩ | p3
  · refine ⟨p, p1, p2, p3, p4.trans ?_⟩
    refine mul_le_mul_of_nonneg_right ?_ hc0.le
    rw [div_le_iff₀ (by norm_num at hin; linarith)]
    norm_num at hin ⊢; linarith
  · linarith [p3.2.2]

/-- The soft slab on a weak layer whose strength is scaled by `0.55 ^ o`. -/
noncomputable def scaledSite (o : ℝ) : Site := { softSite with env := ⟨"adam_unpublished", 0.55, o, 250⟩ }

theorem scaledSite_ok {num : Numerics} (hs : SiteOk num softSite) (o : ℝ) : SiteOk num (scaledSite o) :=
  ⟨hs.eig, hs.plies, hs.t, hs.E, hs.generic⟩

theorem scaled_factor (o : ℝ) : strengthFactor 0.55 o = 0.55 ^ o := by
  unfold strengthFactor
  rw [if_neg (by norm_num), max_self]

theorem scaled_distances (o : ℝ) (r : Skier) : distances (scaledSite o).env r =
    .ok (((reals r.sigma).zip (reals r.tau)).map fun p => ((p.1 / 6.16) ^ 2 + (p.2 / 5.09) ^ 2) / (0.55 ^ o) ^ 2) := by
  unfold distances
  refine mapM_ok _ fun p _ => ?_
  have := C46_adam 0.55 o 250 false p.1 p.2
  rw [scaled_factor] at this
  refine this.trans ?_
  congr 1
  have : (0.55 : ℝ) ^ o ≠ 0 := (Real.rpow_pos_of_pos (by norm_num) o).ne'
  field_simp

/-- Under a skier of 80 kg the soft slab loads the weak layer with more than ten
times the square of the load of the slab alone. -/
theorem softSite_peak (num : Numerics) (hs : SiteOk num softSite) {r : Skier}
    (hr : createSkierObject num softSite 80 [100000, 100000] [true, true] .nocrack = .ok r) :
    ∃ p ∈ (reals r.sigma).zip (reals r.tau), 10 * (cover softSite.profile / 6.16) ^ 2 ≤ (p.1 / 6.16) ^ 2 + (p.2 / 5.09) ^ 2 := by
  have hm : (0 : ℝ) < 100000 := by norm_num
  obtain ⟨s, h1, h2, h3, h4, h5⟩ := softSite_object num hs 100000 hm
  obtain ⟨W, ⟨w0, w1⟩, w2, -, -⟩ := level_peak num softSite hs rfl 80 100000 hm (by norm_num) hr (h5 r 80 hr) (c := 1 / 170) (κ := 2)
    rfl (by norm_num) (by rw [h2, h3, h4]; norm_num) (by norm_num) (by rw [h1]; norm_num)
  obtain ⟨a1, -, -, -⟩ := level_alone num softSite hs rfl 80 100000 hm hr
  obtain ⟨r', r1, r2⟩ := C50_solution_partial num softSite hs 80 [100000, 100000] [true, true]
    (by have := half_beam (T := 200000) (by norm_num); norm_num at this; exact this) .nocrack
  rw [hr] at r1
  injection r1 with r1
  subst r1
  have hf : strengthFactor 1 1 = 1 := by unfold strengthFactor; norm_num
  have he := C46_adam 1 1 250 false
  rw [hf, mul_one, mul_one] at he
  obtain ⟨xs, x1, x2, x3, x4, x5, x6⟩ := half_samples softSite 80 100000 hm
    (D := fun a b => (a / 6.16) ^ 2 + (b / 5.09) ^ 2) (fun a b => he a b) r2
  have hd : distances softSite.env r = .ok (((reals r.sigma).zip (reals r.tau)).map fun p => (p.1 / 6.16) ^ 2 + (p.2 / 5.09) ^ 2) := by
    unfold distances
    exact mapM_ok _ fun p _ => he p.1 p.2
  rw [x6] at hd
  injection hd with hd
  have hmem : distGrid (fun a b => (a / 6.16) ^ 2 + (b / 5.09) ^ 2) r softSite.phi 100000 100000 ∈
      ((reals r.sigma).zip (reals r.tau)).map fun p => (p.1 / 6.16) ^ 2 + (p.2 / 5.09) ^ 2 := by
    rw [← hd]
    exact List.mem_map.2 ⟨_, x4, rfl⟩
  obtain ⟨p, p1, p2⟩ := List.mem_map.1 hmem
  refine ⟨p, p1, ?_⟩
  rw [p2]
  unfold distGrid distOf
  rw [if_neg (lt_irrefl _), sub_self, w2]
  refine le_trans ?_ (le_add_of_nonneg_right (sq_nonneg _))
  have hkn : r.skier.kn = 2 / 225 := by rw [← h1]; exact congrArg Beam.kn (h5 r 80 hr)
  have e : 1000 * -(r.skier.kn * (W + zp r.skier 0 softSite.phi true 2)) = -(cover softSite.profile + 1000 * (2 / 225) * W) := by
    rw [← a1, hkn]; ring
  have hq : 0 ≤ cover softSite.profile ∧ cover softSite.profile ≤ 1 / 3 := by rw [softSite_cover]; norm_num
  have hW : 1 / 6 ≤ W := by norm_num at w1; linarith
  rw [e, neg_div, neg_sq, div_pow, div_pow, ← mul_div_assoc]
  refine div_le_div_of_nonneg_right ?_ (by norm_num)
  nlinarith [hq.1, hq.2]

/-- A weak layer that just carries a skier of 80 kg: `find_minimum_force` starts
with 1 kg and returns 80 kg up to 1 kg. -/
theorem scaledSite_run : ∃ o t0 tc p, trial midNum (scaledSite o) [100000, 100000] [true, true] 0 = .ok t0 ∧ 0 < t0.distMax ∧ t0.distMax ≤ 0.1 ∧
    trial midNum (scaledSite o) [100000, 100000] [true, true] 80 = .ok tc ∧ tc.distMax = 1 ∧
    minForce (trial midNum (scaledSite o) [100000, 100000] [true, true]) = .ok p ∧ |p.distMax - 1| ≤ 0.01 ∧ |p.weight - 80| ≤ 0.96 := by
  have hs : SiteOk midNum softSite := SiteOk.eig_only (num := bisectNum 1) (num' := midNum) rfl (softSite_ok 1)
  have hbeam : BeamOk [100000, (100000 : ℝ)] [true, true] := by
    have := half_beam (T := 200000) (by norm_num)
    norm_num at this
    exact this
  obtain ⟨r, r1, -⟩ := C50_solution_partial midNum softSite hs 80 _ _ hbeam .nocrack
  obtain ⟨p, p1, p2⟩ := softSite_peak midNum hs r1
  set L := ((reals r.sigma).zip (reals r.tau)).map fun p => (p.1 / 6.16) ^ 2 + (p.2 / 5.09) ^ 2 with hL
  obtain ⟨M, m1, m2, m3⟩ := npMax_ok (l := L) (by
    intro h
    have : (p.1 / 6.16) ^ 2 + (p.2 / 5.09) ^ 2 ∈ L := List.mem_map.2 ⟨p, p1, rfl⟩
    rw [h] at this
    exact absurd this List.not_mem_nil)
  have hM := p2.trans (m3 _ (List.mem_map.2 ⟨p, p1, rfl⟩))
  have hq : 0 < cover softSite.profile := by rw [softSite_cover]; norm_num
  have hMpos : 0 < M := lt_of_lt_of_le (by positivity) hM
  -- strength for which 80 kg is critical
  obtain ⟨o, ho⟩ : ∃ o : ℝ, ((0.55 : ℝ) ^ o) ^ 2 = M := by
    refine ⟨Real.logb 0.55 (Real.sqrt M), ?_⟩
    rw [Real.rpow_logb (by norm_num) (by norm_num) (Real.sqrt_pos.2 hMpos), Real.sq_sqrt hMpos.le]
  have hso := scaledSite_ok hs o
  have hcos : Real.cos (deg2rad (scaledSite o).phi) = 1 ∧ Real.sin (deg2rad (scaledSite o).phi) = 0 := softSite_cos
  have hel := C46_adam 0.55 o 250 false
  rw [scaled_factor] at hel
  obtain ⟨t0, k1, -, k2⟩ := C52_slab_alone midNum (scaledSite o) hso _ _ hbeam hel
  rw [hcos.1, hcos.2, mul_one, mul_zero, zero_div, zero_pow two_ne_zero, add_zero, ← div_div, div_pow _ ((0.55 : ℝ) ^ o), ho] at k2
  have k2 : t0.distMax = (cover softSite.profile / 6.16) ^ 2 / M := k2
  have h0 : 0 < t0.distMax := by rw [k2]; positivity
  have h01 : t0.distMax ≤ 0.1 := by
    rw [k2, div_le_iff₀ hMpos]
    norm_num at hM ⊢
    linarith
  obtain ⟨n, hn, a, b, c', d, sc, tc', s1, s2, H, -⟩ := trial_family midNum (scaledSite o) hso (EllipticEnv.adam 0.55 o 250) _ _ hbeam
  obtain ⟨tc, c1, -, c3, ⟨i, hi, c4⟩, -⟩ := H 80
  have hc : tc.distMax = 1 := by
    have e := c1
    unfold trial at e
    rw [show createSkierObject midNum (scaledSite o) 80 [100000, 100000] [true, true] .nocrack = .ok r from r1] at e
    simp only [bind, Except.bind] at e
    rw [scaled_distances] at e
    simp only at e
    rw [ho] at e
    have hL2 : (((reals r.sigma).zip (reals r.tau)).map fun p => ((p.1 / 6.16) ^ 2 + (p.2 / 5.09) ^ 2) / M) = L.map (· / M) := by
      rw [hL, List.map_map]; rfl
    rw [hL2] at e
    obtain ⟨M', n1, n2, n3⟩ := npMax_ok (l := L.map (· / M)) (by
      intro h
      rw [List.map_eq_nil_iff] at h
      rw [h] at m2
      exact absurd m2 List.not_mem_nil)
    rw [n1] at e
    simp only at e
    obtain ⟨M'', n4, -, -⟩ := npMin_ok (l := L.map (· / M)) (List.ne_nil_of_mem n2)
    rw [n4] at e
    injection e with e
    rw [← e]
    show M' = 1
    apply le_antisymm
    · obtain ⟨v, v1, v2⟩ := List.mem_map.1 n2
      rw [← v2, div_le_one hMpos]
      exact m3 v v1
    · have := n3 (M / M) (List.mem_map.2 ⟨M, m2, rfl⟩)
      rwa [div_self hMpos.ne'] at this
  obtain ⟨q, q1, -, q2, q3⟩ := C52_usual midNum (scaledSite o) hso (EllipticEnv.adam 0.55 o 250) (by rw [hcos.1]; norm_num) _ _ hbeam
    (by norm_num [nth]) k1 h01 c1 hc (by norm_num) (by norm_num)
  exact ⟨o, t0, tc, q, k1, h0, h01, c1, hc, q1, q2, by norm_num at q3 ⊢; exact q3⟩

end Weac
