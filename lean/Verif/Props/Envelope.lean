import Mathlib.Analysis.SpecialFunctions.Pow.Real
import Mathlib.Analysis.SpecialFunctions.Pow.Continuity
import Mathlib.Analysis.SpecialFunctions.Sqrt
import Mathlib.Analysis.Real.Pi.Bounds
import Mathlib.Tactic.NormNum
import Mathlib.Tactic.Linarith
import Mathlib.Tactic.Positivity
import Mathlib.Tactic.FieldSimp
import Mathlib.Tactic.Ring
import Verif.Model.Envelope

/-!
# Stress envelopes and fracture toughness (C46, C47, C48)
-/

namespace Weac

namespace Spec

/-- Factor by which the strengths of the weak layer differ from those at the
reference density: `scaling ^ order` up to the reference density, sublinear
above it, and constant below 55 % of it. -/
noncomputable def strengthFactor (scaling order : ℝ) : ℝ :=
  if 1 < scaling then scaling ^ (0.7 : ℝ) else (max scaling 0.55) ^ order

/-- `f` measures the distance to an elliptic failure surface with compressive
strength `sc` and shear strength `tc`. -/
def Elliptic (f : ℝ → ℝ → Res ℝ) (sc tc : ℝ) : Prop :=
  ∀ sigma tau, f sigma tau = .ok ((sigma / sc) ^ 2 + (tau / tc) ^ 2)

end Spec

theorem strengthFactor_pos (s o : ℝ) : 0 < Spec.strengthFactor s o := by
  unfold Spec.strengthFactor
  split_ifs with h
  · positivity
  · have : (0 : ℝ) < max s 0.55 := lt_of_lt_of_le (by norm_num) (le_max_right _ _)
    positivity

/-- C46: the default envelope is an ellipse in the two stresses. Its uniaxial
strengths are 6.16 kPa and 5.09 kPa times the strength factor, and the result
does not depend on the type of the arrays or on the density argument. -/
theorem C46_adam (s o d : ℝ) (isInt : Bool) :
    Spec.Elliptic (fun sigma tau => stressEnvelope ⟨"adam_unpublished", s, o, d⟩ sigma tau isInt)
      (6.16 * Spec.strengthFactor s o) (5.09 * Spec.strengthFactor s o) := by
  intro sigma tau
  have e : (if s < 0.55 then (0.55 : ℝ) else s) ^ (if 1 < s then (0.7 : ℝ) else o)
      = Spec.strengthFactor s o := by
    unfold Spec.strengthFactor
    by_cases h : 1 < s
    · rw [if_pos h, if_pos h, if_neg (by norm_num at *; linarith)]
    · rw [if_neg h, if_neg h]
      congr 1
      by_cases h' : s < 0.55
      · rw [if_pos h', max_eq_right h'.le]
      · rw [if_neg h', max_eq_left (not_lt.1 h')]
  simp only [stressEnvelope, if_true, e, div_pow, sq_abs]

/-- C46: the envelope of depth hoar is an ellipse whose shear strength is in
the same proportion to the compressive strength as in the default envelope. -/
theorem C46_schottner (s o d : ℝ) (isInt : Bool) :
    Spec.Elliptic (fun sigma tau => stressEnvelope ⟨"schottner", s, o, d⟩ sigma tau isInt)
      (26000 * (d / 916.7) ^ o) (5.09 / 6.16 * (26000 * (d / 916.7) ^ o)) := by
  intro sigma tau
  have e : (5.09 : ℝ) * (26000 * (d / 916.7) ^ o / 6.16)
      = 5.09 / 6.16 * (26000 * (d / 916.7) ^ o) := by ring
  have e' : (2000 : ℝ) * 13 * (d / 916.7) ^ o = 26000 * (d / 916.7) ^ o := by ring
  simp only [stressEnvelope, if_true, if_false, String.reduceEq, e, e', div_pow, sq_abs]

/-- C46: what an elliptic envelope means for the user. With positive
strengths the value is nonnegative, vanishes exactly in the unstressed state,
does not depend on the signs of the stresses, grows with the square of a
proportional load, and does not decrease when a stress grows in magnitude. -/
theorem C46_meaning {f : ℝ → ℝ → Res ℝ} {sc tc : ℝ} (hf : Spec.Elliptic f sc tc)
    (hs : 0 < sc) (ht : 0 < tc) :
    ∃ v : ℝ → ℝ → ℝ, (∀ a b, f a b = .ok (v a b)) ∧ (∀ a b, 0 ≤ v a b) ∧
      (∀ a b, v a b = 0 ↔ a = 0 ∧ b = 0) ∧ (∀ a b, v (-a) b = v a b ∧ v a (-b) = v a b) ∧
      (∀ c a b, v (c * a) (c * b) = c ^ 2 * v a b) ∧
      (∀ a b a' b', |a| ≤ |a'| → |b| ≤ |b'| → v a b ≤ v a' b') ∧
      v sc 0 = 1 ∧ v 0 tc = 1 := by
  refine ⟨fun a b => (a / sc) ^ 2 + (b / tc) ^ 2, hf, fun a b => by positivity, fun a b => ?_,
    fun a b => by constructor <;> ring, fun c a b => by ring, fun a b a' b' h h' => ?_, ?_, ?_⟩
  · constructor
    · intro h
      have h1 : (a / sc) ^ 2 = 0 := le_antisymm (by nlinarith [sq_nonneg (b / tc)]) (sq_nonneg _)
      have h2 : (b / tc) ^ 2 = 0 := by simpa [h1] using h
      have h1 := pow_eq_zero_iff (two_ne_zero) |>.1 h1
      have h2 := pow_eq_zero_iff (two_ne_zero) |>.1 h2
      exact ⟨(div_eq_zero_iff.1 h1).resolve_right hs.ne', (div_eq_zero_iff.1 h2).resolve_right ht.ne'⟩
    · rintro ⟨rfl, rfl⟩; simp
  · have h1 : a ^ 2 ≤ a' ^ 2 := sq_le_sq.2 h
    have h2 : b ^ 2 ≤ b' ^ 2 := sq_le_sq.2 h'
    simp only [div_pow]
    gcongr
  · simp [div_self hs.ne']
  · simp [div_self ht.ne']

/-- C46: the stresses that an elliptic envelope accepts form a convex set. -/
theorem C46_convex {f : ℝ → ℝ → Res ℝ} {sc tc : ℝ} (hf : Spec.Elliptic f sc tc)
    {a b a' b' v v' c : ℝ} (h : f a b = .ok v) (h' : f a' b' = .ok v') (h1 : v ≤ 1) (h1' : v' ≤ 1)
    (hc : 0 ≤ c) (hc' : c ≤ 1) :
    ∃ w, f (c * a + (1 - c) * a') (c * b + (1 - c) * b') = .ok w ∧ w ≤ 1 := by
  refine ⟨_, hf _ _, ?_⟩
  rw [hf] at h h'
  simp only [Except.ok.injEq] at h h'
  have k : ∀ x y z : ℝ, ((c * x + (1 - c) * y) / z) ^ 2
      = c * (x / z) ^ 2 + (1 - c) * (y / z) ^ 2 - c * (1 - c) * (x / z - y / z) ^ 2 := by
    intro x y z; ring
  rw [k, k]
  have q : 0 ≤ c * (1 - c) := mul_nonneg hc (by linarith)
  nlinarith [mul_nonneg q (sq_nonneg (a / sc - a' / sc)), mul_nonneg q (sq_nonneg (b / tc - b' / tc))]

/-- Non-trivial case for `C46_meaning` and `C46_convex`. -/
example : Spec.Elliptic (fun sigma tau => stressEnvelope {} sigma tau) 6.16 5.09 := by
  have := C46_adam 1 1 250 false
  have e : max (1 : ℝ) 0.55 = 1 := max_eq_left (by norm_num)
  simpa [Spec.strengthFactor, e] using this

theorem strengthFactor_mono {s s' o : ℝ} (ho : 0 ≤ o) (h : s ≤ s') :
    Spec.strengthFactor s o ≤ Spec.strengthFactor s' o := by
  have p : ∀ x : ℝ, (0 : ℝ) < max x 0.55 := fun x => lt_of_lt_of_le (by norm_num) (le_max_right _ _)
  unfold Spec.strengthFactor
  split_ifs with h1 h2 h2
  · exact Real.rpow_le_rpow (by linarith) h (by norm_num)
  · linarith
  · have e : max s 0.55 ≤ 1 := max_le (not_lt.1 h1) (by norm_num)
    exact (Real.rpow_le_one (p s).le e ho).trans (Real.one_le_rpow h2.le (by norm_num))
  · exact Real.rpow_le_rpow (p s).le (max_le_max_right _ h) ho

/-- C46: a denser weak layer is never judged closer to failure under the same
stresses. -/
theorem C46_denser {s s' o d d' sigma tau v v' : ℝ} (ho : 0 ≤ o) (h : s ≤ s')
    (hv : stressEnvelope ⟨"adam_unpublished", s, o, d⟩ sigma tau = .ok v)
    (hv' : stressEnvelope ⟨"adam_unpublished", s', o, d'⟩ sigma tau = .ok v') : v' ≤ v := by
  have hv := hv.symm.trans (C46_adam s o d false sigma tau)
  have hv' := hv'.symm.trans (C46_adam s' o d' false sigma tau)
  simp only [Except.ok.injEq] at hv hv'
  rw [hv, hv', div_pow, div_pow, div_pow, div_pow]
  have := strengthFactor_mono ho h
  have p := strengthFactor_pos s o
  gcongr

example : ∃ v v', stressEnvelope ⟨"adam_unpublished", 0.8, 3, 200⟩ 1 2 = .ok v ∧
    stressEnvelope ⟨"adam_unpublished", 1.2, 3, 300⟩ 1 2 = .ok v' ∧ v' ≤ v :=
  ⟨_, _, C46_adam 0.8 3 200 false 1 2, C46_adam 1.2 3 300 false 1 2,
    C46_denser (by norm_num) (by norm_num) (C46_adam 0.8 3 200 false 1 2) (C46_adam 1.2 3 300 false 1 2)⟩

/-- Any other name than the five known ones is refused. -/
theorem C46_unknown (e : Env) (h1 : e.envelope ≠ "adam_unpublished") (h2 : e.envelope ≠ "schottner")
    (h3 : e.envelope ≠ "mede_s-RG1") (h4 : e.envelope ≠ "mede_s-RG2")
    (h5 : e.envelope ≠ "mede_s-FCDH") (sigma tau : ℝ) (isInt : Bool) :
    stressEnvelope e sigma tau isInt = .error .valueError := by
  simp only [stressEnvelope, if_neg h1, if_neg h2, if_neg h3, if_neg h4, if_neg h5]

example : stressEnvelope { envelope := "mede" } 1 1 = .error .valueError :=
  C46_unknown _ (by decide) (by decide) (by decide) (by decide) (by decide) _ _ _

/-- Inside an ellipse means below its upper half. -/
theorem ellipse_le {sc tc sigma tau : ℝ} (hs : 0 < sc) (ht : 0 < tc) :
    ((sigma / sc) ^ 2 + (tau / tc) ^ 2 ≤ 1 ↔
      |sigma| ≤ sc ∧ |tau| ≤ Real.sqrt (1 - sigma ^ 2 / sc ^ 2) * tc) ∧
    (0 ≤ tau → |sigma| ≤ sc → tau = Real.sqrt (1 - sigma ^ 2 / sc ^ 2) * tc →
      (sigma / sc) ^ 2 + (tau / tc) ^ 2 = 1) := by
  have key : |sigma| ≤ sc → 0 ≤ 1 - sigma ^ 2 / sc ^ 2 := by
    intro h
    have : sigma ^ 2 ≤ sc ^ 2 := sq_le_sq.2 (by rwa [abs_of_pos hs])
    rw [sub_nonneg, div_le_one (by positivity)]; exact this
  constructor
  · constructor
    · intro h
      have h1 : sigma ^ 2 ≤ sc ^ 2 := by
        have : (sigma / sc) ^ 2 ≤ 1 := by nlinarith [sq_nonneg (tau / tc)]
        rwa [div_pow, div_le_one (by positivity)] at this
      have h1 : |sigma| ≤ sc := by have := sq_le_sq.1 h1; rwa [abs_of_pos hs] at this
      refine ⟨h1, ?_⟩
      rw [← div_le_iff₀ ht]
      apply Real.le_sqrt_of_sq_le
      rw [div_pow, sq_abs, ← div_pow, ← div_pow]; linarith
    · rintro ⟨h1, h2⟩
      rw [← div_le_iff₀ ht] at h2
      have := (Real.le_sqrt' (x := |tau| / tc) (y := 1 - sigma ^ 2 / sc ^ 2))
      have h3 := pow_le_pow_left₀ (by positivity : 0 ≤ |tau| / tc) h2 2
      rw [Real.sq_sqrt (key h1), div_pow, sq_abs, ← div_pow, ← div_pow] at h3
      linarith
  · intro _ h1 h2
    have : (tau / tc) ^ 2 = 1 - sigma ^ 2 / sc ^ 2 := by
      rw [h2, mul_div_cancel_right₀ _ ht.ne', Real.sq_sqrt (key h1)]
    rw [this, div_pow]; ring

/-- C46: for scaling factors between 0.55 and 1 the plotted failure curve is
the boundary of the default envelope: a state is accepted exactly when it lies
on or below the curve. -/
theorem C46_curve_partial {s : ℝ} (o d : ℝ) (h1 : 0.55 ≤ s) (h2 : s ≤ 1) (sigma tau : ℝ) :
    ∃ v, stressEnvelope ⟨"adam_unpublished", s, o, d⟩ sigma tau = .ok v ∧
      (v ≤ 1 ↔ |sigma| ≤ 6.16 * s ^ o ∧ |tau| ≤ failureEnvelopeAdam sigma s o) ∧
      (|sigma| ≤ 6.16 * s ^ o → tau = failureEnvelopeAdam sigma s o → v = 1) := by
  refine ⟨_, C46_adam s o d false sigma tau, ?_⟩
  have e : Spec.strengthFactor s o = s ^ o := by
    unfold Spec.strengthFactor
    rw [if_neg (not_lt.2 h2), max_eq_left h1]
  have p := strengthFactor_pos s o
  rw [e] at p ⊢
  obtain ⟨q, r⟩ := ellipse_le (sigma := sigma) (tau := tau) (show 0 < 6.16 * s ^ o by positivity)
    (show 0 < 5.09 * s ^ o by positivity)
  have c : |sigma| ≤ 6.16 * s ^ o → failureEnvelopeAdam sigma s o
      = Real.sqrt (1 - sigma ^ 2 / (6.16 * s ^ o) ^ 2) * (5.09 * s ^ o) := by
    intro h
    unfold failureEnvelopeAdam
    exact if_pos (abs_le.1 h)
  constructor
  · rw [q]
    constructor
    · rintro ⟨a, b⟩; exact ⟨a, by rw [c a]; exact b⟩
    · rintro ⟨a, b⟩; exact ⟨a, by rw [c a] at b; exact b⟩
  · intro a b
    rw [c a] at b
    exact r (by rw [b]; positivity) a b

example : ∃ v, stressEnvelope ⟨"adam_unpublished", 0.8, 3, 250⟩ 1 2 = .ok v ∧
    (v ≤ 1 ↔ |(1 : ℝ)| ≤ 6.16 * 0.8 ^ (3 : ℝ) ∧ |(2 : ℝ)| ≤ failureEnvelopeAdam 1 0.8 3) :=
  (C46_curve_partial 3 250 (by norm_num) (by norm_num) 1 2).imp fun _ h => ⟨h.1, h.2.1⟩

/-- C46: for every positive density the plotted curve of depth hoar is the
boundary of its envelope. -/
theorem C46_curve_schottner {d : ℝ} (s o : ℝ) (hd : 0 < d) (sigma tau : ℝ) :
    ∃ v, stressEnvelope ⟨"schottner", s, o, d⟩ sigma tau = .ok v ∧
      (v ≤ 1 ↔ |sigma| ≤ 26000 * (d / 916.7) ^ o ∧ |tau| ≤ failureEnvelopeSchottner sigma o d) ∧
      (|sigma| ≤ 26000 * (d / 916.7) ^ o → tau = failureEnvelopeSchottner sigma o d → v = 1) := by
  refine ⟨_, C46_schottner s o d false sigma tau, ?_⟩
  have p : (0 : ℝ) < (d / 916.7) ^ o := by positivity
  obtain ⟨q, r⟩ := ellipse_le (sigma := sigma) (tau := tau)
    (show 0 < 26000 * (d / 916.7) ^ o by positivity)
    (show 0 < 5.09 / 6.16 * (26000 * (d / 916.7) ^ o) by positivity)
  have c : |sigma| ≤ 26000 * (d / 916.7) ^ o → failureEnvelopeSchottner sigma o d
      = Real.sqrt (1 - sigma ^ 2 / (26000 * (d / 916.7) ^ o) ^ 2)
        * (5.09 / 6.16 * (26000 * (d / 916.7) ^ o)) := by
    intro h
    have e : (5.09 : ℝ) * (2000 * 13 * (d / 916.7) ^ o / 6.16)
        = 5.09 / 6.16 * (26000 * (d / 916.7) ^ o) := by ring
    have e' : (2000 : ℝ) * 13 * (d / 916.7) ^ o = 26000 * (d / 916.7) ^ o := by ring
    unfold failureEnvelopeSchottner
    simp only [e]
    rw [e', if_pos (abs_le.1 h)]
  constructor
  · rw [q]
    constructor
    · rintro ⟨a, b⟩; exact ⟨a, by rw [c a]; exact b⟩
    · rintro ⟨a, b⟩; exact ⟨a, by rw [c a] at b; exact b⟩
  · intro a b
    rw [c a] at b
    exact r (by rw [b]; positivity) a b

example : ∃ v, stressEnvelope ⟨"schottner", 1, 4, 125⟩ 1 2 = .ok v ∧
    (v ≤ 1 ↔ |(1 : ℝ)| ≤ 26000 * (125 / 916.7) ^ (4 : ℝ) ∧ |(2 : ℝ)| ≤ failureEnvelopeSchottner 1 4 125) :=
  (C46_curve_schottner 1 4 (by norm_num) 1 2).imp fun _ h => ⟨h.1, h.2.1⟩

/-- C46 fails outside that range of scaling factors. At twice the reference
density a pure shear stress on the plotted curve is far outside the envelope
used by the criterion; at half the reference density one on the plotted curve
is inside. -/
theorem C46_curve_violated :
    (∃ v, stressEnvelope ⟨"adam_unpublished", 2, 1, 250⟩ 0 (failureEnvelopeAdam 0 2 1) = .ok v ∧ 1 < v) ∧
    ∃ v, stressEnvelope ⟨"adam_unpublished", 0.5, 1, 250⟩ 0 (failureEnvelopeAdam 0 0.5 1) = .ok v ∧
      v < 1 := by
  constructor
  · refine ⟨_, C46_adam 2 1 250 false 0 _, ?_⟩
    have e : failureEnvelopeAdam 0 2 1 = 5.09 * 2 := by
      unfold failureEnvelopeAdam; norm_num
    have f : Spec.strengthFactor 2 1 = 2 ^ (0.7 : ℝ) := by
      unfold Spec.strengthFactor; rw [if_pos (by norm_num)]
    rw [e, f]
    have p : (0 : ℝ) < 2 ^ (0.7 : ℝ) := by positivity
    have l : (2 : ℝ) ^ (0.7 : ℝ) < 2 := by
      have := Real.rpow_lt_rpow_of_exponent_lt (x := 2) (by norm_num) (show (0.7 : ℝ) < 1 by norm_num)
      simpa using this
    have : 1 < 5.09 * 2 / (5.09 * (2 : ℝ) ^ (0.7 : ℝ)) := by
      rw [lt_div_iff₀ (by positivity)]; linarith
    nlinarith
  · refine ⟨_, C46_adam 0.5 1 250 false 0 _, ?_⟩
    have e : failureEnvelopeAdam 0 0.5 1 = 5.09 * 0.5 := by
      unfold failureEnvelopeAdam
      rw [Real.rpow_one, if_pos (by norm_num)]
      norm_num
    have f : Spec.strengthFactor 0.5 1 = 0.55 := by
      unfold Spec.strengthFactor
      rw [if_neg (by norm_num), Real.rpow_one, max_eq_right (by norm_num)]
    rw [e, f]
    norm_num

/-- Mede's parameters are positive. -/
structure Mede.Pos (m : Mede) : Prop where
  p0 : 0 < m.p0
  tauT : 0 < m.tauT
  pT : 0 < m.pT

theorem mede_pos : medeRG1.Pos ∧ medeRG2.Pos ∧ medeFCDH.Pos := by
  refine ⟨⟨?_, ?_, ?_⟩, ⟨?_, ?_, ?_⟩, ⟨?_, ?_, ?_⟩⟩ <;>
    norm_num [medeRG1, medeRG2, medeFCDH]

/-- Shear strength below Mede's transition pressure. -/
noncomputable def Spec.medeLine (m : Mede) (sigma : ℝ) : ℝ := m.tauT * (1 - (m.pT - sigma) / m.p0)

theorem mede_low {m : Mede} (h : m.Pos) {sigma tau : ℝ} (h0 : m.pT - m.p0 ≤ sigma)
    (h1 : sigma ≤ m.pT) :
    (1 < medeEnvelope false m sigma tau ↔ tau < Spec.medeLine m sigma) ∧
      (medeEnvelope false m sigma tau = 1 ↔ tau = Spec.medeLine m sigma) := by
  obtain ⟨a, b, c⟩ := h
  have e : medeEnvelope false m sigma tau - 1
      = m.p0 / (m.tauT * m.pT) * (Spec.medeLine m sigma - tau) := by
    unfold medeEnvelope Spec.medeLine stored
    rw [if_pos ⟨h0, h1⟩]
    simp only [Bool.false_eq_true, if_false]
    field_simp
    ring
  have q : 0 < m.p0 / (m.tauT * m.pT) := by positivity
  constructor
  · rw [← sub_pos, e, mul_pos_iff_of_pos_left q, sub_pos]
  · rw [← sub_eq_zero, e, mul_eq_zero, sub_eq_zero]
    constructor
    · rintro (h | h)
      · exact absurd h q.ne'
      · exact h.symm
    · intro h; exact .inr h.symm

/-- The three samples and their names in `stress_envelope` and in
`failure_envelope_mede`. -/
def Spec.MedeSample (m : Mede) (env sample : String) : Prop :=
  (m = medeRG1 ∧ env = "mede_s-RG1" ∧ sample = "s-RG1") ∨
  (m = medeRG2 ∧ env = "mede_s-RG2" ∧ sample = "s-RG2") ∨
  (m = medeFCDH ∧ env = "mede_s-FCDH" ∧ sample = "s-FCDH")

theorem mede_envelope {m : Mede} {env sample : String} (h : Spec.MedeSample m env sample)
    (s o d sigma tau : ℝ) (isInt : Bool) :
    m.Pos ∧ stressEnvelope ⟨env, s, o, d⟩ sigma tau isInt = .ok (medeEnvelope isInt m |sigma| |tau|) := by
  rcases h with ⟨rfl, rfl, rfl⟩ | ⟨rfl, rfl, rfl⟩ | ⟨rfl, rfl, rfl⟩
  · exact ⟨mede_pos.1, by simp [stressEnvelope]⟩
  · exact ⟨mede_pos.2.1, by simp [stressEnvelope]⟩
  · exact ⟨mede_pos.2.2, by simp [stressEnvelope]⟩

theorem mede_curve_low {m : Mede} {env sample : String} (h : Spec.MedeSample m env sample)
    {sigma : ℝ} (h0 : m.pT - m.p0 ≤ sigma) (h1 : sigma ≤ m.pT) :
    failureEnvelopeMede false sample sigma = .ok (Spec.medeLine m sigma) := by
  have p : m.Pos := by
    rcases h with ⟨rfl, _⟩ | ⟨rfl, _⟩ | ⟨rfl, _⟩
    · exact mede_pos.1
    · exact mede_pos.2.1
    · exact mede_pos.2.2
  obtain ⟨a, b, c⟩ := p
  have e : m.tauT / m.p0 * sigma + (m.tauT - m.tauT * m.pT / m.p0) = Spec.medeLine m sigma := by
    unfold Spec.medeLine; field_simp; ring
  rcases h with ⟨rfl, rfl, rfl⟩ | ⟨rfl, rfl, rfl⟩ | ⟨rfl, rfl, rfl⟩ <;>
    simp only [failureEnvelopeMede, stored, if_true, if_false, h0, h1, and_self, e,
      Bool.false_eq_true, String.reduceEq]

/-- C46 for Mede's envelopes, low compression, as far as it goes: the value is
1 exactly on the failure curve. -/
theorem C46_mede_partial {m : Mede} {env sample : String} (h : Spec.MedeSample m env sample)
    (s o d : ℝ) {sigma tau : ℝ} (h1 : |sigma| ≤ m.pT) :
    ∃ v c, stressEnvelope ⟨env, s, o, d⟩ sigma tau = .ok v ∧
      failureEnvelopeMede false sample |sigma| = .ok c ∧ (v = 1 ↔ |tau| = c) := by
  obtain ⟨p, e⟩ := mede_envelope h s o d sigma tau false
  have h0 : m.pT - m.p0 ≤ |sigma| := by
    have : m.pT ≤ m.p0 := by
      rcases h with ⟨rfl, _⟩ | ⟨rfl, _⟩ | ⟨rfl, _⟩ <;> norm_num [medeRG1, medeRG2, medeFCDH]
    linarith [abs_nonneg sigma]
  exact ⟨_, _, e, mede_curve_low h h0 h1, (mede_low p h0 h1).2⟩

/-- C46 fails for Mede's envelopes. At low compression the verdict is
reversed: the value exceeds 1 exactly when the shear stress lies below the
failure curve, in particular in the unstressed state. -/
theorem C46_mede_violated {m : Mede} {env sample : String} (h : Spec.MedeSample m env sample)
    (s o d : ℝ) :
    (∀ sigma tau, |sigma| ≤ m.pT → ∃ v c, stressEnvelope ⟨env, s, o, d⟩ sigma tau = .ok v ∧
      failureEnvelopeMede false sample |sigma| = .ok c ∧ (1 < v ↔ |tau| < c)) ∧
    ∃ v, stressEnvelope ⟨env, s, o, d⟩ 0 0 = .ok v ∧ 1 < v := by
  have hp : m.pT < m.p0 := by
    rcases h with ⟨rfl, _⟩ | ⟨rfl, _⟩ | ⟨rfl, _⟩ <;> norm_num [medeRG1, medeRG2, medeFCDH]
  have one : ∀ sigma tau, |sigma| ≤ m.pT → ∃ v c, stressEnvelope ⟨env, s, o, d⟩ sigma tau = .ok v ∧
      failureEnvelopeMede false sample |sigma| = .ok c ∧ (1 < v ↔ |tau| < c) ∧ c = Spec.medeLine m |sigma| := by
    intro sigma tau h1
    obtain ⟨p, e⟩ := mede_envelope h s o d sigma tau false
    have h0 : m.pT - m.p0 ≤ |sigma| := by linarith [abs_nonneg sigma]
    exact ⟨_, _, e, mede_curve_low h h0 h1, (mede_low p h0 h1).1, rfl⟩
  refine ⟨fun sigma tau h1 => ?_, ?_⟩
  · obtain ⟨v, c, a, b, e, -⟩ := one sigma tau h1
    exact ⟨v, c, a, b, e⟩
  · obtain ⟨p, -⟩ := mede_envelope h s o d 0 0 false
    obtain ⟨v, c, a, -, e, f⟩ := one 0 0 (by simpa using p.pT.le)
    refine ⟨v, a, e.2 ?_⟩
    rw [f, abs_zero]
    unfold Spec.medeLine
    rw [sub_zero]
    have : m.pT / m.p0 < 1 := (div_lt_one p.p0).2 hp
    exact mul_pos p.tauT (by linarith)

example : Spec.MedeSample medeRG2 "mede_s-RG2" "s-RG2" := .inr (.inl ⟨rfl, rfl, rfl⟩)

/-- C46 fails for Mede's envelopes at high compression too: all along the
failure curve the value is the square of the shear strength instead of 1. -/
theorem C46_mede_high_violated {m : Mede} {env sample : String} (h : Spec.MedeSample m env sample)
    (s o d : ℝ) {sigma : ℝ} (h0 : m.pT < sigma) (h1 : sigma ≤ m.pT + m.p0) :
    ∃ c, failureEnvelopeMede false sample sigma = .ok c ∧
      stressEnvelope ⟨env, s, o, d⟩ sigma c = .ok (m.tauT ^ 2) ∧ m.tauT ^ 2 ≠ 1 := by
  obtain ⟨p, -⟩ := mede_envelope h s o d 0 0 false
  have hs : 0 < sigma := p.pT.trans h0
  have ht : m.tauT ^ 2 ≠ 1 := by
    rcases h with ⟨rfl, _⟩ | ⟨rfl, _⟩ | ⟨rfl, _⟩ <;> norm_num [medeRG1, medeRG2, medeFCDH]
  have hc : failureEnvelopeMede false sample sigma
      = .ok (Real.sqrt (m.tauT ^ 2 - m.tauT ^ 2 / m.p0 ^ 2 * (sigma - m.pT) ^ 2)) := by
    have n : ¬ (m.pT - m.p0 ≤ sigma ∧ sigma ≤ m.pT) := fun h => absurd h.2 (not_le.2 h0)
    rcases h with ⟨rfl, rfl, rfl⟩ | ⟨rfl, rfl, rfl⟩ | ⟨rfl, rfl, rfl⟩ <;>
      simp only [failureEnvelopeMede, stored, if_true, if_false, if_neg n, h0, h1, and_self,
        Bool.false_eq_true, String.reduceEq]
  refine ⟨_, hc, ?_, ht⟩
  rw [(mede_envelope h s o d sigma _ false).2, abs_of_pos hs, abs_of_nonneg (Real.sqrt_nonneg _)]
  congr 1
  unfold medeEnvelope stored
  rw [if_neg (fun h => absurd h.2 (not_le.2 h0)), if_pos h0, Real.sq_sqrt]
  · simp only [Bool.false_eq_true, if_false]; ring
  · have hp := p.p0
    have : (sigma - m.pT) ^ 2 ≤ m.p0 ^ 2 := by
      apply sq_le_sq'
      · linarith
      · linarith
    have : m.tauT ^ 2 / m.p0 ^ 2 * (sigma - m.pT) ^ 2 ≤ m.tauT ^ 2 / m.p0 ^ 2 * m.p0 ^ 2 := by gcongr
    rw [div_mul_cancel₀ _ (by positivity)] at this
    linarith

example : ∃ c, failureEnvelopeMede false "s-RG1" 2 = .ok c ∧
    stressEnvelope ⟨"mede_s-RG1", 1, 1, 250⟩ 2 c = .ok (medeRG1.tauT ^ 2) := by
  obtain ⟨c, a, b, -⟩ := C46_mede_high_violated (.inl ⟨rfl, rfl, rfl⟩) 1 1 250
    (sigma := 2) (m := medeRG1) (by norm_num [medeRG1]) (by norm_num [medeRG1])
  exact ⟨c, a, b⟩

/-! ## Fracture toughness -/

/-- C47: the criterion is nonnegative, vanishes exactly without energy
release, ignores signs, and reaches 1 at the two toughnesses. -/
theorem C47_basic (a b : ℝ) :
    0 ≤ fractureToughnessCriterion a b ∧ (fractureToughnessCriterion a b = 0 ↔ a = 0 ∧ b = 0) ∧
      fractureToughnessCriterion (-a) b = fractureToughnessCriterion a b ∧
      fractureToughnessCriterion a (-b) = fractureToughnessCriterion a b ∧
      fractureToughnessCriterion 0.56 0 = 1 ∧ fractureToughnessCriterion 0 0.79 = 1 := by
  have pa : 0 ≤ (|a| / 0.56) ^ (1 / 0.2 : ℝ) := by positivity
  have pb : 0 ≤ (|b| / 0.79) ^ (1 / 0.45 : ℝ) := by positivity
  refine ⟨add_nonneg pa pb, ⟨fun h => ?_, ?_⟩, ?_, ?_, ?_, ?_⟩
  · have h := (add_eq_zero_iff_of_nonneg pa pb).1 h
    have ha := (Real.rpow_eq_zero (by positivity) (by norm_num)).1 h.1
    have hb := (Real.rpow_eq_zero (by positivity) (by norm_num)).1 h.2
    exact ⟨abs_eq_zero.1 ((div_eq_zero_iff.1 ha).resolve_right (by norm_num)),
      abs_eq_zero.1 ((div_eq_zero_iff.1 hb).resolve_right (by norm_num))⟩
  · rintro ⟨rfl, rfl⟩
    unfold fractureToughnessCriterion
    rw [abs_zero, zero_div, zero_div, Real.zero_rpow (by norm_num), Real.zero_rpow (by norm_num), add_zero]
  · unfold fractureToughnessCriterion; rw [abs_neg]
  · unfold fractureToughnessCriterion; rw [abs_neg]
  · unfold fractureToughnessCriterion
    rw [abs_zero, zero_div, Real.zero_rpow (by norm_num), abs_of_pos (by norm_num),
      div_self (by norm_num), Real.one_rpow, add_zero]
  · unfold fractureToughnessCriterion
    rw [abs_zero, zero_div, Real.zero_rpow (by norm_num), abs_of_pos (by norm_num),
      div_self (by norm_num), Real.one_rpow, zero_add]

/-- C47: more energy release in either mode never lowers the criterion, and
more in a mode raises it. -/
theorem C47_mono {a b a' b' : ℝ} (ha : |a| ≤ |a'|) (hb : |b| ≤ |b'|) :
    fractureToughnessCriterion a b ≤ fractureToughnessCriterion a' b' ∧
      (|a| < |a'| ∨ |b| < |b'| →
        fractureToughnessCriterion a b < fractureToughnessCriterion a' b') := by
  unfold fractureToughnessCriterion
  have h1 : (|a| / 0.56) ^ (1 / 0.2 : ℝ) ≤ (|a'| / 0.56) ^ (1 / 0.2 : ℝ) := by gcongr
  have h2 : (|b| / 0.79) ^ (1 / 0.45 : ℝ) ≤ (|b'| / 0.79) ^ (1 / 0.45 : ℝ) := by gcongr
  refine ⟨add_le_add h1 h2, ?_⟩
  rintro (h | h)
  · apply add_lt_add_of_lt_of_le _ h2
    gcongr
  · apply add_lt_add_of_le_of_lt h1
    gcongr

example : fractureToughnessCriterion 0.1 0.2 < fractureToughnessCriterion 0.1 (-0.3) :=
  (C47_mono le_rfl (by norm_num [abs_of_neg, abs_of_pos])).2
    (.inr (by norm_num [abs_of_neg, abs_of_pos]))

/-- C47: beyond either toughness the criterion exceeds 1. -/
theorem C47_pure {a b : ℝ} (h : 0.56 < |a| ∨ 0.79 < |b|) : 1 < fractureToughnessCriterion a b := by
  rcases h with h | h
  · rw [← (C47_basic 0 0).2.2.2.2.1]
    apply (C47_mono _ _).2
    · left; rwa [abs_of_pos (by norm_num)]
    · rw [abs_of_pos (by norm_num)]; exact h.le
    · simp
  · rw [← (C47_basic 0 0).2.2.2.2.2]
    apply (C47_mono _ _).2
    · right; rwa [abs_of_pos (by norm_num)]
    · simp
    · rw [abs_of_pos (by norm_num)]; exact h.le

example : 1 < fractureToughnessCriterion 0.6 0 := C47_pure (.inl (by norm_num [abs_of_pos]))

theorem toughness_curve {G : ℝ} (h0 : 0 ≤ G) (h1 : G ≤ 0.56) :
    let y := 1 - (G / 0.56) ^ (5 : ℝ)
    0 ≤ y ∧ y ≤ 1 ∧ fractureToughnessCriterion G (fractureToughnessEnvelope false G)
      = 1 - y + y ^ (100 / 99 : ℝ) := by
  intro y
  have q : 0 ≤ G / 0.56 := by positivity
  have q1 : G / 0.56 ≤ 1 := (div_le_one (by norm_num)).2 h1
  have y0 : 0 ≤ y := by
    have := Real.rpow_le_one q q1 (show (0 : ℝ) ≤ 5 by norm_num)
    show 0 ≤ 1 - _
    linarith
  have y1 : y ≤ 1 := by
    have : 0 ≤ (G / 0.56) ^ (5 : ℝ) := by positivity
    show 1 - _ ≤ 1
    linarith
  refine ⟨y0, y1, ?_⟩
  have e : fractureToughnessEnvelope false G = 0.79 * y ^ (1 / 2.2 : ℝ) := by
    unfold fractureToughnessEnvelope stored
    rw [if_pos ⟨h0, h1⟩]
    simp only [Bool.false_eq_true, if_false]
    rfl
  unfold fractureToughnessCriterion
  rw [e, abs_of_nonneg h0, abs_of_nonneg (by positivity), mul_div_cancel_left₀ _ (by norm_num),
    ← Real.rpow_mul y0]
  have : (G / 0.56) ^ (1 / 0.2 : ℝ) = 1 - y := by
    show _ = 1 - (1 - (G / 0.56) ^ (5 : ℝ))
    norm_num
  rw [this]
  norm_num

/-- C47: the plotted toughness curve never leaves the safe side of the
criterion; it touches the boundary at its two ends. -/
theorem C47_curve_partial {G : ℝ} (h0 : 0 ≤ G) (h1 : G ≤ 0.56) :
    fractureToughnessCriterion G (fractureToughnessEnvelope false G) ≤ 1 ∧
      (fractureToughnessCriterion G (fractureToughnessEnvelope false G) = 1 ↔ G = 0 ∨ G = 0.56) := by
  obtain ⟨y0, y1, e⟩ := toughness_curve h0 h1
  rw [e]
  have lt : ∀ y : ℝ, 0 < y → y < 1 → y ^ (100 / 99 : ℝ) < y := by
    intro y a b
    have := Real.rpow_lt_rpow_of_exponent_gt a b (show (1 : ℝ) < 100 / 99 by norm_num)
    simpa using this
  have ez : (1 - (G / 0.56) ^ (5 : ℝ) = 0) ↔ G = 0.56 := by
    constructor
    · intro h
      have h : (G / 0.56) ^ (5 : ℝ) = 1 := by linarith
      by_contra hne
      have hlt : G / 0.56 < 1 := (div_lt_one (by norm_num)).2 (lt_of_le_of_ne h1 hne)
      exact absurd h (Real.rpow_lt_one (by positivity) hlt (by norm_num)).ne
    · rintro rfl; rw [div_self (by norm_num), Real.one_rpow, sub_self]
  have eo : (1 - (G / 0.56) ^ (5 : ℝ) = 1) ↔ G = 0 := by
    constructor
    · intro h
      have h : (G / 0.56) ^ (5 : ℝ) = 0 := by linarith
      have h := (Real.rpow_eq_zero (by positivity) (by norm_num)).1 h
      exact (div_eq_zero_iff.1 h).resolve_right (by norm_num)
    · rintro rfl; rw [zero_div, Real.zero_rpow (by norm_num), sub_zero]
  generalize 1 - (G / 0.56) ^ (5 : ℝ) = y at *
  rcases y0.eq_or_lt with rfl | p
  · rw [Real.zero_rpow (by norm_num)]
    refine ⟨by norm_num, ⟨fun _ => .inr (ez.1 rfl), fun _ => by norm_num⟩⟩
  rcases y1.eq_or_lt with rfl | q
  · rw [Real.one_rpow]
    refine ⟨by norm_num, ⟨fun _ => .inl (eo.1 rfl), fun _ => by norm_num⟩⟩
  have := lt y p q
  refine ⟨by linarith, ⟨fun h => by linarith, ?_⟩⟩
  rintro (h | h)
  · exact absurd (eo.2 h) q.ne
  · exact absurd (ez.2 h) p.ne'

/-- C47 fails between the ends: the plotted curve is not the boundary of the
criterion, because the two functions use different exponents. -/
theorem C47_curve_violated {G : ℝ} (h0 : 0 < G) (h1 : G < 0.56) :
    fractureToughnessCriterion G (fractureToughnessEnvelope false G) < 1 := by
  obtain ⟨a, b⟩ := C47_curve_partial h0.le h1.le
  refine lt_of_le_of_ne a fun h => ?_
  rcases b.1 h with h | h
  · exact h0.ne' h
  · exact h1.ne h

example : fractureToughnessCriterion 0.3 (fractureToughnessEnvelope false 0.3) < 1 :=
  C47_curve_violated (by norm_num) (by norm_num)

/-- C47 fails for integer arrays: the curve is zero everywhere, although the
toughness in pure mode II is 0.79. -/
theorem C47_integers_violated (n : ℤ) :
    fractureToughnessEnvelope true n = 0 ∧ fractureToughnessEnvelope false 0 = 0.79 := by
  constructor
  · unfold fractureToughnessEnvelope
    split_ifs with h
    · have : n = 0 := by
        have a : (0 : ℤ) ≤ n := by exact_mod_cast h.1
        have b : (n : ℝ) < 1 := lt_of_le_of_lt h.2 (by norm_num)
        have b : n < 1 := by exact_mod_cast b
        omega
      subst this
      rw [Int.cast_zero, zero_div, Real.zero_rpow (by norm_num), sub_zero, Real.one_rpow]
      norm_num [stored]
    · rfl
  · unfold fractureToughnessEnvelope stored
    rw [if_pos (by norm_num), zero_div, Real.zero_rpow (by norm_num), sub_zero, Real.one_rpow]
    norm_num

/-! ## Failure curves -/

namespace Spec

/-- A plotted failure curve: nonnegative, continuous, zero outside the
interval from `lo` to `hi`, with its greatest value `top` at `at_`. -/
structure Curve (f : ℝ → ℝ) (lo hi at_ top : ℝ) : Prop where
  nonneg : ∀ x, 0 ≤ f x
  cont : Continuous f
  outside : ∀ x, x ≤ lo ∨ hi ≤ x → f x = 0
  inside : ∀ x, lo < x → x < hi → 0 < f x
  peak : f at_ = top
  le_peak : ∀ x, f x ≤ top

end Spec

theorem half_ellipse {sc tc : ℝ} (hs : 0 < sc) (ht : 0 < tc) :
    Spec.Curve (fun x => if -sc ≤ x ∧ x ≤ sc then Real.sqrt (1 - x ^ 2 / sc ^ 2) * tc else 0)
      (-sc) sc 0 tc := by
  have e : (fun x => if -sc ≤ x ∧ x ≤ sc then Real.sqrt (1 - x ^ 2 / sc ^ 2) * tc else 0)
      = fun x => Real.sqrt (1 - x ^ 2 / sc ^ 2) * tc := by
    funext x
    split_ifs with h
    · rfl
    · have : sc ^ 2 < x ^ 2 := by
        rw [sq_lt_sq, abs_of_pos hs]
        by_contra hc
        exact h (abs_le.1 (not_lt.1 hc))
      rw [Real.sqrt_eq_zero_of_nonpos, zero_mul]
      have : 1 < x ^ 2 / sc ^ 2 := (one_lt_div (by positivity)).2 this
      linarith
  rw [e]
  refine ⟨fun x => by positivity, by fun_prop, fun x h => ?_, fun x h h' => ?_, by simp, fun x => ?_⟩
  · have : sc ^ 2 ≤ x ^ 2 := by
      rw [sq_le_sq, abs_of_pos hs, le_abs]
      rcases h with h | h
      · right; linarith
      · left; exact h
    have : 1 ≤ x ^ 2 / sc ^ 2 := (one_le_div (by positivity)).2 this
    rw [Real.sqrt_eq_zero_of_nonpos (by linarith), zero_mul]
  · have : x ^ 2 < sc ^ 2 := by
      rw [sq_lt_sq, abs_of_pos hs]; exact abs_lt.2 ⟨h, h'⟩
    have : x ^ 2 / sc ^ 2 < 1 := (div_lt_one (by positivity)).2 this
    have := Real.sqrt_pos.2 (show 0 < 1 - x ^ 2 / sc ^ 2 by linarith)
    positivity
  · have : Real.sqrt (1 - x ^ 2 / sc ^ 2) ≤ 1 := by
      rw [Real.sqrt_le_one]
      have : 0 ≤ x ^ 2 / sc ^ 2 := by positivity
      linarith
    nlinarith

/-- C48: the curve of the default envelope, and its symmetry in the sign of
the normal stress. -/
theorem C48_adam {s : ℝ} (o : ℝ) (hs : 0 < s) :
    Spec.Curve (fun x => failureEnvelopeAdam x s o) (-(6.16 * s ^ o)) (6.16 * s ^ o) 0 (5.09 * s ^ o) ∧
      ∀ x, failureEnvelopeAdam (-x) s o = failureEnvelopeAdam x s o := by
  refine ⟨half_ellipse (by positivity) (by positivity), fun x => ?_⟩
  unfold failureEnvelopeAdam
  rw [neg_sq]
  refine if_congr ?_ rfl rfl
  constructor <;> rintro ⟨a, b⟩ <;> constructor <;> linarith

example : Spec.Curve (fun x => failureEnvelopeAdam x 0.5 3) (-(6.16 * 0.5 ^ (3 : ℝ)))
    (6.16 * 0.5 ^ (3 : ℝ)) 0 (5.09 * 0.5 ^ (3 : ℝ)) := (C48_adam 3 (by norm_num)).1

/-- C48: the curve of depth hoar. -/
theorem C48_schottner {d : ℝ} (o : ℝ) (hd : 0 < d) :
    Spec.Curve (fun x => failureEnvelopeSchottner x o d) (-(26000 * (d / 916.7) ^ o))
        (26000 * (d / 916.7) ^ o) 0 (5.09 / 6.16 * (26000 * (d / 916.7) ^ o)) ∧
      ∀ x, failureEnvelopeSchottner (-x) o d = failureEnvelopeSchottner x o d := by
  have e : (5.09 : ℝ) * (26000 * (d / 916.7) ^ o / 6.16)
      = 5.09 / 6.16 * (26000 * (d / 916.7) ^ o) := by ring
  have e' : (2000 : ℝ) * 13 * (d / 916.7) ^ o = 26000 * (d / 916.7) ^ o := by ring
  constructor
  · have := half_ellipse (sc := 26000 * (d / 916.7) ^ o)
      (tc := 5.09 / 6.16 * (26000 * (d / 916.7) ^ o)) (by positivity) (by positivity)
    simpa only [failureEnvelopeSchottner, e', e] using this
  · intro x
    unfold failureEnvelopeSchottner
    rw [neg_sq]
    refine if_congr ?_ rfl rfl
    constructor <;> rintro ⟨a, b⟩ <;> constructor <;> linarith

example : Spec.Curve (fun x => failureEnvelopeSchottner x 4 125) (-(26000 * (125 / 916.7) ^ (4 : ℝ)))
    (26000 * (125 / 916.7) ^ (4 : ℝ)) 0 (5.09 / 6.16 * (26000 * (125 / 916.7) ^ (4 : ℝ))) :=
  (C48_schottner 4 (by norm_num)).1

/-- C48: Mede's curves for arrays of floats (missing: arrays of integers, where the
property fails, C48_integers_violated): a line up to the transition
pressure, a quarter of an ellipse beyond, joined without a jump. -/
theorem C48_mede_partial {m : Mede} {env sample : String} (h : Spec.MedeSample m env sample) :
    ∃ f : ℝ → ℝ, (∀ x, failureEnvelopeMede false sample x = .ok (f x)) ∧
      Spec.Curve f (m.pT - m.p0) (m.pT + m.p0) m.pT m.tauT := by
  obtain ⟨⟨hp0, htT, hpT⟩, -⟩ := mede_envelope h 1 1 1 0 0 false
  let f : ℝ → ℝ := fun x => if m.pT - m.p0 ≤ x ∧ x ≤ m.pT then
      m.tauT / m.p0 * x + (m.tauT - m.tauT * m.pT / m.p0)
    else if m.pT < x ∧ x ≤ m.pT + m.p0 then
      Real.sqrt (m.tauT ^ 2 - m.tauT ^ 2 / m.p0 ^ 2 * (x - m.pT) ^ 2)
    else 0
  have hf : ∀ x, failureEnvelopeMede false sample x = .ok (f x) := by
    intro x
    rcases h with ⟨rfl, rfl, rfl⟩ | ⟨rfl, rfl, rfl⟩ | ⟨rfl, rfl, rfl⟩ <;>
      simp only [failureEnvelopeMede, stored, if_true, if_false, Bool.false_eq_true,
        String.reduceEq, f]
  have k : ∀ x, m.tauT ^ 2 - m.tauT ^ 2 / m.p0 ^ 2 * (x - m.pT) ^ 2
      = m.tauT ^ 2 * (1 - ((x - m.pT) / m.p0) ^ 2) := by intro x; field_simp
  have l : ∀ x, m.tauT / m.p0 * x + (m.tauT - m.tauT * m.pT / m.p0)
      = m.tauT * ((x - (m.pT - m.p0)) / m.p0) := by intro x; field_simp; ring
  have hf' : f = fun x => if x ≤ m.pT then max 0 (m.tauT * ((x - (m.pT - m.p0)) / m.p0))
      else m.tauT * Real.sqrt (1 - ((x - m.pT) / m.p0) ^ 2) := by
    funext x
    simp only [f, k, l]
    have hr : Real.sqrt (m.tauT ^ 2 * (1 - ((x - m.pT) / m.p0) ^ 2))
        = m.tauT * Real.sqrt (1 - ((x - m.pT) / m.p0) ^ 2) := by
      rw [Real.sqrt_mul (by positivity), Real.sqrt_sq htT.le]
    by_cases h1 : x ≤ m.pT
    · rw [if_pos h1]
      by_cases h0 : m.pT - m.p0 ≤ x
      · rw [if_pos ⟨h0, h1⟩, max_eq_right]
        exact mul_nonneg htT.le (div_nonneg (by linarith) hp0.le)
      · rw [if_neg (fun h => h0 h.1), if_neg (fun h => absurd h.1 (not_lt.2 h1)), max_eq_left]
        exact mul_nonpos_of_nonneg_of_nonpos htT.le
          (div_nonpos_of_nonpos_of_nonneg (by linarith) hp0.le)
    · rw [if_neg h1, if_neg (fun h => h1 h.2), hr]
      by_cases h2 : x ≤ m.pT + m.p0
      · rw [if_pos ⟨not_le.1 h1, h2⟩]
      · rw [if_neg (fun h => h2 h.2), Real.sqrt_eq_zero_of_nonpos, mul_zero]
        have : 1 < (x - m.pT) / m.p0 := (one_lt_div hp0).2 (by linarith)
        nlinarith
  refine ⟨f, hf, ?_⟩
  rw [hf']
  constructor
  · intro x
    split_ifs
    · exact le_max_left _ _
    · positivity
  · refine Continuous.if_le ?_ ?_ continuous_id continuous_const ?_
    · fun_prop
    · fun_prop
    · intro x hx
      have hx : x = m.pT := hx
      rw [hx, sub_self, zero_div, show m.pT - (m.pT - m.p0) = m.p0 by ring, div_self hp0.ne', mul_one,
        max_eq_right htT.le]
      simp
  · rintro x (hx | hx)
    · rw [if_pos (by linarith), max_eq_left]
      exact mul_nonpos_of_nonneg_of_nonpos htT.le
          (div_nonpos_of_nonpos_of_nonneg (by linarith) hp0.le)
    · rw [if_neg (by linarith), Real.sqrt_eq_zero_of_nonpos, mul_zero]
      have : 1 ≤ (x - m.pT) / m.p0 := (one_le_div hp0).2 (by linarith)
      nlinarith
  · intro x h0 h1
    split_ifs with h
    · exact lt_max_of_lt_right (mul_pos htT (div_pos (by linarith) hp0))
    · refine mul_pos htT (Real.sqrt_pos.2 ?_)
      have a : (x - m.pT) / m.p0 < 1 := (div_lt_one hp0).2 (by linarith)
      have b : 0 ≤ (x - m.pT) / m.p0 := div_nonneg (by linarith) hp0.le
      nlinarith
  · rw [if_pos le_rfl, show m.pT - (m.pT - m.p0) = m.p0 by ring, div_self hp0.ne', mul_one,
      max_eq_right htT.le]
  · intro x
    split_ifs with h
    · apply max_le htT.le
      have : (x - (m.pT - m.p0)) / m.p0 ≤ 1 := (div_le_one hp0).2 (by linarith)
      nlinarith
    · have : Real.sqrt (1 - ((x - m.pT) / m.p0) ^ 2) ≤ 1 := by
        rw [Real.sqrt_le_one]
        have := sq_nonneg ((x - m.pT) / m.p0)
        linarith
      nlinarith

example : ∃ f : ℝ → ℝ, (∀ x, failureEnvelopeMede false "s-FCDH" x = .ok (f x)) ∧
    Spec.Curve f (medeFCDH.pT - medeFCDH.p0) (medeFCDH.pT + medeFCDH.p0) medeFCDH.pT medeFCDH.tauT :=
  C48_mede_partial (.inr (.inr ⟨rfl, rfl, rfl⟩))

/-- Friction line of the Chandel curve for faceted snow has positive slope. -/
theorem tan22_pos : 0 < Real.tan (22 * Real.pi / 180) :=
  Real.tan_pos_of_pos_of_lt_pi_div_two (by positivity) (by linarith [Real.pi_pos])

/-- C48: Chandel's curves for arrays of floats (missing: arrays of integers, and
continuity at zero, where both curves jump). On nonnegative normal stress
they are continuous and nonnegative; they vanish from the compressive strength
on and for negative stress, and their greatest values are the cohesion plus
friction at the threshold stress, and 4.1 kPa. -/
theorem C48_chandel_partial :
    (∃ f : ℝ → ℝ, (∀ x, failureEnvelopeChandel false "FCso" x = .ok (f x)) ∧
      (∀ x, 0 ≤ f x) ∧ ContinuousOn f (Set.Ici 0) ∧ (∀ x, x < 0 ∨ 7.5 ≤ x → f x = 0) ∧
      f 2.5 = 7.3 + 2.5 * Real.tan (22 * Real.pi / 180) ∧ ∀ x, f x ≤ f 2.5) ∧
    ∃ f : ℝ → ℝ, (∀ x, failureEnvelopeChandel false "FCsf" x = .ok (f x)) ∧
      (∀ x, 0 ≤ f x) ∧ ContinuousOn f (Set.Ici 0) ∧ (∀ x, x < 0 ∨ 6.05 ≤ x → f x = 0) ∧
      f 0 = 4.1 ∧ ∀ x, f x ≤ f 0 := by
  have tp := tan22_pos
  constructor
  · generalize ht : Real.tan (22 * Real.pi / 180) = T at tp
    let f : ℝ → ℝ := fun x => if x ≤ 2.5 ∧ 0 ≤ x then 7.3 + x * T
      else if 2.5 < x ∧ x ≤ 7.5 then
        (7.3 + 2.5 * T) * Real.sqrt (1 - ((x - 2.5) / (7.5 - 2.5)) ^ 2) else 0
    have hf : ∀ x, 0 ≤ x → f x = if x ≤ 2.5 then 7.3 + x * T
        else (7.3 + 2.5 * T) * Real.sqrt (1 - ((x - 2.5) / (7.5 - 2.5)) ^ 2) := by
      intro x hx
      simp only [f]
      by_cases h : x ≤ 2.5
      · rw [if_pos ⟨h, hx⟩, if_pos h]
      · rw [if_neg (fun h' => h h'.1), if_neg h]
        by_cases h' : x ≤ 7.5
        · rw [if_pos ⟨not_le.1 h, h'⟩]
        · rw [if_neg (fun q => h' q.2), Real.sqrt_eq_zero_of_nonpos, mul_zero]
          have : 1 < (x - 2.5) / (7.5 - 2.5) := by
            rw [one_lt_div (by norm_num)]; linarith
          nlinarith
    have pk : f 2.5 = 7.3 + 2.5 * T := by
      rw [hf _ (by norm_num), if_pos le_rfl]
    refine ⟨f, fun x => ?_, fun x => ?_, ?_, ?_, pk, fun x => ?_⟩
    · simp only [failureEnvelopeChandel, stored, if_true, if_false, Bool.false_eq_true, ht, f]
    · simp only [f]
      split_ifs with h
      · have := mul_nonneg h.2 tp.le
        linarith
      · positivity
      · exact le_rfl
    · refine ContinuousOn.congr (f := fun x => if x ≤ 2.5 then 7.3 + x * T
        else (7.3 + 2.5 * T) * Real.sqrt (1 - ((x - 2.5) / (7.5 - 2.5)) ^ 2)) ?_ fun x hx => hf x hx
      refine (Continuous.if_le ?_ ?_ continuous_id continuous_const ?_).continuousOn
      · fun_prop
      · fun_prop
      · rintro x rfl
        simp
    · rintro x (h | h)
      · simp only [f]
        rw [if_neg (fun q => absurd q.2 (not_le.2 h)), if_neg]
        rintro ⟨q, -⟩
        norm_num at *
        linarith
      · have h' : (2.5 : ℝ) < 7.5 := by norm_num
        rw [hf _ (by linarith), if_neg (by linarith), Real.sqrt_eq_zero_of_nonpos, mul_zero]
        have : 1 ≤ (x - 2.5) / (7.5 - 2.5) := by
          rw [one_le_div (by norm_num)]; linarith
        nlinarith
    · rw [pk]
      simp only [f]
      split_ifs with h
      · have := mul_le_mul_of_nonneg_right h.1 tp.le
        linarith
      · have : Real.sqrt (1 - ((x - 2.5) / (7.5 - 2.5)) ^ 2) ≤ 1 := by
          rw [Real.sqrt_le_one]
          have := sq_nonneg ((x - 2.5) / (7.5 - 2.5))
          linarith
        exact mul_le_of_le_one_right (by positivity) this
      · positivity
  · let f : ℝ → ℝ := fun x => if x ≤ 6.05 ∧ 0 ≤ x then 4.1 * Real.sqrt (1 - (x / 6.05) ^ 2) else 0
    have hf : ∀ x, 0 ≤ x → f x = 4.1 * Real.sqrt (1 - (x / 6.05) ^ 2) := by
      intro x hx
      simp only [f]
      by_cases h : x ≤ 6.05
      · rw [if_pos ⟨h, hx⟩]
      · rw [if_neg (fun q => h q.1), Real.sqrt_eq_zero_of_nonpos, mul_zero]
        have : 1 < x / 6.05 := by rw [one_lt_div (by norm_num)]; linarith
        nlinarith
    have pk : f 0 = 4.1 := by rw [hf 0 le_rfl]; simp
    refine ⟨f, fun x => ?_, fun x => ?_, ?_, ?_, pk, fun x => ?_⟩
    · simp only [failureEnvelopeChandel, stored, if_true, if_false, Bool.false_eq_true,
        String.reduceEq, f]
    · simp only [f]
      split_ifs
      · positivity
      · exact le_rfl
    · refine ContinuousOn.congr (f := fun x => 4.1 * Real.sqrt (1 - (x / 6.05) ^ 2)) ?_
        fun x hx => hf x hx
      exact Continuous.continuousOn (by fun_prop)
    · rintro x (h | h)
      · simp only [f]
        rw [if_neg (fun q => absurd q.2 (not_le.2 h))]
      · rw [hf _ (le_trans (by norm_num) h), Real.sqrt_eq_zero_of_nonpos, mul_zero]
        have : 1 ≤ x / 6.05 := by rw [one_le_div (by norm_num)]; linarith
        nlinarith
    · rw [pk]
      simp only [f]
      split_ifs with h
      · have : Real.sqrt (1 - (x / 6.05) ^ 2) ≤ 1 := by
          rw [Real.sqrt_le_one]
          have := sq_nonneg (x / 6.05)
          linarith
        nlinarith
      · norm_num

/-- C48 fails for Chandel's second curve in tension: it jumps from zero to 4.1 kPa where
compression begins. -/
theorem C48_jump_violated : ∃ f : ℝ → ℝ, (∀ x, failureEnvelopeChandel false "FCsf" x = .ok (f x)) ∧ ¬ ContinuousAt f 0 := by
  obtain ⟨-, f, hf, -, -, h0, h4, -⟩ := C48_chandel_partial
  refine ⟨f, hf, fun hc => ?_⟩
  have h1 : Filter.Tendsto f (nhdsWithin 0 (Set.Iio 0)) (nhds (f 0)) := hc.tendsto.mono_left nhdsWithin_le_nhds
  have h2 : Filter.Tendsto f (nhdsWithin 0 (Set.Iio 0)) (nhds 0) :=
    tendsto_const_nhds.congr' (Filter.eventually_of_mem self_mem_nhdsWithin fun x hx => (h0 x (.inl hx)).symm)
  have := tendsto_nhds_unique h1 h2
  rw [h4] at this
  norm_num at this

/-- Unknown sample names are refused. -/
theorem C48_unknown (isInt : Bool) (sample : String) (sigma : ℝ) :
    (sample ≠ "s-RG1" → sample ≠ "s-RG2" → sample ≠ "s-FCDH" →
      failureEnvelopeMede isInt sample sigma = .error .valueError) ∧
    (sample ≠ "FCso" → sample ≠ "FCsf" →
      failureEnvelopeChandel isInt sample sigma = .error .valueError) := by
  constructor
  · intro a b c
    simp only [failureEnvelopeMede, if_neg a, if_neg b, if_neg c]
  · intro a b
    simp only [failureEnvelopeChandel, if_neg a, if_neg b]

example : failureEnvelopeMede false "FCsf" 1 = .error .valueError :=
  (C48_unknown false "FCsf" 1).1 (by decide) (by decide) (by decide)

/-- C48 fails for integer arrays: the curve for the third Mede sample is zero
everywhere instead of the value returned for floats. -/
theorem C48_integers_violated :
    (∀ n : ℤ, failureEnvelopeMede true "s-FCDH" n = .ok 0) ∧
      ∃ c, failureEnvelopeMede false "s-FCDH" (1 : ℤ) = .ok c ∧ 0 < c := by
  have hs : Spec.MedeSample medeFCDH "mede_s-FCDH" "s-FCDH" := .inr (.inr ⟨rfl, rfl, rfl⟩)
  obtain ⟨f, hf, hc⟩ := C48_mede_partial hs
  constructor
  · intro n
    have e : failureEnvelopeMede true "s-FCDH" n = .ok (stored true (f n)) := by
      have h := hf n
      simp only [failureEnvelopeMede, stored, if_true, if_false, Bool.false_eq_true,
        String.reduceEq, Except.ok.injEq] at h ⊢
      rw [← h]
      split_ifs <;> simp_all
    have a := hc.nonneg n
    have b : f n < 1 := lt_of_le_of_lt (hc.le_peak n) (by norm_num [medeFCDH])
    rw [e, stored, if_pos rfl, if_pos a, Int.floor_eq_zero_iff.2 ⟨a, b⟩, Int.cast_zero]
  · exact ⟨_, hf _, hc.inside _ (by norm_num [medeFCDH]) (by norm_num [medeFCDH])⟩

end Weac
