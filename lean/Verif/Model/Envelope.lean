import Mathlib.Analysis.SpecialFunctions.Pow.Real
import Mathlib.Analysis.SpecialFunctions.Trigonometric.Basic
import Verif.Py

/-!
# Model of the envelopes in `examples/criterion_check.py`

All functions act element by element on arrays; the model takes one element.
`**` with positive base is `Real.rpow`. Result arrays created by
`np.zeros_like(sigma)` have the type of `sigma`, so for an integer array the
values stored into them are truncated towards zero: `isInt` says whether
`sigma` is an integer array.
-/

namespace Weac

/-- Value as it is kept in an array of integer or floating-point type. -/
noncomputable def stored (isInt : Bool) (x : ℝ) : ℝ :=
  if isInt then (if 0 ≤ x then (⌊x⌋ : ℝ) else (⌈x⌉ : ℝ)) else x

/-- Optional arguments of `stress_envelope`. -/
structure Env where
  envelope : String := "adam_unpublished"
  scaling : ℝ := 1
  order : ℝ := 1
  density : ℝ := 250

/-- Parameters `p0, tau_T, p_T`. -/
structure Mede where
  p0 : ℝ
  tauT : ℝ
  pT : ℝ

noncomputable def medeRG1 : Mede := ⟨7, 3.53, 1.49⟩
noncomputable def medeRG2 : Mede := ⟨2.33, 1.22, 0.19⟩
noncomputable def medeFCDH : Mede := ⟨1.45, 0.61, 0.17⟩

/-- The three identical branches for Mede's envelopes,
`examples/criterion_check.py` 1056-1127. -/
noncomputable def medeEnvelope (isInt : Bool) (m : Mede) (sigma tau : ℝ) : ℝ :=
  if m.pT - m.p0 ≤ sigma ∧ sigma ≤ m.pT then
    stored isInt (-tau * (m.p0 / (m.tauT * m.pT)) + sigma * (1 / m.pT) + m.p0 / m.pT)
  else if m.pT < sigma then stored isInt (tau ^ 2 + (m.tauT / m.p0) ^ 2 * (sigma - m.pT) ^ 2)
  else 0

/-- `stress_envelope`, `examples/criterion_check.py` 1024-1130. -/
noncomputable def stressEnvelope (e : Env) (sigma tau : ℝ) (isInt : Bool := false) : Res ℝ :=
  let sigma := |sigma|
  let tau := |tau|
  if e.envelope = "adam_unpublished" then
    let order := if 1 < e.scaling then 0.7 else e.order
    let scaling := if e.scaling < 0.55 then 0.55 else e.scaling
    let sigmaC := 6.16 * scaling ^ order
    let tauC := 5.09 * scaling ^ order
    .ok ((sigma / sigmaC) ^ 2 + (tau / tauC) ^ 2)
  else if e.envelope = "schottner" then
    let sigmaC := 2000 * 13 * (e.density / 916.7) ^ e.order
    let tauC := 5.09 * (sigmaC / 6.16)
    .ok ((sigma / sigmaC) ^ 2 + (tau / tauC) ^ 2)
  else if e.envelope = "mede_s-RG1" then .ok (medeEnvelope isInt medeRG1 sigma tau)
  else if e.envelope = "mede_s-RG2" then .ok (medeEnvelope isInt medeRG2 sigma tau)
  else if e.envelope = "mede_s-FCDH" then .ok (medeEnvelope isInt medeFCDH sigma tau)
  else .error .valueError

/-- `failure_envelope_mede`, `examples/criterion_check.py` 2122-2154. -/
noncomputable def failureEnvelopeMede (isInt : Bool) (sample : String) (sigma : ℝ) : Res ℝ :=
  let curve := fun m : Mede =>
    if m.pT - m.p0 ≤ sigma ∧ sigma ≤ m.pT then
      stored isInt (m.tauT / m.p0 * sigma + (m.tauT - m.tauT * m.pT / m.p0))
    else if m.pT < sigma ∧ sigma ≤ m.pT + m.p0 then
      stored isInt (Real.sqrt (m.tauT ^ 2 - m.tauT ^ 2 / m.p0 ^ 2 * (sigma - m.pT) ^ 2))
    else 0
  if sample = "s-RG1" then .ok (curve medeRG1)
  else if sample = "s-RG2" then .ok (curve medeRG2)
  else if sample = "s-FCDH" then .ok (curve medeFCDH)
  else .error .valueError

/-- `failure_envelope_adam_unpublished`, `examples/criterion_check.py`
2179-2191. -/
noncomputable def failureEnvelopeAdam (x scaling order : ℝ) : ℝ :=
  let sigmaC := 6.16 * scaling ^ order
  let tauC := 5.09 * scaling ^ order
  if -sigmaC ≤ x ∧ x ≤ sigmaC then Real.sqrt (1 - x ^ 2 / sigmaC ^ 2) * tauC else 0

/-- `failure_envelope_schottner`, `examples/criterion_check.py` 2222-2238. -/
noncomputable def failureEnvelopeSchottner (x order density : ℝ) : ℝ :=
  let sigmaC := 2000 * 13 * (density / 916.7) ^ order
  let tauC := 5.09 * (sigmaC / 6.16)
  if -sigmaC ≤ x ∧ x ≤ sigmaC then Real.sqrt (1 - x ^ 2 / sigmaC ^ 2) * tauC else 0

/-- `failure_envelope_chandel`, `examples/criterion_check.py` 2273-2304. -/
noncomputable def failureEnvelopeChandel (isInt : Bool) (sample : String) (sigma : ℝ) : Res ℝ :=
  let tan22 := Real.tan (22 * Real.pi / 180)
  if sample = "FCso" then
    .ok (if sigma ≤ 2.5 ∧ 0 ≤ sigma then stored isInt (7.3 + sigma * tan22)
      else if 2.5 < sigma ∧ sigma ≤ 7.5 then
        stored isInt ((7.3 + 2.5 * tan22) * Real.sqrt (1 - ((sigma - 2.5) / (7.5 - 2.5)) ^ 2))
      else 0)
  else if sample = "FCsf" then
    .ok (if sigma ≤ 6.05 ∧ 0 ≤ sigma then stored isInt (4.1 * Real.sqrt (1 - (sigma / 6.05) ^ 2)) else 0)
  else .error .valueError

/-- `fracture_toughness_envelope`, `examples/criterion_check.py` 2324-2344. -/
noncomputable def fractureToughnessEnvelope (isInt : Bool) (G : ℝ) : ℝ :=
  if 0 ≤ G ∧ G ≤ 0.56 then stored isInt (0.79 * (1 - (G / 0.56) ^ (5 : ℝ)) ^ (1 / 2.2 : ℝ)) else 0

/-- `fracture_toughness_criterion`, `examples/criterion_check.py` 2485-2494. -/
noncomputable def fractureToughnessCriterion (Gs Gt : ℝ) : ℝ :=
  (|Gs| / 0.56) ^ (1 / 0.2 : ℝ) + (|Gt| / 0.79) ^ (1 / 0.45 : ℝ)

end Weac
