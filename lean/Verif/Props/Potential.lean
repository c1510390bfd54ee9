import Verif.Model.Potential
import Verif.Lemmas.Quadrature
import Verif.Props.SolveDemo

/-!
# C45: potentials of propagation saw tests
-/

namespace Weac
open Spec

/-! ## Specification -/

/-- Work per length of weight (acting at depth `zs`) and surface load (acting
at `-h/2`) on the displacements of the slab. -/
noncomputable def Spec.loadWork (b : Beam) (l : Loads) (z : Vec6) : ℝ :=
  (l.qn + l.pn) * z 2 + l.qt * (z 0 + b.zs * z 4) + l.pt * (z 0 - b.h / 2 * z 4)

/-- Strain energy per length of the slab. -/
noncomputable def Spec.slabEnergy (b : Beam) (z : Vec6) : ℝ :=
  (b.A * z 1 ^ 2 + 2 * b.B * z 1 * z 5 + b.D * z 5 ^ 2 + b.S * (z 3 + z 4) ^ 2) / 2

/-- Energy per length stored in the weak layer. -/
noncomputable def Spec.weakEnergy (b : Beam) (z : Vec6) : ℝ :=
  (b.kn * z 2 ^ 2 + b.kt * (z 0 + b.h / 2 * z 4 - b.t / 2 * z 3) ^ 2) / 2

/-- Extra energy per length that appears if normal force and bending moment
are taken for uncoupled. -/
noncomputable def Spec.couplingExcess (b : Beam) (z : Vec6) : ℝ :=
  b.B / b.A * b.N z * (z 5 + b.B / b.A * b.N z / (2 * (b.D - b.B ^ 2 / b.A)))

/-- Extra energy per length that appears if the rotation of the weak layer is
left out of its shear deformation. -/
noncomputable def Spec.shearExcess (b : Beam) (z : Vec6) : ℝ :=
  b.kt * (b.t / 2 * z 3) * (z 0 + b.h / 2 * z 4 - b.t / 4 * z 3)

/-- State at the cut end of a propagation saw test. -/
noncomputable def Spec.cutEnd (s : Self) (phi : ℝ) (g0 g1 : Seg) : Vec6 :=
  if s.system = "pst-" then zsol s g1.l g1.C g1.l phi g1.k else zsol s 0 g0.C g0.l phi g0.k

/-- `system` is one of the two propagation saw tests of the potentials. -/
def Spec.SawTest (system : String) : Prop := system = "pst-" ∨ system = "-pst"

/-! ## Grid ends -/

theorem two_grid (s : Self) (phi : ℝ) {num : ℕ} (hn : 1 ≤ num) {g0 g1 : Seg} (h0 : 0 < g0.l) (h1 : 0 < g1.l) :
    ∃ pts, rasterize s phi num [g0, g1] = .ok pts ∧ pts ≠ [] ∧
      (∃ p rest, pts = p :: rest ∧ p.z = zsol s 0 g0.C g0.l phi g0.k) ∧
      (∃ p rest, pts = rest ++ [p] ∧ p.z = zsol s g1.l g1.C g1.l phi g1.k) := by
  have hp : ∀ g ∈ [g0, g1], 0 ≤ g.l := by simp [h0.le, h1.le]
  obtain ⟨pts, hr⟩ := (C28_runs s phi num hn [g0, g1]).mpr ⟨g0, by simp, h0.ne'⟩
  obtain ⟨e, ht⟩ := rasterize_pts s phi num _ hp pts hr
  have hf : ([g0, g1].filter fun g => 0 < g.l) = [g0, g1] := by
    simp [h0, h1]
  rw [hf] at e
  generalize ([g0, g1].map Seg.l).sum = tot at *
  have c0 := ceil_pos hn ht h0
  have c1 := ceil_pos hn ht h1
  have hm := step_mul hn ht h1
  simp only [rasterLoop, List.isEmpty_cons, List.isEmpty_nil, List.append_nil, segPts_eq] at e
  refine ⟨pts, hr, ?_, ?_, ?_⟩
  · rintro rfl
    have := congrArg List.length e
    simp [nqOf] at this
  · obtain ⟨m, hq⟩ : ∃ m, nqOf num tot g0.l false = m + 1 := ⟨nqOf num tot g0.l false - 1, by unfold nqOf; omega⟩
    rw [hq, List.range_succ_eq_map, List.map_cons, List.cons_append] at e
    exact ⟨_, _, e.symm, by simp⟩
  · have hq : nqOf num tot g1.l true = ⌈g1.l / tot * (num : ℝ)⌉₊ + 1 := by simp [nqOf]
    rw [hq, List.range_succ (n := ⌈g1.l / tot * (num : ℝ)⌉₊), List.map_append, ← List.append_assoc] at e
    refine ⟨_, _, e.symm, ?_⟩
    simp only [hm]

theorem endValue_grid {s : Self} (hs : SawTest s.system) {phi : ℝ} {g0 g1 : Seg} {pts : List GridPt}
    (ha : ∃ p rest, pts = p :: rest ∧ p.z = zsol s 0 g0.C g0.l phi g0.k)
    (hb : ∃ p rest, pts = rest ++ [p] ∧ p.z = zsol s g1.l g1.C g1.l phi g1.k) (f : Vec6 → ℝ) :
    endValue s.system (pts.map fun p => f p.z) = .ok (f (cutEnd s phi g0 g1)) := by
  unfold endValue cutEnd
  rcases hs with h | h
  · rw [if_pos h, if_pos h]
    obtain ⟨p, rest, e, hz⟩ := hb
    rw [e, ← hz]
    simp
  · rw [if_neg (by rw [h]; decide), if_pos h, if_neg (by rw [h]; decide)]
    obtain ⟨p, rest, e, hz⟩ := ha
    rw [e, ← hz]
    simp

theorem springShare_grid {s : Self} (hs : SawTest s.system) {phi : ℝ} {g0 g1 : Seg} {pts : List GridPt}
    (ha : ∃ p rest, pts = p :: rest ∧ p.z = zsol s 0 g0.C g0.l phi g0.k)
    (hb : ∃ p rest, pts = rest ++ [p] ∧ p.z = zsol s g1.l g1.C g1.l phi g1.k) :
    springShare s.system (pts.map fun p => fM s p.z) (pts.map fun p => fpsi p.z)
      = 1 / 2 * fM s (cutEnd s phi g0 g1) * fpsi (cutEnd s phi g0 g1) ^ 2 := by
  unfold springShare cutEnd
  rcases hs with h | h
  · rw [if_pos h, if_pos h]
    obtain ⟨p, rest, e, hz⟩ := hb
    rw [e, ← hz]
    simp
  · rw [if_neg (by rw [h]; decide), if_pos h, if_neg (by rw [h]; decide)]
    obtain ⟨p, rest, e, hz⟩ := ha
    rw [e, ← hz]
    simp

/-! ## C45 -/

theorem C45_total (s : Self) (phi L : ℝ) (num : ℕ) (segs : List Seg) (i e : ℝ)
    (hi : internalPotential s phi L num segs = .ok i) (he : externalPotential s phi L num segs = .ok e) :
    totalPotential s phi L num segs = .ok (i + e) := by
  unfold totalPotential
  rw [hi, he]
  rfl

theorem integral_pi_add {s : Self} {phi : ℝ} (gs : List Seg) {f g : Vec6 → ℝ} (hf : Continuous f) (hg : Continuous g) :
    beamIntegral s phi gs (fun z => f z + g z) = beamIntegral s phi gs f + beamIntegral s phi gs g := by
  unfold beamIntegral
  rw [← List.sum_map_add]
  congr 1
  refine List.map_congr_left fun q _ => ?_
  exact intervalIntegral.integral_add ((hf.comp (continuous_zsol s q.C q.l phi q.k)).intervalIntegrable _ _)
    ((hg.comp (continuous_zsol s q.C q.l phi q.k)).intervalIntegrable _ _)

theorem integral_pi_smul {s : Self} {phi : ℝ} (gs : List Seg) (c : ℝ) (f : Vec6 → ℝ) :
    beamIntegral s phi gs (fun z => c * f z) = c * beamIntegral s phi gs f := by
  unfold beamIntegral
  rw [← List.sum_map_mul_left]
  congr 1
  refine List.map_congr_left fun q _ => ?_
  exact intervalIntegral.integral_const_mul _ _

/-- `external_potential` of a propagation saw test with segments `g0`, `g1`
and total length `L` converges (with the number of grid points, at the rate
`1/num`) to minus the work of the loads on the two segments and on the rest of
the slab, which lies on the base at deflection `tc` and moves along with the
cut end. Missing for the full claim: the inclination of the loads is the
stored one, `s.phi`; the shear part of the surface load is taken at the centre
of gravity instead of the surface, which leaves the term with `pt`. -/
theorem C45_external_partial (s : Self) (hs : SawTest s.system) (phi L : ℝ) (g0 g1 : Seg) (h0 : 0 < g0.l) (h1 : 0 < g1.l) :
    ∃ c : ℝ, 0 ≤ c ∧ ∀ num : ℕ, 1 ≤ num → ∃ P, externalPotential s phi L num [g0, g1] = .ok P ∧
      |P - (-beamIntegral s phi [g0, g1] (loadWork s.beam (s.loads s.phi))
          - (L - (g0.l + g1.l)) * (((s.loads s.phi).qn + (s.loads s.phi).pn) * s.tc
            + ((s.loads s.phi).qt + (s.loads s.phi).pt) * (cutEnd s phi g0 g1 0 + s.zs * cutEnd s phi g0 g1 4))
          - (s.loads s.phi).pt * (s.zs + s.h / 2) * beamIntegral s phi [g0, g1] (fun z => z 4))| ≤ c / num := by
  have hp : ∀ g ∈ [g0, g1], 0 ≤ g.l := by simp [h0.le, h1.le]
  have hw : ContDiff ℝ 1 (fun z : Vec6 => fw z) := by unfold fw; fun_prop
  have hu : ContDiff ℝ 1 (fun z : Vec6 => fu z s.zs) := by unfold fu fpsi; fun_prop
  obtain ⟨a, ha, hA⟩ := grid_rate s phi [g0, g1] hp hw
  obtain ⟨b, hb, hB⟩ := grid_rate s phi [g0, g1] hp hu
  refine ⟨|calcQn s| * a + |calcQt s| * b, by positivity, ?_⟩
  intro num hn
  obtain ⟨pts, hr, -, hh, hl⟩ := two_grid s phi hn h0 h1
  have e1 := hA num hn pts hr
  have e2 := hB num hn pts hr
  have hend := endValue_grid hs hh hl (fun z => fu z s.zs)
  refine ⟨_, by
    unfold externalPotential
    rw [hr]
    simp only [lengthAt, List.getElem?_cons_zero, List.getElem?_cons_succ, bind, Except.bind]
    rw [hend]
    rfl, ?_⟩
  have hI : beamIntegral s phi [g0, g1] (loadWork s.beam (s.loads s.phi))
      = calcQn s * beamIntegral s phi [g0, g1] (fun z => fw z)
        + (calcQt s * beamIntegral s phi [g0, g1] (fun z => fu z s.zs)
          + -((s.loads s.phi).pt * (s.zs + s.h / 2)) * beamIntegral s phi [g0, g1] (fun z => z 4)) := by
    rw [← integral_pi_smul, ← integral_pi_smul, ← integral_pi_smul, ← integral_pi_add _ (by fun_prop) (by fun_prop),
      ← integral_pi_add _ (by unfold fw; fun_prop) (by unfold fu fpsi; fun_prop)]
    congr 1
    funext z
    simp only [loadWork, calcQn, calcQt, Self.loads, fw, fu, fpsi, Self.beam]
    ring
  rw [hI]
  have hq : (s.loads s.phi).qn + (s.loads s.phi).pn = calcQn s := rfl
  have hq' : (s.loads s.phi).qt + (s.loads s.phi).pt = calcQt s := rfl
  rw [hq, hq']
  have hsum : ([g0, g1].map Seg.l).sum = g0.l + g1.l := by simp
  rw [hsum] at e1 e2
  unfold average
  simp only [List.length_map] at *
  have hfu : fu (cutEnd s phi g0 g1) s.zs = cutEnd s phi g0 g1 0 + s.zs * cutEnd s phi g0 g1 4 := rfl
  rw [← hfu]
  generalize (pts.map fun p => fw p.z).sum = S1 at *
  generalize (pts.map fun p => fu p.z s.zs).sum = S2 at *
  generalize beamIntegral s phi [g0, g1] (fun z => fw z) = I1 at *
  generalize beamIntegral s phi [g0, g1] (fun z => fu z s.zs) = I2 at *
  generalize (pts.length : ℝ) = n at *
  generalize calcQn s = qn at *
  generalize calcQt s = qt at *
  have e3 : |(-qn) * ((g0.l + g1.l) * (S1 / n) - I1)| ≤ |qn| * (a / num) := by
    rw [abs_mul, abs_neg]; exact mul_le_mul_of_nonneg_left e1 (abs_nonneg _)
  have e4 : |(-qt) * ((g0.l + g1.l) * (S2 / n) - I2)| ≤ |qt| * (b / num) := by
    rw [abs_mul, abs_neg]; exact mul_le_mul_of_nonneg_left e2 (abs_nonneg _)
  have e5 := abs_add_le ((-qn) * ((g0.l + g1.l) * (S1 / n) - I1)) ((-qt) * ((g0.l + g1.l) * (S2 / n) - I2))
  have e6 : (|qn| * a + |qt| * b) / num = |qn| * (a / num) + |qt| * (b / num) := by ring
  rw [e6]
  refine le_trans (le_of_eq ?_) (e5.trans (add_le_add e3 e4))
  congr 1
  ring

/-- For systems other than the two propagation saw tests `external_potential`
and `total_potential` fail on an unassigned name rather than with a message. -/
theorem C45_other_systems (s : Self) (hs : ¬ SawTest s.system) (phi L : ℝ) (num : ℕ) (hn : 1 ≤ num) (g0 g1 : Seg) (gs : List Seg)
    (h : ∃ g ∈ g0 :: g1 :: gs, g.l ≠ 0) :
    externalPotential s phi L num (g0 :: g1 :: gs) = .error .unboundLocalError := by
  obtain ⟨pts, hr⟩ := (C28_runs s phi num hn _).mpr h
  unfold SawTest at hs
  push Not at hs
  unfold externalPotential
  rw [hr]
  simp only [lengthAt, bind, Except.bind, List.getElem?_cons_zero, List.getElem?_cons_succ, endValue, if_neg hs.1, if_neg hs.2]

theorem section_energy (b : Beam) (hA : b.A ≠ 0) (hD : b.D - b.B ^ 2 / b.A ≠ 0) (z : Vec6) :
    b.N z ^ 2 / (2 * b.A) + b.M z ^ 2 / (2 * (b.D - b.B ^ 2 / b.A)) + b.V z ^ 2 / (2 * b.S)
      = slabEnergy b z + couplingExcess b z := by
  unfold slabEnergy couplingExcess
  have hM : b.M z = b.B / b.A * b.N z + (b.D - b.B ^ 2 / b.A) * z 5 := by
    unfold Beam.M Beam.N; field_simp; ring
  have hN : b.A * z 1 = b.N z - b.B * z 5 := by unfold Beam.N; ring
  have hD' : b.D = (b.D - b.B ^ 2 / b.A) + b.B ^ 2 / b.A := by ring
  have hz : z 1 = (b.N z - b.B * z 5) / b.A := by rw [← hN]; field_simp
  rw [hM, hz]
  unfold Beam.V
  generalize b.N z = N at *
  rw [show b.A * ((N - b.B * z 5) / b.A) ^ 2 + 2 * b.B * ((N - b.B * z 5) / b.A) * z 5 + b.D * z 5 ^ 2
    = N ^ 2 / b.A + (b.D - b.B ^ 2 / b.A) * z 5 ^ 2 by field_simp; ring]
  generalize b.D - b.B ^ 2 / b.A = D at *
  field_simp
  ring

/-- `internal_potential` of a propagation saw test converges, at the rate
`1/num`, to the sum of the slab energy scaled by `L/(l0+l1)`, the energy of
the weak layer scaled by `L` over its length, the excess terms for the
coupling of tension and bending (zero for `B11 = 0`) and for the neglected
rotation of the weak layer, and `M psi²/2` at the cut end. -/
theorem C45_internal_partial (s : Self) (hs : SawTest s.system) (hA : s.A11 ≠ 0) (hD : s.D11 - s.B11 ^ 2 / s.A11 ≠ 0)
    (hS : s.kA55 ≠ 0) (phi L : ℝ) (g0 g1 : Seg) (h0 : 0 < g0.l) (h1 : 0 < g1.l)
    (hk : g0.k = true ∨ g1.k = true) :
    ∃ c : ℝ, 0 ≤ c ∧ ∀ num : ℕ, 1 ≤ num → ∃ P, internalPotential s phi L num [g0, g1] = .ok P ∧
      |P - (L / (g0.l + g1.l) * (beamIntegral s phi [g0, g1] (slabEnergy s.beam)
              + beamIntegral s phi [g0, g1] (couplingExcess s.beam))
          + L / (([g0, g1].filter fun g => g.k).map Seg.l).sum
            * (beamIntegral s phi ([g0, g1].filter fun g => g.k) (weakEnergy s.beam)
              + beamIntegral s phi ([g0, g1].filter fun g => g.k) (shearExcess s.beam))
          + s.beam.M (cutEnd s phi g0 g1) * cutEnd s phi g0 g1 4 ^ 2 / 2)| ≤ c / num := by
  have hp : ∀ g ∈ [g0, g1], 0 ≤ g.l := by simp [h0.le, h1.le]
  have hlw : 0 < (([g0, g1].filter fun g => g.k).map Seg.l).sum := by
    rcases e0 : g0.k <;> rcases e1 : g1.k <;> (simp_all; try linarith)
  have hc1 : ContDiff ℝ 1 (fun z : Vec6 => fN s z ^ 2) := by unfold fN; fun_prop
  have hc2 : ContDiff ℝ 1 (fun z : Vec6 => fM s z ^ 2) := by unfold fM; fun_prop
  have hc3 : ContDiff ℝ 1 (fun z : Vec6 => fV s z ^ 2) := by unfold fV; fun_prop
  have hc4 : ContDiff ℝ 1 (fun z : Vec6 => fw z ^ 2) := by unfold fw; fun_prop
  have hc5 : ContDiff ℝ 1 (fun z : Vec6 => fu z (s.h / 2) ^ 2) := by unfold fu fpsi; fun_prop
  obtain ⟨a1, p1, A1⟩ := grid_rate s phi [g0, g1] hp hc1
  obtain ⟨a2, p2, A2⟩ := grid_rate s phi [g0, g1] hp hc2
  obtain ⟨a3, p3, A3⟩ := grid_rate s phi [g0, g1] hp hc3
  obtain ⟨a4, p4, A4⟩ := grid_rate_weak s phi [g0, g1] hp hlw hc4
  obtain ⟨a5, p5, A5⟩ := grid_rate_weak s phi [g0, g1] hp hlw hc5
  have hsum : ([g0, g1].map Seg.l).sum = g0.l + g1.l := by simp
  rw [hsum] at A1 A2 A3
  have hl : 0 < g0.l + g1.l := by linarith
  have hIs : beamIntegral s phi [g0, g1] (slabEnergy s.beam) + beamIntegral s phi [g0, g1] (couplingExcess s.beam)
      = 1 / (2 * s.A11) * beamIntegral s phi [g0, g1] (fun z => fN s z ^ 2)
        + 1 / (2 * (s.D11 - s.B11 ^ 2 / s.A11)) * beamIntegral s phi [g0, g1] (fun z => fM s z ^ 2)
        + 1 / (2 * s.kA55) * beamIntegral s phi [g0, g1] (fun z => fV s z ^ 2) := by
    rw [← integral_pi_smul, ← integral_pi_smul, ← integral_pi_smul,
      ← integral_pi_add _ (hc1.continuous.const_mul _) (hc2.continuous.const_mul _),
      ← integral_pi_add _ (by unfold fN fM; fun_prop) (hc3.continuous.const_mul _),
      ← integral_pi_add _ (by unfold slabEnergy; fun_prop) (by unfold couplingExcess Beam.N; fun_prop)]
    congr 1
    funext z
    rw [← section_energy s.beam hA hD z]
    simp only [Self.beam, Beam.N, Beam.M, Beam.V, fN, fM, fV]
    ring
  have hIw : beamIntegral s phi ([g0, g1].filter fun g => g.k) (weakEnergy s.beam)
        + beamIntegral s phi ([g0, g1].filter fun g => g.k) (shearExcess s.beam)
      = s.kn / 2 * beamIntegral s phi ([g0, g1].filter fun g => g.k) (fun z => fw z ^ 2)
        + s.kt / 2 * beamIntegral s phi ([g0, g1].filter fun g => g.k) (fun z => fu z (s.h / 2) ^ 2) := by
    rw [← integral_pi_smul, ← integral_pi_smul,
      ← integral_pi_add _ (hc4.continuous.const_mul _) (hc5.continuous.const_mul _),
      ← integral_pi_add _ (by unfold weakEnergy; fun_prop) (by unfold shearExcess; fun_prop)]
    congr 1
    funext z
    simp only [weakEnergy, shearExcess, Self.beam, fw, fu, fpsi]
    ring
  rw [hIs, hIw]
  generalize hbw : (([g0, g1].filter fun g => g.k).map Seg.l).sum = lw at *
  refine ⟨|L / (g0.l + g1.l) / (2 * s.A11)| * a1 + |L / (g0.l + g1.l) / (2 * (s.D11 - s.B11 ^ 2 / s.A11))| * a2
    + |L / (g0.l + g1.l) / (2 * s.kA55)| * a3 + |L / lw * (s.kn / 2)| * a4 + |L / lw * (s.kt / 2)| * a5, by positivity, ?_⟩
  intro num hn
  obtain ⟨pts, hr, hne, hh, hla⟩ := two_grid s phi hn h0 h1
  have e1 := A1 num hn pts hr
  have e2 := A2 num hn pts hr
  have e3 := A3 num hn pts hr
  obtain ⟨hwp, e4⟩ := A4 num hn pts hr
  obtain ⟨-, e5⟩ := A5 num hn pts hr
  have hend := springShare_grid hs hh hla
  refine ⟨_, by
    unfold internalPotential
    rw [hr]
    simp only [bind, Except.bind]
    rw [if_neg hwp.ne', hend]
    rfl, ?_⟩
  have hn0 : (0 : ℝ) < pts.length := by exact_mod_cast List.length_pos_of_ne_nil hne
  have hw0 : (0 : ℝ) < (pts.filter fun p => p.sup).length := by exact_mod_cast hwp
  simp only [List.map_map, Function.comp_def]
  have hM : s.beam.M (cutEnd s phi g0 g1) * cutEnd s phi g0 g1 4 ^ 2 / 2
      = 1 / 2 * fM s (cutEnd s phi g0 g1) * fpsi (cutEnd s phi g0 g1) ^ 2 := by
    simp only [Beam.M, Self.beam, fM, fpsi]; ring
  rw [hM]
  generalize 1 / 2 * fM s (cutEnd s phi g0 g1) * fpsi (cutEnd s phi g0 g1) ^ 2 = sp at *
  generalize (pts.map fun p => fN s p.z ^ 2).sum = S1 at *
  generalize (pts.map fun p => fM s p.z ^ 2).sum = S2 at *
  generalize (pts.map fun p => fV s p.z ^ 2).sum = S3 at *
  generalize ((pts.filter fun p => p.sup).map fun p => fw p.z ^ 2).sum = S4 at *
  generalize ((pts.filter fun p => p.sup).map fun p => fu p.z (s.h / 2) ^ 2).sum = S5 at *
  generalize beamIntegral s phi [g0, g1] (fun z => fN s z ^ 2) = I1 at *
  generalize beamIntegral s phi [g0, g1] (fun z => fM s z ^ 2) = I2 at *
  generalize beamIntegral s phi [g0, g1] (fun z => fV s z ^ 2) = I3 at *
  generalize beamIntegral s phi ([g0, g1].filter fun g => g.k) (fun z => fw z ^ 2) = I4 at *
  generalize beamIntegral s phi ([g0, g1].filter fun g => g.k) (fun z => fu z (s.h / 2) ^ 2) = I5 at *
  generalize (pts.length : ℝ) = n at *
  generalize ((pts.filter fun p => p.sup).length : ℝ) = m at *
  generalize s.D11 - s.B11 ^ 2 / s.A11 = D at *
  generalize g0.l + g1.l = l at *
  have t : ∀ (k x y : ℝ), |x| ≤ y → |k * x| ≤ |k| * y := fun k x y h => by
    rw [abs_mul]; exact mul_le_mul_of_nonneg_left h (abs_nonneg _)
  have f1 := t (L / l / (2 * s.A11)) _ _ e1
  have f2 := t (L / l / (2 * D)) _ _ e2
  have f3 := t (L / l / (2 * s.kA55)) _ _ e3
  have f4 := t (L / lw * (s.kn / 2)) _ _ e4
  have f5 := t (L / lw * (s.kt / 2)) _ _ e5
  have key : (L / 2 / n / s.A11 * S1 + L / 2 / n / D * S2 + L / 2 / n / s.kA55 * S3 + L * s.kn / 2 / m * S4 + L * s.kt / 2 / m * S5 + sp)
      - (L / l * (1 / (2 * s.A11) * I1 + 1 / (2 * D) * I2 + 1 / (2 * s.kA55) * I3) + L / lw * (s.kn / 2 * I4 + s.kt / 2 * I5) + sp)
      = L / l / (2 * s.A11) * (l * (S1 / n) - I1) + L / l / (2 * D) * (l * (S2 / n) - I2)
        + L / l / (2 * s.kA55) * (l * (S3 / n) - I3) + L / lw * (s.kn / 2) * (lw * (S4 / m) - I4)
        + L / lw * (s.kt / 2) * (lw * (S5 / m) - I5) := by
    field_simp
    ring
  rw [key]
  have b1 := abs_add_le (L / l / (2 * s.A11) * (l * (S1 / n) - I1) + L / l / (2 * D) * (l * (S2 / n) - I2)
        + L / l / (2 * s.kA55) * (l * (S3 / n) - I3) + L / lw * (s.kn / 2) * (lw * (S4 / m) - I4))
        (L / lw * (s.kt / 2) * (lw * (S5 / m) - I5))
  have b2 := abs_add_le (L / l / (2 * s.A11) * (l * (S1 / n) - I1) + L / l / (2 * D) * (l * (S2 / n) - I2)
        + L / l / (2 * s.kA55) * (l * (S3 / n) - I3)) (L / lw * (s.kn / 2) * (lw * (S4 / m) - I4))
  have b3 := abs_add_le (L / l / (2 * s.A11) * (l * (S1 / n) - I1) + L / l / (2 * D) * (l * (S2 / n) - I2))
        (L / l / (2 * s.kA55) * (l * (S3 / n) - I3))
  have b4 := abs_add_le (L / l / (2 * s.A11) * (l * (S1 / n) - I1)) (L / l / (2 * D) * (l * (S2 / n) - I2))
  have e6 : (|L / l / (2 * s.A11)| * a1 + |L / l / (2 * D)| * a2 + |L / l / (2 * s.kA55)| * a3 + |L / lw * (s.kn / 2)| * a4
      + |L / lw * (s.kt / 2)| * a5) / num = |L / l / (2 * s.A11)| * (a1 / num) + |L / l / (2 * D)| * (a2 / num)
      + |L / l / (2 * s.kA55)| * (a3 / num) + |L / lw * (s.kn / 2)| * (a4 / num) + |L / lw * (s.kt / 2)| * (a5 / num) := by ring
  rw [e6]
  linarith


/-! ## Negative energy -/

/-- Polynomials of degree at most two. -/
def Quadratic (F : ℝ → ℝ) : Prop := ∃ a b c, ∀ x, F x = a + b * x + c * x ^ 2

theorem Quadratic.add {F G : ℝ → ℝ} (hF : Quadratic F) (hG : Quadratic G) : Quadratic fun x => F x + G x := by
  obtain ⟨a, b, c, h⟩ := hF
  obtain ⟨a', b', c', h'⟩ := hG
  exact ⟨a + a', b + b', c + c', fun x => by simp only [h, h']; ring⟩

theorem Quadratic.mul {F : ℝ → ℝ} (k : ℝ) (hF : Quadratic F) : Quadratic fun x => k * F x := by
  obtain ⟨a, b, c, h⟩ := hF
  exact ⟨k * a, k * b, k * c, fun x => by simp only [h]; ring⟩

theorem Quadratic.list {α : Type} (l : List α) (F : α → ℝ → ℝ) (h : ∀ p, Quadratic (F p)) :
    Quadratic fun x => (l.map fun p => F p x).sum := by
  induction l with
  | nil => exact ⟨0, 0, 0, fun x => by simp⟩
  | cons p l ih => simpa using (h p).add ih

theorem quadratic_sq (a b : ℝ) : Quadratic fun x => (a + x * b) ^ 2 := ⟨a ^ 2, 2 * a * b, b ^ 2, fun x => by ring⟩

/-- A cubic with negative leading coefficient is negative somewhere. -/
theorem cubic_neg {F : ℝ → ℝ} (hF : Quadratic F) {k : ℝ} (hk : 0 < k) : ∃ x, F x - k * x ^ 3 < 0 := by
  obtain ⟨a, b, c, h⟩ := hF
  refine ⟨(|a| + |b| + |c|) / k + 1, ?_⟩
  rw [h]
  set x := (|a| + |b| + |c|) / k + 1 with hx
  have h1 : 1 ≤ x := by
    have : 0 ≤ (|a| + |b| + |c|) / k := by positivity
    linarith
  have h2 : k * x = |a| + |b| + |c| + k := by rw [hx]; field_simp
  have h3 : x ≤ x ^ 2 := by nlinarith
  have h4 : 1 ≤ x ^ 2 := by nlinarith
  have e1 : k * x ^ 3 = (|a| + |b| + |c| + k) * x ^ 2 := by rw [← h2]; ring
  rw [e1]
  have := le_abs_self a
  have := le_abs_self b
  have := le_abs_self c
  have := abs_nonneg a
  have := abs_nonneg b
  have := abs_nonneg c
  nlinarith

/-- Grid point moving linearly with a parameter. -/
structure Moving where
  x : ℝ
  P : Vec6
  Q : Vec6
  sup : Bool

def Moving.at (m : Moving) (r : ℝ) : GridPt := ⟨m.x, m.P + r • m.Q, m.sup⟩

theorem segPts_moving (s : Self) (phi : ℝ) (num : ℕ) (tot x0 : ℝ) (prev : Option Bool) (C c : Vec6) (k : Bool) (l : ℝ)
    (last : Bool) : ∃ base : List Moving, ∀ r : ℝ,
      segPts s phi num tot x0 prev ⟨C + r • c, k, l⟩ last = base.map fun m => m.at r := by
  refine ⟨(List.range (nqOf num tot l last)).map fun j : ℕ =>
        { x := x0 + stepOf num tot l * (j : ℝ)
          P := zsol s (stepOf num tot l * (j : ℝ)) C l phi k
          Q := (zh s (stepOf num tot l * (j : ℝ)) l k).mulVec c
          sup := if j = 0 then headMask prev k else k }, fun r => ?_⟩
  rw [segPts_eq, List.map_map]
  refine List.map_congr_left fun j _ => ?_
  simp only [Moving.at, Function.comp, zsol, Matrix.mulVec_add, Matrix.mulVec_smul]
  congr 1
  abel

theorem two_moving (s : Self) (phi : ℝ) {num : ℕ} {l0 l1 : ℝ} (h0 : 0 < l0) (h1 : 0 < l1)
    (C0 C1 c : Vec6) (k0 k1 : Bool) : ∃ base : List Moving, ∀ r : ℝ,
      rasterize s phi num [⟨C0, k0, l0⟩, ⟨C1 + r • c, k1, l1⟩] = .ok (base.map fun m => m.at r) := by
  obtain ⟨b0, e0⟩ := segPts_moving s phi num (l0 + l1) 0 none C0 0 k0 l0 false
  obtain ⟨b1, e1⟩ := segPts_moving s phi num (l0 + l1) l0 (some k0) C1 c k1 l1 true
  refine ⟨b0 ++ b1, fun r => ?_⟩
  have a0 := e0 r
  have a1 := e1 r
  rw [smul_zero, add_zero] at a0
  unfold rasterize
  have hd : dropZero [⟨C0, k0, l0⟩, ⟨C1 + r • c, k1, l1⟩] = [⟨C0, k0, l0⟩, ⟨C1 + r • c, k1, l1⟩] := by
    rw [dropZero_self (by simp [h0.le, h1.le])]
    simp [h0, h1]
  rw [hd]
  simp only [rasterLoop, List.isEmpty_cons, List.isEmpty_nil, List.append_nil, List.map_cons, List.map_nil, List.sum_cons,
    List.sum_nil, add_zero, zero_add, List.map_append, a0, a1]

theorem moving_quadratic {f : Vec6 → ℝ} (hf : ∀ P Q : Vec6, ∀ r : ℝ, f (P + r • Q) = f P + r * f Q) (base : List Moving) :
    Quadratic fun r => (((base.map fun m => m.at r).map fun p => f p.z).map (· ^ 2)).sum := by
  simp only [List.map_map]
  refine Quadratic.list base (fun m r => f (m.at r).z ^ 2) fun m => ?_
  simp only [Moving.at, hf]
  exact quadratic_sq _ _

/-- The internal potential, which should be a sum of energies, takes negative
values: for every propagation saw test of type `pst-` there are constants for
which it is negative, since the share of the end spring is cubic. -/
theorem C45_internal_violated (s : Self) (hs : s.system = "pst-") (hD : 0 < s.D11) (phi L l0 l1 : ℝ)
    (h0 : 0 < l0) (h1 : 0 < l1) (num : ℕ) (hn : 1 ≤ num) :
    ∃ C0 C1 : Vec6, ∃ P, internalPotential s phi L num [⟨C0, true, l0⟩, ⟨C1, false, l1⟩] = .ok P ∧ P < 0 := by
  set c : Vec6 := ![0, 0, 1, 0, 0, 0] with hc
  obtain ⟨base, hbase⟩ := two_moving s phi (num := num) h0 h1 0 0 c true false
  have linN : ∀ P Q : Vec6, ∀ r : ℝ, fN s (P + r • Q) = fN s P + r * fN s Q := by
    intro P Q r; simp only [fN, Pi.add_apply, Pi.smul_apply, smul_eq_mul]; ring
  have linM : ∀ P Q : Vec6, ∀ r : ℝ, fM s (P + r • Q) = fM s P + r * fM s Q := by
    intro P Q r; simp only [fM, Pi.add_apply, Pi.smul_apply, smul_eq_mul]; ring
  have linV : ∀ P Q : Vec6, ∀ r : ℝ, fV s (P + r • Q) = fV s P + r * fV s Q := by
    intro P Q r; simp only [fV, Pi.add_apply, Pi.smul_apply, smul_eq_mul]; ring
  have linw : ∀ P Q : Vec6, ∀ r : ℝ, fw (P + r • Q) = fw P + r * fw Q := by
    intro P Q r; simp only [fw, Pi.add_apply, Pi.smul_apply, smul_eq_mul]
  have linu : ∀ P Q : Vec6, ∀ r : ℝ, fu (P + r • Q) (s.h / 2) = fu P (s.h / 2) + r * fu Q (s.h / 2) := by
    intro P Q r; simp only [fu, fpsi, Pi.add_apply, Pi.smul_apply, smul_eq_mul]; ring
  have linp : ∀ P Q : Vec6, ∀ r : ℝ, fpsi (P + r • Q) = fpsi P + r * fpsi Q := by
    intro P Q r; simp only [fpsi, Pi.add_apply, Pi.smul_apply, smul_eq_mul]
  have hfil : ∀ r : ℝ, ((base.map fun m => m.at r).filter fun p => p.sup) = (base.filter fun m => m.sup).map fun m => m.at r := by
    intro r
    rw [List.filter_map]
    rfl
  set n : ℝ := (base.length : ℝ) with hnn
  set nw : ℝ := ((base.filter fun m => m.sup).length : ℝ) with hnw
  set Pe : Vec6 := zsol s l1 0 l1 phi false with hPe
  set Qe : Vec6 := (zhFree s l1).mulVec c with hQe
  have hMq : fM s Qe = -2 * s.D11 := by
    simp [hQe, hc, zhFree, fM]; ring
  have hpq : fpsi Qe = -2 * l1 := by
    simp [hQe, hc, zhFree, fpsi]
  have hval : ∀ r : ℝ, (base.filter fun m => m.sup).length ≠ 0 ∧
      internalPotential s phi L num [⟨0, true, l0⟩, ⟨0 + r • c, false, l1⟩]
      = .ok (L / 2 / n / s.A11 * (((base.map fun m => m.at r).map fun p => fN s p.z).map (· ^ 2)).sum
        + L / 2 / n / (s.D11 - s.B11 ^ 2 / s.A11) * (((base.map fun m => m.at r).map fun p => fM s p.z).map (· ^ 2)).sum
        + L / 2 / n / s.kA55 * (((base.map fun m => m.at r).map fun p => fV s p.z).map (· ^ 2)).sum
        + L * s.kn / 2 / nw * ((((base.filter fun m => m.sup).map fun m => m.at r).map fun p => fw p.z).map (· ^ 2)).sum
        + L * s.kt / 2 / nw * ((((base.filter fun m => m.sup).map fun m => m.at r).map fun p => fu p.z (s.h / 2)).map (· ^ 2)).sum
        + 1 / 2 * (fM s Pe + r * fM s Qe) * (fpsi Pe + r * fpsi Qe) ^ 2) := by
    intro r
    obtain ⟨pts, hr, -, hh, hla⟩ := two_grid s phi hn (g0 := ⟨0, true, l0⟩) (g1 := ⟨0 + r • c, false, l1⟩) h0 h1
    have hb := hbase r
    rw [hr] at hb
    have hb' : pts = base.map fun m => m.at r := by injection hb
    have hend := springShare_grid (s := s) (Or.inl hs) hh hla
    obtain ⟨p0, rest, ep, -⟩ := hh
    have hp0 : 0 < (pts.filter fun p => p.sup).length := by
      have hw : 0 < ((([⟨0, true, l0⟩, ⟨0 + r • c, false, l1⟩] : List Seg).filter fun g => g.k).map Seg.l).sum := by
        simpa using h0
      obtain ⟨cc, -, hcc⟩ := grid_rate_weak s phi [⟨0, true, l0⟩, ⟨0 + r • c, false, l1⟩] (by simp [h0.le, h1.le]) hw
        (f := fun _ => 0) contDiff_const
      exact (hcc num hn pts hr).1
    have hlen : (base.filter fun m => m.sup).length = (pts.filter fun p => p.sup).length := by
      rw [hb', hfil, List.length_map]
    have hlen' : (base.length : ℕ) = pts.length := by rw [hb', List.length_map]
    refine ⟨by rw [hlen]; exact hp0.ne', ?_⟩
    unfold internalPotential
    rw [hr]
    simp only [bind, Except.bind]
    rw [if_neg hp0.ne', hend]
    have hce : cutEnd s phi ⟨0, true, l0⟩ ⟨0 + r • c, false, l1⟩ = Pe + r • Qe := by
      unfold cutEnd
      rw [if_pos hs]
      simp only [zsol, hPe, hQe, zh, Matrix.mulVec_add, Matrix.mulVec_smul, Matrix.mulVec_zero, Bool.false_eq_true, if_false]
      abel
    rw [hce, linM, linp, ← hlen, ← hlen', hb', hfil]
    rfl
  have hq : Quadratic fun r => L / 2 / n / s.A11 * (((base.map fun m => m.at r).map fun p => fN s p.z).map (· ^ 2)).sum
        + L / 2 / n / (s.D11 - s.B11 ^ 2 / s.A11) * (((base.map fun m => m.at r).map fun p => fM s p.z).map (· ^ 2)).sum
        + L / 2 / n / s.kA55 * (((base.map fun m => m.at r).map fun p => fV s p.z).map (· ^ 2)).sum
        + L * s.kn / 2 / nw * ((((base.filter fun m => m.sup).map fun m => m.at r).map fun p => fw p.z).map (· ^ 2)).sum
        + L * s.kt / 2 / nw * ((((base.filter fun m => m.sup).map fun m => m.at r).map fun p => fu p.z (s.h / 2)).map (· ^ 2)).sum
        + 1 / 2 * (fM s Pe + r * fM s Qe) * (fpsi Pe + r * fpsi Qe) ^ 2 + 4 * s.D11 * l1 ^ 2 * r ^ 3 := by
    have hcub : Quadratic fun r => 1 / 2 * (fM s Pe + r * fM s Qe) * (fpsi Pe + r * fpsi Qe) ^ 2 + 4 * s.D11 * l1 ^ 2 * r ^ 3 := by
      rw [hMq, hpq]
      exact ⟨1 / 2 * fM s Pe * fpsi Pe ^ 2, -s.D11 * fpsi Pe ^ 2 - 2 * l1 * fM s Pe * fpsi Pe,
        2 * l1 ^ 2 * fM s Pe + 4 * l1 * s.D11 * fpsi Pe, fun x => by ring⟩
    have := ((((((moving_quadratic linN base).mul (L / 2 / n / s.A11)).add
      ((moving_quadratic linM base).mul (L / 2 / n / (s.D11 - s.B11 ^ 2 / s.A11)))).add
      ((moving_quadratic linV base).mul (L / 2 / n / s.kA55))).add
      ((moving_quadratic linw (base.filter fun m => m.sup)).mul (L * s.kn / 2 / nw))).add
      ((moving_quadratic (f := fun z => fu z (s.h / 2)) linu (base.filter fun m => m.sup)).mul (L * s.kt / 2 / nw))).add hcub
    obtain ⟨a, b, d, h⟩ := this
    exact ⟨a, b, d, fun x => by rw [← h x]; ring⟩
  obtain ⟨r, hr⟩ := cubic_neg hq (show 0 < 4 * s.D11 * l1 ^ 2 by positivity)
  refine ⟨0, 0 + r • c, _, (hval r).2, ?_⟩
  linarith

/-- Without coupling of tension and bending the slab share has no excess. -/
theorem C45_homogeneous (b : Beam) (hB : b.B = 0) (z : Vec6) : couplingExcess b z = 0 := by
  simp [couplingExcess, hB]

/-- The hypotheses hold for the demo slab, cut over 300 of 1000 mm. -/
example (C0 C1 : Vec6) : ∃ c : ℝ, 0 ≤ c ∧ ∀ num : ℕ, 1 ≤ num → ∃ P,
    internalPotential (demo stdEig "pst-" false) 20 1000 num [⟨C0, true, 700⟩, ⟨C1, false, 300⟩] = .ok P := by
  obtain ⟨-, -, h3, h4, h5, h6, -, -, -, -, -, -, -, h14, -⟩ := demo_fields stdEig "pst-" false
  obtain ⟨c, hc, h⟩ := C45_internal_partial (demo stdEig "pst-" false) (Or.inl h14) (by rw [h3]; norm_num)
    (by rw [h3, h4, h5]; norm_num) (by rw [h6]; norm_num) 20 1000 ⟨C0, true, 700⟩ ⟨C1, false, 300⟩ (by norm_num) (by norm_num)
    (Or.inl rfl)
  exact ⟨c, hc, fun num hn => (h num hn).imp fun P hP => hP.1⟩

example (C0 C1 : Vec6) : ∃ c : ℝ, 0 ≤ c ∧ ∀ num : ℕ, 1 ≤ num → ∃ P,
    externalPotential (demo stdEig "-pst" false) 20 1000 num [⟨C0, false, 300⟩, ⟨C1, true, 700⟩] = .ok P := by
  obtain ⟨-, -, -, -, -, -, -, -, -, -, -, -, -, h14, -⟩ := demo_fields stdEig "-pst" false
  obtain ⟨c, hc, h⟩ := C45_external_partial (demo stdEig "-pst" false) (Or.inr h14) 20 1000 ⟨C0, false, 300⟩ ⟨C1, true, 700⟩
    (by norm_num) (by norm_num)
  exact ⟨c, hc, fun num hn => (h num hn).imp fun P hP => hP.1⟩

example : ∃ C0 C1 : Vec6, ∃ P, internalPotential (demo stdEig "pst-" false) 0 1000 250
    [⟨C0, true, 700⟩, ⟨C1, false, 300⟩] = .ok P ∧ P < 0 := by
  obtain ⟨-, -, -, -, h5, -, -, -, -, -, -, -, -, h14, -⟩ := demo_fields stdEig "pst-" false
  exact C45_internal_violated _ h14 (by rw [h5]; norm_num) 0 1000 700 300 (by norm_num) (by norm_num) 250 (by norm_num)

example (C0 C1 : Vec6) : externalPotential (demo stdEig "skier" false) 0 1000 250 [⟨C0, true, 500⟩, ⟨C1, true, 500⟩]
    = .error .unboundLocalError := by
  obtain ⟨-, -, -, -, -, -, -, -, -, -, -, -, -, h14, -⟩ := demo_fields stdEig "skier" false
  exact C45_other_systems _ (by rw [h14]; unfold SawTest; decide) 0 1000 250 (by norm_num) _ _ []
    ⟨⟨C0, true, 500⟩, by simp, by norm_num⟩

end Weac
