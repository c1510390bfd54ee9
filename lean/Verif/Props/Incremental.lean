import Verif.Lemmas.ChainBound
import Verif.Props.EnergyRelease

/-!
# C31, C32: incremental energy release rate, weak-layer stresses and strains
-/

namespace Weac

/-! ## Specification -/

/-- Crack advances under a segment supported before and unsupported after. -/
def Spec.CrackAdvance (g : IncSeg) : Prop := g.k0 = true ∧ g.ki = false

/-- Contract of the quadrature: error at most `e` for continuous integrands. -/
def Spec.QuadOk (quad : Quad) (e : ℝ) : Prop :=
  ∀ (f : ℝ → ℝ) (a b : ℝ), Continuous f → |quad f a b - ∫ x in a..b, f x| ≤ e

/-- Work of the weak-layer normal stress before cracking on the opening after
cracking: normal reaction `kn w` times deflection. -/
noncomputable def Spec.normalWork (s : Self) (phi : ℝ) (g : IncSeg) : ℝ :=
  ∫ x in (0 : ℝ)..g.l, s.kn * zsol s x g.C0 g.l phi true 2 * zsol s x g.C1 g.l phi false 2

/-- Work of the weak-layer shear stress before cracking on the slip after
cracking. -/
noncomputable def Spec.shearWork (s : Self) (phi : ℝ) (g : IncSeg) : ℝ :=
  ∫ x in (0 : ℝ)..g.l, s.beam.tau (zsol s x g.C0 g.l phi true) * s.beam.slip (zsol s x g.C1 g.l phi false)

open Spec

/-! ## Continuity of the solution -/

theorem continuous_zsol (s : Self) (C : Vec6) (l phi : ℝ) (bed : Bool) : Continuous fun x => zsol s x C l phi bed := by
  unfold zsol
  rcases bed with _ | _
  · refine Continuous.add ?_ ?_
    · have : (fun x => (zh s x l false).mulVec C) = fun x => (zhFree s x).mulVec C := by funext x; simp [zh]
      rw [this]
      exact continuous_iff_continuousAt.mpr fun x => (hasDerivAt_zhFree s C x).continuousAt
    · exact continuous_iff_continuousAt.mpr fun x => (hasDerivAt_zpFree s x phi).continuousAt
  · refine Continuous.add ?_ ?_
    · simp only [zh_true_mulVec, zhBed_getD]
      refine continuous_finsetSum _ fun j _ => Continuous.fun_const_smul ?_ _
      by_cases hj : (j : ℕ) < (bedGens s.eigs l).length
      · rw [List.getD_eq_getElem _ _ hj]
        have hm := List.getElem_mem hj
        generalize (bedGens s.eigs l)[(j : ℕ)] = f at hm
        simp only [bedGens, List.mem_append, List.mem_map] at hm
        rcases hm with (⟨m, -, rfl⟩ | ⟨m, -, rfl⟩) | ⟨m, -, rfl⟩
        all_goals
          refine continuous_pi fun i => ?_
          fun_prop
      · rw [List.getD_eq_default _ _ (by omega)]
        exact continuous_const
    · have : (fun x => zp s x phi true) = fun _ => zp s 0 phi true := by funext x; simp [zp]
      rw [this]
      exact continuous_const

/-! ## C32 -/

/-- Normal stress and strain are conjugate: `sig = kn t eps`, and the mode I
rate is half the product of stress, strain and thickness. -/
theorem C32_normal (s : Self) (ht : s.t ≠ 0) (hk : s.kn ≠ 0) (Z : Vec6) :
    fsig s Z = s.kn * s.t * feps s Z ∧ fGi s Z = fsig s Z * feps s Z * s.t / 2 := by
  constructor
  · simp only [fsig, feps, fw]; field_simp
  · simp only [fGi, fsig, feps, fw]; field_simp

/-- The shear stress is the shear stiffness times the slip, the shear strain
is minus the slip over the thickness, so they are conjugate up to the sign
only; mode II is minus half the product. -/
theorem C32_shear_partial (s : Self) (ht : s.t ≠ 0) (hk : s.kt ≠ 0) (Z : Vec6) :
    ftau s Z = s.kt * s.beam.slip Z ∧ fgamma s Z = -(s.beam.slip Z / s.t) ∧
    ftau s Z = -(s.kt * s.t * fgamma s Z) ∧ fGii s Z = -(ftau s Z * fgamma s Z * s.t / 2) := by
  have e1 : ftau s Z = s.kt * s.beam.slip Z := by
    simp only [ftau, fdw, fu, fpsi, Beam.slip, Self.beam]; ring
  have e2 : fgamma s Z = -(s.beam.slip Z / s.t) := by
    simp only [fgamma, fdw, fu, fpsi, Beam.slip, Self.beam]; field_simp; ring
  refine ⟨e1, e2, ?_, ?_⟩
  · rw [e1, e2]; field_simp
  · rw [fGii, e1, e2]; field_simp

/-- `tau = kt t gamma` fails for every state with nonzero shear stress. -/
theorem C32_shear_violated (s : Self) (ht : s.t ≠ 0) (hk : s.kt ≠ 0) (Z : Vec6) (hZ : ftau s Z ≠ 0) :
    ftau s Z ≠ s.kt * s.t * fgamma s Z := by
  intro h
  have h2 := (C32_shear_partial s ht hk Z).2.2.1
  apply hZ
  linarith

example (eig : EigSolver) : ftau (demo eig "pst-" false) (fun i => if i = 0 then 1 else 0) ≠ 0 := by
  obtain ⟨-, hkt, -⟩ := demo_fields eig "pst-" false
  simp only [ftau, fdw, fu, fpsi, hkt, Fin.reduceEq, if_false, if_true]
  norm_num

/-- Unit arguments: outputs are the documented multiples of the base unit. -/
theorem C32_units (s : Self) (Z : Vec6) (z0 : ℝ) :
    fwU Z "mm" = .ok (fw Z) ∧ fwU Z "cm" = .ok (fw Z / 10) ∧ fwU Z "m" = .ok (fw Z / 1000) ∧
    fwU Z "um" = .ok (fw Z * 1000) ∧
    fuU Z z0 "mm" = .ok (fu Z z0) ∧ fuU Z z0 "cm" = .ok (fu Z z0 / 10) ∧ fuU Z z0 "m" = .ok (fu Z z0 / 1000) ∧
    fuU Z z0 "um" = .ok (fu Z z0 * 1000) ∧
    fsigU s Z "MPa" = .ok (fsig s Z) ∧ fsigU s Z "kPa" = .ok (1000 * fsig s Z) ∧
    ftauU s Z "MPa" = .ok (ftau s Z) ∧ ftauU s Z "kPa" = .ok (1000 * ftau s Z) ∧
    fGiU s Z "kJ/m^2" = .ok (fGi s Z) ∧ fGiU s Z "N/mm" = .ok (fGi s Z) ∧ fGiU s Z "J/m^2" = .ok (1000 * fGi s Z) ∧
    fGiiU s Z "kJ/m^2" = .ok (fGii s Z) ∧ fGiiU s Z "N/mm" = .ok (fGii s Z) ∧
    fGiiU s Z "J/m^2" = .ok (1000 * fGii s Z) ∧
    (∀ u ∈ ["rad", "radian", "radians"], fpsiU Z u = .ok (fpsi Z)) ∧
    (∀ u ∈ ["deg", "degree", "degrees"], ∃ d, fpsiU Z u = .ok d ∧ deg2rad d = fpsi Z) := by
  have bnd : ∀ (c d : ℝ) (r : Res ℝ) (f : ℝ → ℝ), r = .ok c → f c = d →
      (r >>= fun x => pure (f x)) = (Except.ok d : Res ℝ) := by
    intro c d r f h1 h2; rw [h1, ← h2]; rfl
  have l1 : convertLength "mm" = .ok 1 := by unfold convertLength; rw [if_neg (by decide), if_neg (by decide), if_pos rfl]
  have l2 : convertLength "cm" = .ok 1e-1 := by unfold convertLength; rw [if_neg (by decide), if_pos rfl]
  have l3 : convertLength "m" = .ok 1e-3 := by unfold convertLength; rw [if_pos rfl]
  have l4 : convertLength "um" = .ok 1e3 := by
    unfold convertLength; rw [if_neg (by decide), if_neg (by decide), if_neg (by decide), if_pos rfl]
  have s1 : convertStress "MPa" = .ok 1 := by unfold convertStress; rw [if_neg (by decide), if_pos rfl]
  have s2 : convertStress "kPa" = .ok 1e3 := by unfold convertStress; rw [if_pos rfl]
  have e1 : convertEnergy "kJ/m^2" = .ok 1 := by unfold convertEnergy; rw [if_neg (by decide), if_pos rfl]
  have e2 : convertEnergy "N/mm" = .ok 1 := by unfold convertEnergy; rw [if_neg (by decide), if_neg (by decide), if_pos rfl]
  have e3 : convertEnergy "J/m^2" = .ok 1e3 := by unfold convertEnergy; rw [if_pos rfl]
  refine ⟨bnd _ _ _ _ l1 ?_, bnd _ _ _ _ l2 ?_, bnd _ _ _ _ l3 ?_, bnd _ _ _ _ l4 ?_, bnd _ _ _ _ l1 ?_, bnd _ _ _ _ l2 ?_,
    bnd _ _ _ _ l3 ?_, bnd _ _ _ _ l4 ?_, bnd _ _ _ _ s1 ?_, bnd _ _ _ _ s2 ?_, bnd _ _ _ _ s1 ?_, bnd _ _ _ _ s2 ?_,
    bnd _ _ _ _ e1 ?_, bnd _ _ _ _ e2 ?_, bnd _ _ _ _ e3 ?_, bnd _ _ _ _ e1 ?_, bnd _ _ _ _ e2 ?_, bnd _ _ _ _ e3 ?_, ?_, ?_⟩
  all_goals first
    | rfl
    | (simp only [fw, fu, fpsi, fsig, ftau, fdw, fGi, fGii]; ring)
    | skip
  · intro u hu
    unfold fpsiU
    have h1 : u ∉ ["deg", "degree", "degrees"] := by
      simp only [List.mem_cons, List.not_mem_nil, or_false] at hu ⊢
      rcases hu with rfl | rfl | rfl <;> decide
    rw [if_neg h1, if_pos hu]; rfl
  · intro u hu
    refine ⟨Z 4 * (180 / Real.pi), by unfold fpsiU; rw [if_pos hu], ?_⟩
    unfold deg2rad fpsi
    have := Real.pi_ne_zero
    field_simp

/-- Unknown units are rejected, with `KeyError`, for rotations with
`UnboundLocalError`. -/
theorem C32_unknown_unit (s : Self) (Z : Vec6) (z0 : ℝ) (u : String) :
    (u ∉ ["m", "cm", "mm", "um"] → fwU Z u = .error .keyError ∧ fuU Z z0 u = .error .keyError) ∧
    (u ∉ ["kPa", "MPa"] → fsigU s Z u = .error .keyError ∧ ftauU s Z u = .error .keyError) ∧
    (u ∉ ["J/m^2", "kJ/m^2", "N/mm"] → fGiU s Z u = .error .keyError ∧ fGiiU s Z u = .error .keyError) ∧
    (u ∉ ["deg", "degree", "degrees", "rad", "radian", "radians"] → fpsiU Z u = .error .unboundLocalError) := by
  simp only [List.mem_cons, List.not_mem_nil, or_false, not_or]
  refine ⟨fun h => ?_, fun h => ?_, fun h => ?_, fun h => ?_⟩
  · have : convertLength u = .error .keyError := by
      unfold convertLength; rw [if_neg h.1, if_neg h.2.1, if_neg h.2.2.1, if_neg h.2.2.2]
    unfold fwU fuU; rw [this]; exact ⟨rfl, rfl⟩
  · have : convertStress u = .error .keyError := by unfold convertStress; rw [if_neg h.1, if_neg h.2]
    unfold fsigU ftauU; rw [this]; exact ⟨rfl, rfl⟩
  · have : convertEnergy u = .error .keyError := by
      unfold convertEnergy; rw [if_neg h.1, if_neg h.2.1, if_neg h.2.2]
    unfold fGiU fGiiU; rw [this]; exact ⟨rfl, rfl⟩
  · unfold fpsiU
    simp only [List.mem_cons, List.not_mem_nil, or_false]
    rw [if_neg (by tauto), if_neg (by tauto)]

/-! ## C31 -/

/-- The segments under which the crack advances. -/
def crackSegs (segs : List IncSeg) : List IncSeg := segs.filter fun g => g.k0 && !g.ki

theorem mem_crackSegs {segs : List IncSeg} {g : IncSeg} : g ∈ crackSegs segs ↔ g ∈ segs ∧ CrackAdvance g := by
  unfold crackSegs CrackAdvance
  rw [List.mem_filter]
  simp

theorem ginc_some (quad : Quad) (s : Self) (phi : ℝ) (segs : List IncSeg) (hpos : 0 < ((crackSegs segs).map IncSeg.l).sum) :
    ginc quad s phi segs = some
      (let d := ((crackSegs segs).map IncSeg.l).sum
       let I := ((crackSegs segs).map fun g => quad (fun x => int1 s x (fun x => zsol s x g.C0 g.l phi true)
          (fun x => zsol s x g.C1 g.l phi false)) 0 g.l / (2 * d)).sum
       let II := ((crackSegs segs).map fun g => quad (fun x => int2 s x (fun x => zsol s x g.C0 g.l phi true)
          (fun x => zsol s x g.C1 g.l phi false)) 0 g.l / (2 * d)).sum
       (I + II, I, II)) := by
  have key : ∀ (cr : List IncSeg) (d : ℝ) (acc : ℝ × ℝ),
      cr.foldlM (gincStep quad s phi (some d)) acc
      = some (acc.1 + (cr.map fun g => quad (fun x => int1 s x (fun x => zsol s x g.C0 g.l phi true)
          (fun x => zsol s x g.C1 g.l phi false)) 0 g.l / (2 * d)).sum,
        acc.2 + (cr.map fun g => quad (fun x => int2 s x (fun x => zsol s x g.C0 g.l phi true)
          (fun x => zsol s x g.C1 g.l phi false)) 0 g.l / (2 * d)).sum) := by
    intro cr d
    induction cr with
    | nil => intro acc; simp
    | cons g cr ih =>
      intro acc
      rw [List.foldlM_cons]
      show List.foldlM _ _ cr = _
      rw [ih]
      simp [add_assoc]
  show (List.foldlM (gincStep quad s phi (if 0 < ((crackSegs segs).map IncSeg.l).sum then
    some ((crackSegs segs).map IncSeg.l).sum else none)) (0, 0) (crackSegs segs)).map _ = _
  rw [if_pos hpos, key]
  simp

/-- `ginc` uses exactly the segments supported before and unsupported after
the crack advance. Mode I is the work of the normal stress on the opening per
advance, divided by two. Mode II is minus the work of the shear stress on the
slip; the sign is the missing part. Both up to the error of the quadrature. -/
theorem C31_ginc_partial (quad : Quad) (e : ℝ) (hq : QuadOk quad e) (s : Self) (ht : s.t ≠ 0) (phi : ℝ)
    (segs cr : List IncSeg) (hcr : cr = segs.filter fun g => g.k0 && !g.ki) (da : ℝ)
    (hda : da = (cr.map IncSeg.l).sum) (hpos : 0 < da) :
    ∃ I II, ginc quad s phi segs = some (I + II, I, II) ∧
      |I - (cr.map (normalWork s phi)).sum / (2 * da)| ≤ cr.length * e / (2 * da) ∧
      |II + (cr.map (shearWork s phi)).sum / (2 * da)| ≤ cr.length * e / (2 * da) := by
  have hsum : ∀ (cr : List IncSeg) (f w : IncSeg → ℝ), (∀ g, |f g - w g| ≤ e) →
      |(cr.map fun g => f g / (2 * da)).sum - (cr.map w).sum / (2 * da)| ≤ cr.length * e / (2 * da) := by
    intro cr f w h
    induction cr with
    | nil => simp
    | cons g cr ih =>
      simp only [List.map_cons, List.sum_cons, List.length_cons]
      have h1 : |(f g - w g) / (2 * da)| ≤ e / (2 * da) := by
        rw [abs_div, abs_of_pos (by linarith : (0 : ℝ) < 2 * da)]
        exact div_le_div_of_nonneg_right (h g) (by linarith)
      calc |f g / (2 * da) + (cr.map fun g => f g / (2 * da)).sum - (w g + (cr.map w).sum) / (2 * da)|
          = |(f g - w g) / (2 * da) + ((cr.map fun g => f g / (2 * da)).sum - (cr.map w).sum / (2 * da))| := by
            congr 1; ring
        _ ≤ e / (2 * da) + cr.length * e / (2 * da) := (abs_add_le _ _).trans (add_le_add h1 ih)
        _ = ((cr.length + 1 : ℕ) : ℝ) * e / (2 * da) := by push_cast; ring
  have hgs := ginc_some quad s phi segs (by rw [crackSegs, ← hcr, ← hda]; exact hpos)
  rw [crackSegs, ← hcr, ← hda] at hgs
  refine ⟨_, _, hgs, ?_, ?_⟩
  · refine hsum cr _ (normalWork s phi) fun g => ?_
    have hi : (∫ x in (0 : ℝ)..g.l, int1 s x (fun x => zsol s x g.C0 g.l phi true) (fun x => zsol s x g.C1 g.l phi false))
        = normalWork s phi g := by
      unfold normalWork
      congr 1
      funext x
      simp only [int1, fsig, feps, fw]; field_simp
    rw [← hi]
    refine hq _ _ _ ?_
    have c0 := continuous_zsol s g.C0 g.l phi true
    have c1 := continuous_zsol s g.C1 g.l phi false
    unfold int1 fsig feps fw
    have d0 := (continuous_apply (2 : Fin 6)).comp c0
    have d1 := (continuous_apply (2 : Fin 6)).comp c1
    simp only [Function.comp_def] at d0 d1
    fun_prop
  · have hi : ∀ g : IncSeg, (∫ x in (0 : ℝ)..g.l, int2 s x (fun x => zsol s x g.C0 g.l phi true)
        (fun x => zsol s x g.C1 g.l phi false)) = -shearWork s phi g := by
      intro g
      unfold shearWork
      rw [← intervalIntegral.integral_neg]
      congr 1
      funext x
      have h1 := (C09_field_quantities s (zsol s x g.C0 g.l phi true)).2.2.2.1
      simp only [int2]
      rw [h1]
      simp only [fgamma, fdw, fu, fpsi, Beam.slip, Self.beam]
      field_simp
      ring
    have hneg : (cr.map (shearWork s phi)).sum = -(cr.map fun g => -shearWork s phi g).sum := by
      clear hcr hda hgs
      induction cr with
      | nil => simp
      | cons g cr ih => simp only [List.map_cons, List.sum_cons, ih]; ring
    rw [hneg, neg_div, ← sub_eq_add_neg]
    refine hsum cr _ (fun g => -shearWork s phi g) fun g => ?_
    rw [← hi]
    refine hq _ _ _ ?_
    have c0 := continuous_zsol s g.C0 g.l phi true
    have c1 := continuous_zsol s g.C1 g.l phi false
    unfold int2 ftau fgamma fdw fu fpsi
    have d0 := (continuous_apply (3 : Fin 6)).comp c0
    have d1 := (continuous_apply (3 : Fin 6)).comp c1
    have d2 := (continuous_apply (0 : Fin 6)).comp c0
    have d3 := (continuous_apply (0 : Fin 6)).comp c1
    have d4 := (continuous_apply (4 : Fin 6)).comp c0
    have d5 := (continuous_apply (4 : Fin 6)).comp c1
    simp only [Function.comp_def] at d0 d1 d2 d3 d4 d5
    fun_prop

/-- No crack advance: all rates are zero. -/
theorem C31_no_advance (quad : Quad) (s : Self) (phi : ℝ) (segs : List IncSeg) (h : ∀ g ∈ segs, ¬ CrackAdvance g) :
    ginc quad s phi segs = some (0, 0, 0) := by
  have hc : crackSegs segs = [] := by
    rw [List.eq_nil_iff_forall_not_mem]
    intro g hg
    exact h g (mem_crackSegs.mp hg).1 (mem_crackSegs.mp hg).2
  show (List.foldlM (gincStep quad s phi _) (0, 0) (crackSegs segs)).map _ = _
  rw [hc]
  simp

/-- Crack advance of total length zero (or less): NaN. -/
theorem C31_zero_length (quad : Quad) (s : Self) (phi : ℝ) (segs : List IncSeg) (g : IncSeg) (hg : g ∈ segs)
    (ha : CrackAdvance g) (hl : ((segs.filter fun g => g.k0 && !g.ki).map IncSeg.l).sum ≤ 0) :
    ginc quad s phi segs = none := by
  obtain ⟨g', cr, hc⟩ := List.exists_cons_of_ne_nil (List.ne_nil_of_mem (mem_crackSegs.mpr ⟨hg, ha⟩))
  show (List.foldlM (gincStep quad s phi (if 0 < ((segs.filter fun g => g.k0 && !g.ki).map IncSeg.l).sum then
    some ((segs.filter fun g => g.k0 && !g.ki).map IncSeg.l).sum else none)) (0, 0) (crackSegs segs)).map _ = _
  rw [if_neg (by linarith), hc]
  rfl

/-- Violation: wherever the slope-parallel load is not zero there is a cracked
state whose true mode II work is positive while `ginc` reports a negative
mode II rate, even with exact quadrature. -/
theorem C31_violated (quad : Quad) (hq : QuadOk quad 0) (s : Self) (hs : Stiff s) (phi l : ℝ) (hl : 0 < l)
    (hload : (s.loads phi).qt + (s.loads phi).pt ≠ 0) :
    ∃ g : IncSeg, g.l = l ∧ CrackAdvance g ∧ 0 < shearWork s phi g ∧
      ∃ G, ginc quad s phi [g] = some G ∧ G.2.2 < 0 := by
  set T := (s.loads phi).qt + (s.loads phi).pt with hT
  set F := ∫ x in (0 : ℝ)..l, s.beam.slip (zp s x phi false) with hF
  set a := (T - F) / l with ha
  set g : IncSeg := ⟨0, fun i => if i = 4 then a else 0, l, false, true⟩ with hg
  have hz0 : ∀ x, zsol s x g.C0 g.l phi true = zp s x phi true := by
    intro x
    show (zh s x l true).mulVec 0 + _ = _
    rw [Matrix.mulVec_zero, zero_add]
  have hz1 : ∀ x, s.beam.slip (zsol s x g.C1 g.l phi false) = a + s.beam.slip (zp s x phi false) := by
    intro x
    have e0 : ((zh s x l false).mulVec fun i => if i = 4 then a else 0) 0 = a := by
      simp [zh, zhFree, Matrix.mulVec, dotProduct]
    have e3 : ((zh s x l false).mulVec fun i => if i = 4 then a else 0) 3 = 0 := by
      simp [zh, zhFree, Matrix.mulVec, dotProduct]
    have e4 : ((zh s x l false).mulVec fun i => if i = 4 then a else 0) 4 = 0 := by
      simp [zh, zhFree, Matrix.mulVec, dotProduct]
    show s.beam.slip ((zh s x l false).mulVec (fun i => if i = 4 then a else 0) + zp s x phi false) = _
    simp only [Beam.slip, Pi.add_apply, e0, e3, e4]
    ring
  have htau : ∀ x, s.beam.tau (zsol s x g.C0 g.l phi true) = T := by
    intro x
    rw [hz0, ← (C09_field_quantities s _).2.2.2.1]
    exact (C10_bedded_particular s hs.regular x x phi).2.2.2.2.2
  have hcont : Continuous fun x => s.beam.slip (zp s x phi false) := by
    have c : Continuous fun x => zp s x phi false :=
      continuous_iff_continuousAt.mpr fun x => (hasDerivAt_zpFree s x phi).continuousAt
    have d0 := (continuous_apply (0 : Fin 6)).comp c
    have d3 := (continuous_apply (3 : Fin 6)).comp c
    have d4 := (continuous_apply (4 : Fin 6)).comp c
    simp only [Function.comp_def] at d0 d3 d4
    unfold Beam.slip
    fun_prop
  have hw : shearWork s phi g = T ^ 2 := by
    unfold shearWork
    simp only [htau, hz1]
    show (∫ x in (0 : ℝ)..l, T * (a + s.beam.slip (zp s x phi false))) = T ^ 2
    rw [intervalIntegral.integral_const_mul, intervalIntegral.integral_add (by simp)
      (hcont.intervalIntegrable _ _), intervalIntegral.integral_const, ← hF, ha]
    simp only [smul_eq_mul]
    field_simp
    ring
  have hTp : 0 < T ^ 2 := by positivity
  refine ⟨g, rfl, ⟨rfl, rfl⟩, by rw [hw]; exact hTp, ?_⟩
  obtain ⟨I, II, h1, -, h3⟩ := C31_ginc_partial quad 0 hq s hs.t.ne' phi [g] [g] (by simp [hg]) l (by simp [hg]) hl
  refine ⟨_, h1, ?_⟩
  show II < 0
  have : II + T ^ 2 / (2 * l) = 0 := by
    have := h3
    simp only [mul_zero, zero_div, abs_nonpos_iff, List.map_cons, List.map_nil, List.sum_cons, List.sum_nil, add_zero, hw] at this
    exact this
  have : 0 < T ^ 2 / (2 * l) := by positivity
  linarith

/-- The hypotheses of `C31_violated` are met by the demonstration slab on a
30° slope and the exact integral as quadrature. -/
example (eig : EigSolver) : ∃ g : IncSeg, g.l = 100 ∧ CrackAdvance g ∧ 0 < shearWork (demo eig "pst-" false) 30 g ∧
    ∃ G, ginc (fun f a b => ∫ x in a..b, f x) (demo eig "pst-" false) 30 [g] = some G ∧ G.2.2 < 0 := by
  refine C31_violated _ (fun f a b _ => by simp) _ (demo_ready eig "pst-" false).stiff 30 100 (by norm_num) ?_
  have h := demo_fields eig "pst-" false
  obtain ⟨-, -, -, -, -, -, -, -, -, hsl, hp, hg, -⟩ := h
  generalize demo eig "pst-" false = s at *
  have h30 : Real.sin (deg2rad 30) = 1 / 2 := by
    rw [← Real.sin_pi_div_six]; congr 1; unfold deg2rad; ring
  simp only [Self.loads, getWeightLoad, getSurfaceLoad, hsl, hp, hg, h30, compLayer]
  norm_num

end Weac
