import Verif.Props.Anticrack
import Verif.Props.Nucleation
import Verif.Props.Potential
import Verif.Props.Propagation
import Verif.Props.SameSnow
import Verif.Props.SearchSteps
import Verif.Props.Segments
import Verif.Props.StressBound
import Verif.Props.WeightFound
import Verif.Props.WeightLost

/-!
# Concrete cases for the criteria

C45, C46, C49, C52–C54, C56, C66, C69, applied to the demonstration sites.
-/

namespace Weac
open Spec

/-! ## C45, C46, C49 -/

/-- A saw test cut over 300 of 1000 mm. -/
example (C0 C1 : Vec6) : ∃ i e, internalPotential (demo stdEig "pst-" false) 20 1000 250 [⟨C0, true, 700⟩, ⟨C1, false, 300⟩] = .ok i ∧
    externalPotential (demo stdEig "pst-" false) 20 1000 250 [⟨C0, true, 700⟩, ⟨C1, false, 300⟩] = .ok e ∧
    totalPotential (demo stdEig "pst-" false) 20 1000 250 [⟨C0, true, 700⟩, ⟨C1, false, 300⟩] = .ok (i + e) := by
  obtain ⟨-, -, h3, h4, h5, h6, -, -, -, -, -, -, -, h14, -⟩ := demo_fields stdEig "pst-" false
  obtain ⟨c, -, h⟩ := C45_internal_partial (demo stdEig "pst-" false) (Or.inl h14) (by rw [h3]; norm_num)
    (by rw [h3, h4, h5]; norm_num) (by rw [h6]; norm_num) 20 1000 ⟨C0, true, 700⟩ ⟨C1, false, 300⟩ (by norm_num) (by norm_num)
    (Or.inl rfl)
  obtain ⟨c', -, h'⟩ := C45_external_partial (demo stdEig "pst-" false) (Or.inl h14) 20 1000 ⟨C0, true, 700⟩ ⟨C1, false, 300⟩
    (by norm_num) (by norm_num)
  obtain ⟨i, hi, -⟩ := h 250 (by norm_num)
  obtain ⟨e, he, -⟩ := h' 250 (by norm_num)
  exact ⟨i, e, hi, he, C45_total _ _ _ _ _ i e hi he⟩

/-- A slab of one layer. -/
example (z : Vec6) : couplingExcess (demo stdEig "skier" false).beam z = 0 :=
  C45_homogeneous _ (demo_fields stdEig "skier" false).2.2.2.1 z

example : failureEnvelopeMede false "s-RG2" 0.19 = .ok 1.22 ∧ failureEnvelopeMede false "s-RG2" 2.52 = .ok 0 :=
  have h := C46_mede_curves (sample := "s-RG2") (p := 0.19) (c := 1.22) (q := 2.52) (by simp)
  ⟨h.1, h.2.1⟩

example : findSegmentIndex [500] 620 = (0, some 620) := C49_single _ _

/-! ## C52 -/

theorem twoHalves_ok : BeamOk [100000, (100000 : ℝ)] [true, true] := by
  have := half_beam (T := 200000) (by norm_num)
  norm_num at this
  exact this

/-- A site where 80 kg are critical: less is not, more is. -/
example : ∃ o, (∀ v p, 0 ≤ v → v < 80 → trial midNum (scaledSite o) [100000, 100000] [true, true] v = .ok p → p.distMax < 1) ∧
    ∀ v p, 80 < v → trial midNum (scaledSite o) [100000, 100000] [true, true] v = .ok p → 1 < p.distMax := by
  obtain ⟨o, t0, tc, p, h0, -, h1, h2, h3, -⟩ := scaledSite_run
  exact ⟨o, C52_threshold midNum (scaledSite o) (scaledSite_ok (SiteOk.eig_only (num := bisectNum 1) (num' := midNum) rfl (softSite_ok 1)) o)
    (EllipticEnv.adam 0.55 o 250) _ _ twoHalves_ok h0 (by linarith) h2 h3 (by norm_num)⟩

/-- Below every weight that is too heavy, a critical one exists. -/
example : ∃ o, ∀ v tv, 80 < v → trial midNum (scaledSite o) [100000, 100000] [true, true] v = .ok tv → 1 < tv.distMax →
    ∃ c tc, 0 < c ∧ c < v ∧ trial midNum (scaledSite o) [100000, 100000] [true, true] c = .ok tc ∧ tc.distMax = 1 := by
  obtain ⟨o, t0, tc, p, h0, -, h1, h2, h3, -⟩ := scaledSite_run
  exact ⟨o, fun v tv hv ht h => C52_exists midNum (scaledSite o)
    (scaledSite_ok (SiteOk.eig_only (num := bisectNum 1) (num' := midNum) rfl (softSite_ok 1)) o)
    (EllipticEnv.adam 0.55 o 250) _ _ twoHalves_ok h0 (by linarith) ht h (by linarith)⟩

/-- The search for the critical weight finds it. -/
example : ∃ o p, minForce (trial midNum (scaledSite o) [100000, 100000] [true, true]) = .ok p ∧ 0 < p.weight ∧
    createSkierObject midNum (scaledSite o) p.weight [100000, 100000] [true, true] .nocrack = .ok p.run := by
  obtain ⟨o, t0, tc, p, h0, h01, h1, h2, h3, -⟩ := scaledSite_run
  have hcos : Real.cos (deg2rad (scaledSite o).phi) = 1 ∧ Real.sin (deg2rad (scaledSite o).phi) = 0 := softSite_cos
  obtain ⟨q, q1, q2, -, q3, -⟩ := C52_found midNum (scaledSite o)
    (scaledSite_ok (SiteOk.eig_only (num := bisectNum 1) (num' := midNum) rfl (softSite_ok 1)) o)
    (EllipticEnv.adam 0.55 o 250) (by rw [hcos.1]; norm_num) _ _ twoHalves_ok (by norm_num [nth]) h0 (by linarith) h2 h3 (by norm_num) (by
      have a : (0 : ℝ) ≤ 1 - (1 - t0.distMax) / 4 := by linarith
      have b : 1 - (1 - t0.distMax) / 4 ≤ 0.775 := by linarith
      calc (max (80 : ℝ) 80⁻¹ - 1) * (1 - (1 - t0.distMax) / 4) ^ 48 ≤ (max (80 : ℝ) 80⁻¹ - 1) * 0.775 ^ 48 := by
            gcongr
            norm_num
        _ ≤ 1 / 500 := by norm_num)
  exact ⟨o, q, q1, q2, q3⟩

/-! ## C53, C54 -/

example (num : Numerics) (phi : ℝ) (li : List ℝ) (r : Skier) (d : List ℝ) (hd : distances demoSite.env r = .ok d) :
    findRoots num demoSite.env phi li r ≠ .error .runtimeError :=
  fun h => (C53_caught num demoSite.env phi li r d hd _ h).2 rfl

/-- Weights of 6 and 12 are tried from 3. -/
example (W : ℝ) (h : doubleWeight (fun w => .ok (some (w / 10))) 5 3 = .ok (some W)) :
    ∃ k, 1 ≤ k ∧ k ≤ 5 ∧ W = 2 ^ k * 3 :=
  let ⟨k, _, h1, h2, h3, _⟩ := C54_doubled _ 5 3 W h
  ⟨k, h1, h2, h3⟩

/-- The deep slab of `C54_missed_violated`. -/
example (quad : Quad) (e : ℝ) (hq : QuadOk quad e) (he : 0 ≤ e) (fuel : ℕ) : ∃ o x p,
    coupledCriterion midNum quad fuel (deepSite o) = .ok (some x) ∧
    minForce (trial midNum (deepSite o) [1000 * profileHeight (deepSite o).profile / 2, 0, 0, 1000 * profileHeight (deepSite o).profile / 2]
      [true, true, true, true]) = .ok p ∧ (p.distMin ≤ 1 → p.weight < 1 → x.gDelta = some 0) := by
  obtain ⟨o, -, -, -, x, h1, -, -, -, -, -, -, h2, -⟩ := C54_missed_violated quad fuel
  obtain ⟨p, p1, -, p2, -⟩ := C54_slab_alone midNum quad e hq he (deepSite o) h1 midNum_runs.inside (by
    simp [profileHeight, deepSite]; norm_num) fuel x h2
  exact ⟨o, x, p, h2, p1, fun a b => (p2 a b).2.2.2.2⟩

/-! ## C56, C66 -/

/-- The verdict on a crack of 0.3 m and more. -/
example : ∃ v : Set.Icc (0 : ℝ) 500 → ℝ, Continuous v ∧
    ∀ t : Set.Icc (0 : ℝ) 500, crackPropagation midNum demoSite 0 [2000, 150 + t, 150, 2000 + t] [true, false, false, true]
      = .ok (v t, decide (1 ≤ v t)) := by
  refine C56_continuous_length midNum demoSite demoSite_ok (n := 4) (li := fun t : Set.Icc (0 : ℝ) 500 => [2000, 150 + (t : ℝ), 150, 2000 + t])
    (ki := [true, false, false, true]) (fun t => ?_) (fun _ => rfl) (fun i => ?_)
  · have h0 := t.2.1
    refine ⟨rfl, ?_, ?_, ?_, rfl, rfl⟩
    · intro l hl
      simp only [List.mem_cons, List.not_mem_nil, or_false] at hl
      rcases hl with rfl | rfl | rfl | rfl <;> linarith
    · simp [startOf]; linarith
    · simp [nth]; linarith
  · have hc : Continuous fun t : Set.Icc (0 : ℝ) 500 => (t : ℝ) := continuous_subtype_val
    match i with
    | 0 => exact continuous_const
    | 1 => exact continuous_const.add hc
    | 2 => exact continuous_const
    | 3 => exact continuous_const.add hc
    | i + 4 => exact continuous_const

/-- Two crack lengths with opposite verdicts. -/
example (dummy : Self) (vl vh : ℝ) (bl bh : Bool)
    (hl : crackPropagation midNum demoSite 0 (midCrack (1000 * profileHeight demoSite.profile) 10) midSupport = .ok (vl, bl))
    (hh : crackPropagation midNum demoSite 0 (midCrack (1000 * profileHeight demoSite.profile) 1000) midSupport = .ok (vh, bh))
    (h1 : vl ≤ 1) (h2 : 1 ≤ vh) : ∃ a, minCrackLength midNum demoSite 10 1000 dummy = .ok (some a) ∧ 10 ≤ a ∧ a ≤ 1000 :=
  C56_search_found midNum midNum_runs demoSite demoSite_ok dummy (by norm_num) (by norm_num) (by simp [profileHeight, demoSite])
    hl hh (mul_nonpos_of_nonpos_of_nonneg (by linarith) (by linarith))

/-- A skier of 80 kg on a slab of 2 m on level ground. -/
example (o : ℝ) : ∃ r K, createSkierObject midNum (deepSite o) 80 [1000000, 0, 0, 1000000] [true, true, true, true] .nocrack = .ok r ∧
    ∀ p ∈ (reals r.sigma).zip (reals r.tau), |p.1 + cover (deepSite o).profile| ≤ K := by
  obtain ⟨r, h, -⟩ := C50_solution_partial midNum (deepSite o) (deepSite_ok o) 80 _ _ deepBeam_ok .nocrack
  have hb := deepSite_object midNum o (deepSite_ok o) deepBeam_ok h
  have eB : r.skier.B11 = 0 := congrArg Beam.B hb
  have eD : r.skier.D11 = 4 * (6500 * (4 / 5) ^ 22) * (1600000000 / 9) := congrArg Beam.D hb
  have ekn : r.skier.kn = 2 / 225 := congrArg Beam.kn hb
  exact ⟨r, _, h, fun p hp => (C66_bound midNum (deepSite o) (deepSite_ok o) rfl _ _ deepBeam_ok
    ⟨0, by norm_num, by norm_num [startOf]⟩ 80 (by norm_num) r h (β := 2300) (by norm_num) (by rw [eB, eD, ekn]; norm_num) p hp).1⟩

/-! ## C69 -/

/-- A slab of two layers, and the same with the lower one entered in two parts. -/
theorem parted : SameSnow [⟨180, 120⟩, ⟨270, 200⟩] [⟨180, 120⟩, ⟨270, 50⟩, ⟨270, 150⟩] ∧ ValidPlies [⟨180, 120⟩, ⟨270, 200⟩] ∧
    ValidPlies [⟨180, 120⟩, ⟨270, 50⟩, ⟨270, 150⟩] := by
  refine ⟨?_, ⟨by simp, ?_⟩, ⟨by simp, ?_⟩⟩
  · have := SameSnow.split [⟨180, 120⟩] [] 270 50 150 (by norm_num)
    norm_num at this
    exact this
  all_goals
    intro l hl
    simp only [List.mem_cons, List.not_mem_nil, or_false] at hl
    rcases hl with rfl | rfl | rfl <;> norm_num

example : ∃ s s', layeredInit stdEig "skier" (.rows [⟨180, 120⟩, ⟨270, 200⟩]) false = .ok s ∧
    layeredInit stdEig "skier" (.rows [⟨180, 120⟩, ⟨270, 50⟩, ⟨270, 150⟩]) false = .ok s' ∧
    (session stdNum 30 0.25 0.25 0 [2000, 2000] [80] [true, true] [true, true] 4000 0 80 30 1 1000 false 100 s').1
      = (session stdNum 30 0.25 0.25 0 [2000, 2000] [80] [true, true] [true, true] 4000 0 80 30 1 1000 false 100 s).1 :=
  let ⟨s, s', h1, h2, _, h3, _⟩ := C69_same_solution stdNum "skier" false parted.1 parted.2.1 parted.2.2 30 0.25 0.25 0 [2000, 2000] [80]
    [true, true] [true, true] 4000 0 80 30 1 1000 false 100
  ⟨s, s', h1, h2, h3⟩

example (quad : Quad) (phi : ℝ) (gs : List IncSeg) :
    ginc quad (setBeamProperties stdEig (.rows [⟨180, 120⟩, ⟨270, 50⟩, ⟨270, 150⟩]) 6.5 4.4 0.25 true skierDemo).2 phi gs
      = ginc quad (setBeamProperties stdEig (.rows [⟨180, 120⟩, ⟨270, 200⟩]) 6.5 4.4 0.25 true skierDemo).2 phi gs :=
  (C69_same_evaluation parted.1 parted.2.1 parted.2.2 6.5 4.4 0.25 stdEig skierDemo quad phi).2.2.1 gs

example (num : Numerics) (quad : Quad) (fuel : ℕ) (w : ℝ) (li : List ℝ) :
    findNewAnticrackLength num { demoSite with profile := [⟨180, 120⟩, ⟨270, 50⟩, ⟨270, 150⟩] } w li
      = findNewAnticrackLength num { demoSite with profile := [⟨180, 120⟩, ⟨270, 200⟩] } w li :=
  (C69_same_verdict num quad fuel { demoSite with profile := [⟨180, 120⟩, ⟨270, 200⟩] } [⟨180, 120⟩, ⟨270, 50⟩, ⟨270, 150⟩]
    parted.1 parted.2.1 parted.2.2).2.2.1 w li

example (num : Numerics) (quad : Quad) (fuel : ℕ) :
    (coupledCriterion num quad fuel { demoSite with profile := [⟨180, 120⟩, ⟨270, 50⟩, ⟨270, 150⟩] }).map
        (Option.map fun o => (o.result, o.crackLength, o.weight))
      = (coupledCriterion num quad fuel { demoSite with profile := [⟨180, 120⟩, ⟨270, 200⟩] }).map
        (Option.map fun o => (o.result, o.crackLength, o.weight)) :=
  C69_split num quad fuel { demoSite with profile := [⟨180, 120⟩, ⟨270, 200⟩] } [⟨180, 120⟩] [] 270 50 150 (by norm_num) (by norm_num)
    (by norm_num) (by norm_num) (by simp)

/-- Far too much energy at the weight `2 w`: the dampened search tries the middle
between it and the lower limit, `w`, at which the weak layer of the level site holds. -/
example : ∃ w K st st' c g, 0 < w ∧ st.minW = 0 ∧ st.weight = 2 * w ∧
    dampenedPass midNum (offQuad K) levelSite 1 1 st = .ok (.inl st') ∧ st'.last = some (c, some g) ∧ st'.weight = (st'.minW + st'.maxW) / 2 ∧
    st'.weight = w := by
  have hb := half_beam (show (0 : ℝ) < (crackStart 5000).sum by norm_num [crackStart])
  have he : EllipticEnv levelSite.env := EllipticEnv.adam 1 1 250
  obtain ⟨p, p1, -, p2⟩ := C52_slab_alone midNum levelSite levelSite_ok _ _ hb (C46_adam 1 1 250 false)
  have hp : p.distMax < 1 := by
    rw [p2]
    have : strengthFactor 1 1 = 1 := by unfold strengthFactor; norm_num
    rw [this]
    simp only [levelSite, demoSite, cover, deg2rad]
    norm_num
  obtain ⟨-, q, -, -, q1, -, -⟩ := C52_convex midNum levelSite levelSite_ok he _ _ hb 0 1 0 le_rfl zero_le_one
  set k := (1 - p.distMax) / (2 * (|q.distMax - p.distMax| + 1)) / (1 + (1 - p.distMax)) with hk
  have hq0 := abs_nonneg (q.distMax - p.distMax)
  have hk0 : 0 < k := by rw [hk]; have : 0 < 1 - p.distMax := by linarith
                         positivity
  have hk1 : k ≤ 1 := by
    rw [hk, div_div, div_le_one (by nlinarith)]
    nlinarith
  have hk2 : k * |q.distMax - p.distMax| < 1 - p.distMax := by
    have h1 : 0 < 1 - p.distMax := by linarith
    rw [hk, div_div, div_mul_eq_mul_div, div_lt_iff₀ (by nlinarith)]
    nlinarith [mul_nonneg hq0 h1.le, mul_nonneg (mul_nonneg hq0 h1.le) h1.le]
  obtain ⟨p', q', t, p1', q1', t1, ht⟩ := C52_convex midNum levelSite levelSite_ok he _ _ hb 0 1 k hk0.le hk1
  obtain rfl : p = p' := by rw [p1] at p1'; exact Except.ok.inj p1'
  obtain rfl : q = q' := by rw [q1] at q1'; exact Except.ok.inj q1'
  have em : mix k 0 1 = k := by unfold mix; ring
  rw [em] at t1
  have htl : t.distMax < 1 := by
    refine ht.trans_lt ?_
    unfold mix
    have := le_abs_self (q.distMax - p.distMax)
    nlinarith
  obtain ⟨r, d, d1, d2, d3, d4⟩ := trial_parts t1
  have find := C53_none midNum levelSite k (crackStart 5000) d1 d2 d3 fun v hv => (d4 v hv).2.trans_lt htl
  obtain ⟨K, r', c, e3, hK⟩ := energy_off midNum levelSite levelSite_ok (2 * k) (L := 5000) (by norm_num)
  obtain ⟨v, e1, e2⟩ := hK K le_rfl
  obtain ⟨ds, hi, lo, hdist, hmax, hmin⟩ := pass_data midNum levelSite levelSite_ok he (2 * k) (L := 5000) (by norm_num) e3
  have run : ∃ st', dampenedPass midNum (offQuad K) levelSite 1 1
      ⟨2 * k, 0, 10, 1, crackStart 5000, [true, false, false, true], 1, 1, none, [1], [1], [some 0.5], [1], [1]⟩ = .ok (.inl st') ∧
      st'.last = some (c, some v) ∧ st'.weight = k := by
    simp only [dampenedPass, trackPass, bind, Except.bind, e1, hdist, hmax, hmin, pure, Except.pure]
    rw [if_neg (by simp)]
    have hv : below (some v) 1 = false := by
      simp only [below, Option.any_some, decide_eq_false_iff_not, not_lt]
      linarith
    simp only [narrow, hv, Bool.false_eq_true, if_false]
    have ab : ∀ S : Search, S.last = some (c, some v) → above S.err 0.002 = true := by
      intro S hS
      simp only [above, Search.err, hS, Option.map_some, Option.any_some, decide_eq_true_eq]
      rw [abs_of_pos (by linarith)]
      norm_num
      linarith
    have be : ∀ S : Search, S.last = some (c, some v) → below S.err 0.5 = false := by
      intro S hS
      simp only [below, Search.err, hS, Option.map_some, Option.any_some, decide_eq_false_iff_not, not_lt]
      rw [abs_of_pos (by linarith)]
      norm_num
      linarith
    have ek : 1 * ((0 + 2 * k) / 2) = k := by ring
    rw [be _ rfl]
    simp only [Bool.false_eq_true, if_false, ek, nextCrack]
    rw [ab _ rfl]
    simp only [if_true, find, bind, Except.bind, pure, Except.pure]
    exact ⟨_, rfl, rfl, rfl⟩
  obtain ⟨st', run, hl, hw⟩ := run
  have key := (C54_next_weight midNum (offQuad K) levelSite 1 1 (by norm_num) _ _ run c v hl
    (by rw [abs_of_pos (by linarith)]; norm_num; linarith)).1 (by rw [abs_of_pos (by linarith)]; linarith)
  exact ⟨k, K, _, _, c, v, hk0, rfl, rfl, run, hl, key, hw⟩

end Weac
