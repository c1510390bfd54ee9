import Verif.Props.PropagationDemo
import Verif.Props.StressBound
import Verif.Props.WeightFound

/-!
# C52, C54: a slab close to failure for which the search for the least weight gives up
-/

namespace Weac

open Spec

/-! ## Slow progress -/

/-- While the greatest distance stays between `d` and `1 - tol`, the loop makes
no more than the factor `1 / d` per round and ends at its limit. -/
theorem forceLoop_stuck {eval : ℝ → Res Trial} (h : Trials eval) {d B tol : ℝ} (hd : 0 < d) (hd1 : d ≤ 1) (ht : 0 ≤ tol)
    (hB : ∀ p, IsTrial eval p → p.weight ≤ B → d ≤ p.distMax ∧ p.distMax < 1 - tol) (next : Trial → ℝ)
    (hn : ∀ p, IsTrial eval p → d ≤ p.distMax → p.distMax < 1 → 0 < next p ∧ next p ≤ p.weight / d) (n : ℕ) :
    ∀ p, IsTrial eval p → p.weight ≤ B * d ^ n → ∃ q, forceLoop eval next tol n p = .ok (q, true) ∧ IsTrial eval q ∧ q.weight ≤ B := by
  induction n with
  | zero => intro p hp hw; exact ⟨p, rfl, hp, by simpa using hw⟩
  | succ n ih =>
    intro p hp hw
    have hBpos : 0 < B := by
      have := lt_of_lt_of_le hp.1 hw
      exact (mul_pos_iff_of_pos_right (by positivity)).1 this
    have hwB : p.weight ≤ B := hw.trans (mul_le_of_le_one_right hBpos.le (pow_le_one₀ hd.le hd1))
    obtain ⟨b1, b2⟩ := hB p hp hwB
    obtain ⟨n1, n2⟩ := hn p hp b1 (by linarith)
    obtain ⟨q, q1, q2, q3⟩ := h.is n1
    unfold forceLoop
    rw [if_pos (by rw [abs_of_neg (by linarith)]; linarith), q1]
    refine ih q q2 ?_
    rw [q3]
    refine n2.trans ?_
    rw [div_le_iff₀ hd, mul_assoc, ← pow_succ]
    exact hw

/-- If the slab alone is at distance `d`, and weights up to `d ^ -50` kg leave
the greatest distance below 0.99, then the search returns weight 0. -/
theorem minForce_stuck {eval : ℝ → Res Trial} (h : Trials eval) (hmin : ∀ p, IsTrial eval p → p.distMin ≤ p.distMax)
    {d B : ℝ} (hd : 0 < d) (hd1 : d ≤ 1) (hBd : 1 ≤ B * d ^ 50)
    (hB : ∀ p, IsTrial eval p → p.weight ≤ B → d ≤ p.distMax ∧ p.distMax < 0.99) :
    ∃ p, minForce eval = .ok p ∧ p.weight = 0 ∧ ∃ v, 0 < v ∧ v ≤ B ∧ ∃ q, eval v = .ok q ∧ q.run = p.run ∧ q.distMax = p.distMax ∧
      q.distMin = p.distMin := by
  obtain ⟨p, p1, p2, p3⟩ := h.is one_pos
  have hBpos : 0 < B := (mul_pos_iff_of_pos_right (by positivity)).1 (lt_of_lt_of_le one_pos hBd)
  have hpB : p.weight ≤ B := by
    rw [p3]; exact hBd.trans (mul_le_of_le_one_right hBpos.le (pow_le_one₀ hd.le hd1))
  have hno : ¬ 1 ≤ p.distMin := by
    have := hmin p p2
    have := (hB p p2 hpB).2
    norm_num at this ⊢
    linarith
  have damp : ∀ D : ℝ, 0 < D → ∃ q, dampenedForce eval D = .ok (q, true) ∧ IsTrial eval q ∧ q.weight ≤ B := by
    intro D hD
    unfold dampenedForce
    rw [p1]
    simp only [bind, Except.bind]
    rw [if_neg hno]
    refine forceLoop_stuck h hd hd1 (by norm_num) (fun p hp hw => ?_) _ (fun p hp a b => ?_) 50 p p2 (by rw [p3]; exact hBd)
    · obtain ⟨a, b⟩ := hB p hp hw
      exact ⟨a, by norm_num at b ⊢; linarith⟩
    · have hw := hp.1
      have hm : 0 < p.distMax := by linarith
      refine ⟨by positivity, ?_⟩
      rw [div_le_div_iff₀ (by positivity) hd]
      have : (D + 1) * d ≤ D + p.distMax := by nlinarith
      nlinarith
  have last : ∀ k, k < 5 → ∃ p, minForceDampened eval k = .ok p ∧ p.weight = 0 ∧ ∃ v, 0 < v ∧ v ≤ B ∧ ∃ q, eval v = .ok q ∧
      q.run = p.run ∧ q.distMax = p.distMax ∧ q.distMin = p.distMin := by
    intro k
    induction k with
    | zero =>
      intro _
      obtain ⟨q, q1, q2, q3⟩ := damp 5 (by norm_num)
      unfold minForceDampened
      rw [q1]
      exact ⟨{ q with weight := 0 }, rfl, rfl, q.weight, q2.1, q3, q, q2.2, rfl, rfl, rfl⟩
    | succ k ih =>
      intro hk
      have : ((k + 1 : ℕ) : ℝ) < 5 := by exact_mod_cast hk
      obtain ⟨q, q1, -⟩ := damp (5 - ((k + 1 : ℕ) : ℝ)) (by linarith)
      unfold minForceDampened
      rw [q1]
      exact ih (by omega)
  obtain ⟨q, q1, q2, -⟩ := forceLoop_stuck h (tol := 0.005) hd hd1 (by norm_num) (fun p hp hw => by
    obtain ⟨a, b⟩ := hB p hp hw
    exact ⟨a, by norm_num at b ⊢; linarith⟩) (fun p => p.weight / p.distMax) (fun p hp a b => by
    have hw := hp.1
    have hm : 0 < p.distMax := by linarith
    exact ⟨by positivity, div_le_div_of_nonneg_left hw.le hd a⟩) 50 p p2 (by rw [p3]; exact hBd)
  unfold minForce
  rw [p1]
  simp only [bind, Except.bind]
  rw [if_neg hno, q1]
  exact last 4 (by norm_num)

/-! ## A deep slab -/

/-- Two metres of snow with a density of about 300 kg/m³, for which the modulus
is rational, on the default weak layer on level ground; the strength of the weak
layer is scaled by `0.55 ^ o`. -/
noncomputable def deepSite (o : ℝ) : Site :=
  { profile := [⟨917 * (4 / 5) ^ 5, 2000⟩], phi := 0, env := ⟨"adam_unpublished", 0.55, o, 250⟩ }

theorem deepSite_modulus : bergfeld (917 * (4 / 5) ^ 5) 917 6.5 4.4 = 6500 * (4 / 5) ^ 22 := by
  unfold bergfeld
  rw [show (917 : ℝ) * (4 / 5) ^ 5 / 917 = (4 / 5 : ℝ) ^ (5 : ℝ) by
    rw [show (5 : ℝ) = ((5 : ℕ) : ℝ) by norm_num, Real.rpow_natCast]; norm_num, ← Real.rpow_mul (by norm_num)]
  rw [show (5 : ℝ) * 4.4 = ((22 : ℕ) : ℝ) by norm_num, Real.rpow_natCast]
  norm_num

theorem deepSite_plies (o : ℝ) : ValidPlies (deepSite o).profile := by
  refine ⟨by simp [deepSite], ?_⟩
  simp only [deepSite, List.mem_singleton, forall_eq]
  norm_num

theorem deepSite_fields (o : ℝ) (eig : EigSolver) (s : Self) (h : siteObject eig (deepSite o) = .ok s) :
    s.kn = 2 / 225 ∧ s.kt = 1 / 300 ∧ s.B11 = 0 ∧ s.h = 2000 ∧ s.t = 30 ∧
      s.A11 = 4 * (6500 * (4 / 5) ^ 22) * (1600 / 3) ∧ s.D11 = 4 * (6500 * (4 / 5) ^ 22) * (1600000000 / 9) ∧
      s.kA55 = 6500 * (4 / 5) ^ 22 * (2000 / 3) ∧ s.K0 = - (s.A11 * s.D11) := by
  obtain ⟨s', h1, h2, -, -, -, -, -, -, -, h3, h4⟩ := siteObject_ready eig (deepSite o) (deepSite_plies o) (by norm_num [deepSite])
    (by norm_num [deepSite])
  rw [h] at h1
  injection h1 with h1
  subst h1
  have hsl := siteObject_slab eig _ _ _ _ _ s h
  rw [deepSite_modulus] at hsl
  have hh : s.h = 2000 := by
    rw [h2.slab.h, hsl]
    norm_num [Spec.total]
  obtain ⟨e1, e2, e3, e4, e5, e6, e7⟩ := fundamental_fields eig s
  have hfr : calcFundamentalSystem eig s = s := h2.fresh
  rw [hfr] at e1 e2 e3 e4 e5 e6 e7
  have ht : s.t = 30 := h3
  have hw : s.weak = ⟨0.25, 0.25⟩ := h4
  have hk := h2.slab.k
  rw [laminate_eq] at e3 e4 e5 e6 e7
  simp only [hsl, hh, hk, Spec.layerSum] at e3 e4 e5 e6 e7
  simp only [calcFoundationStiffness, ht, hw] at e1 e2
  have hB : s.B11 = 0 := by rw [e4]; norm_num
  refine ⟨by rw [e1]; norm_num, by rw [e2]; norm_num, hB, hh, ht, by rw [e3]; ring, by rw [e5]; ring, by rw [e6]; ring, ?_⟩
  rw [h2.stiff.K0_eq, hB]; ring

theorem deep_disc (s : Self) (h1 : s.kn = 2 / 225) (h2 : s.kt = 1 / 300) (h3 : s.B11 = 0) (h4 : s.h = 2000)
    (h5 : s.t = 30) (h6 : s.A11 = 4 * (6500 * (4 / 5) ^ 22) * (1600 / 3))
    (h7 : s.D11 = 4 * (6500 * (4 / 5) ^ 22) * (1600000000 / 9)) (h8 : s.kA55 = 6500 * (4 / 5) ^ 22 * (2000 / 3))
    (h9 : s.K0 = - (s.A11 * s.D11)) : (cubicOf s).disc ≠ 0 := by
  unfold Cubic.disc cubicOf calcSystemMatrix
  simp only [h1, h2, h3, h4, h5, h6, h7, h8, h9]
  simp only [Matrix.of_apply, Matrix.cons_val', Matrix.cons_val]
  norm_num

theorem deepSite_ok (o : ℝ) : SiteOk midNum (deepSite o) := by
  refine ⟨stdEig_ok, deepSite_plies o, by norm_num [deepSite], by norm_num [deepSite], fun s hs => ?_⟩
  obtain ⟨h1, h2, h3, h4, h5, h6, h7, h8, h9⟩ := deepSite_fields o _ s hs
  refine ⟨deep_disc s h1 h2 h3 h4 h5 h6 h7 h8 h9, ?_⟩
  unfold ShearOk
  rw [h2, h5, h8]
  norm_num

theorem deepSite_cover (o : ℝ) : cover (deepSite o).profile = 1000 * (917 * (4 / 5) ^ 5 * 1e-12 * 9810 * 2000) := by
  simp [deepSite, cover]

/-- Stiffnesses of any object made for the slab. -/
theorem deepSite_object (num : Numerics) (o : ℝ) (hs : SiteOk num (deepSite o)) {li : List ℝ} {ki : List Bool} (h : BeamOk li ki) {w : ℝ}
    {r : Skier} (hr : createSkierObject num (deepSite o) w li ki .nocrack = .ok r) :
    r.skier.beam = ⟨4 * (6500 * (4 / 5) ^ 22) * (1600 / 3), 0, 4 * (6500 * (4 / 5) ^ 22) * (1600000000 / 9),
      6500 * (4 / 5) ^ 22 * (2000 / 3), 2 / 225, 1 / 300, 2000, 30, r.skier.zs⟩ := by
  obtain ⟨s, k1, k2, k3, k4, k5, -⟩ := siteObject_ready num.eig (deepSite o) hs.plies hs.t hs.E
  obtain ⟨h1, h2, h3, h4, h5, h6, h7, h8, h9⟩ := deepSite_fields o _ s k1
  obtain ⟨hd, hsh⟩ := hs.generic s k1
  obtain ⟨j, j1, j2, j3⟩ := skierWeights_run li ki h.len h.nonneg h.middle h.last
  have hP := pointLoad_set w j1 h.len
  obtain ⟨C, pts, X, σ, τ, m1, -⟩ := solveSkier_run num (deepSite o).phi hs.eig s k2 k3 k4 k5 hd hsh li _ ki h hP.1 .nocrack
  unfold createSkierObject at hr
  rw [k1] at hr
  simp only [bind, Except.bind] at hr
  rw [j2] at hr
  simp only at hr
  rw [m1] at hr
  injection hr with hr
  rw [← hr]
  show (⟨s.A11, s.B11, s.D11, s.kA55, s.kn, s.kt, s.h, s.t, s.zs⟩ : Beam) = _
  rw [h1, h2, h3, h4, h5, h6, h7, h8]
  rfl

/-- Beam of the coupled criterion for the slab. -/
theorem deepBeam_ok : BeamOk [(1000000 : ℝ), 0, 0, 1000000] [true, true, true, true] := by
  have := halves_ok 2000000 (by norm_num)
  norm_num at this
  exact this

/-- Skiers of up to 5 kg hardly load the weak layer below two metres of snow. -/
theorem deepSite_stress (o : ℝ) {w : ℝ} (hw : 0 ≤ w) (hw5 : w ≤ 5) {r : Skier}
    (hr : createSkierObject midNum (deepSite o) w [1000000, 0, 0, 1000000] [true, true, true, true] .nocrack = .ok r) :
    ∀ p ∈ (reals r.sigma).zip (reals r.tau), |p.1 + cover (deepSite o).profile| ≤ 0.0385 ∧ p.2 ^ 2 ≤ 0.01 := by
  have hb := deepSite_object midNum o (deepSite_ok o) deepBeam_ok hr
  have eA : r.skier.A11 = 4 * (6500 * (4 / 5) ^ 22) * (1600 / 3) := congrArg Beam.A hb
  have eB : r.skier.B11 = 0 := congrArg Beam.B hb
  have eD : r.skier.D11 = 4 * (6500 * (4 / 5) ^ 22) * (1600000000 / 9) := congrArg Beam.D hb
  have ekn : r.skier.kn = 2 / 225 := congrArg Beam.kn hb
  have ekt : r.skier.kt = 1 / 300 := congrArg Beam.kt hb
  intro p hp
  obtain ⟨b1, b2⟩ := C66_bound midNum (deepSite o) (deepSite_ok o) rfl _ _ deepBeam_ok ⟨0, by norm_num, by norm_num [startOf]⟩ w hw r hr
    (β := 2300) (by norm_num) (by rw [eB, eD, ekn]; norm_num) p hp
  have hspread : r.skier.beam.spread 2300 ≤ 0.00077 := by
    rw [hb]; unfold Beam.spread; norm_num
  have hspread0 : 0 ≤ r.skier.beam.spread 2300 := by
    rw [hb]; unfold Beam.spread; norm_num
  have hC1 : r.skier.beam.slipCompliance ≤ 400 ∧ 0 ≤ r.skier.beam.slipCompliance := by
    rw [hb]; unfold Beam.slipCompliance; norm_num
  have hC2 : r.skier.beam.slipRateCompliance ≤ 0.0001 ∧ 0 ≤ r.skier.beam.slipRateCompliance := by
    rw [hb]; unfold Beam.slipRateCompliance; norm_num
  have hsum : ([(1000000 : ℝ), 0, 0, 1000000].sum / 2) = 1000000 := by norm_num
  rw [hsum] at b2
  have hwork : r.skier.beam.slipWork 1000000 ≤ 1 ∧ 0 ≤ r.skier.beam.slipWork 1000000 := by
    unfold Beam.slipWork
    have h1 : Real.sqrt (r.skier.beam.slipCompliance * r.skier.beam.slipRateCompliance) ≤ 0.2 := by
      rw [Real.sqrt_le_left (by norm_num)]
      calc _ ≤ (400 : ℝ) * 0.0001 := mul_le_mul hC1.1 hC2.1 hC2.2 (by norm_num)
        _ ≤ _ := by norm_num
    have h2 := Real.sqrt_nonneg (r.skier.beam.slipCompliance * r.skier.beam.slipRateCompliance)
    have h3 : r.skier.beam.slipCompliance / 1000000 ≤ 0.0004 := by
      rw [div_le_iff₀ (by norm_num)]; norm_num; linarith [hC1.1]
    have h4 : 0 ≤ r.skier.beam.slipCompliance / 1000000 := div_nonneg hC1.2 (by norm_num)
    norm_num at h1 h3
    constructor <;> linarith
  have hV : 0 ≤ w * (9.81 / 1000) ∧ w * (9.81 / 1000) ≤ 0.04905 := by
    constructor
    · positivity
    · norm_num; linarith
  constructor
  · refine b1.trans ?_
    have := mul_le_mul hspread hV.2 hV.1 (by norm_num)
    norm_num at this ⊢
    linarith
  · rw [ekn, ekt] at b2
    have h1 : r.skier.beam.spread 2300 * r.skier.beam.slipWork 1000000 ≤ 0.00077 := by
      have := mul_le_mul hspread hwork.1 hwork.2 (by norm_num)
      linarith
    have h2 : (w * (9.81 / 1000)) ^ 2 ≤ 0.04905 ^ 2 := pow_le_pow_left₀ hV.1 hV.2 2
    have h3 := mul_le_mul h1 h2 (sq_nonneg _) (by norm_num)
    have e : (p.2 / 1000) ^ 2 = p.2 ^ 2 / 1000000 := by rw [div_pow]; norm_num
    rw [e, div_le_iff₀ (by norm_num)] at b2
    norm_num at b2 h3 ⊢
    nlinarith

/-- Distances below the slab for weights up to 5 kg, if the slab alone takes 97 %
of the strength (in terms of the distance). -/
theorem deepSite_trial {o : ℝ} (ho : (cover (deepSite o).profile / (6.16 * 0.55 ^ o)) ^ 2 = 0.97) {w : ℝ} {p : Trial}
    (hp : trial midNum (deepSite o) [1000000, 0, 0, 1000000] [true, true, true, true] w = .ok p) :
    p.distMin ≤ p.distMax ∧ 0.97 ≤ p.distMax ∧ (0 ≤ w → w ≤ 5 → p.distMax < 0.99) := by
  have hk : 0 < (0.55 : ℝ) ^ o := Real.rpow_pos_of_pos (by norm_num) o
  have hq : cover (deepSite o).profile = 1000 * (917 * (4 / 5) ^ 5 * 1e-12 * 9810 * 2000) := deepSite_cover o
  have hq0 : 5.89 < cover (deepSite o).profile ∧ cover (deepSite o).profile < 5.9 := by rw [hq]; constructor <;> norm_num
  have hphi : Real.cos (deg2rad (deepSite o).phi) = 1 := by simp [deepSite, deg2rad]
  obtain ⟨n, hn, a, b, c, d, H, H'⟩ := uncracked_family midNum (deepSite o) (deepSite_ok o) _ _ deepBeam_ok
  obtain ⟨hb, -⟩ := H' (by norm_num [nth])
  -- the first sample carries the snow cover
  have ha : a 0 = - cover (deepSite o).profile := by
    obtain ⟨r, r1, r2, -⟩ := H 0
    obtain ⟨r', q1, q2⟩ := C50_solution_partial midNum (deepSite o) (deepSite_ok o) 0 _ _ deepBeam_ok .nocrack
    rw [r1] at q1
    injection q1 with q1
    subst q1
    have hm : a 0 ∈ reals r.sigma := by
      rw [r2]; exact List.mem_map.2 ⟨0, List.mem_range.2 hn, by ring⟩
    rw [(slab_alone_samples (deepSite o) _ _ deepBeam_ok q2).1 _ hm]
    have hqq : (r.skier.slab.map fun l => l.rho * 1e-12 * r.skier.g * l.h).sum
        = ((deepSite o).profile.map fun p => p.rho * 1e-12 * 9810 * p.h).sum := by
      rw [← q2.profile, List.map_map, q2.load.2.1]
      rfl
    have hk' := q2.stiff.kn.ne'
    simp only [zp, if_true, Matrix.cons_val, getWeightLoad, getSurfaceLoad, hqq, q2.load.1, hphi, mul_one, add_zero, cover]
    field_simp
    ring_nf
  obtain ⟨r, r1, r2, r3⟩ := H w
  have hel := C46_adam 0.55 o 250 false
  rw [scaled_factor] at hel
  have hd : distances (deepSite o).env r = .ok (((reals r.sigma).zip (reals r.tau)).map fun p =>
      (p.1 / (6.16 * 0.55 ^ o)) ^ 2 + (p.2 / (5.09 * 0.55 ^ o)) ^ 2) := by
    unfold distances
    exact mapM_ok _ fun p _ => hel p.1 p.2
  have hmem : (a 0, c 0 + w * d 0) ∈ (reals r.sigma).zip (reals r.tau) := by
    rw [r2, r3, List.zip_map']
    exact List.mem_map.2 ⟨0, List.mem_range.2 hn, by rw [hb, mul_zero, add_zero]⟩
  unfold trial at hp
  rw [r1] at hp
  simp only [bind, Except.bind] at hp
  rw [hd] at hp
  simp only at hp
  have hne := List.ne_nil_of_mem (List.mem_map_of_mem (f := fun p : ℝ × ℝ =>
      (p.1 / (6.16 * 0.55 ^ o)) ^ 2 + (p.2 / (5.09 * 0.55 ^ o)) ^ 2) hmem)
  obtain ⟨hi, h1, h2, h3⟩ := npMax_ok hne
  obtain ⟨lo, l1, l2, l3⟩ := npMin_ok hne
  rw [h1] at hp
  simp only at hp
  rw [l1] at hp
  injection hp with hp
  rw [← hp]
  refine ⟨l3 _ h2, ?_, fun hw hw5 => ?_⟩
  · have := h3 _ (List.mem_map_of_mem hmem)
    refine le_trans ?_ this
    rw [ha, neg_div, neg_sq, ho]
    exact le_add_of_nonneg_right (sq_nonneg _)
  · obtain ⟨v, v1, v2⟩ := List.mem_map.1 h2
    obtain ⟨b1, b2⟩ := deepSite_stress o hw hw5 r1 v v1
    show hi < 0.99
    rw [← v2]
    have hK : (0.55 ^ o : ℝ) ^ 2 = (cover (deepSite o).profile / 6.16) ^ 2 / 0.97 := by
      rw [← div_div, div_pow _ (0.55 ^ o : ℝ)] at ho
      rw [div_eq_iff (by positivity)] at ho
      rw [ho]
      field_simp
    obtain ⟨b3, b4⟩ := abs_le.1 b1
    have e1 : (v.1 / (6.16 * 0.55 ^ o)) ^ 2 = 0.97 * (v.1 ^ 2 / cover (deepSite o).profile ^ 2) := by
      rw [div_pow, mul_pow, hK]
      have : cover (deepSite o).profile ≠ 0 := by linarith [hq0.1]
      field_simp
    have e2 : (v.2 / (5.09 * 0.55 ^ o)) ^ 2 ≤ 0.001 := by
      rw [div_pow, mul_pow, hK, div_le_iff₀ (by have := hq0.1; norm_num at this ⊢; nlinarith)]
      have := hq0.1
      norm_num at this b2 ⊢
      nlinarith
    have e3 : v.1 ^ 2 / cover (deepSite o).profile ^ 2 ≤ 1.014 := by
      rw [div_le_iff₀ (by have := hq0.1; norm_num at this ⊢; nlinarith)]
      have := hq0.1
      norm_num at this b3 b4 ⊢
      nlinarith
    rw [e1]
    norm_num at e2 e3 ⊢
    linarith

/-- A strength for which the slab alone takes 97 % of it. -/
theorem deepSite_strength : ∃ o : ℝ, (cover (deepSite o).profile / (6.16 * 0.55 ^ o)) ^ 2 = 0.97 := by
  have hpos : (0 : ℝ) < 1000 * (917 * (4 / 5) ^ 5 * 1e-12 * 9810 * 2000) / 6.16 / Real.sqrt 0.97 := by positivity
  refine ⟨Real.logb 0.55 (1000 * (917 * (4 / 5) ^ 5 * 1e-12 * 9810 * 2000) / 6.16 / Real.sqrt 0.97), ?_⟩
  rw [deepSite_cover, Real.rpow_logb (by norm_num) (by norm_num) hpos, ← div_div]
  rw [div_div_cancel₀ (by positivity), Real.sq_sqrt (by norm_num)]

set_option maxHeartbeats 1000000 in
/-- C52, against the code: two metres of snow on level ground leave 3 % of the
strength, and a critical weight above 5 kg exists. `find_minimum_force` takes
steps too small to get there, and after six searches it returns the weight 0
together with the solution and the distances of another weight. -/
theorem C52_gives_up_violated : ∃ o t0 c tc p, SiteOk midNum (deepSite o) ∧ EllipticEnv (deepSite o).env ∧
    trial midNum (deepSite o) [1000000, 0, 0, 1000000] [true, true, true, true] 0 = .ok t0 ∧ t0.distMax = 0.97 ∧
    5 < c ∧ trial midNum (deepSite o) [1000000, 0, 0, 1000000] [true, true, true, true] c = .ok tc ∧ tc.distMax = 1 ∧
    minForce (trial midNum (deepSite o) [1000000, 0, 0, 1000000] [true, true, true, true]) = .ok p ∧ p.weight = 0 ∧
    p.distMax < 0.99 ∧ p.distMin ≤ p.distMax ∧ ∃ v, 0 < v ∧ createSkierObject midNum (deepSite o) v [1000000, 0, 0, 1000000]
      [true, true, true, true] .nocrack = .ok p.run := by
  obtain ⟨o, ho⟩ := deepSite_strength
  have hs := deepSite_ok o
  have he : EllipticEnv (deepSite o).env := EllipticEnv.adam 0.55 o 250
  have hcos : Real.cos (deg2rad (deepSite o).phi) = 1 ∧ Real.sin (deg2rad (deepSite o).phi) = 0 := by simp [deepSite, deg2rad]
  have hel := C46_adam 0.55 o 250 false
  rw [scaled_factor] at hel
  obtain ⟨t0, k1, -, k2⟩ := C52_slab_alone midNum (deepSite o) hs _ _ deepBeam_ok hel
  rw [hcos.1, hcos.2, mul_one, mul_zero, zero_div, zero_pow two_ne_zero, add_zero, ho] at k2
  obtain ⟨c, tc, c0, c1, c2, c3, c4⟩ := C52_level midNum (deepSite o) hs he rfl _ _ deepBeam_ok k1 (by rw [k2]; norm_num)
  have hc : 5 < c := by
    by_contra hc
    have := (deepSite_trial ho c1).2.2 c0.le (not_lt.1 hc)
    rw [c2] at this
    norm_num at this
  have hT := site_trials midNum (deepSite o) hs he (by rw [hcos.1]; norm_num) _ _ deepBeam_ok (by norm_num [nth])
  obtain ⟨p, p1, p2, v, v1, v2, q, q1, q2, q3, q4⟩ := minForce_stuck hT (fun p hp => (deepSite_trial ho hp.2).1) (d := 0.97) (B := 5)
    (by norm_num) (by norm_num) (by norm_num) (fun p hp hw => by
      obtain ⟨-, a2, a3⟩ := deepSite_trial ho hp.2
      exact ⟨a2, a3 hp.1.le hw⟩)
  obtain ⟨d1, -, d2⟩ := deepSite_trial ho q1
  refine ⟨o, t0, c, tc, p, hs, he, k1, k2, hc, c1, c2, p1, p2, by rw [← q3]; exact d2 v1.le v2, by rw [← q3, ← q4]; exact d1, v, v1, ?_⟩
  obtain ⟨n, -, a, b, c', d, sc, tc', -, -, H, -⟩ := trial_family midNum (deepSite o) hs he _ _ deepBeam_ok
  obtain ⟨q', f1, -, f2, -⟩ := H v
  rw [q1] at f1
  injection f1 with f1
  subst f1
  rw [← q2]
  exact f2

/-- C54, against the code: for the same slab
`check_coupled_criterion_anticrack_nucleation` reports that nothing fails and
that the critical weight is 0. -/
theorem C54_missed_violated (quad : Quad) (fuel : ℕ) : ∃ o t0 c tc x, SiteOk midNum (deepSite o) ∧ EllipticEnv (deepSite o).env ∧
    trial midNum (deepSite o) [1000000, 0, 0, 1000000] [true, true, true, true] 0 = .ok t0 ∧ t0.distMax = 0.97 ∧
    5 < c ∧ trial midNum (deepSite o) [1000000, 0, 0, 1000000] [true, true, true, true] c = .ok tc ∧ tc.distMax = 1 ∧
    coupledCriterion midNum quad fuel (deepSite o) = .ok (some x) ∧ x.result = false ∧ x.weight = 0 ∧ x.critical = 0 := by
  obtain ⟨o, t0, c, tc, p, h1, h2, h3, h4, h5, h6, h7, h8, h9, h10, h11, -⟩ := C52_gives_up_violated
  refine ⟨o, t0, c, tc, tooLight p, h1, h2, h3, h4, h5, h6, h7, ?_, rfl, h9, h9⟩
  unfold coupledCriterion
  have e : (1000 * profileHeight (deepSite o).profile) / 2 = 1000000 := by norm_num [deepSite, profileHeight]
  simp only [e]
  rw [h8]
  simp only [bind, Except.bind]
  rw [if_neg (by norm_num at h10 h11 ⊢; linarith), if_neg (by rw [h9]; norm_num)]
  rfl

end Weac
