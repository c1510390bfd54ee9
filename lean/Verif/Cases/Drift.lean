import Verif.Props.MaterialsLayered
import Verif.Props.TouchdownRuns

/-!
# Concrete case for the continuity of solutions with touchdown

C89: a slab of ice (917 kg/m³, 50 mm) on a weak layer with 1 MPa, as a saw test of
8 m cut by 5 m and more. Surface load, slope and crack vary.
-/

namespace Weac
open Spec

theorem ice_fields {eig : EigSolver} {p : ℝ} {s : Self} (h : MadeOf eig [⟨917, 50⟩] 30 1 0.25 p s) :
    s.kn = 8 / 225 ∧ s.kt = 1 / 75 ∧ s.A11 = 1040000 / 3 ∧ s.B11 = 0 ∧ s.D11 = 650000000 / 9 ∧ s.kA55 = 325000 / 3 ∧ s.h = 50 ∧
    s.t = 30 ∧ s.K0 = -(1040000 / 3 * (650000000 / 9)) := by
  have hE : bergfeld 917 917 6.5 4.4 = 6500 := by
    unfold bergfeld
    rw [div_self (by norm_num), Real.one_rpow]
    norm_num
  have f1 : s.slab = [⟨917, 50, 6500, 2600, 0.25⟩] := by
    rw [h.slab]
    simp only [List.map_cons, List.map_nil, plyRow, hE]
    norm_num
  have f2 : s.h = 50 := by
    rw [h.ready.slab.h, f1]
    simp [total]
  have f3 := h.ready.slab.k
  have f4 := h.t
  have f5 := h.weak
  obtain ⟨h1, h2, h3, h4, h5, h6, h7⟩ := fundamental_fields eig s
  rw [show calcFundamentalSystem eig s = s from h.ready.fresh] at h1 h2 h3 h4 h5 h6 h7
  rw [laminate_eq] at h3 h4 h5 h6 h7
  simp only [f1, f2, f3, layerSum] at h3 h4 h5 h6 h7
  simp only [calcFoundationStiffness, f4, f5] at h1 h2
  refine ⟨?_, ?_, ?_, ?_, ?_, ?_, f2, f4, ?_⟩
  · rw [h1]; norm_num
  · rw [h2]; norm_num
  · rw [h3]; norm_num
  · rw [h4]; norm_num
  · rw [h5]; norm_num
  · rw [h6]; norm_num
  · rw [h7]; norm_num

/-- On a foundation that is stiffer by the factor `r`. -/
theorem ice_disc {s : Self} {r : ℝ} (hr : r = 1 ∨ r = 1000) (h1 : s.kn = r * (8 / 225)) (h2 : s.kt = r * (1 / 75))
    (h3 : s.A11 = 1040000 / 3) (h4 : s.B11 = 0) (h5 : s.D11 = 650000000 / 9) (h6 : s.kA55 = 325000 / 3) (h7 : s.h = 50)
    (h8 : s.t = 30) (hK0 : s.K0 = -(1040000 / 3 * (650000000 / 9))) : (cubicOf s).disc ≠ 0 := by
  unfold Cubic.disc cubicOf
  simp only [calcSystemMatrix, h1, h2, h3, h4, h5, h6, h7, h8, hK0]
  simp only [Matrix.of_apply, Matrix.cons_val', Matrix.cons_val]
  rcases hr with rfl | rfl <;> norm_num

/-- The load at the inclination `phi`. -/
theorem ice_load {eig : EigSolver} {p : ℝ} {s : Self} (h : MadeOf eig [⟨917, 50⟩] 30 1 0.25 p s) (phi : ℝ) :
    (getWeightLoad s phi).1 + (getSurfaceLoad s phi).1 = (917 * 50 * 9810 / 10 ^ 12 + p) * Real.cos (deg2rad phi) := by
  simp only [getWeightLoad, getSurfaceLoad, h.slab, h.g, h.p, plyRow, List.map_cons, List.map_nil, List.sum_cons, List.sum_nil]
  norm_num
  ring

theorem ice_bracketed {p : ℝ} {o : Self} (h : MadeOf stdEig [⟨917, 50⟩] 30 1 0.25 p o) (hphi0 : o.phi = 0) (p0 : 0 ≤ p)
    (p1 : p ≤ 1 / 20000) {a phi : ℝ} (ha : 0 ≤ a) (haL : a ≤ 7000) (hphi : 4 / 5 ≤ Real.cos (deg2rad phi)) :
    let s := setTouchdownAttributes 8000 a (1 / 2) phi 1000 o
    Bracketed midNum s 1000 ∧ 72 * bsOf s * s.tc ≤ calcQn s * (999 / 1000 * 4500) ^ 4 := by
  intro s
  obtain ⟨h1, h2, h3, h4, h5, h6, h7, h8, hK⟩ := ice_fields h
  have hst := h.ready.stiff
  have hfr := h.ready.fresh.eigFresh
  have hbed : BedOk o := C13_discriminant stdEig o hst hfr (stdEig_ok _)
    (ice_disc (.inl rfl) (by rw [h1]; norm_num) (by rw [h2]; norm_num) h3 h4 h5 h6 h7 h8 hK)
  have hsh : ShearOk o := by
    unfold ShearOk
    rw [h2, h6, h8]; norm_num
  have hc1 := Real.cos_le_one (deg2rad phi)
  have q : calcQn s = (917 * 50 * 9810 / 10 ^ 12 + p) * Real.cos (deg2rad phi) := ice_load h phi
  have q1 : 35 / 100000 ≤ calcQn s := by rw [q]; norm_num; nlinarith
  have q2 : calcQn s ≤ 1 / 2000 := by rw [q]; norm_num; nlinarith
  have q0 : (s.loads 0).qn + (s.loads 0).pn = 917 * 50 * 9810 / 10 ^ 12 + p := by
    rw [show (s.loads 0).qn + (s.loads 0).pn = (917 * 50 * 9810 / 10 ^ 12 + p) * Real.cos (deg2rad 0) from ice_load h 0]
    simp [deg2rad]
  have htc : s.tc = 15 - (917 * 50 * 9810 / 10 ^ 12 + p) * (225 / 8) := by
    have : s.tc = 1 / 2 * o.t - calcQn o / o.kn := rfl
    rw [this, h8, h1, show calcQn o = (917 * 50 * 9810 / 10 ^ 12 + p) * Real.cos (deg2rad o.phi) from ice_load h o.phi, hphi0]
    simp only [deg2rad, zero_mul, Real.cos_zero]
    ring
  have t1 : 14 ≤ s.tc := by rw [htc]; norm_num; linarith
  have t2 : s.tc ≤ 15 := by rw [htc]; norm_num; linarith
  have ebs : bsOf s = 650000000 / 9 := by
    show -(o.B11 ^ 2 / o.A11 - o.D11) = _
    rw [h4, h5]; norm_num
  have eD : s.beam.Dred = 650000000 / 9 := by
    have : s.beam.Dred = o.D11 - o.B11 ^ 2 / o.A11 := rfl
    rw [this, h4, h5]; norm_num
  have eS : s.beam.Sred = 325000 / 3 - 3 / 4 := by
    have : s.beam.Sred = o.kA55 - o.kt * o.t ^ 2 / 16 := rfl
    rw [this, h6, h2, h8]; norm_num
  have ek : s.beam.kn = 8 / 225 := h1
  have es : s.kA55 = 325000 / 3 := h6
  have eL : s.L = 8000 := rfl
  have hf72 : 72 * bsOf s * s.tc ≤ 72 * (650000000 / 9) * 15 := by
    rw [ebs]
    exact mul_le_mul_of_nonneg_left t2 (by norm_num)
  have r := restOk_of midNum (s.stage "pst-" .C 8000 1 s.tc 0 0 1000) (hst.stage _ _ _ _ _ _ _ _)
    (show (0 : ℝ) < 1000 by norm_num) (show (0 : ℝ) < 1 by norm_num) (stdEig_ok _)
    (ice_disc (.inr rfl) (show 1000 * o.kn = _ by rw [h1]) (show 1000 * o.kt = _ by rw [h2]) h3 h4 h5 h6 h7 h8 hK)
    (show 1000 * o.kt * o.t ^ 2 < 16 * o.kA55 by rw [h2, h6, h8]; norm_num)
  refine ⟨⟨midNum_runs, hfr.stage _ _ _ _ _ _ _ _, hbed.stage _ _ _ _ _ _ _ _, hsh.stage _ _ _ _ _ _ _ _,
    r.bed.stage "rot" _ _ _ _ _ _ _, r.shear.stage "rot" _ _ _ _ _ _ _, by linarith, ?_, ?_, by norm_num, ha, ?_, ?_, ?_, ?_⟩, ?_⟩
  · rw [q0]; positivity
  · refine .inr ⟨1745, by norm_num, ?_⟩
    have e : s.beam.S = 325000 / 3 := h6
    unfold Spec.Beam.decay
    rw [q0, ek, eS, e]
    norm_num
    linarith
  · rw [eL]; show a + 1000 ≤ 8000; linarith
  · refine lt_of_le_of_lt (mul_le_mul_of_nonneg_right q2 ?_) (lt_of_lt_of_le ?_ t1)
    all_goals
      unfold tipBound rotBound deflBound
      rw [ebs, es, eD, eS, ek, eL]
      norm_num
  · refine hf72.trans (le_trans ?_ (mul_le_mul_of_nonneg_right q1 (by positivity)))
    rw [eL]; norm_num
  · rw [eL]; norm_num
  · refine hf72.trans (le_trans ?_ (mul_le_mul_of_nonneg_right q1 (by positivity)))
    norm_num

/-- The middle of the bracket as touchdown length. -/
theorem mid_length {s : Self} {d : ℝ} (h : Bracketed midNum s d) (ha : 0 < s.a)
    (high : 72 * bsOf s * s.tc ≤ calcQn s * (999 / 1000 * s.a) ^ 4) : calcLC midNum s = (.ok (s.a / 2), s) := by
  have hbs := bsOf_pos h.bed h.shear
  have hss := h.bed.stiff.kA55
  have hd := h.dpos
  have haL := h.aL
  have hq := h.qn
  have hx : 0 < s.a / 1000 := by positivity
  have hxL : s.a / 1000 ≤ 999 / 1000 * s.a := by linarith
  have hl : 0 < s.L - s.a := by linarith
  obtain ⟨kR, a1, kRp, a3⟩ := rot_spring midNum.eig s h.fresh h.bed h.shear (s.L - s.a) hl
  obtain ⟨kN, b1, kNp, b3⟩ := trans_spring midNum.eig s h.fresh h.bed h.shear (s.L - s.a) hl h.q0 (h.load.mono h.q0 (by linarith))
  have htip : calcQn s * tipDeflection (bsOf s) s.kA55 kR kN (s.a / 1000) ≤ s.tc :=
    (mul_le_mul_of_nonneg_left (tip_le (a3 d hd (by linarith)) (b3 d hd (by linarith)) hx) hq.le).trans ((mul_le_mul_of_nonneg_left
      (tipBound_mono h.bed h.shear hd hx.le (by linarith)) hq.le).trans h.low.le)
  obtain ⟨kr, e1, krp⟩ := rest_spring midNum.eig s h.fresh h.restBed h.restShear (s.a - s.a / 1000) (by linarith)
  obtain ⟨kr', e1', krp'⟩ := rest_spring midNum.eig s h.fresh h.restBed h.restShear (s.a - 999 / 1000 * s.a) (by linarith)
  unfold calcLC
  rw [Py.get_bind, brentq_mid (f := polyLC midNum.eig (bsOf s) s.kA55 s.L s.a s.tc (calcQn s))
    (by unfold polyLC; rw [Py.bind_of_ok a1, Py.bind_of_ok b1, Py.bind_of_ok e1]; rfl)
    (by unfold polyLC; rw [Py.bind_of_ok a1, Py.bind_of_ok b1, Py.bind_of_ok e1']; rfl)
    (polyLC_neg hbs hss kRp kNp krp hq hx htip) (polyLC_pos hbs hss kRp kNp krp' hq (by positivity) high)]
  congr 2
  ring

theorem ice_segments {p : ℝ} {o : Self} (h : MadeOf stdEig [⟨917, 50⟩] 30 1 0.25 p o) (hphi0 : o.phi = 0)
    (hsys : o.system = "pst-") (htd : o.touchdown = true) (hcn : o.hasContact = true) (p0 : 0 ≤ p)
    (p1 : p ≤ 1 / 20000) {a phi : ℝ} (ha : 4500 ≤ a) (haL : a ≤ 7000) (hphi : 4 / 5 ≤ Real.cos (deg2rad phi)) :
    ∃ g s', calcSegments midNum [] [] [] [] 8000 a 0 phi (1 / 2) 1000 o = (.ok g, s') ∧ s'.mode = .C ∧ s'.td = a / 2 ∧
      g.li.length = 2 := by
  obtain ⟨hb, hhigh⟩ := ice_bracketed h hphi0 p0 p1 (a := a) (by linarith) haL hphi
  set s0 := setTouchdownAttributes 8000 a (1 / 2) phi 1000 o with hs0
  have hp : (999 / 1000 * (4500 : ℝ)) ^ 4 ≤ (999 / 1000 * a) ^ 4 := pow_le_pow_left₀ (by norm_num) (by linarith) 4
  have hhigh' : 72 * bsOf s0 * s0.tc ≤ calcQn s0 * (999 / 1000 * a) ^ 4 :=
    hhigh.trans (mul_le_mul_of_nonneg_left hp hb.qn.le)
  obtain ⟨m1, m2⟩ := mid_limits hb
  have e : calcTouchdownMode midNum s0 = (.ok (), ({ s0 with mode := .C } : Self)) := by
    rw [(C24_stage_total midNum s0).2 _ _ htd m1 m2, if_neg, if_neg]
    all_goals
      show ¬ a ≤ 8000 / 2
      linarith
  have hb' : Bracketed midNum ({ s0 with mode := .C } : Self) 1000 :=
    ⟨hb.runs, hb.fresh.stage s0.system .C s0.L s0.a s0.tc s0.td s0.phi s0.ratio,
      hb.bed.stage s0.system .C s0.L s0.a s0.tc s0.td s0.phi s0.ratio,
      hb.shear.stage s0.system .C s0.L s0.a s0.tc s0.td s0.phi s0.ratio,
      hb.restBed.stage "rot" .C s0.L s0.a s0.tc s0.td s0.phi s0.ratio,
      hb.restShear.stage "rot" .C s0.L s0.a s0.tc s0.td s0.phi s0.ratio,
      hb.qn, hb.q0, hb.load, hb.dpos, hb.a, hb.aL, hb.low, hb.high, hb.dL⟩
  have hl := mid_length hb' (show 0 < a by linarith) hhigh'
  have k1 : calcTouchdownSystem midNum 8000 a (1 / 2) phi 1000 o = (.ok (), ({ s0 with mode := .C, td := a / 2 } : Self)) := by
    unfold calcTouchdownSystem
    rw [Py.modify_bind, Py.bind_of_ok e]
    unfold calcTouchdownLength
    rw [Py.get_bind]
    show (calcLC midNum >>= fun l => Py.modify fun s => { s with td := l }) _ = _
    rw [Py.bind_of_ok hl]
    rfl
  refine ⟨⟨[8000 - a, a / 2], [0], [true, false], [true, true]⟩, ({ s0 with mode := .C, td := a / 2 } : Self), ?_, rfl, rfl, rfl⟩
  unfold calcSegments
  rw [Py.get_bind, if_pos hcn, Py.bind_of_ok k1, Py.get_bind, show ({ s0 with mode := .C, td := a / 2 } : Self).system = "pst-" from hsys,
    if_neg (by decide), if_pos rfl]
  rfl

/-- Surface load, crack and slope grow together; half of the crack hangs. -/
example : ∃ (o : Set.Icc (0 : ℝ) 100 → Self) (g : Set.Icc (0 : ℝ) 100 → Segments) (s : Set.Icc (0 : ℝ) 100 → Self)
    (C : Set.Icc (0 : ℝ) 100 → List Vec6),
    (∀ t : Set.Icc (0 : ℝ) 100, Built midNum.eig "pst-" true [⟨917, 50⟩] 30 1 0.25 (t / 2000000) (o t)) ∧
    (∀ t : Set.Icc (0 : ℝ) 100, calcSegments midNum [] [] [] [] 8000 (5000 + t) 0 (t / 10) (1 / 2) 1000 (o t) = (.ok (g t), s t)) ∧
    (∀ t, (s t).mode = .C) ∧
    (∀ t : Set.Icc (0 : ℝ) 100, assembleAndSolve midNum .ndarray ((t : ℝ) / 10) ⟨(g t).li, (g t).mi, (g t).ki⟩ (s t)
      = (.ok (C t, ⟨(g t).li, (g t).mi, (g t).ki⟩), s t)) ∧
    Continuous fun t => fsig (s t) (stateAt (s t) ((t : ℝ) / 10) (g t).li (g t).ki (fun i => (C t).getD i 0) 0 (1000 + t)) := by
  have hc : Continuous fun t : Set.Icc (0 : ℝ) 100 => (t : ℝ) := continuous_subtype_val
  have h0 : ∀ t : Set.Icc (0 : ℝ) 100, 0 ≤ (t : ℝ) := fun t => t.2.1
  have h100 : ∀ t : Set.Icc (0 : ℝ) 100, (t : ℝ) ≤ 100 := fun t => t.2.2
  have hv : ValidPlies [⟨917, 50⟩] := ⟨by simp, by simp⟩
  have key := fun t : Set.Icc (0 : ℝ) 100 => made midNum.eig "pst-" true [⟨917, 50⟩] hv 30 1 0.25 ((t : ℝ) / 2000000) (by norm_num) (by norm_num)
    (by norm_num) (by norm_num)
  choose s0 k1 k2 using key
  have hcos : ∀ t : Set.Icc (0 : ℝ) 100, 4 / 5 ≤ Real.cos (deg2rad ((t : ℝ) / 10)) := fun t => by
    have h1 := h0 t
    have h2 := h100 t
    have h3 := Real.pi_pos
    have h4 := Real.pi_le_four
    have h5 : deg2rad ((t : ℝ) / 10) ≤ 4 / 18 := by
      unfold deg2rad
      nlinarith
    have h6 : 0 ≤ deg2rad ((t : ℝ) / 10) := by
      unfold deg2rad
      positivity
    have := Real.one_sub_sq_div_two_le_cos (x := deg2rad ((t : ℝ) / 10))
    nlinarith
  have hrun := fun t : Set.Icc (0 : ℝ) 100 => ice_segments (k2 t).1 (k2 t).2.2.2.2 (k2 t).2.1 (k2 t).2.2.1 (k2 t).2.2.2.1
    (a := 5000 + t) (phi := (t : ℝ) / 10) (by have := h0 t; positivity) (by have := h100 t; linarith) (by have := h0 t; linarith)
    (by have := h100 t; linarith) (hcos t)
  choose g s r1 r2 r3 r4 using hrun
  have hf := fun t => ice_fields (k2 t).1
  have hb : ∀ t : Set.Icc (0 : ℝ) 100, Built midNum.eig "pst-" true [⟨917, 50⟩] 30 1 0.25 ((t : ℝ) / 2000000) _ :=
    fun t => ⟨s0 t, k1 t, rfl⟩
  obtain ⟨C, c1, c2⟩ := C89_touchdown (T := Set.Icc (0 : ℝ) 100) midNum stdEig_ok midNum_runs.inside "pst-" (by decide) [fun _ => ⟨917, 50⟩]
    (by
      intro f hf
      simp only [List.mem_singleton] at hf
      subst hf
      exact ⟨continuous_const, continuous_const⟩)
    (fun t => hv) (fun _ => 30) (fun _ => 1) (fun _ => 0.25) (fun t => (t : ℝ) / 2000000) continuous_const continuous_const
    continuous_const (by fun_prop) (fun _ => by norm_num) (fun _ => by norm_num) (fun _ => by norm_num) (fun _ => by norm_num)
    (fun _ => 8000) (fun t => 5000 + t) (fun _ => 0) (fun t => t / 10) (fun _ => 1 / 2) (fun _ => 1000) continuous_const (by fun_prop)
    continuous_const (by fun_prop) continuous_const continuous_const (fun t => by have := h0 t; linarith)
    (fun t => by have := h100 t; linarith) _ hb
    (fun t => by
      obtain ⟨h1, h2, h3, h4, h5, h6, h7, h8, hK⟩ := hf t
      exact ice_disc (.inl rfl) (by rw [h1]; norm_num) (by rw [h2]; norm_num) h3 h4 h5 h6 h7 h8 hK)
    (fun t => by
      obtain ⟨-, h2, -, -, -, h6, -, h8, -⟩ := hf t
      unfold ShearOk
      rw [h2, h6, h8]; norm_num)
    .ndarray g s r1 .C r2
    (fun _ => ⟨by simp only [r3]; fun_prop, fun t => by
      obtain ⟨h1, h2, h3, h4, h5, h6, h7, h8, hK⟩ := hf t
      have hfr := (C25_touchdown_system_frame midNum _ _ _ _ _ _ _ (k2 t).1.ready.fresh.eigFresh (calcSegments_ok (r1 t)).2.1).1
      refine ⟨by norm_num, ?_, by rw [h2, h6, h8]; norm_num⟩
      rw [hfr]
      exact ice_disc (.inr rfl) (by rw [← h1]; rfl) (by rw [← h2]; rfl) h3 h4 h5 h6 h7 h8 hK⟩)
  exact ⟨_, g, s, C, hb, r1, r2, c1, (c2 0 (fun t => by rw [r4]; norm_num) (fun t => 1000 + t) (by fun_prop)).2.1⟩

end Weac
