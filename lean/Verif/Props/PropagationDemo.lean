import Verif.Props.Propagation

/-! # C56: a root finder that meets the contract, and a slab with a critical crack -/

namespace Weac
open Spec

/-! ## Bisection -/

/-- Two evaluated points of opposite sign inside the interval. -/
def Pair (a b : ℝ) (hist : List (ℝ × ℝ)) (p q : ℝ × ℝ) : Prop :=
  p ∈ hist ∧ q ∈ hist ∧ p.2 * q.2 ≤ 0 ∧ a ≤ p.1 ∧ p.1 ≤ b ∧ a ≤ q.1 ∧ q.1 ≤ b

theorem pair_min {a b : ℝ} {hist : List (ℝ × ℝ)} (h : ∃ p q, Pair a b hist p q) :
    ∃ p q, Pair a b hist p q ∧ ∀ p' q', Pair a b hist p' q' → |p.1 - q.1| ≤ |p'.1 - q'.1| := by
  classical
  have hf : {x : (ℝ × ℝ) × (ℝ × ℝ) | Pair a b hist x.1 x.2}.Finite := by
    refine ((List.finite_toSet hist).prod (List.finite_toSet hist)).subset ?_
    rintro ⟨p, q⟩ hx
    exact ⟨hx.1, hx.2.1⟩
  obtain ⟨p, q, hpq⟩ := h
  obtain ⟨x, hx, hm⟩ := Set.exists_min_image _ (fun x : (ℝ × ℝ) × (ℝ × ℝ) => |x.1.1 - x.2.1|) hf ⟨(p, q), hpq⟩
  exact ⟨x.1, x.2, hx, fun p' q' h' => hm (p', q') h'⟩

open Classical in
/-- Bisection to the accuracy `δ`. -/
noncomputable def bisect (δ a b : ℝ) (hist : List (ℝ × ℝ)) : ℝ ⊕ ℝ :=
  if h : ∃ p q, Pair a b hist p q then
    let p := (pair_min h).choose
    let q := (pair_min h).choose_spec.choose
    if |p.1 - q.1| ≤ δ then .inr p.1 else .inl ((p.1 + q.1) / 2)
  else .inl a

noncomputable def bisectNum (δ : ℝ) : Numerics := ⟨stdEig, bisect δ⟩

theorem bisect_cases (δ a b : ℝ) (hist : List (ℝ × ℝ)) :
    (¬ (∃ p q, Pair a b hist p q) ∧ bisect δ a b hist = .inl a) ∨
    ∃ p q, Pair a b hist p q ∧ (∀ p' q', Pair a b hist p' q' → |p.1 - q.1| ≤ |p'.1 - q'.1|) ∧
      (|p.1 - q.1| ≤ δ ∧ bisect δ a b hist = .inr p.1 ∨ δ < |p.1 - q.1| ∧ bisect δ a b hist = .inl ((p.1 + q.1) / 2)) := by
  unfold bisect
  by_cases h : ∃ p q, Pair a b hist p q
  · rw [dif_pos h]
    refine .inr ⟨(pair_min h).choose, (pair_min h).choose_spec.choose, (pair_min h).choose_spec.choose_spec.1,
      (pair_min h).choose_spec.choose_spec.2, ?_⟩
    simp only
    split_ifs with hd
    · exact .inl ⟨hd, rfl⟩
    · exact .inr ⟨not_le.mp hd, rfl⟩
  · rw [dif_neg h]
    exact .inl ⟨h, rfl⟩

theorem bisectNum_sound {δ : ℝ} (hδ : 0 ≤ δ) : BrentSound (bisectNum δ) δ := by
  refine ⟨?_, ?_, ?_⟩
  · intro a b hist r hab h
    change bisect δ a b hist = _ at h
    rcases bisect_cases δ a b hist with ⟨-, e⟩ | ⟨p, q, hp, -, ⟨-, e⟩ | ⟨-, e⟩⟩ <;> rw [e] at h
    · cases h
    · injection h with h
      subst h
      exact ⟨hp.2.2.2.1, hp.2.2.2.2.1⟩
    · cases h
  · intro a b hist x hab h
    change bisect δ a b hist = _ at h
    rcases bisect_cases δ a b hist with ⟨-, e⟩ | ⟨p, q, ⟨-, -, -, p1, p2, q1, q2⟩, -, ⟨-, e⟩ | ⟨-, e⟩⟩ <;> rw [e] at h
    · injection h with h
      subst h
      exact ⟨le_rfl, hab⟩
    · cases h
    · injection h with h
      subst h
      constructor <;> linarith
  · intro a b hist r h _
    change bisect δ a b hist = _ at h
    rcases bisect_cases δ a b hist with ⟨-, e⟩ | ⟨p, q, ⟨m1, m2, m3, -⟩, -, ⟨hd, e⟩ | ⟨-, e⟩⟩ <;> rw [e] at h
    · cases h
    · injection h with h
      subst h
      exact ⟨p, m1, q, m2, m3, by simpa using hδ, by rw [abs_sub_comm]; exact hd⟩
    · cases h

/-- Bisection ends. -/
theorem bisect_ends {δ : ℝ} {F : ℝ → ℝ} {f : ℝ → Py ℝ} {a b : ℝ} {s : Self}
    (hf : ∀ x, a ≤ x → x ≤ b → f x s = (.ok (F x), s)) :
    ∀ n hist, (∃ p q, Pair a b hist p q ∧ |p.1 - q.1| ≤ δ * 2 ^ n) →
      ∃ r, brentLoop (bisect δ a b) f (n + 1) hist s = (.ok r, s) := by
  intro n
  induction n with
  | zero =>
    rintro hist ⟨p, q, h1, h2⟩
    unfold brentLoop
    rcases bisect_cases δ a b hist with ⟨hn, -⟩ | ⟨p', q', h3, h4, ⟨-, e⟩ | ⟨h5, -⟩⟩
    · exact absurd ⟨p, q, h1⟩ hn
    · rw [e]; exact ⟨_, rfl⟩
    · exact absurd ((h4 p q h1).trans (by simpa using h2)) (not_le.mpr h5)
  | succ n ih =>
    rintro hist ⟨p, q, h1, h2⟩
    unfold brentLoop
    rcases bisect_cases δ a b hist with ⟨hn, -⟩ | ⟨p', q', h3, h4, ⟨-, e⟩ | ⟨h5, e⟩⟩
    · exact absurd ⟨p, q, h1⟩ hn
    · rw [e]; exact ⟨_, rfl⟩
    · rw [e]
      obtain ⟨m1, m2, m3, p1, p2, q1, q2⟩ := h3
      have hx := hf ((p'.1 + q'.1) / 2) (by linarith) (by linarith)
      simp only
      rw [Py.bind_of_ok hx]
      have hd : |p'.1 - q'.1| ≤ δ * 2 ^ (n + 1) := (h4 p q h1).trans h2
      rw [pow_succ] at hd
      apply ih
      set y := F ((p'.1 + q'.1) / 2)
      have hsign : p'.2 * y ≤ 0 ∨ q'.2 * y ≤ 0 := by
        by_contra hc
        push Not at hc
        have := mul_pos hc.1 hc.2
        nlinarith [sq_nonneg y]
      rcases hsign with hy | hy
      · refine ⟨p', ((p'.1 + q'.1) / 2, y), ⟨List.mem_append_left _ m1, by simp, hy, p1, p2, by simp only; linarith,
          by simp only; linarith⟩, ?_⟩
        rw [show p'.1 - (p'.1 + q'.1) / 2 = (p'.1 - q'.1) / 2 by ring, abs_div, abs_of_pos (show (0 : ℝ) < 2 by norm_num)]
        linarith
      · refine ⟨q', ((p'.1 + q'.1) / 2, y), ⟨List.mem_append_left _ m2, by simp, hy, q1, q2, by simp only; linarith,
          by simp only; linarith⟩, ?_⟩
        rw [show q'.1 - (p'.1 + q'.1) / 2 = -((p'.1 - q'.1) / 2) by ring, abs_neg, abs_div,
          abs_of_pos (show (0 : ℝ) < 2 by norm_num)]
        linarith

theorem bisectNum_found {δ : ℝ} (site : Site) (hs : SiteOk (bisectNum δ) site) (dummy : Self)
    {lo hi : ℝ} (h0 : 0 ≤ lo) (h1 : lo ≤ hi) (h2 : hi < 1000 * profileHeight site.profile) (hd : hi - lo ≤ δ * 2 ^ 99)
    {vl vh : ℝ} {bl bh : Bool}
    (hl : crackPropagation (bisectNum δ) site 0 (midCrack (1000 * profileHeight site.profile) lo) midSupport = .ok (vl, bl))
    (hh : crackPropagation (bisectNum δ) site 0 (midCrack (1000 * profileHeight site.profile) hi) midSupport = .ok (vh, bh))
    (hc : (vl - 1) * (vh - 1) ≤ 0) : ∃ a, minCrackLength (bisectNum δ) site lo hi dummy = .ok (some a) := by
  obtain ⟨v, v1, v2⟩ := objective_run (bisectNum δ) site hs
  have hf : ∀ x, lo ≤ x → x ≤ hi → Py.lift (propagationObjective (bisectNum δ) site x) dummy = (.ok (v x - 1), dummy) := by
    intro x x1 x2
    rw [Py.lift_apply, (v2 x (by linarith) (by linarith)).2]
  rw [(v2 lo h0 (by linarith)).1] at hl
  rw [(v2 hi (by linarith) h2).1] at hh
  simp only [Except.ok.injEq, Prod.mk.injEq] at hl hh
  rw [← hl.1, ← hh.1] at hc
  suffices ∃ r, brentq (bisectNum δ) (fun a => Py.lift (propagationObjective (bisectNum δ) site a)) lo hi dummy = (.ok r, dummy) by
    obtain ⟨r, hr⟩ := this
    exact ⟨r, by unfold minCrackLength; rw [hr]⟩
  unfold brentq
  rw [Py.bind_of_ok (hf lo le_rfl h1), Py.bind_of_ok (hf hi h1 le_rfl)]
  by_cases e1 : v lo - 1 = 0
  · rw [if_pos e1]; exact ⟨lo, rfl⟩
  by_cases e2 : v hi - 1 = 0
  · rw [if_neg e1, if_pos e2]; exact ⟨hi, rfl⟩
  rw [if_neg e1, if_neg e2, if_neg (not_lt.mpr hc)]
  refine bisect_ends (F := fun x => v x - 1) hf 99 _ ⟨(lo, v lo - 1), (hi, v hi - 1), ⟨by simp, by simp, hc, le_rfl, h1, h1, le_rfl⟩, ?_⟩
  rw [abs_sub_comm, abs_of_nonneg (by simpa using h1)]
  exact hd

/-! ## A soft slab on level ground -/

/-- A slab of 200 mm with a density of about 154 kg/m³, for which the modulus is
rational, on the default weak layer on level ground. -/
noncomputable def softSite : Site := { profile := [⟨917 * (7 / 10) ^ 5, 200⟩], phi := 0 }

theorem softSite_modulus : bergfeld (917 * (7 / 10) ^ 5) 917 6.5 4.4 = 6500 * (7 / 10) ^ 22 := by
  unfold bergfeld
  rw [show (917 : ℝ) * (7 / 10) ^ 5 / 917 = (7 / 10 : ℝ) ^ (5 : ℝ) by
    rw [show (5 : ℝ) = ((5 : ℕ) : ℝ) by norm_num, Real.rpow_natCast]; norm_num, ← Real.rpow_mul (by norm_num)]
  rw [show (5 : ℝ) * 4.4 = ((22 : ℕ) : ℝ) by norm_num, Real.rpow_natCast]
  norm_num

theorem softSite_fields (eig : EigSolver) (s : Self) (h : siteObject eig softSite = .ok s) :
    s.kn = 2 / 225 ∧ s.kt = 1 / 300 ∧ s.B11 = 0 ∧ s.h = 200 ∧ s.t = 30 ∧
      s.A11 = 4 * (6500 * (7 / 10) ^ 22) * (160 / 3) ∧ s.D11 = 4 * (6500 * (7 / 10) ^ 22) * (1600000 / 9) ∧
      s.kA55 = 6500 * (7 / 10) ^ 22 * (200 / 3) ∧ s.K0 = - (s.A11 * s.D11) := by
  have hv : ValidPlies softSite.profile := by
    refine ⟨by simp [softSite], ?_⟩
    simp only [softSite, List.mem_singleton, forall_eq]
    norm_num
  obtain ⟨s', h1, h2, -, -, -, -, -, -, -, h3, h4⟩ := siteObject_ready eig softSite hv (by norm_num [softSite])
    (by norm_num [softSite])
  rw [h] at h1
  injection h1 with h1
  subst h1
  have hsl := siteObject_slab eig _ _ _ _ _ s h
  rw [softSite_modulus] at hsl
  have hh : s.h = 200 := by
    rw [h2.slab.h, hsl]
    norm_num [Spec.total]
  obtain ⟨e1, e2, e3, e4, e5, e6, e7⟩ := fundamental_fields eig s
  have hfr : calcFundamentalSystem eig s = s := h2.fresh
  rw [hfr] at e1 e2 e3 e4 e5 e6 e7
  have ht : s.t = 30 := h3
  have hw : s.weak = ⟨0.25, 0.25⟩ := h4
  have hk := h2.slab.k
  rw [laminate_eq] at e3 e4 e5 e6 e7
  simp only [hsl, hh, hk, Spec.layerSum] at e3 e4 e5 e6 e7
  simp only [calcFoundationStiffness, ht, hw] at e1 e2
  have hB : s.B11 = 0 := by rw [e4]; norm_num
  refine ⟨by rw [e1]; norm_num, by rw [e2]; norm_num, hB, hh, ht, by rw [e3]; ring, by rw [e5]; ring, by rw [e6]; ring, ?_⟩
  rw [h2.stiff.K0_eq, hB]; ring

theorem soft_disc (s : Self) (h1 : s.kn = 2 / 225) (h2 : s.kt = 1 / 300) (h3 : s.B11 = 0) (h4 : s.h = 200)
    (h5 : s.t = 30) (h6 : s.A11 = 4 * (6500 * (7 / 10) ^ 22) * (160 / 3))
    (h7 : s.D11 = 4 * (6500 * (7 / 10) ^ 22) * (1600000 / 9)) (h8 : s.kA55 = 6500 * (7 / 10) ^ 22 * (200 / 3))
    (h9 : s.K0 = - (s.A11 * s.D11)) : (cubicOf s).disc ≠ 0 := by
  unfold Cubic.disc cubicOf calcSystemMatrix
  simp only [h1, h2, h3, h4, h5, h6, h7, h8, h9]
  simp only [Matrix.of_apply, Matrix.cons_val', Matrix.cons_val]
  norm_num

theorem softSite_ok (δ : ℝ) : SiteOk (bisectNum δ) softSite := by
  refine ⟨stdEig_ok, ⟨by simp [softSite], ?_⟩, by norm_num [softSite], by norm_num [softSite], fun s hs => ?_⟩
  · simp only [softSite, List.mem_singleton, forall_eq]
    norm_num
  · obtain ⟨h1, h2, h3, h4, h5, h6, h7, h8, h9⟩ := softSite_fields _ s hs
    refine ⟨soft_disc s h1 h2 h3 h4 h5 h6 h7 h8 h9, ?_⟩
    unfold ShearOk
    rw [h2, h5, h8]
    norm_num

theorem softSite_height : 1000 * profileHeight softSite.profile = 200000 := by
  simp [softSite, profileHeight]
  norm_num

theorem softSite_cover : cover softSite.profile = 1000 * (917 * (7 / 10) ^ 5 * 1e-12 * 9810 * 200) := by
  simp [softSite, cover]

theorem softSite_cos : Real.cos (deg2rad softSite.phi) = 1 ∧ Real.sin (deg2rad softSite.phi) = 0 := by
  simp [softSite, deg2rad]

/-- Short cracks in the soft slab do not grow, long ones do, and the search over
a wide enough interval finds a critical length up to a micrometre. -/
example (dummy : Self) : ∃ lo hi a c, 0 < lo ∧ lo ≤ hi ∧ hi < 200000 ∧
    minCrackLength (bisectNum 0.001) softSite lo hi dummy = .ok (some a) ∧ lo ≤ c ∧ c ≤ hi ∧ |a - c| ≤ 0.001 ∧
    crackPropagation (bisectNum 0.001) softSite 0 (midCrack 200000 c) midSupport = .ok (1, true) ∧
    ∃ v, v < 1 ∧ crackPropagation (bisectNum 0.001) softSite 0 (midCrack 200000 lo) midSupport = .ok (v, false) := by
  have hs := softSite_ok 0.001
  obtain ⟨s, h0, -⟩ := siteObject_ready (bisectNum 0.001).eig softSite hs.plies hs.t hs.E
  obtain ⟨f1, f2, f3, f4, f5, f6, f7, f8, f9⟩ := softSite_fields _ s h0
  obtain ⟨v0, e1, e2, e3⟩ := C56_short_crack (bisectNum 0.001) softSite hs h0 (L := 200000) (by norm_num)
  obtain ⟨lo, l1, l2⟩ := e3 (by
    rw [e1, softSite_cover, softSite_cos.1, softSite_cos.2, f1, f2]
    unfold interaction
    rw [mul_zero, zero_pow (by norm_num), zero_div, mul_zero, zero_div, Real.zero_rpow (by norm_num)]
    norm_num)
  obtain ⟨hi, u1, u2⟩ := C56_long_crack (bisectNum 0.001) softSite hs h0 (L := 200000) (by norm_num) (by
    rw [softSite_cover, softSite_cos.1, f2, f5, f8]
    norm_num)
  set lo' := min lo 100000 with hlo
  set hi' := max hi 100000 with hhi
  have a1 : 0 < lo' := lt_min l1 (by norm_num)
  have a2 : lo' ≤ 100000 := min_le_right _ _
  have a3 : 100000 ≤ hi' := le_max_right _ _
  have a4 : hi' < 200000 := max_lt u1 (by norm_num)
  obtain ⟨vl, vl1, vl2⟩ := l2 lo' a1.le (min_le_left _ _) (by linarith)
  obtain ⟨vh, vh1, vh2⟩ := u2 hi' (le_max_left _ _) (by linarith) a4
  obtain ⟨a, ha⟩ := bisectNum_found softSite hs dummy a1.le (show lo' ≤ hi' by linarith) (by rw [softSite_height]; exact a4)
    (by norm_num; linarith) (by rw [softSite_height]; exact vl2) (by rw [softSite_height]; exact vh2)
    (mul_nonpos_of_nonpos_of_nonneg (by linarith) (by linarith))
  obtain ⟨b1, b2, c, c1, c2, c3, c4⟩ := (C56_search_partial (bisectNum 0.001) (by norm_num) (bisectNum_sound (by norm_num))
    softSite hs dummy a1.le (show lo' ≤ hi' by linarith) (by rw [softSite_height]; exact a4)).1 a ha
  rw [softSite_height] at c4
  exact ⟨lo', hi', a, c, a1, by linarith, a4, ha, c1, c2, c3, c4, vl, vl1, vl2⟩

/-- The check for a slab with a crack of 300 mm under a skier of 80 kg. -/
example : ∃ r v, createSkierObject midNum demoSite 80 [2000, 150, 150, 2000] [true, false, false, true] .crack = .ok r ∧
    SkierSolution demoSite 80 [2000, 150, 150, 2000] [true, false, false, true] r ∧
    v = driving r.skier [true, false, false, true] (fun j => stateAt r.skier 38 [2000, 150, 150, 2000]
      [true, false, false, true] (fun i => r.C.getD i 0) j (nth [2000, 150, 150, 2000] j)) ∧
    crackPropagation midNum demoSite 80 [2000, 150, 150, 2000] [true, false, false, true] = .ok (v, decide (1 ≤ v)) :=
  C56_value midNum demoSite demoSite_ok 80 _ _ demoBeam_ok

example : ∃ v : ℝ → ℝ, Continuous v ∧ ∀ w, crackPropagation midNum demoSite w [2000, 150, 150, 2000] [true, false, false, true]
    = .ok (v w, decide (1 ≤ v w)) :=
  C56_continuous_weight midNum demoSite demoSite_ok _ _ demoBeam_ok

end Weac
