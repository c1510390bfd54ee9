import Mathlib.Topology.Order.IntermediateValue
import Mathlib.Data.List.Duplicate
import Verif.Props.WeightLost

/-!
# C85: when the six bedded solutions are complete

The six computed solutions span all states of a bedded segment unless the cubic
of the system has a double root. For every slab there are only finitely many
stiffnesses of the weak layer for which this happens, none of them small, but
there always is one.
-/

namespace Weac
open Spec

/-! ## The coefficients of the cubic -/

/-- The coefficients in terms of the stiffness attributes. The weight of the
shear foundation is the stiffness at the lower face, `(h + t) / 2` away from the
middle of the slab. -/
theorem cubic_eq (s : Self) (hs : Stiff s) :
    let Δ := s.A11 * s.D11 - s.B11 ^ 2
    let e := (s.h + s.t) / 2
    (cubicOf s).p = -(s.kn / s.kA55 + s.kt * ((s.A11 * e ^ 2 - 2 * s.B11 * e + s.D11) / Δ)) ∧
    (cubicOf s).q = s.kn * (s.A11 / Δ)
      + s.kn * s.kt * ((s.A11 * e * (s.h / 2) - s.B11 * (s.h / 2 + e) + s.D11) / (s.kA55 * Δ)) ∧
    (cubicOf s).r = -(s.kn * s.kt * (1 / Δ)) := by
  have hk := hs.kA55.ne'
  have hK := hs.K0
  have hK' := hs.K0_eq
  have hd : s.A11 * s.D11 - s.B11 ^ 2 ≠ 0 := by
    intro h; linarith
  have e0 : s.K0 = -(s.A11 * s.D11 - s.B11 ^ 2) := by rw [hK']; ring
  simp only [cubicOf, calcSystemMatrix, Matrix.of_apply, Matrix.cons_val', Matrix.cons_val, e0]
  generalize hΔ : s.A11 * s.D11 - s.B11 ^ 2 = Δ at hd
  refine ⟨?_, ?_, ?_⟩
  · field_simp
    ring
  · field_simp
    ring
  · have : s.D11 * s.A11 = Δ + s.B11 ^ 2 := by rw [← hΔ]; ring
    field_simp
    rw [← hΔ]
    ring

/-- A cubic that increases everywhere has a negative discriminant. -/
theorem disc_neg_of (c : Cubic) (h : c.p ^ 2 < 3 * c.q) : c.disc < 0 := by
  have e : 27 * c.disc = 4 * (c.p ^ 2 - 3 * c.q) ^ 3 - (2 * c.p ^ 3 - 9 * c.p * c.q + 27 * c.r) ^ 2 := by
    unfold Cubic.disc; ring
  have h1 : (c.p ^ 2 - 3 * c.q) ^ 3 < 0 := Odd.pow_neg ⟨1, rfl⟩ (by linarith)
  nlinarith [sq_nonneg (2 * c.p ^ 3 - 9 * c.p * c.q + 27 * c.r)]

/-- A double root of a real cubic with vanishing discriminant. -/
theorem double_root (c : Cubic) (h : c.disc = 0) :
    ∃ y, y ^ 3 + c.p * y ^ 2 + c.q * y + c.r = 0 ∧ 3 * y ^ 2 + 2 * c.p * y + c.q = 0 := by
  obtain ⟨p, q, r⟩ := c
  simp only [Cubic.disc] at h ⊢
  by_cases h3 : p ^ 2 - 3 * q = 0
  · have hq : q = p ^ 2 / 3 := by linarith
    subst hq
    have hr : (p ^ 3 - 27 * r) ^ 2 = 0 := by linear_combination (-27) * h
    have hr' : r = p ^ 3 / 27 := by
      have := pow_eq_zero_iff (two_ne_zero) |>.mp hr
      linarith
    subst hr'
    exact ⟨-p / 3, by ring, by ring⟩
  · generalize hd : p ^ 2 - 3 * q = d at h3
    have hq : q = (p ^ 2 - d) / 3 := by linarith
    refine ⟨(9 * r - p * q) / (2 * d), ?_, ?_⟩
    · have : ((9 * r - p * q) / (2 * d)) ^ 3 + p * ((9 * r - p * q) / (2 * d)) ^ 2
          + q * ((9 * r - p * q) / (2 * d)) + r
          = (18 * p * q * r - 4 * p ^ 3 * r + p ^ 2 * q ^ 2 - 4 * q ^ 3 - 27 * r ^ 2)
            * (-27 * r + 9 * p * q - 2 * p ^ 3) / (8 * d ^ 3) := by
        subst hq
        field_simp
        ring
      rw [this, h]
      simp
    · have : 3 * ((9 * r - p * q) / (2 * d)) ^ 2 + 2 * p * ((9 * r - p * q) / (2 * d)) + q
          = (18 * p * q * r - 4 * p ^ 3 * r + p ^ 2 * q ^ 2 - 4 * q ^ 3 - 27 * r ^ 2) * (-9) / (4 * d ^ 2) := by
        subst hq
        field_simp
        ring
      rw [this, h]
      simp

/-! ## The discriminant as a function of the stiffness of the weak layer -/

section
variable (P Q S R : ℝ)

/-- The discriminant of `y³ - E P y² + (E Q + E² S) y - E² R`, divided by `E³`. -/
noncomputable def scaledDisc : Polynomial ℝ :=
  Polynomial.C (-4 * Q ^ 3)
    + Polynomial.C (18 * P * R * Q + P ^ 2 * Q ^ 2 - 12 * Q ^ 2 * S - 27 * R ^ 2) * Polynomial.X
    + Polynomial.C (18 * P * R * S - 4 * P ^ 3 * R + 2 * P ^ 2 * Q * S - 12 * Q * S ^ 2) * Polynomial.X ^ 2
    + Polynomial.C (S ^ 2 * (P ^ 2 - 4 * S)) * Polynomial.X ^ 3

theorem scaledDisc_eval (E : ℝ) :
    (⟨-(E * P), E * Q + E ^ 2 * S, -(E ^ 2 * R)⟩ : Cubic).disc = E ^ 3 * (scaledDisc P Q S R).eval E := by
  simp only [Cubic.disc, scaledDisc, Polynomial.eval_add, Polynomial.eval_mul, Polynomial.eval_C, Polynomial.eval_X,
    Polynomial.eval_pow]
  ring

theorem scaledDisc_zero : (scaledDisc P Q S R).eval 0 = -4 * Q ^ 3 := by
  simp [scaledDisc]

theorem scaledDisc_ne (hQ : 0 < Q) : scaledDisc P Q S R ≠ 0 := by
  intro h
  have := scaledDisc_zero P Q S R
  rw [h, Polynomial.eval_zero] at this
  have := pow_pos hQ 3
  linarith

theorem scaledDisc_finite (hQ : 0 < Q) : {E : ℝ | (scaledDisc P Q S R).eval E = 0}.Finite :=
  (Polynomial.finite_setOfPred_isRoot (scaledDisc_ne P Q S R hQ))

theorem cubic_pos (g0 g1 g2 g3 : ℝ) (h3 : 0 < g3) : ∃ M, 0 < M ∧ 0 < g0 + g1 * M + g2 * M ^ 2 + g3 * M ^ 3 := by
  refine ⟨1 + (|g0| + |g1| + |g2|) / g3, by positivity, ?_⟩
  set M := 1 + (|g0| + |g1| + |g2|) / g3 with hM
  have e : g3 * M = g3 + (|g0| + |g1| + |g2|) := by rw [hM]; field_simp
  have h1 : 1 ≤ M := by rw [hM]; linarith [div_nonneg (by positivity : 0 ≤ |g0| + |g1| + |g2|) h3.le]
  have e3 : g3 * M ^ 3 = g3 * M ^ 2 + (|g0| + |g1| + |g2|) * M ^ 2 := by
    have : g3 * M ^ 3 = (g3 * M) * M ^ 2 := by ring
    rw [this, e]; ring
  have hM2 : 1 ≤ M ^ 2 := by nlinarith
  have hM3 : M ≤ M ^ 2 := by nlinarith
  have a0 : -(|g0| * M ^ 2) ≤ g0 := by nlinarith [neg_abs_le g0, abs_nonneg g0]
  have a1 : -(|g1| * M ^ 2) ≤ g1 * M := by nlinarith [neg_abs_le g1, abs_nonneg g1]
  have a2 : -(|g2| * M ^ 2) ≤ g2 * M ^ 2 := by nlinarith [neg_abs_le g2, abs_nonneg g2]
  have : 0 < g3 * M ^ 2 := by positivity
  rw [e3]
  nlinarith

theorem scaledDisc_root (hQ : 0 < Q) (hS : 0 < S) (hP : 4 * S < P ^ 2) :
    ∃ E, 0 < E ∧ (scaledDisc P Q S R).eval E = 0 := by
  obtain ⟨M, hM, h⟩ := cubic_pos (-4 * Q ^ 3) (18 * P * R * Q + P ^ 2 * Q ^ 2 - 12 * Q ^ 2 * S - 27 * R ^ 2)
    (18 * P * R * S - 4 * P ^ 3 * R + 2 * P ^ 2 * Q * S - 12 * Q * S ^ 2) (S ^ 2 * (P ^ 2 - 4 * S))
    (mul_pos (pow_pos hS 2) (by linarith))
  have h' : 0 < (scaledDisc P Q S R).eval M := by
    simp only [scaledDisc, Polynomial.eval_add, Polynomial.eval_mul, Polynomial.eval_C, Polynomial.eval_X,
      Polynomial.eval_pow]
    exact h
  have h0 := scaledDisc_zero P Q S R
  have hQ3 := pow_pos hQ 3
  obtain ⟨E, hE, he⟩ := intermediate_value_Ioo hM.le (scaledDisc P Q S R).continuous.continuousOn
    (show (0 : ℝ) ∈ Set.Ioo _ _ from ⟨by rw [h0]; linarith, h'⟩)
  exact ⟨E, hE.1, he⟩

end

/-! ## The centre of stiffness lies inside the slab -/

theorem layerSum_moment (ls : List Layer) (hv : ∀ l ∈ ls, l.Valid) (top : ℝ) :
    layerSum Layer.h (fun l a b => 1 / 2 * l.E / (1 - l.nu ^ 2) * (b ^ 2 - a ^ 2)) top ls
      ≤ (top + total Layer.h ls) * layerSum Layer.h (fun l a b => l.E / (1 - l.nu ^ 2) * (b - a)) top ls := by
  induction ls generalizing top with
  | nil => simp [layerSum]
  | cons l ls ih =>
    have ih' := ih (fun x hx => hv x (List.mem_cons_of_mem _ hx)) (top + l.h)
    have hl := hv l List.mem_cons_self
    have ht : 0 ≤ total Layer.h ls := List.sum_nonneg (by
      intro x hx
      obtain ⟨y, hy, rfl⟩ := List.mem_map.mp hx
      exact (hv y (List.mem_cons_of_mem _ hy)).h.le)
    have hE : 0 < l.E / (1 - l.nu ^ 2) := div_pos hl.E (by nlinarith [hl.nu_lo, hl.nu_hi])
    have htot : total Layer.h (l :: ls) = l.h + total Layer.h ls := by simp [total]
    simp only [layerSum, htot]
    rw [mul_add]
    refine add_le_add ?_ (by rw [← add_assoc]; exact ih')
    have e : 1 / 2 * l.E / (1 - l.nu ^ 2) = 1 / 2 * (l.E / (1 - l.nu ^ 2)) := by ring
    rw [e]
    nlinarith [mul_pos hE hl.h, mul_nonneg (mul_pos hE hl.h).le ht, mul_nonneg (mul_pos hE hl.h).le hl.h.le]

theorem moment_le (eig : EigSolver) (s : Self) (h : Ready eig s) : s.B11 ≤ s.A11 * (s.h / 2) := by
  obtain ⟨-, -, e3, e4, -, -, -⟩ := fundamental_fields eig s
  have hfr : calcFundamentalSystem eig s = s := h.fresh
  rw [hfr, laminate_eq] at e3 e4
  have := layerSum_moment s.slab h.slab.valid (-s.h / 2)
  simp only at e3 e4
  rw [← e3, ← e4, ← h.slab.h] at this
  linarith

/-! ## A double eigenvalue leaves a gap -/

/-- An eigenvalue of the bedded system has one eigenvector only: a mode without
settlement is zero. -/
theorem mode_settles (s : Self) (v : Vec6) (lam : ℝ) (hl : lam ≠ 0) (h61 : calcSystemMatrix s 5 0 ≠ 0)
    (h : (calcSystemMatrix s).mulVec v = lam • v) (h0 : v 2 = 0) : v = 0 := by
  have e0 := congrFun h 0
  have e2 := congrFun h 2
  have e3 := congrFun h 3
  have e4 := congrFun h 4
  have e5 := congrFun h 5
  have a50 : calcSystemMatrix s 5 0 ≠ 0 := h61
  generalize hK : calcSystemMatrix s = K at *
  have k0 : K 0 = ![0, 1, 0, 0, 0, 0] := by rw [← hK]; rfl
  have k2 : K 2 = ![0, 0, 0, 1, 0, 0] := by rw [← hK]; rfl
  have k3 : K 3 = ![0, 0, s.kn / s.kA55, 0, 0, -1] := by rw [← hK]; rfl
  have k4 : K 4 = ![0, 0, 0, 0, 0, 1] := by rw [← hK]; rfl
  have k51 : K 5 1 = 0 := by rw [← hK]; rfl
  simp only [Matrix.mulVec, dotProduct, Fin.sum_univ_six, k0, k2, k3, k4, k51, Pi.smul_apply, smul_eq_mul, h0] at e0 e2 e3 e4 e5
  simp at e0 e2 e3 e4 e5
  have v3 : v 3 = 0 := e2
  have v5 : v 5 = 0 := by rw [v3, mul_zero] at e3; linarith
  have v4 : v 4 = 0 := by
    rw [v5] at e4
    rcases mul_eq_zero.mp e4.symm with h | h
    · exact absurd h hl
    · exact h
  have v0 : v 0 = 0 := by
    rw [v3, v4, v5] at e5
    simp at e5
    rcases e5 with h | h
    · exact absurd h a50
    · exact h
  have v1 : v 1 = 0 := by rw [e0, v0, mul_zero]
  funext i
  fin_cases i <;> assumption

/-- A multiple real eigenvalue is kept more than once. -/
theorem kept_twice (eig : EigSolver) (s : Self) (hf : EigFresh eig s) (he : EigOk (calcSystemMatrix s) (eig (calcSystemMatrix s)))
    (lam : ℝ) (hl : lam ≠ 0) (h2 : 1 < (toC (calcSystemMatrix s)).charpoly.rootMultiplicity (lam : ℂ)) :
    ∃ i j : Fin s.eigs.re.length, i < j ∧ s.eigs.re[i].ew = lam ∧ s.eigs.re[j].ew = lam := by
  classical
  have h3 : 2 ≤ ((eig (calcSystemMatrix s)).map Prod.fst).count (lam : ℂ) := by
    rw [← Multiset.coe_count, he.spectrum, Polynomial.count_roots]
    exact h2
  rw [← List.duplicate_iff_two_le_count, List.duplicate_iff_sublist] at h3
  have h4 := h3.filter (fun z : ℂ => decide (z.im = 0 ∧ z.re ≠ 0))
  rw [List.filter_map] at h4
  have h5 := h4.map Complex.re
  have e : [(lam : ℂ), (lam : ℂ)].filter (fun z : ℂ => decide (z.im = 0 ∧ z.re ≠ 0)) = [(lam : ℂ), (lam : ℂ)] := by
    simp [hl]
  rw [e] at h5
  have h6 : List.Sublist [lam, lam] ((calcEigensystem eig s).eigs.re.map fun m => m.ew) := by
    simpa [calcEigensystem, Function.comp_def] using h5
  rw [hf, ← List.duplicate_iff_sublist, List.duplicate_iff_exists_distinct_get] at h6
  obtain ⟨n, m, hnm, e1, e2⟩ := h6
  have ln : (n : ℕ) < s.eigs.re.length := n.2.trans_eq (List.length_map _)
  have lm : (m : ℕ) < s.eigs.re.length := m.2.trans_eq (List.length_map _)
  refine ⟨⟨n, ln⟩, ⟨m, lm⟩, hnm, ?_, ?_⟩
  · simpa using e1.symm
  · simpa using e2.symm

theorem kept_shape (eig : EigSolver) (s : Self) (he : EigOk (calcSystemMatrix s) (eig (calcSystemMatrix s))) :
    ∀ m ∈ (calcEigensystem eig s).eigs.re, m.ev ≠ 0 ∧ m.s = if 0 < m.ew then -1 else 0 := by
  classical
  intro m hm
  simp only [calcEigensystem, List.mem_map, List.mem_filter, decide_eq_true_eq] at hm
  obtain ⟨q, ⟨hq, hi, -⟩, rfl⟩ := hm
  refine ⟨fun h0 => (he.pairs q hq).1 ?_, rfl⟩
  funext i
  exact Complex.ext (congrFun h0 i) (he.real q hq hi i)

theorem zh_re (s : Self) (x l : ℝ) (i : ℕ) (hi : i < s.eigs.re.length) (h6 : i < 6) (r : Fin 6) :
    zh s x l true r ⟨i, h6⟩ = s.eigs.re[i].ev r * Real.exp (s.eigs.re[i].ew * (x + l * s.eigs.re[i].s)) := by
  simp only [zh, if_true, Matrix.of_apply]
  unfold zhBed
  rw [List.getD_eq_getElem _ _ (by simp; omega), List.getElem_append_left (by simp; omega),
    List.getElem_append_left (by simpa using hi)]
  simp

/-- With a double real eigenvalue some constants have no effect at all, and some
states are out of reach. -/
theorem gap_of_double (eig : EigSolver) (s : Self) (hs : Stiff s) (hf : EigFresh eig s)
    (he : EigOk (calcSystemMatrix s) (eig (calcSystemMatrix s))) (h61 : calcSystemMatrix s 5 0 ≠ 0)
    (lam : ℝ) (hl : lam ≠ 0) (h2 : 1 < (toC (calcSystemMatrix s)).charpoly.rootMultiplicity (lam : ℂ)) :
    (∃ c : Vec6, c ≠ 0 ∧ ∀ x l, (zh s x l true).mulVec c = 0) ∧
      ∀ x l, ∃ Z : Vec6, ∀ C : Vec6, (zh s x l true).mulVec C ≠ Z := by
  have ht := kept_twice eig s hf he lam hl h2
  have hk := kept_shape eig s he
  have hm := (modesOk eig s he).re
  have h6 := kept_modes eig s (K_det_ne_zero s hs.regular) he
  rw [hf] at hk hm h6
  obtain ⟨i, j, hij, e1, e2⟩ := ht
  set m := s.eigs.re[i] with hmi
  set n := s.eigs.re[j] with hnj
  have mi : m ∈ s.eigs.re := List.getElem_mem _
  have nj : n ∈ s.eigs.re := List.getElem_mem _
  have hi6 : (i : ℕ) < 6 := by have := i.2; omega
  have hj6 : (j : ℕ) < 6 := by have := j.2; omega
  have hz : n.ev 2 • m.ev - m.ev 2 • n.ev = 0 := by
    refine mode_settles s _ lam hl h61 ?_ (by simp [mul_comm])
    rw [Matrix.mulVec_sub, Matrix.mulVec_smul, Matrix.mulVec_smul, hm m mi, hm n nj, e1, e2, smul_sub,
      smul_comm lam, smul_comm lam]
  have hm2 : m.ev 2 ≠ 0 := fun h0 => (hk m mi).1 (mode_settles s _ lam hl h61 (by rw [hm m mi, e1]) h0)
  have hs' : m.s = n.s := by rw [(hk m mi).2, (hk n nj).2, e1, e2]
  have hne : (⟨i, hi6⟩ : Fin 6) ≠ ⟨j, hj6⟩ := by
    intro h
    have : (i : ℕ) = j := Fin.mk.inj_iff.mp h
    have : (i : ℕ) < j := hij
    omega
  have main : ∃ c : Vec6, c ≠ 0 ∧ ∀ x l, (zh s x l true).mulVec c = 0 := by
    refine ⟨Pi.single ⟨i, hi6⟩ (n.ev 2) - Pi.single ⟨j, hj6⟩ (m.ev 2), fun h0 => hm2 ?_, fun x l => ?_⟩
    · have := congrFun h0 ⟨j, hj6⟩
      simpa [Pi.single_apply, hne.symm] using this
    · rw [Matrix.mulVec_sub, Matrix.mulVec_single, Matrix.mulVec_single]
      funext r
      have h1 := zh_re s x l i i.2 hi6 r
      have h2 := zh_re s x l j j.2 hj6 r
      have h3 := congrFun hz r
      change _ = m.ev r * Real.exp (m.ew * (x + l * m.s)) at h1
      change _ = n.ev r * Real.exp (n.ew * (x + l * n.s)) at h2
      simp only [Pi.sub_apply, Pi.smul_apply, smul_eq_mul, Pi.zero_apply] at h3
      simp only [Pi.sub_apply, Pi.zero_apply, Matrix.col_apply, Pi.smul_apply, MulOpposite.smul_eq_mul_unop,
        MulOpposite.unop_op, h1, h2, e1, e2, hs']
      linear_combination Real.exp (lam * (x + l * n.s)) * h3
  refine ⟨main, fun x l => ?_⟩
  obtain ⟨c, hc, h0⟩ := main
  by_contra hcon
  push Not at hcon
  have hu := (Matrix.mulVec_surjective_iff_isUnit).mp (fun Z => hcon Z)
  exact hc ((Matrix.mulVec_injective_iff_isUnit).mpr hu ((h0 x l).trans (Matrix.mulVec_zero _).symm))

/-- A vanishing discriminant makes an eigenvalue double. -/
theorem double_eigenvalue (s : Self) (hd : (cubicOf s).disc = 0) (hp : (cubicOf s).p < 0) (hq : 0 < (cubicOf s).q)
    (hr : (cubicOf s).r < 0) :
    ∃ lam : ℝ, lam ≠ 0 ∧ 1 < (toC (calcSystemMatrix s)).charpoly.rootMultiplicity (lam : ℂ) := by
  obtain ⟨y, h1, h2⟩ := double_root _ hd
  have hy : 0 < y := by
    by_contra hc
    push Not at hc
    nlinarith [mul_nonneg hq.le (neg_nonneg.mpr hc), mul_nonneg (neg_nonneg.mpr hp.le) (sq_nonneg y),
      mul_nonneg (neg_nonneg.mpr hc) (sq_nonneg y)]
  have h0 : (toC (calcSystemMatrix s)).charpoly ≠ 0 := (Matrix.charpoly_monic _).ne_zero
  refine ⟨Real.sqrt y, (Real.sqrt_pos.mpr hy).ne', ?_⟩
  rw [Polynomial.one_lt_rootMultiplicity_iff_isRoot h0, charpoly_cubic]
  have hs : ((Real.sqrt y : ℝ) : ℂ) ^ 2 = (y : ℂ) := by
    rw [← Complex.ofReal_pow, Real.sq_sqrt hy.le]
  have h1' : (y : ℂ) ^ 3 + ((cubicOf s).p : ℂ) * y ^ 2 + ((cubicOf s).q : ℂ) * y + ((cubicOf s).r : ℂ) = 0 := by
    exact_mod_cast h1
  have h2' : 3 * (y : ℂ) ^ 2 + 2 * ((cubicOf s).p : ℂ) * y + ((cubicOf s).q : ℂ) = 0 := by
    exact_mod_cast h2
  generalize ((Real.sqrt y : ℝ) : ℂ) = z at *
  rw [← hs] at h1' h2'
  constructor
  · simp [Polynomial.IsRoot]
    linear_combination h1'
  · simp [Polynomial.IsRoot, Polynomial.derivative_pow]
    linear_combination (2 * z) * h2'

theorem k61_ne (s : Self) (hs : Stiff s) (hm : s.B11 ≤ s.A11 * (s.h / 2)) : calcSystemMatrix s 5 0 ≠ 0 := by
  have hA := hs.A11
  have hK := hs.K0
  have h1 := mul_pos hA hs.t
  show s.kt * (2 * s.B11 - s.A11 * (s.h + s.t)) / (2 * s.K0) ≠ 0
  have : 2 * s.B11 - s.A11 * (s.h + s.t) < 0 := by nlinarith
  exact div_ne_zero (mul_ne_zero hs.kt.ne' this.ne) (by linarith)

theorem lever_pos (s : Self) (hs : Stiff s) (hm : s.B11 ≤ s.A11 * (s.h / 2)) (e : ℝ) (he : s.h / 2 < e) :
    0 < s.A11 * e - s.B11 ∧ 0 < s.A11 * e * (s.h / 2) - s.B11 * (s.h / 2 + e) + s.D11 := by
  have hA := hs.A11
  have hK := hs.K0
  rw [hs.K0_eq] at hK
  have hx : 0 < s.A11 * e - s.B11 := by nlinarith
  refine ⟨hx, ?_⟩
  have : s.A11 * (s.A11 * e * (s.h / 2) - s.B11 * (s.h / 2 + e) + s.D11)
      = (s.A11 * e - s.B11) * (s.A11 * (s.h / 2) - s.B11) + (s.A11 * s.D11 - s.B11 ^ 2) := by ring
  have h2 : 0 ≤ (s.A11 * e - s.B11) * (s.A11 * (s.h / 2) - s.B11) := mul_nonneg hx.le (by linarith)
  by_contra hc
  push Not at hc
  nlinarith

/-! ## C85 -/

/-- `set_foundation_properties(t, E, nu, update=True)` on an object that is ready. -/
theorem weak_ready (eig : EigSolver) (s : Self) (h : Ready eig s) (t E nu : ℝ) (ht : 0 < t) (hE : 0 < E)
    (hn : -1 < nu) (hn' : nu < 1) : Ready eig (setFoundationProperties eig t E nu true s) :=
  ⟨h.slab.congr rfl, ⟨ht, hE, hn, hn'⟩, C27_idempotent eig _, h.g, h.lski⟩

theorem weak_fields (eig : EigSolver) (s : Self) (h : Ready eig s) (t E nu : ℝ) :
    let s' := setFoundationProperties eig t E nu true s
    s'.kn = E * (1 / ((1 - nu ^ 2) * t)) ∧ s'.kt = E * (1 / (2 * (1 + nu) * t)) ∧ s'.t = t ∧ s'.h = s.h ∧
      s'.A11 = s.A11 ∧ s'.B11 = s.B11 ∧ s'.D11 = s.D11 ∧ s'.kA55 = s.kA55 := by
  intro s'
  have hfr : calcFundamentalSystem eig s = s := h.fresh
  obtain ⟨-, -, a3, a4, a5, a6, -⟩ := fundamental_fields eig s
  rw [hfr] at a3 a4 a5 a6
  obtain ⟨b1, b2, b3, b4, b5, b6, -⟩ := fundamental_fields eig { s with t := t, weak := ⟨nu, E⟩ }
  refine ⟨?_, ?_, rfl, rfl, ?_, ?_, ?_, ?_⟩
  · refine b1.trans ?_
    simp only [calcFoundationStiffness]
    rw [div_div, ← mul_one_div]
  · refine b2.trans ?_
    simp only [calcFoundationStiffness]
    rw [div_div, ← mul_one_div]
  · rw [a3]; exact b3
  · rw [a4]; exact b4
  · rw [a5]; exact b5
  · rw [a6]; exact b6

/-- How the cubic depends on the modulus of the weak layer. -/
theorem weak_cubic (eig : EigSolver) (s : Self) (h : Ready eig s) (t nu : ℝ) (ht : 0 < t)
    (hn : -1 < nu) (hn' : nu < 1) : ∃ P Q S R : ℝ, 0 < P ∧ 0 < Q ∧ 0 < S ∧ 0 < R ∧ 4 * S < P ^ 2 ∧ ∀ E, 0 < E →
      cubicOf (setFoundationProperties eig t E nu true s) = ⟨-(E * P), E * Q + E ^ 2 * S, -(E ^ 2 * R)⟩ := by
  have hst := h.stiff
  have hm := moment_le eig s h
  have hK := hst.K0
  rw [hst.K0_eq] at hK
  have hΔ : 0 < s.A11 * s.D11 - s.B11 ^ 2 := by linarith
  have hA := hst.A11
  have hk := hst.kA55
  have hh := hst.h
  have ha : 0 < 1 / ((1 - nu ^ 2) * t) := one_div_pos.mpr (mul_pos (by nlinarith) ht)
  have hb : 0 < 1 / (2 * (1 + nu) * t) := one_div_pos.mpr (mul_pos (by linarith) ht)
  set a := 1 / ((1 - nu ^ 2) * t) with hadef
  set b := 1 / (2 * (1 + nu) * t) with hbdef
  set Δ := s.A11 * s.D11 - s.B11 ^ 2 with hΔdef
  set e := (s.h + t) / 2 with he
  have heh : s.h / 2 < e := by rw [he]; linarith
  obtain ⟨hx, hT⟩ := lever_pos s hst hm e heh
  have hST : s.A11 * e * (s.h / 2) - s.B11 * (s.h / 2 + e) + s.D11 < s.A11 * e ^ 2 - 2 * s.B11 * e + s.D11 := by
    have : s.A11 * e ^ 2 - 2 * s.B11 * e - (s.A11 * e * (s.h / 2) - s.B11 * (s.h / 2 + e))
        = (s.A11 * e - s.B11) * (e - s.h / 2) := by ring
    have := mul_pos hx (sub_pos.mpr heh)
    linarith
  set T := s.A11 * e * (s.h / 2) - s.B11 * (s.h / 2 + e) + s.D11 with hTdef
  set U := s.A11 * e ^ 2 - 2 * s.B11 * e + s.D11 with hUdef
  have hU : 0 < U := hT.trans hST
  refine ⟨a / s.kA55 + b * (U / Δ), a * (s.A11 / Δ), a * b * (T / (s.kA55 * Δ)), a * b * (1 / Δ), by positivity,
    by positivity, by positivity, by positivity, ?_, fun E hE => ?_⟩
  · have e1 : a * b * (T / (s.kA55 * Δ)) = a / s.kA55 * (b * (T / Δ)) := by
      field_simp
    have h1 : a / s.kA55 * (b * (T / Δ)) < a / s.kA55 * (b * (U / Δ)) :=
      mul_lt_mul_of_pos_left (mul_lt_mul_of_pos_left (div_lt_div_of_pos_right hST hΔ) hb) (div_pos ha hk)
    rw [e1]
    nlinarith [sq_nonneg (a / s.kA55 - b * (U / Δ))]
  · obtain ⟨f1, f2, f3, f4, f5, f6, f7, f8⟩ := weak_fields eig s h t E nu
    have hr := weak_ready eig s h t E nu ht hE hn hn'
    obtain ⟨g1, g2, g3⟩ := cubic_eq _ hr.stiff
    simp only [f1, f2, f3, f4, f5, f6, f7, f8] at g1 g2 g3
    generalize cubicOf (setFoundationProperties eig t E nu true s) = c at *
    obtain ⟨p, q, r⟩ := c
    simp only at g1 g2 g3
    subst g1 g2 g3
    rw [← hadef, ← hbdef, ← hΔdef, ← he, ← hTdef, ← hUdef]
    congr 1 <;> ring

theorem disc_soft (s : Self) (hs : Stiff s) (hm : s.B11 ≤ s.A11 * (s.h / 2))
    (hsoft : let Δ := s.A11 * s.D11 - s.B11 ^ 2
      let e := (s.h + s.t) / 2
      (s.kn / s.kA55 + s.kt * ((s.A11 * e ^ 2 - 2 * s.B11 * e + s.D11) / Δ)) ^ 2 ≤ 3 * (s.kn * (s.A11 / Δ))) :
    (cubicOf s).disc ≠ 0 := by
  obtain ⟨g1, g2, -⟩ := cubic_eq s hs
  have hK := hs.K0
  rw [hs.K0_eq] at hK
  have hT := (lever_pos s hs hm ((s.h + s.t) / 2) (by linarith [hs.t])).2
  refine (disc_neg_of _ ?_).ne
  rw [g1, g2, neg_sq]
  have : 0 < s.kn * s.kt * ((s.A11 * ((s.h + s.t) / 2) * (s.h / 2) - s.B11 * (s.h / 2 + (s.h + s.t) / 2) + s.D11)
      / (s.kA55 * (s.A11 * s.D11 - s.B11 ^ 2))) :=
    mul_pos (mul_pos hs.kn hs.kt) (div_pos hT (mul_pos hs.kA55 (by linarith)))
  simp only at hsoft
  linarith

/-- C85, criterion: the six solutions reach every state in exactly one way if
the weak layer is soft compared with the slab. -/
theorem C85_complete_partial (eig : EigSolver) (heig : ∀ K, EigOk K (eig K)) (s : Self) (h : Ready eig s)
    (hsoft : let Δ := s.A11 * s.D11 - s.B11 ^ 2
      let e := (s.h + s.t) / 2
      (s.kn / s.kA55 + s.kt * ((s.A11 * e ^ 2 - 2 * s.B11 * e + s.D11) / Δ)) ^ 2 ≤ 3 * (s.kn * (s.A11 / Δ)))
    (x l : ℝ) (Z : Vec6) : ∃! C : Vec6, (zh s x l true).mulVec C = Z := by
  have hs := h.stiff
  have hb := C13_discriminant eig s hs h.fresh.eigFresh (heig _) (disc_soft s hs (moment_le eig s h) hsoft)
  exact C13_complete eig s hs h.fresh.eigFresh (heig _) hb.indep l x Z

/-- C85: for every slab and every thickness of the weak layer, the six solutions
reach every state in exactly one way except for finitely many moduli. -/
theorem C85_almost_all (eig : EigSolver) (heig : ∀ K, EigOk K (eig K)) (s : Self) (h : Ready eig s) (t nu : ℝ)
    (ht : 0 < t) (hn : -1 < nu) (hn' : nu < 1) :
    {E : ℝ | 0 < E ∧ ¬ ∀ (x l : ℝ) (Z : Vec6), ∃! C : Vec6,
      (zh (setFoundationProperties eig t E nu true s) x l true).mulVec C = Z}.Finite := by
  obtain ⟨P, Q, S, R, hP, hQ, hS, hR, hPS, hc⟩ := weak_cubic eig s h t nu ht hn hn'
  refine (scaledDisc_finite P Q S R hQ).subset ?_
  rintro E ⟨hE, hE'⟩
  by_contra h0
  apply hE'
  intro x l Z
  have hr := weak_ready eig s h t E nu ht hE hn hn'
  have hd : (cubicOf (setFoundationProperties eig t E nu true s)).disc ≠ 0 := by
    rw [hc E hE, scaledDisc_eval]
    exact mul_ne_zero (pow_ne_zero _ hE.ne') h0
  have hb := C13_discriminant eig _ hr.stiff hr.fresh.eigFresh (heig _) hd
  exact C13_complete eig _ hr.stiff hr.fresh.eigFresh (heig _) hb.indep l x Z

/-- C85: in particular all soft weak layers are fine. -/
theorem C85_soft (eig : EigSolver) (heig : ∀ K, EigOk K (eig K)) (s : Self) (h : Ready eig s) (t nu : ℝ)
    (ht : 0 < t) (hn : -1 < nu) (hn' : nu < 1) :
    ∃ E₀, 0 < E₀ ∧ ∀ E, 0 < E → E < E₀ → ∀ (x l : ℝ) (Z : Vec6), ∃! C : Vec6,
      (zh (setFoundationProperties eig t E nu true s) x l true).mulVec C = Z := by
  obtain ⟨P, Q, S, R, hP, hQ, hS, hR, hPS, hc⟩ := weak_cubic eig s h t nu ht hn hn'
  refine ⟨Q / P ^ 2, by positivity, fun E hE hE' x l Z => ?_⟩
  have hr := weak_ready eig s h t E nu ht hE hn hn'
  have hd : (cubicOf (setFoundationProperties eig t E nu true s)).disc ≠ 0 := by
    refine (disc_neg_of _ ?_).ne
    rw [hc E hE]
    simp only
    rw [lt_div_iff₀ (by positivity)] at hE'
    nlinarith [mul_pos hE hQ, mul_pos (pow_pos hE 2) hS]
  have hb := C13_discriminant eig _ hr.stiff hr.fresh.eigFresh (heig _) hd
  exact C13_complete eig _ hr.stiff hr.fresh.eigFresh (heig _) hb.indep l x Z

/-- C85 fails for every slab and every thickness of the weak layer: some modulus
makes two of the six solutions agree up to a factor. Constants can then be
changed without any effect on the fields, and some states are out of reach. -/
theorem C85_incomplete_violated (eig : EigSolver) (heig : ∀ K, EigOk K (eig K)) (s : Self) (h : Ready eig s) (t nu : ℝ)
    (ht : 0 < t) (hn : -1 < nu) (hn' : nu < 1) :
    ∃ E, 0 < E ∧ let s' := setFoundationProperties eig t E nu true s
      (∃ c : Vec6, c ≠ 0 ∧ ∀ x l, (zh s' x l true).mulVec c = 0) ∧
        ∀ x l, ∃ Z : Vec6, ∀ C : Vec6, (zh s' x l true).mulVec C ≠ Z := by
  obtain ⟨P, Q, S, R, hP, hQ, hS, hR, hPS, hc⟩ := weak_cubic eig s h t nu ht hn hn'
  obtain ⟨E, hE, h0⟩ := scaledDisc_root P Q S R hQ hS hPS
  refine ⟨E, hE, ?_⟩
  intro s'
  have hr := weak_ready eig s h t E nu ht hE hn hn'
  have hs := hr.stiff
  have hc' := hc E hE
  obtain ⟨lam, hl, h2⟩ := double_eigenvalue s' (by rw [hc', scaledDisc_eval, h0, mul_zero])
    (by rw [hc']; simp only; nlinarith [mul_pos hE hP]) (by rw [hc']; simp only; positivity)
    (by rw [hc']; simp only; nlinarith [mul_pos (pow_pos hE 2) hR])
  exact gap_of_double eig s' hs hr.fresh.eigFresh (heig _) (k61_ne s' hs (moment_le eig _ hr)) lam hl h2

/-- If some constants have no effect, the linear system is singular. -/
theorem never_solved (num : Numerics) (s : Self) (hf : EigFresh num.eig s)
    (hc : ∃ c : Vec6, c ≠ 0 ∧ ∀ x l, (zh s x l true).mulVec c = 0) (kind : SeqKind) (phi : ℝ) (a : SegLists)
    (hv : Valid s a) (hk : kind = .list ∨ a.li.length ≠ 1) :
    ∀ r, (assembleAndSolve num kind phi a s).1 ≠ .ok r := by
  intro r hr
  obtain ⟨c, hc0, hc⟩ := hc
  have h2 := full_two hv
  have ha : (asmSolve (spring num) phi (full a) s).1.map (fun C => (C, full a)) = .ok r := by
    have := C17_accepts (spring num) kind phi a s hv hk
    rw [show assembleAndSolve num kind phi a s = assembleWith (spring num) kind phi a s from rfl, this] at hr
    exact hr
  rcases e : asmSolve (spring num) phi (full a) s with ⟨r1, s1⟩
  rw [e] at ha
  cases r1 with
  | error err => simp [Except.map] at ha
  | ok C =>
    have hd := asmSolve_defined (spring_frame num s hf) e
    rw [asmSolve_run h2 hd] at e
    set M := matAt s (valOf (spring num) s) (full a).li.length (full a).li (full a).ki (full a).li.length with hM
    rcases e2 : npSolve (6 * (full a).li.length) M (fun r => rhsFinal s phi (full a) r
        - vecAt s (valOf (spring num) s) phi (full a).li.length (full a).li (full a).ki (full a).li.length r) with err | x
    · rw [e2] at e
      simp [Except.map] at e
    · obtain ⟨k1, k2⟩ := npSolve_ok e2
      have hsup : true ∈ (full a).ki := by
        unfold full
        split_ifs
        · simp
        · exact hv.support
      have hlen : (full a).ki.length = (full a).li.length := by
        have := hv.ki
        unfold full
        split_ifs <;> simp [this]
      obtain ⟨i, hi, hki⟩ := List.mem_iff_getElem.mp hsup
      set y : ℕ → ℝ := fun n => if n / 6 = i then c (Fin.ofNat 6 n) else 0 with hy
      have hcon : ∀ j, constsOf y j = if j = i then c else 0 := by
        intro j
        funext t
        have h1 : (6 * j + (t : ℕ)) / 6 = j := by omega
        have h3 : Fin.ofNat 6 (6 * j + (t : ℕ)) = t := by
          apply Fin.ext
          simp [Fin.ofNat]
        simp only [constsOf, hy, h1, h3]
        split_ifs <;> rfl
      have hhom : ∀ j z, homAt s (full a).li (full a).ki (constsOf y) j z = 0 := by
        intro j z
        unfold homAt
        rw [hcon]
        split_ifs with hj
        · subst hj
          rw [List.getD_eq_getElem _ _ hi, hki]
          exact hc _ _
        · exact Matrix.mulVec_zero _
      have hker : ∀ q, ∑ n ∈ Finset.range (6 * (full a).li.length), M q n * y n = 0 := by
        intro q
        rw [hM, row_sum_hom]
        refine Finset.sum_eq_zero fun j _ => ?_
        rw [hhom, hhom]
        exact map_zero (rowLin s (valOf (spring num) s) (full a).li.length (full a).ki j q)
      have hx := k2 (fun n => x n + y n) (fun q hq => by
        simp only [mul_add, Finset.sum_add_distrib]
        rw [hker q, add_zero, k1 q hq])
      apply hc0
      funext t
      have := hx (6 * i + t) (by have := t.2; omega)
      have h0 := congrFun (hcon i) t
      rw [if_pos rfl] at h0
      simp only [constsOf] at h0
      rw [← h0]
      simpa using this

/-- C85, consequence: with such a weak layer `assemble_and_solve` does not solve
any model at all. -/
theorem C85_unsolved_violated (num : Numerics) (heig : ∀ K, EigOk K (num.eig K)) (s : Self) (h : Ready num.eig s)
    (t nu : ℝ) (ht : 0 < t) (hn : -1 < nu) (hn' : nu < 1) :
    ∃ E, 0 < E ∧ ∀ (system : String) (mode : Mode) (L cut tc td phi₀ ratio phi : ℝ) (kind : SeqKind) (a : SegLists),
      let s' := (setFoundationProperties num.eig t E nu true s).stage system mode L cut tc td phi₀ ratio
      Valid s' a → (kind = .list ∨ a.li.length ≠ 1) → ∀ r, (assembleAndSolve num kind phi a s').1 ≠ .ok r := by
  obtain ⟨E, hE, h1, -⟩ := C85_incomplete_violated num.eig heig s h t nu ht hn hn'
  have hr := weak_ready num.eig s h t E nu ht hE hn hn'
  refine ⟨E, hE, fun system mode L cut tc td phi₀ ratio phi kind a => ?_⟩
  intro s' hv hk
  exact never_solved num s' (EigFresh.stage _ _ _ _ _ _ _ _ hr.fresh.eigFresh) h1 kind phi a hv hk

/-! ## Slabs of one layer -/

/-- One layer of modulus `m`, thickness `h`, on a weak layer of modulus `E`. -/
theorem one_layer_disc (s : Self) (hs : Stiff s) (m E : ℝ) (hm : 0 < m) (hE : 0 < E) (h1 : s.kn = 16 / 15 * (E / s.t))
    (h2 : s.kt = 2 / 5 * (E / s.t)) (h3 : s.B11 = 0) (h4 : s.A11 = 16 / 15 * m * s.h)
    (h5 : s.D11 = 4 / 45 * m * s.h ^ 3) (h6 : s.kA55 = m * s.h / 3) (hthin : 3 * s.t ≤ s.h)
    (hsoft : E * s.h ≤ 2 * m * s.t) : (cubicOf s).disc ≠ 0 := by
  obtain ⟨g1, g2, -⟩ := cubic_eq s hs
  have hh := hs.h
  have ht := hs.t
  refine (disc_neg_of _ ?_).ne
  rw [h1, h2, h3, h4, h5, h6] at g1
  rw [h1, h2, h3, h4, h5, h6] at g2
  generalize s.h = h at *
  generalize s.t = t at *
  set w := E / (t * m) with hw
  set τ := (h + t) / 2 / h with hτ
  have hw0 : 0 < w := by positivity
  have e1 : (cubicOf s).p = -(w / h * (16 / 5 + 2 / 5 * (45 / 4 * τ ^ 2 + 15 / 16))) := by
    rw [g1, hw, hτ]
    field_simp
    ring
  have e2 : (cubicOf s).q = w / h ^ 3 * (12 + w * h * (32 / 25 * (45 / 8 * τ + 15 / 16))) := by
    rw [g2, hw, hτ]
    field_simp
    ring
  have hv : w * h ≤ 2 := by
    rw [hw, div_mul_eq_mul_div, div_le_iff₀ (by positivity)]
    linarith
  have hτ1 : 1 / 2 ≤ τ := by
    rw [hτ, le_div_iff₀ hh]
    linarith
  have hτ2 : τ ≤ 2 / 3 := by
    rw [hτ, div_le_iff₀ hh]
    linarith
  have hτ3 : τ ^ 2 ≤ 4 / 9 := by nlinarith
  have hb : (16 / 5 + 2 / 5 * (45 / 4 * τ ^ 2 + 15 / 16)) ^ 2 ≤ (223 / 40 : ℝ) ^ 2 := by
    apply pow_le_pow_left₀ (by positivity)
    linarith
  rw [e1, e2, neg_sq]
  have hwh : 0 < w * h := by positivity
  have key : (w * h) * (16 / 5 + 2 / 5 * (45 / 4 * τ ^ 2 + 15 / 16)) ^ 2
      < 3 * (12 + w * h * (32 / 25 * (45 / 8 * τ + 15 / 16))) := by
    have k1 : (w * h) * (16 / 5 + 2 / 5 * (45 / 4 * τ ^ 2 + 15 / 16)) ^ 2 ≤ (w * h) * (223 / 40) ^ 2 :=
      mul_le_mul_of_nonneg_left hb hwh.le
    have k2 : (w * h) * (24 / 5) ≤ w * h * (32 / 25 * (45 / 8 * τ + 15 / 16)) := by
      apply mul_le_mul_of_nonneg_left _ hwh.le
      linarith
    nlinarith
  have e3 : (w / h * (16 / 5 + 2 / 5 * (45 / 4 * τ ^ 2 + 15 / 16))) ^ 2
      = w / h ^ 3 * ((w * h) * (16 / 5 + 2 / 5 * (45 / 4 * τ ^ 2 + 15 / 16)) ^ 2) := by
    field_simp
  rw [e3]
  have := mul_lt_mul_of_pos_left key (show 0 < w / h ^ 3 by positivity)
  linarith

theorem bergfeld_pos (rho : ℝ) (h : 0 < rho) : 0 < bergfeld rho 917 6.5 4.4 := by
  unfold bergfeld
  positivity

/-- C85: every slab of one layer on a weak layer that is at most a third as
thick, and whose stiffness `E / t` is at most twice that of the slab. The whole
theory of the criterion applies to such a site. -/
theorem C85_one_layer (num : Numerics) (heig : ∀ K, EigOk K (num.eig K)) (p : Ply) (phi E t : ℝ) (env : Env)
    (hr : 0 < p.rho) (hh : 0 < p.h) (ht : 0 < t) (hE : 0 < E) (hthin : 3 * t ≤ p.h)
    (hsoft : E / t ≤ 2 * bergfeld p.rho 917 6.5 4.4 / p.h) : SiteOk num ⟨[p], phi, E, t, env⟩ := by
  have hv : ValidPlies [p] := ⟨by simp, by simpa using ⟨hr, hh⟩⟩
  refine ⟨heig, hv, ht, hE, fun s hs => ?_⟩
  obtain ⟨s', k1, k2, -, -, -, -, -, -, -, k3, k4⟩ := siteObject_ready num.eig ⟨[p], phi, E, t, env⟩ hv ht hE
  rw [hs] at k1
  injection k1 with k1
  subst k1
  have hsl := siteObject_slab num.eig _ _ _ _ _ s hs
  have hm := bergfeld_pos p.rho hr
  set m := bergfeld p.rho 917 6.5 4.4 with hmdef
  have hsh : s.h = p.h := by
    rw [k2.slab.h, hsl]
    simp [Spec.total]
  obtain ⟨e1, e2, e3, e4, e5, e6, e7⟩ := fundamental_fields num.eig s
  have hfr : calcFundamentalSystem num.eig s = s := k2.fresh
  rw [hfr] at e1 e2 e3 e4 e5 e6 e7
  have hst : s.t = t := k3
  have hw : s.weak = ⟨0.25, E⟩ := k4
  have hk := k2.slab.k
  rw [laminate_eq] at e3 e4 e5 e6 e7
  simp only [hsl, hsh, hk, Spec.layerSum] at e3 e4 e5 e6 e7
  simp only [calcFoundationStiffness, hst, hw] at e1 e2
  have f1 : s.kn = 16 / 15 * (E / s.t) := by rw [e1, hst]; ring
  have f2 : s.kt = 2 / 5 * (E / s.t) := by rw [e2, hst]; ring
  have f6 : s.kA55 = m * s.h / 3 := by rw [e6, hsh]; ring
  have hs1 : E * p.h ≤ 2 * m * t := by
    rw [div_le_div_iff₀ ht hh] at hsoft
    linarith
  constructor
  · refine one_layer_disc s k2.stiff m E hm hE f1 f2 (by rw [e4]; ring) (by rw [e3, hsh]; ring)
      (by rw [e5, hsh]; ring) f6 (by rw [hsh, hst]; exact hthin) (by rw [hsh, hst]; exact hs1)
  · unfold ShearOk
    rw [f2, f6, hst, hsh]
    have : 2 / 5 * (E / t) * t ^ 2 = 2 / 5 * E * t := by field_simp
    rw [this]
    have a1 : E * t * 3 ≤ E * p.h := by nlinarith
    nlinarith [mul_pos hm hh]

theorem bergfeld_firm (rho : ℝ) (h : 200 ≤ rho) : 15 / 2 ≤ bergfeld rho 917 6.5 4.4 := by
  unfold bergfeld
  have h1 : ((200 / 917 : ℝ)) ^ (4.4 : ℝ) ≤ (rho / 917) ^ (4.4 : ℝ) :=
    Real.rpow_le_rpow (by norm_num) (by linarith) (by norm_num)
  have h2 : (3 / 2600 : ℝ) ≤ (200 / 917 : ℝ) ^ (4.4 : ℝ) := by
    have e : (3 / 2600 : ℝ) = ((3 / 2600 : ℝ) ^ 5) ^ ((1 : ℝ) / 5) := by
      rw [← Real.rpow_natCast, ← Real.rpow_mul (by norm_num)]
      norm_num
    have e' : (200 / 917 : ℝ) ^ (4.4 : ℝ) = ((200 / 917 : ℝ) ^ 22) ^ ((1 : ℝ) / 5) := by
      rw [← Real.rpow_natCast, ← Real.rpow_mul (by norm_num)]
      norm_num
    rw [e, e']
    exact Real.rpow_le_rpow (by norm_num) (by norm_num) (by norm_num)
  have h3 := h2.trans h1
  norm_num at h3 ⊢
  linarith

/-- C85: slabs of one layer of at least 200 kg/m³ and between 90 mm and 1.8 m
thick on the default weak layer, at any inclination. -/
theorem C85_default_layer (num : Numerics) (heig : ∀ K, EigOk K (num.eig K)) (p : Ply) (phi : ℝ) (hr : 200 ≤ p.rho)
    (h1 : 90 ≤ p.h) (h2 : p.h ≤ 1800) : SiteOk num { profile := [p], phi := phi } := by
  refine C85_one_layer num heig p phi 0.25 30 _ (by linarith) (by linarith) (by norm_num) (by norm_num) (by linarith) ?_
  have := bergfeld_firm p.rho hr
  rw [div_le_div_iff₀ (by norm_num) (by linarith)]
  norm_num
  linarith

/-- C85: every slab, also of many layers, on a weak layer that is soft enough. -/
theorem C85_any_slab (num : Numerics) (heig : ∀ K, EigOk K (num.eig K)) (profile : List Ply) (hv : ValidPlies profile)
    (t : ℝ) (ht : 0 < t) : ∃ E₀, 0 < E₀ ∧ ∀ (phi E : ℝ) (env : Env), 0 < E → E < E₀ →
      SiteOk num ⟨profile, phi, E, t, env⟩ := by
  obtain ⟨s, k1, k2, -⟩ := layeredInit_ready num.eig "skiers" profile false hv
  obtain ⟨P, Q, S, R, hP, hQ, hS, hR, hPS, hc⟩ := weak_cubic num.eig s k2 t 0.25 ht (by norm_num) (by norm_num)
  have hk := k2.stiff.kA55
  refine ⟨min (Q / P ^ 2) (40 * s.kA55 / t), lt_min (by positivity) (by positivity), fun phi E env hE hE' =>
    ⟨heig, hv, ht, hE, fun s' hs' => ?_⟩⟩
  have e : s' = setFoundationProperties num.eig t E 0.25 true s := by
    unfold siteObject at hs'
    simp only [k1] at hs'
    injection hs' with hs'
    exact hs'.symm
  subst e
  constructor
  · refine (disc_neg_of _ ?_).ne
    rw [hc E hE]
    simp only
    have h1 := hE'.trans_le (min_le_left _ _)
    rw [lt_div_iff₀ (by positivity)] at h1
    nlinarith [mul_pos hE hQ, mul_pos (pow_pos hE 2) hS]
  · obtain ⟨-, f2, f3, -, -, -, -, f8⟩ := weak_fields num.eig s k2 t E 0.25
    have h1 := hE'.trans_le (min_le_right _ _)
    rw [lt_div_iff₀ ht] at h1
    unfold ShearOk
    rw [f2, f3, f8]
    have : E * (1 / (2 * (1 + 0.25) * t)) * t ^ 2 = 2 / 5 * (E * t) := by
      field_simp
      norm_num
    rw [this]
    linarith

/-- A slab of 300 kg/m³ and one metre on a slope of 38 degrees. -/
example : SiteOk midNum { profile := [⟨300, 1000⟩], phi := 38 } :=
  C85_default_layer midNum stdEig_ok _ _ (by norm_num) (by norm_num) (by norm_num)

/-- The object `comp` with some other weak layer. -/
example : ∃ E, 0 < E ∧ ∀ x l, ∃ Z : Vec6, ∀ C : Vec6,
    (zh (setFoundationProperties stdEig 30 E 0.25 true (demo stdEig "skier" false)) x l true).mulVec C ≠ Z := by
  obtain ⟨E, h1, -, h2⟩ := C85_incomplete_violated stdEig stdEig_ok _ (demo_ready stdEig "skier" false) 30 0.25 (by norm_num)
    (by norm_num) (by norm_num)
  exact ⟨E, h1, h2⟩

end Weac
