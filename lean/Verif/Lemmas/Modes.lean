import Verif.Props.Bedded

/-!
# The complementary solution of supported segments in terms of its modes
-/

namespace Weac
open Spec

/-- Position of a mode among the columns of the complementary solution. -/
def modeIdx (e : Eigs) (h : e.re.length + 2 * e.cx.length = 6) :
    Fin e.re.length ⊕ (Fin e.cx.length ⊕ Fin e.cx.length) ≃ Fin 6 :=
  ((Equiv.sumCongr (Equiv.refl _) finSumFinEquiv).trans finSumFinEquiv).trans (finCongr (by omega))

section
variable {s : Self} (h : s.eigs.re.length + 2 * s.eigs.cx.length = 6)
include h

theorem zh_real (x l : ℝ) (i : Fin 6) (j : Fin s.eigs.re.length) : zh s x l true i (modeIdx s.eigs h (.inl j)) =
    s.eigs.re[j].ev i * Real.exp (s.eigs.re[j].ew * (x + l * s.eigs.re[j].s)) := by
  have hj : ((modeIdx s.eigs h (.inl j)) : ℕ) = j := by simp [modeIdx]
  simp only [zh, if_true, Matrix.of_apply, hj]
  unfold zhBed
  rw [List.getD_eq_getElem _ _ (by simp; omega)]
  rw [List.getElem_append_left (by simp; omega), List.getElem_append_left (by simp)]
  simp

theorem zh_cos (x l : ℝ) (i : Fin 6) (k : Fin s.eigs.cx.length) : zh s x l true i (modeIdx s.eigs h (.inr (.inl k))) =
    Real.exp (s.eigs.cx[k].ew.re * (x + l * s.eigs.cx[k].s)) * ((s.eigs.cx[k].ev i).re * Real.cos (s.eigs.cx[k].ew.im * x)
      - (s.eigs.cx[k].ev i).im * Real.sin (s.eigs.cx[k].ew.im * x)) := by
  have hj : ((modeIdx s.eigs h (.inr (.inl k))) : ℕ) = s.eigs.re.length + k := by simp [modeIdx]
  simp only [zh, if_true, Matrix.of_apply, hj]
  unfold zhBed
  rw [List.getD_eq_getElem _ _ (by simp; omega)]
  rw [List.getElem_append_left (by simp), List.getElem_append_right (by simp)]
  simp

theorem zh_sin (x l : ℝ) (i : Fin 6) (k : Fin s.eigs.cx.length) : zh s x l true i (modeIdx s.eigs h (.inr (.inr k))) =
    Real.exp (s.eigs.cx[k].ew.re * (x + l * s.eigs.cx[k].s)) * ((s.eigs.cx[k].ev i).im * Real.cos (s.eigs.cx[k].ew.im * x)
      + (s.eigs.cx[k].ev i).re * Real.sin (s.eigs.cx[k].ew.im * x)) := by
  have hj : ((modeIdx s.eigs h (.inr (.inr k))) : ℕ) = s.eigs.re.length + s.eigs.cx.length + k := by
    simp [modeIdx, add_assoc, add_comm]
  simp only [zh, if_true, Matrix.of_apply, hj]
  unfold zhBed
  rw [List.getD_eq_getElem _ _ (by simp; omega)]
  rw [List.getElem_append_right (by simp)]
  simp

end

/-- Amplitudes at `x` of the solution with constants `C`: the values of the
constants that give the same state at the start of a segment of length zero. -/
noncomputable def amplitudes (e : Eigs) (h : e.re.length + 2 * e.cx.length = 6) (x l : ℝ) (C : Vec6) : Vec6 := fun q =>
  match (modeIdx e h).symm q with
  | .inl j => Real.exp (e.re[j].ew * (x + l * e.re[j].s)) * C (modeIdx e h (.inl j))
  | .inr (.inl k) => Real.exp (e.cx[k].ew.re * (x + l * e.cx[k].s)) * (C (modeIdx e h (.inr (.inl k))) * Real.cos (e.cx[k].ew.im * x)
      + C (modeIdx e h (.inr (.inr k))) * Real.sin (e.cx[k].ew.im * x))
  | .inr (.inr k) => Real.exp (e.cx[k].ew.re * (x + l * e.cx[k].s)) * (C (modeIdx e h (.inr (.inr k))) * Real.cos (e.cx[k].ew.im * x)
      - C (modeIdx e h (.inr (.inl k))) * Real.sin (e.cx[k].ew.im * x))

theorem zh_amplitudes {s : Self} (h : s.eigs.re.length + 2 * s.eigs.cx.length = 6) (x l : ℝ) (C : Vec6) :
    (zh s x l true).mulVec C = (zh s 0 0 true).mulVec (amplitudes s.eigs h x l C) := by
  funext i
  simp only [Matrix.mulVec, dotProduct]
  rw [← Equiv.sum_comp (modeIdx s.eigs h), ← Equiv.sum_comp (modeIdx s.eigs h)]
  simp only [Fintype.sum_sum_type, zh_real h, zh_cos h, zh_sin h, amplitudes, Equiv.symm_apply_apply]
  rw [← Finset.sum_add_distrib, ← Finset.sum_add_distrib]
  congr 1
  · refine Finset.sum_congr rfl fun j _ => ?_
    simp
    ring
  · refine Finset.sum_congr rfl fun k _ => ?_
    simp
    ring

/-- Growing modes are shifted by the length of the segment. -/
theorem shift_real {eig : EigSolver} {s : Self} (hf : EigFresh eig s) {m : RealMode} (hm : m ∈ s.eigs.re) :
    m.s = -1 ∧ 0 < m.ew ∨ m.s = 0 ∧ m.ew ≤ 0 := by
  rw [← hf] at hm
  simp only [calcEigensystem, List.mem_map] at hm
  obtain ⟨q, -, rfl⟩ := hm
  by_cases h : 0 < q.1.re
  · left; simp [h]
  · right; simp [h, not_lt.1 h]

theorem shift_cplx {eig : EigSolver} {s : Self} (hf : EigFresh eig s) {m : CplxMode} (hm : m ∈ s.eigs.cx) :
    m.s = -1 ∧ 0 ≤ m.ew.re ∨ m.s = 0 ∧ m.ew.re ≤ 0 := by
  rw [← hf] at hm
  simp only [calcEigensystem, List.mem_map] at hm
  obtain ⟨q, -, rfl⟩ := hm
  by_cases h : 0 < q.1.re ∨ q.1.re = 0 ∧ 0 < q.1.im
  · left
    refine ⟨by simp [h], ?_⟩
    rcases h with h | h
    · exact h.le
    · exact h.1.ge
  · right
    refine ⟨by simp [h], ?_⟩
    push Not at h
    exact h.1

theorem exp_shift_le {w t x l : ℝ} (h : t = -1 ∧ 0 ≤ w ∨ t = 0 ∧ w ≤ 0) (h0 : 0 ≤ x) (h1 : x ≤ l) : Real.exp (w * (x + l * t)) ≤ 1 := by
  rw [Real.exp_le_one_iff]
  rcases h with ⟨rfl, h⟩ | ⟨rfl, h⟩
  · exact mul_nonpos_of_nonneg_of_nonpos h (by linarith)
  · exact mul_nonpos_of_nonpos_of_nonneg h (by linarith)

/-- A matrix acts with a finite factor. -/
theorem mulVec_bound (P : Mat6) : ∃ K, 0 < K ∧ ∀ v q, |P.mulVec v q| ≤ K * ‖v‖ := by
  refine ⟨∑ i, ∑ j, |P i j| + 1, by positivity, fun v q => ?_⟩
  have h1 : |P.mulVec v q| ≤ ∑ j, |P q j| * ‖v‖ := by
    simp only [Matrix.mulVec, dotProduct]
    refine (Finset.abs_sum_le_sum_abs _ _).trans (Finset.sum_le_sum fun j _ => ?_)
    rw [abs_mul]
    exact mul_le_mul_of_nonneg_left (norm_le_pi_norm v j) (abs_nonneg _)
  rw [← Finset.sum_mul] at h1
  refine h1.trans (mul_le_mul_of_nonneg_right ?_ (norm_nonneg v))
  have : ∑ j, |P q j| ≤ ∑ i, ∑ j, |P i j| :=
    Finset.single_le_sum (f := fun i => ∑ j, |P i j|) (fun i _ => Finset.sum_nonneg fun j _ => abs_nonneg _) (Finset.mem_univ q)
  linarith

/-- From a rotated pair to the pair. -/
theorem rot_pair {a b p q th B : ℝ} (h1 : a * Real.cos th + b * Real.sin th = p) (h2 : b * Real.cos th - a * Real.sin th = q)
    (hp : |p| ≤ B) (hq : |q| ≤ B) : |a| ≤ 2 * B ∧ |b| ≤ 2 * B := by
  have e := Real.sin_sq_add_cos_sq th
  have ea : a = p * Real.cos th - q * Real.sin th := by rw [← h1, ← h2]; linear_combination (-a) * e
  have eb : b = p * Real.sin th + q * Real.cos th := by rw [← h1, ← h2]; linear_combination (-b) * e
  have c1 := Real.abs_cos_le_one th
  have c2 := Real.abs_sin_le_one th
  have hB := (abs_nonneg _).trans hp
  have m : ∀ u v : ℝ, |u| ≤ B → |v| ≤ 1 → |u * v| ≤ B := fun u v h h' => by
    rw [abs_mul]
    calc |u| * |v| ≤ B * 1 := mul_le_mul h h' (abs_nonneg _) hB
      _ = B := mul_one _
  constructor
  · rw [ea]
    refine (abs_sub _ _).trans ?_
    linarith [m p _ hp c1, m q _ hq c2]
  · rw [eb]
    refine (abs_add_le _ _).trans ?_
    linarith [m p _ hp c2, m q _ hq c1]

/-- The constants of a supported segment of any length are bounded by the states at
its ends. -/
theorem constants_bound {eig : EigSolver} {s : Self} (hb : BedOk s) (hf : EigFresh eig s) :
    ∃ K, 0 < K ∧ ∀ (l : ℝ) (C : Vec6) (B : ℝ), ‖(zh s 0 l true).mulVec C‖ ≤ B → ‖(zh s l l true).mulVec C‖ ≤ B → ∀ q, |C q| ≤ K * B := by
  have hu := (Matrix.isUnit_iff_isUnit_det _).1 (zh_true_isUnit s hb 0 0)
  obtain ⟨K, hK, hP⟩ := mulVec_bound (zh s 0 0 true)⁻¹
  refine ⟨2 * K, by positivity, fun l C B h0 hl q => ?_⟩
  have hB := (norm_nonneg _).trans h0
  have amp : ∀ x, ‖(zh s x l true).mulVec C‖ ≤ B → ∀ r, |amplitudes s.eigs hb.six x l C r| ≤ K * B := by
    intro x hx r
    have e := zh_amplitudes hb.six x l C
    have : amplitudes s.eigs hb.six x l C = ((zh s 0 0 true)⁻¹).mulVec ((zh s x l true).mulVec C) := by
      rw [e, Matrix.mulVec_mulVec, Matrix.nonsing_inv_mul _ hu, Matrix.one_mulVec]
    rw [this]
    exact (hP _ r).trans (mul_le_mul_of_nonneg_left hx hK.le)
  have a0 := amp 0 h0
  have al := amp l hl
  have hKB : 0 ≤ K * B := by positivity
  obtain ⟨i, rfl⟩ := (modeIdx s.eigs hb.six).surjective q
  have pair : ∀ k : Fin s.eigs.cx.length, |C (modeIdx s.eigs hb.six (.inr (.inl k)))| ≤ 2 * K * B ∧
      |C (modeIdx s.eigs hb.six (.inr (.inr k)))| ≤ 2 * K * B := by
    intro k
    rcases shift_cplx hf (List.getElem_mem (l := s.eigs.cx) k.2) with ⟨e, -⟩ | ⟨e, -⟩
    · have p1 := al (modeIdx s.eigs hb.six (.inr (.inl k)))
      have p2 := al (modeIdx s.eigs hb.six (.inr (.inr k)))
      simp only [amplitudes, Equiv.symm_apply_apply, Fin.getElem_fin, e, mul_neg, mul_one, add_neg_cancel, mul_zero, Real.exp_zero,
        one_mul] at p1 p2
      have := rot_pair rfl rfl p1 p2
      rwa [← mul_assoc] at this
    · have p1 := a0 (modeIdx s.eigs hb.six (.inr (.inl k)))
      have p2 := a0 (modeIdx s.eigs hb.six (.inr (.inr k)))
      simp only [amplitudes, Equiv.symm_apply_apply, Fin.getElem_fin, e, mul_zero, add_zero, Real.exp_zero,
        one_mul, Real.cos_zero, Real.sin_zero, mul_one, sub_zero] at p1 p2
      constructor <;> linarith
  rcases i with j | k | k
  · rcases shift_real hf (List.getElem_mem (l := s.eigs.re) j.2) with ⟨e, -⟩ | ⟨e, -⟩
    · have p1 := al (modeIdx s.eigs hb.six (.inl j))
      simp only [amplitudes, Equiv.symm_apply_apply, Fin.getElem_fin, e, mul_neg, mul_one, add_neg_cancel, mul_zero, Real.exp_zero,
        one_mul] at p1
      linarith
    · have p1 := a0 (modeIdx s.eigs hb.six (.inl j))
      simp only [amplitudes, Equiv.symm_apply_apply, Fin.getElem_fin, e, mul_zero, add_zero, Real.exp_zero, one_mul] at p1
      linarith
  · exact (pair k).1
  · exact (pair k).2

/-- Bound of the complementary solution of supported segments. -/
noncomputable def modeNorm (e : Eigs) : ℝ :=
  ∑ j : Fin e.re.length, ∑ i, |e.re[j].ev i| + ∑ k : Fin e.cx.length, ∑ i, (|(e.cx[k].ev i).re| + |(e.cx[k].ev i).im|)

theorem zh_le {eig : EigSolver} {s : Self} (hb : BedOk s) (hf : EigFresh eig s) {x l : ℝ} (h0 : 0 ≤ x) (h1 : x ≤ l) (i j : Fin 6) :
    |zh s x l true i j| ≤ modeNorm s.eigs := by
  obtain ⟨q, rfl⟩ := (modeIdx s.eigs hb.six).surjective j
  have n1 : 0 ≤ ∑ j : Fin s.eigs.re.length, ∑ i, |s.eigs.re[j].ev i| := by positivity
  have n2 : 0 ≤ ∑ k : Fin s.eigs.cx.length, ∑ i, (|(s.eigs.cx[k].ev i).re| + |(s.eigs.cx[k].ev i).im|) := by positivity
  have big : ∀ k : Fin s.eigs.cx.length, |(s.eigs.cx[k].ev i).re| + |(s.eigs.cx[k].ev i).im| ≤ modeNorm s.eigs := by
    intro k
    have a1 := Finset.single_le_sum (f := fun i => |(s.eigs.cx[k].ev i).re| + |(s.eigs.cx[k].ev i).im|)
      (fun i _ => by positivity) (Finset.mem_univ i)
    have a2 := Finset.single_le_sum (f := fun k : Fin s.eigs.cx.length => ∑ i, (|(s.eigs.cx[k].ev i).re| + |(s.eigs.cx[k].ev i).im|))
      (fun i _ => by positivity) (Finset.mem_univ k)
    unfold modeNorm
    linarith
  have small : ∀ (E a b th : ℝ), 0 ≤ E → E ≤ 1 → |E * (a * Real.cos th + b * Real.sin th)| ≤ |a| + |b| := by
    intro E a b th hE hE1
    rw [abs_mul, abs_of_nonneg hE]
    have b1 := mul_le_mul_of_nonneg_left (Real.abs_cos_le_one th) (abs_nonneg a)
    have b2 := mul_le_mul_of_nonneg_left (Real.abs_sin_le_one th) (abs_nonneg b)
    rw [← abs_mul] at b1 b2
    have b3 := abs_add_le (a * Real.cos th) (b * Real.sin th)
    have b4 := mul_le_of_le_one_left (abs_nonneg (a * Real.cos th + b * Real.sin th)) hE1
    linarith
  rcases q with j | k | k
  · rw [zh_real hb.six, abs_mul, abs_of_pos (Real.exp_pos _)]
    have h := exp_shift_le (x := x) (l := l) ((shift_real hf (List.getElem_mem (l := s.eigs.re) j.2)).imp (fun h => ⟨h.1, h.2.le⟩) id) h0 h1
    have a1 := Finset.single_le_sum (f := fun i => |s.eigs.re[j].ev i|) (fun i _ => by positivity) (Finset.mem_univ i)
    have a2 := Finset.single_le_sum (f := fun j : Fin s.eigs.re.length => ∑ i, |s.eigs.re[j].ev i|)
      (fun i _ => by positivity) (Finset.mem_univ j)
    have a3 := mul_le_of_le_one_right (abs_nonneg (s.eigs.re[j].ev i)) h
    refine a3.trans ?_
    unfold modeNorm
    linarith
  · rw [zh_cos hb.six]
    have h := exp_shift_le (x := x) (l := l) (shift_cplx hf (List.getElem_mem (l := s.eigs.cx) k.2)) h0 h1
    have := small _ (s.eigs.cx[k].ev i).re (-(s.eigs.cx[k].ev i).im) (s.eigs.cx[k].ew.im * x) (Real.exp_pos _).le h
    rw [abs_neg, neg_mul, ← sub_eq_add_neg] at this
    exact this.trans (big k)
  · rw [zh_sin hb.six]
    have h := exp_shift_le (x := x) (l := l) (shift_cplx hf (List.getElem_mem (l := s.eigs.cx) k.2)) h0 h1
    have := small _ (s.eigs.cx[k].ev i).im (s.eigs.cx[k].ev i).re (s.eigs.cx[k].ew.im * x) (Real.exp_pos _).le h
    exact this.trans (by rw [add_comm]; exact big k)

end Weac
