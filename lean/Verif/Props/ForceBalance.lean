import Mathlib.MeasureTheory.Integral.IntervalIntegral.FundThmCalculus
import Mathlib.MeasureTheory.Integral.IntervalIntegral.IntegrationByParts
import Verif.Props.SolveDemo

/-!
# C19: global balance of forces
-/

namespace Weac
open Spec

theorem Spec.Driven.continuous {b : Beam} {bed : Bool} {d : ℝ × ℝ × ℝ} {f : ℝ → Vec6} (h : Driven b bed d f) :
    Continuous f :=
  continuous_iff_continuousAt.mpr fun x => by
    obtain ⟨dz, h1, -⟩ := h x
    exact h1.continuousAt

theorem Spec.Driven.comp_cont {b : Beam} {bed : Bool} {d : ℝ × ℝ × ℝ} {f : ℝ → Vec6} (h : Driven b bed d f) (i : Fin 6) :
    Continuous fun x => f x i := (continuous_apply i).comp h.continuous

/-- Change of the shear force over a segment. -/
theorem Spec.Driven.shear_integral {b : Beam} {bed : Bool} {d : ℝ × ℝ × ℝ} {f : ℝ → Vec6} (h : Driven b bed d f) (l : ℝ) :
    b.V (f l) - b.V (f 0) = (if bed then ∫ x in (0 : ℝ)..l, b.kn * f x 2 else 0) - d.2.1 * l := by
  have key : ∫ x in (0 : ℝ)..l, ((if bed then b.kn * f x 2 else 0) - d.2.1) = b.V (f l) - b.V (f 0) := by
    refine intervalIntegral.integral_eq_sub_of_hasDerivAt (f := fun x => b.V (f x)) (fun x _ => ?_) ?_
    · obtain ⟨dz, h1, h2⟩ := h x
      have h3 := (hasDerivAt_pi.mp h1 3).add (hasDerivAt_pi.mp h1 4)
      exact (h3.const_mul b.S).congr_deriv h2.V
    · apply Continuous.intervalIntegrable
      cases bed
      · simp only [Bool.false_eq_true, if_false]; exact continuous_const
      · simp only [if_true]; exact ((h.comp_cont 2).const_mul _).sub continuous_const
  rw [← key]
  cases bed
  · simp; ring
  · simp only [if_true]
    rw [intervalIntegral.integral_sub (((h.comp_cont 2).const_mul _).intervalIntegrable _ _)
      (continuous_const.intervalIntegrable _ _)]
    simp; ring

/-- Change of the normal force over a segment. -/
theorem Spec.Driven.normal_integral {b : Beam} {bed : Bool} {d : ℝ × ℝ × ℝ} {f : ℝ → Vec6} (h : Driven b bed d f) (l : ℝ) :
    b.N (f l) - b.N (f 0) = (if bed then ∫ x in (0 : ℝ)..l, b.tau (f x) else 0) - d.1 * l := by
  have hc : Continuous fun x => b.tau (f x) :=
    (((h.comp_cont 0).add ((h.comp_cont 4).const_mul _)).sub ((h.comp_cont 3).const_mul _)).const_mul _
  have key : ∫ x in (0 : ℝ)..l, ((if bed then b.tau (f x) else 0) - d.1) = b.N (f l) - b.N (f 0) := by
    refine intervalIntegral.integral_eq_sub_of_hasDerivAt (f := fun x => b.N (f x)) (fun x _ => ?_) ?_
    · obtain ⟨dz, h1, h2⟩ := h x
      have h3 := ((hasDerivAt_pi.mp h1 1).const_mul b.A).add ((hasDerivAt_pi.mp h1 5).const_mul b.B)
      exact h3.congr_deriv h2.N
    · apply Continuous.intervalIntegrable
      cases bed
      · simp only [Bool.false_eq_true, if_false]; exact continuous_const
      · simp only [if_true]; exact hc.sub continuous_const
  rw [← key]
  cases bed
  · simp; ring
  · simp only [if_true]
    rw [intervalIntegral.integral_sub (hc.intervalIntegrable _ _) (continuous_const.intervalIntegrable _ _)]
    simp; ring

/-- Telescoping over a chain with jumps. -/
theorem chain_telescope (n : ℕ) (A B J : ℕ → ℝ) (h : ∀ i, i + 1 < n + 1 → B i - A (i + 1) = J i) :
    ∑ i ∈ Finset.range (n + 1), (B i - A i) = B n - A 0 + ∑ i ∈ Finset.range n, J i := by
  induction n with
  | zero => simp
  | succ n ih =>
    rw [Finset.sum_range_succ, ih (fun i hi => h i (by omega)), Finset.sum_range_succ _ n, ← h n (by omega)]
    ring

/-- Total length. -/
def totalLength (a : SegLists) : ℝ := ∑ i ∈ Finset.range a.li.length, nth a.li i

/-- Integral of a quantity of the state over all supported segments. -/
noncomputable def overSupport (s : Self) (phi : ℝ) (a : SegLists) (C : List Vec6) (q : Vec6 → ℝ) : ℝ :=
  ∑ i ∈ Finset.range a.li.length, if a.ki.getD i false then
    ∫ x in (0 : ℝ)..nth a.li i, q (zsol s x (C.getD i 0) (nth a.li i) phi true) else 0

/-- State at the left and at the right end of the chain. -/
noncomputable def leftEnd (s : Self) (phi : ℝ) (a : SegLists) (C : List Vec6) : Vec6 :=
  zsol s 0 (C.getD 0 0) (nth a.li 0) phi (a.ki.getD 0 false)
noncomputable def rightEnd (s : Self) (phi : ℝ) (a : SegLists) (C : List Vec6) : Vec6 :=
  let n := a.li.length - 1
  zsol s (nth a.li n) (C.getD n 0) (nth a.li n) phi (a.ki.getD n false)

/-- Balance of a chain, with arbitrary section forces at its ends. -/
theorem force_balance (s : Self) (hb : BedOk s) (phi kR : ℝ) (a : SegLists) (C : List Vec6) (h0 : a.li ≠ [])
    (hm : Meets s phi kR a (fun i => C.getD i 0)) :
    overSupport s phi a C (fun z => -fsig s z)
      = ((s.loads phi).qn + (s.loads phi).pn) * totalLength a
        + ∑ i ∈ Finset.range (a.li.length - 1), (jump s phi a.mi i).2.2
        + (fV s (rightEnd s phi a C) - fV s (leftEnd s phi a C)) ∧
    overSupport s phi a C (ftau s)
      = ((s.loads phi).qt + (s.loads phi).pt) * totalLength a
        + ∑ i ∈ Finset.range (a.li.length - 1), (jump s phi a.mi i).1
        + (fN s (rightEnd s phi a C) - fN s (leftEnd s phi a C)) := by
  obtain ⟨n, hn⟩ : ∃ n, a.li.length = n + 1 :=
    ⟨a.li.length - 1, by have := List.length_pos_iff.mpr h0; omega⟩
  obtain ⟨-, -, ht⟩ := hm
  have hdr := fun i => stateAt_driven s hb phi a.li a.ki (fun i => C.getD i 0) i
  set Z := stateAt s phi a.li a.ki (fun i => C.getD i 0) with hZ
  have hd1 : ∀ bed, (driveOf s phi bed).1 = (s.loads phi).qt + (s.loads phi).pt := fun _ => rfl
  have hd2 : ∀ bed, (driveOf s phi bed).2.1 = (s.loads phi).qn + (s.loads phi).pn := fun _ => rfl
  constructor
  · have t1 := chain_telescope n (fun i => s.beam.V (Z i 0)) (fun i => s.beam.V (Z i (nth a.li i)))
      (fun i => (jump s phi a.mi i).2.2) (fun i hi => (ht i (by omega)).V)
    have t2 : ∀ i, s.beam.V (Z i (nth a.li i)) - s.beam.V (Z i 0)
        = (if a.ki.getD i false then ∫ x in (0 : ℝ)..nth a.li i, -fsig s (zsol s x (C.getD i 0) (nth a.li i) phi true) else 0)
          - ((s.loads phi).qn + (s.loads phi).pn) * nth a.li i := by
      intro i
      rw [(hdr i).shear_integral, hd2]
      congr 1
      by_cases hk : a.ki.getD i false = true
      · rw [if_pos hk, if_pos hk]
        refine intervalIntegral.integral_congr fun x _ => ?_
        simp only [hZ, stateAt, hk, fsig, fw, Self.beam]
        ring
      · rw [if_neg hk, if_neg hk]
    simp only [t2] at t1
    rw [Finset.sum_sub_distrib, ← Finset.mul_sum] at t1
    have e1 : s.beam.V (Z n (nth a.li n)) = fV s (rightEnd s phi a C) := by
      simp only [rightEnd, hn, Nat.add_sub_cancel]; rfl
    have e2 : s.beam.V (Z 0 0) = fV s (leftEnd s phi a C) := rfl
    rw [e1, e2] at t1
    rw [overSupport, totalLength, hn, Nat.add_sub_cancel]
    linear_combination t1
  · have t1 := chain_telescope n (fun i => s.beam.N (Z i 0)) (fun i => s.beam.N (Z i (nth a.li i)))
      (fun i => (jump s phi a.mi i).1) (fun i hi => (ht i (by omega)).N)
    have t2 : ∀ i, s.beam.N (Z i (nth a.li i)) - s.beam.N (Z i 0)
        = (if a.ki.getD i false then ∫ x in (0 : ℝ)..nth a.li i, ftau s (zsol s x (C.getD i 0) (nth a.li i) phi true) else 0)
          - ((s.loads phi).qt + (s.loads phi).pt) * nth a.li i := by
      intro i
      rw [(hdr i).normal_integral, hd1]
      congr 1
      by_cases hk : a.ki.getD i false = true
      · rw [if_pos hk, if_pos hk]
        refine intervalIntegral.integral_congr fun x _ => ?_
        simp only [hZ, stateAt, hk, ftau, fdw, fu, fpsi, Self.beam, Beam.tau]
        ring
      · rw [if_neg hk, if_neg hk]
    simp only [t2] at t1
    rw [Finset.sum_sub_distrib, ← Finset.mul_sum] at t1
    have e1 : s.beam.N (Z n (nth a.li n)) = fN s (rightEnd s phi a C) := by
      simp only [rightEnd, hn, Nat.add_sub_cancel]; rfl
    have e2 : s.beam.N (Z 0 0) = fN s (leftEnd s phi a C) := rfl
    rw [e1, e2] at t1
    rw [overSupport, totalLength, hn, Nat.add_sub_cancel]
    linear_combination t1

/-- Both ends of a PST are free: an unsupported end has not touched down. -/
def FreeEnds (s : Self) (a : SegLists) : Prop :=
  IsPst s ∧ (OpenEnd a → s.mode = .unset ∨ s.mode = .A)

theorem endCond_free {s : Self} (phi kR : ℝ) (a : SegLists) (h : FreeEnds s a) :
    endCond s phi kR .left (a.ki.getD 0 false) = .forces 0 0 0 ∧
    endCond s phi kR .right (a.ki.getD (a.li.length - 1) false) = .forces 0 0 0 := by
  obtain ⟨hp, ho⟩ := h
  constructor
  · unfold endCond
    rw [if_pos hp]
    split_ifs with hk
    · rfl
    · rcases ho (.inl (by simpa using hk)) with h | h <;> rw [h]
  · unfold endCond
    rw [if_pos hp]
    split_ifs with hk
    · rfl
    · rcases ho (.inr (by simpa using hk)) with h | h <;> rw [h]

/-- C19. In a solved PST with free ends the weak layer carries exactly the
weight of the slab, the surface load and the additional weights, in the normal
and in the tangential direction. -/
theorem C19_force_balance (num : Numerics) (kind : SeqKind) (phi : ℝ) (a a' : SegLists) (s s' : Self)
    (C : List Vec6) (hb : BedOk s) (hf : EigFresh num.eig s) (hfree : FreeEnds s a')
    (h : assembleAndSolve num kind phi a s = (.ok (C, a'), s')) :
    overSupport s phi a' C (fun z => -fsig s z)
      = ((getWeightLoad s phi).1 + (getSurfaceLoad s phi).1) * totalLength a'
        + ∑ i ∈ Finset.range (a'.li.length - 1), (getSkierLoad s (nth a'.mi i) phi).1 ∧
    overSupport s phi a' C (ftau s)
      = ((getWeightLoad s phi).2 + (getSurfaceLoad s phi).2) * totalLength a'
        + ∑ i ∈ Finset.range (a'.li.length - 1), (getSkierLoad s (nth a'.mi i) phi).2 := by
  have hp := hfree.1
  have hnv : NoFaceTouchdown s := by
    intro hv
    exfalso
    unfold IsPst at hp
    rcases hv with hv | hv <;> rw [hv] at hp <;> exact absurd hp (by decide)
  have hna : ¬ IsAux s := by
    unfold IsAux
    rcases hp with h | h <;> rw [h] <;> decide
  have hv := (assembleWith_valid (sub := spring num) h).1
  obtain ⟨-, rfl, -, hm, -⟩ := C16_solution_meets_all_conditions num kind phi a a' s s' C hf hnv h
  have hne : (full a).li ≠ [] := by
    intro h0
    have := full_two hv
    rw [h0] at this
    simp at this
  obtain ⟨h1, h2⟩ := force_balance s hb phi _ (full a) C hne hm
  obtain ⟨e1, e2⟩ := endCond_free phi (valOf (spring num) s) (full a) hfree
  obtain ⟨m1, m2, -⟩ := hm
  rw [e1] at m1
  rw [e2] at m2
  have v1 : fV s (leftEnd s phi (full a) C) = 0 := m1.2.2
  have v2 : fV s (rightEnd s phi (full a) C) = 0 := m2.2.2
  have n1 : fN s (leftEnd s phi (full a) C) = 0 := m1.1
  have n2 : fN s (rightEnd s phi (full a) C) = 0 := m2.1
  have hj : ∀ i, jump s phi (full a).mi i = ((getSkierLoad s (nth (full a).mi i) phi).2,
      -((getSkierLoad s (nth (full a).mi i) phi).2 * (s.h / 2)), (getSkierLoad s (nth (full a).mi i) phi).1) := by
    intro i
    unfold jump
    rw [if_neg hna]
  simp only [hj, v1, v2, n1, n2, sub_zero, add_zero] at h1 h2
  exact ⟨h1, h2⟩

/-- A solved PST with free ends exists. -/
example : ∃ C, assembleAndSolve stdNum .list 30 (pstLists 200) (pstDemo .A 200)
    = (.ok (C, pstLists 200), pstDemo .A 200) ∧ FreeEnds (pstDemo .A 200) (pstLists 200) :=
  let ⟨C, h, _⟩ := pstDemo_solved .A (by simp) .list 30
  ⟨C, h, pstDemo_isPst _ _, fun _ => .inr rfl⟩

end Weac
