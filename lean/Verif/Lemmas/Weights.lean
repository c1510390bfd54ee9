import Verif.Props.EnergyBalance

/-!
# Chains under point loads only

A chain with passive ends and no distributed loads takes up energy: its point
loads do non-negative work on the displacements they cause, and positive work
unless they vanish.
-/

namespace Weac.Spec

variable {b : Beam}

/-- A segment of positive length without growth of the flux is at rest at a
clamped right end. -/
theorem clamped_rest_right (hb : b.Coercive) {bed : Bool} {f : ℝ → Vec6} (hf : SolvesODE b Loads.zero bed f) {l : ℝ} (hl : 0 < l)
    (h : b.flux (f l) ≤ b.flux (f 0)) (h0 : f l 0 = 0 ∧ f l 2 = 0 ∧ f l 4 = 0) : f l = 0 := by
  have hz : ∀ x ∈ Set.Ioo 0 l, f x 1 = 0 ∧ f x 5 = 0 ∧ f x 3 + f x 4 = 0 := by
    intro x hx
    have := diss_zero_of_flux_const hb hf h x hx
    cases bed with
    | true =>
      obtain ⟨a1, a5, -, a34, -⟩ := hb.diss_zero _ this
      exact ⟨a1, a5, a34⟩
    | false => exact hb.diss_zero_free _ this
  have hc : ∀ i, Continuous fun x => f x i := fun i => by
    rw [continuous_iff_continuousAt]
    intro x
    obtain ⟨dz, h1, -⟩ := hf x
    exact (hasDerivAt_pi.mp h1 i).continuousAt
  have lim : ∀ g : ℝ → ℝ, Continuous g → (∀ x ∈ Set.Ioo 0 l, g x = 0) → g l = 0 := by
    intro g hg hx
    have hcl : l ∈ closure (Set.Ioo 0 l) := by
      rw [closure_Ioo hl.ne]
      exact ⟨hl.le, le_refl _⟩
    exact (isClosed_eq hg continuous_const).closure_subset_iff.mpr hx hcl
  have c1 := lim _ (hc 1) fun x hx => (hz x hx).1
  have c5 := lim _ (hc 5) fun x hx => (hz x hx).2.1
  have c34 := lim _ ((hc 3).add (hc 4)) fun x hx => (hz x hx).2.2
  obtain ⟨c0, c2, c4⟩ := h0
  have c3 : f l 3 = 0 := by have : f l 3 + f l 4 = 0 := c34; rwa [c4, add_zero] at this
  funext i
  fin_cases i <;> simp [c0, c1, c2, c3, c4, c5]

variable {n : ℕ} {l : ℕ → ℝ} {k : ℕ → Bool} {Z : ℕ → ℝ → Vec6} {F : ℕ → ℝ × ℝ × ℝ} {e0 e1 : EndCond}

theorem flux_sum (hbvp : Bvp b (n + 1) F e0.hom e1.hom (fun i => Z i 0) (fun i => Z i (l i))) :
    ∑ i ∈ Finset.range (n + 1), (b.flux (Z i (l i)) - b.flux (Z i 0))
      = b.flux (Z n (l n)) - b.flux (Z 0 0) + ∑ i ∈ Finset.range n, jumpWork (F i) (Z i (l i)) := by
  rw [← chain_telescope n (fun i => b.flux (Z i 0)) (fun i => b.flux (Z i (l i))) (fun i => jumpWork (F i) (Z i (l i)))]
  intro i hi
  have h := hbvp.trans i (by omega)
  simp only [Beam.flux, jumpWork]
  rw [← h.N, ← h.M, ← h.V, ← h.u, ← h.w, ← h.psi]
  ring

/-- The growth of the flux is at most the work of the point loads. -/
theorem flux_sum_le (he0 : e0.PassiveLeft) (he1 : e1.PassiveRight)
    (hbvp : Bvp b (n + 1) F e0.hom e1.hom (fun i => Z i 0) (fun i => Z i (l i))) :
    ∑ i ∈ Finset.range (n + 1), (b.flux (Z i (l i)) - b.flux (Z i 0)) ≤ ∑ i ∈ Finset.range n, jumpWork (F i) (Z i (l i)) := by
  have h1 := EndCond.flux_left he0 hbvp.left
  have h2 := EndCond.flux_right he1 hbvp.right
  simp only [Nat.add_sub_cancel] at h2
  rw [flux_sum hbvp]
  linarith

theorem point_work_nonneg (hb : b.Coercive) (hl : ∀ i ≤ n, 0 ≤ l i) (hZ : ∀ i ≤ n, SolvesODE b Loads.zero (k i) (Z i))
    (he0 : e0.PassiveLeft) (he1 : e1.PassiveRight)
    (hbvp : Bvp b (n + 1) F e0.hom e1.hom (fun i => Z i 0) (fun i => Z i (l i))) :
    0 ≤ ∑ i ∈ Finset.range n, jumpWork (F i) (Z i (l i)) := by
  refine le_trans (Finset.sum_nonneg fun i hi => ?_) (flux_sum_le he0 he1 hbvp)
  have hi := Finset.mem_range.1 hi
  exact sub_nonneg.mpr (flux_mono hb (hZ i (by omega)) (hl i (by omega)))

/-- Point loads without work vanish. -/
theorem point_work_zero (hb : b.Coercive) (hl : ∀ i ≤ n, 0 < l i) (hZ : ∀ i ≤ n, SolvesODE b Loads.zero (k i) (Z i))
    (huniq : ∀ i ≤ n, ∀ x, Z i x = 0 → ∀ y, Z i y = 0) (he0 : e0.PassiveLeft) (he1 : e1.PassiveRight)
    (hbvp : Bvp b (n + 1) F e0.hom e1.hom (fun i => Z i 0) (fun i => Z i (l i)))
    (hk : (∃ j ≤ n, k j = true) ∨ ∃ u w psi, e0 = .state u w psi)
    (h0 : ∑ i ∈ Finset.range n, jumpWork (F i) (Z i (l i)) ≤ 0) : ∀ i < n, F i = (0, 0, 0) := by
  have hnn : ∀ i ∈ Finset.range (n + 1), 0 ≤ b.flux (Z i (l i)) - b.flux (Z i 0) := fun i hi => by
    have hi := Finset.mem_range.1 hi
    exact sub_nonneg.mpr (flux_mono hb (hZ i (by omega)) (hl i (by omega)).le)
  have hz := (Finset.sum_eq_zero_iff_of_nonneg hnn).mp
    (le_antisymm ((flux_sum_le he0 he1 hbvp).trans h0) (Finset.sum_nonneg hnn))
  have flat : ∀ i ≤ n, b.flux (Z i (l i)) ≤ b.flux (Z i 0) := fun i hi => by
    have := hz i (Finset.mem_range.2 (by omega)); linarith
  obtain ⟨j, hj, hzj⟩ : ∃ j ≤ n, ∀ x, Z j x = 0 := by
    rcases hk with ⟨j, hj, hkj⟩ | ⟨u, w, psi, rfl⟩
    · exact ⟨j, hj, huniq j hj _ (bedded_rest hb (f := Z j) (by have := hZ j hj; rwa [hkj] at this) (hl j hj) (flat j hj))⟩
    · exact ⟨0, n.zero_le, huniq 0 n.zero_le _ (clamped_rest hb (hZ 0 n.zero_le) (hl 0 n.zero_le) (flat 0 n.zero_le) hbvp.left)⟩
  have up : ∀ d, j + d ≤ n → ∀ x, Z (j + d) x = 0 := by
    intro d
    induction d with
    | zero => intro _; exact hzj
    | succ d ih =>
      intro hd
      have t := hbvp.trans (j + d) (by omega)
      have e := ih (by omega) (l (j + d))
      refine huniq _ hd _ (clamped_rest hb (hZ _ hd) (hl _ hd) (flat _ hd) ⟨?_, ?_, ?_⟩)
      · exact t.u.symm.trans (congrFun e 0)
      · exact t.w.symm.trans (congrFun e 2)
      · exact t.psi.symm.trans (congrFun e 4)
  have down : ∀ d, d ≤ j → ∀ x, Z (j - d) x = 0 := by
    intro d
    induction d with
    | zero => intro _; exact hzj
    | succ d ih =>
      intro hd
      have t := hbvp.trans (j - (d + 1)) (by omega)
      simp only [show j - (d + 1) + 1 = j - d by omega] at t
      have e := ih (by omega) 0
      have hd' : j - (d + 1) ≤ n := by omega
      refine huniq _ hd' _ (clamped_rest_right hb (hZ _ hd') (hl _ hd') (flat _ hd') ⟨?_, ?_, ?_⟩)
      · exact t.u.trans (congrFun e 0)
      · exact t.w.trans (congrFun e 2)
      · exact t.psi.trans (congrFun e 4)
  have rest : ∀ i ≤ n, ∀ x, Z i x = 0 := by
    intro i hi
    rcases le_total j i with h | h
    · have := up (i - j) (by omega)
      rwa [show j + (i - j) = i by omega] at this
    · have := down (j - i) (by omega)
      rwa [show j - (j - i) = i by omega] at this
  intro i hi
  have t := hbvp.trans i (by omega)
  have r1 := rest i hi.le (l i)
  have r2 := rest (i + 1) hi 0
  have e1 := t.N
  have e2 := t.M
  have e3 := t.V
  simp only [r1, r2, sub_self] at e1 e2 e3
  exact Prod.ext e1.symm (Prod.ext e2.symm e3.symm)

end Weac.Spec
