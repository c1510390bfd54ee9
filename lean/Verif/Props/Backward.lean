import Verif.Props.Conditioning

/-!
# C71: perturbed coefficients of the linear system

Rounding in the set-up of the linear system and in its solution amounts to solving
a system with slightly different coefficients.
-/

namespace Weac

open Spec

section

variable {N : ℕ} {M M' : ℕ → ℕ → ℝ} {x : ℕ → ℝ} {δ X : ℝ}

/-- Change of a row by changed coefficients. -/
theorem row_change (hM : ∀ i < N, ∀ j < N, |M' i j - M i j| ≤ δ) (hx : ∀ j < N, |x j| ≤ X) {i : ℕ} (hi : i < N) :
    |∑ j ∈ Finset.range N, M i j * x j - ∑ j ∈ Finset.range N, M' i j * x j| ≤ N * δ * X := by
  have hδ : 0 ≤ δ := (abs_nonneg _).trans (hM i hi i hi)
  rw [← Finset.sum_sub_distrib]
  refine (Finset.abs_sum_le_sum_abs _ _).trans ?_
  have : ∀ j ∈ Finset.range N, |M i j * x j - M' i j * x j| ≤ δ * X := fun j hj => by
    rw [Finset.mem_range] at hj
    rw [← sub_mul, abs_mul, abs_sub_comm]
    exact mul_le_mul (hM i hi j hj) (hx j hj) (abs_nonneg _) hδ
  refine (Finset.sum_le_sum this).trans (le_of_eq ?_)
  rw [Finset.sum_const, Finset.card_range, nsmul_eq_mul, mul_assoc]

/-- Solutions stay bounded if the coefficients change a little. -/
theorem perturbed_bound {κ β : ℝ}
    (h : ∀ (x : ℕ → ℝ) (ε : ℝ), (∀ i < N, |∑ j ∈ Finset.range N, M i j * x j| ≤ ε) → ∀ j < N, |x j| ≤ κ * ε)
    (hM : ∀ i < N, ∀ j < N, |M' i j - M i j| ≤ δ) (hs : 2 * κ * N * δ ≤ 1)
    (hr : ∀ i < N, |∑ j ∈ Finset.range N, M' i j * x j| ≤ β) : ∀ j < N, |x j| ≤ 2 * κ * β := by
  intro j hj
  obtain ⟨m, hm, hmax⟩ := Finset.exists_max_image (Finset.range N) (fun j => |x j|) ⟨j, Finset.mem_range.2 hj⟩
  have hb : ∀ j < N, |x j| ≤ |x m| := fun j hj => hmax j (Finset.mem_range.2 hj)
  have h1 := h x (β + N * δ * |x m|) (fun i hi => by
    have a := row_change hM hb hi
    have b := hr i hi
    have c := abs_sub_abs_le_abs_sub (∑ j ∈ Finset.range N, M i j * x j) (∑ j ∈ Finset.range N, M' i j * x j)
    linarith) m (Finset.mem_range.1 hm)
  have h2 := mul_le_mul_of_nonneg_right hs (abs_nonneg (x m))
  have := hb j hj
  nlinarith

end

/-- Runs determine the linear system passed to the solver. -/
theorem system_unique {n : ℕ} {M M' : ℕ → ℕ → ℝ} {r r' : ℕ → ℝ} {f : (ℕ → ℝ) → List Vec6 × SegLists} {s : Self}
    {g : LinSolver → Res (List Vec6 × SegLists) × Self}
    (h : ∀ solve, g solve = ((solve n M r).map f, s)) (h' : ∀ solve, g solve = ((solve n M' r').map f, s)) : M' = M ∧ r' = r := by
  classical
  let t : LinSolver := fun _ A b => if A = M ∧ b = r then .ok 0 else .error .linAlgError
  have e := (h t).symm.trans (h' t)
  simp only [t] at e
  by_contra hc
  rw [if_neg hc] at e
  simp [Except.map] at e

/-- C71, backward errors: if the coefficients of the linear system change by `δ` at most and its
right-hand side, of magnitude `ρ`, by `δ'` at most, with `K δ ≤ 1`, then the solver still finds a
solution, and the fields of every solution of the changed system differ from the exact ones by
`K (δ' + δ ρ)` at most. The constant `K` is the same for all inclinations, weights and lengths of
the supported segments. -/
theorem C71_backward (num : Numerics) (s : Self) (hb : BedOk s) (hc : ShearOk s) (hf : EigFresh num.eig s) (hv : NoFaceTouchdown s)
    (n : ℕ) {d : ℝ} (R : ℝ) (hd : 0 < d) :
    ∃ K, 0 < K ∧ ∀ (kind : SeqKind) (phi : ℝ) (a a' : SegLists) (s' : Self) (C : List Vec6),
      assembleAndSolve num kind phi a s = (.ok (C, a'), s') → a'.li.length = n →
      Anchored d R n (fun i => a'.ki.getD i false) (nth a'.li) →
      ∃ (M : ℕ → ℕ → ℝ) (r : ℕ → ℝ),
        (∀ solve, assembleAndSolveBy solve num kind phi a s =
          ((solve (6 * n) M r).map fun x => ((List.range n).map fun i (j : Fin 6) => x (6 * i + j), a'), s)) ∧
        ∀ (M' : ℕ → ℕ → ℝ) (r' : ℕ → ℝ) (δ δ' ρ : ℝ), K * δ ≤ 1 → (∀ i < 6 * n, ∀ j < 6 * n, |M' i j - M i j| ≤ δ) →
          (∀ i < 6 * n, |r' i - r i| ≤ δ') → (∀ i < 6 * n, |r i| ≤ ρ) →
          (∃ x, npSolve (6 * n) M' r' = .ok x) ∧
          ∀ x : ℕ → ℝ, (∀ i < 6 * n, ∑ j ∈ Finset.range (6 * n), M' i j * x j = r' i) →
            ∀ i < n, ∀ y ∈ Set.Icc 0 (nth a'.li i), ∀ q,
              |zsol s y (fun j => x (6 * i + j)) (nth a'.li i) phi (a'.ki.getD i false) q -
                zsol s y (C.getD i 0) (nth a'.li i) phi (a'.ki.getD i false) q| ≤ K * (δ' + δ * ρ) := by
  obtain ⟨K1, p1, h1⟩ := C71_residual num s hb hc hf hv n R hd
  obtain ⟨K2, p2, h2⟩ := C79_well_conditioned num s hb hc hf hv n R hd
  set L : ℝ := 2 * K2 * ((6 * n : ℕ) : ℝ) with hL
  have pL : 0 ≤ L := by positivity
  have pK : 0 < (1 + L) * (1 + 2 * K1) := by positivity
  refine ⟨(1 + L) * (1 + 2 * K1), pK, fun kind phi a a' s' C hC hn ha => ?_⟩
  obtain ⟨M, r, e1, f1⟩ := h1 kind phi a a' s' C hC hn ha
  obtain ⟨M2, r2, e2, -, f2⟩ := h2 kind phi a a' s' C hC hn ha
  obtain ⟨rfl, rfl⟩ := system_unique e1 e2
  refine ⟨_, _, e1, fun M' r' δ δ' ρ hs hM hr hρ => ?_⟩
  have nonneg : ∀ i < n, 0 ≤ δ ∧ 0 ≤ δ' ∧ 0 ≤ ρ := fun i hi =>
    ⟨(abs_nonneg _).trans (hM i (by omega) i (by omega)), (abs_nonneg _).trans (hr i (by omega)), (abs_nonneg _).trans (hρ i (by omega))⟩
  have small : 0 < n → 2 * K2 * ((6 * n : ℕ) : ℝ) * δ ≤ 1 := fun hn0 => by
    obtain ⟨n1, -, -⟩ := nonneg 0 hn0
    refine le_trans ?_ hs
    refine mul_le_mul_of_nonneg_right ?_ n1
    nlinarith
  constructor
  · refine npSolve_of_injective r' fun y hy i hi => ?_
    have := perturbed_bound f2 hM (small (by omega)) (β := 0) (fun i hi => by rw [hy i hi, abs_zero]) i hi
    rw [mul_zero] at this
    exact abs_nonpos_iff.1 this
  · intro x hx i hi y hy q
    obtain ⟨n1, n2, n3⟩ := nonneg i hi
    have hX := perturbed_bound f2 hM (small (by omega)) (β := ρ + δ') (fun i hi => by
      rw [hx i hi]
      have a := hr i hi
      have b := hρ i hi
      have c := abs_sub_abs_le_abs_sub (r' i) (r2 i)
      linarith)
    have hl := small (by omega)
    rw [← hL] at hl
    have res := f1 x (2 * δ' + L * δ * ρ) (fun i hi => by
      have a := row_change hM hX hi
      rw [hx i hi] at a
      have b := hr i hi
      have c := abs_sub_le (∑ j ∈ Finset.range (6 * n), M2 i j * x j) (r' i) (r2 i)
      have e : ((6 * n : ℕ) : ℝ) * δ * (2 * K2 * (ρ + δ')) = L * δ * ρ + L * δ * δ' := by rw [hL]; ring
      have g := mul_le_mul_of_nonneg_right hl n2
      linarith) i hi y hy q
    refine res.trans ?_
    have t1 : K1 * (2 * δ' + L * δ * ρ) = 2 * K1 * δ' + L * K1 * (δ * ρ) := by ring
    have t2 : (1 + L) * (1 + 2 * K1) * (δ' + δ * ρ) =
        2 * K1 * δ' + L * K1 * (δ * ρ) + ((1 + L + 2 * L * K1) * δ' + (1 + L + 2 * K1 + L * K1) * (δ * ρ)) := by ring
    rw [t1, t2]
    have : 0 ≤ (1 + L + 2 * L * K1) * δ' + (1 + L + 2 * K1 + L * K1) * (δ * ρ) := by positivity
    linarith

/-- A skier of 80 kg over an unsupported piece of 0.3 m between supported segments of any lengths
from 1 m: coefficients that are wrong by a relative error `δ` of the largest, for example by
rounding, change the deflection below the skier by a multiple of `δ`. -/
example : ∃ K, 0 < K ∧ ∀ l, 1000 ≤ l → ∃ C M r,
    assembleAndSolve stdNum .list 38 ⟨[l, 150, 150, l], [0, 80, 0], [true, false, false, true]⟩ skierDemo =
      (.ok (C, ⟨[l, 150, 150, l], [0, 80, 0], [true, false, false, true]⟩), skierDemo) ∧
    (∀ solve, assembleAndSolveBy solve stdNum .list 38 ⟨[l, 150, 150, l], [0, 80, 0], [true, false, false, true]⟩ skierDemo =
      ((solve 24 M r).map fun x => ((List.range 4).map fun i (j : Fin 6) => x (6 * i + j),
        ⟨[l, 150, 150, l], [0, 80, 0], [true, false, false, true]⟩), skierDemo)) ∧
    ∀ (M' : ℕ → ℕ → ℝ) (r' : ℕ → ℝ) (δ ρ : ℝ), K * δ ≤ 1 → (∀ i < 24, ∀ j < 24, |M' i j - M i j| ≤ δ) →
      (∀ i < 24, |r' i - r i| ≤ δ * ρ) → (∀ i < 24, |r i| ≤ ρ) →
      ∃ x, npSolve 24 M' r' = .ok x ∧
        |zsol skierDemo 150 (fun j => x (6 + j)) 150 38 false 2 - zsol skierDemo 150 (C.getD 1 0) 150 38 false 2| ≤ 2 * K * ρ * δ := by
  obtain ⟨K, hK, h⟩ := C71_backward stdNum skierDemo (demo_bedOk _ _) (demo_shear _ _ _) (demo_ready _ _ _).fresh.eigFresh
    skierDemo_noFace 4 150 (by norm_num : (0 : ℝ) < 1000)
  refine ⟨K, hK, fun l hl => ?_⟩
  have hsk := skierDemo_isSkier
  have hval : Valid skierDemo ⟨[l, 150, 150, l], [0, 80, 0], [true, false, false, true]⟩ :=
    ⟨by simp, by simp, by simp, by simp⟩
  have hfull : full ⟨[l, 150, 150, l], [0, 80, 0], [true, false, false, true]⟩ =
      ⟨[l, 150, 150, l], [0, 80, 0], [true, false, false, true]⟩ := by simp [full]
  obtain ⟨C, hC, -⟩ := C18_held stdNum .list 38 _ skierDemo (demo_bedOk _ _) (demo_shear _ _ _) (demo_ready _ _ _).fresh.eigFresh
    hval (.inl rfl) (.inr (.inr (.inl hsk))) (fun h => absurd h skierDemo_not_pst) (fun h => absurd h skierDemo_not_pst)
    ⟨by simp; linarith, 0, by simp, .inl (by simp), by simp [nth]; linarith⟩
  rw [hfull] at hC
  obtain ⟨M, r, h1, h2⟩ := h .list 38 _ _ _ C hC rfl ⟨by
      intro i hi; interval_cases i <;> simp [nth] <;> linarith, ⟨0, by simp, rfl, hl⟩, by
      intro i hi; interval_cases i <;> simp [nth] <;> exact .inl hl⟩
  refine ⟨C, M, r, hC, h1, fun M' r' δ ρ hs hM hr hρ => ?_⟩
  obtain ⟨⟨x, hx⟩, h3⟩ := h2 M' r' δ (δ * ρ) ρ hs hM hr hρ
  refine ⟨x, hx, ?_⟩
  have := h3 x (npSolve_ok hx).1 1 (by norm_num) 150 (by simp [nth]) 2
  have e : K * (δ * ρ + δ * ρ) = 2 * K * ρ * δ := by ring
  rw [e] at this
  simpa [nth] using this

end Weac
