import Mathlib.MeasureTheory.Integral.IntervalIntegral.FundThmCalculus
import Mathlib.Analysis.Calculus.MeanValue
import Mathlib.Analysis.Calculus.ContDiff.Basic
import Mathlib.Analysis.SpecialFunctions.ExpDeriv
import Mathlib.Analysis.SpecialFunctions.Trigonometric.Deriv
import Verif.Props.Raster
import Verif.Props.Incremental

/-!
# Means over the grid of `rasterize_solution` as integrals along the beam
-/

namespace Weac
open Spec

/-- One step of the rectangle rule. -/
theorem rect_step {f : ℝ → ℝ} (hf : Continuous f) {K a b : ℝ} (hab : a ≤ b)
    (hK : ∀ x y, a ≤ x → x ≤ b → a ≤ y → y ≤ b → |f x - f y| ≤ K * |x - y|) :
    |(b - a) * f a - ∫ x in a..b, f x| ≤ K * (b - a) ^ 2 := by
  rcases hab.eq_or_lt with rfl | hlt
  · simp
  have hd : ∀ x, HasDerivAt (fun y => ∫ t in a..y, f t) (f x) x := fun x => hf.integral_hasStrictDerivAt a x |>.hasDerivAt
  obtain ⟨c, hc, he⟩ := exists_hasDerivAt_eq_slope (fun y => ∫ t in a..y, f t) f hlt
    (fun x _ => (hd x).continuousAt.continuousWithinAt) (fun x _ => hd x)
  simp only [intervalIntegral.integral_same, sub_zero] at he
  have hba : 0 < b - a := by linarith
  rw [eq_div_iff hba.ne'] at he
  rw [← he]
  have e : (b - a) * f a - f c * (b - a) = (b - a) * (f a - f c) := by ring
  rw [e, abs_mul, abs_of_pos hba]
  have h1 := hK a c le_rfl hlt.le hc.1.le hc.2.le
  have h2 : |a - c| ≤ b - a := by
    rw [abs_sub_comm, abs_of_nonneg (by linarith [hc.1])]
    linarith [hc.2]
  have h0 : 0 ≤ K := by
    by_contra h
    have h3 := hK a b le_rfl hlt.le hlt.le le_rfl
    have h4 : K * |a - b| < 0 := mul_neg_of_neg_of_pos (not_le.mp h) (abs_pos.mpr (by linarith))
    linarith [abs_nonneg (f a - f b)]
  have h3 : K * |a - c| ≤ K * (b - a) := mul_le_mul_of_nonneg_left h2 h0
  have h4 := mul_le_mul_of_nonneg_left (h1.trans h3) hba.le
  linarith

/-- The rectangle rule. -/
theorem rect_rule {f : ℝ → ℝ} (hf : Continuous f) {K d : ℝ} (hd : 0 ≤ d) (n : ℕ)
    (hK : ∀ x y, 0 ≤ x → x ≤ n * d → 0 ≤ y → y ≤ n * d → |f x - f y| ≤ K * |x - y|) :
    |d * ((List.range n).map fun j : ℕ => f (d * (j : ℝ))).sum - ∫ x in (0 : ℝ)..(n * d), f x| ≤ K * d * (n * d) := by
  induction n with
  | zero => simp
  | succ n ih =>
    have hnd : (n : ℝ) * d ≤ ((n + 1 : ℕ) : ℝ) * d := by push_cast; nlinarith
    have h1 := ih (fun x y a1 a2 b1 b2 => hK x y a1 (a2.trans hnd) b1 (b2.trans hnd))
    have h0 : (0 : ℝ) ≤ n * d := by positivity
    have h2 := rect_step hf (K := K) hnd (fun x y a1 a2 b1 b2 => hK x y (h0.trans a1) a2 (h0.trans b1) b2)
    have hs := intervalIntegral.integral_add_adjacent_intervals (hf.intervalIntegrable 0 (n * d) (μ := MeasureTheory.volume))
      (hf.intervalIntegrable (n * d) (((n + 1 : ℕ) : ℝ) * d))
    rw [List.range_succ, List.map_append, List.sum_append, ← hs]
    simp only [List.map_cons, List.map_nil, List.sum_cons, List.sum_nil, add_zero]
    have e1 : ((n + 1 : ℕ) : ℝ) * d - n * d = d := by push_cast; ring
    rw [e1, mul_comm (n : ℝ) d] at h2
    rw [mul_comm (n : ℝ) d] at h1 ⊢
    rw [abs_le] at *
    push_cast at *
    constructor <;> nlinarith

/-- Integral along the beam of a quantity computed from the state. -/
noncomputable def Spec.beamIntegral (s : Self) (phi : ℝ) (gs : List Seg) (f : Vec6 → ℝ) : ℝ :=
  (gs.map fun g => ∫ x in (0 : ℝ)..g.l, f (zsol s x g.C g.l phi g.k)).sum

/-- A quantity computed from the state is smooth along the beam: it is
continuous, bounded by `M`, and changes by at most `K` per length. -/
structure Spec.Tame (s : Self) (phi : ℝ) (gs : List Seg) (f : Vec6 → ℝ) (M K : ℝ) : Prop where
  cont : ∀ g ∈ gs, Continuous fun x => f (zsol s x g.C g.l phi g.k)
  bound : ∀ g ∈ gs, ∀ x, 0 ≤ x → x ≤ g.l → |f (zsol s x g.C g.l phi g.k)| ≤ M
  lip : ∀ g ∈ gs, ∀ x y, 0 ≤ x → x ≤ g.l → 0 ≤ y → y ≤ g.l →
    |f (zsol s x g.C g.l phi g.k) - f (zsol s y g.C g.l phi g.k)| ≤ K * |x - y|

theorem abs_sum_le {l : List ℝ} {M : ℝ} (h : ∀ x ∈ l, |x| ≤ M) : |l.sum| ≤ l.length * M := by
  induction l with
  | nil => simp
  | cons a l ih =>
    have h1 := ih (fun x hx => h x (List.mem_cons_of_mem _ hx))
    have h2 := h a (by simp)
    rw [List.sum_cons, List.length_cons]
    push_cast
    have := abs_add_le a l.sum
    linarith

/-- Weighted sum over one segment against the integral. -/
theorem seg_sum {f : ℝ → ℝ} {num : ℕ} {tot l M K w e : ℝ} (hn : 1 ≤ num) (ht : 0 < tot) (hl : 0 < l)
    (hc : Continuous f) (hM : ∀ x, 0 ≤ x → x ≤ l → |f x| ≤ M)
    (hK : ∀ x y, 0 ≤ x → x ≤ l → 0 ≤ y → y ≤ l → |f x - f y| ≤ K * |x - y|)
    (he : |w * (⌈l / tot * (num : ℝ)⌉₊ : ℝ) - l| ≤ e) (hK0 : 0 ≤ K) :
    |w * ((List.range ⌈l / tot * (num : ℝ)⌉₊).map fun j : ℕ => f (stepOf num tot l * (j : ℝ))).sum
      - ∫ x in (0 : ℝ)..l, f x| ≤ K * (tot / num) * l + M * e := by
  have hs := step_pos hn ht hl
  have hm := step_mul hn ht hl
  have hle := step_le hn ht hl
  generalize hcd : ⌈l / tot * (num : ℝ)⌉₊ = c at *
  generalize stepOf num tot l = d at *
  have hcd' : (c : ℝ) * d = l := by rw [mul_comm]; exact hm
  have h1 := rect_rule hc hs.le c (by rw [hcd']; exact hK)
  rw [hcd'] at h1
  have hM0 : 0 ≤ M := (abs_nonneg _).trans (hM 0 le_rfl hl.le)
  have h2 : |((List.range c).map fun j : ℕ => f (d * (j : ℝ))).sum| ≤ c * M := by
    refine (abs_sum_le (M := M) ?_).trans (by simp)
    intro x hx
    obtain ⟨j, hj, rfl⟩ := List.mem_map.mp hx
    refine hM _ (by positivity) ?_
    rw [← hcd', mul_comm]
    exact mul_le_mul_of_nonneg_right (by exact_mod_cast (List.mem_range.mp hj).le) hs.le
  generalize ((List.range c).map fun j : ℕ => f (d * (j : ℝ))).sum = S at *
  generalize ∫ x in (0 : ℝ)..l, f x = I at *
  have h3 : |(w - d) * S| ≤ M * e := by
    rw [abs_mul]
    have h4 : |w - d| * |S| ≤ |w - d| * (c * M) := mul_le_mul_of_nonneg_left h2 (abs_nonneg _)
    have h5 : |w - d| * (c * M) = |w * c - l| * M := by
      rw [← hcd', ← mul_assoc]
      congr 1
      rw [← abs_of_nonneg (Nat.cast_nonneg (α := ℝ) c), ← abs_mul, abs_of_nonneg (Nat.cast_nonneg (α := ℝ) c)]
      congr 1
      ring
    have h6 : |w * c - l| * M ≤ e * M := mul_le_mul_of_nonneg_right he hM0
    linarith
  have h7 : K * d * l ≤ K * (tot / num) * l :=
    mul_le_mul_of_nonneg_right (mul_le_mul_of_nonneg_left hle hK0) hl.le
  have h8 : w * S - I = (d * S - I) + (w - d) * S := by ring
  rw [h8]
  have := abs_add_le (d * S - I) ((w - d) * S)
  linarith

theorem loop_sum (s : Self) (phi : ℝ) (num : ℕ) (hn : 1 ≤ num) (tot : ℝ) (ht : 0 < tot) (f : Vec6 → ℝ) (M K w e : ℝ)
    (hw : 0 ≤ w) (hK0 : 0 ≤ K) :
    ∀ (gs : List Seg) (x0 : ℝ) (prev : Option Bool), gs ≠ [] → (∀ g ∈ gs, 0 < g.l) → Tame s phi gs f M K →
      (∀ g ∈ gs, |w * (⌈g.l / tot * (num : ℝ)⌉₊ : ℝ) - g.l| ≤ e) →
      |w * ((rasterLoop s phi num tot x0 prev gs).map fun p => f p.z).sum - beamIntegral s phi gs f|
        ≤ K * (tot / num) * (gs.map Seg.l).sum + gs.length * (M * e) + w * M := by
  intro gs
  induction gs with
  | nil => intro _ _ h; exact absurd rfl h
  | cons g gs ih =>
    intro x0 prev _ hpos hT he
    have hl : 0 < g.l := hpos g (by simp)
    have hseg := seg_sum hn ht hl (hT.cont g (by simp)) (hT.bound g (by simp)) (hT.lip g (by simp)) (he g (by simp)) hK0
    have hM0 : 0 ≤ M := (abs_nonneg _).trans (hT.bound g (by simp) 0 le_rfl hl.le)
    have hm := step_mul hn ht hl
    have hs := step_pos hn ht hl
    unfold rasterLoop
    rw [List.map_append, List.sum_append, segPts_eq, List.map_map]
    unfold beamIntegral
    rw [List.map_cons, List.sum_cons, List.map_cons, List.sum_cons, List.length_cons]
    rcases gs with _ | ⟨g', gs⟩
    · have hend : |f (zsol s (stepOf num tot g.l * (⌈g.l / tot * (num : ℝ)⌉₊ : ℝ)) g.C g.l phi g.k)| ≤ M :=
        hT.bound g (by simp) _ (by positivity) (by rw [hm])
      have hsum : ((List.range (nqOf num tot g.l true)).map ((fun p : GridPt => f p.z) ∘ fun j : ℕ =>
          { x := x0 + stepOf num tot g.l * (j : ℝ)
            z := zsol s (stepOf num tot g.l * (j : ℝ)) g.C g.l phi g.k
            sup := if j = 0 then headMask prev g.k else g.k })).sum
          = ((List.range ⌈g.l / tot * (num : ℝ)⌉₊).map fun j : ℕ =>
              f (zsol s (stepOf num tot g.l * (j : ℝ)) g.C g.l phi g.k)).sum
            + f (zsol s (stepOf num tot g.l * (⌈g.l / tot * (num : ℝ)⌉₊ : ℝ)) g.C g.l phi g.k) := by
        unfold nqOf
        rw [if_pos rfl, List.range_succ, List.map_append, List.sum_append]
        simp [Function.comp_def]
      simp only [List.isEmpty_nil]
      rw [hsum]
      generalize ((List.range ⌈g.l / tot * (num : ℝ)⌉₊).map fun j : ℕ =>
              f (zsol s (stepOf num tot g.l * (j : ℝ)) g.C g.l phi g.k)).sum = S at *
      generalize f (zsol s (stepOf num tot g.l * (⌈g.l / tot * (num : ℝ)⌉₊ : ℝ)) g.C g.l phi g.k) = E at *
      generalize (∫ x in (0 : ℝ)..g.l, f (zsol s x g.C g.l phi g.k)) = I at *
      simp only [rasterLoop, List.map_nil, List.sum_nil, List.length_nil]
      have h1 : |w * E| ≤ w * M := by
        rw [abs_mul, abs_of_nonneg hw]; exact mul_le_mul_of_nonneg_left hend hw
      have h2 := abs_add_le (w * S - I) (w * E)
      have e1 : w * (S + E + 0) - (I + 0) = (w * S - I) + w * E := by ring
      rw [e1]
      push_cast
      linarith
    · have hrec := ih (x0 + g.l) (some g.k) (by simp) (fun q hq => hpos q (List.mem_cons_of_mem _ hq))
        ⟨fun q hq => hT.cont q (List.mem_cons_of_mem _ hq), fun q hq => hT.bound q (List.mem_cons_of_mem _ hq),
          fun q hq => hT.lip q (List.mem_cons_of_mem _ hq)⟩ (fun q hq => he q (List.mem_cons_of_mem _ hq))
      have hsum : ((List.range (nqOf num tot g.l false)).map ((fun p : GridPt => f p.z) ∘ fun j : ℕ =>
          { x := x0 + stepOf num tot g.l * (j : ℝ)
            z := zsol s (stepOf num tot g.l * (j : ℝ)) g.C g.l phi g.k
            sup := if j = 0 then headMask prev g.k else g.k })).sum
          = ((List.range ⌈g.l / tot * (num : ℝ)⌉₊).map fun j : ℕ =>
              f (zsol s (stepOf num tot g.l * (j : ℝ)) g.C g.l phi g.k)).sum := by
        unfold nqOf
        simp [Function.comp_def]
      simp only [List.isEmpty_cons]
      rw [hsum]
      unfold beamIntegral at hrec
      generalize ((List.range ⌈g.l / tot * (num : ℝ)⌉₊).map fun j : ℕ =>
              f (zsol s (stepOf num tot g.l * (j : ℝ)) g.C g.l phi g.k)).sum = S at *
      generalize (∫ x in (0 : ℝ)..g.l, f (zsol s x g.C g.l phi g.k)) = I at *
      generalize ((rasterLoop s phi num tot (x0 + g.l) (some g.k) (g' :: gs)).map fun p => f p.z).sum = R at *
      generalize ((g' :: gs).map fun g => ∫ x in (0 : ℝ)..g.l, f (zsol s x g.C g.l phi g.k)).sum = J at *
      have e1 : w * (S + R) - (I + J) = (w * S - I) + (w * R - J) := by ring
      rw [e1]
      have h2 := abs_add_le (w * S - I) (w * R - J)
      generalize ((g' :: gs).map Seg.l).sum = T at *
      push_cast
      nlinarith

theorem dropZero_self {gs : List Seg} (h : ∀ g ∈ gs, 0 ≤ g.l) : dropZero gs = gs.filter fun g => 0 < g.l := by
  unfold dropZero
  congr 1
  conv_rhs => rw [← List.map_id gs]
  refine List.map_congr_left fun g hg => ?_
  rw [abs_of_nonneg (h g hg)]
  rfl

theorem beamIntegral_filter (s : Self) (phi : ℝ) (gs : List Seg) (h : ∀ g ∈ gs, 0 ≤ g.l) (f : Vec6 → ℝ) :
    beamIntegral s phi (gs.filter fun g => 0 < g.l) f = beamIntegral s phi gs f := by
  unfold beamIntegral
  induction gs with
  | nil => rfl
  | cons g gs ih =>
    have h1 := ih (fun q hq => h q (List.mem_cons_of_mem _ hq))
    by_cases hl : 0 < g.l
    · rw [List.filter_cons_of_pos (by simpa using hl), List.map_cons, List.map_cons, List.sum_cons, List.sum_cons, h1]
    · have h0 : g.l = 0 := le_antisymm (not_lt.mp hl) (h g (by simp))
      rw [List.filter_cons_of_neg (by simpa using hl), h1, List.map_cons, List.sum_cons, h0]
      simp

/-- The length of the beam times the mean over the grid is the integral along
the beam, up to an error of the order of the grid width. -/
theorem grid_mean (s : Self) (phi : ℝ) (num : ℕ) (hn : 1 ≤ num) (segs : List Seg) (h0 : ∀ g ∈ segs, 0 ≤ g.l)
    (pts : List GridPt) (h : rasterize s phi num segs = .ok pts) (f : Vec6 → ℝ) (M K : ℝ) (hT : Tame s phi segs f M K)
    (hK0 : 0 ≤ K) :
    |(segs.map Seg.l).sum * ((pts.map fun p => f p.z).sum / pts.length) - beamIntegral s phi segs f|
      ≤ (K * (segs.map Seg.l).sum + ((segs.length + 1) ^ 2 : ℕ) * M) * ((segs.map Seg.l).sum / num) := by
  have hex : ∃ g ∈ segs, g.l ≠ 0 := (C28_runs s phi num hn segs).mp ⟨pts, h⟩
  obtain ⟨pts', h1, hL, htot, hbl⟩ := rasterize_loop s phi hn hex
  have hpts : rasterLoop s phi num (segs.map Seg.l).sum 0 none (segs.filter fun g => 0 < g.l) = pts ∧
      (segs.filter fun g => 0 < g.l) ≠ [] ∧ ((segs.filter fun g => 0 < g.l).map Seg.l).sum = (segs.map Seg.l).sum ∧
      0 < (segs.map Seg.l).sum ∧ (num : ℝ) + 1 ≤ pts.length ∧
      (pts.length : ℝ) < num + 1 + (segs.filter fun g => 0 < g.l).length := by
    have e1 : beamLength segs = (segs.map Seg.l).sum := by
      unfold beamLength
      congr 1
      exact List.map_congr_left fun g hg => abs_of_nonneg (h0 g hg)
    have e2 : ((segs.filter fun g => 0 < g.l).map Seg.l).sum = (segs.map Seg.l).sum := by
      rw [← dropZero_self h0, dropZero_length, e1]
    have hne : (segs.filter fun g => 0 < g.l) ≠ [] := by
      intro hh
      rw [← dropZero_self h0, dropZero_nil] at hh
      obtain ⟨g, hg, hl⟩ := hex
      exact hl (hh g hg)
    rw [h1] at h
    injection h with h
    have hlow := hL.low
    have hhigh := hL.high
    rw [dropZero_self h0, h, e1] at hlow hhigh
    have e3 : ((segs.filter fun g => 0 < g.l).map fun g => g.l / (segs.map Seg.l).sum * (num : ℝ)).sum = num := by
      have : ((segs.filter fun g => 0 < g.l).map fun g => g.l / (segs.map Seg.l).sum * (num : ℝ)).sum
          = ((segs.filter fun g => 0 < g.l).map Seg.l).sum * (num / (segs.map Seg.l).sum) := by
        rw [← List.sum_map_mul_right]
        congr 1
        refine List.map_congr_left fun g _ => ?_
        ring
      rw [this, e2]
      rw [e1] at htot
      field_simp
    rw [e3] at hlow hhigh
    refine ⟨?_, hne, e2, by rw [← e1]; exact htot, hlow, by linarith⟩
    rw [← h]
    have h2 := h1
    unfold rasterize at h2
    rw [dropZero_self h0] at h2
    revert h2
    generalize hgs : (segs.filter fun g => 0 < g.l) = gs at hne e2 ⊢
    intro h2
    rcases gs with _ | ⟨g, gs⟩
    · exact absurd rfl hne
    · simp only [Except.ok.injEq] at h2
      rw [← h2, ← e2]
  obtain ⟨e1, hne, e2, ht, hlow, hhigh⟩ := hpts
  have hnr : (0 : ℝ) < num := by exact_mod_cast hn
  have hnp : (0 : ℝ) < pts.length := by linarith
  set gs := segs.filter fun g => 0 < g.l with hgs
  have hlen : (gs.length : ℝ) ≤ segs.length := by exact_mod_cast List.length_filter_le _ _
  have hmem : ∀ g ∈ gs, g ∈ segs ∧ 0 < g.l := fun g hg => by simpa [hgs] using hg
  have hsub : ∀ g ∈ gs, g.l ≤ (segs.map Seg.l).sum := by
    intro g hg
    rw [← e2]
    exact List.single_le_sum (fun x hx => by
      obtain ⟨q, hq, rfl⟩ := List.mem_map.mp hx
      exact (hmem q hq).2.le) _ (List.mem_map_of_mem hg)
  have hM0 : 0 ≤ M := by
    obtain ⟨g, hg⟩ := List.exists_mem_of_ne_nil _ hne
    exact (abs_nonneg _).trans (hT.bound g (hmem g hg).1 0 le_rfl (hmem g hg).2.le)
  generalize htd : (segs.map Seg.l).sum = tot at *
  have key := loop_sum s phi num hn tot ht f M K (tot / pts.length) (tot / num * (gs.length + 1)) (by positivity) hK0 gs 0 none hne
    (fun g hg => (hmem g hg).2) ⟨fun g hg => hT.cont g (hmem g hg).1, fun g hg => hT.bound g (hmem g hg).1,
      fun g hg => hT.lip g (hmem g hg).1⟩ (by
    intro g hg
    have hl := (hmem g hg).2
    have c1 := Nat.le_ceil (g.l / tot * (num : ℝ))
    have c2 := (Nat.ceil_lt_add_one (show 0 ≤ g.l / tot * (num : ℝ) by positivity)).le
    generalize (⌈g.l / tot * (num : ℝ)⌉₊ : ℝ) = c at *
    rw [abs_le]
    constructor
    · have h2 : tot / pts.length * (g.l / tot * num) ≤ tot / pts.length * c := mul_le_mul_of_nonneg_left c1 (by positivity)
      have h3 : tot / pts.length * (g.l / tot * num) = g.l - g.l * (pts.length - num) / pts.length := by
        field_simp; ring
      have h4 : g.l * (pts.length - num) / pts.length ≤ tot / num * (gs.length + 1) := by
        rw [div_mul_eq_mul_div, div_le_div_iff₀ hnp hnr]
        have a1 : (pts.length : ℝ) - num ≤ gs.length + 1 := by linarith
        have a2 : g.l * (pts.length - num) ≤ tot * (gs.length + 1) :=
          mul_le_mul (hsub g hg) a1 (by linarith) ht.le
        have a3 : (num : ℝ) ≤ pts.length := by linarith
        exact mul_le_mul a2 a3 hnr.le (by positivity)
      linarith
    · have h2 : tot / pts.length * c ≤ tot / num * c := by
        refine mul_le_mul_of_nonneg_right ?_ (le_trans (by positivity) c1)
        exact div_le_div_of_nonneg_left ht.le hnr (by linarith)
      have h3 : tot / num * c ≤ tot / num * (g.l / tot * num + 1) := mul_le_mul_of_nonneg_left c2 (by positivity)
      have h4 : tot / num * (g.l / tot * num + 1) = g.l + tot / num := by field_simp
      have h5 : tot / num ≤ tot / num * (gs.length + 1) := by
        have : (0 : ℝ) ≤ gs.length := Nat.cast_nonneg _
        have p : 0 ≤ tot / num := by positivity
        nlinarith
      linarith)
  rw [e1, e2, hgs, beamIntegral_filter s phi segs h0 f, ← hgs] at key
  have e3 : tot * ((pts.map fun p => f p.z).sum / pts.length) = tot / pts.length * (pts.map fun p => f p.z).sum := by ring
  rw [e3]
  refine key.trans ?_
  have d0 : 0 ≤ tot / num := by positivity
  have w1 : tot / pts.length ≤ tot / num := div_le_div_of_nonneg_left ht.le hnr (by linarith)
  have w2 : tot / pts.length * M ≤ tot / num * M := mul_le_mul_of_nonneg_right w1 hM0
  have w3 : (gs.length : ℝ) * (M * (tot / num * (gs.length + 1))) ≤ segs.length * (M * (tot / num * (segs.length + 1))) := by
    gcongr
  have w4 : (((segs.length + 1) ^ 2 : ℕ) : ℝ) = (segs.length + 1) ^ 2 := by push_cast; ring
  rw [w4]
  have w5 : (0 : ℝ) ≤ segs.length := Nat.cast_nonneg _
  have w6 : 0 ≤ M * (tot / num) * segs.length := by positivity
  nlinarith


/-! ## Supported grid points -/

/-- Supported points of one segment: all of them, or at most the first. -/
theorem segPts_sup (s : Self) (phi : ℝ) {num : ℕ} (hn : 1 ≤ num) {tot : ℝ} (ht : 0 < tot) (x0 : ℝ) (prev : Option Bool)
    (g : Seg) (hl : 0 < g.l) (last : Bool) (f : Vec6 → ℝ) (M : ℝ)
    (hM : ∀ x, 0 ≤ x → x ≤ g.l → |f (zsol s x g.C g.l phi g.k)| ≤ M) :
    ∃ E : ℝ, ∃ c : ℕ, |E| ≤ M ∧ c ≤ 1 ∧
      (((segPts s phi num tot x0 prev g last).filter fun p => p.sup).map fun p => f p.z).sum
        = (if g.k then ((List.range ⌈g.l / tot * (num : ℝ)⌉₊).map fun j : ℕ =>
            f (zsol s (stepOf num tot g.l * (j : ℝ)) g.C g.l phi g.k)).sum else 0) + E ∧
      ((segPts s phi num tot x0 prev g last).filter fun p => p.sup).length
        = (if g.k then ⌈g.l / tot * (num : ℝ)⌉₊ else 0) + c := by
  have hM0 : 0 ≤ M := (abs_nonneg _).trans (hM 0 le_rfl hl.le)
  have hc := ceil_pos hn ht hl
  have hm := step_mul hn ht hl
  have hs := step_pos hn ht hl
  rw [segPts_eq]
  rcases hk : g.k with _ | _
  · obtain ⟨m, hq⟩ : ∃ m, nqOf num tot g.l last = m + 1 :=
      ⟨nqOf num tot g.l last - 1, by unfold nqOf; omega⟩
    rw [hq, List.range_succ_eq_map, List.map_cons, List.map_map, List.filter_cons]
    have hrest : (List.map ((fun j : ℕ => ({ x := x0 + stepOf num tot g.l * (j : ℝ)
                                             z := zsol s (stepOf num tot g.l * (j : ℝ)) g.C g.l phi false
                                             sup := if j = 0 then headMask prev false else false } : GridPt)) ∘ Nat.succ)
          (List.range m)).filter (fun p => p.sup) = [] := by
      rw [List.filter_eq_nil_iff]
      intro p hp
      obtain ⟨j, -, rfl⟩ := List.mem_map.mp hp
      simp
    rw [hrest]
    by_cases hh : headMask prev false = true
    · refine ⟨f (zsol s 0 g.C g.l phi g.k), 1, hM 0 le_rfl hl.le, le_rfl, ?_, ?_⟩
      · simp [hh, hk]
      · simp [hh]
    · refine ⟨0, 0, by simpa using hM0, by omega, ?_, ?_⟩
      · simp [hh]
      · simp [hh]
  · have hall : ((List.range (nqOf num tot g.l last)).map fun j : ℕ =>
        ({ x := x0 + stepOf num tot g.l * (j : ℝ)
           z := zsol s (stepOf num tot g.l * (j : ℝ)) g.C g.l phi true
           sup := if j = 0 then headMask prev true else true } : GridPt)).filter (fun p => p.sup)
        = (List.range (nqOf num tot g.l last)).map fun j : ℕ =>
        { x := x0 + stepOf num tot g.l * (j : ℝ)
          z := zsol s (stepOf num tot g.l * (j : ℝ)) g.C g.l phi true
          sup := if j = 0 then headMask prev true else true } := by
      rw [List.filter_eq_self]
      intro p hp
      obtain ⟨j, -, rfl⟩ := List.mem_map.mp hp
      rcases prev with _ | k' <;> simp [headMask]
    rw [hall, List.map_map, List.length_map, List.length_range]
    rcases last with _ | _
    · refine ⟨0, 0, by simpa using hM0, by omega, ?_, ?_⟩
      · simp [nqOf, Function.comp_def]
      · simp [nqOf]
    · refine ⟨f (zsol s (stepOf num tot g.l * (⌈g.l / tot * (num : ℝ)⌉₊ : ℝ)) g.C g.l phi g.k), 1,
        hM _ (by positivity) (by rw [hm]), le_rfl, ?_, ?_⟩
      · unfold nqOf
        rw [if_pos rfl, List.range_succ, List.map_append, List.sum_append]
        simp [Function.comp_def, hk]
      · simp [nqOf]

theorem loop_sum_weak (s : Self) (phi : ℝ) (num : ℕ) (hn : 1 ≤ num) (tot : ℝ) (ht : 0 < tot) (f : Vec6 → ℝ) (M K : ℝ)
    (hK0 : 0 ≤ K) :
    ∀ (gs : List Seg) (x0 : ℝ) (prev : Option Bool), (∀ g ∈ gs, 0 < g.l) → Tame s phi gs f M K →
      (∀ w e : ℝ, 0 ≤ w → 0 ≤ e → (∀ g ∈ gs, g.k = true → |w * (⌈g.l / tot * (num : ℝ)⌉₊ : ℝ) - g.l| ≤ e) →
        |w * (((rasterLoop s phi num tot x0 prev gs).filter fun p => p.sup).map fun p => f p.z).sum
            - beamIntegral s phi (gs.filter fun g => g.k) f|
          ≤ K * (tot / num) * ((gs.filter fun g => g.k).map Seg.l).sum + gs.length * (M * e + w * M)) ∧
      ((gs.filter fun g => g.k).map fun g => g.l / tot * (num : ℝ)).sum
        ≤ ((rasterLoop s phi num tot x0 prev gs).filter fun p => p.sup).length ∧
      (((rasterLoop s phi num tot x0 prev gs).filter fun p => p.sup).length : ℝ)
        ≤ ((gs.filter fun g => g.k).map fun g => g.l / tot * (num : ℝ)).sum + 2 * gs.length := by
  intro gs
  induction gs with
  | nil =>
    intro x0 prev _ _
    simp [rasterLoop, beamIntegral]
  | cons g gs ih =>
    intro x0 prev hpos hT
    have hl : 0 < g.l := hpos g (by simp)
    have hnr : (0 : ℝ) < num := by exact_mod_cast hn
    obtain ⟨i1, i2, i3⟩ := ih (x0 + g.l) (some g.k) (fun q hq => hpos q (List.mem_cons_of_mem _ hq))
        ⟨fun q hq => hT.cont q (List.mem_cons_of_mem _ hq), fun q hq => hT.bound q (List.mem_cons_of_mem _ hq),
          fun q hq => hT.lip q (List.mem_cons_of_mem _ hq)⟩
    obtain ⟨E, c, hE, hc1, e1, e2⟩ := segPts_sup s phi hn ht x0 prev g hl gs.isEmpty f M (hT.bound g (by simp))
    have hM0 : 0 ≤ M := (abs_nonneg _).trans hE
    unfold rasterLoop
    rw [List.filter_append, List.map_append, List.sum_append, List.length_append, e1, e2]
    have hcr : (c : ℝ) ≤ 1 := by exact_mod_cast hc1
    have hc0 : (0 : ℝ) ≤ c := Nat.cast_nonneg _
    generalize ((rasterLoop s phi num tot (x0 + g.l) (some g.k) gs).filter fun p => p.sup) = pts at *
    rcases hk : g.k with _ | _
    · rw [List.filter_cons_of_neg (by simp [hk])]
      simp only [Bool.false_eq_true, if_false, List.length_cons]
      refine ⟨?_, ?_, ?_⟩
      · intro w e hw he0 he
        have h1 := i1 w e hw he0 (fun q hq => he q (List.mem_cons_of_mem _ hq))
        have h2 : |w * E| ≤ w * M := by
          rw [abs_mul, abs_of_nonneg hw]; exact mul_le_mul_of_nonneg_left hE hw
        generalize (pts.map fun p => f p.z).sum = S at *
        generalize beamIntegral s phi (gs.filter fun g => g.k) f = I at *
        have e3 : w * (0 + E + S) - I = (w * S - I) + w * E := by ring
        rw [e3]
        have h3 := abs_add_le (w * S - I) (w * E)
        have h4 : 0 ≤ M * e := by positivity
        push_cast
        nlinarith
      · push_cast
        linarith
      · push_cast
        linarith
    · rw [List.filter_cons_of_pos hk]
      simp only [if_true, List.length_cons, List.map_cons, List.sum_cons]
      have b1 := Nat.le_ceil (g.l / tot * (num : ℝ))
      have b2 := (Nat.ceil_lt_add_one (show 0 ≤ g.l / tot * (num : ℝ) by positivity)).le
      refine ⟨?_, ?_, ?_⟩
      · intro w e hw he0 he
        have h1 := i1 w e hw he0 (fun q hq => he q (List.mem_cons_of_mem _ hq))
        have hseg := seg_sum hn ht hl (hT.cont g (by simp)) (hT.bound g (by simp)) (hT.lip g (by simp)) (he g (by simp) hk) hK0
        have h2 : |w * E| ≤ w * M := by
          rw [abs_mul, abs_of_nonneg hw]; exact mul_le_mul_of_nonneg_left hE hw
        unfold beamIntegral at h1 ⊢
        rw [List.map_cons, List.sum_cons]
        rw [hk] at hseg ⊢
        generalize (pts.map fun p => f p.z).sum = S at *
        generalize ((gs.filter fun g => g.k).map fun g => ∫ x in (0 : ℝ)..g.l, f (zsol s x g.C g.l phi g.k)).sum = I at *
        generalize ((List.range ⌈g.l / tot * (num : ℝ)⌉₊).map fun j : ℕ =>
              f (zsol s (stepOf num tot g.l * (j : ℝ)) g.C g.l phi true)).sum = S' at *
        generalize (∫ x in (0 : ℝ)..g.l, f (zsol s x g.C g.l phi true)) = I' at *
        generalize ((gs.filter fun g => g.k).map Seg.l).sum = T at *
        have e3 : w * (S' + E + S) - (I' + I) = (w * S - I) + (w * S' - I') + w * E := by ring
        rw [e3]
        have h3 := abs_add_le ((w * S - I) + (w * S' - I')) (w * E)
        have h4 := abs_add_le (w * S - I) (w * S' - I')
        push_cast
        nlinarith
      · push_cast
        linarith
      · push_cast
        linarith

theorem filter_nonzero_length (gs : List Seg) (h0 : ∀ g ∈ gs, 0 ≤ g.l) :
    ((gs.filter fun g => 0 < g.l).map Seg.l).sum = (gs.map Seg.l).sum := by
  rw [← dropZero_self h0, dropZero_length]
  unfold beamLength
  congr 1
  exact List.map_congr_left fun g hg => abs_of_nonneg (h0 g hg)

/-- The grid is the output of the loop. -/
theorem rasterize_pts (s : Self) (phi : ℝ) (num : ℕ) (segs : List Seg) (h0 : ∀ g ∈ segs, 0 ≤ g.l)
    (pts : List GridPt) (h : rasterize s phi num segs = .ok pts) :
    rasterLoop s phi num (segs.map Seg.l).sum 0 none (segs.filter fun g => 0 < g.l) = pts ∧ 0 < (segs.map Seg.l).sum := by
  have h2 := h
  unfold rasterize at h2
  rw [dropZero_self h0] at h2
  rw [← filter_nonzero_length segs h0]
  have hp : ∀ g ∈ segs.filter fun g => 0 < g.l, 0 < g.l := fun g hg => by simpa using (List.mem_filter.mp hg).2
  revert h2 hp
  generalize (segs.filter fun g => 0 < g.l) = gs
  intro h2 hp
  rcases gs with _ | ⟨g, gs⟩
  · cases h2
  · simp only [Except.ok.injEq] at h2
    refine ⟨h2, List.sum_pos _ ?_ (by simp)⟩
    intro x hx
    obtain ⟨q, hq, rfl⟩ := List.mem_map.mp hx
    exact hp q hq

/-- The supported length times the mean over the supported grid points is the
integral along the supported segments, up to an error of the order of the grid
width. -/
theorem grid_mean_weak (s : Self) (phi : ℝ) (num : ℕ) (hn : 1 ≤ num) (segs : List Seg) (h0 : ∀ g ∈ segs, 0 ≤ g.l)
    (pts : List GridPt) (h : rasterize s phi num segs = .ok pts) (f : Vec6 → ℝ) (M K : ℝ) (hT : Tame s phi segs f M K)
    (hK0 : 0 ≤ K) (hw : 0 < ((segs.filter fun g => g.k).map Seg.l).sum) :
    0 < (pts.filter fun p => p.sup).length ∧
    |((segs.filter fun g => g.k).map Seg.l).sum * (((pts.filter fun p => p.sup).map fun p => f p.z).sum / (pts.filter fun p => p.sup).length)
        - beamIntegral s phi (segs.filter fun g => g.k) f|
      ≤ (K * (segs.map Seg.l).sum + (2 * (segs.length + 1) ^ 2 : ℕ) * M) * ((segs.map Seg.l).sum / num) := by
  obtain ⟨e1, ht⟩ := rasterize_pts s phi num segs h0 pts h
  set gs := segs.filter fun g => 0 < g.l with hgs
  have hmem : ∀ g ∈ gs, g ∈ segs ∧ 0 < g.l := fun g hg => by simpa [hgs] using hg
  have hcomm : (gs.filter fun g => g.k) = ((segs.filter fun g => g.k).filter fun g => 0 < g.l) := by
    rw [hgs, List.filter_filter, List.filter_filter]
    congr 1
    funext g
    exact Bool.and_comm _ _
  have hk0 : ∀ g ∈ segs.filter fun g => g.k, 0 ≤ g.l := fun g hg => h0 g (List.mem_filter.mp hg).1
  have elw : ((gs.filter fun g => g.k).map Seg.l).sum = ((segs.filter fun g => g.k).map Seg.l).sum := by
    rw [hcomm, filter_nonzero_length _ hk0]
  have eI : beamIntegral s phi (gs.filter fun g => g.k) f = beamIntegral s phi (segs.filter fun g => g.k) f := by
    rw [hcomm, beamIntegral_filter s phi _ hk0 f]
  have hle : ((segs.filter fun g => g.k).map Seg.l).sum ≤ (segs.map Seg.l).sum := by
    clear hw elw eI hcomm hk0 e1 hmem
    clear hgs gs h hT ht
    induction segs with
    | nil => simp
    | cons g gs ih =>
      have := ih (fun q hq => h0 q (List.mem_cons_of_mem _ hq))
      have := h0 g (by simp)
      by_cases hk : g.k = true
      · rw [List.filter_cons_of_pos hk]; simp only [List.map_cons, List.sum_cons]; linarith
      · rw [List.filter_cons_of_neg (by simpa using hk)]; simp only [List.map_cons, List.sum_cons]; linarith
  obtain ⟨k1, k2, k3⟩ := loop_sum_weak s phi num hn _ ht f M K hK0 gs 0 none (fun g hg => (hmem g hg).2)
    ⟨fun g hg => hT.cont g (hmem g hg).1, fun g hg => hT.bound g (hmem g hg).1, fun g hg => hT.lip g (hmem g hg).1⟩
  rw [e1] at k1 k2 k3
  have hnr : (0 : ℝ) < num := by exact_mod_cast hn
  generalize htd : (segs.map Seg.l).sum = tot at *
  have e3 : ((gs.filter fun g => g.k).map fun g => g.l / tot * (num : ℝ)).sum
      = ((segs.filter fun g => g.k).map Seg.l).sum * (num / tot) := by
    rw [← elw, ← List.sum_map_mul_right]
    congr 1
    refine List.map_congr_left fun g _ => ?_
    ring
  rw [e3] at k2 k3
  rw [elw, eI] at k1
  have hsub : ∀ g ∈ gs, g.k = true → g.l ≤ ((segs.filter fun g => g.k).map Seg.l).sum := by
    intro g hg hk
    refine List.single_le_sum (fun x hx => by
      obtain ⟨q, hq, rfl⟩ := List.mem_map.mp hx
      exact hk0 q hq) _ (List.mem_map_of_mem ?_)
    exact List.mem_filter.mpr ⟨(hmem g hg).1, by simpa using hk⟩
  have hM0 : 0 ≤ M := by
    have : segs ≠ [] := by rintro rfl; simp at hw
    obtain ⟨g, hg⟩ := List.exists_mem_of_ne_nil _ this
    exact (abs_nonneg _).trans (hT.bound g hg 0 le_rfl (h0 g hg))
  generalize ((segs.filter fun g => g.k).map Seg.l).sum = lw at *
  generalize (pts.filter fun p => p.sup) = ws at *
  have hwp : (0 : ℝ) < ws.length := lt_of_lt_of_le (by positivity) k2
  refine ⟨by exact_mod_cast hwp, ?_⟩
  have hlen : (gs.length : ℝ) ≤ segs.length := by exact_mod_cast List.length_filter_le _ _
  have hg0 : (0 : ℝ) ≤ gs.length := Nat.cast_nonneg _
  have hwd : lw / ws.length ≤ tot / num := by
    rw [div_le_div_iff₀ hwp hnr]
    have : lw * num = tot * (lw * (num / tot)) := by field_simp
    rw [this]
    exact mul_le_mul_of_nonneg_left k2 ht.le
  have d0 : 0 ≤ tot / num := by positivity
  have key := k1 (lw / ws.length) (tot / num * (2 * gs.length + 1)) (by positivity) (by positivity) (by
    intro g hg hk
    have hl := (hmem g hg).2
    have c1 := Nat.le_ceil (g.l / tot * (num : ℝ))
    have c2 := (Nat.ceil_lt_add_one (show 0 ≤ g.l / tot * (num : ℝ) by positivity)).le
    generalize (⌈g.l / tot * (num : ℝ)⌉₊ : ℝ) = c at *
    rw [abs_le]
    constructor
    · have h2 : lw / ws.length * (g.l / tot * num) ≤ lw / ws.length * c := mul_le_mul_of_nonneg_left c1 (by positivity)
      have h3 : lw / ws.length * (g.l / tot * num) = g.l - g.l * (ws.length - lw * (num / tot)) / ws.length := by
        field_simp; ring
      have h4 : g.l * (ws.length - lw * (num / tot)) / ws.length ≤ tot / num * (2 * gs.length + 1) := by
        rw [div_le_iff₀ hwp]
        have a1 : ws.length - lw * (num / tot) ≤ 2 * gs.length := by linarith
        have a2 : g.l * (ws.length - lw * (num / tot)) ≤ lw * (2 * gs.length) :=
          mul_le_mul (hsub g hg hk) a1 (by linarith) hw.le
        have a3 : tot / num * (2 * gs.length + 1) * (lw * (num / tot)) ≤ tot / num * (2 * gs.length + 1) * ws.length :=
          mul_le_mul_of_nonneg_left k2 (by positivity)
        have a4 : tot / num * (2 * gs.length + 1) * (lw * (num / tot)) = lw * (2 * gs.length + 1) := by
          field_simp
        nlinarith
      linarith
    · have h2 : lw / ws.length * c ≤ tot / num * c :=
        mul_le_mul_of_nonneg_right hwd (le_trans (by positivity) c1)
      have h3 : tot / num * c ≤ tot / num * (g.l / tot * num + 1) := mul_le_mul_of_nonneg_left c2 (by positivity)
      have h4 : tot / num * (g.l / tot * num + 1) = g.l + tot / num := by field_simp
      have h5 : tot / num ≤ tot / num * (2 * gs.length + 1) := by nlinarith
      linarith)
  have e4 : lw * ((ws.map fun p => f p.z).sum / ws.length) = lw / ws.length * (ws.map fun p => f p.z).sum := by ring
  rw [e4]
  refine key.trans ?_
  have w1 : lw / ws.length * M ≤ tot / num * M := mul_le_mul_of_nonneg_right hwd hM0
  have w2 : K * (tot / num) * lw ≤ K * (tot / num) * tot := mul_le_mul_of_nonneg_left hle (by positivity)
  have w3 : (gs.length : ℝ) * (M * (tot / num * (2 * gs.length + 1)) + lw / ws.length * M)
      ≤ segs.length * (M * (tot / num * (2 * segs.length + 1)) + tot / num * M) := by
    gcongr
  have w4 : ((2 * (segs.length + 1) ^ 2 : ℕ) : ℝ) = 2 * (segs.length + 1) ^ 2 := by push_cast; ring
  rw [w4]
  have w5 : (0 : ℝ) ≤ segs.length := Nat.cast_nonneg _
  have w6 : 0 ≤ M * (tot / num) * segs.length := by positivity
  have w7 : 0 ≤ M * (tot / num) := by positivity
  nlinarith

/-! ## Every smooth quantity is tame -/

theorem zsol_contDiff (s : Self) (C : Vec6) (l phi : ℝ) (bed : Bool) : ContDiff ℝ 1 fun x => zsol s x C l phi bed := by
  rw [contDiff_pi]
  intro i
  unfold zsol
  rcases bed with _ | _
  · have : (fun x => ((zh s x l false).mulVec C + zp s x phi false) i)
        = fun x => ((zhFree s x).mulVec C) i + zp s x phi false i := by funext x; simp [zh]
    rw [this]
    unfold zhFree zp
    fin_cases i <;> simp [Matrix.mulVec, dotProduct, Fin.sum_univ_succ] <;> fun_prop
  · have hp : ∀ x, zp s x phi true = zp s 0 phi true := by intro x; simp [zp]
    simp only [hp, Pi.add_apply]
    refine ContDiff.add ?_ contDiff_const
    simp only [zh_true_mulVec, zhBed_getD, Finset.sum_apply, Pi.smul_apply]
    refine ContDiff.sum fun j _ => ContDiff.const_smul _ ?_
    by_cases hj : (j : ℕ) < (bedGens s.eigs l).length
    · rw [List.getD_eq_getElem _ _ hj]
      have hm := List.getElem_mem hj
      generalize (bedGens s.eigs l)[(j : ℕ)] = f at hm
      unfold bedGens at hm
      simp only [List.mem_append, List.mem_map] at hm
      rcases hm with (⟨m, -, rfl⟩ | ⟨m, -, rfl⟩) | ⟨m, -, rfl⟩ <;> fun_prop
    · rw [List.getD_eq_default _ _ (not_lt.mp hj)]
      exact contDiff_const

theorem curve_tame {f : ℝ → ℝ} (hf : ContDiff ℝ 1 f) (l : ℝ) :
    ∃ M K, 0 ≤ M ∧ 0 ≤ K ∧ (∀ x, 0 ≤ x → x ≤ l → |f x| ≤ M) ∧
      ∀ x y, 0 ≤ x → x ≤ l → 0 ≤ y → y ≤ l → |f x - f y| ≤ K * |x - y| := by
  obtain ⟨M, hM⟩ := isCompact_Icc.exists_bound_of_continuousOn (hf.continuous.continuousOn (s := Set.Icc 0 l))
  obtain ⟨K, hK⟩ := isCompact_Icc.exists_bound_of_continuousOn ((hf.continuous_deriv le_rfl).continuousOn (s := Set.Icc 0 l))
  refine ⟨|M|, |K|, abs_nonneg _, abs_nonneg _, fun x a b => (hM x ⟨a, b⟩).trans (le_abs_self _), ?_⟩
  intro x y a b c d
  exact (convex_Icc 0 l).norm_image_sub_le_of_norm_deriv_le
    (fun z _ => (hf.differentiable one_ne_zero) z) (fun z hz => (hK z hz).trans (le_abs_self _)) ⟨c, d⟩ ⟨a, b⟩

theorem exists_tame (s : Self) (phi : ℝ) (gs : List Seg) {f : Vec6 → ℝ} (hf : ContDiff ℝ 1 f) :
    ∃ M K, 0 ≤ M ∧ 0 ≤ K ∧ Tame s phi gs f M K := by
  induction gs with
  | nil => exact ⟨0, 0, le_rfl, le_rfl, ⟨by simp, by simp, by simp⟩⟩
  | cons g gs ih =>
    obtain ⟨M, K, hM0, hK0, hT⟩ := ih
    have hc : ContDiff ℝ 1 fun x => f (zsol s x g.C g.l phi g.k) := hf.comp (zsol_contDiff s g.C g.l phi g.k)
    obtain ⟨M', K', hM0', hK0', hb, hl⟩ := curve_tame hc g.l
    refine ⟨M + M', K + K', by linarith, by linarith, ⟨?_, ?_, ?_⟩⟩
    · intro q hq
      exact (hf.comp (zsol_contDiff s q.C q.l phi q.k)).continuous
    · intro q hq x a b
      rcases List.mem_cons.mp hq with rfl | hq
      · linarith [hb x a b]
      · linarith [hT.bound q hq x a b]
    · intro q hq x y a b c d
      have hxy := abs_nonneg (x - y)
      rcases List.mem_cons.mp hq with rfl | hq
      · nlinarith [hl x y a b c d]
      · nlinarith [hT.lip q hq x y a b c d]

/-- Means over the grid converge to integrals along the beam like `1/num`. -/
theorem grid_rate (s : Self) (phi : ℝ) (segs : List Seg) (h0 : ∀ g ∈ segs, 0 ≤ g.l) {f : Vec6 → ℝ} (hf : ContDiff ℝ 1 f) :
    ∃ c, 0 ≤ c ∧ ∀ num : ℕ, 1 ≤ num → ∀ pts, rasterize s phi num segs = .ok pts →
      |(segs.map Seg.l).sum * ((pts.map fun p => f p.z).sum / pts.length) - beamIntegral s phi segs f| ≤ c / num := by
  obtain ⟨M, K, hM, hK, hT⟩ := exists_tame s phi segs hf
  have hs : 0 ≤ (segs.map Seg.l).sum := List.sum_nonneg fun x hx => by
    obtain ⟨g, hg, rfl⟩ := List.mem_map.mp hx; exact h0 g hg
  refine ⟨(K * (segs.map Seg.l).sum + ((segs.length + 1) ^ 2 : ℕ) * M) * (segs.map Seg.l).sum, by positivity, ?_⟩
  intro num hn pts h
  exact (grid_mean s phi num hn segs h0 pts h f M K hT hK).trans (le_of_eq (by ring))

/-- The same over the supported points. -/
theorem grid_rate_weak (s : Self) (phi : ℝ) (segs : List Seg) (h0 : ∀ g ∈ segs, 0 ≤ g.l)
    (hw : 0 < ((segs.filter fun g => g.k).map Seg.l).sum) {f : Vec6 → ℝ} (hf : ContDiff ℝ 1 f) :
    ∃ c, 0 ≤ c ∧ ∀ num : ℕ, 1 ≤ num → ∀ pts, rasterize s phi num segs = .ok pts →
      0 < (pts.filter fun p => p.sup).length ∧
      |((segs.filter fun g => g.k).map Seg.l).sum * (((pts.filter fun p => p.sup).map fun p => f p.z).sum / (pts.filter fun p => p.sup).length)
        - beamIntegral s phi (segs.filter fun g => g.k) f| ≤ c / num := by
  obtain ⟨M, K, hM, hK, hT⟩ := exists_tame s phi segs hf
  have hs : 0 ≤ (segs.map Seg.l).sum := List.sum_nonneg fun x hx => by
    obtain ⟨g, hg, rfl⟩ := List.mem_map.mp hx; exact h0 g hg
  refine ⟨(K * (segs.map Seg.l).sum + (2 * (segs.length + 1) ^ 2 : ℕ) * M) * (segs.map Seg.l).sum, by positivity, ?_⟩
  intro num hn pts h
  obtain ⟨h1, h2⟩ := grid_mean_weak s phi num hn segs h0 pts h f M K hT hK hw
  exact ⟨h1, h2.trans (le_of_eq (by ring))⟩

end Weac
