import Verif.Model.RoundedFace
import Verif.Props.RoundingFields

/-!
# C88, vertical faces: rounding errors in the weight of the wedge

The error is measured by the weight of a slab of length `H tan φ`, the horizontal
extent of the wedge.
-/

namespace Weac

open Spec

variable {u : ℝ} {fl : ℝ → ℝ}

theorem nth_map_lt {α : Type} (f : α → ℝ) (l : List α) {i : ℕ} (hi : i < l.length) : nth (l.map f) i = f l[i] := by
  rw [nth_eq (by simpa using hi), List.getElem_map]

theorem sum_nth (f : Ply → ℝ) (ls : List Ply) (g : ℕ → ℝ) (hg : ∀ i (hi : i < ls.length), g i = f ls[i]) :
    ((List.range ls.length).map g).sum = (ls.map f).sum := by
  congr 1
  refine List.ext_getElem (by simp) fun i h1 h2 => ?_
  simp only [List.getElem_map, List.getElem_range]
  exact hg i (by simpa using h1)

theorem face_weight_rounded (h : RoundOk u fl) (ls : List Ply) (hv : ValidPlies ls) (phi tn : ℝ) (hphi : deg2rad phi ≠ 0) {k : ℕ}
    (ht : Rel u k (Real.tan (deg2rad phi)) tn) :
    Err u (2 * ls.length + k + 10) (2 * (total Ply.h ls * |Real.tan (deg2rad phi)|) * total (fun l => 1e-12 * l.rho * l.h) ls)
      (calcVerticalBcCenterOfGravity ls phi).2.2 (faceWeightFl fl ls tn) := by
  set n := ls.length with hn
  set d : List ℝ := ls.map fun l => l.h with hd
  set T := Real.tan (deg2rad phi) with hT
  have ld : d.length = n := by simp [hd, hn]
  have pd0 : ∀ x ∈ d, 0 ≤ x := by
    intro x hx
    obtain ⟨l, hl, rfl⟩ := List.mem_map.1 hx
    exact (hv.2 l hl).2.le
  have H0 := take_sum_nonneg d pd0
  have Hle := take_sum_le d pd0
  have hS : 0 ≤ d.sum := List.sum_nonneg pd0
  have hH : Rel u n d.sum (flSum fl d) := by simpa [ld] using rel_flSum h d pd0
  have z : ∀ j, Err u (n + 2) (3 / 2 * d.sum) (-d.sum / 2 + (d.take j).sum) (fl (fl (-flSum fl d / 2) + flSum fl (d.take j))) := by
    intro j
    have a1 : Err u (n + 1) (d.sum / 2) (-d.sum / 2) (fl (-flSum fl d / 2)) := by
      have := h.rel_fl (h.rel_div (h.rel_mul (Rel.refl u (-1)) hH) (Rel.refl u 2))
      have := h.rel_err this
      rw [show (-1 : ℝ) * d.sum / 2 = -(d.sum / 2) by ring, abs_neg, abs_of_nonneg (by positivity),
        show (-1 : ℝ) * flSum fl d / 2 = -flSum fl d / 2 by ring, ← neg_div] at this
      exact h.err_mono this (by omega) le_rfl
    have a2 : Err u (n + 1) (d.take j).sum (d.take j).sum (flSum fl (d.take j)) := by
      have := rel_flSum h (d.take j) (fun x hx => pd0 x (List.mem_of_mem_take hx))
      exact h.err_of_rel (H0 j) (h.rel_mono this (by simp; omega))
    refine h.err_mono (h.err_fl (a1.add a2)) le_rfl ?_
    have := Hle j
    linarith
  have gap : ∀ j, Err u (n + 4) (4 * d.sum) (d.sum - (-d.sum / 2 + (d.take j).sum) - (-d.sum / 2 + (d.take (j + 1)).sum))
      (fl (fl (flSum fl d - fl (fl (-flSum fl d / 2) + flSum fl (d.take j))) - fl (fl (-flSum fl d / 2) + flSum fl (d.take (j + 1))))) := by
    intro j
    have a0 : Err u (n + 2) d.sum d.sum (flSum fl d) := h.err_of_rel hS (h.rel_mono hH (by omega))
    have a1 := h.err_fl (a0.sub (z j))
    exact h.err_mono (h.err_fl (a1.sub (h.err_mono (z (j + 1)) (by omega) le_rfl))) le_rfl (by linarith)
  have term : ∀ i ∈ List.range n, Err u (n + k + 10) (2 * (d.sum * |T|) * (1e-12 * (ls.getD i ⟨0, 0⟩).rho * (ls.getD i ⟨0, 0⟩).h))
      (nth d i / 2 * (d.sum - (-d.sum / 2 + (d.take i).sum) - (-d.sum / 2 + (d.take (i + 1)).sum)) * T * nth (ls.map fun l => 1e-12 * l.rho) i)
      (fl (fl (fl (fl (nth d i / 2) * fl (fl (flSum fl d - fl (fl (-flSum fl d / 2) + flSum fl (d.take i)))
        - fl (fl (-flSum fl d / 2) + flSum fl (d.take (i + 1))))) * tn) * nth (ls.map fun l => fl (fl 1e-12 * l.rho)) i)) := by
    intro i hi
    have hi : i < ls.length := List.mem_range.1 hi
    have hp := hv.2 _ (List.getElem_mem hi)
    rw [nth_map_lt _ _ hi, nth_map_lt _ _ hi, hd, nth_map_lt _ _ hi, ← hd, List.getD_eq_getElem _ _ hi]
    have b1 : Err u 1 (ls[i].h / 2) (ls[i].h / 2) (fl (ls[i].h / 2)) :=
      h.err_of_rel (by have := hp.2; positivity) (h.rel_fl (Rel.refl u _))
    have b2 : Err u 2 (1e-12 * ls[i].rho) (1e-12 * ls[i].rho) (fl (fl 1e-12 * ls[i].rho)) :=
      h.err_of_rel (by have := hp.1; positivity) (h.rel_fl (h.rel_mul (h.rel_fl (Rel.refl u _)) (Rel.refl u _)))
    have := h.err_fl (h.err_mul (h.err_fl (h.err_mul (h.err_fl (h.err_mul b1 (gap i))) (h.rel_err ht))) b2)
    refine h.err_mono this (by omega) (le_of_eq (by ring))
  have sum := err_sum h _ _ _ _ term
  have e : ((List.range n).map fun i => 2 * (d.sum * |T|) * (1e-12 * (ls.getD i ⟨0, 0⟩).rho * (ls.getD i ⟨0, 0⟩).h)).sum
      = 2 * (total Ply.h ls * |T|) * total (fun l => 1e-12 * l.rho * l.h) ls := by
    rw [List.sum_map_mul_left, hn, sum_nth (fun l => 1e-12 * l.rho * l.h) ls _ fun i hi => by rw [List.getD_eq_getElem _ _ hi]]
    rfl
  rw [List.length_range, e] at sum
  have ex : (calcVerticalBcCenterOfGravity ls phi).2.2 = ((List.range n).map fun i =>
      nth d i / 2 * (d.sum - (-d.sum / 2 + (d.take i).sum) - (-d.sum / 2 + (d.take (i + 1)).sum)) * T * nth (ls.map fun l => 1e-12 * l.rho) i).sum := by
    unfold calcVerticalBcCenterOfGravity
    simp only [if_neg hphi]
    congr 1
    refine List.map_congr_left fun i hi => ?_
    have hi := List.mem_range.1 hi
    rw [nth_eq (li := List.map _ (List.range _)) (i := i) (by simp; omega), nth_eq (li := List.map _ (List.range _)) (i := i + 1) (by simp; omega)]
    simp only [List.getElem_map, List.getElem_range]
    rfl
  rw [ex]
  exact h.err_mono sum (by omega) le_rfl

/-- C88, vertical faces. If the numeric library gives the tangent with `k` roundings, the computed weight of
the wedge differs from the exact one by at most `gamma` times twice the weight of a slab of the length of the wedge. -/
theorem C88_face_weight (h : RoundOk u fl) (ls : List Ply) (hv : ValidPlies ls) (phi tn : ℝ) (hphi : deg2rad phi ≠ 0) {k : ℕ}
    (ht : Rel u k (Real.tan (deg2rad phi)) tn) (hu : ((2 * ls.length + k + 10 : ℕ) : ℝ) * u < 1) :
    |faceWeightFl fl ls tn - (calcVerticalBcCenterOfGravity ls phi).2.2|
      ≤ gamma u (2 * ls.length + k + 10) *
        (2 * (total Ply.h ls * |Real.tan (deg2rad phi)|) * total (fun l => 1e-12 * l.rho * l.h) ls) :=
  h.err_bound (face_weight_rounded h ls hv phi tn hphi ht) hu

/-- C91, vertical faces: the forces of the wedge on the right-hand side, parallel and normal to the slope. -/
theorem C91_face_forces {lib : Libm} {m : ℕ} (h : RoundOk u fl) (hl : LibmOk u m lib) (s : Self) (hg : 0 ≤ s.g)
    (hv : ValidPlies (s.slab.map Layer.ply)) (phi tn : ℝ) (hphi : deg2rad phi ≠ 0) {k : ℕ}
    (ht : Rel u k (Real.tan (deg2rad phi)) tn) (hu : ((2 * s.slab.length + k + m + 15 : ℕ) : ℝ) * u < 1) :
    |(faceForcesFl fl lib s phi tn).1 - (verticalForces s phi).1| ≤ gamma u (2 * s.slab.length + k + m + 15) *
      loadScale (s.g * (2 * (total Layer.h s.slab * |Real.tan (deg2rad phi)|) * total (fun l => 1e-12 * l.rho * l.h) s.slab)) phi ∧
    |(faceForcesFl fl lib s phi tn).2 - (verticalForces s phi).2.2| ≤ gamma u (2 * s.slab.length + k + m + 15) *
      loadScale (s.g * (2 * (total Layer.h s.slab * |Real.tan (deg2rad phi)|) * total (fun l => 1e-12 * l.rho * l.h) s.slab)) phi := by
  have w := face_weight_rounded h _ hv phi tn hphi ht
  have e1 : total Ply.h (s.slab.map Layer.ply) = total Layer.h s.slab := by simp only [total, List.map_map]; rfl
  have e2 : total (fun l => 1e-12 * l.rho * l.h) (s.slab.map Layer.ply) = total (fun l => 1e-12 * l.rho * l.h) s.slab := by
    simp only [total, List.map_map]; rfl
  rw [e1, e2, List.length_map] at w
  have g : Err u 0 s.g s.g s.g := h.err_of_rel hg (Rel.refl u _)
  have p := load_rounded h hl phi (h.err_fl (h.err_mul g w))
  have c := trig_err h hl.sin (fun y => Real.abs_sin_le_one y) Real.abs_sin_sub_sin_le (angle_rounded h phi)
  have q := h.err_fl (h.err_mul (h.err_fl (h.err_mul (err_neg g) w)) c)
  exact ⟨h.err_bound (h.err_mono q (by omega) le_rfl) hu, h.err_bound (h.err_mono p.1 (by omega) le_rfl) hu⟩

/-- The demonstration slab at 45°: the weight of the wedge is accurate to 10⁻¹⁸ t per mm of width, but not exact. -/
example : |faceWeightFl offFl demoPlies 1 - (calcVerticalBcCenterOfGravity demoPlies 45).2.2| ≤ 1e-18 ∧
    faceWeightFl offFl demoPlies 1 ≠ (calcVerticalBcCenterOfGravity demoPlies 45).2.2 := by
  have a : deg2rad 45 = Real.pi / 4 := by unfold deg2rad; ring
  have a0 : deg2rad 45 ≠ 0 := by rw [a]; positivity
  have t1 : Real.tan (deg2rad 45) = 1 := by rw [a, Real.tan_pi_div_four]
  constructor
  · refine (C88_face_weight offFl_ok demoPlies demoPlies_valid 45 1 a0 (k := 0) (by rw [t1]; exact Rel.refl _ 1)
      (by norm_num [demoPlies])).trans ?_
    rw [t1]
    norm_num [demoPlies, gamma, total]
  · unfold calcVerticalBcCenterOfGravity
    simp only [if_neg a0, t1]
    norm_num [faceWeightFl, demoPlies, flSum, offFl, nth, List.range_succ]

end Weac
