import Verif.Lemmas.Layering
import Mathlib.Data.List.GetD
import Verif.Model.Tools

namespace Weac
open Spec

theorem total_reverse {α : Type} (thick : α → ℝ) (ls : List α) :
    total thick ls.reverse = total thick ls := by simp [total, List.sum_reverse]

theorem cog_fst (ls : List Ply) : (calcCenterOfGravity ls).1 = total Ply.h ls := by
  simp [calcCenterOfGravity, total, List.sum_reverse]

/-- `∫ z dz` and `∫ 1 dz` layer by layer. -/
theorem massMoment_eq (ls : List Ply) (h : ∀ l ∈ ls, 0 ≤ l.h) :
    slabIntegral Ply.h Ply.rho ls (fun z => z)
      = layerSum Ply.h (fun l a b => l.rho * l.h * ((a + b) / 2)) (-(total Ply.h ls) / 2) ls := by
  rw [slabIntegral_eq _ _ (fun z => z) continuous_id _ h]
  apply layerSum_congr
  rintro l - a b rfl
  rw [integral_id]; ring

theorem mass_eq (ls : List Ply) (h : ∀ l ∈ ls, 0 ≤ l.h) :
    slabIntegral Ply.h Ply.rho ls (fun _ => 1)
      = layerSum Ply.h (fun l _ _ => l.rho * l.h) (-(total Ply.h ls) / 2) ls := by
  rw [slabIntegral_eq _ _ _ continuous_const _ h]
  apply layerSum_congr
  rintro l - a b rfl
  simp

theorem cog_num (ls : List Ply) :
    (calcCenterOfGravity ls).2
      = layerSum Ply.h (fun l a b => l.rho * l.h * ((a + b) / 2)) (-(total Ply.h ls) / 2) ls
        / layerSum Ply.h (fun l _ _ => l.rho * l.h) (-(total Ply.h ls) / 2) ls := by
  set d : Ply := ⟨0, 0⟩
  set r := ls.reverse with hr
  set H := total Ply.h ls with hH
  have hHr : total Ply.h r = H := total_reverse _ _
  have e1 : List.zipWith (· * ·) (List.zipWith (· * ·)
      ((List.range ls.length).map fun j => H / 2 - ((r.map Ply.h).take j).sum - nth (r.map Ply.h) j / 2)
      (r.map Ply.h)) (r.map fun l => (1e-12 : ℝ) * l.rho)
      = (List.range r.length).map fun j =>
        (fun (l : Ply) (a b : ℝ) => (1e-12 : ℝ) * (l.rho * l.h * (-(a + b) / 2))) (r.getD j d)
          (-H / 2 + ((r.map Ply.h).take j).sum) (-H / 2 + ((r.map Ply.h).take (j + 1)).sum) := by
    apply List.ext_getElem
    · simp [hr]
    · intro j h1 h2
      have hj : j < r.length := by simpa using h2
      have hj' : j < ls.length := by simpa [hr] using hj
      rw [List.getElem_map, List.getElem_zipWith, List.getElem_zipWith]
      simp only [List.getElem_map, List.getElem_range]
      rw [List.take_succ_eq_append_getElem (by simpa using hj), List.sum_append,
        List.getD_eq_getElem _ _ hj, nth, List.getD_eq_getElem _ _ (by simpa using hj)]
      simp only [List.getElem_map, List.sum_cons, List.sum_nil]
      ring
  have e2 : List.zipWith (· * ·) (r.map Ply.h) (r.map fun l => (1e-12 : ℝ) * l.rho)
      = (List.range r.length).map fun j =>
        (fun (l : Ply) (_ _ : ℝ) => (1e-12 : ℝ) * (l.rho * l.h)) (r.getD j d)
          (-H / 2 + ((r.map Ply.h).take j).sum) (-H / 2 + ((r.map Ply.h).take (j + 1)).sum) := by
    apply List.ext_getElem
    · simp
    · intro j h1 h2
      have hj : j < r.length := by simpa using h2
      rw [List.getElem_map, List.getElem_zipWith]
      simp only [List.getElem_map, List.getElem_range]
      rw [List.getD_eq_getElem _ _ hj]; ring
  have hsum : ((ls.map fun l => l.h).reverse).sum = H := by
    simp [hH, total, List.sum_reverse]
  have hmr : (ls.map fun l => l.h).reverse = r.map Ply.h := by simp [hr]
  have hmr' : (ls.map fun l => (1e-12 : ℝ) * l.rho).reverse = r.map fun l => (1e-12 : ℝ) * l.rho := by
    simp [hr]
  have top : -(-H / 2 + total Ply.h ls) = -H / 2 := by rw [← hH]; ring
  simp only [calcCenterOfGravity, hsum]
  have s1 := sum_range_eq_layerSum Ply.h
    (fun (l : Ply) (a b : ℝ) => (1e-12 : ℝ) * (l.rho * l.h * (-(a + b) / 2))) d r (-H / 2)
  have s2 := sum_range_eq_layerSum Ply.h
    (fun (l : Ply) (_ _ : ℝ) => (1e-12 : ℝ) * (l.rho * l.h)) d r (-H / 2)
  rw [← e1] at s1
  rw [← e2] at s2
  rw [hmr, hmr', s1, s2, layerSum_mul, layerSum_mul, hr, layerSum_reverse, layerSum_reverse, top, mul_div_mul_left _ _ (by norm_num)]
  congr 2
  funext l a b
  ring

end Weac

namespace Weac
open Spec

/-- The per-index expressions of `calc_vertical_bc_center_of_gravity` as
layer-wise sums. -/
theorem vertical_eq (ls : List Ply) (phi : ℝ) (hphi : deg2rad phi ≠ 0) :
    let H := total Ply.h ls
    let A := fun (l : Ply) (a b : ℝ) => l.h / 2 * (H - a - b) * Real.tan (deg2rad phi)
    let Z := fun (l : Ply) (a b : ℝ) => a + l.h / 3 * (3 / 2 * H - a - 2 * b) / (H - a - b)
    let w := layerSum Ply.h (fun l a b => A l a b * (1e-12 * l.rho)) (-H / 2) ls
    let zs := layerSum Ply.h (fun l a b => Z l a b * (1e-12 * l.rho) * A l a b) (-H / 2) ls
        / layerSum Ply.h (fun l a b => 1e-12 * l.rho * A l a b) (-H / 2) ls
    calcVerticalBcCenterOfGravity ls phi
      = ((H / 2 - zs) * Real.tan (deg2rad phi / 2), zs, w) := by
  intro H A Z w zs
  set d : Ply := ⟨0, 0⟩
  have key : ∀ F : Ply → ℝ → ℝ → ℝ, ∀ G : ℕ → ℝ,
      (∀ j, j < ls.length → G j = F (ls.getD j d) (-H / 2 + ((ls.map Ply.h).take j).sum)
          (-H / 2 + ((ls.map Ply.h).take (j + 1)).sum)) →
      ((List.range ls.length).map G).sum = layerSum Ply.h F (-H / 2) ls := by
    intro F G hG
    rw [← sum_range_eq_layerSum Ply.h F d ls (-H / 2)]
    congr 1
    apply List.map_congr_left
    intro j hj
    exact hG j (List.mem_range.mp hj)
  have hz : ∀ j, j ≤ ls.length → nth ((List.range (ls.length + 1)).map fun j =>
      -H / 2 + ((ls.map Ply.h).take j).sum) j = -H / 2 + ((ls.map Ply.h).take j).sum := by
    intro j hj
    rw [nth, List.getD_eq_getElem _ _ (by simp; omega)]
    simp
  have hh : ∀ j, j < ls.length → nth (ls.map fun l => l.h) j = (ls.getD j d).h := by
    intro j hj
    rw [nth, List.getD_eq_getElem _ _ (by simpa using hj), List.getD_eq_getElem _ _ hj]
    simp
  have hr : ∀ j, j < ls.length → nth (ls.map fun l => (1e-12 : ℝ) * l.rho) j
      = 1e-12 * (ls.getD j d).rho := by
    intro j hj
    rw [nth, List.getD_eq_getElem _ _ (by simpa using hj), List.getD_eq_getElem _ _ hj]
    simp
  have hH : (ls.map fun l => l.h).sum = H := rfl
  unfold calcVerticalBcCenterOfGravity
  simp only [hphi, if_false, hH]
  have k1 := key (fun l a b => Z l a b * (1e-12 * l.rho) * A l a b)
  have k2 := key (fun l a b => 1e-12 * l.rho * A l a b)
  have k3 := key (fun l a b => A l a b * (1e-12 * l.rho))
  rw [k1 _ (fun j hj => ?_), k2 _ (fun j hj => ?_), k3 _ (fun j hj => ?_)]
  all_goals
    simp only [hz j hj.le, hz (j + 1) hj, hh j hj, hr j hj, A, Z]

end Weac
