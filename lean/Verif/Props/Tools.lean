import Mathlib.Tactic.Positivity
import Mathlib.Tactic.NormNum
import Mathlib.Tactic.LinearCombination
import Verif.Lemmas.Tools
import Verif.Spec.State

/-!
# C01–C04: slab geometry, gravity centre, density parametrisations
-/

namespace Weac
open Spec

/-- Three different layers; used to show that hypotheses are met. -/
noncomputable def demoPlies : List Ply := [⟨180, 120⟩, ⟨270, 80⟩, ⟨350, 50⟩]

theorem demoPlies_valid : ValidPlies demoPlies := by
  refine ⟨by simp [demoPlies], ?_⟩
  intro l hl
  simp only [demoPlies, List.mem_cons, List.not_mem_nil, or_false] at hl
  rcases hl with rfl | rfl | rfl <;> norm_num

/-! ## C01 -/

/-- `H` is the total thickness, `zs` the mass-weighted mean depth, and `zs`
lies strictly inside the slab. -/
theorem C01_center_of_gravity (ls : List Ply) (hv : ValidPlies ls) :
    (calcCenterOfGravity ls).1 = total Ply.h ls ∧
    0 < slabIntegral Ply.h Ply.rho ls (fun _ => 1) ∧
    (calcCenterOfGravity ls).2 * slabIntegral Ply.h Ply.rho ls (fun _ => 1)
      = slabIntegral Ply.h Ply.rho ls (fun z => z) ∧
    -(total Ply.h ls) / 2 < (calcCenterOfGravity ls).2 ∧
    (calcCenterOfGravity ls).2 < total Ply.h ls / 2 := by
  obtain ⟨hne, hpos⟩ := hv
  have hth : ∀ l ∈ ls, 0 ≤ l.h := fun l hl => (hpos l hl).2.le
  set H := total Ply.h ls
  set m := layerSum Ply.h (fun l _ _ => l.rho * l.h) (-H / 2) ls with hm
  set S := layerSum Ply.h (fun l a b => l.rho * l.h * ((a + b) / 2)) (-H / 2) ls with hS
  have hmpos : 0 < m := layerSum_pos _ _ _ hne fun l hl _ _ _ => mul_pos (hpos l hl).1 (hpos l hl).2
  have hcog : (calcCenterOfGravity ls).2 = S / m := cog_num ls
  have hup : 0 < H / 2 * m + (-1) * S := by
    rw [hm, hS, ← layerSum_mul, ← layerSum_mul, ← layerSum_add]
    refine layerSum_pos_of_bounds Ply.h (-H / 2) (H / 2) ls hth hne ?_ _ le_rfl (by
      rw [show -H / 2 + total Ply.h ls = H / 2 by simp only [H]; ring])
    rintro l hl a b rfl _ h2
    have h3 : 0 < l.h := (hpos l hl).2
    have := mul_pos (mul_pos (hpos l hl).1 h3) (show 0 < H / 2 - (a + (a + l.h)) / 2 by linarith)
    linarith
  have hlo : 0 < H / 2 * m + S := by
    rw [hm, hS, ← layerSum_mul, ← layerSum_add]
    refine layerSum_pos_of_bounds Ply.h (-H / 2) (H / 2) ls hth hne ?_ _ le_rfl (by
      rw [show -H / 2 + total Ply.h ls = H / 2 by simp only [H]; ring])
    rintro l hl a b rfl h1 _
    have h3 : 0 < l.h := (hpos l hl).2
    have := mul_pos (mul_pos (hpos l hl).1 h3) (show 0 < H / 2 + (a + (a + l.h)) / 2 by linarith)
    linarith
  refine ⟨cog_fst ls, by rw [mass_eq ls hth]; exact hmpos, ?_, ?_, ?_⟩
  · rw [mass_eq ls hth, massMoment_eq ls hth, hcog, ← hm, ← hS]
    exact div_mul_cancel₀ S hmpos.ne'
  · rw [hcog, lt_div_iff₀ hmpos]; linarith
  · rw [hcog, div_lt_iff₀ hmpos]; linarith

example : ValidPlies demoPlies ∧ (calcCenterOfGravity demoPlies).1 = 250 := by
  refine ⟨demoPlies_valid, ?_⟩
  rw [cog_fst]; norm_num [demoPlies]

/-! ## C02 -/

/-- Turning the slab upside down negates `zs` and keeps `H`. -/
theorem C02_reverse (ls : List Ply) :
    (calcCenterOfGravity ls.reverse).1 = (calcCenterOfGravity ls).1 ∧
    (calcCenterOfGravity ls.reverse).2 = -(calcCenterOfGravity ls).2 := by
  refine ⟨by simp [cog_fst, total_reverse], ?_⟩
  have e : -(-total Ply.h ls / 2 + total Ply.h ls) = -total Ply.h ls / 2 := by ring
  rw [cog_num, cog_num, total_reverse, layerSum_reverse, layerSum_reverse, e, ← neg_div,
    neg_eq_neg_one_mul (layerSum _ _ _ ls), ← layerSum_mul]
  congr 2
  funext l a b
  ring

/-- Splitting a layer into two of the same density changes nothing. -/
theorem C02_split (pre post : List Ply) (rho h1 h2 : ℝ) :
    calcCenterOfGravity (pre ++ ⟨rho, h1⟩ :: ⟨rho, h2⟩ :: post)
      = calcCenterOfGravity (pre ++ ⟨rho, h1 + h2⟩ :: post) := by
  have ht : total Ply.h (pre ++ ⟨rho, h1⟩ :: ⟨rho, h2⟩ :: post)
      = total Ply.h (pre ++ ⟨rho, h1 + h2⟩ :: post) := by simp; ring
  apply Prod.ext
  · rw [cog_fst, cog_fst, ht]
  · rw [cog_num, cog_num, ht]
    simp only [layerSum_append, layerSum, add_assoc]
    congr 1
    · congr 1
      rw [← add_assoc (_ * _) (_ * _)]
      congr 1; ring
    · congr 1
      rw [← add_assoc (_ * _) (_ * _)]
      congr 1; ring

/-- Scaling all densities by one nonzero factor changes nothing. -/
theorem C02_scale (c : ℝ) (hc : c ≠ 0) (ls : List Ply) :
    calcCenterOfGravity (ls.map fun l => ⟨c * l.rho, l.h⟩) = calcCenterOfGravity ls := by
  have ht : total Ply.h (ls.map fun l => ⟨c * l.rho, l.h⟩) = total Ply.h ls := by
    simp [total, Function.comp_def]
  have hl : ∀ (F : Ply → ℝ → ℝ → ℝ) (top : ℝ),
      layerSum Ply.h F top (ls.map fun l => ⟨c * l.rho, l.h⟩)
        = layerSum Ply.h (fun l a b => F ⟨c * l.rho, l.h⟩ a b) top ls := by
    intro F top
    clear ht
    induction ls generalizing top with
    | nil => rfl
    | cons l ls ih => simp [layerSum, ih]
  apply Prod.ext
  · rw [cog_fst, cog_fst, ht]
  · rw [cog_num, cog_num, ht, hl, hl]
    simp only [mul_assoc]
    rw [layerSum_mul, layerSum_mul, mul_div_mul_left _ _ hc]

/-- A slab of uniform density has its centre of gravity at mid-height. -/
theorem C02_uniform (rho : ℝ) (ls : List Ply) (hu : ∀ l ∈ ls, l.rho = rho) :
    (calcCenterOfGravity ls).2 = 0 := by
  have hr : layerSum Ply.h (fun l a b => l.rho * l.h * ((a + b) / 2)) (-total Ply.h ls / 2) ls
      = layerSum Ply.h (fun l a b => rho * (l.h * ((a + b) / 2))) (-total Ply.h ls / 2) ls :=
    layerSum_congr _ _ _ fun l hl a b _ => by rw [hu l hl]; ring
  have htel : ∀ (ls : List Ply) (top : ℝ), layerSum Ply.h (fun l a b => l.h * ((a + b) / 2)) top ls
      = ((top + total Ply.h ls) ^ 2 - top ^ 2) / 2 := by
    intro ls
    induction ls with
    | nil => intro top; simp [layerSum]
    | cons l ls ih => intro top; simp only [layerSum, ih, total_cons]; ring
  rw [cog_num, hr, layerSum_mul, htel]
  ring

example : (calcCenterOfGravity demoPlies.reverse).2 = -(calcCenterOfGravity demoPlies).2 :=
  (C02_reverse demoPlies).2

example : (calcCenterOfGravity demoPlies).2 ≠ 0 := by
  rw [cog_num]; norm_num [demoPlies, layerSum]

/-! ## C03

The triangular piece between the slope-normal section and the vertical face
has width `(H/2 - z) tan φ` at depth `z`. -/

/-- Mass per out-of-plane length (t/mm) of the wedge. -/
noncomputable def Spec.wedgeMass (ls : List Ply) (phi : ℝ) : ℝ :=
  slabIntegral Ply.h (fun l => 1e-12 * l.rho) ls
    (fun z => (total Ply.h ls / 2 - z) * Real.tan phi)

/-- First moment of the wedge about mid-height. -/
noncomputable def Spec.wedgeMomentZ (ls : List Ply) (phi : ℝ) : ℝ :=
  slabIntegral Ply.h (fun l => 1e-12 * l.rho) ls
    (fun z => z * ((total Ply.h ls / 2 - z) * Real.tan phi))

/-- First moment of the wedge about the section `x = 0`; a horizontal strip of
width `b` has its centroid at `b/2`. -/
noncomputable def Spec.wedgeMomentX (ls : List Ply) (phi : ℝ) : ℝ :=
  slabIntegral Ply.h (fun l => 1e-12 * l.rho) ls
    (fun z => ((total Ply.h ls / 2 - z) * Real.tan phi) / 2 * ((total Ply.h ls / 2 - z) * Real.tan phi))

section wedge
variable (ls : List Ply) (phi : ℝ)

theorem int_lin (H c a b : ℝ) : ∫ z in a..b, (H / 2 - z) * c = (b - a) / 2 * (H - a - b) * c := by
  rw [intervalIntegral.integral_mul_const, intervalIntegral.integral_sub (by simp) (by simp),
    intervalIntegral.integral_const, integral_id]
  simp only [smul_eq_mul]; ring

theorem int_quad (H c a b : ℝ) :
    ∫ z in a..b, z * ((H / 2 - z) * c) = (H / 4 * (b ^ 2 - a ^ 2) - (b ^ 3 - a ^ 3) / 3) * c := by
  have : (fun z : ℝ => z * ((H / 2 - z) * c)) = fun z => (H * c / 2) * z - c * z ^ 2 := by
    funext z; ring
  rw [this, intervalIntegral.integral_sub
      (Continuous.intervalIntegrable (by fun_prop) _ _) (Continuous.intervalIntegrable (by fun_prop) _ _),
    intervalIntegral.integral_const_mul, intervalIntegral.integral_const_mul, integral_id, integral_pow]
  push_cast; ring

theorem wedgeMass_eq (hth : ∀ l ∈ ls, 0 ≤ l.h) : wedgeMass ls phi
    = layerSum Ply.h (fun l a b => l.h / 2 * (total Ply.h ls - a - b) * Real.tan phi * (1e-12 * l.rho))
        (-total Ply.h ls / 2) ls := by
  rw [wedgeMass, slabIntegral_eq _ _ _ (by fun_prop) _ hth]
  apply layerSum_congr
  rintro l - a b rfl
  rw [int_lin]; ring

theorem wedgeMomentZ_eq (hth : ∀ l ∈ ls, 0 ≤ l.h) : wedgeMomentZ ls phi
    = layerSum Ply.h (fun l a b => (total Ply.h ls / 4 * (b ^ 2 - a ^ 2) - (b ^ 3 - a ^ 3) / 3)
          * Real.tan phi * (1e-12 * l.rho)) (-total Ply.h ls / 2) ls := by
  rw [wedgeMomentZ, slabIntegral_eq _ _ _ (by fun_prop) _ hth]
  apply layerSum_congr
  rintro l - a b rfl
  rw [int_quad]; ring

theorem wedgeMomentX_eq (hth : ∀ l ∈ ls, 0 ≤ l.h) : wedgeMomentX ls phi
    = Real.tan phi / 2 * (total Ply.h ls / 2 * wedgeMass ls phi - wedgeMomentZ ls phi) := by
  rw [wedgeMomentX, wedgeMass_eq _ _ hth, wedgeMomentZ_eq _ _ hth,
    slabIntegral_eq _ _ _ (by fun_prop) _ hth, ← layerSum_mul, sub_eq_add_neg,
    neg_eq_neg_one_mul (layerSum _ _ _ ls), ← layerSum_mul, ← layerSum_add, ← layerSum_mul]
  apply layerSum_congr
  rintro l - a b rfl
  have : (fun z : ℝ => ((total Ply.h ls / 2 - z) * Real.tan phi) / 2 *
      ((total Ply.h ls / 2 - z) * Real.tan phi))
      = fun z => Real.tan phi ^ 2 / 2 * (total Ply.h ls / 2 - z) ^ 2 := by funext z; ring
  rw [this, intervalIntegral.integral_const_mul,
    intervalIntegral.integral_comp_sub_left (fun z => z ^ 2) (total Ply.h ls / 2), integral_pow]
  push_cast; ring

end wedge

theorem wedge_mass_pos (ls : List Ply) (hv : ValidPlies ls) (phi : ℝ) (ht : Real.tan phi ≠ 0) :
    wedgeMass ls phi ≠ 0 := by
  obtain ⟨hne, hpos⟩ := hv
  have hth : ∀ l ∈ ls, 0 ≤ l.h := fun l hl => (hpos l hl).2.le
  rw [wedgeMass_eq _ _ hth]
  have : (fun (l : Ply) a b => l.h / 2 * (total Ply.h ls - a - b) * Real.tan phi * (1e-12 * l.rho))
    = fun l a b => Real.tan phi * (l.h / 2 * (total Ply.h ls - a - b) * (1e-12 * l.rho)) := by
    funext l a b; ring
  rw [this, layerSum_mul]
  refine mul_ne_zero ht (ne_of_gt ?_)
  refine layerSum_pos_of_bounds Ply.h (-total Ply.h ls / 2) (total Ply.h ls / 2) ls hth hne ?_ _ le_rfl
    (by linarith)
  rintro l hl a b rfl h1 h2
  have h3 := (hpos l hl).2
  have h4 := (hpos l hl).1
  have : 0 < total Ply.h ls - a - (a + l.h) := by linarith
  positivity

/-- Weight and vertical centroid of the wedge are right, on slopes and on flat
ground. Missing for the full C03: `xs` is not the horizontal centroid, see
`C03_xs_wrong_on_every_slope`. -/
theorem C03_wedge_partial (ls : List Ply) (hv : ValidPlies ls) (phi : ℝ) :
    (deg2rad phi = 0 → calcVerticalBcCenterOfGravity ls phi = (0, 0, 0)) ∧
    (Real.tan (deg2rad phi) ≠ 0 →
      (calcVerticalBcCenterOfGravity ls phi).2.2 = wedgeMass ls (deg2rad phi) ∧
      wedgeMass ls (deg2rad phi) ≠ 0 ∧
      (calcVerticalBcCenterOfGravity ls phi).2.1
        = wedgeMomentZ ls (deg2rad phi) / wedgeMass ls (deg2rad phi) ∧
      (calcVerticalBcCenterOfGravity ls phi).1
        = (total Ply.h ls / 2 - wedgeMomentZ ls (deg2rad phi) / wedgeMass ls (deg2rad phi))
            * Real.tan (deg2rad phi / 2)) := by
  refine ⟨fun h => by simp [calcVerticalBcCenterOfGravity, h], fun ht => ?_⟩
  have hphi : deg2rad phi ≠ 0 := fun h => ht (by rw [h, Real.tan_zero])
  obtain ⟨hne, hpos⟩ := hv
  have hth : ∀ l ∈ ls, 0 ≤ l.h := fun l hl => (hpos l hl).2.le
  have hnum : layerSum Ply.h (fun (l : Ply) a b =>
      (a + l.h / 3 * (3 / 2 * total Ply.h ls - a - 2 * b) / (total Ply.h ls - a - b)) * (1e-12 * l.rho)
        * (l.h / 2 * (total Ply.h ls - a - b) * Real.tan (deg2rad phi))) (-total Ply.h ls / 2) ls
      = wedgeMomentZ ls (deg2rad phi) := by
    rw [wedgeMomentZ_eq _ _ hth]
    refine layerSum_congr_of_bounds Ply.h (-total Ply.h ls / 2) (total Ply.h ls / 2) ls hth ?_ _ le_rfl
      (by linarith)
    rintro l hl a b rfl h1 h2
    have h3 := (hpos l hl).2
    have : total Ply.h ls - a - (a + l.h) ≠ 0 := by
      apply ne_of_gt; linarith
    field_simp
    ring
  have hden : layerSum Ply.h (fun (l : Ply) a b =>
      1e-12 * l.rho * (l.h / 2 * (total Ply.h ls - a - b) * Real.tan (deg2rad phi)))
        (-total Ply.h ls / 2) ls = wedgeMass ls (deg2rad phi) := by
    rw [wedgeMass_eq _ _ hth]
    apply layerSum_congr
    intros; ring
  have hm := wedgeMass_eq ls (deg2rad phi) hth
  have := vertical_eq ls phi hphi
  simp only [hnum, hden] at this
  rw [this]
  exact ⟨hm.symm, wedge_mass_pos ls ⟨hne, hpos⟩ _ ht, rfl, rfl⟩

/-- The horizontal coordinate returned by the code is the true centroid of the
wedge only where `tan φ = 2 tan (φ/2)`. -/
theorem C03_xs_correct_iff (ls : List Ply) (hv : ValidPlies ls) (phi : ℝ)
    (ht : Real.tan (deg2rad phi) ≠ 0) :
    (calcVerticalBcCenterOfGravity ls phi).1
        = wedgeMomentX ls (deg2rad phi) / wedgeMass ls (deg2rad phi)
      ↔ Real.tan (deg2rad phi / 2) = Real.tan (deg2rad phi) / 2 := by
  obtain ⟨-, hm, -, hx⟩ := (C03_wedge_partial ls hv phi).2 ht
  have hth : ∀ l ∈ ls, 0 ≤ l.h := fun l hl => (hv.2 l hl).2.le
  set M := wedgeMass ls (deg2rad phi)
  set Z := wedgeMomentZ ls (deg2rad phi)
  have hX := wedgeMomentX_eq ls (deg2rad phi) hth
  have hxx : wedgeMomentX ls (deg2rad phi) / M
      = (total Ply.h ls / 2 - Z / M) * (Real.tan (deg2rad phi) / 2) := by
    rw [hX, ← show M = wedgeMass ls (deg2rad phi) from rfl,
      ← show Z = wedgeMomentZ ls (deg2rad phi) from rfl]
    field_simp
  rw [hx, hxx]
  have hd : total Ply.h ls / 2 - Z / M ≠ 0 := by
    -- otherwise the wedge would have no horizontal extent
    intro h0
    have h1 : wedgeMomentX ls (deg2rad phi) = 0 := by
      have := hxx; rw [h0, zero_mul, div_eq_zero_iff] at this
      exact this.resolve_right hm
    have h2 : total Ply.h ls / 2 * M - Z = 0 := by
      field_simp at h0; linarith
    have h3 : 0 < wedgeMomentX ls (deg2rad phi) / (Real.tan (deg2rad phi)) ^ 2 := by
      rw [wedgeMomentX, slabIntegral_eq _ _ _ (by fun_prop) _ hth, div_eq_inv_mul, ← layerSum_mul]
      refine layerSum_pos_of_bounds Ply.h (-total Ply.h ls / 2) (total Ply.h ls / 2) ls hth hv.1 ?_ _ le_rfl
        (by linarith)
      rintro l hl a b rfl h4 h5
      have e : (fun z : ℝ => ((total Ply.h ls / 2 - z) * Real.tan (deg2rad phi)) / 2 *
          ((total Ply.h ls / 2 - z) * Real.tan (deg2rad phi)))
          = fun z => Real.tan (deg2rad phi) ^ 2 / 2 * (total Ply.h ls / 2 - z) ^ 2 := by funext z; ring
      rw [e, intervalIntegral.integral_const_mul,
        intervalIntegral.integral_comp_sub_left (fun z => z ^ 2) (total Ply.h ls / 2), integral_pow]
      have h6 := (hv.2 l hl).1
      have h7 := (hv.2 l hl).2
      have h8 : 0 ≤ total Ply.h ls / 2 - (a + l.h) := by linarith
      push_cast
      have h9 : 0 < (total Ply.h ls / 2 - a) ^ 3 - (total Ply.h ls / 2 - (a + l.h)) ^ 3 := by
        set q := total Ply.h ls / 2 - (a + l.h)
        rw [show total Ply.h ls / 2 - a = q + l.h by simp only [q]; ring,
          show (q + l.h) ^ 3 - q ^ 3 = 3 * q ^ 2 * l.h + 3 * q * l.h ^ 2 + l.h ^ 3 by ring]
        positivity
      have : (Real.tan (deg2rad phi) ^ 2)⁻¹ * (1e-12 * l.rho * (Real.tan (deg2rad phi) ^ 2 / 2 *
          (((total Ply.h ls / 2 - a) ^ (2 + 1) - (total Ply.h ls / 2 - (a + l.h)) ^ (2 + 1)) / (2 + 1))))
          = 1e-12 * l.rho / 6 * ((total Ply.h ls / 2 - a) ^ 3 - (total Ply.h ls / 2 - (a + l.h)) ^ 3) := by
        field_simp; ring
      rw [this]
      positivity
    rw [h1] at h3
    simp at h3
  exact ⟨fun h => mul_left_cancel₀ hd h, fun h => by rw [h]⟩

/-- Negation of the full C03: on every slope `0 < |φ| < 90°` and for every
slab the returned `xs` is not the centroid. -/
theorem C03_xs_wrong_on_every_slope (ls : List Ply) (hv : ValidPlies ls) (phi : ℝ)
    (h0 : deg2rad phi ≠ 0) (h1 : -(Real.pi / 2) < deg2rad phi) (h2 : deg2rad phi < Real.pi / 2) :
    (calcVerticalBcCenterOfGravity ls phi).1
      ≠ wedgeMomentX ls (deg2rad phi) / wedgeMass ls (deg2rad phi) := by
  set x := deg2rad phi with hx
  have hc : Real.cos x ≠ 0 := (Real.cos_pos_of_mem_Ioo ⟨h1, h2⟩).ne'
  have hc2 : 0 < Real.cos (x / 2) := by
    apply Real.cos_pos_of_mem_Ioo
    constructor <;> linarith [Real.pi_pos]
  have hs2 : Real.sin (x / 2) ≠ 0 := by
    intro h
    rcases lt_trichotomy x 0 with hlt | he | hgt
    · have := Real.sin_neg_of_neg_of_neg_pi_lt (x := x / 2) (by linarith) (by linarith [Real.pi_pos])
      linarith
    · exact h0 he
    · have := Real.sin_pos_of_pos_of_lt_pi (x := x / 2) (by linarith) (by linarith [Real.pi_pos])
      linarith
  have hsin : Real.sin x = 2 * Real.sin (x / 2) * Real.cos (x / 2) := by
    rw [← Real.sin_two_mul]; congr 1; ring
  have hcos : Real.cos x = 2 * Real.cos (x / 2) ^ 2 - 1 := by
    rw [← Real.cos_two_mul]; congr 1; ring
  have ht : Real.tan x ≠ 0 := by
    rw [Real.tan_eq_sin_div_cos, hsin]
    exact div_ne_zero (mul_ne_zero (mul_ne_zero two_ne_zero hs2) hc2.ne') hc
  rw [ne_eq, C03_xs_correct_iff ls hv phi ht, ← hx, Real.tan_eq_sin_div_cos, Real.tan_eq_sin_div_cos]
  intro h
  rw [div_div, div_eq_div_iff hc2.ne' (mul_ne_zero hc two_ne_zero), hsin, hcos] at h
  have h5 : Real.sin (x / 2) * (Real.cos (x / 2) ^ 2 - 1) = 0 := by linear_combination h / 2
  have h6 : Real.sin (x / 2) ^ 3 = 0 := by
    have := Real.sin_sq_add_cos_sq (x / 2)
    linear_combination (-1) * h5 + Real.sin (x / 2) * this
  exact hs2 (pow_eq_zero_iff (by norm_num) |>.mp h6)

example : ValidPlies demoPlies ∧ deg2rad 60 ≠ 0 ∧ -(Real.pi / 2) < deg2rad 60 ∧
    deg2rad 60 < Real.pi / 2 := by
  have := Real.pi_pos
  refine ⟨demoPlies_valid, ?_, ?_, ?_⟩ <;> unfold deg2rad
  · positivity
  · linarith
  · linarith

/-! ## C04 -/

theorem C04_bergfeld (rho0 C0 C1 : ℝ) (h0 : 0 < rho0) (hC0 : 0 < C0) (hC1 : 0 < C1) :
    (∀ rho, 0 < rho → 0 < bergfeld rho rho0 C0 C1) ∧
    (∀ r r', 0 ≤ r → r < r' → bergfeld r rho0 C0 C1 < bergfeld r' rho0 C0 C1) ∧
    bergfeld rho0 rho0 C0 C1 = 1000 * C0 := by
  refine ⟨fun rho h => ?_, fun r r' hr h => ?_, ?_⟩
  · unfold bergfeld; positivity
  · unfold bergfeld
    have := Real.rpow_lt_rpow (div_nonneg hr h0.le) (div_lt_div_of_pos_right h h0) hC1
    have h3 : 0 < C0 * 1e3 := by positivity
    exact mul_lt_mul_of_pos_left this h3
  · unfold bergfeld; rw [div_self h0.ne', Real.one_rpow]; norm_num; ring

theorem C04_gerling (C0 C1 : ℝ) (hC0 : 0 < C0) (hC1 : 0 < C1) :
    (∀ rho, 0 < rho → 0 < gerling rho C0 C1) ∧
    (∀ r r', 0 ≤ r → r < r' → gerling r C0 C1 < gerling r' C0 C1) := by
  refine ⟨fun rho h => ?_, fun r r' hr h => ?_⟩
  · unfold gerling; positivity
  · unfold gerling
    have h3 : 0 < C0 * 1e-10 := by positivity
    exact mul_lt_mul_of_pos_left (Real.rpow_lt_rpow hr h hC1) h3

theorem C04_scapozza :
    (∀ rho, 0 < rho → 0 < scapozza rho) ∧
    (∀ r r', 0 ≤ r → r < r' → scapozza r < scapozza r') ∧ scapozza 917 = 5070 := by
  refine ⟨fun rho h => ?_, fun r r' hr h => ?_, ?_⟩
  · unfold scapozza; positivity
  · unfold scapozza
    refine mul_lt_mul_of_pos_left (Real.rpow_lt_rpow (by positivity) ?_ (by norm_num)) (by norm_num)
    have : r * 1e-12 < r' * 1e-12 := by linarith
    exact div_lt_div_of_pos_right this (by norm_num)
  · show 5.07e3 * ((917 : ℝ) * 1e-12 / 917e-12) ^ (5.13 : ℝ) = 5070
    rw [show (917 * 1e-12 : ℝ) / 917e-12 = 1 by norm_num, Real.one_rpow]; norm_num

theorem C04_tensile_strength :
    (∀ rho, 0 < rho → ∃ v, tensileStrengthSlab rho "kPa" = .ok v ∧ 0 < v ∧
        tensileStrengthSlab rho "MPa" = .ok (1e-3 * v)) ∧
    (∀ r r', 0 ≤ r → r < r' → ∃ v v', tensileStrengthSlab r "kPa" = .ok v ∧
        tensileStrengthSlab r' "kPa" = .ok v' ∧ v < v') ∧
    (∀ rho unit, unit ≠ "kPa" → unit ≠ "MPa" → tensileStrengthSlab rho unit = .error .keyError) := by
  refine ⟨fun rho h => ⟨_, rfl, by positivity, ?_⟩, fun r r' hr h => ⟨_, _, rfl, rfl, ?_⟩, ?_⟩
  · simp only [tensileStrengthSlab]
    rw [if_neg (by decide), if_pos trivial]; congr 1; ring
  · refine mul_lt_mul_of_pos_left (Real.rpow_lt_rpow (by positivity) ?_ (by norm_num)) (by norm_num)
    exact div_lt_div_of_pos_right h (by norm_num)
  · intro rho unit h1 h2
    simp [tensileStrengthSlab, h1, h2]

example : 0 < bergfeld 240 ∧ bergfeld 180 < bergfeld 240 := by
  have := C04_bergfeld 917 6.5 4.4 (by norm_num) (by norm_num) (by norm_num)
  exact ⟨this.1 _ (by norm_num), this.2.1 _ _ (by norm_num) (by norm_num)⟩

end Weac
