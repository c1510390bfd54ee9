import Mathlib.MeasureTheory.Integral.IntervalIntegral.FundThmCalculus
import Mathlib.Analysis.SpecialFunctions.Integrals.Basic
import Mathlib.Tactic.Ring
import Mathlib.Tactic.Linarith
import Mathlib.Tactic.FieldSimp
import Verif.Spec.Layering

namespace Weac.Spec
open MeasureTheory intervalIntegral

variable {α : Type} (thick f : α → ℝ)

/-- Layer-wise sum of `F layer zTop zBottom`. -/
def layerSum (F : α → ℝ → ℝ → ℝ) : ℝ → List α → ℝ
  | _, [] => 0
  | top, l :: ls => F l top (top + thick l) + layerSum F (top + thick l) ls

@[simp] theorem total_nil : total thick ([] : List α) = 0 := rfl
@[simp] theorem total_cons (l : α) (ls : List α) :
    total thick (l :: ls) = thick l + total thick ls := by simp [total]
@[simp] theorem total_append (ls ls' : List α) :
    total thick (ls ++ ls') = total thick ls + total thick ls' := by simp [total]

theorem total_nonneg {ls : List α} (h : ∀ l ∈ ls, 0 ≤ thick l) : 0 ≤ total thick ls := by
  induction ls with
  | nil => simp
  | cons l ls ih =>
    have := ih fun x hx => h x (List.mem_cons_of_mem _ hx)
    have := h l (by simp)
    simp; linarith

theorem total_pos {ls : List α} (hne : ls ≠ []) (h : ∀ l ∈ ls, 0 < thick l) : 0 < total thick ls := by
  cases ls with
  | nil => simp at hne
  | cons l ls =>
    have h1 := h l (by simp)
    have := total_nonneg thick (ls := ls) fun x hx => (h x (List.mem_cons_of_mem _ hx)).le
    simp; linarith

theorem integral_profile (g : ℝ → ℝ) (hg : Continuous g) :
    ∀ (ls : List α) (top : ℝ), (∀ l ∈ ls, 0 ≤ thick l) →
      IntervalIntegrable (fun z => profile thick f top ls z * g z) volume top (top + total thick ls) ∧
      ∫ z in top..(top + total thick ls), profile thick f top ls z * g z
        = layerSum thick (fun l a b => f l * ∫ z in a..b, g z) top ls := by
  intro ls
  induction ls with
  | nil => intro top _; simp [layerSum]
  | cons l ls ih =>
    intro top h
    have hl : 0 ≤ thick l := h l (by simp)
    have htl := fun x hx => h x (List.mem_cons_of_mem l hx)
    have hT := total_nonneg thick htl
    obtain ⟨hi, he⟩ := ih (top + thick l) htl
    rw [total_cons, ← add_assoc]
    have e1 : Set.EqOn (fun z => profile thick f top (l :: ls) z * g z) (fun z => f l * g z)
        (Set.uIoc top (top + thick l)) := by
      intro z hz
      rw [Set.uIoc_of_le (by linarith)] at hz
      simp [profile, hz.2]
    have e2 : Set.EqOn (fun z => profile thick f top (l :: ls) z * g z)
        (fun z => profile thick f (top + thick l) ls z * g z)
        (Set.uIoc (top + thick l) (top + thick l + total thick ls)) := by
      intro z hz
      rw [Set.uIoc_of_le (by linarith)] at hz
      simp [profile, not_le.mpr hz.1]
    have i1 : IntervalIntegrable (fun z => profile thick f top (l :: ls) z * g z) volume
        top (top + thick l) :=
      (IntervalIntegrable.congr e1.symm ((continuous_const.mul hg).intervalIntegrable _ _))
    have i2 : IntervalIntegrable (fun z => profile thick f top (l :: ls) z * g z) volume
        (top + thick l) (top + thick l + total thick ls) :=
      IntervalIntegrable.congr e2.symm hi
    refine ⟨i1.trans i2, ?_⟩
    rw [← integral_add_adjacent_intervals i1 i2, layerSum, ← he]
    congr 1
    · rw [integral_congr_ae (Filter.Eventually.of_forall fun z hz => e1 hz), intervalIntegral.integral_const_mul]
    · exact integral_congr_ae (Filter.Eventually.of_forall fun z hz => e2 hz)

theorem slabIntegral_eq (g : ℝ → ℝ) (hg : Continuous g) (ls : List α)
    (h : ∀ l ∈ ls, 0 ≤ thick l) :
    slabIntegral thick f ls g
      = layerSum thick (fun l a b => f l * ∫ z in a..b, g z) (-(total thick ls) / 2) ls := by
  have := (integral_profile thick f g hg ls (-(total thick ls) / 2) h).2
  rw [← this, slabIntegral]
  congr 1; ring

theorem layerSum_congr {F F' : α → ℝ → ℝ → ℝ} (ls : List α) (top : ℝ)
    (h : ∀ l ∈ ls, ∀ a b, b = a + thick l → F l a b = F' l a b) :
    layerSum thick F top ls = layerSum thick F' top ls := by
  induction ls generalizing top with
  | nil => rfl
  | cons l ls ih =>
    simp only [layerSum]
    rw [h l (by simp) _ _ rfl, ih _ fun x hx => h x (List.mem_cons_of_mem _ hx)]

theorem layerSum_append (F : α → ℝ → ℝ → ℝ) (ls ls' : List α) (top : ℝ) :
    layerSum thick F top (ls ++ ls')
      = layerSum thick F top ls + layerSum thick F (top + total thick ls) ls' := by
  induction ls generalizing top with
  | nil => simp [layerSum]
  | cons l ls ih => simp [layerSum, ih, add_assoc]

theorem layerSum_add (F G : α → ℝ → ℝ → ℝ) (ls : List α) (top : ℝ) :
    layerSum thick (fun l a b => F l a b + G l a b) top ls
      = layerSum thick F top ls + layerSum thick G top ls := by
  induction ls generalizing top with
  | nil => simp [layerSum]
  | cons l ls ih => simp only [layerSum, ih]; ring

theorem layerSum_mul (c : ℝ) (F : α → ℝ → ℝ → ℝ) (ls : List α) (top : ℝ) :
    layerSum thick (fun l a b => c * F l a b) top ls = c * layerSum thick F top ls := by
  induction ls generalizing top with
  | nil => simp [layerSum]
  | cons l ls ih => simp only [layerSum, ih]; ring

/-- Turning the slab upside down. -/
theorem layerSum_reverse (F : α → ℝ → ℝ → ℝ) (ls : List α) (top : ℝ) :
    layerSum thick F top ls.reverse
      = layerSum thick (fun l a b => F l (-b) (-a)) (-(top + total thick ls)) ls := by
  induction ls generalizing top with
  | nil => simp [layerSum]
  | cons l ls ih =>
    have ht : total thick ls.reverse = total thick ls := by simp [total, List.sum_reverse]
    rw [List.reverse_cons, layerSum_append, ih]
    simp only [layerSum, ht, total_cons, add_zero]
    have e1 : -(top + (thick l + total thick ls)) + thick l = -(top + total thick ls) := by ring
    have e2 : -(-(top + (thick l + total thick ls)) + thick l) = top + total thick ls := by ring
    have e3 : - -(top + (thick l + total thick ls)) = top + total thick ls + thick l := by ring
    rw [e1, neg_neg, e3]; ring

theorem layerSum_pos {F : α → ℝ → ℝ → ℝ} (ls : List α) (top : ℝ) (hne : ls ≠ [])
    (h : ∀ l ∈ ls, ∀ a b, b = a + thick l → 0 < F l a b) : 0 < layerSum thick F top ls := by
  induction ls generalizing top with
  | nil => simp at hne
  | cons l ls ih =>
    simp only [layerSum]
    have h1 := h l (by simp) top _ rfl
    by_cases hn : ls = []
    · subst hn; simpa [layerSum] using h1
    · have := ih (top + thick l) hn fun x hx => h x (List.mem_cons_of_mem _ hx)
      linarith

theorem layerSum_nonneg {F : α → ℝ → ℝ → ℝ} (ls : List α) (top : ℝ)
    (h : ∀ l ∈ ls, ∀ a b, b = a + thick l → 0 ≤ F l a b) : 0 ≤ layerSum thick F top ls := by
  induction ls generalizing top with
  | nil => simp [layerSum]
  | cons l ls ih =>
    simp only [layerSum]
    have h1 := h l (by simp) top _ rfl
    have := ih (top + thick l) fun x hx => h x (List.mem_cons_of_mem _ hx)
    linarith

/-- The index-based sums of the code are layer-wise sums. -/
theorem sum_range_eq_layerSum (F : α → ℝ → ℝ → ℝ) (d : α) (ls : List α) (top : ℝ) :
    ((List.range ls.length).map fun i =>
        F (ls.getD i d) (top + ((ls.map thick).take i).sum)
          (top + ((ls.map thick).take (i + 1)).sum)).sum
      = layerSum thick F top ls := by
  induction ls generalizing top with
  | nil => simp [layerSum]
  | cons l ls ih =>
    rw [List.length_cons, List.range_succ_eq_map]
    simp only [List.map_cons, List.map_map, List.sum_cons, layerSum]
    rw [← ih (top + thick l)]
    congr 1
    · simp
    · congr 1
      apply List.map_congr_left
      intro i _
      simp [add_assoc]

end Weac.Spec

namespace Weac.Spec
variable {α : Type} (thick : α → ℝ)

theorem layerSum_pos_of_bounds {F : α → ℝ → ℝ → ℝ} (lo hi : ℝ) (ls : List α)
    (hth : ∀ l ∈ ls, 0 ≤ thick l) (hne : ls ≠ [])
    (h : ∀ l ∈ ls, ∀ a b, b = a + thick l → lo ≤ a → b ≤ hi → 0 < F l a b) :
    ∀ top, lo ≤ top → top + total thick ls ≤ hi → 0 < layerSum thick F top ls := by
  induction ls with
  | nil => simp at hne
  | cons l ls ih =>
    intro top h1 h2
    have hl := hth l (by simp)
    have htl : ∀ x ∈ ls, 0 ≤ thick x := fun x hx => hth x (List.mem_cons_of_mem _ hx)
    have hT := total_nonneg thick htl
    rw [total_cons] at h2
    have hF := h l (by simp) top _ rfl h1 (by linarith)
    simp only [layerSum]
    by_cases hn : ls = []
    · subst hn; simpa [layerSum] using hF
    · have := ih htl hn (fun x hx => h x (List.mem_cons_of_mem _ hx)) (top + thick l)
        (by linarith) (by linarith)
      linarith

theorem layerSum_congr_of_bounds {F F' : α → ℝ → ℝ → ℝ} (lo hi : ℝ) (ls : List α)
    (hth : ∀ l ∈ ls, 0 ≤ thick l)
    (h : ∀ l ∈ ls, ∀ a b, b = a + thick l → lo ≤ a → b ≤ hi → F l a b = F' l a b) :
    ∀ top, lo ≤ top → top + total thick ls ≤ hi →
      layerSum thick F top ls = layerSum thick F' top ls := by
  induction ls with
  | nil => intros; rfl
  | cons l ls ih =>
    intro top h1 h2
    have hl := hth l (by simp)
    have htl : ∀ x ∈ ls, 0 ≤ thick x := fun x hx => hth x (List.mem_cons_of_mem _ hx)
    have hT := total_nonneg thick htl
    rw [total_cons] at h2
    simp only [layerSum]
    rw [h l (by simp) top _ rfl h1 (by linarith),
      ih htl (fun x hx => h x (List.mem_cons_of_mem _ hx)) (top + thick l)
        (by linarith) (by linarith)]

end Weac.Spec
