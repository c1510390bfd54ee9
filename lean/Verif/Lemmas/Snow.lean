import Verif.Lemmas.Alike
import Verif.Props.Laminate

/-!
# Layerings of the same snow
-/

namespace Weac.Spec

variable {α : Type} (thick f : α → ℝ)

theorem profile_shift (ls : List α) (top a z : ℝ) : profile thick f (top + a) ls z = profile thick f a ls (z - top) := by
  induction ls generalizing a with
  | nil => rfl
  | cons l ls ih =>
    simp only [profile]
    rw [add_assoc, ih]
    by_cases h : z ≤ top + (a + thick l)
    · rw [if_pos h, if_pos (by linarith)]
    · rw [if_neg h, if_neg (by linarith)]

theorem profile_comp (φ : ℝ → ℝ) (ls : List α) (hne : ls ≠ []) (top z : ℝ) (hz : z ≤ top + total thick ls) :
    profile thick (fun l => φ (f l)) top ls z = φ (profile thick f top ls z) := by
  induction ls generalizing top with
  | nil => exact absurd rfl hne
  | cons l ls ih =>
    simp only [profile]
    by_cases h : z ≤ top + thick l
    · rw [if_pos h, if_pos h]
    · rw [if_neg h, if_neg h]
      rw [total_cons, ← add_assoc] at hz
      refine ih (fun h0 => ?_) _ hz
      subst h0
      rw [total_nil, add_zero] at hz
      exact h hz

/-- Density at depth `z` below the surface. -/
noncomputable def density (ls : List Ply) (z : ℝ) : ℝ := profile Ply.h Ply.rho 0 ls z

/-- Two layerings of the same snow: as thick, and as dense at every depth. -/
structure SameSnow (ls ls' : List Ply) : Prop where
  thickness : total Ply.h ls' = total Ply.h ls
  density : ∀ z, 0 < z → z ≤ total Ply.h ls → density ls' z = density ls z

theorem SameSnow.symm {ls ls' : List Ply} (h : SameSnow ls ls') : SameSnow ls' ls :=
  ⟨h.thickness.symm, fun z h0 h1 => (h.density z h0 (by rw [← h.thickness]; exact h1)).symm⟩

open MeasureTheory in
/-- Sums over the layers that are integrals over the depth agree. -/
theorem SameSnow.layerSum {ls ls' : List Ply} (h : SameSnow ls ls') (hv : ValidPlies ls) (hv' : ValidPlies ls') (φ g : ℝ → ℝ)
    (hg : Continuous g) (top : ℝ) :
    layerSum Ply.h (fun l a b => φ l.rho * ∫ z in a..b, g z) top ls'
      = Spec.layerSum Ply.h (fun l a b => φ l.rho * ∫ z in a..b, g z) top ls := by
  have ht : ∀ {ls : List Ply}, ValidPlies ls → ∀ l ∈ ls, 0 ≤ l.h := fun hv l hl => (hv.2 l hl).2.le
  rw [← (integral_profile Ply.h (fun l => φ l.rho) g hg ls top (ht hv)).2,
    ← (integral_profile Ply.h (fun l => φ l.rho) g hg ls' top (ht hv')).2, h.thickness]
  refine intervalIntegral.integral_congr_ae (Filter.Eventually.of_forall fun z hz => ?_)
  rw [Set.uIoc_of_le (by linarith [total_nonneg Ply.h (ht hv)])] at hz
  have hd := h.density (z - top) (by linarith [hz.1]) (by linarith [hz.2])
  unfold Spec.density at hd
  rw [← profile_shift, ← profile_shift, add_zero] at hd
  rw [profile_comp Ply.h Ply.rho φ ls' hv'.1 top z (by rw [h.thickness]; exact hz.2),
    profile_comp Ply.h Ply.rho φ ls hv.1 top z hz.2, hd]

/-- Cutting a layer in two leaves the snow as it is. -/
theorem SameSnow.split (pre post : List Ply) (rho h1 h2 : ℝ) (p2 : 0 ≤ h2) :
    SameSnow (pre ++ ⟨rho, h1 + h2⟩ :: post) (pre ++ ⟨rho, h1⟩ :: ⟨rho, h2⟩ :: post) := by
  have key : ∀ (pre : List Ply) (top z : ℝ),
      profile Ply.h Ply.rho top (pre ++ ⟨rho, h1⟩ :: ⟨rho, h2⟩ :: post) z
        = profile Ply.h Ply.rho top (pre ++ ⟨rho, h1 + h2⟩ :: post) z := by
    intro pre
    induction pre with
    | nil =>
      intro top z
      simp only [List.nil_append, profile]
      by_cases h : z ≤ top + h1
      · rw [if_pos h, if_pos (by linarith)]
      · rw [if_neg h, add_assoc]
    | cons l ls ih =>
      intro top z
      simp only [List.cons_append, profile, ih]
  refine ⟨?_, fun z _ _ => key pre 0 z⟩
  simp only [total_append, total_cons]
  ring

theorem SameSnow.trans {a b c : List Ply} (h : SameSnow a b) (h' : SameSnow b c) : SameSnow a c :=
  ⟨h'.thickness.trans h.thickness, fun z h0 h1 =>
    (h'.density z h0 (by rw [h.thickness]; exact h1)).trans (h.density z h0 h1)⟩

end Weac.Spec

namespace Weac
open Spec

/-- The layer that `set_beam_properties` makes of a row. -/
noncomputable def Ply.layer (C0 C1 nu : ℝ) (p : Ply) : Layer :=
  ⟨p.rho, p.h, bergfeld p.rho 917 C0 C1, bergfeld p.rho 917 C0 C1 / (2 * (1 + nu)), nu⟩

theorem zip_layers (C0 C1 nu : ℝ) (ls : List Ply) :
    List.zipWith (fun l e => (⟨l.rho, l.h, e, e / (2 * (1 + nu)), nu⟩ : Layer)) ls (ls.map fun r => bergfeld r.rho 917 C0 C1)
      = ls.map (Ply.layer C0 C1 nu) := by
  induction ls with
  | nil => rfl
  | cons l ls ih =>
    rw [List.map_cons, List.zipWith_cons_cons, ih]
    rfl

theorem layers_ply (C0 C1 nu : ℝ) (ls : List Ply) : (ls.map (Ply.layer C0 C1 nu)).map Layer.ply = ls := by
  rw [List.map_map]
  exact List.map_id ls

theorem layerSum_layers (C0 C1 nu : ℝ) (F : Layer → ℝ → ℝ → ℝ) (ls : List Ply) (top : ℝ) :
    layerSum Layer.h F top (ls.map (Ply.layer C0 C1 nu)) = layerSum Ply.h (fun p => F (p.layer C0 C1 nu)) top ls := by
  induction ls generalizing top with
  | nil => rfl
  | cons l ls ih =>
    rw [List.map_cons]
    simp only [layerSum]
    rw [ih]
    rfl

theorem sum_layerSum (f : Ply → ℝ) (ls : List Ply) (top : ℝ) : (ls.map f).sum = layerSum Ply.h (fun l _ _ => f l) top ls := by
  induction ls generalizing top with
  | nil => rfl
  | cons l ls ih =>
    rw [List.map_cons, List.sum_cons, ih (top + l.h)]
    rfl

section
variable {ls ls' : List Ply} (h : SameSnow ls ls') (hv : ValidPlies ls) (hv' : ValidPlies ls')
include h hv hv'

theorem SameSnow.const (φ : ℝ → ℝ) (top : ℝ) :
    layerSum Ply.h (fun l a b => φ l.rho * (b - a)) top ls' = layerSum Ply.h (fun l a b => φ l.rho * (b - a)) top ls := by
  have := h.layerSum hv hv' φ (fun _ => 1) continuous_const top
  simpa using this

theorem SameSnow.linear (φ : ℝ → ℝ) (top : ℝ) :
    layerSum Ply.h (fun l a b => φ l.rho * (b ^ 2 - a ^ 2)) top ls'
      = layerSum Ply.h (fun l a b => φ l.rho * (b ^ 2 - a ^ 2)) top ls := by
  have := h.layerSum hv hv' (fun r => 2 * φ r) (fun z => z) continuous_id top
  simp only [integral_id] at this
  refine Eq.trans ?_ (this.trans ?_) <;>
    (congr 1; funext l a b; ring)

theorem SameSnow.square (φ : ℝ → ℝ) (top : ℝ) :
    layerSum Ply.h (fun l a b => φ l.rho * (b ^ 3 - a ^ 3)) top ls'
      = layerSum Ply.h (fun l a b => φ l.rho * (b ^ 3 - a ^ 3)) top ls := by
  have := h.layerSum hv hv' (fun r => 3 * φ r) (fun z => z ^ 2) (continuous_pow 2) top
  simp only [integral_pow] at this
  refine Eq.trans ?_ (this.trans ?_) <;>
    (congr 1; funext l a b; push_cast; ring)

/-- `calc_center_of_gravity` of the same snow. -/
theorem SameSnow.cog : calcCenterOfGravity ls' = calcCenterOfGravity ls := by
  have e1 : ∀ top : ℝ, ∀ l : List Ply, layerSum Ply.h (fun l _ _ => l.rho * l.h) top l
      = layerSum Ply.h (fun l a b => l.rho * (b - a)) top l := fun top l =>
    layerSum_congr Ply.h l top fun p _ a b e => by rw [e]; ring
  have e2 : ∀ top : ℝ, ∀ l : List Ply, layerSum Ply.h (fun l a b => l.rho * l.h * ((a + b) / 2)) top l
      = layerSum Ply.h (fun l a b => l.rho / 2 * (b ^ 2 - a ^ 2)) top l := fun top l =>
    layerSum_congr Ply.h l top fun p _ a b e => by rw [e]; ring
  refine Prod.ext ?_ ?_
  · rw [cog_fst, cog_fst, h.thickness]
  · rw [cog_num, cog_num, e1, e1, e2, e2, h.thickness, SameSnow.const h hv hv' (fun r => r),
      SameSnow.linear h hv hv' (fun r => r / 2)]

/-- `calc_vertical_bc_center_of_gravity` of the same snow. -/
theorem SameSnow.wedge (phi : ℝ) : calcVerticalBcCenterOfGravity ls' phi = calcVerticalBcCenterOfGravity ls phi := by
  have ht : ∀ {ls : List Ply}, ValidPlies ls → ∀ l ∈ ls, 0 ≤ l.h := fun hv l hl => (hv.2 l hl).2.le
  by_cases h0 : deg2rad phi = 0
  · rw [(C03_wedge_partial ls hv phi).1 h0, (C03_wedge_partial ls' hv' phi).1 h0]
  by_cases h1 : Real.tan (deg2rad phi) = 0
  · have hz : ∀ (top : ℝ) (l : List Ply), layerSum Ply.h (fun _ _ _ => (0 : ℝ)) top l = 0 := fun top l => by
      rw [← sum_layerSum (fun _ => (0 : ℝ))]; simp
    rw [vertical_eq ls phi h0, vertical_eq ls' phi h0]
    simp only [h1, mul_zero, zero_mul, hz, h.thickness]
  · obtain ⟨a1, -, a2, a3⟩ := (C03_wedge_partial ls hv phi).2 h1
    obtain ⟨b1, -, b2, b3⟩ := (C03_wedge_partial ls' hv' phi).2 h1
    have em : wedgeMass ls' (deg2rad phi) = wedgeMass ls (deg2rad phi) := by
      rw [wedgeMass_eq _ _ (ht hv), wedgeMass_eq _ _ (ht hv'), h.thickness]
      have l1 := SameSnow.const h hv hv' (fun r => total Ply.h ls / 2 * Real.tan (deg2rad phi) * (1e-12 * r)) (-total Ply.h ls / 2)
      have l2 := SameSnow.linear h hv hv' (fun r => -1 / 2 * Real.tan (deg2rad phi) * (1e-12 * r)) (-total Ply.h ls / 2)
      have := congrArg₂ (· + ·) l1 l2
      simp only [← layerSum_add] at this
      refine Eq.trans ?_ (this.trans ?_)
      all_goals
        refine layerSum_congr Ply.h _ _ fun p _ a b e => ?_
        rw [e]
        ring
    have ez : wedgeMomentZ ls' (deg2rad phi) = wedgeMomentZ ls (deg2rad phi) := by
      rw [wedgeMomentZ_eq _ _ (ht hv), wedgeMomentZ_eq _ _ (ht hv'), h.thickness]
      have l1 := SameSnow.linear h hv hv' (fun r => total Ply.h ls / 4 * Real.tan (deg2rad phi) * (1e-12 * r)) (-total Ply.h ls / 2)
      have l2 := SameSnow.square h hv hv' (fun r => -1 / 3 * Real.tan (deg2rad phi) * (1e-12 * r)) (-total Ply.h ls / 2)
      have := congrArg₂ (· + ·) l1 l2
      simp only [← layerSum_add] at this
      refine Eq.trans ?_ (this.trans ?_)
      all_goals
        refine layerSum_congr Ply.h _ _ fun p _ a b e => ?_
        ring
    refine Prod.ext ?_ (Prod.ext ?_ ?_)
    · rw [a3, b3, em, ez, h.thickness]
    · rw [a2, b2, em, ez]
    · rw [a1, b1, em]

theorem SameSnow.interchangeable (C0 C1 nu : ℝ) :
    Interchangeable (ls.map (Ply.layer C0 C1 nu)) (ls'.map (Ply.layer C0 C1 nu)) := by
  constructor
  · rw [List.map_map, List.map_map]
    have := SameSnow.const h hv hv' (fun r => r) 0
    rw [sum_layerSum _ ls 0, sum_layerSum _ ls' 0]
    refine Eq.trans ?_ (this.trans ?_)
    all_goals
      refine layerSum_congr Ply.h _ _ fun p _ a b e => ?_
      rw [e]
      simp only [Function.comp, Ply.layer]
      ring
  · intro phi
    rw [layers_ply, layers_ply]
    exact SameSnow.wedge h hv hv' phi

/-- `calc_laminate_stiffness_matrix` for the same snow. -/
theorem SameSnow.laminate (C0 C1 nu : ℝ) {s s' : Self}
    (ht : Twin (ls.map (Ply.layer C0 C1 nu)) (ls'.map (Ply.layer C0 C1 nu)) s s') :
    Twin (ls.map (Ply.layer C0 C1 nu)) (ls'.map (Ply.layer C0 C1 nu)) (calcLaminateStiffnessMatrix s)
      (calcLaminateStiffnessMatrix s') := by
  obtain ⟨h1, rfl⟩ := ht
  refine ⟨h1, ?_⟩
  rw [laminate_eq, laminate_eq]
  simp only [h1, layerSum_layers]
  have eA := SameSnow.const h hv hv' (fun r => bergfeld r 917 C0 C1 / (1 - nu ^ 2)) (-s.h / 2)
  have eB := SameSnow.linear h hv hv' (fun r => 1 / 2 * bergfeld r 917 C0 C1 / (1 - nu ^ 2)) (-s.h / 2)
  have eD := SameSnow.square h hv hv' (fun r => 1 / 3 * bergfeld r 917 C0 C1 / (1 - nu ^ 2)) (-s.h / 2)
  have eG := SameSnow.const h hv hv' (fun r => s.k * (bergfeld r 917 C0 C1 / (2 * (1 + nu)))) (-s.h / 2)
  simp only [Ply.layer]
  rw [eA, eB, eD, eG]

theorem SameSnow.fundamental (eig : EigSolver) (C0 C1 nu : ℝ) {s s' : Self}
    (ht : Twin (ls.map (Ply.layer C0 C1 nu)) (ls'.map (Ply.layer C0 C1 nu)) s s') :
    Twin (ls.map (Ply.layer C0 C1 nu)) (ls'.map (Ply.layer C0 C1 nu)) (calcFundamentalSystem eig s)
      (calcFundamentalSystem eig s') := by
  refine twin_eig eig (SameSnow.laminate h hv hv' C0 C1 nu ?_)
  obtain ⟨h1, rfl⟩ := ht
  exact ⟨h1, rfl⟩

/-- `set_foundation_properties` for the same snow. -/
theorem SameSnow.foundation (eig : EigSolver) (C0 C1 nu t E nuw : ℝ) (update : Bool) {s s' : Self}
    (ht : Twin (ls.map (Ply.layer C0 C1 nu)) (ls'.map (Ply.layer C0 C1 nu)) s s') :
    Twin (ls.map (Ply.layer C0 C1 nu)) (ls'.map (Ply.layer C0 C1 nu)) (setFoundationProperties eig t E nuw update s)
      (setFoundationProperties eig t E nuw update s') := by
  obtain ⟨h1, rfl⟩ := ht
  unfold setFoundationProperties
  cases update with
  | false => exact ⟨h1, rfl⟩
  | true => exact SameSnow.fundamental h hv hv' eig C0 C1 nu ⟨h1, rfl⟩

/-- `set_beam_properties` for the same snow. -/
theorem SameSnow.beam (eig : EigSolver) (C0 C1 nu : ℝ) (update : Bool) (s : Self) :
    (setBeamProperties eig (.rows ls) C0 C1 nu update s).1 = .ok () ∧
    (setBeamProperties eig (.rows ls') C0 C1 nu update s).1 = .ok () ∧
    Twin (ls.map (Ply.layer C0 C1 nu)) (ls'.map (Ply.layer C0 C1 nu)) (setBeamProperties eig (.rows ls) C0 C1 nu update s).2
      (setBeamProperties eig (.rows ls') C0 C1 nu update s).2 := by
  have e : ∀ ls : List Ply, ls ≠ [] → setBeamProperties eig (.rows ls) C0 C1 nu update s
      = (.ok (), setSlab eig ls (ls.map fun r => bergfeld r.rho 917 C0 C1) nu update s) := by
    intro ls hne
    cases ls with
    | nil => exact absurd rfl hne
    | cons l ls => rfl
  rw [e ls hv.1, e ls' hv'.1]
  refine ⟨rfl, rfl, ?_⟩
  simp only
  unfold setSlab
  simp only [zip_layers, SameSnow.cog h hv hv']
  cases update with
  | false => exact ⟨rfl, rfl⟩
  | true => exact SameSnow.fundamental h hv hv' eig C0 C1 nu ⟨rfl, rfl⟩

/-- `Layered.__init__` for the same snow. -/
theorem SameSnow.layered (eig : EigSolver) (system : String) (touchdown : Bool) :
    ResRel (Twin (ls.map (Ply.layer 6.5 4.4 0.25)) (ls'.map (Ply.layer 6.5 4.4 0.25)))
      (layeredInit eig system (.rows ls) touchdown) (layeredInit eig system (.rows ls') touchdown) := by
  have e : ∀ ls : List Ply, ls ≠ [] → layeredInit eig system (.rows ls) touchdown
      = ((setBeamProperties eig (.rows ls) 6.5 4.4 0.25 false (Self.init system touchdown true)).1 >>= fun _ =>
        .ok (calcFundamentalSystem eig (setFoundationProperties eig 30 0.25 0.25 false
          (setBeamProperties eig (.rows ls) 6.5 4.4 0.25 false (Self.init system touchdown true)).2))) := by
    intro ls hne
    cases ls with
    | nil => exact absurd rfl hne
    | cons l ls => rfl
  obtain ⟨b1, b2, b3⟩ := SameSnow.beam h hv hv' eig 6.5 4.4 0.25 false (Self.init system touchdown true)
  rw [e ls hv.1, e ls' hv'.1, b1, b2]
  exact SameSnow.fundamental h hv hv' eig _ _ _ (SameSnow.foundation h hv hv' eig _ _ _ _ _ _ _ b3)

end

end Weac
