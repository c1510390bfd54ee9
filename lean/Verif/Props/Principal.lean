import Verif.Props.SlabStress

/-!
# C36: principal stresses
-/

namespace Weac

/-! ## Specification -/

/-- `r` is an eigenvalue of the plane stress tensor with normal components
`sx`, `sz` and shear component `t`. -/
def Spec.PrincipalStress (sx sz t r : ℝ) : Prop := r ^ 2 - (sx + sz) * r + (sx * sz - t ^ 2) = 0

/-- The larger one. -/
def Spec.MaxPrincipal (sx sz t r : ℝ) : Prop :=
  PrincipalStress sx sz t r ∧ ∀ q, PrincipalStress sx sz t q → q ≤ r

/-- The smaller one. -/
def Spec.MinPrincipal (sx sz t r : ℝ) : Prop :=
  PrincipalStress sx sz t r ∧ ∀ q, PrincipalStress sx sz t q → r ≤ q

open Spec

/-! ## Algebra -/

/-- The closed form used by the code. -/
noncomputable def mohr (m x z t : ℝ) : ℝ := (x + z) / 2 + m * Real.sqrt ((x - z) ^ 2 + 4 * t ^ 2) / 2

theorem mohr_root (m : ℝ) (hm : m ^ 2 = 1) (x z t : ℝ) : PrincipalStress x z t (mohr m x z t) := by
  have h : Real.sqrt ((x - z) ^ 2 + 4 * t ^ 2) ^ 2 = (x - z) ^ 2 + 4 * t ^ 2 := Real.sq_sqrt (by positivity)
  unfold PrincipalStress mohr
  set r := Real.sqrt ((x - z) ^ 2 + 4 * t ^ 2)
  have : (m * r) ^ 2 = (x - z) ^ 2 + 4 * t ^ 2 := by rw [mul_pow, hm, h, one_mul]
  linear_combination (1 / 4) * this

theorem mohr_max (x z t : ℝ) : MaxPrincipal x z t (mohr 1 x z t) := by
  refine ⟨mohr_root 1 (by norm_num) x z t, fun q hq => ?_⟩
  unfold PrincipalStress at hq
  have h : (2 * q - (x + z)) ^ 2 = (x - z) ^ 2 + 4 * t ^ 2 := by linear_combination 4 * hq
  have := Real.le_sqrt_of_sq_le h.le
  unfold mohr
  linarith

theorem mohr_min (x z t : ℝ) : MinPrincipal x z t (mohr (-1) x z t) := by
  refine ⟨mohr_root (-1) (by norm_num) x z t, fun q hq => ?_⟩
  unfold PrincipalStress at hq
  have h : (-(2 * q - (x + z))) ^ 2 = (x - z) ^ 2 + 4 * t ^ 2 := by linear_combination 4 * hq
  have := Real.le_sqrt_of_sq_le h.le
  unfold mohr
  linarith

/-- Principal stresses bound both normal stresses. -/
theorem MaxPrincipal.bound {x z t r : ℝ} (h : MaxPrincipal x z t r) : x ≤ r ∧ z ≤ r := by
  have h1 := h.2 _ (mohr_max x z t).1
  have h2 : |x - z| ≤ Real.sqrt ((x - z) ^ 2 + 4 * t ^ 2) := by
    apply Real.le_sqrt_of_sq_le
    rw [sq_abs]; nlinarith [sq_nonneg t]
  have := abs_le.mp h2
  unfold mohr at h1
  constructor <;> linarith

theorem MinPrincipal.bound {x z t r : ℝ} (h : MinPrincipal x z t r) : r ≤ x ∧ r ≤ z := by
  have h1 := h.2 _ (mohr_min x z t).1
  have h2 : |x - z| ≤ Real.sqrt ((x - z) ^ 2 + 4 * t ^ 2) := by
    apply Real.le_sqrt_of_sq_le
    rw [sq_abs]; nlinarith [sq_nonneg t]
  have := abs_le.mp h2
  unfold mohr at h1
  constructor <;> linarith

theorem mohr_smul (m c x z t : ℝ) (hc : 0 ≤ c) : mohr m (c * x) (c * z) (c * t) = c * mohr m x z t := by
  unfold mohr
  have : (c * x - c * z) ^ 2 + 4 * (c * t) ^ 2 = c ^ 2 * ((x - z) ^ 2 + 4 * t ^ 2) := by ring
  rw [this, Real.sqrt_mul (by positivity), Real.sqrt_sq hc]
  ring

/-! ## Stress lists and units -/

theorem stress_units (s : Self) (Z : Vec6) (phi dz : ℝ) :
    ∃ X T W : List ℝ, ∀ unit c, convertStress unit = .ok c →
      fSxx s Z phi dz unit = .ok (X.map (c * ·)) ∧ fTxz s Z phi dz unit = .ok (T.map (c * ·)) ∧
      fSzz s Z phi dz unit = .ok (W.map (c * ·)) := by
  have hX : ∃ X : List ℝ, ∀ unit c, convertStress unit = .ok c → fSxx s Z phi dz unit = .ok (X.map (c * ·)) :=
    ⟨_, fun unit c hc => by unfold fSxx; rw [hc]; rfl⟩
  have hT : ∃ X : List ℝ, ∀ unit c, convertStress unit = .ok c → fTxz s Z phi dz unit = .ok (X.map (c * ·)) :=
    ⟨_, fun unit c hc => by unfold fTxz; rw [hc]; rfl⟩
  have hW : ∃ X : List ℝ, ∀ unit c, convertStress unit = .ok c → fSzz s Z phi dz unit = .ok (X.map (c * ·)) :=
    ⟨_, fun unit c hc => by unfold fSzz; rw [hc]; rfl⟩
  obtain ⟨X, hX⟩ := hX
  obtain ⟨T, hT⟩ := hT
  obtain ⟨W, hW⟩ := hW
  exact ⟨X, T, W, fun unit c hc => ⟨hX unit c hc, hT unit c hc, hW unit c hc⟩⟩

theorem principalSign_max : principalSign "max" = .ok 1 := by unfold principalSign; rw [if_pos rfl]
theorem principalSign_min : principalSign "min" = .ok (-1) := by
  unfold principalSign; rw [if_neg (by decide), if_pos rfl]

theorem principalSlab_plain (s : Self) (Z : Vec6) (phi dz : ℝ) (unit val : String) (m : ℝ) (hm : principalSign val = .ok m)
    {x t w : List ℝ} (hx : fSxx s Z phi dz unit = .ok x) (ht : fTxz s Z phi dz unit = .ok t)
    (hw : fSzz s Z phi dz unit = .ok w) :
    principalSlab s Z phi dz unit val false
      = .ok (List.zipWith (fun x (y : ℝ × ℝ) => mohr m x y.2 y.1) x (List.zip t w)) := by
  unfold principalSlab
  rw [hm, hx, ht, hw]
  rfl

/-- The slab values are the larger/smaller eigenvalue of the reported stresses
at every mesh point. -/
theorem C36_slab (s : Self) (Z : Vec6) (phi dz : ℝ) (unit : String) (hu : unit = "kPa" ∨ unit = "MPa") :
    ∃ x t w P Q : List ℝ, fSxx s Z phi dz unit = .ok x ∧ fTxz s Z phi dz unit = .ok t ∧ fSzz s Z phi dz unit = .ok w ∧
      principalSlab s Z phi dz unit "max" false = .ok P ∧ principalSlab s Z phi dz unit "min" false = .ok Q ∧
      (∀ y ∈ List.zip x (List.zip t (List.zip w P)), MaxPrincipal y.1 y.2.2.1 y.2.1 y.2.2.2 ∧ y.1 ≤ y.2.2.2 ∧ y.2.2.1 ≤ y.2.2.2) ∧
      (∀ y ∈ List.zip x (List.zip t (List.zip w Q)), MinPrincipal y.1 y.2.2.1 y.2.1 y.2.2.2 ∧ y.2.2.2 ≤ y.1 ∧ y.2.2.2 ≤ y.2.2.1) ∧
      (t.length = x.length → w.length = x.length → P.length = x.length ∧ Q.length = x.length) := by
  obtain ⟨c, hc, -⟩ := convertStress_dom hu
  obtain ⟨X, T, W, h⟩ := stress_units s Z phi dz
  obtain ⟨hx, ht, hw⟩ := h unit c hc
  refine ⟨_, _, _, _, _, hx, ht, hw, principalSlab_plain s Z phi dz unit _ 1 principalSign_max hx ht hw,
    principalSlab_plain s Z phi dz unit _ (-1) principalSign_min hx ht hw, ?_, ?_, ?_⟩
  · intro y hy
    obtain ⟨i, hi, rfl⟩ := List.getElem_of_mem hy
    simp only [List.getElem_zip, List.getElem_zipWith]
    have := mohr_max ((X.map (c * ·))[i]'(by simp at hi ⊢; omega)) ((W.map (c * ·))[i]'(by simp at hi ⊢; omega))
      ((T.map (c * ·))[i]'(by simp at hi ⊢; omega))
    exact ⟨this, MaxPrincipal.bound this⟩
  · intro y hy
    obtain ⟨i, hi, rfl⟩ := List.getElem_of_mem hy
    simp only [List.getElem_zip, List.getElem_zipWith]
    have := mohr_min ((X.map (c * ·))[i]'(by simp at hi ⊢; omega)) ((W.map (c * ·))[i]'(by simp at hi ⊢; omega))
      ((T.map (c * ·))[i]'(by simp at hi ⊢; omega))
    exact ⟨this, MinPrincipal.bound this⟩
  · intro h1 h2
    constructor <;> simp at h1 h2 ⊢ <;> omega

/-- For a well-formed slab all lists have one entry per mesh point. -/
theorem C36_lengths (eig : EigSolver) (s : Self) (hs : Ready eig s) (dz : ℝ) (hdz : 0 < dz) (phi : ℝ) (Z : Vec6)
    (unit : String) (hu : unit = "kPa" ∨ unit = "MPa") (x t w : List ℝ) (hx : fSxx s Z phi dz unit = .ok x)
    (ht : fTxz s Z phi dz unit = .ok t) (hw : fSzz s Z phi dz unit = .ok w) :
    x.length = (getZmesh s dz).length ∧ t.length = (getZmesh s dz).length ∧ w.length = (getZmesh s dz).length := by
  obtain ⟨c, hc, hc0, -⟩ := convertStress_dom hu
  have hr := hs.stiff.regular
  obtain ⟨S, R, h1, h2, -⟩ := C35_axial_force_partial eig s hs dz hdz phi Z unit c hc
  obtain ⟨T, h3, h4, -⟩ := C34_surfaces_partial eig s hs dz hdz phi Z unit c hc
  obtain ⟨W, h5, h6, -⟩ := C41_transverse_stress_partial eig s hs dz hdz phi Z _ _
    ((C09_dzdx_iff_equilibrium s hr Z _ phi).mp rfl) (equil_second s hr _) unit c hc hc0.le
  rw [hx] at h1; rw [ht] at h3; rw [hw] at h5
  injection h1 with h1; injection h3 with h3; injection h5 with h5
  subst h1; subst h3; subst h5
  exact ⟨h2, h4, h6⟩

/-- Invalid requests raise `ValueError`. -/
theorem C36_errors (s : Self) (Z : Vec6) (phi dz sc : ℝ) (unit val : String) (n : Bool) :
    (val ≠ "max" → val ≠ "min" → principalSlab s Z phi dz unit val n = .error .valueError ∧
      principalWeak s Z sc unit val n = .error .valueError) ∧
    (unit = "kPa" ∨ unit = "MPa" → principalSlab s Z phi dz unit "min" true = .error .valueError ∧
      principalWeak s Z sc unit "max" true = .error .valueError) := by
  constructor
  · intro h1 h2
    have hm : principalSign val = .error .valueError := by unfold principalSign; rw [if_neg h1, if_neg h2]
    unfold principalSlab principalWeak
    rw [hm]
    exact ⟨rfl, rfl⟩
  · intro hu
    obtain ⟨c, hc, -⟩ := convertStress_dom hu
    obtain ⟨X, T, W, h⟩ := stress_units s Z phi dz
    obtain ⟨hx, ht, hw⟩ := h unit c hc
    constructor
    · unfold principalSlab
      rw [principalSign_min, hx, ht, hw]
      rfl
    · unfold principalWeak fsigU ftauU
      rw [principalSign_max, hc]
      rfl

/-- Normalised slab values do not depend on the unit. -/
theorem C36_slab_unit_independent (s : Self) (Z : Vec6) (phi dz : ℝ) :
    principalSlab s Z phi dz "kPa" "max" true = principalSlab s Z phi dz "MPa" "max" true ∧
    ∃ P, principalSlab s Z phi dz "kPa" "max" true = .ok P := by
  obtain ⟨X, T, W, h⟩ := stress_units s Z phi dz
  have c1 : convertStress "kPa" = .ok 1e3 := by unfold convertStress; rw [if_pos rfl]
  have c2 : convertStress "MPa" = .ok 1 := by unfold convertStress; rw [if_neg (by decide), if_pos rfl]
  have key : ∀ unit c d, convertStress unit = .ok c → (∀ rho, tensileStrengthSlab rho unit = .ok (d * 240 * (rho / 917) ^ (2.44 : ℝ))) →
      principalSlab s Z phi dz unit "max" true = .ok (List.zipWith (fun a b => a / b)
        (List.zipWith (fun x (y : ℝ × ℝ) => mohr 1 x y.2 y.1) (X.map (c * ·)) (List.zip (T.map (c * ·)) (W.map (c * ·))))
        ((getZmesh s dz).map fun p => d * 240 * (p.rho / 917) ^ (2.44 : ℝ))) := by
    intro unit c d hc hd
    obtain ⟨hx, ht, hw⟩ := h unit c hc
    have hmap : ((getZmesh s dz).mapM fun p => tensileStrengthSlab p.rho unit)
        = .ok ((getZmesh s dz).map fun p => d * 240 * (p.rho / 917) ^ (2.44 : ℝ)) :=
      mapM_ok _ fun p _ => hd p.rho
    unfold principalSlab
    rw [principalSign_max, hx, ht, hw]
    show (((getZmesh s dz).mapM fun p => tensileStrengthSlab p.rho unit) >>= _) = _
    rw [hmap]
    rfl
  have k1 := key "kPa" 1e3 1 c1 (fun rho => by unfold tensileStrengthSlab; rw [if_pos rfl])
  have k2 := key "MPa" 1 1e-3 c2 (fun rho => by unfold tensileStrengthSlab; rw [if_neg (by decide), if_pos rfl])
  refine ⟨?_, _, k1⟩
  rw [k1, k2]
  congr 1
  apply List.ext_getElem
  · simp
  · intro i h1 h2
    simp only [List.getElem_zipWith, List.getElem_map, List.getElem_zip]
    rw [mohr_smul 1 1e3 _ _ _ (by norm_num), mohr_smul 1 1 _ _ _ (by norm_num)]
    have e : ∀ a b : ℝ, 1e3 * a / (1 * 240 * b) = 1 * a / (1e-3 * 240 * b) := by
      intro a b
      have : (1 : ℝ) * 240 * b = 1e3 * (1e-3 * 240 * b) := by norm_num; ring
      rw [this, mul_div_mul_left _ _ (by norm_num : (1e3 : ℝ) ≠ 0), one_mul]
    exact e _ _

/-! ## Weak layer -/

theorem principalWeak_plain (s : Self) (Z : Vec6) (sc : ℝ) (unit val : String) (m c : ℝ) (hm : principalSign val = .ok m)
    (hc : convertStress unit = .ok c) :
    principalWeak s Z sc unit val false = .ok (mohr m (c * fsig s Z) 0 (c * ftau s Z)) := by
  unfold principalWeak fsigU ftauU
  rw [hm, hc]
  show Except.ok _ = _
  congr 1
  have h1 : -c * s.kn * fw Z = c * fsig s Z := by unfold fsig; ring
  have h2 : -c * s.kt * (fdw Z * s.t / 2 - fu Z (s.h / 2)) = c * ftau s Z := by unfold ftau; ring
  rw [h1, h2]
  unfold mohr
  rw [add_zero, sub_zero]

/-- The weak-layer values are the eigenvalues of the stress tensor with normal
stress `sig` and shear stress `tau`; they bound `sig` and zero. -/
theorem C36_weak_layer (s : Self) (Z : Vec6) (sc : ℝ) (unit : String) (c : ℝ) (hc : convertStress unit = .ok c) :
    ∃ P Q, principalWeak s Z sc unit "max" false = .ok P ∧ principalWeak s Z sc unit "min" false = .ok Q ∧
      MaxPrincipal (c * fsig s Z) 0 (c * ftau s Z) P ∧ MinPrincipal (c * fsig s Z) 0 (c * ftau s Z) Q ∧
      c * fsig s Z ≤ P ∧ 0 ≤ P ∧ Q ≤ c * fsig s Z ∧ Q ≤ 0 := by
  refine ⟨_, _, principalWeak_plain s Z sc unit _ 1 c principalSign_max hc,
    principalWeak_plain s Z sc unit _ (-1) c principalSign_min hc, mohr_max _ _ _, mohr_min _ _ _,
    (MaxPrincipal.bound (mohr_max _ _ _)).1, (MaxPrincipal.bound (mohr_max _ _ _)).2,
    (MinPrincipal.bound (mohr_min _ _ _)).1, (MinPrincipal.bound (mohr_min _ _ _)).2⟩

/-- The normalised weak-layer value in kPa is 1000 times that in MPa: the
strength is not converted. Missing: equality, see
`C36_weak_layer_unit_violated`. -/
theorem C36_weak_layer_unit_partial (s : Self) (Z : Vec6) (sc : ℝ) :
    ∃ Q, principalWeak s Z sc "MPa" "min" true = .ok Q ∧ principalWeak s Z sc "kPa" "min" true = .ok (1000 * Q) ∧
      Q = mohr (-1) (fsig s Z) 0 (ftau s Z) / sc := by
  have key : ∀ unit c, convertStress unit = .ok c → principalWeak s Z sc unit "min" true
      = .ok (mohr (-1) (c * fsig s Z) 0 (c * ftau s Z) / sc) := by
    intro unit c hc
    unfold principalWeak fsigU ftauU
    rw [principalSign_min, hc]
    show Except.ok _ = _
    congr 2
    have h1 : -c * s.kn * fw Z = c * fsig s Z := by unfold fsig; ring
    have h2 : -c * s.kt * (fdw Z * s.t / 2 - fu Z (s.h / 2)) = c * ftau s Z := by unfold ftau; ring
    rw [h1, h2]
    unfold mohr
    rw [add_zero, sub_zero]
  refine ⟨_, by rw [key "MPa" 1 (by unfold convertStress; rw [if_neg (by decide), if_pos rfl]), one_mul, one_mul], ?_, rfl⟩
  rw [key "kPa" 1e3 (by unfold convertStress; rw [if_pos rfl])]
  congr 1
  have := mohr_smul (-1) 1e3 (fsig s Z) 0 (ftau s Z) (by norm_num)
  rw [mul_zero] at this
  rw [this]
  norm_num
  ring

/-- Violation: under compression the normalised weak-layer value depends on
the unit argument. -/
theorem C36_weak_layer_unit_violated (s : Self) (Z : Vec6) (sc : ℝ) (hsc : 0 < sc) (hsig : fsig s Z < 0) :
    principalWeak s Z sc "MPa" "min" true ≠ principalWeak s Z sc "kPa" "min" true := by
  obtain ⟨Q, h1, h2, h3⟩ := C36_weak_layer_unit_partial s Z sc
  rw [h1, h2]
  have hneg : mohr (-1) (fsig s Z) 0 (ftau s Z) < 0 :=
    lt_of_le_of_lt (MinPrincipal.bound (mohr_min _ _ _)).1 hsig
  have hQ : Q < 0 := by rw [h3]; exact div_neg_of_neg_of_pos hneg hsc
  intro h
  injection h with h
  linarith

example (eig : EigSolver) : fsig (demo eig "pst-" false) (fun _ => 1) < 0 := by
  obtain ⟨hkn, -⟩ := demo_fields eig "pst-" false
  simp only [fsig, fw, hkn]
  norm_num

end Weac
