import Verif.Props.RoundingFields
import Verif.Props.Demo

/-!
# C90 for the demonstration object

Double precision with a rounding that is always off, and a library whose
exponential function is off too.
-/

namespace Weac

open Spec

/-- A library for `offFl`. -/
noncomputable def offLib : Libm := ⟨fun y => offFl (Real.exp y), Real.cos, Real.sin, fun a b => ∑ j, a j * b j⟩

theorem offLib_ok : LibmOk (2⁻¹ ^ 53) 1 offLib := by
  refine ⟨fun y => offFl_ok.rel_fl (Rel.refl _ _), fun y => ?_, fun y => ?_, fun a b => ?_⟩
  · simp [offLib]
  · simp [offLib]
  · have h0 : (0 : ℝ) ≤ ((1 - 2⁻¹ ^ 53)⁻¹ ^ 6 - 1) := by norm_num
    simp only [offLib, sub_self, abs_zero]
    exact mul_nonneg h0 (Finset.sum_nonneg fun j _ => abs_nonneg _)

/-- Stress of the weak layer anywhere in a supported segment of 10 m of the
demonstration object on a slope of 38°, for any constants. -/
example (C : Vec6) {x : ℝ} (h0 : 0 ≤ x) (h1 : x ≤ 10000) :
    let s := demo stdEig "skier" false
    |fsigFl offFl s 1000 (zsolFl offFl offLib s x C 10000 38 true) - 1000 * fsig s (zsol s x C 10000 38 true)|
      ≤ 1e-14 * (|1000| * s.kn * stateScale s x C 38 true 2) := by
  intro s
  have hr := demo_ready stdEig "skier" false
  obtain ⟨-, -, -, -, -, -, -, -, -, hsl, -⟩ := demo_fields stdEig "skier" false
  have hn : s.slab.length = 1 := by simp only [s, hsl]; rfl
  have key := (C90_results offFl_ok offLib_ok s hr.stored h0 h1 C 38 1000 (by rw [hn]; norm_num)).1
  have S0 : 0 ≤ stateScale s x C 38 true 2 :=
    (abs_nonneg _).trans (state_rounded offFl_ok offLib_ok s hr.stored h0 h1 C 38 true 2).1
  refine key.trans (mul_le_mul_of_nonneg_right ?_ ?_)
  · rw [hn]; norm_num [gamma]
  · have := hr.stiff.kn
    positivity

/-- Section forces of an unsupported segment, and the loads of a skier of 80 kg. -/
example (C : Vec6) {x : ℝ} (h0 : 0 ≤ x) (h1 : x ≤ 500) :
    let s := demo stdEig "skier" false
    |fVFl offFl s (zsolFl offFl offLib s x C 500 38 false) - fV s (zsol s x C 500 38 false)|
      ≤ 1e-14 * (s.kA55 * (stateScale s x C 38 false 3 + stateScale s x C 38 false 4)) ∧
    |(skierLoadFl offFl offLib s 80 38).1 - (getSkierLoad s 80 38).1| ≤ 1e-14 * loadScale (1e-3 * |80| * s.g / s.lski) 38 := by
  intro s
  have hr := demo_ready stdEig "skier" false
  obtain ⟨-, -, -, -, -, -, -, -, -, hsl, -⟩ := demo_fields stdEig "skier" false
  have hn : s.slab.length = 1 := by simp only [s, hsl]; rfl
  have key := (C90_forces offFl_ok offLib_ok s hr.stored h0 h1 C 38 false (by rw [hn]; norm_num)).2.2
  have S0 : ∀ i, 0 ≤ stateScale s x C 38 false i := fun i =>
    (abs_nonneg _).trans (state_rounded offFl_ok offLib_ok s hr.stored h0 h1 C 38 false i).1
  constructor
  · refine key.trans (mul_le_mul_of_nonneg_right ?_ ?_)
    · rw [hn]; norm_num [gamma]
    · have := hr.stiff.kA55
      have := S0 3
      have := S0 4
      positivity
  · refine (C90_loads offFl_ok offLib_ok s hr.stored hr.lski 80 38 (by rw [hn]; norm_num)).2.2.2.2.1.trans (mul_le_mul_of_nonneg_right ?_ ?_)
    · rw [hn]; norm_num [gamma]
    · have := hr.g
      have := hr.lski
      unfold loadScale
      positivity

/-- State, section forces and weak layer of the demonstration object. -/
example (Z : Vec6) (C : Vec6) :
    let s := demo stdEig "skier" false
    |fNFl offFl s Z - fN s Z| ≤ gamma (2⁻¹ ^ 53) 3 * (|s.A11| * |Z 1| + |s.B11| * |Z 5|) ∧
    |fGiFl offFl s 1000 Z - 1000 * fGi s Z| ≤ 1e-14 * |1000 * fGi s Z| ∧
    |zsolFl offFl offLib s 100 C 10000 38 true 2 - zsol s 100 C 10000 38 true 2| ≤ 1e-14 * stateScale s 100 C 38 true 2 := by
  intro s
  have hr := demo_ready stdEig "skier" false
  obtain ⟨-, -, -, -, -, -, -, -, -, hsl, -⟩ := demo_fields stdEig "skier" false
  have hn : s.slab.length = 1 := by simp only [s, hsl]; rfl
  refine ⟨(C90_section offFl_ok (by norm_num) s Z 1 0).2.2.1, ?_, ?_⟩
  · refine (C90_weak_layer offFl_ok (by norm_num) s hr.stored Z 1000).2.2.1.trans (mul_le_mul_of_nonneg_right ?_ (abs_nonneg _))
    norm_num [gamma]
  · refine (C90_state offFl_ok offLib_ok s hr.stored (by norm_num) (by norm_num) C 38 true (by rw [hn]; norm_num) 2).trans
      (mul_le_mul_of_nonneg_right ?_ ((abs_nonneg _).trans
        (state_rounded offFl_ok offLib_ok s hr.stored (by norm_num) (by norm_num : (100 : ℝ) ≤ 10000) C 38 true 2).1))
    rw [hn]; norm_num [gamma]

end Weac
