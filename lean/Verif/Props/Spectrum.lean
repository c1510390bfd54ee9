import Verif.Props.Demo

/-!
# C13: when the six eigenvalues are different

The characteristic polynomial of the bedded system is a cubic in the square of
the eigenvalue. It has six different roots if and only if the discriminant of
the cubic does not vanish, which can be checked by arithmetic on the stiffness
attributes.
-/

namespace Weac
open Spec

/-- Coefficients of the cubic `y ^ 3 + p y ^ 2 + q y + r`. -/
structure Cubic where
  p : ℝ
  q : ℝ
  r : ℝ

/-- Discriminant of the cubic. -/
def Cubic.disc (c : Cubic) : ℝ :=
  18 * c.p * c.q * c.r - 4 * c.p ^ 3 * c.r + c.p ^ 2 * c.q ^ 2 - 4 * c.q ^ 3 - 27 * c.r ^ 2

/-- The cubic of an object, from the entries of its system matrix. -/
noncomputable def cubicOf (s : Self) : Cubic :=
  let K := calcSystemMatrix s
  ⟨K 5 3 - K 5 4 - K 3 2 - K 1 0,
   K 5 4 * K 3 2 + K 5 4 * K 1 0 - K 5 3 * K 1 0 + K 3 2 * K 1 0 + K 1 3 * K 5 0 - K 5 0 * K 1 4,
   K 3 2 * K 5 0 * K 1 4 - K 5 4 * K 3 2 * K 1 0⟩

theorem charpoly_cubic (s : Self) :
    (toC (calcSystemMatrix s)).charpoly
      = Polynomial.X ^ 6 + Polynomial.C ((cubicOf s).p : ℂ) * Polynomial.X ^ 4
        + Polynomial.C ((cubicOf s).q : ℂ) * Polynomial.X ^ 2 + Polynomial.C ((cubicOf s).r : ℂ) := by
  apply Polynomial.funext
  intro x
  rw [Matrix.eval_charpoly]
  set K := calcSystemMatrix s with hK
  have e : (Matrix.scalar (Fin 6)) x - toC K
      = !![x, -1, 0, 0, 0, 0; -(K 1 0 : ℂ), x, 0, -(K 1 3 : ℂ), -(K 1 4 : ℂ), 0; 0, 0, x, -1, 0, 0;
        0, 0, -(K 3 2 : ℂ), x, 0, 1; 0, 0, 0, 0, x, -1;
        -(K 5 0 : ℂ), 0, 0, -(K 5 3 : ℂ), -(K 5 4 : ℂ), x] := by
    ext i j
    fin_cases i <;> fin_cases j <;> simp [toC, hK, calcSystemMatrix]
  rw [e, charpoly_pattern]
  simp only [Polynomial.eval_add, Polynomial.eval_mul, Polynomial.eval_pow, Polynomial.eval_X,
    Polynomial.eval_C, cubicOf, ← hK]
  push_cast
  ring

theorem cubic_r_ne (s : Self) (hs : Regular s) : (cubicOf s).r ≠ 0 := by
  intro h0
  have h := zero_notMem_spectrum _ (K_det_ne_zero s hs)
  apply h
  rw [Polynomial.mem_roots (Matrix.charpoly_monic _).ne_zero, charpoly_cubic, h0]
  simp [Polynomial.IsRoot]

/-- Different eigenvalues, decided by the discriminant. -/
theorem roots_nodup_of_disc (s : Self) (hs : Regular s) (hd : (cubicOf s).disc ≠ 0) :
    (toC (calcSystemMatrix s)).charpoly.roots.Nodup := by
  have h0 : (toC (calcSystemMatrix s)).charpoly ≠ 0 := (Matrix.charpoly_monic _).ne_zero
  rw [Multiset.nodup_iff_count_le_one]
  intro x
  rw [Polynomial.count_roots]
  by_contra hcon
  push Not at hcon
  obtain ⟨r1, r2⟩ := (Polynomial.one_lt_rootMultiplicity_iff_isRoot h0).mp hcon
  rw [charpoly_cubic] at r1 r2
  have hr := cubic_r_ne s hs
  rw [Cubic.disc] at hd
  generalize (cubicOf s).p = p at *
  generalize (cubicOf s).q = q at *
  generalize (cubicOf s).r = r at *
  simp [Polynomial.IsRoot, Polynomial.derivative_pow] at r1 r2
  have hx : x ≠ 0 := by
    rintro rfl
    apply hr
    simpa using r1
  have r3 : 3 * (x ^ 2) ^ 2 + 2 * (p : ℂ) * x ^ 2 + q = 0 := by
    have : (2 * x) * (3 * (x ^ 2) ^ 2 + 2 * (p : ℂ) * x ^ 2 + q) = 0 := by
      linear_combination r2
    rcases mul_eq_zero.mp this with h | h
    · exact absurd h (by simpa using hx)
    · exact h
  apply hd
  have key : ((18 * p * q * r - 4 * p ^ 3 * r + p ^ 2 * q ^ 2 - 4 * q ^ 3 - 27 * r ^ 2 : ℝ) : ℂ) = 0 := by
    push_cast
    linear_combination -((27 * r - 15 * p * q + 4 * p ^ 3 : ℂ) + (-18 * q + 6 * p ^ 2) * x ^ 2) * r1
      - ((4 * q ^ 2 - p ^ 2 * q - 3 * p * r : ℂ) + (7 * p * q - 9 * r - 2 * p ^ 3) * x ^ 2
        + (6 * q - 2 * p ^ 2) * x ^ 4) * r3
  exact_mod_cast key

/-- C13, criterion: the computed general solution is complete whenever the
discriminant does not vanish. -/
theorem C13_discriminant (eig : EigSolver) (s : Self) (hs : Stiff s) (hf : EigFresh eig s)
    (he : EigOk (calcSystemMatrix s) (eig (calcSystemMatrix s))) (hd : (cubicOf s).disc ≠ 0) : BedOk s := by
  refine bedOk eig s hs hf he (C13_distinct_eigenvalues eig s hf he ?_)
  rw [← Multiset.coe_nodup, he.spectrum]
  exact roots_nodup_of_disc s hs.regular hd

end Weac
