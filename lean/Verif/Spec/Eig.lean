import Mathlib.LinearAlgebra.Matrix.Charpoly.Eigs
import Mathlib.Analysis.Complex.Polynomial.Basic
import Verif.Model.Eigensystem

/-!
# Specification: contract of `numpy.linalg.eig`

For a real 6×6 matrix the routine returns eigenpairs with nonzero vectors,
every eigenvalue as often as it is a root of the characteristic polynomial, and
real vectors for real eigenvalues. `eigOk_exists` in `Props/Bedded.lean` shows
that the contract can be met.
-/

namespace Weac.Spec
open ComplexConjugate

/-- A real matrix as a complex one. -/
noncomputable def toC (K : Mat6) : Matrix (Fin 6) (Fin 6) ℂ := K.map (algebraMap ℝ ℂ)

structure EigOk (K : Mat6) (out : List (ℂ × (Fin 6 → ℂ))) : Prop where
  pairs : ∀ q ∈ out, q.2 ≠ 0 ∧ (toC K).mulVec q.2 = q.1 • q.2
  spectrum : (Multiset.ofList (out.map Prod.fst)) = (toC K).charpoly.roots
  real : ∀ q ∈ out, q.1.im = 0 → ∀ i, (q.2 i).im = 0

/-- The eigenvectors kept by the object, together with the complex conjugates
of the non-real ones, are linearly independent. -/
def Indep (e : Eigs) : Prop :=
  LinearIndependent ℂ (Sum.elim (fun j : Fin e.re.length => fun i => ((e.re[j].ev i : ℝ) : ℂ))
    (Sum.elim (fun k : Fin e.cx.length => e.cx[k].ev)
      (fun k : Fin e.cx.length => fun i => conj (e.cx[k].ev i))))

end Weac.Spec
