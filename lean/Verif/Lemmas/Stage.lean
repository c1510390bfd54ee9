import Verif.Props.Spectrum
import Verif.Props.Unique

/-!
# Attributes without influence on the fields

System type, touchdown stage and touchdown lengths do not enter the general
solution, so every hypothesis on the fields survives changing them.
-/

namespace Weac
open Spec

/-- The object with other system type and touchdown attributes. -/
def Self.stage (s : Self) (system : String) (mode : Mode) (L a tc td phi ratio : ℝ) : Self :=
  { s with system := system, mode := mode, L := L, a := a, tc := tc, td := td, phi := phi, ratio := ratio }

section
variable (s : Self) (system : String) (mode : Mode) (L a tc td phi ratio : ℝ)

theorem Stiff.stage {s : Self} (h : Stiff s) : Stiff (s.stage system mode L a tc td phi ratio) :=
  ⟨h.h, h.t, h.kn, h.kt, h.A11, h.D11, h.kA55, h.K0_eq, h.K0⟩

theorem BedOk.stage {s : Self} (h : BedOk s) : BedOk (s.stage system mode L a tc td phi ratio) :=
  ⟨h.stiff.stage _ _ _ _ _ _ _ _, h.modes, h.six, h.indep⟩

theorem ShearOk.stage {s : Self} (h : ShearOk s) : ShearOk (s.stage system mode L a tc td phi ratio) := h

theorem EigFresh.stage {eig : EigSolver} {s : Self} (h : EigFresh eig s) :
    EigFresh eig (s.stage system mode L a tc td phi ratio) :=
  congrArg (fun s : Self => s.stage system mode L a tc td phi ratio) h

end

/-- The auxiliary object on the unscaled foundation. -/
theorem prep_false_bedOk (eig : EigSolver) (dof : Dof) {s : Self} (h : BedOk s) : BedOk (prep eig false dof s) := by
  cases dof
  · exact h.stage "rot" s.mode s.L s.a s.tc s.td s.phi s.ratio
  · exact h.stage "trans" s.mode s.L s.a s.tc s.td s.phi s.ratio
  · exact h

theorem prep_false_shear (eig : EigSolver) (dof : Dof) {s : Self} (h : ShearOk s) : ShearOk (prep eig false dof s) := by
  cases dof <;> exact h

/-- The object on a foundation that is stiffer by the factor `ratio`. -/
noncomputable def Self.scaled (s : Self) : Self := { s with kn := s.ratio * s.kn, kt := s.ratio * s.kt }

theorem Stiff.scaled {s : Self} (h : Stiff s) (hr : 0 < s.ratio) : Stiff s.scaled :=
  ⟨h.h, h.t, mul_pos hr h.kn, mul_pos hr h.kt, h.A11, h.D11, h.kA55, h.K0_eq, h.K0⟩

theorem calcEigensystem_idem (eig : EigSolver) (s : Self) : EigFresh eig (calcEigensystem eig s) := rfl

/-- The auxiliary object on the scaled foundation. -/
theorem prep_true_bedOk (eig : EigSolver) (dof : Dof) (hd : dof ≠ .other) {s : Self} (h : Stiff s) (hr : 0 < s.ratio)
    (he : EigOk (calcSystemMatrix s.scaled) (eig (calcSystemMatrix s.scaled)))
    (hdisc : (cubicOf s.scaled).disc ≠ 0) : BedOk (prep eig true dof s) := by
  have h1 := h.scaled hr
  have key : BedOk (calcEigensystem eig s.scaled) :=
    C13_discriminant eig (calcEigensystem eig s.scaled)
      ⟨h1.h, h1.t, h1.kn, h1.kt, h1.A11, h1.D11, h1.kA55, h1.K0_eq, h1.K0⟩ (calcEigensystem_idem eig _) he hdisc
  cases dof
  · exact key.stage "rot" s.mode s.L s.a s.tc s.td s.phi s.ratio
  · exact key.stage "trans" s.mode s.L s.a s.tc s.td s.phi s.ratio
  · exact absurd rfl hd

/-- Rest condition of stage C, as arithmetic on the attributes. -/
theorem restOk_of (num : Numerics) (s : Self) (h : Stiff s) (hr : 0 < s.ratio) (htd : s.td < s.a)
    (he : EigOk (calcSystemMatrix s.scaled) (num.eig (calcSystemMatrix s.scaled)))
    (hdisc : (cubicOf s.scaled).disc ≠ 0) (hc : s.ratio * s.kt * s.t ^ 2 < 16 * s.kA55) : RestOk num s :=
  ⟨htd, prep_true_bedOk num.eig .rot (by simp) h hr he hdisc, hc⟩

end Weac
