import Verif.Spec.Mechanics

/-!
# Specification: boundary value problem of a chain of beam segments

Segments `0 … n-1`; `ZL i`, `ZR i` are the states at the left and right end of
segment `i`, `F i` the section force jump `(N, M, V)` between segments `i` and
`i+1`.
-/

namespace Weac.Spec

/-- What is prescribed at one end of the chain. -/
inductive EndCond where
  /-- section forces -/
  | forces (N M V : ℝ)
  /-- contact: normal force, rotational spring `M + kR psi = 0`, deflection -/
  | contact (N kR w : ℝ)
  /-- displacements and rotation -/
  | state (u w psi : ℝ)

def EndCond.Holds (b : Beam) : EndCond → Vec6 → Prop
  | .forces N M V, z => b.N z = N ∧ b.M z = M ∧ b.V z = V
  | .contact N kR w, z => b.N z = N ∧ b.M z + kR * z 4 = 0 ∧ z 2 = w
  | .state u w psi, z => z 0 = u ∧ z 2 = w ∧ z 4 = psi

/-- The same condition with homogeneous data. -/
def EndCond.hom : EndCond → EndCond
  | .forces _ _ _ => .forces 0 0 0
  | .contact _ kR _ => .contact 0 kR 0
  | .state _ _ _ => .state 0 0 0

/-- Displacements and rotation continuous, section forces jump by `F`. -/
structure Transmission (b : Beam) (F : ℝ × ℝ × ℝ) (zl zr : Vec6) : Prop where
  u : zl 0 = zr 0
  w : zl 2 = zr 2
  psi : zl 4 = zr 4
  N : b.N zl - b.N zr = F.1
  M : b.M zl - b.M zr = F.2.1
  V : b.V zl - b.V zr = F.2.2

structure Bvp (b : Beam) (n : ℕ) (F : ℕ → ℝ × ℝ × ℝ) (e0 e1 : EndCond) (ZL ZR : ℕ → Vec6) : Prop where
  left : e0.Holds b (ZL 0)
  right : e1.Holds b (ZR (n - 1))
  trans : ∀ i, i + 1 < n → Transmission b (F i) (ZR i) (ZL (i + 1))

end Weac.Spec
