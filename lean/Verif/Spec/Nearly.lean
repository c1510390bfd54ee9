import Verif.Spec.Ends

/-!
# Specification: conditions that hold up to a residual
-/

namespace Weac.Spec

/-- Each of the three conditions at an end is missed by `ε` at most. -/
def EndCond.Near (b : Beam) (ε : ℝ) : EndCond → Vec6 → Prop
  | .forces N M V, z => |b.N z - N| ≤ ε ∧ |b.M z - M| ≤ ε ∧ |b.V z - V| ≤ ε
  | .contact N kR w, z => |b.N z - N| ≤ ε ∧ |b.M z + kR * z 4| ≤ ε ∧ |z 2 - w| ≤ ε
  | .state u w psi, z => |z 0 - u| ≤ ε ∧ |z 2 - w| ≤ ε ∧ |z 4 - psi| ≤ ε

/-- Each of the six transmission conditions is missed by `ε` at most. -/
structure NearTransmission (b : Beam) (ε : ℝ) (F : ℝ × ℝ × ℝ) (zl zr : Vec6) : Prop where
  u : |zl 0 - zr 0| ≤ ε
  w : |zl 2 - zr 2| ≤ ε
  psi : |zl 4 - zr 4| ≤ ε
  N : |b.N zl - b.N zr - F.1| ≤ ε
  M : |b.M zl - b.M zr - F.2.1| ≤ ε
  V : |b.V zl - b.V zr - F.2.2| ≤ ε

structure NearBvp (b : Beam) (ε : ℝ) (n : ℕ) (F : ℕ → ℝ × ℝ × ℝ) (e0 e1 : EndCond) (ZL ZR : ℕ → Vec6) : Prop where
  left : e0.Near b ε (ZL 0)
  right : e1.Near b ε (ZR (n - 1))
  trans : ∀ i, i + 1 < n → NearTransmission b ε (F i) (ZR i) (ZL (i + 1))

/-- Some segment is supported over the length `d` at least, and any segment
that is not has the length `R` at most. -/
structure Anchored (d R : ℝ) (n : ℕ) (k : ℕ → Bool) (l : ℕ → ℝ) : Prop where
  nonneg : ∀ i < n, 0 ≤ l i
  some : ∃ j < n, k j = true ∧ d ≤ l j
  all : ∀ i < n, k i = true ∧ d ≤ l i ∨ l i ≤ R

end Weac.Spec

namespace Weac

open Spec

/-- The constants `C` meet all end and transmission conditions of the system up
to `ε`. -/
def NearlyMeets (ε : ℝ) (s : Self) (phi kR : ℝ) (a : SegLists) (C : ℕ → Vec6) : Prop :=
  NearBvp s.beam ε a.li.length (jump s phi a.mi)
    (endCond s phi kR .left (a.ki.getD 0 false))
    (endCond s phi kR .right (a.ki.getD (a.li.length - 1) false))
    (fun i => stateAt s phi a.li a.ki C i 0)
    (fun i => stateAt s phi a.li a.ki C i (nth a.li i))

end Weac
