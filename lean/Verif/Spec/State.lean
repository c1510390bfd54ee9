import Verif.Spec.Layering
import Verif.Model.Eigensystem

/-!
# Specification: which objects are well-formed

`SlabOk`: what `set_beam_properties` establishes for physically valid input.
`Fresh`: the derived attributes belong to the current material properties.
`Ready`: both, plus a valid weak layer.
-/

namespace Weac

structure Layer.Valid (l : Layer) : Prop where
  rho : 0 < l.rho
  h : 0 < l.h
  E : 0 < l.E
  G : 0 < l.G
  nu_lo : -1 < l.nu
  nu_hi : l.nu < 1

/-- A slab users may enter: at least one layer, positive densities and thicknesses. -/
def ValidPlies (ls : List Ply) : Prop := ls ≠ [] ∧ ∀ l ∈ ls, 0 < l.rho ∧ 0 < l.h

structure SlabOk (s : Self) : Prop where
  ne : s.slab ≠ []
  valid : ∀ l ∈ s.slab, l.Valid
  h : s.h = Spec.total Layer.h s.slab
  zs : s.zs = (calcCenterOfGravity (s.slab.map Layer.ply)).2
  k : s.k = 5 / 6

structure WeakOk (s : Self) : Prop where
  t : 0 < s.t
  E : 0 < s.weak.E
  nu_lo : -1 < s.weak.nu
  nu_hi : s.weak.nu < 1

/-- The derived attributes are up to date. -/
def Fresh (eig : EigSolver) (s : Self) : Prop := calcFundamentalSystem eig s = s

structure Ready (eig : EigSolver) (s : Self) : Prop where
  slab : SlabOk s
  weak : WeakOk s
  fresh : Fresh eig s
  g : 0 < s.g
  lski : 0 < s.lski

/-- What the mechanics needs from an object: positive stiffnesses and
thicknesses. Every `Ready` object satisfies it (`Ready.stiff`). -/
structure Stiff (s : Self) : Prop where
  h : 0 < s.h
  t : 0 < s.t
  kn : 0 < s.kn
  kt : 0 < s.kt
  A11 : 0 < s.A11
  D11 : 0 < s.D11
  kA55 : 0 < s.kA55
  K0_eq : s.K0 = s.B11 ^ 2 - s.A11 * s.D11
  K0 : s.K0 < 0

end Weac
