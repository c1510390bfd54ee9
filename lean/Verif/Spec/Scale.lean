import Verif.Model.Solution

/-!
# Specification: models of a slab at another scale

Lengths, stiffnesses and densities of a slab are multiplied by three factors.
Dimensional analysis says by which factors displacements, stresses and energies
change.
-/

namespace Weac.Spec

/-- Factors of length, stiffness (force per area) and density. -/
structure Scale where
  len : ℝ
  stiff : ℝ
  dens : ℝ
  len_pos : 0 < len
  stiff_pos : 0 < stiff
  dens_pos : 0 < dens

namespace Scale
variable (c : Scale)

/-- Factor of stresses: density times gravity times length. -/
def stress : ℝ := c.dens * c.len
/-- Factor of displacements: stress over stiffness times length. -/
noncomputable def disp : ℝ := c.dens * c.len ^ 2 / c.stiff
/-- Factor of rotations and strains. -/
noncomputable def rot : ℝ := c.dens * c.len / c.stiff
/-- Factor of curvatures. -/
noncomputable def curv : ℝ := c.dens / c.stiff
/-- Factor of forces per width and of skier weights (their width is given). -/
def force : ℝ := c.dens * c.len ^ 2
/-- Factor of moments per width. -/
def moment : ℝ := c.dens * c.len ^ 3
/-- Factor of energies per area. -/
noncomputable def energy : ℝ := c.dens ^ 2 * c.len ^ 3 / c.stiff

/-- The state vector `[u, u', w, w', psi, psi']` of the model. -/
noncomputable def state (z : Vec6) : Vec6 :=
  ![c.disp * z 0, c.rot * z 1, c.disp * z 2, c.rot * z 3, c.rot * z 4, c.curv * z 5]

/-- A row of the layering. -/
def ply (p : Ply) : Ply := ⟨c.dens * p.rho, c.len * p.h⟩

/-- A layer with its moduli. -/
def layer (l : Layer) : Layer := ⟨c.dens * l.rho, c.len * l.h, c.stiff * l.E, c.stiff * l.G, l.nu⟩

/-- Segment lists. -/
def lists (a : SegLists) : SegLists :=
  ⟨a.li.map (c.len * ·), a.mi.map (c.force * ·), a.ki⟩

end Scale

/-- `s'` is a model of `s` at the scale `c`: layers, weak layer and surface load
as entered by the user, and lengths of a propagation saw test. -/
structure Similar (c : Scale) (s s' : Self) : Prop where
  system : s'.system = s.system
  g : s'.g = s.g
  lski : s'.lski = s.lski
  slab : s'.slab = s.slab.map c.layer
  t : s'.t = c.len * s.t
  E : s'.weak.E = c.stiff * s.weak.E
  nu : s'.weak.nu = s.weak.nu
  p : s'.p = c.stress * s.p
  phi : s'.phi = s.phi
  mode : s'.mode = s.mode
  a : s'.a = c.len * s.a
  td : s'.td = c.len * s.td
  tc : s'.tc = c.disp * s.tc
  ratio : s'.ratio = s.ratio

end Weac.Spec
