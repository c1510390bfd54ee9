# Formal model of weac — design

`/repo` (2phi/weac, Python) computes the deformation of a layered snow slab on
a weak layer: a beam on an elastic foundation, its energy release rates and
stresses. This directory holds a Lean 4 + Mathlib model of that code and proofs
of the properties listed in `properties.jsonl`.

## Trusted base

* The Lean 4.33.0 kernel, and Mathlib as shipped with the toolchain.
* Axioms: every theorem depends on at most `propext`, `Classical.choice`,
  `Quot.sound`. No own axioms, no `sorry`, no `native_decide`, no `bv_decide`.
* The hand translation Python → Lean. Each model definition cites file and
  lines in `/repo`. What the translation changes:
  * **Numbers.** Python floats are modelled as exact reals. Rounding is modelled for C88 and C90-C92 only;
    overflow and NaN/inf produced by arithmetic are not modelled. NaN *placeholders* that
    the code writes on purpose (`np.full(.., np.nan)`) are `Option ℝ`.
    Division by zero follows Lean (`x/0 = 0`); theorems carry the hypotheses
    that exclude it.
  * **Arrays.** A 6×n solution array is modelled column by column, as the code
    acts on columns independently. `np.ndarray` versus `list` is modelled only
    where the code behaves differently (truth value, `.append`, boolean masks).
  * **Objects.** Instance attributes are fields of the record `Self`; methods
    are state-passing functions `Self → Except PyErr α × Self` which keep the
    state reached when an exception is raised.
  * **External numerics** are parameters with contracts, never axioms:
    `numpy.linalg.eig` (returns eigenpairs, conjugate pairs), `numpy.linalg.solve`
    (returns *the* solution if the matrix is regular), `scipy.optimize.brentq`
    (any evaluation strategy, root in the bracket), `scipy.integrate.quad`
    (any functional). Contracts are satisfiable; examples show it.
* Not modelled: float rounding (except in the set-up of the slab, `Model/Rounded`, C88, and in the evaluation of given constants, `Model/RoundedFields`, C90, and in the set-up of the linear system, `Model/RoundedSystem`, C91 and C92, and in weight and forces of the wedge at a vertical face, `Model/RoundedFace`, C88 and C91), printing, warnings, elapsed times, Jupyter demos,
  matplotlib itself (of `weac/plot.py` the data handed to it are modelled, not
  styles, fonts, axis captions and file output),
  `weac/inverse.py` beyond its class composition (C38).

### Contracts for external numerics

A theorem that needs something from an external routine takes it as a
hypothesis. Each contract is met by a concrete function in the examples.

| contract | file | says |
|----------|------|------|
| `EigOk` | `Spec/Eig.lean` | `numpy.linalg.eig` returns six eigenpairs with multiplicity; complex ones in conjugate pairs |
| `BrentOk` | `Props/Touchdown.lean` | `brentq` returns a number in its bracket |
| `BrentRuns` | `Props/TouchdownRuns.lean` | evaluates and returns inside the bracket, and converges within 100 iterations |
| `BrentStrict` | `Props/Anticrack.lean` | the result is strictly inside the bracket |
| `BrentNear`, `BrentSound` | `Props/Propagation.lean` | close (δ) to the result the function takes both signs; met by bisection, which may also give up (`RuntimeError`) |
| `BrentFinds` | `Props/AnticrackEnds.lean` | over intervals up to a length and between opposite signs, returns within δ of a change of sign; met by bisection |
| `BrentCrosses` | `Props/AnticrackLevel.lean` | as `BrentFinds`, and the result is not an end of the interval |
| `QuadOk` | `Props/Incremental.lean` | `quad` is within `e` of the integral of a continuous function |
| `QuadTol` | `Props/Tolerance.lean` | `quad` is within the larger of `tol` and `tol` times the integral |

`brentq` is a decision procedure over the history of evaluations, so theorems
hold for every evaluation order. `numpy.linalg.solve` is the inverse matrix for
a regular matrix and `LinAlgError` otherwise; `assembleAndSolveBy` takes any
function in its place (C71: what residuals of the solver do to the results).

### Simplifications

* A bedded block of the system matrix without six columns (eigensolver that
  breaks its contract) is a `ValueError`.
* `get_zmesh` is modelled for `dz > 0`. `str.lower` is ASCII.
* `1/0 = 0` for spring stiffnesses and for `weight / dist_max`; theorems
  exclude the case. Potentials do raise `ZeroDivisionError`, since there the
  dividend is a Python float.
* NaN in `g_delta` is `none`; comparisons with it are false.
* The unbounded loop that doubles the weight takes a fuel argument; `none`
  means that the loop did not end within it. C84 proves that it ends.
* Names resolved at call time (`UnboundLocalError`) are modelled as that
  exception.

## Layout

* `Verif/Py.lean` — exceptions and the state-passing monad.
* `Verif/Model/*.lean` — model of the code, function by function:
  `Tools` (`weac/tools.py`), `Eigensystem` (`weac/eigensystem.py`, constructor
  of `weac/layered.py`), `Fields`, `Raster`, `Solution`, `Analysis`, `Output`,
  `Potential` (`weac/mixins.py`), `Distance` (`touchdown_distance`),
  `Envelope`, `Criterion` (`examples/criterion_check.py`), `Plot`
  (`weac/plot.py`); with rounding `Rounded` (set-up of the slab), `RoundedFields` (evaluation),
  `RoundedSystem` (linear system), `RoundedFace` (weight and forces of the wedge at a vertical face).
* `Verif/Spec/*.lean` — specifications that do not mention the model's helpers
  (integrals of layer profiles, equilibrium equations, boundary conditions).
  Short specifications used by one file stand at its top in `namespace Spec`.
* `Verif/Lemmas/*.lean` — intermediate results.
* `Verif/Props/*.lean` — the theorems, with a concrete non-trivial `example`
  next to each. Where the case needs a solved slab, the examples are in a file
  `…Demo`, in `Cases.lean`, which applies the theorems to the demo slabs, or in the
  modules under `Verif/Cases`, one for each group of properties. Some theorems are
  used by another theorem that has the example. `C54_bracket` and `C54_two_states`
  have none: a run of the search for the critical weight over several passes was
  not worked out.
* `seeded/LOG.jsonl` — wrong programs tried against the theorems.

## Properties: what is modelled and how it is proved

| id | modelled | proof |
|----|----------|-------|
| C01 | `calc_center_of_gravity` as the loop over layers | induction on layers; spec = interval integrals of the piecewise density |
| C02 | same | algebra on layer sums |
| C03 | `calc_vertical_bc_center_of_gravity` | induction against integrals; the `xs` part is false in the code (`tan(phi/2)` instead of `tan(phi)/2`): negation with witness, rest as `_partial` |
| C04 | the four parametrisations | real powers monotone |
| C05 | `get_ply_coordinates` | induction on layers |
| C06 | `calc_laminate_stiffness_matrix` | loop = sum; spec = interval integrals |
| C07 | same | Cauchy–Schwarz per layer |
| C08 | `calc_foundation_stiffness` | algebra |
| C09 | `calc_system_matrix`, `get_load_vector`, field quantities | algebra, both directions |
| C10 | `zp(bed=True)` | algebra |
| C11 | `zh(bed=False)` | derivative + explicit inverse |
| C12 | `zp(bed=False)` | true iff `B11*pt = 0`; negation with witness + `_partial` |
| C13 | `calc_eigensystem`, `zh(bed=True)` with eig oracle | complex exponentials; det K ≠ 0 |
| C14 | `z`, `dz_dx`, `dz_dxdx`, `du0_dxdx` … | derivative algebra |
| C15 | load decomposition | trigonometry |
| C16 | `bc`, `eqs`, `assemble_and_solve` with block writes | index arithmetic for any N |
| C17 | validation part of `assemble_and_solve` | case analysis |
| C18 | assembled homogeneous problem | energy-flux monotonicity, any N |
| C19 | solution field | fundamental theorem of calculus, telescoping |
| C20 | two assembled systems | symmetry S with S K S = −K |
| C21 | two assembled systems | uniqueness + shift |
| C22 | `calc_segments` | case analysis |
| C23 | `set_touchdown_attributes` | false in the code: `tc` uses the previous `phi`; negation + `_partial` (after two equal calls / equal phi) |
| C24 | touchdown mode/length | order argument over the brentq contract |
| C25 | `substitute_stiffness` | frame lemma through arbitrary evaluation strategies |
| C26 | `substitute_stiffness` | 'rot' by linearity; 'trans' false: negation + `_partial` |
| C27 | setters | state algebra over arbitrary setter sequences |
| C28, C29 | `rasterize_solution` | list induction |
| C30, C31 | `gdif`, `ginc` | list case analysis; mode II sign in `ginc` is false: negation + `_partial` |
| C32 | weak-layer field quantities | algebra; `tau`/`gamma` sign false: negation + `_partial` |
| C33 | `get_zmesh` | list induction |
| C34 | `Txz` | trapezoid exact on piecewise linear data; unsupported part false: negation + `_partial` |
| C35 | `Sxx` | same; weight term breaks it on slopes: negation + `_partial` |
| C36 | principal stresses | real algebra; unit dependence of weak-layer normalisation: negation + `_partial` |
| C37 | output filters | list induction |
| C38 | class composition, constructor argument handling | false for `Inverse` and ndarray layers: negation + `_partial` |
| C39 | profile database, string handling | case analysis |
| C40 | vertical faces in touchdown stages | negation + `_partial` |
| C41 | `Szz` | double trapezoid against double integral; unsupported part false |
| C42 | slab outputs | exact values, case analysis on units |
| C43 | `calc_a1`, `calc_a2`, `calc_lC` | polynomials = deflection of an overhang on springs (`Spec/Overhang.lean`) |
| C44 | `touchdown_distance` | runs of C43 on one object; slope false |
| C45 | potentials | grid means converge to integrals (`Lemmas/Quadrature.lean`); excess terms named |
| C46–C48 | envelopes and curves | real algebra; several statements false, see below |
| C49, C50 | segment helpers, `create_skier_object` | list induction; two statements false |
| C51 | `create_skier_object` | linearity and uniqueness (C18) |
| C52 | least weight | convexity along the affine family of C51; existence by the intermediate value theorem |
| C53 | `find_new_anticrack_length` | intervals between sign changes of the samples |
| C54 | coupled criterion | loop invariants over all passes |
| C55 | whole pipeline | entries of the linear system are continuous; inverse of a regular matrix |
| C56 | crack propagation, critical crack length | C55 and the contract of the root finder |
| C57, C58 | `deformed`: grids, masks, limits, levels | list and grid algebra; several statements false |
| C59 | `outline` | walk along the rim, index arithmetic |
| C60 | `MidpointNormalize` | piecewise linear interpolation |
| C61 | `tight_central_distribution` | real powers, convexity; number of samples false |
| C62 | `slab_profile` | induction on layers |
| C63 | `plot_data` and its callers | Python indices; small sample counts and `fea_*` false |
| C64 | energy balance of the whole pipeline, `ginc` | principle of virtual work along the beam; exact balance false, error bounded |
| C65 | `ginc` against `gdif` | continuity (C55) and cutting (C21); mean value of a strip; sign of mode II false |
| C66 | stress added by a skier | energy flux through each half bounds deflection and slip at every point |
| C67 | decay of disturbances | power of the section forces is bounded by strain energy up to a derivative; differential inequality for its integral (`Lemmas/Decay.lean`) |
| C68 | infinite slab | difference of two chains is unloaded and driven by its ends; energy of a supported piece controls the state (compactness, `Lemmas/LocalBound.lean`); limit of longer and longer chains (`Lemmas/Lengthen.lean`) |
| C69 | layerings of the same snow | layer sums are integrals of the density profile (`Lemmas/Snow.lean`); relation "equal but for the layer list" preserved by every method (`Lemmas/Alike.lean`) |
| C70 | dimensional consistency | scaled curves are in balance with scaled loads and meet scaled end conditions (`Lemmas/Scale.lean`), then uniqueness (C18); quantities read from the state by their formulas |
| C71 | small residuals, small errors | power through ends and joints is bounded by residual times state, the state by the strain energy (`local_bound`) and by growth over short segments; a quadratic inequality for the root of the energy (`Lemmas/Stability.lean`) |
| C72 | slope facing the other way | C20 carried through the grid (coordinates as sets, continuity across empty segments and unloaded boundaries) and through the sums over crack tips; violated under a skier, where arrays hold the right-hand limit of the jumping shear stress |
| C73 | superposition of loads | particular solution, end conditions and jumps are affine in the loads, the spring of the rested slab does not depend on them (C26); uniqueness (C16) does the rest |
| C74 | sampled arrays miss little | every solution is a sum of smooth functions, so Lipschitz and with bounded curvature on a segment; the grid has a point in every interval of length L/n of every segment (C28), and two neighbouring points lie in one closed segment |
| C75 | long columns | compare with the undisturbed state on the first segment and a reference solution on the rest: a chain that meets its conditions up to a fixed residual, so bounded for all lengths (C71); the difference of two lengths is an unloaded chain whose power at the crack has a sign, hence decays |
| C76 | springs and stage limits of long columns | the difference of two spring tests is an unloaded beam whose power at the tip has a sign and decays; polynomials for the limits are, divided by the stiffnesses, strictly increasing functions of the crack length with an explicit gap, so close compliances mean close roots |
| C77 | first contact | the overhang is a cubic/quartic fixed by the section forces at the tip; the supported part is the settled slab plus its responses to the tip's force and moment; comparing with the function of `calc_a1` leaves settlement and cross compliances |
| C78 | beyond full contact | continuity of the tip response in the length of the supported part gives exact limits (intermediate values) and an open set of crack lengths around full contact where the function of `calc_lC` is negative at both ends of its search |
| C79 | long segments | modes are at most their eigenvectors between the ends of a segment; amplitudes at one of the ends are the constants, so they are bounded by the states at the ends (inverse of the matrix of eigenvectors), and these by the right-hand side (C71); without the shift the power of the section forces grows along the segment |
| C80 | weight and sinking | the difference of two solutions carries no distributed loads; the power of its section forces grows along every segment and jumps by the work of the change of the weights, and passive ends take none in; without growth every segment is at rest |
| C81 | sag over cracks | relative to the settled slab only cracks and weights load the beam; the power of the section forces vanishes at both ends, so the work of these loads equals the energy taken up, which is positive where the shear force changes |
| C82 | saw tests from either side | neither the limits of the stages nor the springs read the name of the system or the sign of the slope (weights enter by their normal part), so the stages agree; then the mirror theorems C20 and C72 apply to the segments returned |
| C83 | energy released by a break | virtual work of the state before on the difference of the two states leaves the stored energy of the broken part plus the energy form of the difference, which is non-negative where the layer stays; a stretch without opening and slip carries no load |
| C84 | the coupled criterion ends | states are affine in the weight (C51); the weak-layer energy of the part due to the weight is positive, because a still stretch on both sides cannot carry the jump of the section forces; C83 turns it into a lower bound of mode I minus mode II that grows with the square of the weight |
| C85 | the six bedded solutions are complete, with exceptions | the discriminant of the cubic in the squared eigenvalue is a polynomial of the modulus of the weak layer, negative for small moduli and positive for large ones; at a zero the double eigenvalue has one eigenvector only, because a mode without settlement vanishes; for firm layered slabs the laminate integrals are bounded by the softest modulus, which fixes the sign of the discriminant |
| C86 | results do not depend on the choice of eigenvectors | two runs are compared step by step: the matrices of bedded segments differ by one invertible matrix of the constants, because real eigenvalues have one direction and complex pairs one plane; the linear systems therefore have the same fields, or both are singular |
| C87 | effects of a skier here on a place there and the other way round | the mixed power of two chains is symmetric at passive ends and loses symmetry only by the traction of the weak layer on its lever arm t/2, which the strain energies bound; a combination of the fluxes is monotone |
| C88 | rounding errors in the set-up | calculus of relative and absolute errors counted in roundings, closed under the operations of the code; Higham's gamma bounds |
| C89 | continuity in the materials | the solution is the image of the inputs under the inverse of a continuous family of injective linear maps, built from transfer matrices rather than eigenvectors; layer sums, centroid, wedge and substitute spring are continuous |
| C90 | rounding errors in the evaluation | the calculus of C88; exponents are never positive, so `t exp(-t) ≤ 1` turns relative errors of exponents into absolute ones; sines and cosines are Lipschitz |
| C91 | rounding in the linear system | error bounds of C90 carried through conditions and assembly; a changed matrix stays regular and its solutions bounded (C79), so the residual of its solution in the exact system is small (C71) |
| C92 | rounding from the segments to the results | C91 for the constants, a bound for the computed constants (C79) and C90 for the evaluation; stresses and forces are linear in the state, energy release rates are squares |

## Findings: where the code does not do what the property says

Each is a theorem (negation with a witness) or a stated hypothesis of the
partial theorem. The full property stays in `properties.jsonl`.

1. `calc_vertical_bc_center_of_gravity`: `tan(phi/2)` for `tan(phi)/2` (C03).
2. `zp` over unsupported parts lacks `-(B11/A11)*pt` in the rotation (C12).
3. `set_touchdown_attributes` computes `tc` from the inclination of the
   previous call (C23, and through it C44).
4. `substitute_stiffness(dof='trans')` includes the settlement under self
   weight (C26). An invalid `dof` ends in `UnboundLocalError` and leaves `kn`,
   `kt` scaled.
5. Shear stress and shear strain of the weak layer have opposite signs; mode II
   of `ginc` is negative (C31, C32, C65).
6. `Txz`, `Szz` use the supported beam over unsupported parts (C34, C41); `Sxx`
   adds a weight term that depends on the mesh (C35).
7. Normalised principal stress of the weak layer depends on the unit (C36).
8. `vpst` touchdown: the deflection at the end is not prescribed (C40).
9. `assemble_and_solve` with one segment extends the caller's lists and fails
   for arrays (C17). `layers if layers else …` fails for arrays (C38, C44).
   `Inverse` lacks methods of the workflow (C38).
10. Potentials: weight of the weak-layer energy, coupling, end spring (C45).
11. Mede envelopes reverse the verdict; plotted curves and criteria disagree;
    integer arrays truncate curves (C46–C48); one of Chandel's curves jumps at zero normal stress (C48).
12. `split_segments_at_midpoint` lengthens the beam if the middle lies in the
    first segment (C49). `create_skier_object` raises `IndexError` if it lies
    in the last (C50).
13. The iteration for the least weight gives up with weight 0 for a slab close
    to failure, and the coupled criterion then reports no anticrack and the
    critical weight 0 (C52, C54).
14. `find_new_anticrack_length`: a single crossing cracks nothing; a sample on
    the envelope loses the crack (C53).
15. Coupled criterion: two states mixed if everything cracks (shown from the
    code for any such result, without a concrete site); fallbacks drop
    `density` or `t`; a critical weight below 1 kg is no anticrack (C54).
16. `find_min_crack_length_self_propagation` raises `ValueError` instead of
    returning `None` if both ends are on one side, and returns any crossing
    (C56).
17. The tractions of the weak layer do no work consistent with its strains, so
    the system is not self-adjoint; uniqueness (C18) is proved for
    `kt*t^2 < 16*kA55`. For the same reason the work of the loads is not twice
    the stored energy, and a growing crack releases slightly more or less than
    the potential drops (C64).
18. `deformed`: for skier systems the weak layer is placed by its own first and
    last supported point, so it vanishes or is shifted if an end is unsupported;
    upward displacements are cropped (C57). The colour scale is rounded, not
    rounded up; a vanishing field raises `OverflowError` (C58).
19. `tight_central_distribution` returns one or two values less than asked for
    (C61).
20. `plot_data` seeks labels ten samples apart: `IndexError` or a label off the
    curve for few samples. `fea_disp`, `fea_stress` always raise `TypeError`
    (C63).
21. The shear stress of the weak layer jumps where a skier stands (it contains
    the slope of the slab); the arrays hold the limit from the right, so runs
    for inclinations of opposite sign are not mirror images there (C72).
22. `calc_a1` counts the deflection of the crack tip under force and moment
    separately and leaves out the settlement under the slab's own weight and the
    cross compliances. At the length it returns, the computed slab is not at the
    collapsed layer (for short cracks it is below), so results jump between
    stages A and B (C77).
23. The searches for the stage limits start at a thousandth of the column length:
    very long columns raise `ValueError` (C76).
24. The search for the touchdown length ends at 0.999 times the crack length:
    crack lengths just beyond the limit of stage B raise `ValueError` (C78).
