{"id": "C01", "title": "Slab centre of gravity is the mass-weighted mean depth", "statement": "calc_center_of_gravity(layers) returns H = the sum of the layer thicknesses and zs such that zs times the total mass equals the integral of rho(z)*z over the slab, z measured downward from mid-height with layers listed top to bottom; zs lies strictly inside (-H/2, H/2).", "quantifier": "every non-empty list of layers with positive densities and thicknesses", "why_tests_cant": "layer count, densities and thicknesses are unbounded; a test samples a few profiles", "anchors": ["weac/tools.py:calc_center_of_gravity"]}
{"id": "C02", "title": "Centre of gravity respects the symmetries of a layered slab", "statement": "Reversing the layer order negates zs, replacing one layer by two layers of the same density whose thicknesses add up changes neither H nor zs, scaling all densities by one factor changes nothing, and a slab of uniform density has zs = 0.", "quantifier": "every layering, every split position, every scale factor", "why_tests_cant": "relational property over pairs of arbitrary-length inputs", "anchors": ["weac/tools.py:calc_center_of_gravity"]}
{"id": "C03", "title": "Weight and centroid of the wedge of a vertical-faced PST", "statement": "calc_vertical_bc_center_of_gravity(slab, phi) returns w = mass of the triangular wedge (integral of rho(z)*(H/2-z)*tan(phi)), zs = its centroid depth, xs = its horizontal centroid, and zeros for phi = 0.", "quantifier": "every non-empty layering and every slope angle with |phi| < 90 deg", "why_tests_cant": "closed-form layer sums must equal integrals for every layering", "anchors": ["weac/tools.py:calc_vertical_bc_center_of_gravity"]}
{"id": "C04", "title": "Density parametrisations are positive and strictly increasing", "statement": "bergfeld, gerling, scapozza and tensile_strength_slab return positive values, strictly increasing in density, for positive density, constants and exponent; bergfeld at ice density returns 1000*C0; tensile_strength_slab in MPa is 1e-3 times the value in kPa and any other unit raises.", "quantifier": "all positive real densities and parameters", "why_tests_cant": "monotonicity over a continuum", "anchors": ["weac/tools.py:bergfeld", "weac/tools.py:gerling", "weac/tools.py:scapozza", "weac/tools.py:tensile_strength_slab"]}
{"id": "C05", "title": "Ply coordinates partition the slab", "statement": "get_ply_coordinates returns n+1 coordinates for n layers, starting at -h/2, ending at h/2, strictly increasing, whose i-th difference is the thickness of layer i (top to bottom).", "quantifier": "every layering set by set_beam_properties", "why_tests_cant": "arbitrary number of layers", "anchors": ["weac/eigensystem.py:Eigensystem.get_ply_coordinates"]}
{"id": "C06", "title": "Laminate stiffnesses are the through-thickness integrals", "statement": "After calc_laminate_stiffness_matrix A11, B11, D11 are the integrals over the slab of E/(1-nu^2) times 1, z, z^2 and kA55 is 5/6 times the integral of G; they do not change when a layer is split into two layers of the same material, and reversing the layering keeps A11, D11, kA55 and negates B11.", "quantifier": "every layering, every split, both orders", "why_tests_cant": "integral identity for an arbitrary number of layers", "anchors": ["weac/eigensystem.py:Eigensystem.calc_laminate_stiffness_matrix"]}
{"id": "C07", "title": "Laminate stiffness is positive definite", "statement": "A11 > 0, D11 > 0, kA55 > 0 and A11*D11 > B11^2 (so K0 < 0 and no division by zero happens in the system matrix) for every physically valid slab.", "quantifier": "every non-empty layering with positive thicknesses, positive moduli and |nu| < 1", "why_tests_cant": "Cauchy-Schwarz type inequality for any number of layers", "anchors": ["weac/eigensystem.py:Eigensystem.calc_laminate_stiffness_matrix", "weac/eigensystem.py:Eigensystem.set_beam_properties"]}
{"id": "C08", "title": "Foundation stiffness follows plane-strain elasticity", "statement": "calc_foundation_stiffness gives positive kn, kt; kn*t*(1-nu^2) = E, kt*t*2(1+nu) = E; kn > kt for nu > -1; both scale inversely with t and linearly with E.", "quantifier": "all E > 0, t > 0, -1 < nu < 1", "why_tests_cant": "continuum of material parameters", "anchors": ["weac/eigensystem.py:Eigensystem.calc_foundation_stiffness"]}
{"id": "C09", "title": "System matrix and load vector encode equilibrium", "statement": "For every solution vector z and inclination phi, z' = K z + q (dz_dx) holds if and only if z' is kinematically consistent and N' = tau - (qt+pt), V' = -sigma - (qn+pn) and M' = V + (h+t)/2*tau - zs*qt + h/2*pt, with N, M, V, sigma, tau the library's own field quantities.", "quantifier": "all state vectors, all stiffnesses with K0, kA55 nonzero, all inclinations and surface loads", "why_tests_cant": "an algebraic identity in a dozen real parameters", "anchors": ["weac/eigensystem.py:Eigensystem.calc_system_matrix", "weac/eigensystem.py:Eigensystem.get_load_vector", "weac/mixins.py:FieldQuantitiesMixin.dz_dx", "weac/mixins.py:FieldQuantitiesMixin.tau"]}
{"id": "C10", "title": "Bedded particular integral is the uniform equilibrium state", "statement": "For bedded segments zp(x, phi) does not depend on x and K*zp + q = 0: the slab under its own weight and surface load alone carries no section forces N, M and sigma = -(qn+pn), tau = qt+pt.", "quantifier": "all inclinations, loads, layerings, positions", "why_tests_cant": "identity over all parameters", "anchors": ["weac/eigensystem.py:Eigensystem.zp"]}
{"id": "C11", "title": "Free complementary solutions solve the unsupported-beam equations and are complete", "statement": "For a free segment every column of zh(x) differentiates to a state with N' = 0, V' = 0, M' = V, and every state at every x is attained by exactly one choice of the six constants.", "quantifier": "all positions x and all constants", "why_tests_cant": "continuum of positions and constants", "anchors": ["weac/eigensystem.py:Eigensystem.zh"]}
{"id": "C12", "title": "Free particular integral balances weight and surface load", "statement": "For a free segment zp(x) is kinematically consistent and satisfies N' = -(qt+pt), V' = -(qn+pn), M' = V - zs*qt + h/2*pt for every slab, inclination and surface load.", "quantifier": "all positions, inclinations, layerings, surface loads", "why_tests_cant": "a failure shows only for an asymmetric slab on a slope with surface load: tests with p = 0 or a homogeneous slab never see it", "anchors": ["weac/eigensystem.py:Eigensystem.zp"]}
{"id": "C13", "title": "Bedded complementary solutions solve the foundation ODE, all six of them", "statement": "For a valid slab and foundation no eigenvalue is discarded, zh has exactly six columns, each column c(x) satisfies c'(x) = K c(x) for every shift length l, and when the eigenvectors are linearly independent every state is attained by exactly one choice of constants.", "quantifier": "all positions x, all segment lengths l, every output of the eigen-solver meeting its contract", "why_tests_cant": "the eigen-decomposition and position are arbitrary", "anchors": ["weac/eigensystem.py:Eigensystem.calc_eigensystem", "weac/eigensystem.py:Eigensystem.zh"]}
{"id": "C14", "title": "Any bedded solution curve obeys the governing equation and its derivative methods", "statement": "For any constants C, the curve x -> z(x, C, l, phi, bed=True) has derivative dz_dx(z) and second derivative dz_dxdx(z); du0_dxdx, dpsi_dxdx, du0_dxdxdx, dpsi_dxdxdx are the true second and third derivatives of u and psi.", "quantifier": "all constants, positions, lengths, inclinations", "why_tests_cant": "derivative of a parametrised family of functions", "anchors": ["weac/eigensystem.py:Eigensystem.z", "weac/mixins.py:FieldQuantitiesMixin.dz_dx", "weac/mixins.py:FieldQuantitiesMixin.dz_dxdx"]}
{"id": "C15", "title": "Loads decompose correctly on the slope", "statement": "get_weight_load, get_surface_load, get_skier_load return (n,t) with n^2+t^2 the squared total load, t = 0 at phi = 0, n even and t odd in phi; weight load is additive over layers, skier load linear in mass and equal to m*g/lski in N per mm.", "quantifier": "all inclinations, masses, layerings", "why_tests_cant": "trigonometric identities over a continuum", "anchors": ["weac/eigensystem.py:Eigensystem.get_weight_load", "weac/eigensystem.py:Eigensystem.get_surface_load", "weac/eigensystem.py:Eigensystem.get_skier_load"]}
{"id": "C16", "title": "assemble_and_solve returns a field meeting every boundary and transmission condition", "statement": "For any number of segments, the returned constants give a piecewise field with u, w, psi continuous at every segment boundary, N, M, V jumping exactly by the skier load (Ft, -Ft*h/2, Fn), and the end conditions of the system (free, infinite, touchdown, vertical face, unit load); conversely constants meeting all these conditions solve the assembled system.", "quantifier": "every number of segments, every length list, support list, skier-mass list, system type, inclination and touchdown mode (vertical-face systems: without touchdown, see C40)", "why_tests_cant": "the block-assembly index arithmetic must be right for every number of segments", "anchors": ["weac/mixins.py:SolutionMixin.assemble_and_solve", "weac/mixins.py:SolutionMixin.eqs", "weac/mixins.py:SolutionMixin.bc"]}
{"id": "C17", "title": "assemble_and_solve rejects exactly the ill-posed inputs", "statement": "A ValueError is raised when no segment is supported, when the list lengths disagree, or (infinite systems) when a boundary segment is unsupported; otherwise no validation error is raised; on ndarray input with one segment the call fails; on lists the caller's lists are extended by the dummy segment.", "quantifier": "all argument lists and system strings", "why_tests_cant": "decision table over unbounded lists", "anchors": ["weac/mixins.py:SolutionMixin.assemble_and_solve"]}
{"id": "C18", "title": "The boundary value problem is uniquely solvable", "statement": "For a valid slab and weak layer with kt*t^2 < 16*kA55, the assembled matrix is non-singular for every PST or skier configuration with at least one supported segment of positive length: the solver never fails as singular and the result is unique.", "quantifier": "every number of segments, every non-negative length list, any touchdown mode", "why_tests_cant": "well-posedness for infinitely many configurations", "anchors": ["weac/mixins.py:SolutionMixin.assemble_and_solve"]}
{"id": "C19", "title": "Global force balance", "statement": "For a solved free-ended PST (stage A or uncracked) the weak-layer reaction, i.e. the integral of -sigma over all supported segments, equals the total normal load (weight plus surface load) times total length plus the sum of skier normal loads.", "quantifier": "every number of segments and any constants returned by the solver", "why_tests_cant": "statement about integrals of the solution over any segmentation", "anchors": ["weac/mixins.py:SolutionMixin.assemble_and_solve", "weac/mixins.py:FieldQuantitiesMixin.sig"]}
{"id": "C20", "title": "Mirror symmetry of PSTs", "statement": "A PST cut from the right at inclination phi and one cut from the left at -phi are mirror images: u and psi change sign, w is equal at mirrored positions, and hence weak-layer normal stress and energy release rates agree.", "quantifier": "all lengths, crack lengths, inclinations, slabs, touchdown stages", "why_tests_cant": "relates two different runs over a continuum of parameters", "anchors": ["weac/mixins.py:SolutionMixin.assemble_and_solve", "weac/mixins.py:SolutionMixin.bc", "weac/mixins.py:SolutionMixin.calc_segments"]}
{"id": "C21", "title": "Inserting an unloaded segment boundary changes nothing", "statement": "Splitting any segment into two segments of the same support with no skier between them yields the same displacement field at every position.", "quantifier": "every segmentation, every split position", "why_tests_cant": "relational property over arbitrary segmentations", "anchors": ["weac/mixins.py:SolutionMixin.assemble_and_solve"]}
{"id": "C22", "title": "calc_segments builds consistent segment lists", "statement": "For the non-'skiers' systems li, ki, k0 have equal length N and mi length N-1; k0 is all True; without touchdown the lengths add up to L and the unsupported length equals a; with stage C touchdown the segments of a PST with slope-normal faces add up to L - a + td; the lists are accepted by assemble_and_solve for 0 <= a < L; for 'skiers' the user's lists are returned; an unknown system raises ValueError.", "quantifier": "all systems, L, a, m, phi, cf, ratio", "why_tests_cant": "all parameter values and all states", "anchors": ["weac/mixins.py:SolutionMixin.calc_segments"]}
{"id": "C23", "title": "calc_segments does not depend on earlier calls", "statement": "The segments, touchdown stage and collapse height tc obtained from calc_segments(L, a, phi, ...) depend only on the material properties and the arguments, not on earlier calls made on the same object.", "quantifier": "all call histories", "why_tests_cant": "needs two histories ending in the same call; unit tests use fresh objects", "anchors": ["weac/mixins.py:SlabContactMixin.set_touchdown_attributes", "weac/mixins.py:SlabContactMixin.set_tc", "weac/mixins.py:SlabContactMixin.set_phi"]}
{"id": "C24", "title": "Touchdown stage is total, exclusive and monotone in crack length", "statement": "With touchdown enabled exactly one of the stages A, B, C is assigned; the stage never moves backwards when the crack length grows with all else equal; the touchdown length is a in stages A and B and lies strictly between 0 and a in stage C; with touchdown disabled the stage is A.", "quantifier": "all crack lengths, all root-finder behaviours meeting the bracket contract", "why_tests_cant": "continuum of crack lengths, arbitrary root finder", "anchors": ["weac/mixins.py:SlabContactMixin.calc_touchdown_mode", "weac/mixins.py:SlabContactMixin.calc_touchdown_length", "weac/mixins.py:SlabContactMixin.calc_lC"]}
{"id": "C25", "title": "Substitute-stiffness evaluations leave the model unchanged", "statement": "A successful substitute_stiffness call (hence calc_a1, calc_a2, calc_lC, calc_touchdown_mode, assemble_and_solve in stage C) leaves system, kn, kt, eigensystem and all other attributes as they were; only mode and td are changed by the touchdown computation.", "quantifier": "all states, lengths, supports, any number and order of root-finder evaluations", "why_tests_cant": "frame property over arbitrary evaluation histories, including temporary mutation", "anchors": ["weac/mixins.py:SlabContactMixin.substitute_stiffness"]}
{"id": "C26", "title": "Substitute springs are properties of the structure, not of the load", "statement": "substitute_stiffness does not depend on slab weight or surface load: it equals the reciprocal of the rotation (deflection) caused by a unit moment (force).", "quantifier": "all slabs, surface loads, lengths", "why_tests_cant": "compares runs under different loads for all structures", "anchors": ["weac/mixins.py:SlabContactMixin.substitute_stiffness"]}
{"id": "C27", "title": "Derived state depends only on the latest properties", "statement": "After any sequence of property setters followed by calc_fundamental_system (or a last setter with update=True) kn, kt, A11, B11, D11, kA55, K0 and the eigensystem are exactly those of a freshly built object with the latest foundation and beam properties; recalculating twice changes nothing.", "quantifier": "all sequences of setter calls of any length", "why_tests_cant": "unbounded operation histories", "anchors": ["weac/eigensystem.py:Eigensystem.set_beam_properties", "weac/eigensystem.py:Eigensystem.set_foundation_properties", "weac/eigensystem.py:Eigensystem.calc_fundamental_system"]}
{"id": "C28", "title": "Rasterized grid covers the whole beam in order", "statement": "rasterize_solution returns coordinates that start at 0, end at the total length, are strictly increasing, with steps of at most total/num, have at least num+1 and at most num+N points for N nonzero segments, contain every segment boundary, and carry at each point the solution of the segment it lies in (the right-hand one at a boundary). If every segment has length zero the call raises IndexError.", "quantifier": "every list of lengths with at least one nonzero, every num >= 1", "why_tests_cant": "index arithmetic with ceil and cumulative sums for any number of segments", "anchors": ["weac/mixins.py:AnalysisMixin.rasterize_solution"]}
{"id": "C29", "title": "The weak-layer coordinate mask marks exactly the supported closure", "statement": "In the output of rasterize_solution xb is NaN exactly at grid points that do not lie in the closure of a supported segment, and equals xq elsewhere; crack tips are kept.", "quantifier": "every number and pattern of supported / free segments", "why_tests_cant": "combinatorial over all support patterns", "anchors": ["weac/mixins.py:AnalysisMixin.rasterize_solution"]}
{"id": "C30", "title": "Differential energy release rate is additive, non-negative and tip-local", "statement": "gdif returns (I+II, I, II) with every entry non-negative, zero when there is no supported/free transition, equal to the single-tip rate for one edge crack, and averaging the two tips for one centre crack.", "quantifier": "all constants, segment lists and support patterns", "why_tests_cant": "all support patterns and numbers of tips", "anchors": ["weac/mixins.py:AnalysisMixin.gdif", "weac/mixins.py:FieldQuantitiesMixin.Gi", "weac/mixins.py:FieldQuantitiesMixin.Gii"]}
{"id": "C31", "title": "Incremental energy release rate is the normalised crack-opening work of the crack segments", "statement": "ginc returns (I+II, I, II), uses exactly the segments supported before and unsupported after, and is zero when no crack advances; both modes count work done with the same sign as stress times conjugate strain.", "quantifier": "all constants, support patterns, any quadrature meeting its contract", "why_tests_cant": "all patterns and solutions", "anchors": ["weac/mixins.py:AnalysisMixin.ginc", "weac/mixins.py:FieldQuantitiesMixin.int1", "weac/mixins.py:FieldQuantitiesMixin.int2", "weac/mixins.py:FieldQuantitiesMixin.gamma"]}
{"id": "C32", "title": "Weak-layer stresses and strains are conjugate", "statement": "sig = kn*t*eps and tau = kt*t*gamma for every solution vector, Gi and Gii equal half the stress-strain product times t, and outputs in kPa, J/m^2, um, cm, m are the documented multiples of the base unit.", "quantifier": "all solution vectors and parameters", "why_tests_cant": "algebraic identities over a continuum", "anchors": ["weac/mixins.py:FieldQuantitiesMixin.sig", "weac/mixins.py:FieldQuantitiesMixin.tau", "weac/mixins.py:FieldQuantitiesMixin.eps", "weac/mixins.py:FieldQuantitiesMixin.gamma"]}
{"id": "C33", "title": "The through-thickness mesh resolves every layer", "statement": "get_zmesh(dz) runs from -h/2 to h/2, non-decreasing, contains top and bottom of every layer with that layer's properties, and neighbouring points of a layer are at most dz apart.", "quantifier": "every layering and dz > 0", "why_tests_cant": "ceil-based mesh over any number of layers", "anchors": ["weac/mixins.py:AnalysisMixin.get_zmesh"]}
{"id": "C34", "title": "Slab shear stress is traction-free on top and equals the weak-layer shear stress at the bottom", "statement": "Txz is 0 at the top surface and at the slab bottom equals the shear stress the weak layer exerts on the slab (tau where supported, 0 where unsupported) when there is no surface load, for every mesh size dz.", "quantifier": "all layerings, mesh sizes, solution vectors, inclinations", "why_tests_cant": "exactness of a numerical quadrature on every layered mesh", "anchors": ["weac/mixins.py:AnalysisMixin.Txz", "weac/mixins.py:AnalysisMixin.get_zmesh"]}
{"id": "C35", "title": "Axial slab stress integrates to the section force", "statement": "The trapezoidal integral over the mesh of Sxx (MPa) equals the normal force N, and of z*E/(1-nu^2)*u'(z) the moment M in the limit, independent of the mesh.", "quantifier": "all layerings, mesh sizes, solution vectors, inclinations", "why_tests_cant": "holds or fails for all meshes at once", "anchors": ["weac/mixins.py:AnalysisMixin.Sxx", "weac/mixins.py:FieldQuantitiesMixin.N"]}
{"id": "C36", "title": "Principal stresses are the eigenvalues of the stress tensor", "statement": "principal_stress_slab max/min are the larger/smaller root of s^2-(Sxx+Szz)s+(Sxx*Szz-Txz^2)=0 and bound both normal stresses; weak-layer values bound sigma and 0; invalid component or normalisation requests raise ValueError; normalised results do not depend on the unit argument.", "quantifier": "all stress states and both units", "why_tests_cant": "inequalities over a continuum", "anchors": ["weac/mixins.py:AnalysisMixin.principal_stress_slab", "weac/mixins.py:AnalysisMixin.principal_stress_weaklayer"]}
{"id": "C37", "title": "Weak-layer output filters keep coordinate-stress pairs aligned", "statement": "get_weaklayer_shearstress / normalstress return x/10 and stresses of equal length; with removeNaNs exactly the pairs with a coordinate remain, in order; without it the stress is NaN exactly where the coordinate is NaN.", "quantifier": "arrays of any length with any NaN pattern", "why_tests_cant": "all NaN patterns", "anchors": ["weac/mixins.py:OutputMixin.get_weaklayer_shearstress", "weac/mixins.py:OutputMixin.get_weaklayer_normalstress"]}
{"id": "C38", "title": "Every public model class can run the documented workflow", "statement": "Layered and Inverse objects built with their documented arguments (including default layers and ndarray layers) can call calc_segments and assemble_and_solve.", "quantifier": "all documented constructor arguments", "why_tests_cant": "class-composition property", "anchors": ["weac/layered.py:Layered.__init__", "weac/inverse.py:Inverse"]}
{"id": "C39", "title": "Built-in profiles load consistently", "statement": "load_dummy_profile is case-insensitive, returns equally many layers and moduli with positive entries for every id of the database, and raises ValueError for any other id; set_beam_properties with a string uses its last whitespace-separated word.", "quantifier": "all strings", "why_tests_cant": "infinite domain of strings", "anchors": ["weac/tools.py:load_dummy_profile", "weac/eigensystem.py:Eigensystem.set_beam_properties"]}
{"id": "C40", "title": "Touchdown of a vertical-face PST is a displacement condition", "statement": "In touchdown stages B and C the free end of a PST with vertical faces ('vpst-', '-vpst') rests on the collapsed weak layer: the computed deflection there equals the touchdown distance tc, exactly as for slope-normal faces.", "quantifier": "all vertical-face systems in stage B or C, all slabs, inclinations and segments", "why_tests_cant": "a silent mix-up of a force row and a displacement value, visible only in the meaning of the unknowns", "anchors": ["weac/mixins.py:SolutionMixin.bc", "weac/mixins.py:SolutionMixin.assemble_and_solve"]}
{"id": "C41", "title": "Transverse slab stress is traction-free on top and meets the weak-layer stress at the bottom", "statement": "Szz is 0 at the top surface; over supported parts it equals at every grid point the double depth integral of the second derivative of the axial stress plus weight, and at the bottom the weak-layer normal stress minus half the weak-layer thickness times the rate of the weak-layer shear stress (no surface load), within an error quadratic in dz; over unsupported parts the bottom value is 0.", "quantifier": "all layerings, mesh sizes, solution vectors, inclinations", "why_tests_cant": "the discretisation error bound and the bottom value need the equilibrium equations for arbitrary states; a test sees one mesh and one state", "anchors": ["weac/mixins.py:AnalysisMixin.Szz", "weac/mixins.py:FieldQuantitiesMixin.du0_dxdxdx", "weac/mixins.py:FieldQuantitiesMixin.dpsi_dxdxdx"]}
{"id": "C42", "title": "Slab outputs are consistent across units, locations and coordinates", "statement": "get_slab_displacement, get_slab_deflection and get_slab_rotation return coordinates in cm (NaN kept) and values that differ between units by exactly the conversion factor (m, cm, mm, um; degrees, radians); the displacement at mid height is the mean of those at top and bottom; an unknown location or unit is rejected with an exception.", "quantifier": "all arrays, units, locations", "why_tests_cant": "holds for arrays of every length and content; the factor and location tables have to agree for all of them", "anchors": ["weac/mixins.py:OutputMixin.get_slab_displacement", "weac/mixins.py:OutputMixin.get_slab_deflection", "weac/mixins.py:OutputMixin.get_slab_rotation"]}
{"id": "C43", "title": "Stage limits and touchdown length are the lengths at which contact starts and spreads", "statement": "At the crack length reported by calc_a1 the free end of a slab that is carried at the crack tip by the substitute springs of the remaining column has sunk exactly by the collapse height, and a shorter cut would need the ground to pull; at the length reported by calc_a2 a slab whose end rests on the ground lies flat there; at the length reported by calc_lC the slab with the touched-down part acting as a rotational spring meets the ground with slope zero. What the root finder leaves as residual is the remaining gap or slope.", "quantifier": "all slabs, weak layers, crack lengths below the column length, loads and collapse heights", "why_tests_cant": "the closed-form polynomials have to agree with the solution of the beam equations for every combination of stiffnesses; a test compares one number", "anchors": ["weac/mixins.py:SlabContactMixin.calc_a1", "weac/mixins.py:SlabContactMixin.calc_a2", "weac/mixins.py:SlabContactMixin.calc_lC", "weac/mixins.py:SlabContactMixin.substitute_stiffness"]}
{"id": "C44", "title": "touchdown_distance reports three lengths of one and the same column", "statement": "touchdown_distance returns the cut length at first contact, the cut length at full contact and the touchdown length for a long cut, all for the given slab, weak layer and inclination, positive and below the column length; it accepts list, string and array layers.", "quantifier": "all layerings, parametrisation constants, weak layers and inclinations", "why_tests_cant": "the results come from two successive computations on one stateful object; that both use the same collapse height is a statement about all inclinations", "anchors": ["weac/tools.py:touchdown_distance", "weac/mixins.py:SlabContactMixin.set_touchdown_attributes"]}
{"id": "C45", "title": "Potentials of a propagation saw test are the work of the loads and the stored energy", "statement": "For 'pst-' and '-pst', external_potential is minus the work of weight and surface load on the displacements of the slab including the part lying on the base, internal_potential is the energy stored in slab, weak layer and end spring, hence never negative, and total_potential is their sum; the error of the grid mean vanishes as the grid is refined. Other systems are refused.", "quantifier": "all slabs, solution constants, segment lengths, inclinations and grid sizes", "why_tests_cant": "grid means have to converge to integrals for every solution; that an energy cannot be negative is a statement about all constants", "anchors": ["weac/mixins.py:OutputMixin.external_potential", "weac/mixins.py:OutputMixin.internal_potential", "weac/mixins.py:OutputMixin.total_potential"]}
{"id": "C46", "title": "The stress envelope says whether a stress state fails", "statement": "stress_envelope returns a value below 1 for stress states inside the chosen failure surface, 1 on it and more outside; it is 0 exactly without stress, does not depend on the sign of the shear stress, grows when the stresses are scaled up, accepts a convex set, never judges a denser weak layer weaker, agrees with the failure curve that is plotted for the same weak layer, and refuses unknown envelope names.", "quantifier": "all stresses, scaling factors, orders, densities, envelope names", "why_tests_cant": "a verdict for every point of a plane; tests compare single points and miss regions where the verdict is reversed", "anchors": ["examples/criterion_check.py:stress_envelope", "examples/criterion_check.py:failure_envelope_adam_unpublished", "examples/criterion_check.py:failure_envelope_schottner", "examples/criterion_check.py:failure_envelope_mede"]}
{"id": "C47", "title": "The fracture toughness criterion compares energy release with toughness", "statement": "fracture_toughness_criterion is nonnegative, 0 exactly without energy release, 1 at either pure-mode toughness, monotone in both energy release rates, and above 1 when either exceeds its toughness; the plotted fracture_toughness_envelope is its boundary, for float and integer arrays.", "quantifier": "all pairs of energy release rates, all arrays", "why_tests_cant": "monotonicity and the agreement of curve and criterion are statements about a continuum of values with rounded exponents", "anchors": ["examples/criterion_check.py:fracture_toughness_criterion", "examples/criterion_check.py:fracture_toughness_envelope"]}
{"id": "C48", "title": "Plotted failure curves are proper strength curves", "statement": "Each failure_envelope function returns a nonnegative, continuous strength that vanishes beyond the compressive strength, with the published strengths at its corner points, and refuses unknown samples; arrays of integers and of floats with the same values give the same curve.", "quantifier": "all normal stresses, scaling factors, densities, samples and array types", "why_tests_cant": "piecewise formulas have to fit together for every parameter; a plot shows it for one", "anchors": ["examples/criterion_check.py:failure_envelope_adam_unpublished", "examples/criterion_check.py:failure_envelope_schottner", "examples/criterion_check.py:failure_envelope_mede", "examples/criterion_check.py:failure_envelope_chandel"]}
{"id": "C49", "title": "Locating a coordinate and splitting the beam keep the beam", "statement": "find_segment_index returns the segment that contains a coordinate and the distance from its beginning, and reports coordinates beyond the beam; split_segments_at_midpoint puts a segment boundary in the middle of the beam and keeps its length and the support at every coordinate.", "quantifier": "all segment lists, all coordinates", "why_tests_cant": "index arithmetic on lists of every length; the failing case (middle in the first segment) is not among the usual test beams", "anchors": ["examples/criterion_check.py:find_segment_index", "examples/criterion_check.py:split_segments_at_midpoint"]}
{"id": "C50", "title": "create_skier_object solves the beam with the skier in the middle", "statement": "create_skier_object returns a system for the given profile, weak layer and inclination that carries the given weight as a single point load in the middle of the beam, on the given support ('crack') or on full support ('nocrack'), with the one set of constants that meets all end and transmission conditions, and weak-layer stresses sampled from this solution in kPa.", "quantifier": "all profiles, weak layers, inclinations, weights, segment lists and supports", "why_tests_cant": "that the constants are the unique equilibrium of the loaded beam is a statement about all solutions; a test compares numbers of one beam", "anchors": ["examples/criterion_check.py:create_skier_object"]}
{"id": "C51", "title": "Stresses under a skier are superposed from slab and skier", "statement": "For a fixed beam and site the weak-layer stresses returned by create_skier_object are affine in the skier weight at every grid point: the stresses for a weighted mean of two weights are the same weighted mean of the stresses, on the same grid and with the same unsupported points.", "quantifier": "all sites, beams, supports, pairs of weights and mixing ratios", "why_tests_cant": "linearity in the load is a statement about all weights and all coordinates; it is what makes a critical weight meaningful", "anchors": ["examples/criterion_check.py:create_skier_object", "weac/mixins.py:SolutionMixin.assemble_and_solve", "weac/mixins.py:AnalysisMixin.rasterize_solution"]}
{"id": "C52", "title": "find_minimum_force returns the least weight that reaches the stress envelope", "statement": "For an elliptic envelope and a slab that the weak layer carries, the greatest distance over the beam is convex in the skier weight, so there is one critical weight: lighter skiers stay inside the envelope everywhere, heavier ones leave it somewhere. On level ground it exists. find_minimum_force ends and returns it up to its tolerance, together with the solution and the distances for the returned weight.", "quantifier": "all sites, beams and weights; all runs of the iteration", "why_tests_cant": "that no lighter skier reaches the envelope is a statement about all lighter skiers; the iteration has to be judged for every slab", "anchors": ["examples/criterion_check.py:find_minimum_force", "examples/criterion_check.py:find_minimum_force_dampened", "examples/criterion_check.py:stress_envelope", "examples/criterion_check.py:create_skier_object"]}
{"id": "C53", "title": "find_new_anticrack_length takes the support away exactly where the envelope is exceeded", "statement": "For a given skier weight, the returned segments have the length of the beam, a boundary under the skier, and are unsupported exactly where the stress on the uncracked weak layer lies outside the envelope, as far as the sampled points tell: every sample outside lies on unsupported segments only, every sample inside on supported ones only, and the returned crack length is the total length of the unsupported segments. Nothing is cracked if no sample is outside; the whole beam is if all are.", "quantifier": "all sites, skier weights and beam lengths; all sampled points; all runs of the root finder", "why_tests_cant": "the number and position of the crossings depends on slab, slope and weight; a test sees a few of them", "anchors": ["examples/criterion_check.py:find_new_anticrack_length", "examples/criterion_check.py:find_roots_around_x", "examples/criterion_check.py:root_function", "examples/criterion_check.py:calculate_sigma_tau", "examples/criterion_check.py:split_segments_at_midpoint"]}
{"id": "C54", "title": "The coupled criterion reports one consistent state of anticrack nucleation", "statement": "If check_coupled_criterion_anticrack_nucleation (or its dampened version) returns True and the slab does not fail by itself, then the returned skier weight, crack length, solution and energy value belong together: the solution is the slab under that weight with the weak layer cracked over the returned length, the energy value compares the energy released by that crack with the toughness and equals 1 within 0.002 (or exceeds 0.98 for the initial crack of one millimetre when stress governs), and all of this holds for the given slab and weak layer. Every lighter weight that was tried releases too little energy, every heavier one enough. If all stresses of the slab exceed the envelope, weight 0 and a crack of the length of the beam are reported.", "quantifier": "all sites for which the functions return; all runs of root finder and quadrature within their contracts", "why_tests_cant": "which exit of the loop is taken depends on slab, slope, envelope and numerics; tests follow a few runs and do not compare the returned values with each other", "anchors": ["examples/criterion_check.py:check_coupled_criterion_anticrack_nucleation", "examples/criterion_check.py:check_coupled_criterion_anticrack_nucleation_dampened", "examples/criterion_check.py:find_new_anticrack_length", "examples/criterion_check.py:fracture_toughness_criterion", "examples/criterion_check.py:create_skier_object"]}
{"id": "C55", "title": "The solution depends continuously on slope, geometry and skier weight", "statement": "If slope angle, segment lengths and skier weights vary continuously while the pattern of support stays fixed, and the input stays well-formed, then assemble_and_solve returns a solution throughout, and its constants and the state at every continuously moving position vary continuously; a crack may shrink to length zero on the way.", "quantifier": "all continuous families of inputs (any parameter space), all segment counts and systems without face touchdown", "why_tests_cant": "continuity is a statement about all neighbouring inputs; searches over crack length, weight or angle rely on it", "anchors": ["weac/mixins.py:SolutionMixin.assemble_and_solve", "weac/mixins.py:FieldQuantitiesMixin", "weac/mixins.py:SolutionMixin.calc_segments"]}
{"id": "C56", "title": "Crack propagation is judged by the energy at the crack tips, and the search finds a critical crack length", "statement": "check_crack_propagation_criterion returns (GI/0.56)^5 + (GII/0.79)^(1/0.45) of the energy release rates (J/m^2) at the crack tips of the solved beam (the two tips of a centre crack share the advance) together with whether this reaches 1. The value varies continuously with skier weight and crack length; without a crack it is that of the weight of the snow cover; a crack over nearly the whole beam grows if the slab is soft enough. find_min_crack_length_self_propagation returns a length within its interval that is critical up to the accuracy of the root finder, raises ValueError exactly when both ends of the interval are on the same side of the criterion, and what it returns is the smallest critical length.", "quantifier": "all sites, skier weights, crack patterns, crack lengths and search intervals; all runs of the root finder within its contract", "why_tests_cant": "a root search is only meaningful if the objective is continuous, which no number of sampled lengths shows; the verdict depends on the solution of a boundary value problem for every input", "anchors": ["examples/criterion_check.py:check_crack_propagation_criterion", "examples/criterion_check.py:find_min_crack_length_self_propagation", "examples/criterion_check.py:g_delta_diff_objective", "examples/criterion_check.py:fracture_toughness_criterion", "weac/mixins.py:AnalysisMixin.gdif"]}
{"id": "C57", "title": "The deformed slab is drawn where it is", "statement": "deformed draws every slab point at its coordinates (cm, depth from the surface) displaced by scale times its displacement, the weak layer exactly where the slab is supported, between the bottom face of the deformed slab and a base line below its deepest point, with outlines along the rims, and everything inside the frame.", "quantifier": "all slabs, solutions, scales, windows and supported patterns", "why_tests_cant": "the picture is compared by eye; a shift of the weak layer or a cropped part looks plausible", "anchors": ["weac/plot.py:deformed", "weac/plot.py:outline", "weac/mixins.py:AnalysisMixin.get_zmesh"]}
{"id": "C58", "title": "The colour scale of a deformed plot is symmetric about zero and covers the values shown", "statement": "The isolevels of deformed are equally spaced, symmetric about zero, end in a number with one significant digit and reach the greatest absolute value of the field on slab and weak layer; the field is the named quantity in the named unit.", "quantifier": "all slabs, solutions, fields and numbers of levels", "why_tests_cant": "values beyond the scale are drawn in the colour of its end and cannot be told from smaller ones", "anchors": ["weac/plot.py:deformed", "weac/plot.py:significant_digits", "weac/mixins.py:AnalysisMixin.principal_stress_slab"]}
{"id": "C59", "title": "outline walks once around an array", "statement": "The values returned by outline are those met on a closed walk around the rim of the array: it starts and ends in the first corner, moves between neighbours, and visits each rim position once.", "quantifier": "all array shapes with at least two rows and columns, all contents", "why_tests_cant": "a test looks at one shape; walking order matters for the polygon drawn", "anchors": ["weac/plot.py:outline"]}
{"id": "C60", "title": "MidpointNormalize is linear with the same slope on both sides of its midpoint", "statement": "Values between vmin and vmax are normalized along one line that sends the midpoint to one half and the farther end to 0 or 1; values outside are clipped; equal distances from the midpoint get opposite colours.", "quantifier": "all limits, midpoints between them, and values", "why_tests_cant": "monotonicity and symmetry speak of all values", "anchors": ["weac/plot.py:MidpointNormalize"]}
{"id": "C61", "title": "tight_central_distribution is symmetric, increasing and denser about zero", "statement": "tight_central_distribution returns the requested number of increasing values from -limit to limit, symmetric about 0 and including it, whose steps grow away from 0.", "quantifier": "all limits, sample counts from 4 and tightness values", "why_tests_cant": "step sizes depend on a real exponent", "anchors": ["weac/plot.py:tight_central_distribution"]}
{"id": "C62", "title": "slab_profile draws one bar per layer at its height", "statement": "slab_profile draws for every layer one bar of the layer's density between the heights of its lower and upper face, the lowest layer first, so that the bars fill the slab without gap or overlap.", "quantifier": "all layer stacks", "why_tests_cant": "heights are accumulated in a loop over any number of layers", "anchors": ["weac/plot.py:slab_profile", "weac/eigensystem.py:Eigensystem.get_ply_coordinates"]}
{"id": "C63", "title": "Line plots mark the segments and label every curve on the curve", "statement": "plot_data shades exactly the unsupported segments, marks the start and the loads, draws the curves handed over and puts each label between two neighbouring points of its curve; displacements, stresses, section forces and energy release rates are shown in the units named on the axis; the comparison with finite elements can be drawn.", "quantifier": "all numbers of curves and samples, all segments", "why_tests_cant": "index arithmetic for labels fails or wraps around only for some numbers of samples", "anchors": ["weac/plot.py:plot_data", "weac/plot.py:displacements", "weac/plot.py:stresses", "weac/plot.py:err_comp", "weac/plot.py:err_modes", "weac/plot.py:fea_disp", "weac/plot.py:fea_stress"]}
{"id": "C64", "title": "Energy is conserved when the slab is loaded and when a crack grows", "statement": "Under dead loads the work of weight, surface load and skiers is twice the energy stored in slab and weak layer. When part of the weak layer fails, the potential of the slab drops by half the work of the former weak-layer tractions on the opening and slip of the new field, that is, by the crack advance times the incremental energy release rate.", "quantifier": "all slabs, slopes, segmentations and crack advances; skier systems, free saw tests and vertical faces", "why_tests_cant": "an identity between integrals over two solved fields; tests compare single numbers with tolerances", "anchors": ["weac/mixins.py:SolutionMixin.assemble_and_solve", "weac/mixins.py:AnalysisMixin.ginc", "weac/eigensystem.py:Eigensystem.calc_system_matrix"]}
{"id": "C65", "title": "The incremental energy release rate of a vanishing crack advance is the differential one", "statement": "If a crack grows by ever smaller steps, the modes returned by ginc tend to the modes returned by gdif for the crack before the step: the rate at the tip for an edge crack, the mean of both tips for a crack that grows equally at both ends.", "quantifier": "all slabs, slopes, segmentations, crack lengths and weights on the crack", "why_tests_cant": "a limit of quotients of two solved fields; tests compare finite steps with loose tolerances", "anchors": ["weac/mixins.py:AnalysisMixin.ginc", "weac/mixins.py:AnalysisMixin.gdif", "weac/mixins.py:SolutionMixin.assemble_and_solve"]}
{"id": "C66", "title": "A skier loads the weak layer by no more than a bound that decreases with depth", "statement": "On level ground, a single skier in the middle of an uncracked slab changes the normal stress of the weak layer by at most spread times the weight per metre of width, where spread = 1/b + kn*b/(2*kA55) for any length b with kn*b^4 <= 8*(D11 - B11^2/A11): the stiffer the slab, the less. The shear stress is bounded likewise. The slab's own weight adds nothing but the cover stress.", "quantifier": "all slabs, weak layers, beam lengths, non-negative skier weights, and all sampled points", "why_tests_cant": "an upper bound for all points and all slabs; a test sees the stress at the points of one slab", "anchors": ["examples/criterion_check.py:create_skier_object", "weac/mixins.py:SolutionMixin.assemble_and_solve", "weac/mixins.py:FieldQuantitiesMixin.sig", "weac/mixins.py:FieldQuantitiesMixin.tau"]}
{"id": "C67", "title": "The influence of skiers and cracks dies out along the slab", "statement": "In a system with skiers, the strain energy of the deviation from the undisturbed slab that lies beyond a distance x from the beginning of a supported end segment is at most exp(1 - x/reach) times that of the segment, with a decay length reach given by the stiffnesses; the changes of normal and shear stress are bounded by the square root of such an exponential. On level ground and without crack, the changes at a distance rho from a skier are bounded by an explicit multiple of the weight times exp(-rho/(2 reach)).", "quantifier": "all slabs, weak layers, slopes, segmentations with supported ends, skier weights and points of the end segments", "why_tests_cant": "a rate that holds for all points and all slabs cannot be read off finitely many numbers", "anchors": ["weac/mixins.py:SolutionMixin.assemble_and_solve", "weac/mixins.py:SolutionMixin.bc", "weac/eigensystem.py:Eigensystem.zh", "examples/criterion_check.py:create_skier_object"]}
{"id": "C68", "title": "Long boundary segments give the state of an infinite slab", "statement": "For every arrangement of skiers and cracks there is exactly one state of the slab of infinite length that is in equilibrium and undisturbed far away, and the solution computed for supported boundary segments of length l or more differs from it, at every point and in every component, by no more than a constant times exp(-l/(2 reach)). Lengthening the boundary segments further therefore hardly changes results.", "quantifier": "all slabs, weak layers, slopes, arrangements of skiers and cracks, and all boundary lengths from some length on", "why_tests_cant": "a limit for lengths that grow without bound; a test compares two lengths", "anchors": ["weac/mixins.py:SolutionMixin.assemble_and_solve", "weac/mixins.py:SolutionMixin.bc", "weac/mixins.py:SolutionMixin.calc_segments", "weac/mixins.py:FieldQuantitiesMixin.z"]}
{"id": "C69", "title": "Results depend on the density over depth, not on how the profile is cut into layers", "statement": "If two lists of layers are equally thick and have the same density at every depth (for instance after cutting a layer in two), then every computation gives the same: stiffnesses, touchdown, segments, constants, grids, stresses, energy release rates, potentials, touchdown_distance, and the verdicts, weights and crack lengths of the criteria. Objects differ in nothing but the list of layers.", "quantifier": "all pairs of layerings of the same snow, all systems, loads, segmentations and sites", "why_tests_cant": "relates two runs for arbitrary profiles; the layer list enters sums, centroids, wedge and stiffness in different ways", "anchors": ["weac/eigensystem.py:Eigensystem.set_beam_properties", "weac/eigensystem.py:Eigensystem.calc_laminate_stiffness_matrix", "weac/tools.py:calc_center_of_gravity", "weac/tools.py:calc_vertical_bc_center_of_gravity", "weac/tools.py:touchdown_distance", "weac/mixins.py:SolutionMixin.assemble_and_solve", "examples/criterion_check.py:check_coupled_criterion_anticrack_nucleation"]}
{"id": "C70", "title": "Results are dimensionally consistent: similar slabs have similar solutions", "statement": "If all lengths of a slab, its weak layer and its segments are multiplied by one factor, all moduli by another, all densities by a third, and surface load and skier weights in proportion, then displacements, rotations, section forces, moments, stresses in weak layer and slab, and energy release rates are multiplied by the factors that dimensional analysis predicts, at corresponding positions; and the scaled problem is solvable if the original is. The springs of the touchdown model scale like stiffnesses.", "quantifier": "all positive factors of length, stiffness and density; all slabs, slopes, systems, touchdown stages and segmentations", "why_tests_cant": "relates two runs for arbitrary real factors; a wrong exponent or a missing factor in one formula can be invisible at the usual magnitudes", "anchors": ["weac/eigensystem.py:Eigensystem.calc_laminate_stiffness_matrix", "weac/eigensystem.py:Eigensystem.calc_system_matrix", "weac/eigensystem.py:Eigensystem.zp", "weac/mixins.py:SolutionMixin.assemble_and_solve", "weac/mixins.py:AnalysisMixin.rasterize_solution", "weac/mixins.py:AnalysisMixin.gdif", "weac/mixins.py:AnalysisMixin.ginc", "weac/mixins.py:AnalysisMixin.Sxx", "weac/mixins.py:AnalysisMixin.Txz", "weac/mixins.py:AnalysisMixin.Szz", "weac/mixins.py:SlabContactMixin.substitute_stiffness", "weac/tools.py:bergfeld"]}
{"id": "C71", "title": "Small residuals of the linear solver and small errors of the loads mean small errors of the results", "statement": "The constants of a system are found by one linear system of equations. Any vector that solves it up to a residual eps in each equation gives displacements, rotations and their derivatives that differ from those of the exact solution by at most K*eps at every point, and stresses of the weak layer accordingly. K depends on slab, weak layer, number of segments, longest unsupported segment and a lower bound for the supported ones, but not on inclination, weights, touchdown data or the length of the supported segments: long beams are no worse conditioned than short ones. Likewise, weights that differ by delta give fields that differ by at most K times delta.", "quantifier": "all slabs, weak layers, systems and stages, segmentations, inclinations, weights, vectors and residuals", "why_tests_cant": "a bound over infinitely many lengths and all vectors; a test sees the rounding error of single runs", "anchors": ["weac/mixins.py:SolutionMixin.assemble_and_solve", "weac/mixins.py:SolutionMixin.eqs", "weac/mixins.py:SolutionMixin.bc", "weac/eigensystem.py:Eigensystem.zh", "weac/mixins.py:FieldQuantitiesMixin.z", "weac/mixins.py:FieldQuantitiesMixin.sig", "weac/mixins.py:FieldQuantitiesMixin.tau"]}
{"id": "C72", "title": "A slope that faces the other way gives the same results in opposite order", "statement": "If the order of segments, supports and weights is reversed and the inclination changes sign, then rasterize_solution returns its arrays in opposite order: positions from the other end, the same NaN entries, the same deflections and normal stresses, opposite tangential displacements, rotations and shear stresses. gdif returns the same energy release rates. create_skier_object and check_crack_propagation_criterion of the examples behave accordingly: the verdict does not depend on the direction in which the slope faces.", "quantifier": "all slabs, slopes, PST, cut-face and skier systems, segmentations and weights, numbers of grid points, sites with a boundary in the middle of the beam", "why_tests_cant": "relates complete output arrays of two runs for arbitrary segmentations; the grids are built from left to right with different rules for the last segment", "anchors": ["weac/mixins.py:AnalysisMixin.rasterize_solution", "weac/mixins.py:AnalysisMixin.gdif", "weac/mixins.py:SolutionMixin.assemble_and_solve", "weac/mixins.py:OutputMixin.get_weaklayer_shearstress", "examples/criterion_check.py:create_skier_object", "examples/criterion_check.py:check_crack_propagation_criterion"]}
{"id": "C73", "title": "Loads superpose: contributions of surface load and several skiers add up", "statement": "For one slab and one segmentation, the solution for a combination of load cases (surface loads, point weights, depths of the collapsed layer) with coefficients that sum to one is the same combination of the solutions: constants, displacements, rotations, section forces, stresses of the weak layer and the sampled arrays. Consequently the changes caused by two groups of skiers add up, the change caused by a load is proportional to it, and the energy release rates of a mean of load cases are at most the mean of their energy release rates. Any loads are solvable if one choice is.", "quantifier": "all slabs, weak layers, inclinations, systems, touchdown stages, segmentations, finite families of load cases and coefficients, all positions", "why_tests_cant": "a linear relation between arbitrarily many runs for arbitrary coefficients; weights, surface load and end conditions enter in different places with offsets by the weight of the slab", "anchors": ["weac/mixins.py:SolutionMixin.assemble_and_solve", "weac/mixins.py:SolutionMixin.bc", "weac/mixins.py:SolutionMixin.eqs", "weac/eigensystem.py:Eigensystem.zp", "weac/eigensystem.py:Eigensystem.set_surface_load", "weac/eigensystem.py:Eigensystem.get_skier_load", "weac/mixins.py:AnalysisMixin.rasterize_solution", "weac/mixins.py:AnalysisMixin.gdif"]}
{"id": "C74", "title": "Sampled arrays miss little: peaks and curves between samples", "statement": "For every solved beam there is a constant such that, for every number of samples, each position of the beam has a sampled point of the same segment at a distance of at most beam length over number of samples, marked as supported if the position is, whose state differs by at most the constant times this distance. Bounds of normal and shear stress read off the sampled supported points hold along the whole supported weak layer up to a multiple of the spacing. Straight lines drawn between neighbouring samples of the displacements and the rotation deviate from the solution by at most a constant times the square of the spacing, also across segment boundaries and under skiers.", "quantifier": "all slabs, weak layers, inclinations, segmentations, constants, all numbers of samples and all positions", "why_tests_cant": "a statement about all positions between the samples and all numbers of samples with one constant", "anchors": ["weac/mixins.py:AnalysisMixin.rasterize_solution", "weac/eigensystem.py:Eigensystem.z", "weac/mixins.py:FieldQuantitiesMixin.sig", "weac/mixins.py:FieldQuantitiesMixin.tau", "weac/mixins.py:OutputMixin.get_weaklayer_shearstress"]}
{"id": "C75", "title": "The length of a long propagation saw test column does not matter", "statement": "In a column with free or vertically cut ends that begins (or, mirrored, ends) with a supported segment, displacements, rotations and derivatives at all positions beyond this segment, and the energy release rates returned by gdif, differ between two lengths L <= L' of that segment by at most a constant times exp(-L/r). Within the segment, at equal distance from the crack, the difference decays exponentially with the distance from the cut end. The distance r depends on slab and weak layer only; the constant does not depend on the lengths.", "quantifier": "all slabs, weak layers, inclinations, cracks, skiers and touchdown stages beyond the supported segment, all lengths from 1 mm on, all positions", "why_tests_cant": "an exponential bound for all pairs of lengths with one constant; tests compare a few lengths", "anchors": ["weac/mixins.py:SolutionMixin.assemble_and_solve", "weac/mixins.py:SolutionMixin.bc", "weac/mixins.py:SolutionMixin.calc_segments", "weac/mixins.py:AnalysisMixin.gdif", "weac/eigensystem.py:Eigensystem.zh", "weac/eigensystem.py:Eigensystem.zp"]}
{"id": "C76", "title": "Stage limits of long propagation saw tests do not depend on the column length", "statement": "The substitute spring stiffnesses of the supported part change by at most a constant times exp(-l/r) when the part of length l is prolonged. The crack lengths of first contact (calc_a1) and full contact (calc_a2) of two columns L <= L' that differ in length only agree up to twice the accuracy of the root finder plus a constant times exp(-L/r). If the crack length keeps this distance from both limits, both columns are in the same stage of touchdown, and in stages A and B the energy release rates of the whole computation (calc_segments, assemble_and_solve, gdif) differ by at most a constant times exp(-L/r). A column over a thousandth of whose length the slab, clamped at the crack tip, would sag onto the collapsed layer is refused with ValueError.", "quantifier": "all slabs, weak layers, inclinations, crack lengths and column lengths beyond an explicit bound; root finders of any accuracy; weight small against the stiffness of the layer as in C24", "why_tests_cant": "an exponential bound for all pairs of lengths, through a root of a function that is itself the result of boundary value problems", "anchors": ["weac/mixins.py:SlabContactMixin.substitute_stiffness", "weac/mixins.py:SlabContactMixin.calc_a1", "weac/mixins.py:SlabContactMixin.calc_a2", "weac/mixins.py:SlabContactMixin.calc_touchdown_mode", "weac/mixins.py:SlabContactMixin.calc_touchdown_system", "weac/mixins.py:SolutionMixin.calc_segments", "weac/mixins.py:AnalysisMixin.gdif"]}
{"id": "C77", "title": "At the crack length of first contact the computed slab just touches the collapsed layer", "statement": "While the touchdown model reports no contact (stage A), the computed free end of the slab is not below the collapsed weak layer; at the crack length of first contact (calc_a1) its deflection is the collapse height tc, so that results do not jump from stage A to stage B.", "quantifier": "all slabs, weak layers, supported lengths, crack lengths and depths of the collapsed layer, on level ground", "why_tests_cant": "the deflection at a length defined by a root of a function of boundary value problems; a test compares single numbers, and small differences pass for rounding", "anchors": ["weac/mixins.py:SlabContactMixin.calc_a1", "weac/mixins.py:SlabContactMixin.substitute_stiffness", "weac/mixins.py:SlabContactMixin.calc_touchdown_mode", "weac/mixins.py:SolutionMixin.assemble_and_solve", "weac/mixins.py:FieldQuantitiesMixin.w"]}
{"id": "C78", "title": "Crack lengths beyond full contact are computed", "statement": "In a saw test with touchdown for which both limits exist, calc_segments succeeds for every crack length up to the column length; beyond the limit of stage B the slab lies flat on the collapsed layer and the free length (calc_lC) is found.", "quantifier": "all slabs, weak layers, inclinations, columns, crack lengths and root finders", "why_tests_cant": "the failing crack lengths form a short interval (about a thousandth of the crack length) just beyond a root that has to be computed first; tests choose crack lengths at random or in coarse steps", "anchors": ["weac/mixins.py:SlabContactMixin.calc_lC", "weac/mixins.py:SlabContactMixin.calc_a2", "weac/mixins.py:SlabContactMixin.calc_touchdown_mode", "weac/mixins.py:SlabContactMixin.calc_touchdown_system", "weac/mixins.py:SolutionMixin.calc_segments"]}
{"id": "C79", "title": "Long supported segments neither overflow nor spoil the linear system", "statement": "The complementary solution of a supported segment, evaluated at any position of the segment with the length of the segment, is bounded by a number that does not depend on the length, whereas evaluated without the length it exceeds every bound. The linear system that assemble_and_solve sets up has bounded entries, and its solutions are bounded by a constant times the right-hand side, with the same constant for all lengths of the supported segments, all inclinations, weights and surface loads. Errors of the constants are not amplified along a segment.", "quantifier": "all slabs, weak layers, systems and touchdown stages; all segmentations of a given number of segments with some supported segment of a given minimum length and unsupported ones up to a given length; all positions", "why_tests_cant": "a bound for all lengths; tests with a few lengths cannot tell a slow loss of accuracy from none", "anchors": ["weac/eigensystem.py:Eigensystem.zh", "weac/eigensystem.py:Eigensystem.calc_eigensystem", "weac/mixins.py:SolutionMixin.assemble_and_solve", "weac/mixins.py:SolutionMixin.eqs", "weac/mixins.py:SolutionMixin.bc"]}
{"id": "C80", "title": "More weight pushes the slab further down", "statement": "For two solutions of assemble_and_solve that differ only in the list of weights, the sum over the boundaries of (change of the weight) times (change of the displacement of that point of the surface in the direction of gravity) is never negative, and positive unless all weights are equal. In particular, if one weight grows and the others stay, the loaded point of the surface moves further in the direction of gravity.", "quantifier": "all slabs, weak layers, systems with weights and touchdown stages; all inclinations, segmentations and pairs of lists of weights, of any sign", "why_tests_cant": "a sign for all pairs of load cases, slabs and cracks; tests compare single loads", "anchors": ["weac/mixins.py:SolutionMixin.assemble_and_solve", "weac/mixins.py:SolutionMixin.eqs", "weac/eigensystem.py:Eigensystem.get_skier_load", "weac/mixins.py:FieldQuantitiesMixin.w", "weac/mixins.py:FieldQuantitiesMixin.u"]}
{"id": "C81", "title": "On level terrain the slab sags over cracks", "statement": "On level terrain an intact slab sinks by its weight (with surface load) per length over the normal stiffness of the weak layer. If no weights stand on the slab and some stretch of it is unsupported, the deflection averaged over the unsupported stretches is larger than that. With weights, the same holds for the mean weighted by the distributed load over the cracks and by the weights at their points.", "quantifier": "all slabs, weak layers, surface loads, segmentations and weights; skier systems, saw tests with free ends and vertical faces; inclination zero", "why_tests_cant": "a sign for all slabs and arrangements of cracks; tests look at single cracks", "anchors": ["weac/mixins.py:SolutionMixin.assemble_and_solve", "weac/mixins.py:SolutionMixin.bc", "weac/mixins.py:FieldQuantitiesMixin.w", "weac/eigensystem.py:Eigensystem.zp", "weac/eigensystem.py:Eigensystem.zh"]}
{"id": "C82", "title": "Saw tests may be cut from either side", "statement": "The whole computation of a saw test with touchdown gives the same result for a cut from the right at inclination phi and for a cut from the left at -phi: the same stage of contact, the same touchdown length, the segments in opposite order, mirrored displacements and the same energy release rates. calc_segments raises an error on one side exactly if it does on the other.", "quantifier": "all slabs, column lengths, crack lengths, inclinations, collapse factors, stiffness ratios, root finders and stages of contact", "why_tests_cant": "relates two complete runs including root finding; the stages use boundary conditions of a named end", "anchors": ["weac/mixins.py:SolutionMixin.calc_segments", "weac/mixins.py:SlabContactMixin.calc_touchdown_system", "weac/mixins.py:SlabContactMixin.calc_a1", "weac/mixins.py:SlabContactMixin.calc_a2", "weac/mixins.py:SlabContactMixin.calc_lC", "weac/mixins.py:SolutionMixin.assemble_and_solve", "weac/mixins.py:AnalysisMixin.gdif"]}
{"id": "C83", "title": "Breaking the weak layer releases energy", "statement": "When part of the weak layer breaks under constant loads, the work of the weak-layer stresses before the break on the displacements after it is at least the energy that was stored in the broken part (its shear part up to the factor 1 - kt*t^2/(16*kA55)). It is therefore positive wherever a loaded slab loses support, and mode I minus mode II of the incremental energy release rate is bounded below by that energy per crack area.", "quantifier": "all slabs, inclinations, segment lengths, weights, patterns of support of which the second is part of the first, and quadratures meeting their contract", "why_tests_cant": "compares two solutions of different systems for all slabs and all patterns of support", "anchors": ["weac/mixins.py:AnalysisMixin.ginc", "weac/mixins.py:FieldQuantitiesMixin.int1", "weac/mixins.py:FieldQuantitiesMixin.int2", "weac/mixins.py:SolutionMixin.assemble_and_solve"]}
{"id": "C84", "title": "The coupled criterion always ends", "statement": "check_coupled_criterion_anticrack_nucleation_dampened doubles the weight in a loop without a limit on the number of rounds until the initial crack of one millimetre releases enough energy. The loop ends for every slab, slope and weak layer: the energy released by any crack grows at least with the square of the weight, so for every crack some weight suffices. So both versions of the coupled criterion return (or raise) after finitely many rounds.", "quantifier": "all sound sites with slabs thicker than 0.01 mm, all envelopes, dampening factors and quadratures meeting their contract", "why_tests_cant": "non-termination cannot be observed by a test; the growth has to be shown for all slabs and arbitrarily large weights", "anchors": ["examples/criterion_check.py:check_coupled_criterion_anticrack_nucleation_dampened", "examples/criterion_check.py:check_coupled_criterion_anticrack_nucleation", "examples/criterion_check.py:fracture_toughness_criterion", "weac/mixins.py:AnalysisMixin.ginc"]}
{"id": "C85", "title": "The computed solutions represent every state of a supported segment", "statement": "For every slab and weak layer that set_foundation_properties accepts, the six columns of zh(bed=True) reach every state of a supported segment by exactly one choice of constants, so that assemble_and_solve can determine the constants.", "quantifier": "all slabs, thicknesses, moduli and Poisson ratios of the weak layer, all positions and segment lengths", "why_tests_cant": "the exceptional stiffnesses are isolated irrational numbers which no sampled test meets, although the result is ill-conditioned around them", "anchors": ["weac/eigensystem.py:Eigensystem.calc_eigensystem", "weac/eigensystem.py:Eigensystem.zh", "weac/eigensystem.py:Eigensystem.set_foundation_properties", "weac/mixins.py:SolutionMixin.assemble_and_solve"]}
{"id": "C86", "title": "Results do not depend on which eigenvectors the numerical library returns", "statement": "An eigenvector is determined up to a factor, and numpy.linalg.eig promises neither a scaling nor an order of the eigenpairs; both change between LAPACK builds. Two libraries that both return correct eigenpairs give the same results: the same segments, displacements and stresses along the slab, energy release rates, total potential, touchdown mode and lengths, the same verdicts and weights of the criteria, and the same exception where there is one. Only the eigensystem and the free constants differ.", "quantifier": "all slabs, weak layers, systems, segments, weights, inclinations, quadratures, root finders and pairs of eigenvalue solvers meeting their contract", "why_tests_cant": "a test runs with one library; other correct libraries cannot be enumerated", "anchors": ["weac/eigensystem.py:Eigensystem.calc_eigensystem", "weac/eigensystem.py:Eigensystem.zh", "weac/mixins.py:SolutionMixin.assemble_and_solve", "weac/mixins.py:SlabContactMixin.calc_touchdown_system", "weac/mixins.py:AnalysisMixin.rasterize_solution", "weac/mixins.py:AnalysisMixin.ginc", "weac/mixins.py:AnalysisMixin.gdif", "weac/tools.py:touchdown_distance", "examples/criterion_check.py:check_coupled_criterion_anticrack_nucleation"]}
{"id": "C87", "title": "Effects of a skier here on a place there are the same the other way round, up to the thickness of the weak layer", "statement": "If a weight is added to the slab at one place, another place sinks by some amount in the direction of gravity. The first place sinks by nearly the same amount if the weight is added at the other place: the two differ by at most 2c/(1-c) times the geometric mean of how much each place sinks under the weight itself, where c^2 = t^2 kt / (16 kA55) with the thickness t and the shear stiffness kt of the weak layer and the shear stiffness kA55 of the slab. The same holds for the works of any two changes of the weights on each other's displacements.", "quantifier": "all layered slabs with a soft enough weak layer, systems, boundary types, segmentations with cracks, inclinations, numbers and changes of the weights", "why_tests_cant": "a statement on all pairs of places, weights and slabs; a test compares a few numbers, and the tolerance that a correct program must meet follows only from the proof", "anchors": ["weac/mixins.py:SolutionMixin.assemble_and_solve", "weac/mixins.py:FieldQuantitiesMixin.w", "weac/mixins.py:FieldQuantitiesMixin.u", "weac/eigensystem.py:Eigensystem.get_skier_load"]}
{"id": "C88", "title": "Rounding errors in the set-up of a slab stay small", "statement": "Computed in floating point, thickness, centre of gravity, weight and moduli of a layered slab, its extensional, coupling, bending and shear stiffnesses, their determinant, the stiffnesses of the weak layer and the weight of the wedge at a vertical face differ from the exact values by no more than the unit roundoff times the number of operations times the size of the quantities involved. A slab of three layers has errors of some 1e-15; there is no hidden cancellation.", "quantifier": "all numbers of layers, positive densities and thicknesses, Poisson ratios up to 0.7, and all ways of rounding with a given relative error", "why_tests_cant": "rounding errors vary with every input; a test sees those of a few inputs and cannot bound them", "anchors": ["weac/tools.py:calc_center_of_gravity", "weac/tools.py:calc_vertical_bc_center_of_gravity", "weac/tools.py:bergfeld", "weac/eigensystem.py:Eigensystem.set_beam_properties", "weac/eigensystem.py:Eigensystem.get_ply_coordinates", "weac/eigensystem.py:Eigensystem.calc_laminate_stiffness_matrix", "weac/eigensystem.py:Eigensystem.calc_foundation_stiffness", "weac/eigensystem.py:Eigensystem.get_weight_load"]}
{"id": "C89", "title": "Results depend continuously on the materials", "statement": "If densities and thicknesses of the layers, thickness, modulus and Poisson's ratio of the weak layer, surface load, slab length, crack length, skier weight and inclination change a little, displacements, rotations, their derivatives, section forces and weak-layer stresses at any position change a little, for every system type, although the eigenvectors from which the solution is composed may jump between normalisations, orders and real and complex pairs. So stiffnesses can be fitted to measurements by varying them.", "quantifier": "all continuous families of layerings, weak layers, loads, geometries, skiers and inclinations below 90 degrees, all system types, all segments and positions, and all eigenvalue solvers meeting their contract", "why_tests_cant": "continuity is a statement about all neighbourhoods of all inputs; the code switches between real and complex eigenvalues, and no finite set of runs shows the absence of jumps", "anchors": ["weac/eigensystem.py:Eigensystem.calc_eigensystem", "weac/eigensystem.py:Eigensystem.set_beam_properties", "weac/eigensystem.py:Eigensystem.set_foundation_properties", "weac/eigensystem.py:Eigensystem.set_surface_load", "weac/mixins.py:SolutionMixin.calc_segments", "weac/mixins.py:SolutionMixin.assemble_and_solve", "weac/mixins.py:SlabContactMixin.substitute_stiffness", "weac/mixins.py:FieldQuantitiesMixin.sig", "weac/mixins.py:FieldQuantitiesMixin.tau"]}
{"id": "C90", "title": "Rounding errors in the evaluation of a solution stay small", "statement": "For given constants, the loads, state vectors, displacements, section forces, weak-layer stresses and energy release rates that are computed in floating point differ from the values of the formulas by no more than the unit roundoff times the number of operations times the size of the terms involved, at every position of segments of every length. The normal stress and the mode I energy release rate of a given state have small relative errors. Long supported segments cost accuracy only through the phase of oscillating solutions, in proportion to the distance from the left end of the segment.", "quantifier": "all stored slabs and weak layers, constants, positions, segment lengths, inclinations, skier weights and units, all ways of rounding with a given relative error, all elementary functions of given accuracy and all orders of summation in matrix products", "why_tests_cant": "rounding errors vary with every input; a test sees those of a few inputs and cannot bound them, and exponentials of long segments look dangerous", "anchors": ["weac/eigensystem.py:Eigensystem.get_weight_load", "weac/eigensystem.py:Eigensystem.get_surface_load", "weac/eigensystem.py:Eigensystem.get_skier_load", "weac/eigensystem.py:Eigensystem.zh", "weac/eigensystem.py:Eigensystem.zp", "weac/eigensystem.py:Eigensystem.z", "weac/mixins.py:FieldQuantitiesMixin.u", "weac/mixins.py:FieldQuantitiesMixin.N", "weac/mixins.py:FieldQuantitiesMixin.M", "weac/mixins.py:FieldQuantitiesMixin.V", "weac/mixins.py:FieldQuantitiesMixin.sig", "weac/mixins.py:FieldQuantitiesMixin.tau", "weac/mixins.py:FieldQuantitiesMixin.Gi", "weac/mixins.py:FieldQuantitiesMixin.Gii"]}
{"id": "C91", "title": "Rounding in the set-up and solution of the linear system changes the results little", "statement": "The coefficients and the right-hand side of the linear system that assemble_and_solve sets up in floating point differ from the exact ones by no more than the unit roundoff times the number of operations times the size of the largest terms. If the solver then solves a system close to the one it was given, as backward stable methods do, and the errors are small enough, then it finds a solution, and displacements, rotations and their derivatives at every point differ from the exact ones by at most a constant times the unit roundoff and the errors of the solver. The constant is the same for all inclinations, weights and lengths of the supported segments.", "quantifier": "coefficients: all systems and touchdown stages; right-hand side and solution: all skier systems, and saw tests with faces normal to the slope in all stages, with the error of the rotational spring as a parameter; all segmentations, inclinations and weights, all ways of rounding with a given relative error, all elementary functions of given accuracy, all solvers of given backward error", "why_tests_cant": "rounding errors vary with every input; a test sees those of a few inputs and has no exact solution to compare with", "anchors": ["weac/mixins.py:SolutionMixin.assemble_and_solve", "weac/mixins.py:SolutionMixin.eqs", "weac/mixins.py:SolutionMixin.bc", "weac/eigensystem.py:Eigensystem.zh", "weac/eigensystem.py:Eigensystem.zp", "weac/eigensystem.py:Eigensystem.get_skier_load", "weac/mixins.py:SlabContactMixin.calc_qt"]}
{"id": "C92", "title": "Rounding changes displacements, stresses and energy release rates little, from the segments to the result", "statement": "The chain assemble_and_solve, z, sig/tau/Gi/Gii/N/M/V in floating point, with a solver that solves a system close to the one it was given: if the errors are small enough, every step succeeds, and displacements, rotations and their derivatives at every point of every segment, and the stresses, energy release rates and section forces that follow from them, differ from the exact ones by at most explicit multiples of the unit roundoff, the errors of the solver and (in stage C of a saw test) the error of the rotational spring, with one constant for all inclinations, weights and lengths of the supported segments.", "quantifier": "all skier systems and all saw tests with faces normal to the slope, in all touchdown stages, all segmentations, inclinations, weights, positions and units, all ways of rounding with a given relative error, all elementary functions of given accuracy, all solvers of given backward error", "why_tests_cant": "a test has no exact solution to compare with, and errors of one step could be amplified by the next for other inputs", "anchors": ["weac/mixins.py:SolutionMixin.assemble_and_solve", "weac/eigensystem.py:Eigensystem.z", "weac/mixins.py:FieldQuantitiesMixin.sig", "weac/mixins.py:FieldQuantitiesMixin.tau", "weac/mixins.py:FieldQuantitiesMixin.Gi", "weac/mixins.py:FieldQuantitiesMixin.Gii", "weac/mixins.py:FieldQuantitiesMixin.N", "weac/mixins.py:FieldQuantitiesMixin.M", "weac/mixins.py:FieldQuantitiesMixin.V"]}
