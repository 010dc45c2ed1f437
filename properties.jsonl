{"id": "C01", "title": "Radial integration is a linear functional and rejects wrong shapes", "statement": "For any radial grid object, integrate(arr) raises ValueError exactly when arr does not have one entry per grid point; otherwise integrate(a*f + b*g) = a*integrate(f) + b*integrate(g) for all real a, b.", "quantifier": "all grids (any number of points, any order), all integrands f, g of matching length, all real a, b", "why_tests_cant": "tests fix a few grids and integrands; linearity is what every fitting formula (gradients, sums of coefficients) relies on for all of them", "anchors": ["bfit/grid.py:_BaseRadialGrid.integrate"]}
{"id": "C02", "title": "Radial integration is exact for straight lines and agrees with the trapezoid areas", "statement": "integrate of the samples of r -> a + b*r on any radial grid equals a*(r_last - r_first) + b*(r_last^2 - r_first^2)/2, and the grid value is always the sum of the trapezoid areas of consecutive points.", "quantifier": "all grids with at least one point, all real a, b, all integrands", "why_tests_cant": "an exactness statement ranges over infinitely many grids and slopes", "anchors": ["bfit/grid.py:_BaseRadialGrid.integrate"]}
{"id": "C03", "title": "Radial integration is monotone on ascending grids", "statement": "On every grid whose points are ascending, f <= g pointwise implies integrate(f) <= integrate(g); in particular a non-negative integrand never integrates to a negative number.", "quantifier": "all ascending grids, all pairs of integrands", "why_tests_cant": "positivity of integrals underlies non-negative objective values; cannot be sampled", "anchors": ["bfit/grid.py:_BaseRadialGrid.integrate", "bfit/fit.py:_BaseFit.integrate"]}
{"id": "C04", "title": "UniformRadialGrid points", "statement": "UniformRadialGrid(n, a, b) with n>0 and a<b has exactly n points, the first is a, for n>=2 the last is b, consecutive points differ by exactly (b-a)/(n-1), they are strictly increasing and all lie in [a,b]; any other argument combination raises TypeError/ValueError. (The class docstring says the interval is half-open; the code includes the upper bound.)", "quantifier": "all integers n and all int/float bounds, including invalid ones", "why_tests_cant": "ranges over every size and interval", "anchors": ["bfit/grid.py:UniformRadialGrid.__init__"]}
{"id": "C05", "title": "ClenshawRadialGrid points", "statement": "A ClenshawRadialGrid has exactly num_core_pts + num_diffuse_pts + len(extra_pts) points, in ascending order, a permutation of the documented cosine formulas plus the extra points; core points lie in [0, 1/(2Z)], diffuse points in (0, 25]; r=0 is a grid point iff include_origin and num_core_pts>0 (or an extra point is 0). Invalid arguments raise TypeError.", "quantifier": "all atomic numbers, point counts (including 0), extra point lists, include_origin flags", "why_tests_cant": "ranges over every size; the ordering guarantee is what makes the trapezoid rule meaningful", "anchors": ["bfit/grid.py:ClenshawRadialGrid.__init__", "bfit/grid.py:ClenshawRadialGrid._get_points"]}
{"id": "C06", "title": "CubicGrid enumerates its lattice in row-major order", "statement": "CubicGrid(origin, axes, (nx,ny,nz)) has nx*ny*nz points and the point with flat index (i*ny+j)*nz+k is origin + i*axes[0] + j*axes[1] + k*axes[2].", "quantifier": "all shapes, axes and origins", "why_tests_cant": "index arithmetic over every shape", "anchors": ["bfit/grid.py:CubicGrid.__init__"]}
{"id": "C07", "title": "CubicGrid weights and integration", "statement": "Every weight of a CubicGrid equals |det(axes)|, independent of the shape; integrate is linear, monotone, returns number_of_points*|det(axes)| for the constant one, and raises ValueError exactly for arrays of the wrong length; a shape with two negative entries is accepted by the constructor, but has no points and integrate raises ValueError on it (unless the product of the shape is one).", "quantifier": "all shapes without negative entries, axes, integrands; all shapes with two negative entries for the last part", "why_tests_cant": "ranges over all shapes; volume/number cancellation holds only as an identity", "anchors": ["bfit/grid.py:CubicGrid._calculate_volume", "bfit/grid.py:CubicGrid._choose_weight_scheme", "bfit/grid.py:CubicGrid.integrate"]}
{"id": "C08", "title": "CubicGrid.from_molecule encloses the molecule with the requested margin", "statement": "The box spanned by CubicGrid.from_molecule(..., rotate=False) contains every atom together with the requested extension on each side. (False of the code in general: the box is centred on the charge-weighted mean, not on the middle of the atoms.)", "quantifier": "all molecules, spacings, extensions", "why_tests_cant": "a geometric guarantee over all molecules", "anchors": ["bfit/grid.py:CubicGrid.from_molecule"]}
{"id": "C09", "title": "CubicGrid.from_molecule aligns the axes with the principal axes", "statement": "With rotate=True the grid axes are the eigenvectors of the inertia tensor scaled by the spacing, and the cell volume is spacing^3. (The code stores eigenvectors as columns but steps along rows.)", "quantifier": "all molecules, all orthonormal eigenvector matrices the linear-algebra routine may return", "why_tests_cant": "ranges over all molecules and eigenvector sign/order choices", "anchors": ["bfit/grid.py:CubicGrid.from_molecule"]}
{"id": "C10", "title": "Atomic Gaussian density equals the documented formula", "statement": "AtomicGaussianDensity.evaluate(coeffs, expons) returns, at every grid point, sum_i c_i exp(-a_i r^2) over the s-type functions plus sum_j d_j r^2 exp(-b_j r^2) over the p-type functions, with the normalisation factors (a/pi)^1.5 and 2 b^2.5/(3 pi^1.5) when normalize=True; coefficients are s-first then p.", "quantifier": "all numbers of s and p functions, all points, all coefficients and exponents (non-negative exponents when normalised)", "why_tests_cant": "slicing errors between s and p parts show up only for particular counts", "anchors": ["bfit/model.py:AtomicGaussianDensity.evaluate", "bfit/model.py:AtomicGaussianDensity._eval_s", "bfit/model.py:AtomicGaussianDensity._eval_p"]}
{"id": "C11", "title": "Atomic derivative columns are the exact partial derivatives", "statement": "evaluate(..., deriv=True) returns a matrix with 2*nbasis columns whose column k<nbasis is the partial derivative of the density w.r.t. coefficient k and whose column nbasis+k is the partial derivative w.r.t. exponent k, at every grid point.", "quantifier": "all s/p counts, normalised or not, all points, coefficients, and exponents (positive when normalised)", "why_tests_cant": "finite-difference tests check sampled parameters to finite accuracy only", "anchors": ["bfit/model.py:AtomicGaussianDensity.evaluate", "bfit/model.py:AtomicGaussianDensity._eval_s", "bfit/model.py:AtomicGaussianDensity._eval_p"]}
{"id": "C12", "title": "Normalised basis functions integrate to one", "statement": "With normalize=True each s-type and p-type basis function integrates to exactly 1 over 3D space (radially with 4 pi r^2), hence the integral of the model is the sum of its coefficients.", "quantifier": "all positive exponents, all s/p counts, all coefficients", "why_tests_cant": "needs exact improper integrals for every exponent", "anchors": ["bfit/model.py:AtomicGaussianDensity._eval_s", "bfit/model.py:AtomicGaussianDensity._eval_p"]}
{"id": "C13", "title": "Model is linear in coefficients and non-negative for non-negative coefficients", "statement": "For fixed exponents evaluate is linear in the coefficients, and non-negative coefficients give a density that is >= 0 everywhere (convex sums of Gaussians are densities).", "quantifier": "all models, all exponents, all coefficient vectors", "why_tests_cant": "universal over parameters", "anchors": ["bfit/model.py:AtomicGaussianDensity.evaluate", "bfit/model.py:MolecularGaussianDensity.evaluate"]}
{"id": "C14", "title": "Molecular density is the sum of its atoms", "statement": "MolecularGaussianDensity.evaluate(coeffs, expons) equals the sum over centres of the atomic densities with consecutive blocks of the parameter vectors, for any number of centres and any per-centre s/p counts; with one centre it equals the atomic model.", "quantifier": "all numbers of centres, per-centre basis counts, points, parameters", "why_tests_cant": "offset bookkeeping must be right for every partition", "anchors": ["bfit/model.py:MolecularGaussianDensity.evaluate", "bfit/model.py:MolecularGaussianDensity.__init__"]}
{"id": "C15", "title": "Molecular derivative layout", "statement": "evaluate(..., deriv=True) of a molecular model has 2*nbasis columns; column k (k<nbasis) is the partial derivative w.r.t. coefficient k and column nbasis+k the one w.r.t. exponent k of the whole molecular density.", "quantifier": "all numbers of centres and per-centre counts", "why_tests_cant": "column offsets for every partition", "anchors": ["bfit/model.py:MolecularGaussianDensity.evaluate"]}
{"id": "C16", "title": "assign_basis_to_center returns the owning centre", "statement": "For every valid basis index the returned centre k is the unique one whose block of parameters contains the index (sum of counts before k <= index < sum of counts up to k); an index >= nbasis raises ValueError.", "quantifier": "all molecules and all indices", "why_tests_cant": "boundary indices for every partition", "anchors": ["bfit/model.py:MolecularGaussianDensity.assign_basis_to_center"]}
{"id": "C17", "title": "prefactor matches the basis function type", "statement": "model.prefactor has one entry per basis function, 1.5 for every s-type and 2.5 for every p-type one, in parameter order, for atomic and molecular models.", "quantifier": "all models", "why_tests_cant": "alignment over every partition", "anchors": ["bfit/model.py:AtomicGaussianDensity.prefactor", "bfit/model.py:MolecularGaussianDensity.prefactor"]}
{"id": "C18", "title": "radii are distances to the centre", "statement": "model.radii are the Euclidean distances of the points to the centre: never negative, zero exactly at the centre, unchanged when points and centre are translated together; the density depends on the points only through them.", "quantifier": "all point sets of any dimension and centres", "why_tests_cant": "geometric identity for all inputs", "anchors": ["bfit/model.py:AtomicGaussianDensity.__init__", "bfit/model.py:MolecularGaussianDensity.__init__"]}
{"id": "C19", "title": "Model argument validation", "statement": "The atomic model cannot be constructed with negative counts or with no basis function at all, and evaluate raises ValueError unless coeffs and expons are 1-D with exactly nbasis entries; whenever evaluate returns, the result has one value per point.", "quantifier": "all argument combinations", "why_tests_cant": "every invalid combination", "anchors": ["bfit/model.py:AtomicGaussianDensity.__init__", "bfit/model.py:AtomicGaussianDensity.evaluate", "bfit/model.py:AtomicGaussianDensity.change_numb_s_and_numb_p"]}
{"id": "C20", "title": "Squared difference", "statement": "SquaredDifference.evaluate returns (f-g)^2 pointwise: >=0, zero iff f=g, symmetric; with deriv=True the second array is its exact derivative w.r.t. the model value.", "quantifier": "all arrays", "why_tests_cant": "universal over values", "anchors": ["bfit/measure.py:SquaredDifference.evaluate"]}
{"id": "C21", "title": "Kullback-Leibler integrand and derivative", "statement": "Wherever the density is positive and the model exceeds the mask value, KLDivergence.evaluate returns f*ln(f/g) and -f/g, the exact derivative w.r.t. the model value. 'Above the mask' includes that density/model is below 2^1022, where numpy's masked division gives up.", "quantifier": "all arrays, all mask values >= 0", "why_tests_cant": "universal over values", "anchors": ["bfit/measure.py:KLDivergence.evaluate"]}
{"id": "C22", "title": "Kullback-Leibler masking", "statement": "Model values at or below the mask contribute exactly zero to the KL integrand, for any density value; the derivative there is -1.", "quantifier": "all finite densities, all mask values, all model values in [0, mask]", "why_tests_cant": "boundary behaviour (equality with the mask) for every value", "anchors": ["bfit/measure.py:KLDivergence.evaluate"]}
{"id": "C23", "title": "Kullback-Leibler negative-model penalty", "statement": "If any model value is negative, every entry of the returned integrand (and of the derivative) is the configured negative_val; if none is negative the penalty is never applied.", "quantifier": "all arrays with at least one negative entry at any position", "why_tests_cant": "any position, any length", "anchors": ["bfit/measure.py:KLDivergence.evaluate"]}
{"id": "C24", "title": "Zero density contributes zero to Kullback-Leibler", "statement": "By the convention 0 ln 0 = 0 a point where the density vanishes contributes 0 to the KL integrand. (False of the code when the model exceeds the mask there: the entry is NaN.)", "quantifier": "all model values", "why_tests_cant": "a boundary value of a continuous domain", "anchors": ["bfit/measure.py:KLDivergence.evaluate"]}
{"id": "C25", "title": "Undefined model values are not reported as a perfect fit", "statement": "If the model density is NaN at some point the KL measure is not a finite number. (False of the code: masked division replaces the NaN ratio by 1, so a NaN model gets KL contribution 0.)", "quantifier": "all densities", "why_tests_cant": "exceptional values are not sampled by tests", "anchors": ["bfit/measure.py:KLDivergence.evaluate", "bfit/fit.py:_BaseFit.goodness_of_fit"]}
{"id": "C26", "title": "Gibbs inequality on the grid", "statement": "On any grid with non-negative weights, if density > 0 and model > mask everywhere then integrate(KL integrand) >= integrate(density) - integrate(model); so it is >= 0 whenever both integrate to the same value, and it is 0 when model = density. 'Above the mask' includes that density/model is below 2^1022, where numpy's masked division gives up.", "quantifier": "all ascending radial grids and cubic grids, all densities and models", "why_tests_cant": "an inequality over all densities", "anchors": ["bfit/measure.py:KLDivergence.evaluate", "bfit/grid.py"]}
{"id": "C27", "title": "Tsallis integrand and derivative", "statement": "Above the mask with positive density TsallisDivergence.evaluate returns f((f/g)^(alpha-1)-1)/(alpha-1) and -(f/g)^alpha, its exact derivative w.r.t. the model value; construction rejects negative alpha and alpha within 1e-10 of 1. 'Above the mask' includes that density/model is below 2^1022, where numpy's masked division gives up.", "quantifier": "all alpha accepted by the constructor, all arrays", "why_tests_cant": "universal over alpha and values", "anchors": ["bfit/measure.py:TsallisDivergence.__init__", "bfit/measure.py:TsallisDivergence.evaluate"]}
{"id": "C28", "title": "Tsallis upper-bounds Kullback-Leibler for alpha > 1", "statement": "For alpha > 1 the Tsallis integrand is >= the Kullback-Leibler integrand at every point (documented note). (True above the mask; false at masked points, where Tsallis gives -f/(alpha-1) and KL gives 0.) 'Above the mask' includes that density/model is below 2^1022, where numpy's masked division gives up.", "quantifier": "all alpha>1, all densities and models", "why_tests_cant": "an inequality over all values", "anchors": ["bfit/measure.py:TsallisDivergence.evaluate"]}
{"id": "C29", "title": "Tsallis converges to Kullback-Leibler", "statement": "As alpha tends to 1 the Tsallis integrand and derivative converge to the Kullback-Leibler ones at every unmasked point with positive density. 'Above the mask' includes that density/model is below 2^1022, where numpy's masked division gives up.", "quantifier": "all values, limit alpha -> 1", "why_tests_cant": "a limit statement", "anchors": ["bfit/measure.py:TsallisDivergence.evaluate", "bfit/measure.py:KLDivergence.evaluate"]}
{"id": "C30", "title": "Tsallis divergence is non-negative for equal integrals", "statement": "For every accepted alpha > 0, if density and model are positive above the mask and integrate to the same value then the integrated Tsallis divergence is >= 0. 'Above the mask' includes that density/model is below 2^1022, where numpy's masked division gives up.", "quantifier": "all alpha, grids with non-negative weights, densities, models", "why_tests_cant": "an inequality over all values", "anchors": ["bfit/measure.py:TsallisDivergence.evaluate"]}
{"id": "C31", "title": "Measures validate their arguments", "statement": "All measures return arrays of the same length as the density and raise ValueError when model or density is not an array, density is not 1-D, or the shapes differ, and TypeError when deriv is not a bool.", "quantifier": "all argument combinations", "why_tests_cant": "every invalid combination", "anchors": ["bfit/measure.py:SquaredDifference.evaluate", "bfit/measure.py:KLDivergence.evaluate", "bfit/measure.py:TsallisDivergence.evaluate"]}
{"id": "C32", "title": "Spherical integration", "statement": "With spherical=True a fit object integrates f as grid.integrate(4 pi r^2 f); otherwise as grid.integrate(f). Constructing a spherical fit on a multi-dimensional grid or with a negative density raises ValueError.", "quantifier": "all grids, densities, flags", "why_tests_cant": "universal", "anchors": ["bfit/fit.py:_BaseFit.__init__", "bfit/fit.py:_BaseFit.integrate"]}
{"id": "C33", "title": "goodness_of_fit reports the five documented measures", "statement": "goodness_of_fit returns [integral of model, integral |f-g|, max |f-g|, integral (f-g)^2, integral KL]; L1 >= |difference of integrals|, every |f-g| <= L_inf and L_inf is attained, and if the model reproduces a positive density exactly the last four are 0.", "quantifier": "all models, parameters, densities", "why_tests_cant": "universal", "anchors": ["bfit/fit.py:_BaseFit.goodness_of_fit"]}
{"id": "C34", "title": "FPI constructor and Lagrange multiplier", "statement": "KLDivergenceFPI construction yields lagrange_multiplier = integral(density)/integral_dens (exactly 1 when integral_dens is omitted) and raises RuntimeError when that ratio is 0 or NaN.", "quantifier": "all grids, densities, integral_dens values", "why_tests_cant": "degenerate integrals", "anchors": ["bfit/fit.py:KLDivergenceFPI.__init__"]}
{"id": "C35", "title": "FPI step conserves the number of electrons", "statement": "After every coefficient update of the fixed-point iteration the coefficients sum exactly to integral_dens, whatever the previous coefficients and exponents, as long as the model exceeds the mask on the grid; with masked points they sum to at most integral_dens if the density is at least the mask value.", "quantifier": "all models (atomic or molecular), all grids, densities, previous parameters", "why_tests_cant": "conservation law for all states", "anchors": ["bfit/fit.py:KLDivergenceFPI._update_params"]}
{"id": "C36", "title": "FPI step preserves positivity", "statement": "If coefficients are non-negative and exponents are positive before a fixed-point update of a normalised model on a grid with non-negative weights, and every basis function sees positive density away from its centre, then the new parameters are finite, coefficients stay non-negative, positive ones stay positive and exponents stay positive; a basis function that sees density at its centre only gets an infinite or NaN exponent.", "quantifier": "all states", "why_tests_cant": "invariant over all histories", "anchors": ["bfit/fit.py:KLDivergenceFPI._update_params"]}
{"id": "C37", "title": "FPI never increases the Kullback-Leibler divergence", "statement": "For a normalised model, each fixed-point update (coefficients only, exponents only, or both) does not increase the integrated Kullback-Leibler divergence, provided the previous coefficients sum to at most integral_dens, and strictly decreases it unless no parameter changes; hence the history fun reported by run is non-increasing.", "quantifier": "all atomic and molecular models, all grids with non-negative weights, all positive densities, all parameters, all histories", "why_tests_cant": "monotone convergence over all inputs and iteration counts cannot be established by running examples", "anchors": ["bfit/fit.py:KLDivergenceFPI._update_params", "bfit/fit.py:KLDivergenceFPI.run"]}
{"id": "C38", "title": "FPI fixed points are the stationary points", "statement": "With all coefficients positive, parameters left unchanged by a full fixed-point update are exactly those at which the gradient of the constrained KL objective (KL + lagrange_multiplier * sum of coefficients) vanishes, for normalised models.", "quantifier": "all models, all parameters", "why_tests_cant": "equivalence over a continuum", "anchors": ["bfit/fit.py:KLDivergenceFPI._update_params", "bfit/model.py"]}
{"id": "C39", "title": "FPI run is bounded and its history is consistent", "statement": "run performs at most maxiter updates and always stops; fun and performance have one entry per update, fun[k] is the KL entry of performance[k], performance[k] is goodness_of_fit of the k-th parameters, and returned coeffs/exps are the last iterate with one entry per basis function.", "quantifier": "all inputs, thresholds, maxiter, all update behaviours", "why_tests_cant": "every history length", "anchors": ["bfit/fit.py:KLDivergenceFPI.run"]}
{"id": "C40", "title": "FPI run keeps frozen parameters", "statement": "With opt_expons=False the returned exponents are exactly e0, with opt_coeffs=False the returned coefficients are exactly c0; with both False an error is raised if any iteration would run.", "quantifier": "all inputs and histories", "why_tests_cant": "every history", "anchors": ["bfit/fit.py:KLDivergenceFPI.run", "bfit/fit.py:KLDivergenceFPI._update_params"]}
{"id": "C41", "title": "FPI success flag means convergence", "statement": "success=True implies that the last change in the divergence or the last changes in coefficients and exponents are below the thresholds, and parameters are finite. (False of the code: NaN parameters end the loop and are reported as success with fun=0.)", "quantifier": "all inputs and histories", "why_tests_cant": "exceptional histories", "anchors": ["bfit/fit.py:KLDivergenceFPI.run"]}
{"id": "C42", "title": "ScipyFit objective gradient is exact", "statement": "For each mode (both, coefficients only, exponents only) the second value returned by ScipyFit.func is the exact gradient of the first w.r.t. the optimised vector, for the squared-difference, KL and Tsallis measures at points where density is positive and model exceeds the mask.", "quantifier": "all models, weights, parameters, grids", "why_tests_cant": "finite differences only sample", "anchors": ["bfit/fit.py:ScipyFit.func", "bfit/fit.py:ScipyFit.evaluate_model"]}
{"id": "C43", "title": "ScipyFit normalisation constraint", "statement": "const_norm(x) is integral_dens minus the integral of the model at x (zero iff the model integrates to integral_dens), and the constraint handed to the optimiser is defined wherever the objective is. (False for method trust-constr when only coefficients or only exponents are optimised: the constraint is registered without the frozen parameters and raises.)", "quantifier": "all modes, methods, parameters", "why_tests_cant": "all mode/method combinations and sizes", "anchors": ["bfit/fit.py:ScipyFit.const_norm", "bfit/fit.py:ScipyFit.run"]}
{"id": "C44", "title": "ScipyFit.run packs and unpacks parameters correctly", "statement": "The dictionary returned by ScipyFit.run contains the optimiser's vector split into coefficients and exponents, frozen parameters are returned unchanged, sizes equal nbasis, performance is goodness_of_fit of exactly these, and if the optimiser respects the bounds it is given, every optimised parameter is >= 1e-12.", "quantifier": "all optimiser results, modes", "why_tests_cant": "the optimiser's answer is arbitrary", "anchors": ["bfit/fit.py:ScipyFit.run"]}
{"id": "C45", "title": "ScipyFit default construction works", "statement": "ScipyFit(grid, density, model) with default arguments constructs a KL fit. (False of the code: the default measure is the class, not an instance, so TypeError is always raised.)", "quantifier": "all grids, densities, models", "why_tests_cant": "holds or fails for every input at once", "anchors": ["bfit/fit.py:ScipyFit.__init__"]}
{"id": "C46", "title": "pick-one choices", "statement": "get_next_choices on n>=1 functions returns exactly n+1 guesses, the k-th being the old parameters with coeff_val inserted at position k of the coefficients and a new exponent (a_1/factor, a midpoint, or factor*a_n) inserted at position k of the exponents; for factor>=1 ascending positive exponents stay ascending.", "quantifier": "all n, all parameters and factors", "why_tests_cant": "every size and position", "anchors": ["bfit/greedy.py:get_next_choices"]}
{"id": "C47", "title": "pick-two choices", "statement": "get_two_next_choices on n>=1 functions returns (n^2+5n+4)/2 guesses, each with n+2 coefficients and n+2 exponents obtained by two successive pick-one insertions (so the old parameters survive as a subsequence).", "quantifier": "all n, all parameters and factors", "why_tests_cant": "every size", "anchors": ["bfit/greedy.py:get_two_next_choices"]}
{"id": "C48", "title": "pick-two-lose-one choices", "statement": "pick_two_lose_one returns n+2 guesses for each pick-two guess, each with n+1 coefficients and n+1 exponents obtained by deleting the same position from both.", "quantifier": "all n, all parameters and factors", "why_tests_cant": "every size", "anchors": ["bfit/greedy.py:pick_two_lose_one"]}
{"id": "C49", "title": "remove_redundancies leaves no similar exponents", "statement": "The exponents returned by remove_redundancies are a subsequence of the input, pairwise at least eps apart, every dropped exponent was within eps of an earlier one, and nothing is dropped iff the input was already pairwise eps apart; coefficients and exponents keep equal lengths.", "quantifier": "all inputs and eps", "why_tests_cant": "every arrangement of clusters", "anchors": ["bfit/greedy.py:remove_redundancies"]}
{"id": "C50", "title": "remove_redundancies preserves the total coefficient", "statement": "The sum of the coefficients is unchanged by remove_redundancies. (True when similarity is transitive on the input; false for chains a~b~c with a,c not similar.)", "quantifier": "all inputs and eps", "why_tests_cant": "every arrangement of clusters", "anchors": ["bfit/greedy.py:remove_redundancies"]}
{"id": "C51", "title": "The best local guess is picked", "statement": "Among the locally optimised guesses the greedy step continues from the one with the smallest objective value (the earliest on ties), and whether an s- or p-type function is added matches that guess; if no guess has objective below 1e10 the run fails with TypeError.", "quantifier": "all guess lists and objective values", "why_tests_cant": "every list and tie pattern", "anchors": ["bfit/greedy.py:GreedyStrategy._find_best_lparams"]}
{"id": "C52", "title": "Greedy run terminates", "statement": "For every behaviour of the optimiser, the greedy loop stops after at most 5*max(0, max_numb_funcs-1) rounds, and an unsuccessful round leaves the model, counts and best parameters as they were.", "quantifier": "all optimiser behaviours and objective values", "why_tests_cant": "every execution", "anchors": ["bfit/greedy.py:GreedyStrategy.run"]}
{"id": "C53", "title": "Greedy run never gets worse", "statement": "The objective values of the accepted parameter sets are non-increasing, so the returned fun is <= the objective of the one-function solution.", "quantifier": "all executions with real objective values", "why_tests_cant": "every execution", "anchors": ["bfit/greedy.py:GreedyStrategy.run"]}
{"id": "C54", "title": "Greedy result is consistent", "statement": "The returned coeffs and exps both have num_s+num_p entries, are the s part followed by the p part of the last accepted parameters, fun is their objective value, and performance has one row per accepted parameter set.", "quantifier": "all executions with real objective values", "why_tests_cant": "every execution", "anchors": ["bfit/greedy.py:GreedyStrategy.run", "bfit/greedy.py:GreedyStrategy._split_parameters"]}
{"id": "C55", "title": "Greedy respects the maximum number of functions", "statement": "The number of basis functions in the result never exceeds max_numb_funcs. (True for strategies adding one function; with pick-two the result can have max_numb_funcs+1.)", "quantifier": "all executions", "why_tests_cant": "every execution", "anchors": ["bfit/greedy.py:GreedyStrategy.run"]}
{"id": "C56", "title": "Greedy success flag and exit information", "statement": "success=False exactly when the run stopped because the maximum number of functions or five consecutive failed rounds was reached, and the exit message names the true reason. (False of the code: the test compares with max_numb_funcs-1, so stopping at the maximum reports success=True.)", "quantifier": "all executions", "why_tests_cant": "every execution", "anchors": ["bfit/greedy.py:GreedyStrategy.run", "bfit/greedy.py:GreedyStrategy._final_exit_info"]}
{"id": "C57", "title": "add_extra_choices adds guesses", "statement": "The guesses returned by add_extra_choices are considered by the greedy step. (False of the code: the appended element is never visited, so the argument has no effect on the result.)", "quantifier": "all executions", "why_tests_cant": "every execution", "anchors": ["bfit/greedy.py:GreedyStrategy.run", "bfit/greedy.py:GreedyStrategy._find_best_lparams"]}
{"id": "C58", "title": "Greedy run can be repeated", "statement": "Calling run twice on the same object gives two valid runs. (False of the code: counts are not reset, so after a run that accepted a function the next run raises ValueError.)", "quantifier": "all histories of calls", "why_tests_cant": "histories", "anchors": ["bfit/greedy.py:GreedyStrategy.run", "bfit/greedy.py:GreedyStrategy.__init__"]}
{"id": "C59", "title": "Best one-function least-squares start", "statement": "For weights with a unique solution the one-function start of GreedyLeastSquares solves the weighted log-linear least-squares problem exactly; if the density is a single Gaussian c*exp(-a r^2) it returns exactly (c, a); and the chosen candidate has the smallest objective of the three weightings.", "quantifier": "all grids, densities, weights", "why_tests_cant": "universal identity", "anchors": ["bfit/greedy.py:GreedyLeastSquares._solve_one_function_weight", "bfit/greedy.py:GreedyLeastSquares.get_best_one_function_solution"]}
{"id": "C60", "title": "Best one-function Kullback-Leibler start", "statement": "The one-function start of GreedyKLFPI (spherical, default integral) is a fixed point of the KL iteration and no other single normalised s-type Gaussian with the same integral has a smaller KL divergence, as long as no grid point is masked.", "quantifier": "all grids, positive densities, all competing exponents", "why_tests_cant": "a minimum over a continuum", "anchors": ["bfit/greedy.py:GreedyKLFPI.get_best_one_function_solution"]}
{"id": "C61", "title": "NNLS design matrix reproduces the model", "statement": "The design matrix used by GreedyLeastSquares times a coefficient vector equals the model density for these coefficients. (True for normalize=False; false for normalize=True, where the matrix omits the normalisation.)", "quantifier": "all counts, exponents, coefficients", "why_tests_cant": "universal identity", "anchors": ["bfit/greedy.py:GreedyLeastSquares._create_cofactor_matrix"]}
{"id": "C62", "title": "Slater radial orbitals are normalised", "statement": "radial_slater_orbital returns (2z)^n sqrt(2z/(2n)!) r^(n-1) e^(-z r), and the integral over r in (0,inf) of r^2 R^2 is 1 for every exponent z>0 and quantum number n>=1.", "quantifier": "all exponents, quantum numbers, points", "why_tests_cant": "exact improper integral for all parameters", "anchors": ["bfit/density.py:SlaterAtoms.radial_slater_orbital"]}
{"id": "C63", "title": "Slater radial derivative is exact", "statement": "derivative_radial_slater_type_orbital is the exact derivative of the radial orbital at every point with |r| >= 1e-10 and is 0 (never NaN or inf) closer to the origin.", "quantifier": "all exponents, quantum numbers, points including r=0", "why_tests_cant": "includes the singular point and a continuum", "anchors": ["bfit/density.py:SlaterAtoms.derivative_radial_slater_type_orbital"]}
{"id": "C64", "title": "Atomic density is non-negative and splits into core and valence", "statement": "atomic_density is >= 0 for all three modes, total = core + valence pointwise, 0 <= core, valence <= total; an unknown mode raises ValueError.", "quantifier": "all atoms (any orbital data), all points", "why_tests_cant": "universal", "anchors": ["bfit/density.py:SlaterAtoms.atomic_density", "bfit/density.py:SlaterAtoms.phi_matrix"]}
{"id": "C65", "title": "Valence weighting uses the highest occupied orbital", "statement": "Core/valence weights are computed from the energy of the highest occupied orbital. (False of the code when the last listed orbital is not the highest: it takes the last entry of the S,P,D,F ordered list, e.g. 4D instead of 5P for Xe.)", "quantifier": "all atoms", "why_tests_cant": "every orbital ordering", "anchors": ["bfit/density.py:SlaterAtoms.atomic_density"]}
{"id": "C66", "title": "derivative_density is the derivative of atomic_density", "statement": "derivative_density equals d/dr of the total atomic_density at every point with |r| >= 1e-10.", "quantifier": "all atoms, all points", "why_tests_cant": "universal identity", "anchors": ["bfit/density.py:SlaterAtoms.derivative_density", "bfit/density.py:SlaterAtoms.phi_matrix"]}
{"id": "C67", "title": "Atomic density integrates to the number of electrons", "statement": "If each orbital is a normalised combination (its coefficient vector has unit norm w.r.t. the Slater overlap) the integral of 4 pi r^2 atomic_density is the sum of the orbital occupations.", "quantifier": "all atoms with positive exponents", "why_tests_cant": "exact improper integral", "anchors": ["bfit/density.py:SlaterAtoms.atomic_density"]}
{"id": "C68", "title": "Kinetic energy density", "statement": "positive_definite_kinetic_energy is >= 0 and finite at every point including r=0, and away from the origin equals (1/8pi) sum n_i (phi_i'^2 + l(l+1) phi_i^2/r^2).", "quantifier": "all atoms, all points", "why_tests_cant": "universal, includes the singular point", "anchors": ["bfit/density.py:SlaterAtoms.positive_definite_kinetic_energy"]}
{"id": "C69", "title": "Electron configuration parsing", "statement": "Parsing a configuration string made of shell abbreviations and orbital(count) entries yields exactly the listed non-zero occupations (K, L, M, N expand to full shells).", "quantifier": "all well-formed configurations", "why_tests_cant": "all strings of a grammar", "anchors": ["bfit/_slater.py:load_slater_wfn"]}
{"id": "C70", "title": "Slater file selection", "statement": "load_slater_wfn opens exactly the file for the requested element and charge state (case-insensitively), raises ValueError for elements without anion/cation data.", "quantifier": "all element names and flags", "why_tests_cant": "all strings", "anchors": ["bfit/_slater.py:load_slater_wfn", "bfit/density.py:SlaterAtoms.__init__"]}
{"id": "C71", "title": "Slater table parsing", "statement": "For every table in the documented format, the parsed coefficient list of each orbital is the column printed under that orbital, with as many entries as the subshell has exponents, and occupations are listed in the order of the orbitals.", "quantifier": "all tables in the format", "why_tests_cant": "all tables", "anchors": ["bfit/_slater.py:load_slater_wfn"]}
{"id": "C72", "title": "UGBS exponents", "statement": "get_ugbs_exponents(element) returns, per shell, exactly the exponents listed for that element in file order (case-insensitive) and nothing belonging to other elements.", "quantifier": "all files in the format, all element names", "why_tests_cant": "all files", "anchors": ["bfit/parse_ugbs.py:get_ugbs_exponents"]}
{"id": "C73", "title": "Greedy results have no near-duplicate functions", "statement": "If a greedy run accepted at least one function beyond the first, then no two s-type exponents and no two p-type exponents of the returned result differ by less than 1e-3.", "quantifier": "all executions, whatever the optimisers return", "why_tests_cant": "the optimisers can return anything; all runs must be covered", "anchors": ["bfit/greedy.py:GreedyStrategy.run", "bfit/greedy.py:remove_redundancies"]}
{"id": "C74", "title": "Every listed cation can be loaded", "statement": "For every element in the list of cations and every cation file in the layout shared by the cation files (configuration given as shells and subshells), load_slater_wfn(element, cation=True) does not fail on the electron configuration.", "quantifier": "all listed cations, all files in the layout", "why_tests_cant": "all files; the tests even expect the failure for caesium", "anchors": ["bfit/_slater.py:load_slater_wfn"]}
{"id": "C75", "title": "From file to density", "statement": "For every Slater file in the documented format with finite data and positive exponents, the file is read without error and atomic_density(points, 'total') of the resulting object is the sum over the printed orbitals of occupation times squared radial function over 4 pi, built from the printed exponents, numbers and coefficients; if the printed orbitals are normalised and include every occupied orbital, its integral over space is the number of electrons of the printed configuration.", "quantifier": "all files in the format, all points", "why_tests_cant": "all files and points; an integral over all of space", "anchors": ["bfit/_slater.py:load_slater_wfn", "bfit/density.py:SlaterAtoms.__init__", "bfit/density.py:SlaterAtoms.atomic_density"]}
{"id": "C76", "title": "The fixed-point iteration terminates with success", "statement": "Let every grid point be at a distance between rho > 0 and R from every centre, the model be normalised, the density positive and the mask below the smallest density that exponents in the box spanned by the initial ones, 3/(2R^2) and 5/(2 rho^2) can give. Then KLDivergenceFPI.run with a positive d_threshold and a maxiter above an explicit bound computed from the input reports success after at most that many updates, returns exponents in the box and coefficients that sum to integral_dens, and its divergences never increase.", "quantifier": "all grids, densities, initial parameters and thresholds", "why_tests_cant": "termination for all inputs; tests run some inputs only", "anchors": ["bfit/fit.py:KLDivergenceFPI.run", "bfit/fit.py:KLDivergenceFPI._update_params"]}
{"id": "C77", "title": "Accuracy of radial integration", "statement": "integrate on an ascending radial grid with steps of at most h differs from the integral of a twice continuously differentiable function by at most (r_last - r_first) h^2 / 12 times a bound of its second derivative; on UniformRadialGrid(n, a, b) by at most (b-a)^3 / (12 (n-1)^2) times that bound, so it converges; for a normalised atomic model the spherical integral on [0, b] converges to the sum of the coefficients.", "quantifier": "all grids, all smooth functions, all models", "why_tests_cant": "an error bound for all functions and a limit", "anchors": ["bfit/grid.py:_BaseRadialGrid.integrate", "bfit/grid.py:UniformRadialGrid.__init__"]}
{"id": "C78", "title": "Inequalities between the reported errors", "statement": "For the numbers returned by goodness_of_fit with non-negative weights of sum V: L1 <= V Linf, LS <= Linf L1 and L1^2 <= V LS. If moreover the density is positive and the model is above the mask, L1^2 <= (2/3)(I + 2J)(KL - I + J) for the integrals I of the density and J of the model; in particular L1^2 <= 2 I KL if they agree.", "quantifier": "all models, grids, densities and parameters", "why_tests_cant": "inequality over all inputs", "anchors": ["bfit/fit.py:_BaseFit.goodness_of_fit", "bfit/measure.py:KLDivergence.evaluate"]}
{"id": "C79", "title": "The fixed-point iteration commutes with scaling the density", "statement": "For t > 0, let one KLDivergenceFPI object fit a density f with target integral T and mask value m, and another t f with t T and t m. Running the second one from t times the coefficients, with the thresholds on the coefficients and the divergence times t, makes the same number of updates, returns t times the coefficients, the same exponents and the same success, and every number in the history is t times that of the first run (t^2 for the squared error).", "quantifier": "all scale factors, models, grids, densities and options", "why_tests_cant": "relates two runs for all inputs", "anchors": ["bfit/fit.py:KLDivergenceFPI.run", "bfit/fit.py:KLDivergenceFPI._update_params", "bfit/fit.py:_BaseFit.goodness_of_fit"]}
{"id": "C80", "title": "Fixed points of the coefficient update are global optima", "statement": "Let KLDivergenceFPI._update_params optimise the coefficients only, with a normalised model, non-negative weights and a positive density, such that no single basis function with coefficient T falls under the mask on the grid. Positive coefficients that sum to T are left unchanged by the update if and only if goodness_of_fit reports for them a Kullback-Leibler divergence that is at most the one of every other list of non-negative coefficients with sum T, at the same exponents.", "quantifier": "all models, grids, densities, exponents and coefficient lists", "why_tests_cant": "global optimality over a continuum of coefficient lists", "anchors": ["bfit/fit.py:KLDivergenceFPI._update_params", "bfit/fit.py:_BaseFit.goodness_of_fit"]}
{"id": "C81", "title": "Convergence rate of the coefficient iteration", "statement": "In the setting of C80, start KLDivergenceFPI.run with opt_expons=False from coefficients that are at least m > 0 and sum to T, and let I be the quadrature integral of the density. The run succeeds, the j-th number of the history (from 0) exceeds the smallest divergence possible with non-negative coefficients of sum T by at most I log(T/m)/(j+2), and the returned model exceeds it by at most I log(T/m)/(n+1) after n updates. With all thresholds zero the divergence of the returned model tends to the smallest possible one as maxiter grows.", "quantifier": "all models, grids, densities, starting coefficients and iteration counts", "why_tests_cant": "a bound against the best of a continuum of models, and a limit in the number of iterations", "anchors": ["bfit/fit.py:KLDivergenceFPI.run", "bfit/fit.py:KLDivergenceFPI._update_params"]}
{"id": "C82", "title": "The kinetic energy density is at least the von Weizs\u00e4cker one", "statement": "For every atom with non-negative occupations and every list of points, the values t of atomic_density(mode=\"total\"), d of derivative_density and k of positive_definite_kinetic_energy at a point satisfy d^2 <= 8 t k. If the atom has one orbital and it is of type S, then d^2 = 8 t k.", "quantifier": "all atoms, all points", "why_tests_cant": "an inequality between three methods over all atoms and points", "anchors": ["bfit/density.py:SlaterAtoms.positive_definite_kinetic_energy", "bfit/density.py:SlaterAtoms.derivative_density", "bfit/density.py:SlaterAtoms.atomic_density"]}
{"id": "C83", "title": "Greedy fits on a cubic grid can be set up but not run", "statement": "The docstrings of GreedyLeastSquares and GreedyKLFPI list CubicGrid as an accepted grid. On every cubic grid with linearly independent axes and for every non-negative density with non-zero sum both constructors succeed. GreedyKLFPI.run then raises ValueError for every float factor and TypeError for any other factor. GreedyLeastSquares.run raises the same errors unless the grid has exactly one or three points, and even on such grids a run that returns has added no basis function: it returns one s-type function and a history of one entry.", "quantifier": "all cubic grids, densities, options, factors and external optimisers", "why_tests_cant": "a statement about every cubic grid and every optimiser; the test suite has no greedy fit on a cubic grid", "anchors": ["bfit/greedy.py:GreedyLeastSquares", "bfit/greedy.py:GreedyKLFPI", "bfit/grid.py:CubicGrid"]}
{"id": "C84", "title": "With frozen exponents the SLSQP objective is convex and its stationary points are global minima", "statement": "With opt_expons=False, non-negative quadrature weights and fit weights, the value returned by ScipyFit.func at any coefficients y is at least the value at x plus the returned gradient at x times (y - x), for the squared difference at all x and y, and for the Kullback-Leibler and Tsallis measures where the density is positive and both models exceed the mask. Therefore, if x is feasible and the returned gradient equals lambda times the integrals of the basis functions, or exceeds it in entries where x is at the lower bound, no feasible y has a smaller objective.", "quantifier": "all models, grids, densities, weights, coefficients and Tsallis parameters", "why_tests_cant": "global optimality over a continuum of coefficient vectors", "anchors": ["bfit/fit.py:ScipyFit.func", "bfit/fit.py:ScipyFit.const_norm", "bfit/measure.py"]}
{"id": "C85", "title": "Symmetries of the Gaussian models", "statement": "Moving all points and all centres of a MolecularGaussianDensity by the same orthogonal matrix and translation changes neither the values nor the derivatives returned by evaluate. Listing the atoms in another order, with their numbers of functions and blocks of parameters, leaves the values unchanged, and so does reordering the s-type functions among themselves and the p-type functions among themselves in an atomic model. Measuring lengths in a unit u times smaller, with exponents divided by u^2, divides the values of a normalised model by u^3.", "quantifier": "all point sets, centres, basis sizes, parameters, orthogonal matrices, translations, orders and units", "why_tests_cant": "invariance under continuous groups and all permutations", "anchors": ["bfit/model.py:MolecularGaussianDensity.evaluate", "bfit/model.py:MolecularGaussianDensity.__init__", "bfit/model.py:AtomicGaussianDensity.evaluate"]}
{"id": "C86", "title": "The fixed-point fit does not depend on the unit of length", "statement": "Let two KLDivergenceFPI objects describe the same physical density with a normalised model in two units of length: distances are multiplied by u, quadrature weights by u^3, densities and mask value divided by u^3. From the same coefficients and exponents divided by u^2 every update gives the same coefficients and exponents divided by u^2, and run (with the exponent threshold divided by u^2) makes the same number of updates and returns the same coefficients, history and success flag. For spherical fits of an atomic model on a radial grid the constructors give such a pair.", "quantifier": "all models, grids, densities, units, options and starting parameters", "why_tests_cant": "equivariance of a whole iteration for all inputs and units", "anchors": ["bfit/fit.py:KLDivergenceFPI.run", "bfit/fit.py:KLDivergenceFPI._update_params", "bfit/fit.py:_BaseFit.goodness_of_fit"]}
{"id": "C87", "title": "Integral of the kinetic energy density", "statement": "For a SlaterAtoms object with finite data the values returned by positive_definite_kinetic_energy at points at least 1e-10 from the nucleus are those of one function k of the distance. k is integrable over three-dimensional space, and its integral is the kinetic energy of the determinant: half the sum over orbitals of occupation times the quadratic form of the coefficients in the closed-form radial kinetic matrix elements of the normalised Slater functions, centrifugal term l(l+1) included.", "quantifier": "all atoms with positive exponents, all orbitals, all radial points", "why_tests_cant": "identity of an improper integral for every atom", "anchors": ["bfit/density.py:SlaterAtoms.positive_definite_kinetic_energy", "bfit/density.py:SlaterAtoms.radial_slater_orbital", "bfit/density.py:SlaterAtoms.derivative_radial_slater_type_orbital"]}
{"id": "C88", "title": "Scaling of atomic densities", "statement": "Multiplying all exponents of a SlaterAtoms object by u > 0 turns the density rho(r) returned by atomic_density in each of the modes total, valence and core into u^3 rho(u r), the derivative returned by derivative_density into u^4 rho'(u r), and the positive definite kinetic energy density into u^5 k(u r), at points where the distances r and u r are not cut off near the nucleus.", "quantifier": "all atoms, modes, scale factors and points", "why_tests_cant": "covariance under a continuous group for every atom", "anchors": ["bfit/density.py:SlaterAtoms.atomic_density", "bfit/density.py:SlaterAtoms.derivative_density", "bfit/density.py:SlaterAtoms.positive_definite_kinetic_energy"]}
{"id": "C89", "title": "The bundled atomic data files load and hold the right atoms", "statement": "For each of the 197 readable atomic data files (neutral atoms 1 to 103, 42 anions, 52 cations) the constructor of SlaterAtoms succeeds on its text. The occupation numbers sum to the number of electrons of that atom or ion. The columns of phi_matrix are orbitals normalised up to 1e-5 and, within a subshell, orthogonal up to 1e-6. The total density integrates over space to the number of electrons up to 1e-5 per electron. The energies satisfy E = T + V up to 2e-9 and V = -2T up to a relative 2e-8, and the integral over space of positive_definite_kinetic_energy is T up to a relative 3e-7. The text of the cation of caesium raises ValueError.", "quantifier": "all bundled files, all radial points, all readers of decimal numbers and file systems holding the file", "why_tests_cant": "improper integrals over space with rigorous error bounds for every bundled file; tests check a few atoms on grids", "anchors": ["bfit/density.py:SlaterAtoms.__init__", "bfit/_slater.py:load_slater_wfn", "bfit/density.py:SlaterAtoms.phi_matrix", "bfit/density.py:SlaterAtoms.atomic_density", "bfit/density.py:SlaterAtoms.positive_definite_kinetic_energy"]}
{"id": "C90", "title": "Reference energy of core and valence densities of the bundled atoms", "statement": "For every readable bundled data file the valence and core densities returned by atomic_density use the energy of the orbital listed last as reference. It is the highest orbital energy for exactly 55 of the 197 files (listed by atomic number and charge) and lower than another one for the other 142.", "quantifier": "all bundled files and radial points", "why_tests_cant": "statement about every bundled file and all points", "anchors": ["bfit/density.py:SlaterAtoms.atomic_density", "bfit/_slater.py:load_slater_wfn"]}
{"id": "C91", "title": "Every accepted greedy parameter set extends the previous one by the strategy", "statement": "In a successful run of the greedy algorithm with non-NaN objective values, each accepted parameter set after the first comes from the one before it: a guess keeps all functions of one type (s or p) and extends the other type by the chosen strategy with a factor doubled fewer than five times (or, for the first p-type functions, by random numbers), the guess is optimised quickly and then fully, and no guess of that round had a smaller objective after its quick optimisation.", "quantifier": "all subclasses, strategies, optimisers, random numbers, options and numbers of rounds", "why_tests_cant": "statement about every execution with arbitrary optimisers and random numbers", "anchors": ["bfit/greedy.py:GreedyStrategy.run", "bfit/greedy.py:GreedyStrategy._find_best_lparams", "bfit/greedy.py:get_next_choices"]}
{"id": "C92", "title": "Greedy objective, optimisation step and reported errors agree", "statement": "For every GreedyLeastSquares object and every successful run the squared errors in performance never increase and the last one is fun; for GreedyKLFPI the same holds for the Kullback-Leibler entries. An optimisation step of GreedyLeastSquares hands the non-negative least-squares coefficients and the unchanged exponents of the guess to the minimiser, with the objective of the greedy search as objective and the tolerances given to the constructor, and returns the minimiser's answer; one of GreedyKLFPI is a run of the fixed-point iteration from the guess. A factor that is not positive raises ValueError and one that is not a float TypeError.", "quantifier": "all grids, densities, strategies, solvers, minimisers, options and runs", "why_tests_cant": "statement about every execution with arbitrary solvers", "anchors": ["bfit/greedy.py:GreedyLeastSquares", "bfit/greedy.py:GreedyKLFPI", "bfit/greedy.py:GreedyStrategy.run", "bfit/greedy.py:GreedyStrategy.eval_obj_function"]}
{"id": "C93", "title": "Molecular fits on cubic grids from the constructors", "statement": "A molecular model on the points of a uniform cubic grid and a density on it give a fixed-point fit whose update has an explicit form: each new coefficient and exponent is a ratio of sums over the lattice points that uses the distance to the centre owning the function, the coefficients sum to the target, parameters stay positive and the Kullback-Leibler divergence does not increase. A ScipyFit of the same model hands the optimiser the exact gradient.", "quantifier": "all centres, numbers of functions per centre, lattices, densities and parameters", "why_tests_cant": "exact formulas and a monotonicity statement for all molecules and lattices", "anchors": ["bfit/model.py:MolecularGaussianDensity", "bfit/grid.py:CubicGrid", "bfit/fit.py:KLDivergenceFPI.run", "bfit/fit.py:ScipyFit.func"]}
{"id": "C94", "title": "The fixed-point fit depends on the set of functions, not on their order or multiplicity", "statement": "Reordering the basis functions of a model, or splitting one into several copies with the same type and exponent whose coefficients add up to its coefficient, changes nothing but the bookkeeping in KLDivergenceFPI: one update of the copies gives copies of the updated functions, the five reported errors are equal, and whole runs make the same number of iterations with the same performance, fun and success (for copies if only the divergence and iteration limit stop the loop).", "quantifier": "all models, densities, grids with non-negative weights, assignments of copies, parameters and options", "why_tests_cant": "equality of two runs for all models and all ways of copying functions", "anchors": ["bfit/fit.py:KLDivergenceFPI._update_params", "bfit/fit.py:KLDivergenceFPI.run", "bfit/model.py:AtomicGaussianDensity.evaluate"]}
{"id": "C95", "title": "Accuracy of integrals on cubic grids", "statement": "The integral reported by a uniform cubic grid differs from the exact (Lebesgue) integral over the parallelepiped spanned by the grid by at most the largest change of the function within a cell times the volume of the box; for Lipschitz functions by at most the constant times the sum of the axis lengths times the volume; for continuous functions it converges when the axes are divided and the point counts multiplied by the same growing number.", "quantifier": "all origins, linearly independent axes, shapes and integrable functions", "why_tests_cant": "bound and limit for all functions and grids", "anchors": ["bfit/grid.py:CubicGrid.integrate", "bfit/grid.py:CubicGrid.__init__"]}
{"id": "C96", "title": "Greedy searches always return on ordinary data", "statement": "GreedyKLFPI on an ascending radial grid with a positive density (integral at most 9e6) never raises: the constructor and run return for every strategy, positive factor, finite threshold and number of functions, all parameters of all accepted rounds are positive finite numbers, fun is finite, and accepted coefficients of rounds updated by the fixed-point iteration do not exceed the target number of electrons in sum. GreedyLeastSquares with unnormalised functions on a positive density with two different distances returns whenever its solvers return points within the bounds with an objective below 1e10; all parameters are finite, and at least 1e-12 from the second function on.", "quantifier": "all grids, densities, strategies, options, random numbers and solvers meeting their contract", "why_tests_cant": "totality of a search with unbounded rounds, random guesses and arbitrary solvers", "anchors": ["bfit/greedy.py:GreedyStrategy.run", "bfit/greedy.py:GreedyKLFPI", "bfit/greedy.py:GreedyLeastSquares"]}
{"id": "C97", "title": "UGBS exponents of the bundled file", "statement": "With the bundled file data/ygbs, get_ugbs_exponents returns for each element H to La and Hf to Rn (any capitalisation of the symbol) a dictionary with the keys S, P, D, F only. A list is non-empty exactly for the shells the element has (S; P from boron, D from scandium, F from hafnium), and each list consists of consecutive members exp(0.12 + 0.672 k), -6 <= k <= 27, of the universal set in descending order up to a relative error of 5e-15. For the lanthanides, the elements after radon (although the header of the file lists them) and any other word the four lists are empty without any error, except for the words that start other lines of the file: '#', 'basis', '#basis' and the exponents as text raise KeyError, 'end' raises IndexError.", "quantifier": "all strings; every reader of decimal numbers; every str.lower that agrees with ASCII", "why_tests_cant": "all strings, and every line of the file is tied to a closed formula", "anchors": ["bfit/parse_ugbs.py:get_ugbs_exponents", "bfit/data/ygbs"]}
{"id": "C98", "title": "Limit behaviour of the fixed-point iteration", "statement": "In the situation of C76 (grid points at distances between rho > 0 and R from all centres, mask below the smallest density possible for the exponents), with positive initial coefficients and thresholds that are not positive, the Kullback-Leibler divergences of the models returned by KLDivergenceFPI.run with maxiter = 0, 1, 2, ... converge, and the changes of the coefficients, and of the exponents times the coefficient, tend to zero. The returned parameters have an accumulation point; at every accumulation point the divergence is the limit, its slope in each optimised exponent is zero and, if coefficients are optimised, its slope in each positive coefficient is minus the Lagrange multiplier. If all parameters converge and coefficients are optimised, the slope in a coefficient that tends to zero is at least minus the multiplier (Kuhn-Tucker conditions).", "quantifier": "all grids, densities, atomic and molecular models, starts and choices of optimised parameters meeting the assumptions; all accumulation points", "why_tests_cant": "statement about infinitely many runs and their limit points", "anchors": ["bfit/fit.py:KLDivergenceFPI.run", "bfit/fit.py:KLDivergenceFPI._update_params"]}
{"id": "C99", "title": "Fixed-point fits reproduce the mean square radius of the density", "statement": "With normalize=True and positive exponents the function of position sampled by AtomicGaussianDensity.evaluate has second moment sum 3c/(2a) over s-type plus sum 5c/(2a) over p-type functions. When a KLDivergenceFPI update of an atomic model optimises both coefficients and exponents and the old model is above the mask on the grid, the new model integrates over space to integral_dens and its second moment is integral_dens times the weighted mean of r^2 over the density on the grid: zeroth and second moment are exact after a single update. In the situation of C76 (mask below the smallest density possible for the exponents) the parameters returned by run have these two moments after any positive number of iterations, converged or not.", "quantifier": "all atomic models, grids, weights, non-negative densities, targets, starts, thresholds and iteration limits meeting the assumptions", "why_tests_cant": "an exact identity between an integral over space and a grid sum, for every iterate of every run; tests compare a few fits within tolerances", "anchors": ["bfit/fit.py:KLDivergenceFPI._update_params", "bfit/fit.py:KLDivergenceFPI.run", "bfit/model.py:AtomicGaussianDensity.evaluate"]}
{"id": "C100", "title": "Radial moments of the Slater densities", "statement": "For an atom held by SlaterAtoms with positive exponents and principal quantum numbers at least one, every radial moment of the total density returned by atomic_density exists, and the moment of order k is the sum over the orbitals of the occupation times sum_ab c_a c_b N_a N_b (n_a+n_b+k)!/(zeta_a+zeta_b)^(n_a+n_b+k+1) with N = (2 zeta)^n sqrt(2 zeta/(2n)!). For k = 0 this is the integral over space, for k = 2 the mean square radius.", "quantifier": "all atoms with consistent tables, all orders k, all points", "why_tests_cant": "an exact value of an integral over space for every table of exponents and coefficients; tests integrate single densities numerically", "anchors": ["bfit/density.py:SlaterAtoms.atomic_density", "bfit/density.py:SlaterAtoms.slater_orbital"]}
{"id": "C101", "title": "The bundled fixed-point results are valid fits of the bundled densities", "statement": "Read as in README.md, kl_fpi_results.json has an entry for each of the elements hydrogen to xenon and KeyError for all other names (also for capitalised symbols). Each entry has num_s + num_p coefficients and as many exponents, all positive, with num_s >= 1; num_s and num_p, also in kl_slsqp_results.json, are the numbers of S and P exponents get_ugbs_exponents returns for the element. The normalised AtomicGaussianDensity with these parameters is positive everywhere, its integral over space differs from the number of electrons by a factor of at most 4e-11, and its mean square radius differs from the one of the total density SlaterAtoms computes from the bundled data of the neutral atom by a factor of at most 2e-5.", "quantifier": "all 54 elements, all readers of JSON that are right on texts of this form, all spellings of the symbol for SlaterAtoms, all points", "why_tests_cant": "the integrals over space are exact, not quadratures on a grid, and every entry of the file and every name that is not in it is covered; the project has no test of these files", "anchors": ["README.md:usage of kl_fpi_results.json", "bfit/data/kl_fpi_results.json", "bfit/model.py:AtomicGaussianDensity.evaluate", "bfit/density.py:SlaterAtoms.atomic_density", "bfit/parse_ugbs.py:get_ugbs_exponents"]}
{"id": "C102", "title": "The bundled SLSQP results are valid fits of the bundled densities", "statement": "kl_slsqp_results.json, recommended over kl_fpi_results.json in README.md, has an entry for each of the elements hydrogen to xenon with num_s + num_p positive coefficients and exponents; the normalised model is positive, integrates over space to the number of electrons and has the mean square radius of the bundled Hartree-Fock density of the neutral atom, both up to a factor 1 +- 3e-6.", "quantifier": "all 54 elements, all readers of JSON that are right on texts of this form, all points", "why_tests_cant": "the defect sits beyond every radial grid in use: exponents near 1e-12 carry almost no charge, so integrals on grids are right while the moment over space is wrong", "anchors": ["README.md:recommendation of kl_slsqp_results", "bfit/data/kl_slsqp_results.json", "bfit/model.py:AtomicGaussianDensity.evaluate", "bfit/density.py:SlaterAtoms.atomic_density"]}
{"id": "C103", "title": "Cusps of the orbitals and the density at the nucleus", "statement": "For an atom held by SlaterAtoms with positive exponents and principal quantum numbers at least one the total density has at the nucleus the value sum n a^2/(4 pi) and the slope sum 2 n a b/(4 pi), with a, b the value and the slope of the orbitals given by the coefficients of the functions with numbers 1 and 2; derivative_density returns this slope nowhere within 1e-10 of the nucleus (it returns 0 there) and the slope of the density elsewhere. For every atom bundled with the package orbitals_cusp holds one number per orbital in the order of the orbitals (none for neutral atoms from caesium on); it is -(l+1) q'(0)/(z q(0)) up to 1.5e-4, where phi(r) = r^l q(r) is the orbital returned by phi_matrix and q(0) is not zero. The total density of every bundled atom obeys the cusp condition: slope at the nucleus = -2 z times the value up to a factor 1 +- 1e-3.", "quantifier": "all atoms with consistent tables; all 197 bundled files that the constructor reads, all spellings of the element", "why_tests_cant": "the values are compared with the limit of the orbitals at the nucleus, not with numbers copied from the file; a mix-up of the columns or of orbitals and cusps would be visible for some atoms only", "anchors": ["bfit/density.py:SlaterAtoms.orbitals_cusp", "bfit/density.py:SlaterAtoms.atomic_density", "bfit/density.py:SlaterAtoms.phi_matrix", "bfit/density.py:SlaterAtoms.derivative_density", "bfit/_slater.py:load_slater_wfn"]}
{"id": "C104", "title": "What the ScipyFit constructor accepts", "statement": "ScipyFit built with a measure instance on a radial grid succeeds exactly when the points of the model and of the grid agree (equally many, or a single one compared with all others, none further apart than 1e-12), the density has one value per grid point and none is negative, and the method is slsqp or trust-constr in any mixture of upper and lower case; otherwise ValueError is raised. On a cubic grid the same holds for points in space (compared coordinate by coordinate) and spherical=True is refused as well.", "quantifier": "all finite grid points, model points, densities, method names, weights and integrals", "why_tests_cant": "the accepted set is characterised in both directions over all points and names; a signed instead of an absolute comparison of the points passes tests in which the difference happens to be positive", "anchors": ["bfit/fit.py:ScipyFit.__init__", "bfit/fit.py:_BaseFit.__init__"]}
{"id": "C105", "title": "Weights of the ScipyFit objective", "statement": "A weights array with a single entry acts as the same weight at every point (objective, gradient and run). With the default weights the objective of a squared-difference fit is the least-squares error that goodness_of_fit reports, and that of a Kullback-Leibler fit is the reported divergence when no value is masked. Objective and gradient are linear in the weights.", "quantifier": "all fit objects with finite data, all parameters, frozen or not, all weights", "why_tests_cant": "linearity and the agreement of two separately written integrals hold for all weights and parameters", "anchors": ["bfit/fit.py:ScipyFit.func", "bfit/fit.py:ScipyFit.__init__", "bfit/fit.py:_BaseFit.goodness_of_fit"]}
{"id": "C106", "title": "Changing the number of functions of a model", "statement": "After change_numb_s_and_numb_p an atomic model is the one the constructor gives for the new numbers and the same other arguments, provided the constructor accepts them. Non-integers raise TypeError and nothing else is raised; the last change alone counts and changing back restores the model; the greedy methods evaluate with the changed model. The numbers are not checked: both zero gives a model of no functions, whose density is zero everywhere, and a negative sum a model that cannot be evaluated, although the constructor refuses both.", "quantifier": "all models, all pairs of arguments, all sequences of two changes", "why_tests_cant": "equality with the object built afresh covers every attribute and every later evaluation", "anchors": ["bfit/model.py:AtomicGaussianDensity.change_numb_s_and_numb_p", "bfit/model.py:AtomicGaussianDensity.__init__", "bfit/greedy.py:GreedyStrategy.run"]}
{"id": "C107", "title": "ScipyFit.run hands over and reports the objective of the fit", "statement": "run hands scipy.optimize.minimize the method chosen at construction, the given tolerance and maximum number of iterations, one bound [1e-12, inf) per optimised parameter and an objective that at every vector is the objective of the fit at the parameters the vector stands for. If the optimiser reports value and gradient at the vector it returns, fun and jacobian in the result are those at the returned coeffs and exps; if it returns nothing worse than the start, fun is not larger than the initial value. With default weights the error listed in performance (least squares or Kullback-Leibler according to the measure) then equals fun and is not larger than that of the initial parameters.", "quantifier": "all fit objects, initial parameters, frozen or not, options, and all optimisers", "why_tests_cant": "the optimiser is arbitrary; the conclusion is about the relation of the result's entries, not about particular numbers", "anchors": ["bfit/fit.py:ScipyFit.run", "bfit/fit.py:ScipyFit.func"]}
{"id": "C108", "title": "What grids and molecular models accept and the sizes they return", "statement": "A radial grid is made from exactly the 1-D arrays (else TypeError), len is the number of points, and integrate takes exactly 1-D arrays of this length (else ValueError). A cubic grid keeps origin and axes, its first point is the origin and its next points along each axis are origin plus that axis. MolecularGaussianDensity accepts exactly one row of basis per centre, equal numbers of columns of points and centres, and non-negative numbers of functions not both zero on each centre; otherwise ValueError for mismatched sizes, and the first bad centre decides between TypeError (negative) and ValueError (both zero). natoms, nbasis, radii and prefactor then have the matching sizes, and evaluate takes exactly one coefficient and one exponent per function, whatever the values, returning one value per point and with deriv=True a row of 2*nbasis columns per point.", "quantifier": "all arrays of floating-point values including nan and infinities, all numbers of centres and functions", "why_tests_cant": "acceptance is characterised in both directions for all inputs; shapes are guaranteed for values that tests do not use", "anchors": ["bfit/grid.py:_BaseRadialGrid", "bfit/grid.py:CubicGrid", "bfit/model.py:MolecularGaussianDensity.__init__", "bfit/model.py:MolecularGaussianDensity.evaluate"]}
{"id": "C109", "title": "Construction of the greedy objects and the named strategies", "statement": "GreedyLeastSquares on a radial grid accepts exactly densities with one non-negative value per grid point, the methods slsqp and trust-constr in any case and the strategies pick-one, pick-two and pick-two-lose-one; everything else raises ValueError. GreedyKLFPI raises ValueError for a negative density value or an unknown strategy and RuntimeError, before looking at the strategy, when the integral of the density divided by the given one is zero or undefined. The objects start from one s-type function centred at the origin (normalised as requested, always for GreedyKLFPI) with the data, weights and multiplier of the arguments. The strategy is the one named: it adds 1, 2 or 1 functions per round, its guesses are those of get_next_choices, get_two_next_choices or pick_two_lose_one, and for n present functions there are n+1, (n^2+5n+4)/2 or (n^2+5n+4)(n+2)/2 of them, each with two entries per function.", "quantifier": "all radial grids, densities with one value per point, names, methods, integrals, mask values", "why_tests_cant": "a name bound to another strategy still produces fits that look reasonable; the property fixes the guesses for each name for all parameters", "anchors": ["bfit/greedy.py:GreedyStrategy.__init__", "bfit/greedy.py:GreedyLeastSquares.__init__", "bfit/greedy.py:GreedyKLFPI.__init__"]}
{"id": "C110", "title": "Truncated and malformed Slater files are rejected", "statement": "load_slater_wfn raises an exception for a Slater file that has been cut off after any of its lines, and for one whose energy lines are malformed: RuntimeError if the text before the first '=' of the energy line is not E, IndexError if the sign is missing, the exception of float if its value is no number, AssertionError if the next line has no digits.", "quantifier": "all files in the documented format, all positions of the cut; all texts of the energy lines", "why_tests_cant": "the bundled files are complete, so no run of the package ever meets a truncated one; there are infinitely many of them and some make the reader loop for ever", "anchors": ["bfit/_slater.py:load_slater_wfn"]}
{"id": "C111", "title": "Truncated and malformed UGBS files", "statement": "Whatever data/ygbs holds, get_ugbs_exponents(element) either returns exactly the exponents of the entries of the element, all of which are well-formed then, or raises the exception of the first malformed entry of the element: IndexError if the shell or the line with the number is missing or blank, KeyError for a shell other than S, P, D, F, and the exception of float for text that is no number. If a file in the format is cut off after any of its lines, the exponents of the entries before the cut are returned; only a cut between the two lines of an entry of the element raises (IndexError), every other loss is unnoticed.", "quantifier": "all files (lists of lines), all element names, all positions of the cut", "why_tests_cant": "the bundled file is complete and well-formed; all other files are covered by no run", "anchors": ["bfit/parse_ugbs.py:get_ugbs_exponents"]}
{"id": "C112", "title": "Centres that an atomic model accepts", "statement": "With valid numbers of functions AtomicGaussianDensity(points, center, ...) can be constructed exactly when center is None, or a one-dimensional array with as many entries as two-dimensional points have columns, or, for one-dimensional points, a one-dimensional array with one entry, with as many entries as there are points, or with any number of entries if there is a single point; everything else raises ValueError. With as many entries as points the radii are the distances of each point from its own entry, with a single point there is one radius per entry.", "quantifier": "all points, all centres (including arrays of other dimension and other objects), all numbers of functions", "why_tests_cant": "all sizes of points and centres; the accepted centres with several entries for points on a line are a result of broadcasting that nobody would write a test for", "anchors": ["bfit/model.py:AtomicGaussianDensity.__init__"]}
{"id": "C113", "title": "Rounding errors of integrals", "statement": "If every arithmetic operation has a relative error of at most u, the value returned by integrate on a radial grid of n points differs from the exact trapezoid sum by at most ((1-u)^-(n+2) - 1) times the sum of the absolute trapezoid areas, and on a cubic grid of n points from the exact Riemann sum by at most ((1-u)^-n - 1) times the cell volume times the sum of the absolute values. For a non-negative integrand on ascending points or with non-negative weights the integral of a fit object (plain or spherical) is never negative and has a relative error of at most (n+7) u / (1 - (n+7) u).", "quantifier": "all grids, integrands, accuracies u < 1, all roundings of the single operations and all orders of summation", "why_tests_cant": "the result depends on the order of summation chosen by numpy for the length of the array, on fused operations of the processor and on the dtype; tests compare with a tolerance on a few integrands", "anchors": ["bfit/grid.py:_BaseRadialGrid.integrate", "bfit/grid.py:CubicGrid.integrate", "bfit/fit.py:_BaseFit.integrate"]}
{"id": "C114", "title": "Rounding does not lose electrons in the fixed-point iteration", "statement": "If every operation has a relative error of at most u, then after a coefficient update of the KL fixed-point iteration with non-negative coefficients, non-negative basis function values and no masked point the coefficients are non-negative and their sum is integral_dens up to a factor between (1-u)^K and (1-u)^-K with K = 2 N + n + 21 for N grid points and n basis functions, whatever the errors of the computed basis functions. The bound is the same after any number of updates.", "quantifier": "all grids with ascending points or non-negative weights, densities, models, parameters, accuracies u < 1, all roundings and orders of summation, all numbers of iterations", "why_tests_cant": "accumulation of rounding errors over hundreds of iterations depends on the data; a test sees one run and one tolerance", "anchors": ["bfit/fit.py:KLDivergenceFPI._update_params", "bfit/fit.py:KLDivergenceFPI.run", "bfit/fit.py:KLDivergenceFPI.__init__"]}
{"id": "C115", "title": "Accuracy of computed densities and updates", "statement": "If every operation, exp and pow has a relative error of at most u <= 1/10, and exponent times squared distance is at most J/3 at all points, then a model density with non-negative parameters is computed with at most J + n + 10 relative errors, and one update of the KL fixed-point iteration gives each coefficient with at most 2 N + n + 2 J + 41 and each exponent with at most 2 N + 2 n + 4 J + 66 relative errors compared with exact arithmetic, when no point is masked.", "quantifier": "all models (atomic and molecular, s- and p-type), grids with ascending points or non-negative weights, densities, parameters, all roundings and orders of summation", "why_tests_cant": "component-wise relative accuracy for all parameters, including badly scaled ones, cannot be sampled; the exact result is not available to a test", "anchors": ["bfit/model.py:AtomicGaussianDensity.evaluate", "bfit/model.py:AtomicGaussianDensity._eval_s", "bfit/model.py:AtomicGaussianDensity._eval_p", "bfit/model.py:MolecularGaussianDensity.evaluate", "bfit/fit.py:KLDivergenceFPI._update_params"]}
{"id": "C116", "title": "Underflow in integrals", "statement": "If products and quotients below the smallest normal number t are rounded with the absolute error u t (gradual underflow) and every other operation has a relative error of at most u, then integrate on a radial grid of n points adds at most 2 n u t / (1-u)^(n+2) to the error bound of C113, for integrands of any sign. For a non-negative integrand on an ascending radial grid whose squared points do not underflow, or on a cubic grid with non-negative weights, the plain and the spherical integral of a fit object are never negative and the absolute error due to underflow is at most u t (V + L + 2 n) up to n + 7 roundings, V being the integral of one and L the length of the grid.", "quantifier": "all grids, integrands, accuracies u < 1, thresholds t, all roundings of the single operations and all orders of summation", "why_tests_cant": "densities decay exponentially, so products of tiny values occur at most grid points; a test cannot show that thousands of lost tiny terms never matter, for every integrand and order of summation", "anchors": ["bfit/grid.py:_BaseRadialGrid.integrate", "bfit/grid.py:CubicGrid.integrate", "bfit/fit.py:_BaseFit.integrate"]}
{"id": "C117", "title": "Number of electrons with underflow and masked points", "statement": "With rounding and gradual underflow, after a coefficient update of the KL fixed-point iteration with non-negative coefficients and non-negative computed basis function values the new coefficients are non-negative, and the multiplier times their sum is the integral of the function that equals the density where the computed model is above the mask value and above the density times the mask factor, and the computed model elsewhere, up to N + 2 n + 13 roundings and an absolute error of u t times an explicit sum of integrals. If no point is masked the sum of the coefficients is integral_dens up to 3 N + 2 n + 29 roundings and an absolute error with the factor u t.", "quantifier": "all grids with ascending points or non-negative weights whose squared points do not underflow, all densities, masks, parameters, accuracies u < 1, thresholds t, all roundings and orders of summation", "why_tests_cant": "the Gaussian values underflow at the outer grid points of every real calculation and the mask replaces the ratio there; how much charge this may cost for arbitrary data is not visible in a run that happens to agree with a tolerance", "anchors": ["bfit/fit.py:KLDivergenceFPI._update_params", "bfit/fit.py:KLDivergenceFPI.run", "bfit/fit.py:KLDivergenceFPI.__init__"]}
{"id": "C118", "title": "Solvability of the coefficient problem of ScipyFit", "statement": "When only the coefficients are optimised, with the constraint and positive integrals of the basis functions, the problem that ScipyFit hands to the optimiser has a feasible vector exactly when integral_dens is at least 1e-12 times the sum of these integrals. If it has one, some feasible vector has the smallest objective among all feasible vectors: for the squared difference always, for the Kullback-Leibler and Tsallis divergences if the density is positive and the model at the lower bounds exceeds the mask, and for Kullback-Leibler with masked points if the density is nowhere below the mask value. Without the constraint the squared difference has a minimiser if every basis function is positive at a point of positive weight, the Kullback-Leibler objective takes arbitrarily low values, and for Tsallis doubling the coefficients always lowers the objective, so these two have no minimiser.", "quantifier": "all fit objects on finite data, grids, densities, weights, models, frozen exponents and options that optimise only the coefficients", "why_tests_cant": "an optimiser returns some vector in every case, also when there is nothing to converge to; existence of a minimum concerns all feasible vectors", "anchors": ["bfit/fit.py:ScipyFit.run", "bfit/fit.py:ScipyFit.func", "bfit/fit.py:ScipyFit.const_norm"]}
{"id": "C119", "title": "Uniqueness of the solution of the coefficient problem of ScipyFit", "statement": "When only the coefficients are optimised, with or without the constraint, and the weights are non-negative, two feasible vectors with the smallest objective give the same model at every grid point where both weights are positive; if the basis functions are linearly independent there, the vectors are equal. This holds for the squared difference, for the Kullback-Leibler divergence and for the Tsallis divergence with alpha different from zero, for the last two if the density is positive and both models exceed the mask.", "quantifier": "all fit objects on finite data, grids, densities, weights, models, frozen exponents, options that optimise only the coefficients, and all pairs of solutions", "why_tests_cant": "two runs from different starting points that agree do not exclude a third solution", "anchors": ["bfit/fit.py:ScipyFit.run", "bfit/fit.py:ScipyFit.func", "bfit/measure.py:KLDivergence.evaluate", "bfit/measure.py:TsallisDivergence.evaluate"]}
{"id": "C120", "title": "Convergence of the coefficients of the fixed-point iteration", "statement": "When KLDivergenceFPI optimises only the coefficients, from positive coefficients that sum to integral_dens, with thresholds zero, a positive density and every basis function with all the charge above the mask, then there are non-negative coefficients with this sum and the smallest Kullback-Leibler measure; all such coefficients give the same model at the grid points of positive weight, and the model returned by run converges to it there as maxiter grows. If no combination of the basis functions vanishes at all points of positive weight, the best coefficients are unique and the returned coefficients converge to them.", "quantifier": "all KLDivergenceFPI objects on finite data with these properties, all frozen exponents, all positive starting coefficients, all tolerances, all sufficiently large maxiter", "why_tests_cant": "a finite run shows small changes, which do not imply that the coefficients approach a limit, nor that the limit is the best fit and independent of the start", "anchors": ["bfit/fit.py:KLDivergenceFPI.run", "bfit/fit.py:KLDivergenceFPI._update_params", "bfit/fit.py:_BaseFit.goodness_of_fit"]}
{"id": "C121", "title": "The fixed-point iteration and SLSQP agree on the coefficients", "statement": "Let a KLDivergenceFPI object and a ScipyFit object (method slsqp, Kullback-Leibler measure, weights one, with the constraint) fit the same positive density on the same grid with the same frozen exponents, every basis function with all the charge above the mask, and let all grid integrals of the basis functions be within eta < 1 of one. The coefficients that KLDivergenceFPI returns after n updates, from coefficients of at least m that sum to integral_dens T, violate the SLSQP constraint by at most eta T, and their SLSQP objective exceeds that of every vector feasible for SLSQP by at most J (log(T/m)/(n+1) + log(1/(1-eta))), with J the integral of the density. Conversely the objective of a solution of the SLSQP problem exceeds that of any coefficients of at least (1+eta) 1e-12 that sum to T by at most J log(1+eta). If the integrals are exactly one, coefficients above the lower bound 1e-12 solve the SLSQP problem if and only if they sum to T and an update of the fixed-point iteration leaves them unchanged.", "quantifier": "all such pairs of objects on finite data, all starting coefficients, options, numbers of updates, feasible vectors and solutions", "why_tests_cant": "comparing the outputs of two optimisers on examples shows agreement up to their tolerances, for the cases tried; the equivalence of the two optimality conditions concerns all coefficients", "anchors": ["bfit/fit.py:KLDivergenceFPI.run", "bfit/fit.py:KLDivergenceFPI._update_params", "bfit/fit.py:ScipyFit.run", "bfit/fit.py:ScipyFit.func", "bfit/fit.py:ScipyFit.const_norm"]}
{"id": "C122", "title": "Number and size of the optimisations in a greedy search", "statement": "Let N = max(0, max_numb_funcs - 1). A greedy search by a fresh object makes at most 5 N rounds; each round optimises at most g + 3 guesses locally and one globally, where g is N + 1 for pick-one, (N+1)(N+4)/2 for pick-two and (N+1)(N+4)(N+2)/2 for pick-two-lose-one, and all models it evaluates have at most N plus the increment of the strategy functions. Observably: the answers that the optimiser, the nnls solver, the random numbers, the objective or the errors would give outside this range do not influence the result, the exception or the final object. The bound is sharp for max_numb_funcs = 2 and pick-one.", "quantifier": "all strategies, all behaviours of optimisers, objective and random numbers, all limits, thresholds, factors and extra choices", "why_tests_cant": "tests see the calls of one run; the bound concerns every sequence of accepted and rejected rounds", "anchors": ["bfit/greedy.py:GreedyStrategy.run", "bfit/greedy.py:GreedyStrategy._find_best_lparams", "bfit/greedy.py:GreedyLeastSquares.get_optimization_routine"]}
{"id": "C123", "title": "From the symbol of an element to a fit of its density", "statement": "For each of the 197 bundled atoms and ions, SlaterAtoms(symbol, anion, cation) loads, and for every eps > 0 there is a length B such that for all b > B and all sufficiently large n the grid UniformRadialGrid(n, 0, b) is usable: atomic_density(points, 'total') returns non-negative values; for all numbers of s- and p-type functions (not both zero) and every mask value, AtomicGaussianDensity(points, num_s=, num_p=, normalize=True) and KLDivergenceFPI(grid, density, model, mask_value) are constructed; the number of electrons the fit uses (integral_dens) differs from that of the atom by at most 1e-5 of it plus eps; and run returns for all positive initial coefficients and exponents and all options updating either, with positive finite coefficients and exponents, the coefficients adding up to at most that number of electrons when coefficients are updated, at least one iteration is allowed and no density value is below the mask. For every atom of Slater functions the spherical grid integral of the total density converges to its integral over space.", "quantifier": "all bundled atoms, all ways of reading decimal numbers, all grids long and fine enough, all models, mask values, options and positive starting values", "why_tests_cant": "tests fit a few atoms on single grids; the statement covers all atoms, models and starting values and the limit of the grid", "anchors": ["bfit/density.py:SlaterAtoms.atomic_density", "bfit/grid.py:UniformRadialGrid", "bfit/model.py:AtomicGaussianDensity", "bfit/fit.py:KLDivergenceFPI.run", "bfit/_slater.py:load_slater_wfn"]}
{"id": "C124", "title": "Constructed objects are those of the theorems about fits", "statement": "Take finite radial points with an atomic model about any centre (or the default origin), or a cubic grid with any origin, axes and numbers of points and an atomic model about any centre or a molecular model with any centres and numbers of functions, and non-negative densities, one for each point. Then AtomicGaussianDensity or MolecularGaussianDensity, KLDivergenceFPI (if the integral of the density and the target are not zero) and ScipyFit (with a measure object and a known method) are constructed without error, and the fit objects have the properties that the theorems on fits assume: model values and derivatives are those of the Gaussian basis functions at the distances of the points to the centre of each function, integrate is the weighted sum with trapezoidal weights (times 4 pi r^2 if spherical) or the volume of the cell, the target is the given one or the integral of the density, the multiplier is the ratio of integral and target, and weights default to one.", "quantifier": "all finite points, centres, grids, molecules, numbers of functions, densities, masks, targets, measures and weights", "why_tests_cant": "tests build a few objects; all further statements on fits rely on every constructible object having these properties", "anchors": ["bfit/model.py:AtomicGaussianDensity.__init__", "bfit/model.py:MolecularGaussianDensity.__init__", "bfit/fit.py:_BaseFit.__init__", "bfit/fit.py:KLDivergenceFPI.__init__", "bfit/fit.py:ScipyFit.__init__"]}
{"id": "C125", "title": "Rounding errors of the five numbers of goodness_of_fit", "statement": "Let every operation of goodness_of_fit (evaluation of the Gaussians, sums in any order, differences, squares, quotients, logarithms, quadrature) have a relative error of at most u <= 1/10, without overflow and underflow, for a positive density on N points of a grid with non-negative weights and a model with n functions, non-negative coefficients and exponents times squared distances at most J/3. Then the computed integral of the model has a relative error of N+J+n+17 roundings; the L1 distance is right up to N+8 roundings and gamma times the integral of the model, the Linf distance up to one rounding and gamma times the largest model value, the squared distance up to N+10 roundings, the factor 1+gamma and gamma(1+gamma) times the integral of the squared model, where gamma = (1-u)^-(J+n+10) - 1; the Kullback-Leibler divergence, if the same points are masked, up to lambda times the integral D of the density and N+9 roundings of the integral of the absolute integrand plus lambda D, where lambda = -(J+n+11) log(1-u). The first four numbers are not negative.", "quantifier": "all fit objects, parameters, accuracies, rounding errors and orders of summation", "why_tests_cant": "the bound must hold for every combination of rounding errors, including cancellation between density and model and in the divergence; tests see one platform", "anchors": ["bfit/fit.py:_BaseFit.goodness_of_fit", "bfit/fit.py:_BaseFit.integrate", "bfit/measure.py:SquaredDifference.evaluate", "bfit/measure.py:KLDivergence.evaluate"]}
{"id": "C126", "title": "The reported divergence of the fixed-point iteration decreases up to rounding errors", "statement": "Let every operation of one update of all parameters and of goodness_of_fit before and after it have a relative error of at most u <= 1/10, in any order of summation, without overflow and underflow, for a positive density not below the mask value, non-negative coefficients whose sum is at most integral_dens up to 2N+n+21 roundings (what an earlier update leaves, C114), positive exponents with exponent times squared distance at most J/3 before and after, and no point masked. Then the Kullback-Leibler divergence reported after the update exceeds the one reported before by at most the two reporting errors of C125 plus (kappa+delta) times the integral of the density, where kappa = -(8N+7n+14J+239) log(1-u) + ((1-u)^-(2N+2n+4J+66) - 1) J/3 and delta = (1-u)^-(2N+n+21) - 1. The update in exact arithmetic is one of these executions.", "quantifier": "all fit objects, parameters, accuracies, rounding errors and orders of summation", "why_tests_cant": "tests check monotone histories of single runs with a tolerance chosen by hand; the bound says which increases rounding can explain, for every combination of rounding errors", "anchors": ["bfit/fit.py:KLDivergenceFPI._update_params", "bfit/fit.py:_BaseFit.goodness_of_fit", "bfit/fit.py:KLDivergenceFPI.run"]}
{"id": "C127", "title": "Atomic densities have few zeros, so they can be fitted on every large enough grid", "statement": "A radial orbital of an atom is zero everywhere if it is zero at as many different radii as the principal quantum numbers of the Slater functions of its subshell add up to, and the total density is zero everywhere if it is zero at as many radii as the largest of these sums. Hence on every ascending radial grid with more different points, with repeated points or not, spherical or not, the integral of a density that is not zero everywhere is positive. For each bundled atom 630 is such a number: on every ascending grid with more different points (for example a Clenshaw-Curtis grid with more core points) SlaterAtoms loads, the density is returned, a normalised Gaussian model and KLDivergenceFPI can be constructed for any mask value and positive integral_dens, and run returns from all positive starting values with positive coefficients and exponents; after an update the coefficients add up to at most integral_dens times the integral of max(density, mask value) over the integral of the density.", "quantifier": "all atoms with finite data, all bundled atoms, all ascending grids with more than 630 different points, all models, mask values, targets, options and positive starting values", "why_tests_cant": "tests fit a few atoms on fixed fine grids; they cannot show that no grid exists on which the density happens to vanish at all weighted points and the constructor raises", "anchors": ["bfit/density.py:SlaterAtoms.phi_matrix", "bfit/density.py:SlaterAtoms.atomic_density", "bfit/fit.py:KLDivergenceFPI.__init__", "bfit/fit.py:KLDivergenceFPI.run", "bfit/grid.py:ClenshawRadialGrid.__init__"]}
{"id": "C128", "title": "The script for Tables 1 and 2 of the paper completes for all 54 elements", "statement": "With the bundled data files in their places, examples/table/table_1_and_2.py runs to its end without an exception, and the dictionary it saves has exactly the entries <symbol>_coeffs and <symbol>_exps for the elements from hydrogen to xenon, the results of the pass for the element, each pair consisting of non-empty arrays of the same length with positive values. For each element (in any case of the letters of its symbol) the numbers of coefficients and exponents are the number of S and P exponents in the UGBS file, the coefficients add up to at most z (1 + 1.3e-11 / I), where I > 0 is the integral of the atomic density on the script's grid, the last entry of performance is goodness_of_fit of these coefficients and exponents, and the relative errors l1, linf and ls are its entries divided by the integral of the density, its maximum and the integral of its square, finite and not negative.", "quantifier": "all elements from hydrogen to xenon, all spellings of the symbol, all installation directories, all implementations of str.lower and float that are right on the words of the files, real arithmetic", "why_tests_cant": "the script takes hours and is not part of the test-suite; a run shows the result for one machine and version", "anchors": ["examples/table/table_1_and_2.py", "bfit/fit.py:KLDivergenceFPI.run", "bfit/density.py:SlaterAtoms.atomic_density", "bfit/parse_ugbs.py:get_ugbs_exponents", "bfit/grid.py:ClenshawRadialGrid.__init__"]}
{"id": "C129", "title": "The kinetic energy density of an atom can be fitted on every large enough grid, and the script for Table 5 completes", "statement": "If the kinetic energy density of an atom is zero at as many different radii of at least 1e-10 as the principal quantum numbers of the Slater functions of a subshell at most add up to, the density of the atom is zero everywhere. Hence for each bundled atom, on every ascending radial grid with at least 630 different points at a distance of at least 1e-10 from the origin, positive_definite_kinetic_energy returns non-negative values with a positive integral, a normalised Gaussian model and KLDivergenceFPI can be constructed with them for any mask value and positive integral_dens, and run returns from all positive starting values with positive coefficients and exponents. With the bundled files in their places, examples/table/table_5.py runs to its end and prints results for zinc, rhodium and iodine; a pass of its loop would complete for all elements from hydrogen to xenon, with coefficients that add up to at most the integral of the kinetic energy density plus 1.3e-11; the printed errors are goodness_of_fit of the printed coefficients and exponents.", "quantifier": "all atoms with finite data, all bundled atoms, all such grids, all models, mask values, targets, options and positive starting values; all elements from hydrogen to xenon for the script", "why_tests_cant": "tests evaluate the kinetic energy density at a few points; the script takes hours and is not part of the test-suite", "anchors": ["examples/table/table_5.py", "bfit/density.py:SlaterAtoms.positive_definite_kinetic_energy", "bfit/fit.py:KLDivergenceFPI.__init__", "bfit/fit.py:KLDivergenceFPI.run", "bfit/grid.py:ClenshawRadialGrid.__init__"]}
{"id": "C130", "title": "The scripts for Tables 3 and 4 hand the optimiser proper problems and complete with every optimiser that keeps to the bounds", "statement": "With the bundled files in their places, for every element from hydrogen to xenon a pass of examples/table/table_3.py and of examples/table/table_4.py constructs the grid, the atom, the model and the ScipyFit object and calls scipy.optimize.minimize with a problem that has two unknowns per UGBS exponent of the S and P shells, one bound (1e-12, inf) for each, the starting point z/n and twice the exponents, which is within the bounds, tolerance 1e-14 and at most 10000 iterations. In table_4.py (squared difference) there is no constraint, and at every point within the bounds the objective returns a finite non-negative number with its exact gradient. In table_3.py (Kullback-Leibler divergence) there is one constraint, and at every point within the bounds the objective returns a value and a finite gradient; the value is finite if the atomic density is positive on the grid. If the optimiser raises, the script ends with that exception; if it returns a point within the bounds, the pass completes: the results hold the first half of the point as coefficients, the second half as exponents, the optimiser's value, jacobian, success and message, and a performance list whose integral, l1, linf and ls are finite and not negative; in table_3.py the value of the constraint there is the integral of the atomic density minus the integral in that list. So both scripts run to their end, for iodine, with every optimiser that stays within bounds.", "quantifier": "all elements from hydrogen to xenon, all optimisers, all points within the bounds", "why_tests_cant": "the scripts depend on an external optimiser, run for a long time and are not part of the test-suite; tests cannot try every point the optimiser may visit", "anchors": ["examples/table/table_3.py", "examples/table/table_4.py", "bfit/fit.py:ScipyFit.__init__", "bfit/fit.py:ScipyFit.run", "bfit/fit.py:ScipyFit.func", "bfit/fit.py:ScipyFit.const_norm", "bfit/parse_ugbs.py:get_ugbs_exponents"]}
{"id": "C131", "title": "The script for densities of a database completes for every database and saves its results after each element", "statement": "For every function that stands for the densities of AtomDB: if for an element from hydrogen to xenon it gives finite values on the grid of examples/atomdb_db.py, one of them positive at a point other than the origin, the pass of the script for the element completes. Negative values count as zero. The fit has one positive coefficient and one positive exponent per UGBS exponent of the S and P shells; the coefficients add up to at most z (1 + 1.3e-11 / I), I the integral of the density on the grid. The last entry of performance is goodness_of_fit of the results; the relative errors l1, linf and ls are its entries divided by the integral, the maximum and the integral of the square of the density. The relative error kl is nan as soon as one value of the density is zero or was clipped; if all values are positive it is the divergence divided by the integral of rho log rho, unless that is zero. If this holds for the eight elements of the script, it runs to its end and the file holds exactly seven entries for each element: coefficients and exponents cut after the s-type functions, the last entry of performance, success and the relative errors. If the database raises for an element, the script ends with that exception and the file holds exactly the entries of the elements before it (no file if there are none).", "quantifier": "all databases, all elements from hydrogen to xenon, all positions of a failure", "why_tests_cant": "the script needs an external database, runs for a long time and is not part of the test-suite; tests cannot try every density", "anchors": ["examples/atomdb_db.py", "bfit/fit.py:KLDivergenceFPI.run", "bfit/fit.py:_BaseFit.goodness_of_fit", "bfit/grid.py:ClenshawRadialGrid.__init__", "bfit/parse_ugbs.py:get_ugbs_exponents"]}
{"id": "C132", "title": "Rounding errors of atomic densities, their derivatives and kinetic energy densities", "statement": "Let every operation in atomic_density (mode total), derivative_density and positive_definite_kinetic_energy have a relative error of at most u <= 1/10, chosen anew at every operation, with sums in any order. Let K be the number of orbitals, L the largest number of Slater functions in a subshell, n their largest principal number and J at least three times every exponent times the distance r >= 0. Then the computed density differs from the exact one by at most (1-u)^-(2(n+J+L)+K+24) - 1 times the density of the same atom with the absolute values of the coefficients; for non-negative coefficients this is a relative error. The computed derivative and kinetic energy density differ by the same expression with 28 and 32 in place of 24, times the sum of the absolute values of the terms; below 1e-10 they are exact (zero). The computed spherical integral of the computed density on N ascending points differs from the exact integral of the exact density by at most (1-u)^-(2(n+J+L)+K+N+31) - 1 times the integral for the absolute coefficients. Computed densities and kinetic energy densities are never negative, for every u < 1, coefficients of any sign and also if operations underflow. The exact values are possible results for every u.", "quantifier": "all atoms with finite data, all points, all rounding errors and orders of summation", "why_tests_cant": "tests compare with tolerances on a few atoms and one machine; the bound holds for every order of summation, library and rounding", "anchors": ["bfit/density.py:SlaterAtoms.radial_slater_orbital", "bfit/density.py:SlaterAtoms.phi_matrix", "bfit/density.py:SlaterAtoms.atomic_density", "bfit/density.py:SlaterAtoms.derivative_radial_slater_type_orbital", "bfit/density.py:SlaterAtoms.positive_definite_kinetic_energy", "bfit/density.py:SlaterAtoms.derivative_density", "bfit/grid.py:_BaseRadialGrid.integrate"]}
{"id": "C133", "title": "Rounding errors of the objective, gradient and constraint of ScipyFit", "statement": "Let every operation in ScipyFit.func and const_norm, including the derivative columns of the model, have a relative error of at most u <= 1/10, chosen anew at every operation, with sums in any order, and let J be at least three times every exponent times every squared distance, n the number of basis functions and N the number of points; coefficients are non-negative, exponents positive. In each of the three modes (all parameters, fixed coefficients, fixed exponents): for SquaredDifference with density f, weights w and model g the computed objective differs from the exact one by at most (1-u)^-(N+2J+2n+31) - 1 times the integral of |w| (|f|+g)^2, and entry k of the computed gradient by at most (1-u)^-(N+2J+n+38) - 1 times the integral of |w| 2(|f|+g) C_k, where C_k is the basis function (for a coefficient) or c (r^2 + q/e) times the basis function (for an exponent e with coefficient c, q = 3/2 for s-type and 5/2 for p-type normalised functions, else 0). For KLDivergence, where f > 0 and the model exceeds the mask by more than its rounding errors, the objective differs by at most (1-u)^-(N+J+n+21) - 1 times the integral of |w| f (|log(f/g)|+1) and entry k of the gradient by at most (1-u)^-(N+2J+n+37) - 1 times the integral of |w| (f/g) C_k; with non-negative weights this is a relative error for the coefficients. The computed const_norm differs by at most (1-u)^-(N+J+n+18) - 1 times |integral_dens| plus the integral of the model. The exact values are possible results for every u.", "quantifier": "all grids with ascending points or non-negative weights, all data, parameters, modes, rounding errors and orders of summation", "why_tests_cant": "tests compare gradients with finite differences to a tolerance on a few inputs; the bound holds for every order of summation, library and rounding", "anchors": ["bfit/fit.py:ScipyFit.func", "bfit/fit.py:ScipyFit.const_norm", "bfit/fit.py:ScipyFit.evaluate_model", "bfit/measure.py:SquaredDifference.evaluate", "bfit/measure.py:KLDivergence.evaluate", "bfit/model.py:AtomicGaussianDensity._eval_s", "bfit/model.py:AtomicGaussianDensity._eval_p"]}
{"id": "C134", "title": "The notebook about the density of an atom", "statement": "With the bundled data files, examples/atomic_density.ipynb runs to its end. It makes n updates, 1 <= n <= 1000; before and after each there are eight coefficients and eight exponents, all positive, and after each update the coefficients add up to at most 4, so the printed sum is at most 4. The integral printed after the density is the trapezoid sum of the density without the factor 4 pi r^2. The plotted curves have n values: the spherical integral of the model after each update, the spherical integral of the absolute residual, the maximum of the absolute residual, and, under the title 'Kullback-Leibler value', the spherical integral of the squared residual; the Kullback-Leibler divergence is in results['fun'], which is not plotted. The density of beryllium computed from its file is positive at every radius r >= 0.", "quantifier": "all file systems that hold the bundled data, all correct float and str.lower implementations; all radii for the positivity", "why_tests_cant": "no test runs the notebooks; the number of updates, the signs and the bound on the sum depend on every iterate of the fit", "anchors": ["examples/atomic_density.ipynb", "bfit/density.py:SlaterAtoms.atomic_density", "bfit/grid.py:ClenshawRadialGrid", "bfit/fit.py:KLDivergenceFPI.run", "bfit/fit.py:_BaseFit.goodness_of_fit"]}
{"id": "C135", "title": "The notebook about the greedy fit of an atom", "statement": "With the bundled data files and any positive random numbers, the greedy fit in examples/greedy_atomic_density.ipynb returns: at least one s-type function, at most four functions in all, one positive coefficient and one positive exponent for each, and a finite value of the divergence. The printed integral is the spherical trapezoid integral of the density. The last cell, which evaluates a model built with the number of s-type functions only, gives the values of the fitted model if the fit has no p-type functions and raises ValueError if it has any.", "quantifier": "all positive random numbers, all file systems that hold the bundled data, all correct float and str.lower implementations", "why_tests_cant": "no test runs the notebooks; whether the last cell fails depends on the random numbers", "anchors": ["examples/greedy_atomic_density.ipynb", "bfit/greedy.py:GreedyStrategy.run", "bfit/greedy.py:GreedyKLFPI.__init__", "bfit/model.py:AtomicGaussianDensity.evaluate", "bfit/grid.py:_BaseRadialGrid.integrate"]}
{"id": "C136", "title": "Basis functions with equal starting values stay equal; the notebook about water", "statement": "In a Kullback-Leibler fixed-point fit of a normalised model two basis functions of the same type on the same centre that start with equal coefficients and equal exponents end with equal coefficients and equal exponents. examples/molecular_density.ipynb starts all coefficients at 1 and, by a slip, uses the hydrogen coefficients as hydrogen exponents: it runs to its end for all points, non-negative weights and non-negative densities such that every atom has a point of positive weight and density away from it; it makes n updates, 1 <= n <= 15; at all times the sixteen coefficients and exponents are positive, the three functions of each hydrogen are equal, and the model of sixteen functions is the model of twelve with a single function on each hydrogen whose coefficient is three times as large; after each update the coefficients add up to at most the integral of the density. The plotted curves are the integral of the model, the integral of the absolute residual, its maximum, and, under the title 'Kullback-Leibler value', the integral of the squared residual.", "quantifier": "all fits of normalised models to non-negative densities on grids of non-negative weight, numbers of iterations, tolerances and modes; for the notebook all grids, densities and positions as above", "why_tests_cant": "no test runs the notebooks; the equality holds for every grid and every iterate", "anchors": ["examples/molecular_density.ipynb", "bfit/fit.py:KLDivergenceFPI.run", "bfit/fit.py:KLDivergenceFPI._update_params", "bfit/fit.py:_BaseFit.goodness_of_fit", "bfit/model.py:MolecularGaussianDensity.evaluate", "bfit/grid.py:CubicGrid.integrate"]}
{"id": "C137", "title": "The display option", "statement": "KLDivergenceFPI.run and GreedyStrategy.run return the same result, change the object in the same way or raise the same exception whether or not disp is set, and print nothing without it. With disp a successful fixed-point run prints one row per update: its number, performance[i], the largest absolute change of a coefficient and of an exponent in that update, and the absolute change of the divergence (infinite in the first row); then the returned values. A successful greedy run prints a row for the one-function solution and one per round, at most 5*(max_numb_funcs-1) of them: a round that accepts new parameters moves to the next entry of performance, any other round repeats the row before; a row has the counts and errors of its entry and the absolute change of the objective from the entry before. The column with the number of functions is their number for a new object and too small by the former number less one for an object used before. ScipyFit.run with disp gives the same result if the starting values have the right lengths and the iterates reported by the optimiser are finite vectors of the length of the starting vector, and prints goodness_of_fit of each; with starting values of other lengths the callback cuts the vector at another place than the end of run does, and disp=True can raise ValueError where disp=False returns.", "quantifier": "all fits, starting values, options and runs, including those that raise; for the greedy rows all runs whose objective is never NaN; for ScipyFit all optimisers", "why_tests_cant": "the tests do not look at the output, and the claim is about every run", "anchors": ["bfit/fit.py:KLDivergenceFPI.run", "bfit/greedy.py:GreedyStrategy.run", "bfit/greedy.py:GreedyStrategy._print_header", "bfit/fit.py:ScipyFit.run"]}
{"id": "C138", "title": "Arrays that a call changes or shares", "statement": "KLDivergenceFPI.run changes no array that exists when it is called: not the starting values, the density or the grid points. The coefficients in its result are the very array c0 if the coefficients are not optimised or no iteration is made, and otherwise a new array; likewise the exponents and e0; two calls with the same arrays give the same outcome, in different new arrays. The constructor keeps the given arrays without copying them and computes the Lagrange multiplier once: if the caller changes the density array or the array of grid points afterwards, the coefficients after an update sum to integral_dens times the quotient of the new and the old integral. ScipyFit.run changes no existing array even if the optimiser works in place on the array it is given, and returns the parameters that are not optimised as the given array itself. remove_redundancies, which adds up coefficients in place, changes neither of its arguments and returns two new arrays.", "quantifier": "all fit objects on radial grids, all arrays (also several names for one array), options and runs, including those that raise; all optimisers that leave arrays other than their starting point alone", "why_tests_cant": "a test sees that a few arrays are unchanged after a few calls; which arrays are shared and that nothing else is touched is a statement about every call", "anchors": ["bfit/fit.py:KLDivergenceFPI.__init__", "bfit/fit.py:KLDivergenceFPI._update_params", "bfit/fit.py:KLDivergenceFPI.run", "bfit/fit.py:ScipyFit.run", "bfit/greedy.py:remove_redundancies", "bfit/grid.py:_BaseRadialGrid.__init__"]}
{"id": "C139", "title": "The examples in README.md", "statement": "The four-step example in README.md ends with an exception before anything is printed, whatever the density: it gives four starting coefficients for five functions; for 100 non-negative densities that are not all zero, the exception is the ValueError of run. With five positive starting coefficients it runs to its end for all non-negative densities of which one at a point other than the origin is positive: between 1 and 1000 updates, one printed row for each, five positive coefficients and five positive exponents; the coefficients sum to at most the integral of the density along the radial axis. The number that README.md prints as the spherical integral of a fitted model, with the misspelt variable name corrected, is the integral of the model along the radial axis minus 5000 + 100 (2 + pi); for the bundled fit of beryllium, the element used there, it is less than -700 although the model integrates to 4.", "quantifier": "all density arrays (as written); all non-negative densities with a positive value away from the origin and all positive starting coefficients (repaired); all stored parameters with positive entries (integral)", "why_tests_cant": "no test runs the README; that the example fails or works for every density array cannot be tested", "anchors": ["README.md:Examples", "README.md:Final Models of Fitting Atomic Densities", "bfit/fit.py:KLDivergenceFPI.run", "bfit/grid.py:UniformRadialGrid", "bfit/grid.py:ClenshawRadialGrid", "bfit/grid.py:_BaseRadialGrid.integrate", "bfit/model.py:AtomicGaussianDensity"]}
{"id": "C140", "title": "Results of fits in the .npz archives", "statement": "Reading kl_fpi_results.npz or kl_slsqp_results.npz as README.md shows (num_s, num_p, coeffs and exps under the name of the element) gives, for every element from hydrogen to xenon, the same numbers of functions as the corresponding .json file, and coefficients and exponents each of which is the one double closest to the decimal in the .json file. The two printed arrays are the exponents of the s-type functions and those of the p-type functions. The model with the parameters from the archive is positive and integrates to the number of electrons up to a factor 1 +- 5e-11 (FPI) or 1 +- 3.1e-6 (SLSQP); its mean square radius is that of the bundled Hartree-Fock density up to a factor 1 +- 2.1e-5 (FPI) or 1 +- 3.1e-6 (SLSQP), except for the five elements of C102 in the SLSQP archive, for which it is more than 999 times too large. Any other name raises KeyError.", "quantifier": "all names; all elements up to xenon and all entries of both archives; for closeness, all doubles; for the mean square radius, all loads of the element's neutral atom", "why_tests_cant": "no test opens the archives; that a stored double is closer than every other double, and the integrals over space, cannot be tested", "anchors": ["bfit/data/kl_fpi_results.npz", "bfit/data/kl_slsqp_results.npz", "bfit/data/kl_fpi_results.json", "bfit/data/kl_slsqp_results.json", "README.md:Final Models of Fitting Atomic Densities"]}
{"id": "C141", "title": "Text of the printed tables", "statement": "With disp=True, KLDivergenceFPI.run, ScipyFit.run and the greedy classes print tables whose lines have the same number of fields between bars as their heading. The fields show, in the order of the heading, the numbers of C137 (number of the update or counts, the five measures, the changes), with an absolute error of at most 5e-7 for the fixed-point columns and a relative error of at most 5e-7 for the others; inf, -inf and nan are shown as such. A text has only one reading, so rows with the same text have values that agree up to these errors. With trust-constr the five measures follow their names. For values in the usual range all rows of a table have fields of the same widths; the slsqp and greedy tables are as wide as their headings and rules, while the rows of KLDivergenceFPI end one place before its heading and rules, because the heading of the last column is too long for its field.", "quantifier": "all successful runs; all values of the measures, finite or not; for the widths all values in the range of doubles", "why_tests_cant": "the tests run without disp or ignore the output; the errors and widths concern all values", "anchors": ["bfit/fit.py:KLDivergenceFPI.run", "bfit/fit.py:ScipyFit.run", "bfit/greedy.py:GreedyStrategy._print_header", "bfit/greedy.py:GreedyStrategy.run"]}
{"id": "C142", "title": "Rounding errors and underflow of the valence and core densities", "statement": "Let every operation in atomic_density have a relative error of at most u <= 1/10, and operations that may underflow an absolute error of at most u*tau below tau <= 1e-40, chosen anew at every operation, with sums in any order. Let the exponents be at least 1/20 and the principal numbers at most 10 (true for the bundled data), K, L, n, J as in C132, Q the number of electrons and P a bound of the sums of |coefficient| times (norm * (r^(n-1) + 1) + 1) over the functions of an orbital. Then the computed total density differs from the exact one by at most ((1-u)^-k - 1) times the total density of the atom with the absolute values of the coefficients plus (1-u)^-k * u * tau * (((4P + L + 1)^2 + 2)(Q + K) + 1), where k = 2(n+J+L)+K+26. The same holds for the valence and core density with 33 in place of 26, whatever the orbital energies are: the weights exp(-(e - e_last)^2) may underflow and 1 - exp may cancel, the error stays relative to the total density. Computed valence and core densities add up to the computed total density up to three such errors. Computed valence densities are never negative; core densities are not if the computed exponentials do not exceed one. The exact values are possible results for every u.", "quantifier": "all atoms with finite data in the stated range, all points, all orbital energies, all rounding errors, underflows and orders of summation", "why_tests_cant": "tests compare with tolerances on a few atoms and one machine; underflow of the weights and of the Slater functions far from the nucleus is not visible in the tests", "anchors": ["bfit/density.py:SlaterAtoms.atomic_density", "bfit/density.py:SlaterAtoms.phi_matrix", "bfit/density.py:SlaterAtoms.radial_slater_orbital"]}
{"id": "C143", "title": "Text of exit_information", "statement": "The text under exit_information in the result of a greedy run has one of three forms. After five failing rounds it names the returned numbers of s-type and p-type functions. At the maximum it shows a number that is at least max_numb_funcs - 1 and equals the returned number of functions plus one less the number of functions the object had before the run (so the number of functions for a new object). After convergence it shows the difference of the objective values of the last two stored parameter sets, the second being the returned fun, and d_threshold; the difference is not positive, its absolute value is below the threshold, and at least one function was added. A text has only one of these forms and only one reading. The form agrees with the reason of C56, and building the text raises no error that is not raised anyway.", "quantifier": "all successful runs of greedy objects, new or used before, all options and objectives, every way of writing floats as text (without blanks for the reading)", "why_tests_cant": "no test looks at exit_information; that the shown difference is never positive or infinite depends on all rounds of a run", "anchors": ["bfit/greedy.py:GreedyStrategy.run", "bfit/greedy.py:GreedyStrategy._final_exit_info"]}
{"id": "C144", "title": "Overflow in the evaluation of Gaussian models", "statement": "In a floating-point format with relative error u, gradual underflow below tau and overflow to infinity above Omega (single or double precision), with the IEEE rules for infinities and nan: if the exponents are at least Omega^(-1/2) and their powers 5/2 at most Omega/16, evaluate computes a finite, non-negative value of at most 4 e^(5/2) + 3/e + 12 for every s-type function at every finite distance, even if the squared distance overflows, and for every p-type function at distances with r^2 <= Omega/2. If the sum of 2|c|(4 e^(5/2) + 3/e + 12) + 1 is below (1-u)^n Omega the density at the point is finite for every order of summation. All these values are results of the same operations without overflow, so that the theorems on rounding apply. Beyond this, overflow does harm: for r^2 >= 2 Omega every p-type function with a positive exponent and every s-type function with exponent zero evaluates to nan, and one p-type function makes the density nan whatever its coefficient is; a normalised p-type function with e^(5/2) >= 2 Omega is nan at its centre, where the exact value is zero.", "quantifier": "all formats with the stated constants, all exponents, coefficients, finite distances, rounding errors and orders of summation", "why_tests_cant": "tests use a few moderate exponents and distances; overflow concerns the whole range of doubles and intermediate results that are not visible", "anchors": ["bfit/model.py:AtomicGaussianDensity.evaluate", "bfit/model.py:AtomicGaussianDensity._eval_s", "bfit/model.py:AtomicGaussianDensity._eval_p"]}
{"id": "C145", "title": "Accuracy of evaluate at every point", "statement": "In a floating-point format with relative error u, gradual underflow below tau and overflow above Omega, for exponents in the range of C144 that do not make the normalisation underflow (100 tau <= e and 100 tau <= e^(5/2)): the value of every basis function computed by evaluate differs from the exact one by at most ((1-u)^-13 - 1) times its peak (the normalisation factor F for s-type, F/e for p-type functions) plus (1-u)^-13 u tau (F (2+e) + 2), for p-type functions (F (3 r^2 + 2 e + 3) + 2). For s-type functions this bound does not depend on the distance. The density of n functions differs from the exact sum of c_k times the basis functions by at most ((1-u)^-(13+n) - 1) times the sum of |c_k| peak_k, plus the corresponding underflow terms, for every order of summation and coefficients of any sign. In double precision, for at most 100 functions with exponents from 10^-13 to 10^10, coefficients up to 10^100 and distances up to 10^6: at most 2^-46 times the sum of |c_k| peak_k plus 2^-900 times the sum of |c_k| + 1. Such executions exist.", "quantifier": "all formats with the stated constants, all exponents, coefficients and distances in the stated ranges, all rounding errors and orders of summation, normalised or not", "why_tests_cant": "tests compare a few values with a tolerance; the bound is for all distances, also where the argument of the exponential is large and its relative error grows without bound", "anchors": ["bfit/model.py:AtomicGaussianDensity.evaluate", "bfit/model.py:AtomicGaussianDensity._eval_s", "bfit/model.py:AtomicGaussianDensity._eval_p"]}
{"id": "C146", "title": "The bundled results evaluated in double precision", "statement": "For every element from hydrogen (z=1) to xenon (z=54), the parameters read from kl_fpi_results.npz or kl_slsqp_results.npz as in README.md and handed to AtomicGaussianDensity.evaluate in double precision give, at every distance up to 10^6 from the nucleus, for every rounding of every operation (with underflow and overflow) and every order of summation, a finite number that differs from the exact density of the model by at most 2^-44 z^3 (5.7e-14 z^3).", "quantifier": "all 54 elements, both archives, all distances up to 10^6, all roundings and orders of summation", "why_tests_cant": "tests compare values on some grid for a few elements; the bound covers every distance and every platform-dependent order of summation", "anchors": ["bfit/data/kl_fpi_results.npz", "bfit/data/kl_slsqp_results.npz", "README.md:use of the results", "bfit/model.py:AtomicGaussianDensity.evaluate"]}
{"id": "C147", "title": "Accuracy of the derivatives in the exponents", "statement": "The derivatives with respect to the exponents returned by AtomicGaussianDensity.evaluate(..., deriv=True) (s- and p-type, normalised or not), computed with any rounding of every operation, gradual underflow and overflow, are right. In double precision, for exponents from 1e-13 to 1e10, distances up to 1e6 and coefficients up to 1e100, they are finite and differ from the derivative of the coefficient times the basis function by at most 2^-48 |c| times a bound of the derivative, plus 2^-800 (|c|+1). In any format the error, if nothing overflows, is at most ((1-u)^-26 - 1) times |c| times that bound plus a small multiple of the smallest positive number. Without rounding the computed number is the derivative. Where the square of the distance overflows the derivative is nan, for s-type functions too.", "quantifier": "all floating-point formats, all positive exponents (normalised: not close to underflow), all distances, all coefficients, all roundings", "why_tests_cant": "tests compare with finite differences at a few points and tolerances much larger than rounding; cancellation between the two terms and underflow in the tail depend on the distance", "anchors": ["bfit/model.py:AtomicGaussianDensity.evaluate", "bfit/model.py:AtomicGaussianDensity._eval_s", "bfit/model.py:AtomicGaussianDensity._eval_p"]}
{"id": "C148", "title": "Rounding errors of the Tsallis objective and gradient of ScipyFit", "statement": "Let every operation in ScipyFit.func with a TsallisDivergence made by its constructor have a relative error of at most u <= 1/10, chosen anew at every operation (also alpha - 1.0 and the powers), with sums in any order. Let J, n, N be as in C133, coefficients non-negative, exponents positive, the density f positive and the model g above the mask by more than its rounding errors. Let the number K be at least alpha (J+n+11) and, at every point, at least 1.1 |alpha-1| (J+n+11) + |(alpha-1) log(f/g)|. In each of the three modes the computed objective differs from the exact one by at most (1-u)^-(N+K+13) - 1 times the integral of |w| f ((f/g)^(alpha-1) + 1) / |alpha-1|, and entry k of the computed gradient by at most (1-u)^-(N+J+K+27) - 1 times the integral of |w| (f/g)^alpha C_k with the columns C_k of C133; with non-negative weights this is a relative error for the coefficients. The exact values are possible results for every u.", "quantifier": "all fits with finite data in the stated range, all alpha accepted by the constructor, all three modes, all rounding errors and orders of summation", "why_tests_cant": "the error of a power grows with the logarithm of the ratio of density and model and with alpha, and for alpha near one digits cancel; tests see one platform, a few densities and few values of alpha", "anchors": ["bfit/measure.py:TsallisDivergence.evaluate", "bfit/fit.py:ScipyFit.func"]}
{"id": "C149", "title": "Rounding errors of the points of radial grids", "statement": "Let every operation that computes the points of a ClenshawRadialGrid or UniformRadialGrid have a relative error of at most u <= 1/100, chosen anew at every operation; np.cos is never above one and exact at zero. Then the computed core points for the atomic number Z differ from the documented ones by at most 11u/(2Z) and the diffuse points by at most 275u. Computed points are never negative, the first core point is exactly zero if the origin is included, and n core (or diffuse) points are strictly ascending if 44 u n^2 < 1 (ten million points in double precision). The whole grid after sorting has as many points as the exact one, in ascending order, and every point differs by at most 275u from the exact point at the same place. With 2 <= u n^2 the second core point may be computed as zero too, so the relative accuracy near the origin cannot be guaranteed. Points of uniform grids from a to b differ by at most 5u(|a|+|b|), the first is a, the last b, and they are strictly ascending if 10u(|a|+|b|)(n-1) < b-a. The exact points are possible results for every u.", "quantifier": "all atomic numbers, numbers of points, extra points and intervals, all rounding errors", "why_tests_cant": "tests compare a few points of a few grids with the same formula in the same arithmetic; cancellation in 1 - cos near the origin depends on the number of points", "anchors": ["bfit/grid.py:ClenshawRadialGrid._get_points", "bfit/grid.py:ClenshawRadialGrid.__init__", "bfit/grid.py:UniformRadialGrid.__init__"]}
{"id": "C150", "title": "Rounding errors of the points and weights of cubic grids", "statement": "Let every operation that computes the points and weights of a CubicGrid in three dimensions have a relative error of at most u < 1, chosen anew at every operation, and let sums be formed in any order. Then coordinate d of the point (i, j, k) differs from origin_d + i axes_0d + j axes_1d + k axes_2d by at most (1/(1-u)^4 - 1)(|origin_d| + i|axes_0d| + j|axes_1d| + k|axes_2d|). The weight is never negative and differs from |det axes| by at most 1/(1-u)^10 - 1 times the sum of the absolute values of the six products of the determinant, which for axes along the coordinates is a relative error. An integral over N points, with the computed weight, differs from |det axes| times the sum of the values by at most 1/(1-u)^(N+10) - 1 times that sum of six products times the sum of the absolute values. No relative bound of the weight holds for all axes: for linearly dependent axes a weight u may be computed. The exact points and weights are possible results for every u.", "quantifier": "all origins, axes, positive shapes and integrands, all rounding errors", "why_tests_cant": "tests use axes along the coordinates, where no cancellation occurs in the cross product, and few points", "anchors": ["bfit/grid.py:CubicGrid.__init__", "bfit/grid.py:CubicGrid._calculate_volume", "bfit/grid.py:CubicGrid._choose_weight_scheme", "bfit/grid.py:CubicGrid.integrate"]}
{"id": "C151", "title": "Rounding errors of CubicGrid.from_molecule", "statement": "Let every operation of CubicGrid.from_molecule with rotate=False have a relative error of at most u < 1, chosen anew at every operation (doubling and halving are exact, sums are formed in any order), with positive charges, positive spacing h and extension e >= 0. Write q = (max - min + 2e)/h for a direction. Then the computed number of points n satisfies q h (1-u)^3 <= n h and (n-1) h (1-u)^3 < q h, so the box has the requested length up to rounding; it differs by at most one from ceil(q) if q (1/(1-u)^3 - 1) < 1, and it equals ceil(q) if q is not within three rounding errors of an integer. The computed origin differs from the centre of charge minus n h/2 by at most 1/(1-u)^(2K+2) - 1 times the sum of the absolute values added, for K atoms. Hence the computed box contains the interval of half length (max - min)/2 + e around the centre of charge up to these errors. If the requested length is an integer multiple k of the spacing, k as well as k+1 points may be computed: the bound on the errors alone does not determine the shape, e.g. 50 or 51 points for one atom with the default arguments. The exact grid is a possible result for every u.", "quantifier": "all molecules with positive charges, all spacings and extensions, all rounding errors", "why_tests_cant": "whether ceil gives one point more depends on the last bit of the quotient; tests check a few molecules", "anchors": ["bfit/grid.py:CubicGrid.from_molecule"]}
{"id": "C152", "title": "Rounding errors in the guesses and in remove_redundancies of the greedy search", "statement": "Let addition, subtraction, multiplication and division have relative errors of at most u < 1 (halving is exact). For positive exponents and a positive factor, get_next_choices returns the documented guesses in the documented order, with the same coefficients and with exponents that have one rounding error and are positive. If factor (1-u) > 1 and neighbouring exponents differ by more than u times their sum, the new exponent of every guess is strictly between its neighbours. remove_redundancies returns a subsequence of the exponents in which any two satisfy eps <= (1+u)|a-b|, and every dropped exponent b has an earlier exponent a with (1-u)|a-b| < eps. If no distance is within a rounding error of eps, the exponents are those of exact arithmetic, and every coefficient differs from the exact one by at most 1/(1-u)^n - 1 times the sum of the absolute values of the n coefficients. Exact operations give the results of exact arithmetic.", "quantifier": "all coefficients, exponents, factors and thresholds, all operations with bounded relative errors", "why_tests_cant": "tests use exponents like 1, 2, 3 whose sums and differences are exact, and thresholds that no distance comes near", "anchors": ["bfit/greedy.py:get_next_choices", "bfit/greedy.py:remove_redundancies"]}
{"id": "C153", "title": "Rounding errors of the one-function starts of the greedy search", "statement": "Let every operation have a relative error of at most u < 1 without underflow (doubling is exact). On a radial grid with n points, _solve_one_function_weight with a weight w >= 0 and a positive density has, in exact arithmetic, exponent (C B - W F)/D and coefficient exp((C E - B F)/D), with the weighted sums W of 1, B of x^2, C of log y, E of x^4, F of x^2 log y and D = W E - B^2. Let g = 1/(1-u)^(2n+11) - 1 and S = W E + B^2. If g S < D, every computed exponent is within 2 g P S/(D (D - g S)) of the exact one, and the computed coefficient is the exponential, with one rounding error, of a number within 2 g Q S/(D (D - g S)) of the exact exponent, where P and Q are the sums of absolute values in the numerators. The exponent 3 T/(8 pi M) of get_best_one_function_solution of GreedyKLFPI (ascending points, density >= 0, M the integral of density x^4) is computed with a relative error of at most 1/(1-u)^(n+16) - 1, and with 2n+23 in place of n+16 if T is the computed spherical integral of the density. The exact values are possible results.", "quantifier": "all grids, weights and densities, all operations with bounded relative errors", "why_tests_cant": "tests use a few grids; the quotients lose accuracy when the determinant is small against its two terms, which the bound makes explicit", "anchors": ["bfit/greedy.py:GreedyLeastSquares._solve_one_function_weight", "bfit/greedy.py:GreedyKLFPI.get_best_one_function_solution"]}
{"id": "C154", "title": "Rounding errors in the pick-two and pick-two-lose-one guesses", "statement": "Let addition, multiplication and division have relative errors of at most u < 1 (halving is exact). For n >= 1 positive exponents, equally many coefficients and a positive factor, get_two_next_choices returns the guesses of exact arithmetic in the same order, each with the same n+2 coefficients and with n+2 positive exponents of at most two rounding errors. pick_two_lose_one returns the guesses of exact arithmetic in the same order, each with the same n+1 coefficients and with n+1 positive exponents of at most two rounding errors. Exact operations give exactly the guesses of exact arithmetic.", "quantifier": "all coefficients, positive exponents and factors, all operations with bounded relative errors", "why_tests_cant": "tests use exponents and factors like 1, 2, 4 for which halves and products are exact; a second insertion starts from an already rounded exponent", "anchors": ["bfit/greedy.py:get_two_next_choices", "bfit/greedy.py:pick_two_lose_one"]}
