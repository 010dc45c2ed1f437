# Formal model of theochem/BFit in Lean 4

The code in `/repo/bfit` is read as text and modelled in Lean 4, function by function. The theorems
are about this model. The only tie between the model and the code is the reading of the source: every
definition of the model cites the file and the lines it stands for and names its simplifications.

## 1. Trusted base

* Lean's kernel (4.33.0), and the statements in Mathlib that the theorems mention (real numbers,
  `HasDerivAt`, the Lebesgue integral, `Filter.Tendsto`, lists).
* The axioms `propext`, `Classical.choice` and `Quot.sound`, which are part of Lean. No theorem depends
  on anything else; section 6 lists the axioms per theorem. There is no own axiom, no `sorry`, no
  `native_decide` and no `bv_decide`.
* The faithfulness of the definitions in `Verif/Num`, `Verif/Model` (the code) and `Verif/Spec`
  (the independent specifications in which theorems are stated).

## 2. Number model

Every float of the Python code is an element of `XR` (`Verif/Num/XR.lean`): an exact real number,
`+inf`, `-inf` or `nan`, with the IEEE-754 rules for the special values (a comparison with nan is false,
`0*inf = nan`, `0/0 = nan`, `1/0 = inf`, `log 0 = -inf`, `pow` as in C). *Not* modelled: overflow of
finite numbers (but in C144 to C147, see below), the sign of zero, dtypes and warnings. A theorem about finite input quantifies over all
real numbers.

Rounding is modelled in `Model/Round.lean`, `Model/RoundGrid.lean`, `Model/RoundCubic.lean`, `Model/RoundBox.lean`, `Model/RoundGreedy.lean`, `Model/RoundTwo.lean`, `Model/RoundStart.lean`, `Model/RoundDeriv.lean`, `Model/RoundMeas.lean`, `Model/RoundSlater.lean` and `Model/RoundScipy.lean` only, for the points of radial grids, the points and weights of cubic grids, `from_molecule` without rotation, integration, evaluation of the Gaussian models and their derivatives, `goodness_of_fit`, the objective and constraint of `ScipyFit`, the densities of `density.py`, the guesses and `remove_redundancies` of the greedy search, its one-function starts on radial grids and the
update of the fixed-point iteration: every operation returns some number within the relative error `u` of its
exact result, and sums are formed in any order. Products, quotients, powers and exponentials whose exact result
is smaller than `τ` (2⁻¹⁰²² for doubles) may instead have the absolute error `u τ` (gradual underflow). C113 to
C117, C125, C126, C132, C133, C142 and C145 to C154 are about this model, C113 to C115, C125, C126, C132, C133, C148 to C154 (but for `C132_nonneg` and `C132_exact`) for `τ = 0` (no underflow), all others about exact arithmetic;
`C113_exact`, `C125_exact`, `C126_exact`, `C132_exact`, `C133_exact`, `C142_exact`, `C147_exact`, `C148_exact`, `C149_exact`, `C150_exact`, `C151_grid`, `C152_exact`, `C153_exact` and `C154_exact` connect the two. `Model/Overflow.lean` adds overflow to infinity, for the evaluation of the Gaussian models and their derivatives only (C144 to C147, the derivatives in `Model/RoundDeriv.lean`).

Exceptions are values: a function that may raise returns `Py α = Except PyErr α`. Assignments to
attributes become a returned new object. A loop that need not end is either bounded by a number that is
proved irrelevant (greedy loop, `C52_bound_irrelevant`) or the result `none` stands for "never returns"
(file parser).

External routines are arbitrary functions, so the theorems hold for every behaviour of them:
`scipy.optimize.minimize`, `scipy.optimize.nnls`, `np.linalg.eigh`, `np.random.random`, `float` on
strings, `str.lower`, `str.isalpha`, the file system.

## 3. What is modelled and what is not

| source | model | not modelled |
|---|---|---|
| `grid.py` | `Model/Grid.lean`: radial grids, uniform and Clenshaw grids, cubic grid, `from_molecule`, both `integrate` methods; `Model/RoundGrid.lean`: points of uniform and Clenshaw grids with rounding; `Model/RoundCubic.lean`: points and weights of cubic grids with rounding; `Model/RoundBox.lean`: origin and shape of `from_molecule` without rotation with rounding | dtype arguments; cubic origins and axes of other dimension than three; `from_molecule` for non-finite extents |
| `model.py` | `Model/Gauss.lean`: both density classes, all methods; `Model/Overflow.lean`: `evaluate` without derivatives with rounding, underflow and overflow; `Model/RoundDeriv.lean`: the derivatives in the exponents with rounding, underflow and overflow | points arrays with 0 or more than 2 dimensions; coefficients that are not arrays; non-array arguments of the molecular constructor (all rejected by the source) |
| `measure.py` | `Model/Measure.lean`: the three measures with their argument checks | abstract base class; non-finite alpha |
| `fit.py` | `Model/Fit.lean`: base class, KL fixed-point iteration, ScipyFit; `Model/Round.lean`, `Model/RoundMeas.lean`, `Model/RoundScipy.lean`: the update, `goodness_of_fit`, `func` and `const_norm` with rounding; `Model/Display.lean`: the printed numbers; `Model/PrintText.lean`: the text of the printed tables; `Model/Memory.lean`: which arrays are changed or shared | text of printed arrays and of the time, what scipy prints, timing; `goodness_of_fit` for densities that are not 1-D |
| `greedy.py` | `Model/Greedy.lean`: guess generators, redundancy removal, the greedy loop, both subclasses with start solutions and optimisation routines; `Model/GreedyCubic.lean`: the same on cubic grids; `Model/Display.lean`: the printed numbers; `Model/PrintText.lean`: the text of the printed tables; `Model/ExitText.lean`: the text of `exit_information` (Python's `str` of floats is a parameter); `Model/Memory.lean`: `remove_redundancies` on arrays in memory; `Model/RoundGreedy.lean`: `get_next_choices` and `remove_redundancies` with rounding; `Model/RoundTwo.lean`: `get_two_next_choices` and `pick_two_lose_one` with rounding; `Model/RoundStart.lean`: the one-function starts on radial grids with rounding | text of printed arrays and of the objective; integers passed as factor raise TypeError as in the source |
| `density.py` | `Model/Slater.lean`: all methods; `Model/RoundSlater.lean`: densities and kinetic energy densities with rounding; the constructor is `slaterInit` in `Model/Parse.lean` | - |
| `_slater.py` | `Model/Parse.lean`: file selection, configurations, tables, whole files | digits outside ASCII; regular-expression special characters inside a subshell word |
| `parse_ugbs.py` | `Model/Parse.lean`: `ugbsExponents` | - |
| `README.md:100-196` (use of the bundled results, the example in four steps) | `Model/Fits.lean`, `Model/Readme.lean`, `Model/Npz.lean` | `json.load` is a parameter, assumed right on texts of the form of the two files; of `np.load` for `.npz` files the ZIP layer (an archive is the list of its members) |
| `examples/table/table_1_and_2.py`, `table_3.py`, `table_4.py`, `table_5.py`, `examples/atomdb_db.py` | `Model/Tables.lean`: the scripts up to the saved dictionary and the printed results, elements and grids as written | printing; `np.save`; the optimiser and the database are parameters |
| `examples/atomic_density.ipynb`, `greedy_atomic_density.ipynb`, `molecular_density.ipynb` | `Model/Notebooks.lean`: all code cells, elements, grids, start values and options as written | printing and drawing (the arrays handed to them are kept); the molecular grid, density and positions, which come from other packages, are parameters |

Tests and documentation are not modelled. The texts of the atomic data files in
`/repo/bfit/data/data.tar` are copied into `Verif/Data` by `tools/gendata.py` (`--check` compares the
modules with the archive; the 24 files shipped unpacked are identical to the ones in the archive). Two of
the 199 are left out of `Data.bundled`: `anion/ag.an` is not a text, and `cation/cs.cat` is in another
format (`C89_caesium`). The layout assumed for data files (`Spec/Parse.lean`: `FileText`) is checked for
all others by the kernel (C89). The lines of `/repo/bfit/data/ygbs`
are copied in the same way and checked by the kernel (C97), and so are the two files
`kl_fpi_results.json` and `kl_slsqp_results.json` in `/repo/bfit/data` (C101, C102) and the numbers in the two
`.npz` files (C140; the members encoded from these numbers are compared with the archives by `tools/gendata.py`).

## 4. Modules

* `Verif/Num`: scalars (`XR`) and numpy helpers (`Np`).
* `Verif/Model`: the model of the code.
* `Verif/Spec`: small independent specifications over the reals, over text layouts (`Text`, `Parse`) and over
  python values (`Py`).
* `Verif/Data`: the texts of the atomic data files (generated), each with a check evaluated by the kernel.
* `Verif/Lemmas`: helper lemmas. `DataScan`, `DataNum` are the scanner and the integer arithmetic with error
  bounds behind these checks, `DataScanSound`, `DataNumSound`, `DataSound` prove them sound.
* `Verif/Props`: the property theorems, each with an example that its hypotheses can be met.

Proof methods: the list code of `integrate` is shown equal to a weighted sum with explicit weights
(`Lemmas/Trapz`, `Lemmas/Weights`); the matrix code of the Gaussian models to sums over basis functions
(`Lemmas/Gauss`, `Lemmas/Molecular`, `Lemmas/GModel`), whose derivatives are `HasDerivAt` statements; the
fixed-point iteration is an expectation-maximisation step, its monotonicity is the log-sum inequality
(`Lemmas/EM`); loops are handled by invariants over iterations with arbitrary oracles
(`Lemmas/FPI`, `Lemmas/Greedy`); integrals of Gaussians and Slater functions reduce to the Gamma
function; the parsers are round-trip theorems from a layout predicate to the printed data.

## 5. Properties

Where the code violates a property, the negation is proved with a concrete witness and the part that
does hold is proved under the suffix `_partial`.

### C01 Radial integration is a linear functional and rejects wrong shapes

For any radial grid object, integrate(arr) raises ValueError exactly when arr does not have one entry per grid point; otherwise integrate(a*f + b*g) = a*integrate(f) + b*integrate(g) for all real a, b.

*Status*: proved. *How*: `trapz` on finite lists is `wsum` with explicit weights, which is linear; the shape test is a case split.

* `C01_shape_check` (`Props/RadialGrid.lean`)
* `C01_linear` (`Props/RadialGrid.lean`)

### C02 Radial integration is exact for straight lines and agrees with the trapezoid areas

integrate of the samples of r -> a + b*r on any radial grid equals a*(r_last - r_first) + b*(r_last^2 - r_first^2)/2, and the grid value is always the sum of the trapezoid areas of consecutive points.

*Status*: proved. *How*: induction over the points.

* `C02_trapezoid_areas` (`Props/RadialGrid.lean`)
* `C02_exact_for_lines` (`Props/RadialGrid.lean`)

### C03 Radial integration is monotone on ascending grids

On every grid whose points are ascending, f <= g pointwise implies integrate(f) <= integrate(g); in particular a non-negative integrand never integrates to a negative number.

*Status*: proved. *How*: ascending points give non-negative weights.

* `C03_monotone` (`Props/RadialGrid.lean`)
* `C03_nonneg` (`Props/RadialGrid.lean`)

### C04 UniformRadialGrid points

UniformRadialGrid(n, a, b) with n>0 and a<b has exactly n points, the first is a, for n>=2 the last is b, consecutive points differ by exactly (b-a)/(n-1), they are strictly increasing and all lie in [a,b]; any other argument combination raises TypeError/ValueError. (The class docstring says the interval is half-open; the code includes the upper bound.)

*Status*: proved. *How*: closed form of `linspace`; case split over all argument objects. Points for all finite bounds a<b; error conditions for all argument objects.

* `C04_uniform_points` (`Props/RadialGrid.lean`)
* `C04_uniform_errors` (`Props/RadialGrid.lean`)

### C05 ClenshawRadialGrid points

A ClenshawRadialGrid has exactly num_core_pts + num_diffuse_pts + len(extra_pts) points, in ascending order, a permutation of the documented cosine formulas plus the extra points; core points lie in [0, 1/(2Z)], diffuse points in (0, 25]; r=0 is a grid point iff include_origin and num_core_pts>0 (or an extra point is 0). Invalid arguments raise TypeError.

*Status*: proved. *How*: closed forms of the cosine points, bounds of cosine, facts about merge sort.

* `C05_clenshaw_points` (`Props/RadialGrid.lean`)
* `C05_clenshaw_ranges` (`Props/RadialGrid.lean`)
* `C05_clenshaw_type_errors` (`Props/RadialGrid.lean`)

### C06 CubicGrid enumerates its lattice in row-major order

CubicGrid(origin, axes, (nx,ny,nz)) has nx*ny*nz points and the point with flat index (i*ny+j)*nz+k is origin + i*axes[0] + j*axes[1] + k*axes[2].

*Status*: proved. *How*: division/remainder arithmetic of the flat index through meshgrid, swapaxes and reshape.

* `C06_row_major` (`Props/CubicGrid.lean`)
* `C06_errors` (`Props/CubicGrid.lean`)

### C07 CubicGrid weights and integration

Every weight of a CubicGrid equals |det(axes)|, independent of the shape; integrate is linear, monotone, returns number_of_points*|det(axes)| for the constant one, and raises ValueError exactly for arrays of the wrong length; a shape with two negative entries is accepted by the constructor, but has no points and integrate raises ValueError on it (unless the product of the shape is one).

*Status*: proved. *How*: determinant identity over the reals.

* `C07_weights` (`Props/CubicGrid.lean`)
* `C07_integrate_value` (`Props/CubicGrid.lean`)
* `C07_integrate_laws` (`Props/CubicGrid.lean`)
* `C07_shape_check` (`Props/CubicGrid.lean`)
* `C07_negative_shape` (`Props/CubicGrid.lean`)

### C08 CubicGrid.from_molecule encloses the molecule with the requested margin

The box spanned by CubicGrid.from_molecule(..., rotate=False) contains every atom together with the requested extension on each side. (False of the code in general: the box is centred on the charge-weighted mean, not on the middle of the atoms.)

*Status*: partial. *How*: interval arithmetic for the box; concrete molecule as counterexample. The property is false of the code: C08_not_enclosed is a concrete molecule with an atom outside the grid. C08_box_partial proves the containment that does hold.

* `C08_box_partial` (`Props/FromMolecule.lean`)
* `C08_not_enclosed` (`Props/FromMolecule.lean`)

### C09 CubicGrid.from_molecule aligns the axes with the principal axes

With rotate=True the grid axes are the eigenvectors of the inertia tensor scaled by the spacing, and the cell volume is spacing^3. (The code stores eigenvectors as columns but steps along rows.)

*Status*: partial. *How*: orthonormal matrices; concrete eigenvector matrix as counterexample. The property is false of the code (rows instead of columns are used): C09_axes_not_principal. C09_volume_partial proves volume, lengths and orthogonality for every orthonormal eigenvector matrix.

* `C09_volume_partial` (`Props/FromMolecule.lean`)
* `C09_axes_not_principal` (`Props/FromMolecule.lean`)

### C10 Atomic Gaussian density equals the documented formula

AtomicGaussianDensity.evaluate(coeffs, expons) returns, at every grid point, sum_i c_i exp(-a_i r^2) over the s-type functions plus sum_j d_j r^2 exp(-b_j r^2) over the p-type functions, with the normalisation factors (a/pi)^1.5 and 2 b^2.5/(3 pi^1.5) when normalize=True; coefficients are s-first then p.

*Status*: proved. *How*: row code equals the sum over basis functions. Every Atomic object with finite radii and natural counts; exponents >= 0 when normalised (negative exponents would take a real power of a negative number).

* `C10_formula` (`Props/Gauss.lean`)

### C100 Radial moments of the Slater densities

For an atom held by SlaterAtoms with positive exponents and principal quantum numbers at least one, every radial moment of the total density returned by atomic_density exists, and the moment of order k is the sum over the orbitals of the occupation times sum_ab c_a c_b N_a N_b (n_a+n_b+k)!/(zeta_a+zeta_b)^(n_a+n_b+k+1) with N = (2 zeta)^n sqrt(2 zeta/(2n)!). For k = 0 this is the integral over space, for k = 2 the mean square radius.

*Status*: proved. *How*: Gamma integral for products of two Slater functions, sums over the bilinear form, polar coordinates. Real arithmetic.

* `C100_moments` (`Props/SlaterMoment.lean`)

### C101 The bundled fixed-point results are valid fits of the bundled densities

Read as in README.md, kl_fpi_results.json has an entry for each of the elements hydrogen to xenon and KeyError for all other names (also for capitalised symbols). Each entry has num_s + num_p coefficients and as many exponents, all positive, with num_s >= 1; num_s and num_p, also in kl_slsqp_results.json, are the numbers of S and P exponents get_ugbs_exponents returns for the element. The normalised AtomicGaussianDensity with these parameters is positive everywhere, its integral over space differs from the number of electrons by a factor of at most 4e-11, and its mean square radius differs from the one of the total density SlaterAtoms computes from the bundled data of the neutral atom by a factor of at most 2e-5.

*Status*: proved. *How*: The texts of both files are copied into the model (tools/gendata.py --check compares). A scanner in integer arithmetic, proved sound, reads the numbers; with C99 and C100 integral and mean square radius are rational expressions in the numbers (except for square roots in the Slater norms, enclosed by integer square roots), which the kernel evaluates for every element. json.load is an arbitrary function that maps texts of this form to the exact values of the decimal numbers; a reader of this kind is constructed.

* `C101_fpi` (`Props/Fits.lean`)
* `C101_other` (`Props/Fits.lean`)
* `C101_counts` (`Props/Fits.lean`)

### C102 The bundled SLSQP results are valid fits of the bundled densities

kl_slsqp_results.json, recommended over kl_fpi_results.json in README.md, has an entry for each of the elements hydrogen to xenon with num_s + num_p positive coefficients and exponents; the normalised model is positive, integrates over space to the number of electrons and has the mean square radius of the bundled Hartree-Fock density of the neutral atom, both up to a factor 1 +- 3e-6.

*Status*: partial. *How*: As for C101. The property does not hold for calcium, ruthenium, tin, antimony and xenon: their entries have functions with exponents near 1e-12 and the mean square radius is more than 1000 times too large (C102_wrong). For the other 49 elements everything is proved, and the integrals for all 54.

* `C102_slsqp_partial` (`Props/Fits.lean`)
* `C102_wrong` (`Props/Fits.lean`)

### C103 Cusps of the orbitals and the density at the nucleus

For an atom held by SlaterAtoms with positive exponents and principal quantum numbers at least one the total density has at the nucleus the value sum n a^2/(4 pi) and the slope sum 2 n a b/(4 pi), with a, b the value and the slope of the orbitals given by the coefficients of the functions with numbers 1 and 2; derivative_density returns this slope nowhere within 1e-10 of the nucleus (it returns 0 there) and the slope of the density elsewhere. For every atom bundled with the package orbitals_cusp holds one number per orbital in the order of the orbitals (none for neutral atoms from caesium on); it is -(l+1) q'(0)/(z q(0)) up to 1.5e-4, where phi(r) = r^l q(r) is the orbital returned by phi_matrix and q(0) is not zero. The total density of every bundled atom obeys the cusp condition: slope at the nucleus = -2 z times the value up to a factor 1 +- 1e-3.

*Status*: proved. *How*: Factor r^l out of the orbital, value and derivative of the rest at 0; interval arithmetic on the numbers in the files, evaluated by the kernel. Real arithmetic; orbitals_cusp as a list (the code holds a column).

* `C103_nucleus` (`Props/SlaterCusp.lean`)
* `C103_cusp` (`Props/Cusp.lean`)
* `C103_kato` (`Props/Cusp.lean`)

### C104 What the ScipyFit constructor accepts

ScipyFit built with a measure instance on a radial grid succeeds exactly when the points of the model and of the grid agree (equally many, or a single one compared with all others, none further apart than 1e-12), the density has one value per grid point and none is negative, and the method is slsqp or trust-constr in any mixture of upper and lower case; otherwise ValueError is raised. On a cubic grid the same holds for points in space (compared coordinate by coordinate) and spherical=True is refused as well.

*Status*: proved. *How*: Case analysis of the checks in order; the broadcast comparison of the points is reduced to the entries. Real arithmetic; names in ASCII letters.

* `C104_radial` (`Props/ScipyInit.lean`)
* `C104_cubic` (`Props/ScipyInit.lean`)

### C105 Weights of the ScipyFit objective

A weights array with a single entry acts as the same weight at every point (objective, gradient and run). With the default weights the objective of a squared-difference fit is the least-squares error that goodness_of_fit reports, and that of a Kullback-Leibler fit is the reported divergence when no value is masked. Objective and gradient are linear in the weights.

*Status*: proved. *How*: Closed form of the objective on finite data compared with that of goodness_of_fit. Real arithmetic.

* `C105_single` (`Props/ScipyWeights.lean`)
* `C105_default` (`Props/ScipyWeights.lean`)
* `C105_linear` (`Props/ScipyWeights.lean`)
* `C124_radial` (`Props/Constructed.lean`)
* `C124_cubic_atom` (`Props/Constructed.lean`)
* `C124_cubic_molecule` (`Props/Constructed.lean`)

### C106 Changing the number of functions of a model

After change_numb_s_and_numb_p an atomic model is the one the constructor gives for the new numbers and the same other arguments, provided the constructor accepts them. Non-integers raise TypeError and nothing else is raised; the last change alone counts and changing back restores the model; the greedy methods evaluate with the changed model. The numbers are not checked: both zero gives a model of no functions, whose density is zero everywhere, and a negative sum a model that cannot be evaluated, although the constructor refuses both.

*Status*: proved. *How*: Inversion of the constructor, then comparison of the two objects field by field. numpy integers, which the constructor accepts and this method refuses, are not represented.

* `C106_rebuild` (`Props/ChangeNumb.lean`)
* `C106_arguments` (`Props/ChangeNumb.lean`)
* `C106_history` (`Props/ChangeNumb.lean`)
* `C106_greedy` (`Props/ChangeNumb.lean`)
* `C106_unchecked` (`Props/ChangeNumb.lean`)

### C107 ScipyFit.run hands over and reports the objective of the fit

run hands scipy.optimize.minimize the method chosen at construction, the given tolerance and maximum number of iterations, one bound [1e-12, inf) per optimised parameter and an objective that at every vector is the objective of the fit at the parameters the vector stands for. If the optimiser reports value and gradient at the vector it returns, fun and jacobian in the result are those at the returned coeffs and exps; if it returns nothing worse than the start, fun is not larger than the initial value. With default weights the error listed in performance (least squares or Kullback-Leibler according to the measure) then equals fun and is not larger than that of the initial parameters.

*Status*: proved. *How*: Inversion of run; in each of the three modes the variables are split as the result is; C105 for the reported error. Printing, the callback and the timer are not modelled. For the Kullback-Leibler measure no value is masked.

* `C107_problem` (`Props/ScipyReport.lean`)
* `C107_report` (`Props/ScipyReport.lean`)
* `C107_improves` (`Props/ScipyReport.lean`)

### C108 What grids and molecular models accept and the sizes they return

A radial grid is made from exactly the 1-D arrays (else TypeError), len is the number of points, and integrate takes exactly 1-D arrays of this length (else ValueError). A cubic grid keeps origin and axes, its first point is the origin and its next points along each axis are origin plus that axis. MolecularGaussianDensity accepts exactly one row of basis per centre, equal numbers of columns of points and centres, and non-negative numbers of functions not both zero on each centre; otherwise ValueError for mismatched sizes, and the first bad centre decides between TypeError (negative) and ValueError (both zero). natoms, nbasis, radii and prefactor then have the matching sizes, and evaluate takes exactly one coefficient and one exponent per function, whatever the values, returning one value per point and with deriv=True a row of 2*nbasis columns per point.

*Status*: proved. *How*: Induction over the centres for construction and for the loop of evaluate, keeping the lengths of all rows. Molecular models on 2-D points; cubic grids with finite origin and axes.

* `C108_radial` (`Props/MolInit.lean`)
* `C108_cubic` (`Props/MolInit.lean`)
* `C108_molecular` (`Props/MolInit.lean`)
* `C108_sizes` (`Props/MolInit.lean`)

### C109 Construction of the greedy objects and the named strategies

GreedyLeastSquares on a radial grid accepts exactly densities with one non-negative value per grid point, the methods slsqp and trust-constr in any case and the strategies pick-one, pick-two and pick-two-lose-one; everything else raises ValueError. GreedyKLFPI raises ValueError for a negative density value or an unknown strategy and RuntimeError, before looking at the strategy, when the integral of the density divided by the given one is zero or undefined. The objects start from one s-type function centred at the origin (normalised as requested, always for GreedyKLFPI) with the data, weights and multiplier of the arguments. The strategy is the one named: it adds 1, 2 or 1 functions per round, its guesses are those of get_next_choices, get_two_next_choices or pick_two_lose_one, and for n present functions there are n+1, (n^2+5n+4)/2 or (n^2+5n+4)(n+2)/2 of them, each with two entries per function.

*Status*: proved. *How*: C104 and C34 for the fit objects, then the three names; sizes of the guesses from C46-C48. Radial grids; tolerances and iteration limits of the objects are arguments of the modelled searches (C92).

* `C109_least_squares` (`Props/GreedyInit.lean`)
* `C109_kl` (`Props/GreedyInit.lean`)

### C11 Atomic derivative columns are the exact partial derivatives

evaluate(..., deriv=True) returns a matrix with 2*nbasis columns whose column k<nbasis is the partial derivative of the density w.r.t. coefficient k and whose column nbasis+k is the partial derivative w.r.t. exponent k, at every grid point.

*Status*: proved. *How*: `HasDerivAt` of that sum. HasDerivAt for every column; exponents > 0 when normalised.

* `C11_derivatives` (`Props/Gauss.lean`)

### C110 Truncated and malformed Slater files are rejected

load_slater_wfn raises an exception for a Slater file that has been cut off after any of its lines, and for one whose energy lines are malformed: RuntimeError if the text before the first '=' of the energy line is not E, IndexError if the sign is missing, the exception of float if its value is no number, AssertionError if the next line has no digits.

*Status*: partial. *How*: Split the file into its parts and evaluate the reader up to the cut. A file cut in its tables is again a file in the documented format, so C71 gives what is read. False of the code: cut among the blank lines the reader loops for ever (C110_hangs), cut in the tables it returns the rest without an exception (C110_silent). Proved: the exceptions for all other cuts before the tables and for malformed energy lines.

* `C110_detected_partial` (`Props/SlaterCut.lean`)
* `C110_format` (`Props/SlaterCut.lean`)
* `C110_tables` (`Props/SlaterCut.lean`)
* `C110_hangs` (`Props/SlaterCut.lean`)
* `C110_silent` (`Props/SlaterCut.lean`)

### C111 Truncated and malformed UGBS files

Whatever data/ygbs holds, get_ugbs_exponents(element) either returns exactly the exponents of the entries of the element, all of which are well-formed then, or raises the exception of the first malformed entry of the element: IndexError if the shell or the line with the number is missing or blank, KeyError for a shell other than S, P, D, F, and the exception of float for text that is no number. If a file in the format is cut off after any of its lines, the exponents of the entries before the cut are returned; only a cut between the two lines of an entry of the element raises (IndexError), every other loss is unnoticed.

*Status*: proved. *How*: The text of a file is described by an inductive predicate on lines (`UgbsText`) and the malformed continuations by another one (`UgbsFault`), both in terms of words and blank lines only. By induction on the number of lines every text is one or the other; the loop of the model is then evaluated on both.

* `C111_malformed` (`Props/UgbsFault.lean`)
* `C111_total` (`Props/UgbsFault.lean`)
* `C111_cut` (`Props/UgbsFault.lean`)
* `C111_unnoticed` (`Props/UgbsFault.lean`)

### C112 Centres that an atomic model accepts

With valid numbers of functions AtomicGaussianDensity(points, center, ...) can be constructed exactly when center is None, or a one-dimensional array with as many entries as two-dimensional points have columns, or, for one-dimensional points, a one-dimensional array with one entry, with as many entries as there are points, or with any number of entries if there is a single point; everything else raises ValueError. With as many entries as points the radii are the distances of each point from its own entry, with a single point there is one radius per entry.

*Status*: proved. *How*: Case distinction on the dimension of the points and the size of the centre; broadcasting of the difference is modelled explicitly. Arrays of points with more than two dimensions are not modelled.

* `C112_accepts` (`Props/Center.lean`)
* `C112_one_dimensional` (`Props/Center.lean`)

### C113 Rounding errors of integrals

If every arithmetic operation has a relative error of at most u, the value returned by integrate on a radial grid of n points differs from the exact trapezoid sum by at most ((1-u)^-(n+2) - 1) times the sum of the absolute trapezoid areas, and on a cubic grid of n points from the exact Riemann sum by at most ((1-u)^-n - 1) times the cell volume times the sum of the absolute values. For a non-negative integrand on ascending points or with non-negative weights the integral of a fit object (plain or spherical) is never negative and has a relative error of at most (n+7) u / (1 - (n+7) u).

*Status*: proved. *How*: Model/Round describes the code as a relation between inputs and admissible results: each operation may return any number within the relative error u (`Fl`), sums may be formed in any order (`RSum`). A computed sum is the sum of the terms each multiplied by a factor between (1-u)^k and (1-u)^-k (`Rel`, closed under products, quotients and sums of non-negative numbers); the trapezoid terms have four operations and at most n-2 additions. C113_exact shows that the exact model is the special case u = 0. Here the threshold τ of underflow is 0 (C116 for τ > 0); overflow is not modelled.

* `C113_radial` (`Props/Round.lean`)
* `C113_cubic` (`Props/Round.lean`)
* `C113_relative` (`Props/Round.lean`)
* `C113_linear` (`Props/Round.lean`)
* `C113_exact` (`Props/Round.lean`)

### C114 Rounding does not lose electrons in the fixed-point iteration

If every operation has a relative error of at most u, then after a coefficient update of the KL fixed-point iteration with non-negative coefficients, non-negative basis function values and no masked point the coefficients are non-negative and their sum is integral_dens up to a factor between (1-u)^K and (1-u)^-K with K = 2 N + n + 21 for N grid points and n basis functions, whatever the errors of the computed basis functions. The bound is the same after any number of updates.

*Status*: proved. *How*: The computed values of the basis functions enter the model density and the averages in the same form, so the identity of C35 holds for them exactly; all quantities are non-negative, hence the relative errors of the operations only add up in K. Sequences by induction: the bound of an update does not refer to the coefficients before it.

* `C114_conservation` (`Props/Round.lean`)
* `C114_iterations` (`Props/Round.lean`)

### C115 Accuracy of computed densities and updates

If every operation, exp and pow has a relative error of at most u <= 1/10, and exponent times squared distance is at most J/3 at all points, then a model density with non-negative parameters is computed with at most J + n + 10 relative errors, and one update of the KL fixed-point iteration gives each coefficient with at most 2 N + n + 2 J + 41 and each exponent with at most 2 N + 2 n + 4 J + 66 relative errors compared with exact arithmetic, when no point is masked.

*Status*: proved. *How*: `RBasis` follows the operations of evaluate; an argument of exp with relative error 2 changes exp(-x) by a factor within exp(3 u x), which is counted as J roundings. No subtraction occurs in an update, so the relative errors add up through the averages, the multiplier and the quotient of the averages.

* `C115_evaluate` (`Props/Round.lean`)
* `C115_update` (`Props/Round.lean`)

### C116 Underflow in integrals

If products and quotients below the smallest normal number t are rounded with the absolute error u t (gradual underflow) and every other operation has a relative error of at most u, then integrate on a radial grid of n points adds at most 2 n u t / (1-u)^(n+2) to the error bound of C113, for integrands of any sign. For a non-negative integrand on an ascending radial grid whose squared points do not underflow, or on a cubic grid with non-negative weights, the plain and the spherical integral of a fit object are never negative and the absolute error due to underflow is at most u t (V + L + 2 n) up to n + 7 roundings, V being the integral of one and L the length of the grid.

*Status*: proved. *How*: `Fu u τ` admits the results of products, quotients and powers with gradual underflow; sums and differences of floating-point numbers do not underflow and keep `Fl`. `Ap u k δ a b` says that a is b times a factor of k roundings plus an absolute error δ; it is closed under composition, products with non-negative factors and sums. The absolute errors of the n trapezoids are bounded by the steps, which add up to L.

* `C116_radial` (`Props/RoundUnder.lean`)
* `C116_integral` (`Props/RoundUnder.lean`)

### C117 Number of electrons with underflow and masked points

With rounding and gradual underflow, after a coefficient update of the KL fixed-point iteration with non-negative coefficients and non-negative computed basis function values the new coefficients are non-negative, and the multiplier times their sum is the integral of the function that equals the density where the computed model is above the mask value and above the density times the mask factor, and the computed model elsewhere, up to N + 2 n + 13 roundings and an absolute error of u t times an explicit sum of integrals. If no point is masked the sum of the coefficients is integral_dens up to 3 N + 2 n + 29 roundings and an absolute error with the factor u t.

*Status*: proved. *How*: At one point the computed ratio times the exact sum of c_k phi_k agrees with the density (or with the computed model, where the ratio is 1) up to 2 n + 1 roundings and the absolute errors of the products; the ratio times the basis function and the integral add theirs; summing over points and basis functions with the weights of the quadrature (`Quad`) gives `updateSlack`. The multiplier is compared with the exact integral of the density by C116.

* `C117_update` (`Props/RoundUnder.lean`)
* `C117_electrons` (`Props/RoundUnder.lean`)

### C118 Solvability of the coefficient problem of ScipyFit

When only the coefficients are optimised, with the constraint and positive integrals of the basis functions, the problem that ScipyFit hands to the optimiser has a feasible vector exactly when integral_dens is at least 1e-12 times the sum of these integrals. If it has one, some feasible vector has the smallest objective among all feasible vectors: for the squared difference always, for the Kullback-Leibler and Tsallis divergences if the density is positive and the model at the lower bounds exceeds the mask, and for Kullback-Leibler with masked points if the density is nowhere below the mask value. Without the constraint the squared difference has a minimiser if every basis function is positive at a point of positive weight, the Kullback-Leibler objective takes arbitrarily low values, and for Tsallis doubling the coefficients always lowers the objective, so these two have no minimiser.

*Status*: proved. *How*: Feasible vectors are those within the bounds handed to the optimiser at which the constraint returns zero. With the constraint they form a compact set, since each coefficient times the integral of its function is at most integral_dens; the objective is continuous where no point is masked and lower semicontinuous (a masked point contributes zero, an unmasked one at the threshold something non-negative) when the density is at least the mask. Without the constraint the squared difference is coercive; along multiples of the vector of ones the Kullback-Leibler objective decreases like minus the logarithm; for Tsallis the tangent inequality of C84 gives the strict decrease.

* `C118_feasible` (`Props/ScipySolvable.lean`)
* `C118_squared` (`Props/ScipySolvable.lean`)
* `C118_kl` (`Props/ScipySolvable.lean`)
* `C118_kl_masked` (`Props/ScipySolvable.lean`)
* `C118_tsallis` (`Props/ScipySolvable.lean`)
* `C118_free_squared` (`Props/ScipySolvable.lean`)
* `C118_free_kl` (`Props/ScipySolvable.lean`)
* `C118_free_tsallis` (`Props/ScipySolvable.lean`)
* `C124_radial` (`Props/Constructed.lean`)
* `C124_cubic_atom` (`Props/Constructed.lean`)
* `C124_cubic_molecule` (`Props/Constructed.lean`)

### C119 Uniqueness of the solution of the coefficient problem of ScipyFit

When only the coefficients are optimised, with or without the constraint, and the weights are non-negative, two feasible vectors with the smallest objective give the same model at every grid point where both weights are positive; if the basis functions are linearly independent there, the vectors are equal. This holds for the squared difference, for the Kullback-Leibler divergence and for the Tsallis divergence with alpha different from zero, for the last two if the density is positive and both models exceed the mask.

*Status*: proved. *How*: The feasible set is convex. The tangent inequalities of C84 are strict for different model values, so the objective at the midpoint of two solutions would be smaller than their common value unless the models agree.

* `C119_squared` (`Props/ScipyUnique.lean`)
* `C119_kl` (`Props/ScipyUnique.lean`)
* `C119_tsallis` (`Props/ScipyUnique.lean`)
* `C124_radial` (`Props/Constructed.lean`)
* `C124_cubic_atom` (`Props/Constructed.lean`)
* `C124_cubic_molecule` (`Props/Constructed.lean`)

### C12 Normalised basis functions integrate to one

With normalize=True each s-type and p-type basis function integrates to exactly 1 over 3D space (radially with 4 pi r^2), hence the integral of the model is the sum of its coefficients.

*Status*: proved. *How*: Gamma-function integrals, polar coordinates in 3-space. Lebesgue integral over Euclidean 3-space and the radial form; also closed form without normalisation.

* `C12_normalised` (`Props/GaussIntegral.lean`)
* `C12_unnormalised` (`Props/GaussIntegral.lean`)

### C120 Convergence of the coefficients of the fixed-point iteration

When KLDivergenceFPI optimises only the coefficients, from positive coefficients that sum to integral_dens, with thresholds zero, a positive density and every basis function with all the charge above the mask, then there are non-negative coefficients with this sum and the smallest Kullback-Leibler measure; all such coefficients give the same model at the grid points of positive weight, and the model returned by run converges to it there as maxiter grows. If no combination of the basis functions vanishes at all points of positive weight, the best coefficients are unique and the returned coefficients converge to them.

*Status*: proved. *How*: The non-negative coefficients with a given sum form a compact set on which the divergence is continuous, so a minimiser exists; strict concavity of the logarithm makes all minimisers agree on the points of positive weight. C81 brings the divergence within any tolerance of the minimum, and on a compact set values near the minimum force what the minimisers share (model values, or coefficients under independence) to be near its value at a minimiser.

* `C120_model` (`Props/FPICoeffLimit.lean`)
* `C120_coefficients` (`Props/FPICoeffLimit.lean`)
* `C124_radial` (`Props/Constructed.lean`)
* `C124_cubic_atom` (`Props/Constructed.lean`)
* `C124_cubic_molecule` (`Props/Constructed.lean`)

### C121 The fixed-point iteration and SLSQP agree on the coefficients

Let a KLDivergenceFPI object and a ScipyFit object (method slsqp, Kullback-Leibler measure, weights one, with the constraint) fit the same positive density on the same grid with the same frozen exponents, every basis function with all the charge above the mask, and let all grid integrals of the basis functions be within eta < 1 of one. The coefficients that KLDivergenceFPI returns after n updates, from coefficients of at least m that sum to integral_dens T, violate the SLSQP constraint by at most eta T, and their SLSQP objective exceeds that of every vector feasible for SLSQP by at most J (log(T/m)/(n+1) + log(1/(1-eta))), with J the integral of the density. Conversely the objective of a solution of the SLSQP problem exceeds that of any coefficients of at least (1+eta) 1e-12 that sum to T by at most J log(1+eta). If the integrals are exactly one, coefficients above the lower bound 1e-12 solve the SLSQP problem if and only if they sum to T and an update of the fixed-point iteration leaves them unchanged.

*Status*: proved. *How*: A feasible vector for SLSQP, scaled to sum T, is a competitor in C81; scaling by s changes the divergence by minus J log s, and the scale is between 1-eta and 1+eta. The other direction scales the coefficients of the iteration to feasibility. With integrals one the two constraints coincide; a solution above the lower bounds is optimal among all non-negative coefficients by convexity (a small step towards a better point would be feasible), and C80 turns optimality into being a fixed point.

* `C121_upper` (`Props/FPISlsqp.lean`)
* `C121_lower` (`Props/FPISlsqp.lean`)
* `C121_fixed_points` (`Props/FPISlsqp.lean`)
* `C124_radial` (`Props/Constructed.lean`)
* `C124_cubic_atom` (`Props/Constructed.lean`)
* `C124_cubic_molecule` (`Props/Constructed.lean`)

### C122 Number and size of the optimisations in a greedy search

Let N = max(0, max_numb_funcs - 1). A greedy search by a fresh object makes at most 5 N rounds; each round optimises at most g + 3 guesses locally and one globally, where g is N + 1 for pick-one, (N+1)(N+4)/2 for pick-two and (N+1)(N+4)(N+2)/2 for pick-two-lose-one, and all models it evaluates have at most N plus the increment of the strategy functions. Observably: the answers that the optimiser, the nnls solver, the random numbers, the objective or the errors would give outside this range do not influence the result, the exception or the final object. The bound is sharp for max_numb_funcs = 2 and pick-one.

*Status*: proved. *How*: Count the guesses of each strategy (also for parameter vectors of unexpected length), bound the sum over s- and p-type guesses by the number of functions, and show by induction over the rounds that two interfaces agreeing on these calls make the same run.

* `C122_calls` (`Props/GreedyCalls.lean`)
* `C122_least_squares` (`Props/GreedyCalls.lean`)
* `C122_sharp` (`Props/GreedyCalls.lean`)

### C123 From the symbol of an element to a fit of its density

For each of the 197 bundled atoms and ions, SlaterAtoms(symbol, anion, cation) loads, and for every eps > 0 there is a length B such that for all b > B and all sufficiently large n the grid UniformRadialGrid(n, 0, b) is usable: atomic_density(points, 'total') returns non-negative values; for all numbers of s- and p-type functions (not both zero) and every mask value, AtomicGaussianDensity(points, num_s=, num_p=, normalize=True) and KLDivergenceFPI(grid, density, model, mask_value) are constructed; the number of electrons the fit uses (integral_dens) differs from that of the atom by at most 1e-5 of it plus eps; and run returns for all positive initial coefficients and exponents and all options updating either, with positive finite coefficients and exponents, the coefficients adding up to at most that number of electrons when coefficients are updated, at least one iteration is allowed and no density value is below the mask. For every atom of Slater functions the spherical grid integral of the total density converges to its integral over space.

*Status*: proved. *How*: The density is twice continuously differentiable and integrable, so the trapezoidal rule on [0, b] converges to the integral over space; by C89 this is the number of electrons, in particular positive, so that some point with positive weight off the nucleus has positive density, which is what the updates of the fixed-point iteration need. Rounding is not modelled here; the grid sizes B and n are not explicit.

* `C123_electrons` (`Props/ElementFit.lean`)
* `C123_fit` (`Props/ElementFit.lean`)

### C124 Constructed objects are those of the theorems about fits

Take finite radial points with an atomic model about any centre (or the default origin), or a cubic grid with any origin, axes and numbers of points and an atomic model about any centre or a molecular model with any centres and numbers of functions, and non-negative densities, one for each point. Then AtomicGaussianDensity or MolecularGaussianDensity, KLDivergenceFPI (if the integral of the density and the target are not zero) and ScipyFit (with a measure object and a known method) are constructed without error, and the fit objects have the properties that the theorems on fits assume: model values and derivatives are those of the Gaussian basis functions at the distances of the points to the centre of each function, integrate is the weighted sum with trapezoidal weights (times 4 pi r^2 if spherical) or the volume of the cell, the target is the given one or the integral of the density, the multiplier is the ratio of integral and target, and weights default to one.

*Status*: proved. *How*: Compute the fields set by the constructors; the values of the model and the integration weights follow from the results for evaluate and integrate. Listed also for the properties whose theorems assume IsFPI or FitData.

* `C124_radial` (`Props/Constructed.lean`)
* `C124_cubic_atom` (`Props/Constructed.lean`)
* `C124_cubic_molecule` (`Props/Constructed.lean`)

### C125 Rounding errors of the five numbers of goodness_of_fit

Let every operation of goodness_of_fit (evaluation of the Gaussians, sums in any order, differences, squares, quotients, logarithms, quadrature) have a relative error of at most u <= 1/10, without overflow and underflow, for a positive density on N points of a grid with non-negative weights and a model with n functions, non-negative coefficients and exponents times squared distances at most J/3. Then the computed integral of the model has a relative error of N+J+n+17 roundings; the L1 distance is right up to N+8 roundings and gamma times the integral of the model, the Linf distance up to one rounding and gamma times the largest model value, the squared distance up to N+10 roundings, the factor 1+gamma and gamma(1+gamma) times the integral of the squared model, where gamma = (1-u)^-(J+n+10) - 1; the Kullback-Leibler divergence, if the same points are masked, up to lambda times the integral D of the density and N+9 roundings of the integral of the absolute integrand plus lambda D, where lambda = -(J+n+11) log(1-u). The first four numbers are not negative.

*Status*: proved. *How*: Rounding model RGoodness (Model/RoundMeas) on top of Model/Round. Count roundings of non-negative quantities; the logarithm turns relative into absolute errors; integrals of functions of any sign have an error relative to the integral of the absolute value. No underflow (tau = 0) and no overflow.

* `C125_goodness` (`Props/RoundGood.lean`)
* `C125_exact` (`Props/RoundGood.lean`)

### C126 The reported divergence of the fixed-point iteration decreases up to rounding errors

Let every operation of one update of all parameters and of goodness_of_fit before and after it have a relative error of at most u <= 1/10, in any order of summation, without overflow and underflow, for a positive density not below the mask value, non-negative coefficients whose sum is at most integral_dens up to 2N+n+21 roundings (what an earlier update leaves, C114), positive exponents with exponent times squared distance at most J/3 before and after, and no point masked. Then the Kullback-Leibler divergence reported after the update exceeds the one reported before by at most the two reporting errors of C125 plus (kappa+delta) times the integral of the density, where kappa = -(8N+7n+14J+239) log(1-u) + ((1-u)^-(2N+2n+4J+66) - 1) J/3 and delta = (1-u)^-(2N+n+21) - 1. The update in exact arithmetic is one of these executions.

*Status*: proved. *How*: Compare with the exact update of the same parameters: C37 for the exact step, C115 for the distance of the computed parameters, a bound of the model density under relative errors of the parameters, and C125 for the two reported numbers. No underflow (tau = 0) and no overflow; no point masked in the computed and in the exact update.

* `C126_descent` (`Props/RoundDescent.lean`)
* `C126_exact` (`Props/RoundDescent.lean`)

### C127 Atomic densities have few zeros, so they can be fitted on every large enough grid

A radial orbital of an atom is zero everywhere if it is zero at as many different radii as the principal quantum numbers of the Slater functions of its subshell add up to, and the total density is zero everywhere if it is zero at as many radii as the largest of these sums. Hence on every ascending radial grid with more different points, with repeated points or not, spherical or not, the integral of a density that is not zero everywhere is positive. For each bundled atom 630 is such a number: on every ascending grid with more different points (for example a Clenshaw-Curtis grid with more core points) SlaterAtoms loads, the density is returned, a normalised Gaussian model and KLDivergenceFPI can be constructed for any mask value and positive integral_dens, and run returns from all positive starting values with positive coefficients and exponents; after an update the coefficients add up to at most integral_dens times the integral of max(density, mask value) over the integral of the density.

*Status*: proved. *How*: Combinations of exponentials with polynomial coefficients have fewer zeros than coefficients (induction with Rolle's theorem); apply to the orbitals; trapezoid weights: each value of a sorted grid has a point of positive weight; the number of rows in each bundled file is at most 70 and the principal quantum numbers are digits.

* `C127_orbital` (`Props/DensityZeros.lean`)
* `C127_density` (`Props/DensityZeros.lean`)
* `C127_integral` (`Props/DensityZeros.lean`)
* `C127_fit` (`Props/DensityZeros.lean`)
* `C127_clenshaw` (`Props/DensityZeros.lean`)

### C128 The script for Tables 1 and 2 of the paper completes for all 54 elements

With the bundled data files in their places, examples/table/table_1_and_2.py runs to its end without an exception, and the dictionary it saves has exactly the entries <symbol>_coeffs and <symbol>_exps for the elements from hydrogen to xenon, the results of the pass for the element, each pair consisting of non-empty arrays of the same length with positive values. For each element (in any case of the letters of its symbol) the numbers of coefficients and exponents are the number of S and P exponents in the UGBS file, the coefficients add up to at most z (1 + 1.3e-11 / I), where I > 0 is the integral of the atomic density on the script's grid, the last entry of performance is goodness_of_fit of these coefficients and exponents, and the relative errors l1, linf and ls are its entries divided by the integral of the density, its maximum and the integral of its square, finite and not negative.

*Status*: proved. *How*: Model the script; the attributes read from the file are those of an atom that the file stores; grid in [0, 100] with 10000 different core points (C05, C127); positive UGBS exponents (C97); the density is positive at a weighted point (C127), so the fit object exists and run returns with at least one update (C39, C41); integrals of the density and its square are positive; the trapezoid weights add up to the length of the interval, so masking adds at most 1.3e-11.

* `C128_element` (`Props/Tables.lean`)
* `C128_script` (`Props/Tables.lean`)

### C129 The kinetic energy density of an atom can be fitted on every large enough grid, and the script for Table 5 completes

If the kinetic energy density of an atom is zero at as many different radii of at least 1e-10 as the principal quantum numbers of the Slater functions of a subshell at most add up to, the density of the atom is zero everywhere. Hence for each bundled atom, on every ascending radial grid with at least 630 different points at a distance of at least 1e-10 from the origin, positive_definite_kinetic_energy returns non-negative values with a positive integral, a normalised Gaussian model and KLDivergenceFPI can be constructed with them for any mask value and positive integral_dens, and run returns from all positive starting values with positive coefficients and exponents. With the bundled files in their places, examples/table/table_5.py runs to its end and prints results for zinc, rhodium and iodine; a pass of its loop would complete for all elements from hydrogen to xenon, with coefficients that add up to at most the integral of the kinetic energy density plus 1.3e-11; the printed errors are goodness_of_fit of the printed coefficients and exponents.

*Status*: proved. *How*: The derivative of an orbital is a combination of exponentials with polynomial coefficients of the same size; with too many zeros it vanishes, the orbital is constant, and it goes to zero at infinity. Then as for C127 and C128; the 899 diffuse points of the script are different and far enough from the origin.

* `C129_zeros` (`Props/KineticFit.lean`)
* `C129_fit` (`Props/KineticFit.lean`)
* `C129_element` (`Props/KineticFit.lean`)
* `C129_script` (`Props/KineticFit.lean`)

### C13 Model is linear in coefficients and non-negative for non-negative coefficients

For fixed exponents evaluate is linear in the coefficients, and non-negative coefficients give a density that is >= 0 everywhere (convex sums of Gaussians are densities).

*Status*: proved. *How*: from C10.

* `C13_linear_nonneg` (`Props/Gauss.lean`)

### C130 The scripts for Tables 3 and 4 hand the optimiser proper problems and complete with every optimiser that keeps to the bounds

With the bundled files in their places, for every element from hydrogen to xenon a pass of examples/table/table_3.py and of examples/table/table_4.py constructs the grid, the atom, the model and the ScipyFit object and calls scipy.optimize.minimize with a problem that has two unknowns per UGBS exponent of the S and P shells, one bound (1e-12, inf) for each, the starting point z/n and twice the exponents, which is within the bounds, tolerance 1e-14 and at most 10000 iterations. In table_4.py (squared difference) there is no constraint, and at every point within the bounds the objective returns a finite non-negative number with its exact gradient. In table_3.py (Kullback-Leibler divergence) there is one constraint, and at every point within the bounds the objective returns a value and a finite gradient; the value is finite if the atomic density is positive on the grid. If the optimiser raises, the script ends with that exception; if it returns a point within the bounds, the pass completes: the results hold the first half of the point as coefficients, the second half as exponents, the optimiser's value, jacobian, success and message, and a performance list whose integral, l1, linf and ls are finite and not negative; in table_3.py the value of the constraint there is the integral of the atomic density minus the integral in that list. So both scripts run to their end, for iodine, with every optimiser that stays within bounds.

*Status*: proved. *How*: The optimiser is an arbitrary function from problems to answers. The grid, data and density as for C128; the constructor by C124; the smallest exponent of the universal set and the number of exponents bound the starting point from below; the objective by C42 or, where the density may vanish, from the gradient of the divergence, which needs no logarithm.

* `C130_least_squares` (`Props/ScipyTables.lean`)
* `C130_divergence` (`Props/ScipyTables.lean`)
* `C130_scripts` (`Props/ScipyTables.lean`)

### C131 The script for densities of a database completes for every database and saves its results after each element

For every function that stands for the densities of AtomDB: if for an element from hydrogen to xenon it gives finite values on the grid of examples/atomdb_db.py, one of them positive at a point other than the origin, the pass of the script for the element completes. Negative values count as zero. The fit has one positive coefficient and one positive exponent per UGBS exponent of the S and P shells; the coefficients add up to at most z (1 + 1.3e-11 / I), I the integral of the density on the grid. The last entry of performance is goodness_of_fit of the results; the relative errors l1, linf and ls are its entries divided by the integral, the maximum and the integral of the square of the density. The relative error kl is nan as soon as one value of the density is zero or was clipped; if all values are positive it is the divergence divided by the integral of rho log rho, unless that is zero. If this holds for the eight elements of the script, it runs to its end and the file holds exactly seven entries for each element: coefficients and exponents cut after the s-type functions, the last entry of performance, success and the relative errors. If the database raises for an element, the script ends with that exception and the file holds exactly the entries of the elements before it (no file if there are none).

*Status*: proved. *How*: The database is an arbitrary function of element, multiplicity and points. Clipping gives a non-negative density, so the run is that of C128; one nan in the integrand makes the trapezoid rule return nan. The dictionary is a function; the keys of the eight elements are pairwise different.

* `C131_element` (`Props/Atomdb.lean`)
* `C131_script` (`Props/Atomdb.lean`)
* `C131_interrupted` (`Props/Atomdb.lean`)

### C132 Rounding errors of atomic densities, their derivatives and kinetic energy densities

Let every operation in atomic_density (mode total), derivative_density and positive_definite_kinetic_energy have a relative error of at most u <= 1/10, chosen anew at every operation, with sums in any order. Let K be the number of orbitals, L the largest number of Slater functions in a subshell, n their largest principal number and J at least three times every exponent times the distance r >= 0. Then the computed density differs from the exact one by at most (1-u)^-(2(n+J+L)+K+24) - 1 times the density of the same atom with the absolute values of the coefficients; for non-negative coefficients this is a relative error. The computed derivative and kinetic energy density differ by the same expression with 28 and 32 in place of 24, times the sum of the absolute values of the terms; below 1e-10 they are exact (zero). The computed spherical integral of the computed density on N ascending points differs from the exact integral of the exact density by at most (1-u)^-(2(n+J+L)+K+N+31) - 1 times the integral for the absolute coefficients. Computed densities and kinetic energy densities are never negative, for every u < 1, coefficients of any sign and also if operations underflow. The exact values are possible results for every u.

*Status*: proved. *How*: Each operation is a relation between operands and result. A Slater value is a product with n + J + 9 relative errors. Sums with signs use errors relative to the sum of the absolute values, a calculus closed under products, sums and roundings. Integrals use C113 on the computed non-negative densities.

* `C132_density` (`Props/RoundSlater.lean`)
* `C132_derivative` (`Props/RoundSlater.lean`)
* `C132_kinetic` (`Props/RoundSlater.lean`)
* `C132_integral` (`Props/RoundSlater.lean`)
* `C132_nonneg` (`Props/RoundSlater.lean`)
* `C132_exact` (`Props/RoundSlater.lean`)

### C133 Rounding errors of the objective, gradient and constraint of ScipyFit

Let every operation in ScipyFit.func and const_norm, including the derivative columns of the model, have a relative error of at most u <= 1/10, chosen anew at every operation, with sums in any order, and let J be at least three times every exponent times every squared distance, n the number of basis functions and N the number of points; coefficients are non-negative, exponents positive. In each of the three modes (all parameters, fixed coefficients, fixed exponents): for SquaredDifference with density f, weights w and model g the computed objective differs from the exact one by at most (1-u)^-(N+2J+2n+31) - 1 times the integral of |w| (|f|+g)^2, and entry k of the computed gradient by at most (1-u)^-(N+2J+n+38) - 1 times the integral of |w| 2(|f|+g) C_k, where C_k is the basis function (for a coefficient) or c (r^2 + q/e) times the basis function (for an exponent e with coefficient c, q = 3/2 for s-type and 5/2 for p-type normalised functions, else 0). For KLDivergence, where f > 0 and the model exceeds the mask by more than its rounding errors, the objective differs by at most (1-u)^-(N+J+n+21) - 1 times the integral of |w| f (|log(f/g)|+1) and entry k of the gradient by at most (1-u)^-(N+2J+n+37) - 1 times the integral of |w| (f/g) C_k; with non-negative weights this is a relative error for the coefficients. The computed const_norm differs by at most (1-u)^-(N+J+n+18) - 1 times |integral_dens| plus the integral of the model. The exact values are possible results for every u.

*Status*: proved. *How*: Each operation is a relation between operands and result. The derivative in an exponent is a difference of two products, so its error is relative to the sum of their absolute values; the same calculus as in C132 carries this through residuals, squares, logarithms (whose error is relative to |log| + 1), weights and integrals. A margin above the mask keeps computed points unmasked. TsallisDivergence is the subject of C148.

* `C133_squared` (`Props/RoundScipy.lean`)
* `C133_kl` (`Props/RoundScipy.lean`)
* `C133_constraint` (`Props/RoundScipy.lean`)
* `C133_exact` (`Props/RoundScipy.lean`)

### C134 The notebook about the density of an atom

With the bundled data files, examples/atomic_density.ipynb runs to its end. It makes n updates, 1 <= n <= 1000; before and after each there are eight coefficients and eight exponents, all positive, and after each update the coefficients add up to at most 4, so the printed sum is at most 4. The integral printed after the density is the trapezoid sum of the density without the factor 4 pi r^2. The plotted curves have n values: the spherical integral of the model after each update, the spherical integral of the absolute residual, the maximum of the absolute residual, and, under the title 'Kullback-Leibler value', the spherical integral of the squared residual; the Kullback-Leibler divergence is in results['fun'], which is not plotted. The density of beryllium computed from its file is positive at every radius r >= 0.

*Status*: proved. *How*: The grid is C05/C127, the density is computed from the parsed file neutral/be; both orbitals are bounded below or above by exponentials, which gives positivity at every radius. A fit from positive values stays positive (C36) and below the target (C35); at least one update is made because the performance list starts empty. Printing and drawing are left out; the arrays handed to them are kept.

* `C134_atomic` (`Props/Notebooks.lean`)
* `be_density` (`Props/Beryllium.lean`)

### C135 The notebook about the greedy fit of an atom

With the bundled data files and any positive random numbers, the greedy fit in examples/greedy_atomic_density.ipynb returns: at least one s-type function, at most four functions in all, one positive coefficient and one positive exponent for each, and a finite value of the divergence. The printed integral is the spherical trapezoid integral of the density. The last cell, which evaluates a model built with the number of s-type functions only, gives the values of the fitted model if the fit has no p-type functions and raises ValueError if it has any.

*Status*: proved. *How*: C96 for the grid and density of the notebook, whose integral is bounded by the bound on r^2 times the density and the length of the grid; C55 for the number of functions; evaluation with the wrong number of parameters raises.

* `C135_greedy` (`Props/Notebooks.lean`)

### C136 Basis functions with equal starting values stay equal; the notebook about water

In a Kullback-Leibler fixed-point fit of a normalised model two basis functions of the same type on the same centre that start with equal coefficients and equal exponents end with equal coefficients and equal exponents. examples/molecular_density.ipynb starts all coefficients at 1 and, by a slip, uses the hydrogen coefficients as hydrogen exponents: it runs to its end for all points, non-negative weights and non-negative densities such that every atom has a point of positive weight and density away from it; it makes n updates, 1 <= n <= 15; at all times the sixteen coefficients and exponents are positive, the three functions of each hydrogen are equal, and the model of sixteen functions is the model of twelve with a single function on each hydrogen whose coefficient is three times as large; after each update the coefficients add up to at most the integral of the density. The plotted curves are the integral of the model, the integral of the absolute residual, its maximum, and, under the title 'Kullback-Leibler value', the integral of the squared residual.

*Status*: proved. *How*: The update of a function depends on its type, distances, coefficient and exponent and on the ratio of density and model, so equal functions get equal updates; induction over the iterates. The grid, density and positions come from other packages; the grid is a list of points and weights.

* `C136_equal` (`Props/WaterNotebook.lean`)
* `C136_water` (`Props/WaterNotebook.lean`)

### C137 The display option

KLDivergenceFPI.run and GreedyStrategy.run return the same result, change the object in the same way or raise the same exception whether or not disp is set, and print nothing without it. With disp a successful fixed-point run prints one row per update: its number, performance[i], the largest absolute change of a coefficient and of an exponent in that update, and the absolute change of the divergence (infinite in the first row); then the returned values. A successful greedy run prints a row for the one-function solution and one per round, at most 5*(max_numb_funcs-1) of them: a round that accepts new parameters moves to the next entry of performance, any other round repeats the row before; a row has the counts and errors of its entry and the absolute change of the objective from the entry before. The column with the number of functions is their number for a new object and too small by the former number less one for an object used before. ScipyFit.run with disp gives the same result if the starting values have the right lengths and the iterates reported by the optimiser are finite vectors of the length of the starting vector, and prints goodness_of_fit of each; with starting values of other lengths the callback cuts the vector at another place than the end of run does, and disp=True can raise ValueError where disp=False returns.

*Status*: proved. *How*: The loops with output are related to the loops without by induction; the rows follow the trace of C39 and the history of accepted parameters of C53. A printed line is kept as the numbers in it; text, formatting and what scipy prints itself are left out.

* `C137_fpi_result` (`Props/Display.lean`)
* `C137_fpi_quiet` (`Props/Display.lean`)
* `C137_fpi` (`Props/Display.lean`)
* `C137_greedy_result` (`Props/Display.lean`)
* `C137_greedy_quiet` (`Props/Display.lean`)
* `C137_greedy` (`Props/Display.lean`)
* `C137_scipy_quiet` (`Props/Display.lean`)
* `C137_scipy` (`Props/Display.lean`)
* `C137_scipy_lengths` (`Props/Display.lean`)

### C138 Arrays that a call changes or shares

KLDivergenceFPI.run changes no array that exists when it is called: not the starting values, the density or the grid points. The coefficients in its result are the very array c0 if the coefficients are not optimised or no iteration is made, and otherwise a new array; likewise the exponents and e0; two calls with the same arrays give the same outcome, in different new arrays. The constructor keeps the given arrays without copying them and computes the Lagrange multiplier once: if the caller changes the density array or the array of grid points afterwards, the coefficients after an update sum to integral_dens times the quotient of the new and the old integral. ScipyFit.run changes no existing array even if the optimiser works in place on the array it is given, and returns the parameters that are not optimised as the given array itself. remove_redundancies, which adds up coefficients in place, changes neither of its arguments and returns two new arrays.

*Status*: proved. *How*: A model with memory (an array is a position in a list of contents); every function is related to its value-level model, the memory before the call being a prefix of the memory after it. Only arrays that are changed in place or handed out are places in memory; the two slices of the optimiser's result are represented by new arrays. Grid points are shared when the given array is contiguous.

* `C138_run` (`Props/Memory.lean`)
* `C138_again` (`Props/Memory.lean`)
* `C138_init` (`Props/Memory.lean`)
* `C138_changed` (`Props/Memory.lean`)
* `C138_scipy` (`Props/Memory.lean`)
* `C138_redundancies` (`Props/Memory.lean`)

### C139 The examples in README.md

The four-step example in README.md ends with an exception before anything is printed, whatever the density: it gives four starting coefficients for five functions; for 100 non-negative densities that are not all zero, the exception is the ValueError of run. With five positive starting coefficients it runs to its end for all non-negative densities of which one at a point other than the origin is positive: between 1 and 1000 updates, one printed row for each, five positive coefficients and five positive exponents; the coefficients sum to at most the integral of the density along the radial axis. The number that README.md prints as the spherical integral of a fitted model, with the misspelt variable name corrected, is the integral of the model along the radial axis minus 5000 + 100 (2 + pi); for the bundled fit of beryllium, the element used there, it is less than -700 although the model integrates to 4.

*Status*: proved. *How*: The model of the example composed from the models of grid, model and fit; C04, C124, the history of a fit (C134) and C137 for the run; C01, C02 and C05 for the integral; a kernel computation bounds the bundled beryllium density at the nucleus. As printed, README.md:146 has minus signs where the multiplication signs of 4 pi r**2 were meant; the model takes the line as it is.

* `C139_stops` (`Props/Readme.lean`)
* `C139_runs` (`Props/Readme.lean`)
* `C139_integral` (`Props/Readme.lean`)
* `C139_beryllium` (`Props/Readme.lean`)

### C14 Molecular density is the sum of its atoms

MolecularGaussianDensity.evaluate(coeffs, expons) equals the sum over centres of the atomic densities with consecutive blocks of the parameter vectors, for any number of centres and any per-centre s/p counts; with one centre it equals the atomic model.

*Status*: proved. *How*: induction over the centres with the running offset.

* `C14_sum_of_atoms` (`Props/Molecular.lean`)
* `C14_single_centre` (`Props/Molecular.lean`)

### C140 Results of fits in the .npz archives

Reading kl_fpi_results.npz or kl_slsqp_results.npz as README.md shows (num_s, num_p, coeffs and exps under the name of the element) gives, for every element from hydrogen to xenon, the same numbers of functions as the corresponding .json file, and coefficients and exponents each of which is the one double closest to the decimal in the .json file. The two printed arrays are the exponents of the s-type functions and those of the p-type functions. The model with the parameters from the archive is positive and integrates to the number of electrons up to a factor 1 +- 5e-11 (FPI) or 1 +- 3.1e-6 (SLSQP); its mean square radius is that of the bundled Hartree-Fock density up to a factor 1 +- 2.1e-5 (FPI) or 1 +- 3.1e-6 (SLSQP), except for the five elements of C102 in the SLSQP archive, for which it is more than 999 times too large. Any other name raises KeyError.

*Status*: proved. *How*: The bits of all numbers are copied by tools/gendata.py, which also checks that they give the bytes of the members; the kernel compares each with the decimal of the text (less than half a unit in the last place); for every double at least one unit away this proves that it is farther. Moments by C99 and C101/C102 with relative errors. The ZIP layer and the pickling layer of np.load are not modelled: an archive is the list of the names and bytes of its members.

* `C140_same` (`Props/Npz.lean`)
* `C140_fpi` (`Props/Npz.lean`)
* `C140_slsqp` (`Props/Npz.lean`)
* `C140_other` (`Props/Npz.lean`)

### C141 Text of the printed tables

With disp=True, KLDivergenceFPI.run, ScipyFit.run and the greedy classes print tables whose lines have the same number of fields between bars as their heading. The fields show, in the order of the heading, the numbers of C137 (number of the update or counts, the five measures, the changes), with an absolute error of at most 5e-7 for the fixed-point columns and a relative error of at most 5e-7 for the others; inf, -inf and nan are shown as such. A text has only one reading, so rows with the same text have values that agree up to these errors. With trust-constr the five measures follow their names. For values in the usual range all rows of a table have fields of the same widths; the slsqp and greedy tables are as wide as their headings and rules, while the rows of KLDivergenceFPI end one place before its heading and rules, because the heading of the last column is too long for its field.

*Status*: proved. *How*: Formats d, f and e as functions to lists of characters (rounding half to even of the exact value); a text is read by a relation that does not mention the formats. Error of rounding, digits by the lemmas about Nat.toDigits, exponents by Int.log; rows combined with C137. The sign of negative zero is not modelled. Lines with arrays, the time, the objective of the greedy run and its exit message have no text in the model.

* `C141_one_reading` (`Props/PrintText.lean`)
* `C141_fpi` (`Props/PrintText.lean`)
* `C141_scipy` (`Props/PrintText.lean`)
* `C141_greedy` (`Props/PrintText.lean`)
* `C141_same_text` (`Props/PrintText.lean`)
* `C141_widths` (`Props/PrintText.lean`)

### C142 Rounding errors and underflow of the valence and core densities

Let every operation in atomic_density have a relative error of at most u <= 1/10, and operations that may underflow an absolute error of at most u*tau below tau <= 1e-40, chosen anew at every operation, with sums in any order. Let the exponents be at least 1/20 and the principal numbers at most 10 (true for the bundled data), K, L, n, J as in C132, Q the number of electrons and P a bound of the sums of |coefficient| times (norm * (r^(n-1) + 1) + 1) over the functions of an orbital. Then the computed total density differs from the exact one by at most ((1-u)^-k - 1) times the total density of the atom with the absolute values of the coefficients plus (1-u)^-k * u * tau * (((4P + L + 1)^2 + 2)(Q + K) + 1), where k = 2(n+J+L)+K+26. The same holds for the valence and core density with 33 in place of 26, whatever the orbital energies are: the weights exp(-(e - e_last)^2) may underflow and 1 - exp may cancel, the error stays relative to the total density. Computed valence and core densities add up to the computed total density up to three such errors. Computed valence densities are never negative; core densities are not if the computed exponentials do not exceed one. The exact values are possible results for every u.

*Status*: proved. *How*: A calculus for numbers with relative errors and a top value that collects absolute errors (products multiply the tops). The absolute error of exp(-s) is bounded independently of s because s exp(-s) <= 1; so weights have an error relative to the occupation number for all energies. Overflow is not modelled. The derivative and the kinetic energy density are covered by C132 without underflow only.

* `C142_total` (`Props/RoundSplit.lean`)
* `C142_split` (`Props/RoundSplit.lean`)
* `C142_sum` (`Props/RoundSplit.lean`)
* `C142_nonneg` (`Props/RoundSplit.lean`)
* `C142_exact` (`Props/RoundSplit.lean`)

### C143 Text of exit_information

The text under exit_information in the result of a greedy run has one of three forms. After five failing rounds it names the returned numbers of s-type and p-type functions. At the maximum it shows a number that is at least max_numb_funcs - 1 and equals the returned number of functions plus one less the number of functions the object had before the run (so the number of functions for a new object). After convergence it shows the difference of the objective values of the last two stored parameter sets, the second being the returned fun, and d_threshold; the difference is not positive, its absolute value is below the threshold, and at least one function was added. A text has only one of these forms and only one reading. The form agrees with the reason of C56, and building the text raises no error that is not raised anyway.

*Status*: proved. *How*: Model of the texts with `str` for floats as a parameter. The history of accepted parameter sets (C53) gives the two objectives; the first difference is infinite, hence never below the threshold. Python's str for floats is a parameter. That the form names the true reason of the stop is false, see C56.

* `C143_text` (`Props/ExitText.lean`)
* `C143_errors` (`Props/ExitText.lean`)
* `C143_one_reading` (`Props/ExitText.lean`)

### C144 Overflow in the evaluation of Gaussian models

In a floating-point format with relative error u, gradual underflow below tau and overflow to infinity above Omega (single or double precision), with the IEEE rules for infinities and nan: if the exponents are at least Omega^(-1/2) and their powers 5/2 at most Omega/16, evaluate computes a finite, non-negative value of at most 4 e^(5/2) + 3/e + 12 for every s-type function at every finite distance, even if the squared distance overflows, and for every p-type function at distances with r^2 <= Omega/2. If the sum of 2|c|(4 e^(5/2) + 3/e + 12) + 1 is below (1-u)^n Omega the density at the point is finite for every order of summation. All these values are results of the same operations without overflow, so that the theorems on rounding apply. Beyond this, overflow does harm: for r^2 >= 2 Omega every p-type function with a positive exponent and every s-type function with exponent zero evaluates to nan, and one p-type function makes the density nan whatever its coefficient is; a normalised p-type function with e^(5/2) >= 2 Omega is nan at its centre, where the exact value is zero.

*Status*: proved. *How*: Operations on XR whose finite results are rounded as in the rounding model and become infinite above Omega. A Gaussian whose argument overflows is an underflow to zero, which the rounding model allows; x exp(-x) <= 1 bounds the p-type functions. Derivatives (deriv=True), integration and the other classes are not covered by the overflow model.

* `C144_basis` (`Props/Overflow.lean`)
* `C144_density` (`Props/Overflow.lean`)
* `C144_far` (`Props/Overflow.lean`)
* `C144_centre` (`Props/Overflow.lean`)
* `C144_nan` (`Props/Overflow.lean`)
* `C144_total` (`Props/Overflow.lean`)
* `C144_double` (`Props/Overflow.lean`)

### C145 Accuracy of evaluate at every point

In a floating-point format with relative error u, gradual underflow below tau and overflow above Omega, for exponents in the range of C144 that do not make the normalisation underflow (100 tau <= e and 100 tau <= e^(5/2)): the value of every basis function computed by evaluate differs from the exact one by at most ((1-u)^-13 - 1) times its peak (the normalisation factor F for s-type, F/e for p-type functions) plus (1-u)^-13 u tau (F (2+e) + 2), for p-type functions (F (3 r^2 + 2 e + 3) + 2). For s-type functions this bound does not depend on the distance. The density of n functions differs from the exact sum of c_k times the basis functions by at most ((1-u)^-(13+n) - 1) times the sum of |c_k| peak_k, plus the corresponding underflow terms, for every order of summation and coefficients of any sign. In double precision, for at most 100 functions with exponents from 10^-13 to 10^10, coefficients up to 10^100 and distances up to 10^6: at most 2^-46 times the sum of |c_k| peak_k plus 2^-900 times the sum of |c_k| + 1. Such executions exist.

*Status*: proved. *How*: The error of the argument x = e r^2 is u x, and x exp(-0.9 x) and x^2 exp(-0.9 x) are bounded, so the error of the Gaussian, also times r^2, is bounded by a multiple of u times the peak; underflow adds multiples of u tau. Normalisation factors have relative errors. C144 removes overflow. The error is measured against the peak of each function, not against the value: far from a centre the relative error is unbounded (underflow to zero). The distances are exact inputs.

* `C145_basis` (`Props/RoundGauss.lean`)
* `C145_density` (`Props/RoundGauss.lean`)
* `C145_double` (`Props/RoundGauss.lean`)
* `C145_total` (`Props/RoundGauss.lean`)

### C146 The bundled results evaluated in double precision

For every element from hydrogen (z=1) to xenon (z=54), the parameters read from kl_fpi_results.npz or kl_slsqp_results.npz as in README.md and handed to AtomicGaussianDensity.evaluate in double precision give, at every distance up to 10^6 from the nucleus, for every rounding of every operation (with underflow and overflow) and every order of summation, a finite number that differs from the exact density of the model by at most 2^-44 z^3 (5.7e-14 z^3).

*Status*: proved. *How*: C145 for double precision; the ranges of the numbers and the sum of coefficient times peak are checked by the kernel on the decimals of the .json files with integer arithmetic (sqrt e <= (e/t+t)/2), and carried over to the closest doubles by C140. Distances are exact inputs.

* `C146_fpi` (`Props/FitsRound.lean`)
* `C146_slsqp` (`Props/FitsRound.lean`)

### C147 Accuracy of the derivatives in the exponents

The derivatives with respect to the exponents returned by AtomicGaussianDensity.evaluate(..., deriv=True) (s- and p-type, normalised or not), computed with any rounding of every operation, gradual underflow and overflow, are right. In double precision, for exponents from 1e-13 to 1e10, distances up to 1e6 and coefficients up to 1e100, they are finite and differ from the derivative of the coefficient times the basis function by at most 2^-48 |c| times a bound of the derivative, plus 2^-800 (|c|+1). In any format the error, if nothing overflows, is at most ((1-u)^-26 - 1) times |c| times that bound plus a small multiple of the smallest positive number. Without rounding the computed number is the derivative. Where the square of the distance overflows the derivative is nan, for s-type functions too.

*Status*: proved. *How*: The errors of exp(-e r^2) r^2 and exp(-e r^2) r^4 are bounded by multiples of their largest values (relative error of the argument times y^3 exp(-0.9 y)); the products are then followed operation by operation with the calculus of C145 (NearTop); the two terms are added. Overflow is excluded by following powers of ten through the operations; far away zero times infinity is nan. C147_deriv and C147_exact are about the operations without overflow, C147_finite shows that these are the only ones for the given ranges. C147_total shows that executions exist.

* `C147_deriv` (`Props/RoundDeriv.lean`)
* `C147_finite` (`Props/OverflowDeriv.lean`)
* `C147_double` (`Props/OverflowDeriv.lean`)
* `C147_exact` (`Props/RoundDeriv.lean`)
* `C147_far` (`Props/OverflowDeriv.lean`)
* `C147_total` (`Props/OverflowDeriv.lean`)

### C148 Rounding errors of the Tsallis objective and gradient of ScipyFit

Let every operation in ScipyFit.func with a TsallisDivergence made by its constructor have a relative error of at most u <= 1/10, chosen anew at every operation (also alpha - 1.0 and the powers), with sums in any order. Let J, n, N be as in C133, coefficients non-negative, exponents positive, the density f positive and the model g above the mask by more than its rounding errors. Let the number K be at least alpha (J+n+11) and, at every point, at least 1.1 |alpha-1| (J+n+11) + |(alpha-1) log(f/g)|. In each of the three modes the computed objective differs from the exact one by at most (1-u)^-(N+K+13) - 1 times the integral of |w| f ((f/g)^(alpha-1) + 1) / |alpha-1|, and entry k of the computed gradient by at most (1-u)^-(N+J+K+27) - 1 times the integral of |w| (f/g)^alpha C_k with the columns C_k of C133; with non-negative weights this is a relative error for the coefficients. The exact values are possible results for every u.

*Status*: proved. *How*: The logarithm of a power turns relative errors of base and exponent into absolute ones; the rest is the calculus of C133 and its general theorem about func (RFunc.near). Without underflow, as C133. Executions with a negative density, or with a masked or zero ratio and a negative power (nan or inf in numpy), are not modelled.

* `C148_tsallis` (`Props/RoundTsallis.lean`)
* `C148_exact` (`Props/RoundTsallis.lean`)

### C149 Rounding errors of the points of radial grids

Let every operation that computes the points of a ClenshawRadialGrid or UniformRadialGrid have a relative error of at most u <= 1/100, chosen anew at every operation; np.cos is never above one and exact at zero. Then the computed core points for the atomic number Z differ from the documented ones by at most 11u/(2Z) and the diffuse points by at most 275u. Computed points are never negative, the first core point is exactly zero if the origin is included, and n core (or diffuse) points are strictly ascending if 44 u n^2 < 1 (ten million points in double precision). The whole grid after sorting has as many points as the exact one, in ascending order, and every point differs by at most 275u from the exact point at the same place. With 2 <= u n^2 the second core point may be computed as zero too, so the relative accuracy near the origin cannot be guaranteed. Points of uniform grids from a to b differ by at most 5u(|a|+|b|), the first is a, the last b, and they are strictly ascending if 10u(|a|+|b|)(n-1) < b-a. The exact points are possible results for every u.

*Status*: proved. *How*: Three relative errors of the angle are an absolute error of the cosine (Lipschitz); neighbouring exact points are at least 1/(2n^2) apart (product formula and sin x >= 2x/pi); sorting two lists that differ by at most E in every entry gives lists that do so (counting). The theorems about integration with rounding (C113, C133 and others) take the stored points as they are; this property is about the points.

* `C149_core` (`Props/RoundGrid.lean`)
* `C149_diffuse` (`Props/RoundGrid.lean`)
* `C149_grid` (`Props/RoundGrid.lean`)
* `C149_uniform` (`Props/RoundGrid.lean`)
* `C149_collapse` (`Props/RoundGrid.lean`)
* `C149_exact` (`Props/RoundGrid.lean`)

### C15 Molecular derivative layout

evaluate(..., deriv=True) of a molecular model has 2*nbasis columns; column k (k<nbasis) is the partial derivative w.r.t. coefficient k and column nbasis+k the one w.r.t. exponent k of the whole molecular density.

*Status*: proved. *How*: the same induction for the derivative rows, then C11 per block.

* `C15_derivative_layout` (`Props/Molecular.lean`)

### C150 Rounding errors of the points and weights of cubic grids

Let every operation that computes the points and weights of a CubicGrid in three dimensions have a relative error of at most u < 1, chosen anew at every operation, and let sums be formed in any order. Then coordinate d of the point (i, j, k) differs from origin_d + i axes_0d + j axes_1d + k axes_2d by at most (1/(1-u)^4 - 1)(|origin_d| + i|axes_0d| + j|axes_1d| + k|axes_2d|). The weight is never negative and differs from |det axes| by at most 1/(1-u)^10 - 1 times the sum of the absolute values of the six products of the determinant, which for axes along the coordinates is a relative error. An integral over N points, with the computed weight, differs from |det axes| times the sum of the values by at most 1/(1-u)^(N+10) - 1 times that sum of six products times the sum of the absolute values. No relative bound of the weight holds for all axes: for linearly dependent axes a weight u may be computed. The exact points and weights are possible results for every u.

*Status*: proved. *How*: Every computed number is within k errors of the exact one relative to the sum of the absolute values of the terms (NearBy); the calculus adds up the errors of products, differences, sums and the quotient; the exact values are those of C06 and C07. No underflow or overflow; from_molecule is not included.

* `C150_points` (`Props/RoundCubic.lean`)
* `C150_weights` (`Props/RoundCubic.lean`)
* `C150_integral` (`Props/RoundCubic.lean`)
* `C150_cancel` (`Props/RoundCubic.lean`)
* `C150_exact` (`Props/RoundCubic.lean`)

### C151 Rounding errors of CubicGrid.from_molecule

Let every operation of CubicGrid.from_molecule with rotate=False have a relative error of at most u < 1, chosen anew at every operation (doubling and halving are exact, sums are formed in any order), with positive charges, positive spacing h and extension e >= 0. Write q = (max - min + 2e)/h for a direction. Then the computed number of points n satisfies q h (1-u)^3 <= n h and (n-1) h (1-u)^3 < q h, so the box has the requested length up to rounding; it differs by at most one from ceil(q) if q (1/(1-u)^3 - 1) < 1, and it equals ceil(q) if q is not within three rounding errors of an integer. The computed origin differs from the centre of charge minus n h/2 by at most 1/(1-u)^(2K+2) - 1 times the sum of the absolute values added, for K atoms. Hence the computed box contains the interval of half length (max - min)/2 + e around the centre of charge up to these errors. If the requested length is an integer multiple k of the spacing, k as well as k+1 points may be computed: the bound on the errors alone does not determine the shape, e.g. 50 or 51 points for one atom with the default arguments. The exact grid is a possible result for every u.

*Status*: proved. *How*: All terms of the length are not negative, so the quotient has a relative error of three roundings, and ceil is monotone; the centre of charge is a quotient of sums with errors relative to the sums of absolute values; the exact grid is the closed form used for C08. rotate=True (np.linalg.eigh) is not included; no underflow. The margin is that of C08_box_partial, since the extension around every atom is false already in exact arithmetic.

* `C151_shape` (`Props/RoundBox.lean`)
* `C151_origin` (`Props/RoundBox.lean`)
* `C151_grid` (`Props/RoundBox.lean`)
* `C151_extra` (`Props/RoundBox.lean`)

### C152 Rounding errors in the guesses and in remove_redundancies of the greedy search

Let addition, subtraction, multiplication and division have relative errors of at most u < 1 (halving is exact). For positive exponents and a positive factor, get_next_choices returns the documented guesses in the documented order, with the same coefficients and with exponents that have one rounding error and are positive. If factor (1-u) > 1 and neighbouring exponents differ by more than u times their sum, the new exponent of every guess is strictly between its neighbours. remove_redundancies returns a subsequence of the exponents in which any two satisfy eps <= (1+u)|a-b|, and every dropped exponent b has an earlier exponent a with (1-u)|a-b| < eps. If no distance is within a rounding error of eps, the exponents are those of exact arithmetic, and every coefficient differs from the exact one by at most 1/(1-u)^n - 1 times the sum of the absolute values of the n coefficients. Exact operations give the results of exact arithmetic.

*Status*: proved. *How*: The model functions are copied with operations as parameters; the characterisations of C46 and C49 hold for every operation; then one rounding error for a new exponent, a comparison of computed and exact distances, and an induction over the additions to a coefficient. get_two_next_choices and pick_two_lose_one are in C154; no underflow.

* `C152_guesses` (`Props/RoundGreedy.lean`)
* `C152_between` (`Props/RoundGreedy.lean`)
* `C152_kept` (`Props/RoundGreedy.lean`)
* `C152_same` (`Props/RoundGreedy.lean`)
* `C152_exact` (`Props/RoundGreedy.lean`)

### C153 Rounding errors of the one-function starts of the greedy search

Let every operation have a relative error of at most u < 1 without underflow (doubling is exact). On a radial grid with n points, _solve_one_function_weight with a weight w >= 0 and a positive density has, in exact arithmetic, exponent (C B - W F)/D and coefficient exp((C E - B F)/D), with the weighted sums W of 1, B of x^2, C of log y, E of x^4, F of x^2 log y and D = W E - B^2. Let g = 1/(1-u)^(2n+11) - 1 and S = W E + B^2. If g S < D, every computed exponent is within 2 g P S/(D (D - g S)) of the exact one, and the computed coefficient is the exponential, with one rounding error, of a number within 2 g Q S/(D (D - g S)) of the exact exponent, where P and Q are the sums of absolute values in the numerators. The exponent 3 T/(8 pi M) of get_best_one_function_solution of GreedyKLFPI (ascending points, density >= 0, M the integral of density x^4) is computed with a relative error of at most 1/(1-u)^(n+16) - 1, and with 2n+23 in place of n+16 if T is the computed spherical integral of the density. The exact values are possible results.

*Status*: proved. *How*: Each weighted sum is near its exact value with respect to the sum of absolute values; products and differences add the error exponents; a quotient of two such numbers is compared by a common denominator. For the KL start the calculus of relative errors applies to the whole formula. Radial grids only; no underflow and no overflow.

* `C153_ls` (`Props/RoundStart.lean`)
* `C153_kl` (`Props/RoundStart.lean`)
* `C153_exact` (`Props/RoundStart.lean`)

### C154 Rounding errors in the pick-two and pick-two-lose-one guesses

Let addition, multiplication and division have relative errors of at most u < 1 (halving is exact). For n >= 1 positive exponents, equally many coefficients and a positive factor, get_two_next_choices returns the guesses of exact arithmetic in the same order, each with the same n+2 coefficients and with n+2 positive exponents of at most two rounding errors. pick_two_lose_one returns the guesses of exact arithmetic in the same order, each with the same n+1 coefficients and with n+1 positive exponents of at most two rounding errors. Exact operations give exactly the guesses of exact arithmetic.

*Status*: proved. *How*: The characterisations of C47 and C48 are repeated for arbitrary operations; one insertion into exponents with j rounding errors gives exponents with j+1, by induction twice; erasing a position keeps the relation. No underflow and no overflow.

* `C154_two` (`Props/RoundTwo.lean`)
* `C154_lose` (`Props/RoundTwo.lean`)
* `C154_exact` (`Props/RoundTwo.lean`)

### C16 assign_basis_to_center returns the owning centre

For every valid basis index the returned centre k is the unique one whose block of parameters contains the index (sum of counts before k <= index < sum of counts up to k); an index >= nbasis raises ValueError.

*Status*: proved. *How*: cumulative sums. Negative indices are silently assigned to centre 0.

* `C16_assign` (`Props/Molecular.lean`)
* `C16_negative_index` (`Props/Molecular.lean`)

### C17 prefactor matches the basis function type

model.prefactor has one entry per basis function, 1.5 for every s-type and 2.5 for every p-type one, in parameter order, for atomic and molecular models.

*Status*: proved.

* `C17_prefactor` (`Props/Gauss.lean`)
* `C17_molecular` (`Props/Molecular.lean`)

### C18 radii are distances to the centre

model.radii are the Euclidean distances of the points to the centre: never negative, zero exactly at the centre, unchanged when points and centre are translated together; the density depends on the points only through them.

*Status*: proved.

* `C18_radii` (`Props/Gauss.lean`)
* `C18_radii_1d` (`Props/Gauss.lean`)
* `C18_distance_laws` (`Props/Gauss.lean`)
* `C18_only_radii` (`Props/Gauss.lean`)

### C19 Model argument validation

The atomic model cannot be constructed with negative counts or with no basis function at all, and evaluate raises ValueError unless coeffs and expons are 1-D with exactly nbasis entries; whenever evaluate returns, the result has one value per point.

*Status*: partial. False of the code: for a single point on a line and a centre with several entries, evaluate returns one value per entry of the centre.

* `C19_construction` (`Props/Gauss.lean`)
* `C19_evaluate` (`Props/Gauss.lean`)
* `C19_one_radius_per_point_partial` (`Props/Gauss.lean`)
* `C19_several_values` (`Props/Center.lean`)

### C20 Squared difference

SquaredDifference.evaluate returns (f-g)^2 pointwise: >=0, zero iff f=g, symmetric; with deriv=True the second array is its exact derivative w.r.t. the model value.

*Status*: proved.

* `C20_squared_difference` (`Props/Measure.lean`)

### C21 Kullback-Leibler integrand and derivative

Wherever the density is positive and the model exceeds the mask value, KLDivergence.evaluate returns f*ln(f/g) and -f/g, the exact derivative w.r.t. the model value. 'Above the mask' includes that density/model is below 2^1022, where numpy's masked division gives up.

*Status*: proved. Above the mask also means quotient below 2^1022, where numpy stops masking the division.

* `C21_value_and_derivative` (`Props/Measure.lean`)

### C22 Kullback-Leibler masking

Model values at or below the mask contribute exactly zero to the KL integrand, for any density value; the derivative there is -1.

*Status*: proved.

* `C22_mask` (`Props/Measure.lean`)

### C23 Kullback-Leibler negative-model penalty

If any model value is negative, every entry of the returned integrand (and of the derivative) is the configured negative_val; if none is negative the penalty is never applied.

*Status*: proved.

* `C23_negative_penalty` (`Props/Measure.lean`)

### C24 Zero density contributes zero to Kullback-Leibler

By the convention 0 ln 0 = 0 a point where the density vanishes contributes 0 to the KL integrand. (False of the code when the model exceeds the mask there: the entry is NaN.)

*Status*: partial. False of the code: a zero density with model above the mask gives NaN.

* `C24_zero_density_partial` (`Props/Measure.lean`)
* `C24_zero_density_is_nan` (`Props/Measure.lean`)

### C25 Undefined model values are not reported as a perfect fit

If the model density is NaN at some point the KL measure is not a finite number. (False of the code: masked division replaces the NaN ratio by 1, so a NaN model gets KL contribution 0.)

*Status*: partial. False of the code: NaN model values give an entry of exactly zero.

* `C25_infinite_model_partial` (`Props/Measure.lean`)
* `C25_nan_model_reported_as_zero` (`Props/Measure.lean`)

### C26 Gibbs inequality on the grid

On any grid with non-negative weights, if density > 0 and model > mask everywhere then integrate(KL integrand) >= integrate(density) - integrate(model); so it is >= 0 whenever both integrate to the same value, and it is 0 when model = density. 'Above the mask' includes that density/model is below 2^1022, where numpy's masked division gives up.

*Status*: proved. *How*: t ln t >= t - 1 pointwise.

* `C26_gibbs` (`Props/Gibbs.lean`)
* `C26_zero_iff` (`Props/Gibbs.lean`)

### C27 Tsallis integrand and derivative

Above the mask with positive density TsallisDivergence.evaluate returns f((f/g)^(alpha-1)-1)/(alpha-1) and -(f/g)^alpha, its exact derivative w.r.t. the model value; construction rejects negative alpha and alpha within 1e-10 of 1. 'Above the mask' includes that density/model is below 2^1022, where numpy's masked division gives up.

*Status*: proved. alpha is a finite number.

* `C27_construction` (`Props/Measure.lean`)
* `C27_value_and_derivative` (`Props/Measure.lean`)

### C28 Tsallis upper-bounds Kullback-Leibler for alpha > 1

For alpha > 1 the Tsallis integrand is >= the Kullback-Leibler integrand at every point (documented note). (True above the mask; false at masked points, where Tsallis gives -f/(alpha-1) and KL gives 0.) 'Above the mask' includes that density/model is below 2^1022, where numpy's masked division gives up.

*Status*: partial. *How*: Bernoulli inequality. True above the mask, false at every masked point with positive density.

* `C28_upper_bound_partial` (`Props/Measure.lean`)
* `C28_fails_at_masked_points` (`Props/Measure.lean`)

### C29 Tsallis converges to Kullback-Leibler

As alpha tends to 1 the Tsallis integrand and derivative converge to the Kullback-Leibler ones at every unmasked point with positive density. 'Above the mask' includes that density/model is below 2^1022, where numpy's masked division gives up.

*Status*: proved. *How*: explicit rate, then squeeze.

* `C29_rate` (`Props/Measure.lean`)
* `C29_limit` (`Props/Measure.lean`)

### C30 Tsallis divergence is non-negative for equal integrals

For every accepted alpha > 0, if density and model are positive above the mask and integrate to the same value then the integrated Tsallis divergence is >= 0. 'Above the mask' includes that density/model is below 2^1022, where numpy's masked division gives up.

*Status*: proved. *How*: Bernoulli inequality.

* `C30_tsallis_nonneg` (`Props/Gibbs.lean`)

### C31 Measures validate their arguments

All measures return arrays of the same length as the density and raise ValueError when model or density is not an array, density is not 1-D, or the shapes differ, and TypeError when deriv is not a bool.

*Status*: partial. AttributeError instead of ValueError when neither argument is an array.

* `C31_validation_partial` (`Props/Measure.lean`)
* `C31_both_not_arrays` (`Props/Measure.lean`)

### C32 Spherical integration

With spherical=True a fit object integrates f as grid.integrate(4 pi r^2 f); otherwise as grid.integrate(f). Constructing a spherical fit on a multi-dimensional grid or with a negative density raises ValueError.

*Status*: proved.

* `C32_integrate` (`Props/Fit.lean`)
* `C32_construct` (`Props/Fit.lean`)

### C33 goodness_of_fit reports the five documented measures

goodness_of_fit returns [integral of model, integral |f-g|, max |f-g|, integral (f-g)^2, integral KL]; L1 >= |difference of integrals|, every |f-g| <= L_inf and L_inf is attained, and if the model reproduces a positive density exactly the last four are 0.

*Status*: proved.

* `C33_goodness` (`Props/Fit.lean`)
* `C33_sizes` (`Props/FitSizes.lean`)
* `C33_sizes_update` (`Props/FitSizes.lean`)
* `C124_radial` (`Props/Constructed.lean`)
* `C124_cubic_atom` (`Props/Constructed.lean`)
* `C124_cubic_molecule` (`Props/Constructed.lean`)

### C34 FPI constructor and Lagrange multiplier

KLDivergenceFPI construction yields lagrange_multiplier = integral(density)/integral_dens (exactly 1 when integral_dens is omitted) and raises RuntimeError when that ratio is 0 or NaN.

*Status*: proved. A zero integral_dens is accepted and gives an infinite multiplier (C34_zero_target).

* `C34_lagrange` (`Props/Fit.lean`)
* `C34_finite` (`Props/Fit.lean`)
* `C34_zero_target` (`Props/Fit.lean`)

### C35 FPI step conserves the number of electrons

After every coefficient update of the fixed-point iteration the coefficients sum exactly to integral_dens, whatever the previous coefficients and exponents, as long as the model exceeds the mask on the grid; with masked points they sum to at most integral_dens if the density is at least the mask value.

*Status*: proved. *How*: the weights of the averages add up to the density.

* `C35_conservation` (`Props/FPI.lean`)
* `C35_bound` (`Props/FPIHistory.lean`)
* `C124_radial` (`Props/Constructed.lean`)
* `C124_cubic_atom` (`Props/Constructed.lean`)
* `C124_cubic_molecule` (`Props/Constructed.lean`)

### C36 FPI step preserves positivity

If coefficients are non-negative and exponents are positive before a fixed-point update of a normalised model on a grid with non-negative weights, and every basis function sees positive density away from its centre, then the new parameters are finite, coefficients stay non-negative, positive ones stay positive and exponents stay positive; a basis function that sees density at its centre only gets an infinite or NaN exponent.

*Status*: proved. Positivity of all parameters needs a basis function to see density away from its centre; C36_degenerate shows that this is necessary.

* `C36_coeffs` (`Props/FPI.lean`)
* `C36_positive` (`Props/FPI.lean`)
* `C36_degenerate` (`Props/FPI.lean`)
* `C124_radial` (`Props/Constructed.lean`)
* `C124_cubic_atom` (`Props/Constructed.lean`)
* `C124_cubic_molecule` (`Props/Constructed.lean`)

### C37 FPI never increases the Kullback-Leibler divergence

For a normalised model, each fixed-point update (coefficients only, exponents only, or both) does not increase the integrated Kullback-Leibler divergence, provided the previous coefficients sum to at most integral_dens, and strictly decreases it unless no parameter changes; hence the history fun reported by run is non-increasing.

*Status*: proved. *How*: expectation-maximisation: log-sum inequality, then the one-function maximisation in closed form. Densities at least the mask value; the model must exceed the mask at the parameters an update starts from.

* `C37_monotone` (`Props/FPI.lean`)
* `C37_lagrangian` (`Props/FPI.lean`)
* `C37_history` (`Props/FPIHistory.lean`)
* `C124_radial` (`Props/Constructed.lean`)
* `C124_cubic_atom` (`Props/Constructed.lean`)
* `C124_cubic_molecule` (`Props/Constructed.lean`)

### C38 FPI fixed points are the stationary points

With all coefficients positive, parameters left unchanged by a full fixed-point update are exactly those at which the gradient of the constrained KL objective (KL + lagrange_multiplier * sum of coefficients) vanishes, for normalised models.

*Status*: proved. *How*: the fixed-point equations are the gradient equations multiplied by the parameters.

* `C38_stationary` (`Props/FPIStationary.lean`)
* `C124_radial` (`Props/Constructed.lean`)
* `C124_cubic_atom` (`Props/Constructed.lean`)
* `C124_cubic_molecule` (`Props/Constructed.lean`)

### C39 FPI run is bounded and its history is consistent

run performs at most maxiter updates and always stops; fun and performance have one entry per update, fun[k] is the KL entry of performance[k], performance[k] is goodness_of_fit of the k-th parameters, and returned coeffs/exps are the last iterate with one entry per basis function.

*Status*: proved.

* `C39_trace` (`Props/FPIRun.lean`)
* `C39_sizes` (`Props/FPIRun.lean`)
* `C39_input_errors` (`Props/FPIRun.lean`)
* `C39_total` (`Props/FPIHistory.lean`)
* `C124_radial` (`Props/Constructed.lean`)
* `C124_cubic_atom` (`Props/Constructed.lean`)
* `C124_cubic_molecule` (`Props/Constructed.lean`)

### C40 FPI run keeps frozen parameters

With opt_expons=False the returned exponents are exactly e0, with opt_coeffs=False the returned coefficients are exactly c0; with both False an error is raised if any iteration would run.

*Status*: proved.

* `C40_frozen` (`Props/FPIRun.lean`)
* `C40_nothing` (`Props/FPIRun.lean`)

### C41 FPI success flag means convergence

success=True implies that the last change in the divergence or the last changes in coefficients and exponents are below the thresholds, and parameters are finite. (False of the code: NaN parameters end the loop and are reported as success with fun=0.)

*Status*: partial. False of the code: NaN parameters, or a negative maxiter, are reported as success. True from non-negative coefficients and positive exponents when every basis function sees density (C41_good).

* `C41_success_partial` (`Props/FPIRun.lean`)
* `C41_finite_partial` (`Props/FPIRun.lean`)
* `C41_good` (`Props/FPIHistory.lean`)
* `C41_nan_success` (`Props/FPIRun.lean`)
* `C41_negative_maxiter` (`Props/FPIRun.lean`)

### C42 ScipyFit objective gradient is exact

For each mode (both, coefficients only, exponents only) the second value returned by ScipyFit.func is the exact gradient of the first w.r.t. the optimised vector, for the squared-difference, KL and Tsallis measures at points where density is positive and model exceeds the mask.

*Status*: proved. *How*: chain rule through the measures and C11/C15.

* `C42_squared` (`Props/ScipyFit.lean`)
* `C42_kl` (`Props/ScipyFit.lean`)
* `C42_tsallis` (`Props/ScipyFit.lean`)
* `C124_radial` (`Props/Constructed.lean`)
* `C124_cubic_atom` (`Props/Constructed.lean`)
* `C124_cubic_molecule` (`Props/Constructed.lean`)

### C43 ScipyFit normalisation constraint

const_norm(x) is integral_dens minus the integral of the model at x (zero iff the model integrates to integral_dens), and the constraint handed to the optimiser is defined wherever the objective is. (False for method trust-constr when only coefficients or only exponents are optimised: the constraint is registered without the frozen parameters and raises.)

*Status*: partial. False of the code for trust-constr with frozen parameters.

* `C43_const_norm` (`Props/ScipyFit.lean`)
* `C43_slsqp` (`Props/ScipyFit.lean`)
* `C43_trust_constr_partial` (`Props/ScipyFit.lean`)
* `C43_trust_constr_raises` (`Props/ScipyFit.lean`)
* `C124_radial` (`Props/Constructed.lean`)
* `C124_cubic_atom` (`Props/Constructed.lean`)
* `C124_cubic_molecule` (`Props/Constructed.lean`)

### C44 ScipyFit.run packs and unpacks parameters correctly

The dictionary returned by ScipyFit.run contains the optimiser's vector split into coefficients and exponents, frozen parameters are returned unchanged, sizes equal nbasis, performance is goodness_of_fit of exactly these, and if the optimiser respects the bounds it is given, every optimised parameter is >= 1e-12.

*Status*: proved.

* `C44_run` (`Props/ScipyFit.lean`)
* `C44_bounds` (`Props/ScipyFit.lean`)
* `C44_nothing` (`Props/ScipyFit.lean`)

### C45 ScipyFit default construction works

ScipyFit(grid, density, model) with default arguments constructs a KL fit. (False of the code: the default measure is the class, not an instance, so TypeError is always raised.)

*Status*: partial. False of the code: the default measure always raises TypeError; with a measure instance construction works.

* `C45_radial_partial` (`Props/ScipyInit.lean`)
* `C45_cubic_partial` (`Props/ScipyInit.lean`)
* `C45_default_raises` (`Props/ScipyInit.lean`)

### C46 pick-one choices

get_next_choices on n>=1 functions returns exactly n+1 guesses, the k-th being the old parameters with coeff_val inserted at position k of the coefficients and a new exponent (a_1/factor, a midpoint, or factor*a_n) inserted at position k of the exponents; for factor>=1 ascending positive exponents stay ascending.

*Status*: proved.

* `C46_next_choices` (`Props/GreedyChoices.lean`)
* `C46_sizes` (`Props/GreedyChoices.lean`)
* `C46_empty` (`Props/GreedyChoices.lean`)
* `C46_ascending` (`Props/GreedyChoices.lean`)

### C47 pick-two choices

get_two_next_choices on n>=1 functions returns (n^2+5n+4)/2 guesses, each with n+2 coefficients and n+2 exponents obtained by two successive pick-one insertions (so the old parameters survive as a subsequence).

*Status*: proved.

* `C47_two_choices` (`Props/GreedyChoices.lean`)
* `C47_count` (`Props/GreedyChoices.lean`)
* `C47_guess` (`Props/GreedyChoices.lean`)

### C48 pick-two-lose-one choices

pick_two_lose_one returns n+2 guesses for each pick-two guess, each with n+1 coefficients and n+1 exponents obtained by deleting the same position from both.

*Status*: proved.

* `C48_pick_two_lose_one` (`Props/GreedyChoices.lean`)
* `C48_sizes` (`Props/GreedyChoices.lean`)

### C49 remove_redundancies leaves no similar exponents

The exponents returned by remove_redundancies are a subsequence of the input, pairwise at least eps apart, every dropped exponent was within eps of an earlier one, and nothing is dropped iff the input was already pairwise eps apart; coefficients and exponents keep equal lengths.

*Status*: proved. *How*: characterisation of the kept positions.

* `C49_characterisation` (`Props/GreedyRedund.lean`)
* `C49_no_similar` (`Props/GreedyRedund.lean`)
* `C49_apart` (`Props/GreedyRedund.lean`)
* `C49_dropped` (`Props/GreedyRedund.lean`)
* `C49_unchanged_iff` (`Props/GreedyRedund.lean`)

### C50 remove_redundancies preserves the total coefficient

The sum of the coefficients is unchanged by remove_redundancies. (True when similarity is transitive on the input; false for chains a~b~c with a,c not similar.)

*Status*: partial. True unless a dropped function is itself similar to a later one; C50_fails_on_chain shows that coefficients are then counted twice.

* `C50_sum_partial` (`Props/GreedyRedund.lean`)
* `C50_real_partial` (`Props/GreedyRedund.lean`)
* `C50_fails_on_chain` (`Props/GreedyRedund.lean`)

### C51 The best local guess is picked

Among the locally optimised guesses the greedy step continues from the one with the smallest objective value (the earliest on ties), and whether an s- or p-type function is added matches that guess; if no guess has objective below 1e10 the run fails with TypeError.

*Status*: proved. Optimisers and objective are arbitrary.

* `C51_find_best` (`Props/GreedyRun.lean`)
* `C51_round` (`Props/GreedyRun.lean`)

### C52 Greedy run terminates

For every behaviour of the optimiser, the greedy loop stops after at most 5*max(0, max_numb_funcs-1) rounds, and an unsuccessful round leaves the model, counts and best parameters as they were.

*Status*: proved. *How*: lexicographic measure: functions still allowed, failed rounds.

* `C52_round_bound` (`Props/GreedyRun.lean`)
* `C52_bound_irrelevant` (`Props/GreedyRun.lean`)
* `C52_unsuccessful_round` (`Props/GreedyRun.lean`)

### C53 Greedy run never gets worse

The objective values of the accepted parameter sets are non-increasing, so the returned fun is <= the objective of the one-function solution.

*Status*: proved. SizeChecked is proved for both subclasses (lsEnv_sizeChecked, klEnv_sizeChecked).

* `C53_never_worse` (`Props/GreedyRun.lean`)
* `C53_no_worse_than_start` (`Props/GreedyRun.lean`)

### C54 Greedy result is consistent

The returned coeffs and exps both have num_s+num_p entries, are the s part followed by the p part of the last accepted parameters, fun is their objective value, and performance has one row per accepted parameter set.

*Status*: proved.

* `C54_consistent` (`Props/GreedyRun.lean`)
* `lsEnv_sizeChecked` (`Props/GreedyExit.lean`)
* `klEnv_sizeChecked` (`Props/GreedyExit.lean`)

### C55 Greedy respects the maximum number of functions

The number of basis functions in the result never exceeds max_numb_funcs. (True for strategies adding one function; with pick-two the result can have max_numb_funcs+1.)

*Status*: partial. False for pick-two, which can exceed the maximum by one; C55_general is the bound that holds.

* `C55_general` (`Props/GreedyRun.lean`)
* `C55_max_partial` (`Props/GreedyRun.lean`)
* `C55_fails_for_pick_two` (`Props/GreedyExit.lean`)

### C56 Greedy success flag and exit information

success=False exactly when the run stopped because the maximum number of functions or five consecutive failed rounds was reached, and the exit message names the true reason. (False of the code: the test compares with max_numb_funcs-1, so stopping at the maximum reports success=True.)

*Status*: partial. False of the code in three ways; C56_exit_partial states exactly what the flag and the message do tell.

* `C56_exit_partial` (`Props/GreedyExit.lean`)
* `C56_fails_max_success` (`Props/GreedyExit.lean`)
* `C56_fails_converged` (`Props/GreedyExit.lean`)
* `C56_fails_infinite_start` (`Props/GreedyExit.lean`)

### C57 add_extra_choices adds guesses

The guesses returned by add_extra_choices are considered by the greedy step. (False of the code: the appended element is never visited, so the argument has no effect on the result.)

*Status*: partial. False of the code: the argument never changes the outcome of a run; only exceptions it raises propagate.

* `C57_extra_choices_ignored` (`Props/GreedyRepeat.lean`)
* `C57_called_partial` (`Props/GreedyRepeat.lean`)

### C58 Greedy run can be repeated

Calling run twice on the same object gives two valid runs. (False of the code: counts are not reset, so after a run that accepted a function the next run raises ValueError.)

*Status*: partial. False of the code after a run that accepted a function; otherwise the second run equals the first with an accumulated performance array.

* `C58_second_run_raises` (`Props/GreedyRepeat.lean`)
* `C58_least_squares` (`Props/GreedyRepeat.lean`)
* `C58_kullback_leibler` (`Props/GreedyRepeat.lean`)
* `C58_rerun_partial` (`Props/GreedyRepeat.lean`)

### C59 Best one-function least-squares start

For weights with a unique solution the one-function start of GreedyLeastSquares solves the weighted log-linear least-squares problem exactly; if the density is a single Gaussian c*exp(-a r^2) it returns exactly (c, a); and the chosen candidate has the smallest objective of the three weightings.

*Status*: proved. The last theorem shows what is excluded: when all points are equally far from the centre the start is nan.

* `C59_least_squares` (`Props/GreedyStart.lean`)
* `C59_exact` (`Props/GreedyStart.lean`)
* `C59_best_of_three` (`Props/GreedyStart.lean`)
* `C59_recovers` (`Props/GreedyStart.lean`)
* `C59_degenerate` (`Props/GreedyStart.lean`)

### C60 Best one-function Kullback-Leibler start

The one-function start of GreedyKLFPI (spherical, default integral) is a fixed point of the KL iteration and no other single normalised s-type Gaussian with the same integral has a smaller KL divergence, as long as no grid point is masked.

*Status*: proved. *How*: C37 for one function plus strict convexity. Proved for spherical fits with the default integral. C60_fails_plain: for the default spherical=False the start is not a fixed point.

* `C60_start` (`Props/GreedyStartKL.lean`)
* `C60_fails_plain` (`Props/GreedyStartKL.lean`)

### C61 NNLS design matrix reproduces the model

The design matrix used by GreedyLeastSquares times a coefficient vector equals the model density for these coefficients. (True for normalize=False; false for normalize=True, where the matrix omits the normalisation.)

*Status*: partial. True for normalize=False; C61_fails_normalised is a counterexample for normalize=True.

* `C61_unnormalised` (`Props/GreedyStart.lean`)
* `C61_fails_normalised` (`Props/GreedyStart.lean`)

### C62 Slater radial orbitals are normalised

radial_slater_orbital returns (2z)^n sqrt(2z/(2n)!) r^(n-1) e^(-z r), and the integral over r in (0,inf) of r^2 R^2 is 1 for every exponent z>0 and quantum number n>=1.

*Status*: proved. *How*: Gamma function. Positive exponents, n >= 1, all real points; other shapes rejected.

* `C62_formula` (`Props/Slater.lean`)
* `C62_normalised` (`Props/SlaterIntegral.lean`)

### C63 Slater radial derivative is exact

derivative_radial_slater_type_orbital is the exact derivative of the radial orbital at every point with |r| >= 1e-10 and is 0 (never NaN or inf) closer to the origin.

*Status*: proved.

* `C63_derivative` (`Props/Slater.lean`)

### C64 Atomic density is non-negative and splits into core and valence

atomic_density is >= 0 for all three modes, total = core + valence pointwise, 0 <= core, valence <= total; an unknown mode raises ValueError.

*Status*: proved. Finite orbital data of matching lengths with non-negative occupations.

* `C64_split` (`Props/Slater.lean`)
* `C64_unknown_mode` (`Props/Slater.lean`)

### C65 Valence weighting uses the highest occupied orbital

Core/valence weights are computed from the energy of the highest occupied orbital. (False of the code when the last listed orbital is not the highest: it takes the last entry of the S,P,D,F ordered list, e.g. 4D instead of 5P for Xe.)

*Status*: partial. False of the code: the reference is the orbital listed last (C65_uses_last, witness C65_fails with the outer orbitals of Xe). Proved when the last orbital is the highest.

* `C65_homo_partial` (`Props/SlaterHomo.lean`)
* `C65_fails` (`Props/SlaterHomo.lean`)
* `C65_uses_last` (`Props/SlaterHomo.lean`)

### C66 derivative_density is the derivative of atomic_density

derivative_density equals d/dr of the total atomic_density at every point with |r| >= 1e-10.

*Status*: proved. *How*: product rule over the orbitals.

* `C66_derivative` (`Props/Slater.lean`)

### C67 Atomic density integrates to the number of electrons

If each orbital is a normalised combination (its coefficient vector has unit norm w.r.t. the Slater overlap) the integral of 4 pi r^2 atomic_density is the sum of the orbital occupations.

*Status*: proved.

* `C67_electrons` (`Props/SlaterIntegral.lean`)

### C68 Kinetic energy density

positive_definite_kinetic_energy is >= 0 and finite at every point including r=0, and away from the origin equals (1/8pi) sum n_i (phi_i'^2 + l(l+1) phi_i^2/r^2).

*Status*: proved.

* `C68_kinetic` (`Props/Slater.lean`)

### C69 Electron configuration parsing

Parsing a configuration string made of shell abbreviations and orbital(count) entries yields exactly the listed non-zero occupations (K, L, M, N expand to full shells).

*Status*: proved. *How*: invariant of the loop over labels: each label occurs in a configuration text only where it is an item.

* `C69_configuration` (`Props/Config.lean`)
* `C69_entries` (`Props/Config.lean`)
* `C69_cores` (`Props/Config.lean`)

### C70 Slater file selection

load_slater_wfn opens exactly the file for the requested element and charge state (case-insensitively), raises ValueError for elements without anion/cation data.

*Status*: proved.

* `C70_neutral` (`Props/SlaterFile.lean`)
* `C70_anion` (`Props/SlaterFile.lean`)
* `C70_cation` (`Props/SlaterFile.lean`)
* `C70_case` (`Props/SlaterFile.lean`)
* `C70_rejects` (`Props/SlaterFile.lean`)

### C71 Slater table parsing

For every table in the documented format, the parsed coefficient list of each orbital is the column printed under that orbital, with as many entries as the subshell has exponents, and occupations are listed in the order of the orbitals.

*Status*: proved. *How*: induction over blocks and rows of a file text.

* `C71_file` (`Props/SlaterTable.lean`)

### C72 UGBS exponents

get_ugbs_exponents(element) returns, per shell, exactly the exponents listed for that element in file order (case-insensitive) and nothing belonging to other elements.

*Status*: proved. *How*: induction over the file.

* `C72_exponents` (`Props/Ugbs.lean`)
* `C72_case` (`Props/Ugbs.lean`)

### C73 Greedy results have no near-duplicate functions

If a greedy run accepted at least one function beyond the first, then no two s-type exponents and no two p-type exponents of the returned result differ by less than 1e-3.

*Status*: proved.

* `C73_no_similar_exponents` (`Props/GreedyRun.lean`)

### C74 Every listed cation can be loaded

For every element in the list of cations and every cation file in the layout shared by the cation files (configuration given as shells and subshells), load_slater_wfn(element, cation=True) does not fail on the electron configuration.

*Status*: partial. False of the code for caesium (C74_caesium): its cation file is taken for the heavy layout and rejected. Proved for all other listed cations.

* `C74_caesium` (`Props/SlaterFile.lean`)
* `C74_cations_partial` (`Props/SlaterLoad.lean`)

### C75 From file to density

For every Slater file in the documented format with finite data and positive exponents, the file is read without error and atomic_density(points, 'total') of the resulting object is the sum over the printed orbitals of occupation times squared radial function over 4 pi, built from the printed exponents, numbers and coefficients; if the printed orbitals are normalised and include every occupied orbital, its integral over space is the number of electrons of the printed configuration.

*Status*: proved. *How*: C71 gives an object for which C67 applies.

* `C75_density` (`Props/SlaterLoad.lean`)

### C76 The fixed-point iteration terminates with success

Let every grid point be at a distance between rho > 0 and R from every centre, the model be normalised, the density positive and the mask below the smallest density that exponents in the box spanned by the initial ones, 3/(2R^2) and 5/(2 rho^2) can give. Then KLDivergenceFPI.run with a positive d_threshold and a maxiter above an explicit bound computed from the input reports success after at most that many updates, returns exponents in the box and coefficients that sum to integral_dens, and its divergences never increase.

*Status*: proved. *How*: The divergence is bounded below (each normalised basis function is at most 1/rho^3), decreases by C37, and each non-final update lowers it by more than d_threshold; the exponent update is a ratio of averages, which keeps it in the box, and the box keeps the model above the mask.

* `C76_converges` (`Props/FPIConverge.lean`)
* `C76_a_priori` (`Props/FPIConverge.lean`)
* `C124_radial` (`Props/Constructed.lean`)
* `C124_cubic_atom` (`Props/Constructed.lean`)
* `C124_cubic_molecule` (`Props/Constructed.lean`)

### C77 Accuracy of radial integration

integrate on an ascending radial grid with steps of at most h differs from the integral of a twice continuously differentiable function by at most (r_last - r_first) h^2 / 12 times a bound of its second derivative; on UniformRadialGrid(n, a, b) by at most (b-a)^3 / (12 (n-1)^2) times that bound, so it converges; for a normalised atomic model the spherical integral on [0, b] converges to the sum of the coefficients.

*Status*: proved. *How*: Mathlib bounds the error of one trapezium; sum over the intervals. For the electrons, the tail of the normalised integral over [0, b] tends to zero.

* `C77_error_bound` (`Props/Accuracy.lean`)
* `C77_uniform` (`Props/Accuracy.lean`)
* `C77_converges` (`Props/Accuracy.lean`)
* `C77_electrons` (`Props/Accuracy.lean`)

### C78 Inequalities between the reported errors

For the numbers returned by goodness_of_fit with non-negative weights of sum V: L1 <= V Linf, LS <= Linf L1 and L1^2 <= V LS. If moreover the density is positive and the model is above the mask, L1^2 <= (2/3)(I + 2J)(KL - I + J) for the integrals I of the density and J of the model; in particular L1^2 <= 2 I KL if they agree.

*Status*: proved. *How*: Pointwise 3 (x - 1)^2 <= (2 x + 4)(x log x - x + 1) and the Cauchy-Schwarz inequality over the weighted grid points.

* `C78_pinsker` (`Props/Norms.lean`)
* `C78_norms` (`Props/Norms.lean`)
* `C124_radial` (`Props/Constructed.lean`)
* `C124_cubic_atom` (`Props/Constructed.lean`)
* `C124_cubic_molecule` (`Props/Constructed.lean`)

### C79 The fixed-point iteration commutes with scaling the density

For t > 0, let one KLDivergenceFPI object fit a density f with target integral T and mask value m, and another t f with t T and t m. Running the second one from t times the coefficients, with the thresholds on the coefficients and the divergence times t, makes the same number of updates, returns t times the coefficients, the same exponents and the same success, and every number in the history is t times that of the first run (t^2 for the squared error).

*Status*: proved. *How*: The update, the errors and the largest change are homogeneous in the density; the two loops are related step by step.

* `C79_update` (`Props/FPIScale.lean`)
* `C79_run` (`Props/FPIScale.lean`)
* `C124_radial` (`Props/Constructed.lean`)
* `C124_cubic_atom` (`Props/Constructed.lean`)
* `C124_cubic_molecule` (`Props/Constructed.lean`)

### C80 Fixed points of the coefficient update are global optima

Let KLDivergenceFPI._update_params optimise the coefficients only, with a normalised model, non-negative weights and a positive density, such that no single basis function with coefficient T falls under the mask on the grid. Positive coefficients that sum to T are left unchanged by the update if and only if goodness_of_fit reports for them a Kullback-Leibler divergence that is at most the one of every other list of non-negative coefficients with sum T, at the same exponents.

*Status*: proved. *How*: The divergence is convex in the coefficients; the update multiplies c_k by the k-th partial derivative over the multiplier, so a positive fixed point satisfies the first-order conditions, and Jensen turns them into global optimality; conversely the optimum is fixed because an update strictly improves any other point. Only the coefficients are optimised and no single basis function with coefficient T falls under the mask.

* `C80_optimal` (`Props/FPIOptimal.lean`)
* `C124_radial` (`Props/Constructed.lean`)
* `C124_cubic_atom` (`Props/Constructed.lean`)
* `C124_cubic_molecule` (`Props/Constructed.lean`)

### C81 Convergence rate of the coefficient iteration

In the setting of C80, start KLDivergenceFPI.run with opt_expons=False from coefficients that are at least m > 0 and sum to T, and let I be the quadrature integral of the density. The run succeeds, the j-th number of the history (from 0) exceeds the smallest divergence possible with non-negative coefficients of sum T by at most I log(T/m)/(j+2), and the returned model exceeds it by at most I log(T/m)/(n+1) after n updates. With all thresholds zero the divergence of the returned model tends to the smallest possible one as maxiter grows.

*Status*: proved. *How*: The relative entropy of the best coefficients to the current ones drops by at least the optimality gap per update (Jensen); sum over the updates and use that the gap decreases. Same setting as C80.

* `C81_rate` (`Props/FPIOptimal.lean`)
* `C81_limit` (`Props/FPIOptimal.lean`)
* `C124_radial` (`Props/Constructed.lean`)
* `C124_cubic_atom` (`Props/Constructed.lean`)
* `C124_cubic_molecule` (`Props/Constructed.lean`)

### C82 The kinetic energy density is at least the von Weizsäcker one

For every atom with non-negative occupations and every list of points, the values t of atomic_density(mode="total"), d of derivative_density and k of positive_definite_kinetic_energy at a point satisfy d^2 <= 8 t k. If the atom has one orbital and it is of type S, then d^2 = 8 t k.

*Status*: proved. *How*: Cauchy-Schwarz for the occupation-weighted sums over orbitals; the angular term is non-negative and zero for S orbitals.

* `C82_weizsaecker` (`Props/SlaterKinetic.lean`)

### C83 Greedy fits on a cubic grid can be set up but not run

The docstrings of GreedyLeastSquares and GreedyKLFPI list CubicGrid as an accepted grid. On every cubic grid with linearly independent axes and for every non-negative density with non-zero sum both constructors succeed. GreedyKLFPI.run then raises ValueError for every float factor and TypeError for any other factor. GreedyLeastSquares.run raises the same errors unless the grid has exactly one or three points, and even on such grids a run that returns has added no basis function: it returns one s-type function and a history of one entry.

*Status*: proved. *How*: The products of arrays of shape (n,3) and (n,) in the start solution broadcast only for n = 1 or 3; follow the error through the start of the greedy loop. The docstrings promise more than the code does; this states what it does.

* `C83_constructs` (`Props/GreedyCubic.lean`)
* `C83_kullback_leibler` (`Props/GreedyCubic.lean`)
* `C83_least_squares` (`Props/GreedyCubic.lean`)

### C84 With frozen exponents the SLSQP objective is convex and its stationary points are global minima

With opt_expons=False, non-negative quadrature weights and fit weights, the value returned by ScipyFit.func at any coefficients y is at least the value at x plus the returned gradient at x times (y - x), for the squared difference at all x and y, and for the Kullback-Leibler and Tsallis measures where the density is positive and both models exceed the mask. Therefore, if x is feasible and the returned gradient equals lambda times the integrals of the basis functions, or exceeds it in entries where x is at the lower bound, no feasible y has a smaller objective.

*Status*: proved. *How*: Tangent inequality of each measure in the model value, summed with non-negative weights; the model is linear in the coefficients. The conditions then bound the tangent term below by zero.

* `C84_squared` (`Props/ScipyConvex.lean`)
* `C84_kl` (`Props/ScipyConvex.lean`)
* `C84_tsallis` (`Props/ScipyConvex.lean`)
* `C84_optimal` (`Props/ScipyConvex.lean`)
* `C124_radial` (`Props/Constructed.lean`)
* `C124_cubic_atom` (`Props/Constructed.lean`)
* `C124_cubic_molecule` (`Props/Constructed.lean`)

### C85 Symmetries of the Gaussian models

Moving all points and all centres of a MolecularGaussianDensity by the same orthogonal matrix and translation changes neither the values nor the derivatives returned by evaluate. Listing the atoms in another order, with their numbers of functions and blocks of parameters, leaves the values unchanged, and so does reordering the s-type functions among themselves and the p-type functions among themselves in an atomic model. Measuring lengths in a unit u times smaller, with exponents divided by u^2, divides the values of a normalised model by u^3.

*Status*: proved. *How*: The model depends on points and centres only through distances, which orthogonal maps preserve; the value is a sum over atoms and over functions; the normalised functions scale like a density.

* `C85_rigid` (`Props/Symmetry.lean`)
* `C85_atom_order` (`Props/Symmetry.lean`)
* `C85_function_order` (`Props/Symmetry.lean`)
* `C85_length_unit` (`Props/Symmetry.lean`)

### C86 The fixed-point fit does not depend on the unit of length

Let two KLDivergenceFPI objects describe the same physical density with a normalised model in two units of length: distances are multiplied by u, quadrature weights by u^3, densities and mask value divided by u^3. From the same coefficients and exponents divided by u^2 every update gives the same coefficients and exponents divided by u^2, and run (with the exponent threshold divided by u^2) makes the same number of updates and returns the same coefficients, history and success flag. For spherical fits of an atomic model on a radial grid the constructors give such a pair.

*Status*: proved. *How*: Both integrals of the update transform by fixed powers of the unit, and so do the five error measures; corresponding states of the two loops stay in correspondence (induction over the updates). Where the density is positive and each function sees density away from its centre.

* `C86_update` (`Props/FPIUnit.lean`)
* `C86_run` (`Props/FPIUnit.lean`)
* `C86_radial` (`Props/FPIUnit.lean`)

### C87 Integral of the kinetic energy density

For a SlaterAtoms object with finite data the values returned by positive_definite_kinetic_energy at points at least 1e-10 from the nucleus are those of one function k of the distance. k is integrable over three-dimensional space, and its integral is the kinetic energy of the determinant: half the sum over orbitals of occupation times the quadratic form of the coefficients in the closed-form radial kinetic matrix elements of the normalised Slater functions, centrifugal term l(l+1) included.

*Status*: proved. *How*: The kinetic density is a finite sum of products of Slater functions and derivatives; each radial integral is a Gamma integral; polar coordinates give the integral over space.

* `C87_kinetic_energy` (`Props/SlaterEnergy.lean`)

### C88 Scaling of atomic densities

Multiplying all exponents of a SlaterAtoms object by u > 0 turns the density rho(r) returned by atomic_density in each of the modes total, valence and core into u^3 rho(u r), the derivative returned by derivative_density into u^4 rho'(u r), and the positive definite kinetic energy density into u^5 k(u r), at points where the distances r and u r are not cut off near the nucleus.

*Status*: proved. *How*: Slater functions scale by u^(3/2) and their derivatives by u^(5/2); the object with scaled exponents satisfies the same assumptions, and the three outputs are quadratic in these functions.

* `C88_scaling` (`Props/SlaterEnergy.lean`)

### C89 The bundled atomic data files load and hold the right atoms

For each of the 197 readable atomic data files (neutral atoms 1 to 103, 42 anions, 52 cations) the constructor of SlaterAtoms succeeds on its text. The occupation numbers sum to the number of electrons of that atom or ion. The columns of phi_matrix are orbitals normalised up to 1e-5 and, within a subshell, orthogonal up to 1e-6. The total density integrates over space to the number of electrons up to 1e-5 per electron. The energies satisfy E = T + V up to 2e-9 and V = -2T up to a relative 2e-8, and the integral over space of positive_definite_kinetic_energy is T up to a relative 3e-7. The text of the cation of caesium raises ValueError.

*Status*: proved. *How*: The texts are Lean definitions. A scanner decides the layout and an integer arithmetic with error bounds decides norms, overlaps and kinetic energies; both are proved sound once and evaluated by the kernel on each text. Numbers are read exactly (no rounding). The anion of silver is not a text and is left out.

* `C89_bundled` (`Props/Bundled.lean`)
* `C89_complete` (`Props/Bundled.lean`)
* `C89_caesium` (`Props/Bundled.lean`)

### C90 Reference energy of core and valence densities of the bundled atoms

For every readable bundled data file the valence and core densities returned by atomic_density use the energy of the orbital listed last as reference. It is the highest orbital energy for exactly 55 of the 197 files (listed by atomic number and charge) and lower than another one for the other 142.

*Status*: proved. *How*: The same checks compare the last orbital energy with all others; C65 says how it is used. States what the code does; the documented reference is the highest occupied orbital (C65).

* `C90_reference` (`Props/Bundled.lean`)
* `C90_count` (`Props/Bundled.lean`)

### C91 Every accepted greedy parameter set extends the previous one by the strategy

In a successful run of the greedy algorithm with non-NaN objective values, each accepted parameter set after the first comes from the one before it: a guess keeps all functions of one type (s or p) and extends the other type by the chosen strategy with a factor doubled fewer than five times (or, for the first p-type functions, by random numbers), the guess is optimised quickly and then fully, and no guess of that round had a smaller objective after its quick optimisation.

*Status*: proved. *How*: Every state of the loop is reached by rounds; each accepted round is decomposed into guess, quick optimisation, choice of the best and full optimisation (induction over the rounds). Objective values must not be NaN.

* `C91_rounds` (`Props/GreedyGuess.lean`)

### C92 Greedy objective, optimisation step and reported errors agree

For every GreedyLeastSquares object and every successful run the squared errors in performance never increase and the last one is fun; for GreedyKLFPI the same holds for the Kullback-Leibler entries. An optimisation step of GreedyLeastSquares hands the non-negative least-squares coefficients and the unchanged exponents of the guess to the minimiser, with the objective of the greedy search as objective and the tolerances given to the constructor, and returns the minimiser's answer; one of GreedyKLFPI is a run of the fixed-point iteration from the guess. A factor that is not positive raises ValueError and one that is not a float TypeError.

*Status*: proved. *How*: goodness_of_fit and eval_obj_function evaluate the same measure on the same model values; C53's history gives the order. The step is unfolded once for both optimisations. The step of GreedyLeastSquares is stated for finite data; nnls and the minimiser are arbitrary functions.

* `C92_least_squares` (`Props/GreedyErr.lean`)
* `C92_kullback_leibler` (`Props/GreedyErr.lean`)
* `C92_least_squares_step` (`Props/GreedyErr.lean`)
* `C92_kullback_leibler_step` (`Props/GreedyErr.lean`)
* `C92_factor` (`Props/GreedyErr.lean`)

### C93 Molecular fits on cubic grids from the constructors

A molecular model on the points of a uniform cubic grid and a density on it give a fixed-point fit whose update has an explicit form: each new coefficient and exponent is a ratio of sums over the lattice points that uses the distance to the centre owning the function, the coefficients sum to the target, parameters stay positive and the Kullback-Leibler divergence does not increase. A ScipyFit of the same model hands the optimiser the exact gradient.

*Status*: proved. *How*: The points of the cubic grid are lattice points; the molecular model is an instance of the abstract fit, whose owner and distances are computed from the counts per centre.

* `C93_fixed_point` (`Props/MolFit.lean`)
* `C93_gradient` (`Props/MolFit.lean`)

### C94 The fixed-point fit depends on the set of functions, not on their order or multiplicity

Reordering the basis functions of a model, or splitting one into several copies with the same type and exponent whose coefficients add up to its coefficient, changes nothing but the bookkeeping in KLDivergenceFPI: one update of the copies gives copies of the updated functions, the five reported errors are equal, and whole runs make the same number of iterations with the same performance, fun and success (for copies if only the divergence and iteration limit stop the loop).

*Status*: proved. *How*: A refinement maps the functions of one shape onto those of another; the copied densities agree pointwise, hence the update formulas, the errors and, by induction over the loop, the runs. Runs with proper copies need a negative threshold on the coefficients, because the largest change of a coefficient depends on the splitting.

* `C94_update` (`Props/FPIMerge.lean`)
* `C94_goodness` (`Props/FPIMerge.lean`)
* `C94_run` (`Props/FPIMerge.lean`)
* `C94_radial` (`Props/FPIMerge.lean`)

### C95 Accuracy of integrals on cubic grids

The integral reported by a uniform cubic grid differs from the exact (Lebesgue) integral over the parallelepiped spanned by the grid by at most the largest change of the function within a cell times the volume of the box; for Lipschitz functions by at most the constant times the sum of the axis lengths times the volume; for continuous functions it converges when the axes are divided and the point counts multiplied by the same growing number.

*Status*: proved. *How*: The box is the disjoint union of translated cells, images of the unit cube under the axes; each lattice value is compared with the mean over its cell. Heine-Cantor gives the limit.

* `C95_error` (`Props/CubicAccuracy.lean`)
* `C95_lipschitz` (`Props/CubicAccuracy.lean`)
* `C95_refine` (`Props/CubicAccuracy.lean`)

### C96 Greedy searches always return on ordinary data

GreedyKLFPI on an ascending radial grid with a positive density (integral at most 9e6) never raises: the constructor and run return for every strategy, positive factor, finite threshold and number of functions, all parameters of all accepted rounds are positive finite numbers, fun is finite, and accepted coefficients of rounds updated by the fixed-point iteration do not exceed the target number of electrons in sum. GreedyLeastSquares with unnormalised functions on a positive density with two different distances returns whenever its solvers return points within the bounds with an objective below 1e10; all parameters are finite, and at least 1e-12 from the second function on.

*Status*: proved. *How*: Invariant of the rounds: the current vector, every guess and every optimised vector consists of positive (finite) numbers and has a finite objective, which the search accepts because it is below 1e10. For Kullback-Leibler fits positivity and the bound come from the theory of the update (C36, C39). The contract of nnls and the minimiser is a hypothesis of the least-squares half.

* `C96_kullback_leibler` (`Props/GreedyTotal.lean`)
* `C96_least_squares` (`Props/GreedyTotal.lean`)

### C97 UGBS exponents of the bundled file

With the bundled file data/ygbs, get_ugbs_exponents returns for each element H to La and Hf to Rn (any capitalisation of the symbol) a dictionary with the keys S, P, D, F only. A list is non-empty exactly for the shells the element has (S; P from boron, D from scandium, F from hafnium), and each list consists of consecutive members exp(0.12 + 0.672 k), -6 <= k <= 27, of the universal set in descending order up to a relative error of 5e-15. For the lanthanides, the elements after radon (although the header of the file lists them) and any other word the four lists are empty without any error, except for the words that start other lines of the file: '#', 'basis', '#basis' and the exponents as text raise KeyError, 'end' raises IndexError.

*Status*: proved. *How*: The lines of the file are a literal; a Boolean check of each element's lines, run by the kernel, compares every exponent with a table of rational enclosures of exp(0.12 + 0.672 k). Soundness lemmas turn the check into the statement about the parser (via C72). The lines of data/ygbs are copied by tools/gendata.py.

* `C97_elements` (`Props/UgbsData.lean`)
* `C97_other` (`Props/UgbsData.lean`)
* `C97_errors` (`Props/UgbsData.lean`)

### C98 Limit behaviour of the fixed-point iteration

In the situation of C76 (grid points at distances between rho > 0 and R from all centres, mask below the smallest density possible for the exponents), with positive initial coefficients and thresholds that are not positive, the Kullback-Leibler divergences of the models returned by KLDivergenceFPI.run with maxiter = 0, 1, 2, ... converge, and the changes of the coefficients, and of the exponents times the coefficient, tend to zero. The returned parameters have an accumulation point; at every accumulation point the divergence is the limit, its slope in each optimised exponent is zero and, if coefficients are optimised, its slope in each positive coefficient is minus the Lagrange multiplier. If all parameters converge and coefficients are optimised, the slope in a coefficient that tends to zero is at least minus the multiplier (Kuhn-Tucker conditions).

*Status*: proved. *How*: The update is a continuous map of the compact box of C76 that decreases the Lagrangian strictly unless functions with positive coefficient keep their parameters (C37); the Lagrangian converges, so it has the same value at an accumulation point and at its update. Changes tend to zero by compactness. A coefficient cannot tend to zero while its multiplier stays above one.

* `C98_limits` (`Props/FPILimit.lean`)
* `C98_kuhn_tucker` (`Props/FPILimit.lean`)
* `C124_radial` (`Props/Constructed.lean`)
* `C124_cubic_atom` (`Props/Constructed.lean`)
* `C124_cubic_molecule` (`Props/Constructed.lean`)

### C99 Fixed-point fits reproduce the mean square radius of the density

With normalize=True and positive exponents the function of position sampled by AtomicGaussianDensity.evaluate has second moment sum 3c/(2a) over s-type plus sum 5c/(2a) over p-type functions. When a KLDivergenceFPI update of an atomic model optimises both coefficients and exponents and the old model is above the mask on the grid, the new model integrates over space to integral_dens and its second moment is integral_dens times the weighted mean of r^2 over the density on the grid: zeroth and second moment are exact after a single update. In the situation of C76 (mask below the smallest density possible for the exponents) the parameters returned by run have these two moments after any positive number of iterations, converged or not.

*Status*: proved. *How*: Second moments of the normalised Gaussians by the gamma integral on the half line and polar coordinates, as for C12. In the update c'·pref/e' = c·A2/lm, so summing over the functions and exchanging the sums turns the shares c b/model into one; with one centre the squared distance comes out. For runs: invariance of the parameter box (C76) keeps all iterates above the mask. Assumes, as in C36, that every basis function sees a point with positive density and weight away from the centre, and that the model is not masked; real arithmetic. For molecules the sum over functions of the moments about their own centres is the density-weighted average over the shares (lemma update_moment).

* `C99_moments` (`Props/FPIMoment.lean`)
* `C99_update` (`Props/FPIMoment.lean`)
* `C99_run` (`Props/FPIMoment.lean`)
* `C99_constructed` (`Props/FPIMoment.lean`)

## 5a. Disagreements between documentation and code found on the way

* `from_molecule` centres the box on the charge-weighted mean, so atoms can lie outside (C08), and
  steps along rows of the eigenvector matrix instead of columns (C09).
* A zero density with a model above the mask gives NaN in the KL measure (C24); a NaN model gives 0 (C25).
* At masked points the Tsallis integrand is `-f/(alpha-1)` and the KL one is 0, so the documented
  inequality fails there (C28).
* Measures raise AttributeError if neither argument is an array (C31).
* `CubicGrid` accepts shapes with two negative entries and then has weights but no points (C07).
* The docstring of `UniformRadialGrid` says half-open interval, the code includes the end (C04).
* For points on a line the atomic model accepts centres with several entries, by broadcasting (C112); then the number
  of radii can differ from the number of points (C19).
* A UGBS file cut off at the end of a line is read without an exception, with fewer shells (C111).
* A negative index is assigned to centre 0 by `assign_basis_to_center` (C16).
* `integral_dens=0` is accepted and gives an infinite multiplier (C34).
* NaN parameters and a negative `maxiter` are reported as success by the fixed-point iteration (C41).
* With trust-constr and frozen parameters the constraint raises (C43).
* `ScipyFit` with its default measure always raises TypeError (C45).
* `remove_redundancies` counts coefficients twice on chains (C50).
* pick-two can exceed the maximum by one (C55); the success flag and the exit message of greedy runs are
  wrong in three situations (C56); `add_extra_choices` has no effect (C57); `run` cannot be repeated (C58).
* The one-function KL start uses `4 pi r^4` even if the fit is not spherical (C60); the one-function least
  squares start and the nnls matrix ignore the normalisation (C61).
* The greedy classes document `CubicGrid` as accepted grid, but `run` fails on it (C83).
* `goodness_of_fit` documents infinity for a negative model; the code gives the integral of 1e5.
* Core/valence weights refer to the orbital listed last (C65); for 142 of the 197 readable data files this is
  not the highest occupied orbital (C90).
* The header of `data/ygbs` lists the lanthanides and the elements after radon, but there are no exponents for
  them and `get_ugbs_exponents` returns empty lists, as for unknown words; `"basis"` and `"end"` raise KeyError
  and IndexError (C97).
* The recommended SLSQP results for calcium, ruthenium, tin, antimony and xenon contain functions with
  exponents near 1e-12, which make the mean square radius more than 1000 times too large (C102).
* The cation of caesium never loads (C74; the tests of the project assert this). Elements listed without a
  data file give FileNotFoundError. A file cut off among its blank lines
  makes the loader loop for ever, one cut off in its tables is read without an exception (C110).

## 6. Axioms per theorem

Classical.choice, Quot.sound, propext: `C01_shape_check`, `C01_linear`, `C02_trapezoid_areas`, `C02_exact_for_lines`, `C03_monotone`, `C03_nonneg`, `C04_uniform_points`, `C04_uniform_errors`, `C05_clenshaw_points`, `C05_clenshaw_ranges`, `C05_clenshaw_type_errors`, `C06_row_major`, `C06_errors`, `C07_weights`, `C07_integrate_value`, `C07_integrate_laws`, `C07_shape_check`, `C07_negative_shape`, `C08_box_partial`, `C08_not_enclosed`, `C09_volume_partial`, `C09_axes_not_principal`, `C10_formula`, `C100_moments`, `C101_fpi`, `C101_other`, `C101_counts`, `C102_slsqp_partial`, `C102_wrong`, `C103_nucleus`, `C103_cusp`, `C103_kato`, `C104_radial`, `C104_cubic`, `C105_single`, `C105_default`, `C105_linear`, `C124_radial`, `C124_cubic_atom`, `C124_cubic_molecule`, `C106_rebuild`, `C106_arguments`, `C106_history`, `C106_greedy`, `C106_unchecked`, `C107_problem`, `C107_report`, `C107_improves`, `C108_radial`, `C108_cubic`, `C108_molecular`, `C108_sizes`, `C109_least_squares`, `C109_kl`, `C11_derivatives`, `C110_detected_partial`, `C110_format`, `C110_tables`, `C110_hangs`, `C110_silent`, `C111_malformed`, `C111_total`, `C111_cut`, `C111_unnoticed`, `C112_accepts`, `C112_one_dimensional`, `C113_radial`, `C113_cubic`, `C113_relative`, `C113_linear`, `C113_exact`, `C114_conservation`, `C114_iterations`, `C115_evaluate`, `C115_update`, `C116_radial`, `C116_integral`, `C117_update`, `C117_electrons`, `C118_feasible`, `C118_squared`, `C118_kl`, `C118_kl_masked`, `C118_tsallis`, `C118_free_squared`, `C118_free_kl`, `C118_free_tsallis`, `C124_radial`, `C124_cubic_atom`, `C124_cubic_molecule`, `C119_squared`, `C119_kl`, `C119_tsallis`, `C124_radial`, `C124_cubic_atom`, `C124_cubic_molecule`, `C12_normalised`, `C12_unnormalised`, `C120_model`, `C120_coefficients`, `C124_radial`, `C124_cubic_atom`, `C124_cubic_molecule`, `C121_upper`, `C121_lower`, `C121_fixed_points`, `C124_radial`, `C124_cubic_atom`, `C124_cubic_molecule`, `C122_calls`, `C122_least_squares`, `C122_sharp`, `C123_electrons`, `C123_fit`, `C124_radial`, `C124_cubic_atom`, `C124_cubic_molecule`, `C125_goodness`, `C125_exact`, `C126_descent`, `C126_exact`, `C127_orbital`, `C127_density`, `C127_integral`, `C127_fit`, `C127_clenshaw`, `C128_element`, `C128_script`, `C129_zeros`, `C129_fit`, `C129_element`, `C129_script`, `C13_linear_nonneg`, `C130_least_squares`, `C130_divergence`, `C130_scripts`, `C131_element`, `C131_script`, `C131_interrupted`, `C132_density`, `C132_derivative`, `C132_kinetic`, `C132_integral`, `C132_nonneg`, `C132_exact`, `C133_squared`, `C133_kl`, `C133_constraint`, `C133_exact`, `C134_atomic`, `be_density`, `C135_greedy`, `C136_equal`, `C136_water`, `C137_fpi_result`, `C137_fpi_quiet`, `C137_fpi`, `C137_greedy_result`, `C137_greedy_quiet`, `C137_greedy`, `C137_scipy_quiet`, `C137_scipy`, `C137_scipy_lengths`, `C138_run`, `C138_again`, `C138_init`, `C138_changed`, `C138_scipy`, `C138_redundancies`, `C139_stops`, `C139_runs`, `C139_integral`, `C139_beryllium`, `C14_sum_of_atoms`, `C14_single_centre`, `C140_same`, `C140_fpi`, `C140_slsqp`, `C140_other`, `C141_one_reading`, `C141_fpi`, `C141_scipy`, `C141_greedy`, `C141_same_text`, `C141_widths`, `C142_total`, `C142_split`, `C142_sum`, `C142_nonneg`, `C142_exact`, `C143_text`, `C143_errors`, `C143_one_reading`, `C144_basis`, `C144_density`, `C144_far`, `C144_centre`, `C144_nan`, `C144_total`, `C144_double`, `C145_basis`, `C145_density`, `C145_double`, `C145_total`, `C146_fpi`, `C146_slsqp`, `C147_deriv`, `C147_finite`, `C147_double`, `C147_exact`, `C147_far`, `C147_total`, `C148_tsallis`, `C148_exact`, `C149_core`, `C149_diffuse`, `C149_grid`, `C149_uniform`, `C149_collapse`, `C149_exact`, `C15_derivative_layout`, `C150_points`, `C150_weights`, `C150_integral`, `C150_cancel`, `C150_exact`, `C151_shape`, `C151_origin`, `C151_grid`, `C151_extra`, `C152_guesses`, `C152_between`, `C152_kept`, `C152_same`, `C152_exact`, `C153_ls`, `C153_kl`, `C153_exact`, `C154_two`, `C154_lose`, `C154_exact`, `C16_assign`, `C16_negative_index`, `C17_prefactor`, `C17_molecular`, `C18_radii`, `C18_radii_1d`, `C18_distance_laws`, `C18_only_radii`, `C19_construction`, `C19_evaluate`, `C19_one_radius_per_point_partial`, `C19_several_values`, `C20_squared_difference`, `C21_value_and_derivative`, `C22_mask`, `C23_negative_penalty`, `C24_zero_density_partial`, `C24_zero_density_is_nan`, `C25_infinite_model_partial`, `C25_nan_model_reported_as_zero`, `C26_gibbs`, `C26_zero_iff`, `C27_construction`, `C27_value_and_derivative`, `C28_upper_bound_partial`, `C28_fails_at_masked_points`, `C29_rate`, `C29_limit`, `C30_tsallis_nonneg`, `C31_validation_partial`, `C31_both_not_arrays`, `C32_integrate`, `C32_construct`, `C33_goodness`, `C33_sizes`, `C33_sizes_update`, `C124_radial`, `C124_cubic_atom`, `C124_cubic_molecule`, `C34_lagrange`, `C34_finite`, `C34_zero_target`, `C35_conservation`, `C35_bound`, `C124_radial`, `C124_cubic_atom`, `C124_cubic_molecule`, `C36_coeffs`, `C36_positive`, `C36_degenerate`, `C124_radial`, `C124_cubic_atom`, `C124_cubic_molecule`, `C37_monotone`, `C37_lagrangian`, `C37_history`, `C124_radial`, `C124_cubic_atom`, `C124_cubic_molecule`, `C38_stationary`, `C124_radial`, `C124_cubic_atom`, `C124_cubic_molecule`, `C39_trace`, `C39_sizes`, `C39_input_errors`, `C39_total`, `C124_radial`, `C124_cubic_atom`, `C124_cubic_molecule`, `C40_frozen`, `C40_nothing`, `C41_success_partial`, `C41_finite_partial`, `C41_good`, `C41_nan_success`, `C41_negative_maxiter`, `C42_squared`, `C42_kl`, `C42_tsallis`, `C124_radial`, `C124_cubic_atom`, `C124_cubic_molecule`, `C43_const_norm`, `C43_slsqp`, `C43_trust_constr_partial`, `C43_trust_constr_raises`, `C124_radial`, `C124_cubic_atom`, `C124_cubic_molecule`, `C44_run`, `C44_bounds`, `C44_nothing`, `C45_radial_partial`, `C45_cubic_partial`, `C45_default_raises`, `C46_next_choices`, `C46_sizes`, `C46_empty`, `C46_ascending`, `C47_two_choices`, `C47_count`, `C47_guess`, `C48_pick_two_lose_one`, `C48_sizes`, `C49_characterisation`, `C49_no_similar`, `C49_apart`, `C49_dropped`, `C49_unchanged_iff`, `C50_sum_partial`, `C50_real_partial`, `C50_fails_on_chain`, `C51_find_best`, `C51_round`, `C52_round_bound`, `C52_bound_irrelevant`, `C52_unsuccessful_round`, `C53_never_worse`, `C53_no_worse_than_start`, `C54_consistent`, `lsEnv_sizeChecked`, `klEnv_sizeChecked`, `C55_general`, `C55_max_partial`, `C55_fails_for_pick_two`, `C56_exit_partial`, `C56_fails_max_success`, `C56_fails_converged`, `C56_fails_infinite_start`, `C57_extra_choices_ignored`, `C57_called_partial`, `C58_second_run_raises`, `C58_least_squares`, `C58_kullback_leibler`, `C58_rerun_partial`, `C59_least_squares`, `C59_exact`, `C59_best_of_three`, `C59_recovers`, `C59_degenerate`, `C60_start`, `C60_fails_plain`, `C61_unnormalised`, `C61_fails_normalised`, `C62_formula`, `C62_normalised`, `C63_derivative`, `C64_split`, `C64_unknown_mode`, `C65_homo_partial`, `C65_fails`, `C65_uses_last`, `C66_derivative`, `C67_electrons`, `C68_kinetic`, `C69_configuration`, `C69_entries`, `C69_cores`, `C70_neutral`, `C70_anion`, `C70_cation`, `C70_case`, `C70_rejects`, `C71_file`, `C72_exponents`, `C72_case`, `C73_no_similar_exponents`, `C74_caesium`, `C74_cations_partial`, `C75_density`, `C76_converges`, `C76_a_priori`, `C124_radial`, `C124_cubic_atom`, `C124_cubic_molecule`, `C77_error_bound`, `C77_uniform`, `C77_converges`, `C77_electrons`, `C78_pinsker`, `C78_norms`, `C124_radial`, `C124_cubic_atom`, `C124_cubic_molecule`, `C79_update`, `C79_run`, `C124_radial`, `C124_cubic_atom`, `C124_cubic_molecule`, `C80_optimal`, `C124_radial`, `C124_cubic_atom`, `C124_cubic_molecule`, `C81_rate`, `C81_limit`, `C124_radial`, `C124_cubic_atom`, `C124_cubic_molecule`, `C82_weizsaecker`, `C83_constructs`, `C83_kullback_leibler`, `C83_least_squares`, `C84_squared`, `C84_kl`, `C84_tsallis`, `C84_optimal`, `C124_radial`, `C124_cubic_atom`, `C124_cubic_molecule`, `C85_rigid`, `C85_atom_order`, `C85_function_order`, `C85_length_unit`, `C86_update`, `C86_run`, `C86_radial`, `C87_kinetic_energy`, `C88_scaling`, `C89_bundled`, `C89_complete`, `C89_caesium`, `C90_reference`, `C91_rounds`, `C92_least_squares`, `C92_kullback_leibler`, `C92_least_squares_step`, `C92_kullback_leibler_step`, `C92_factor`, `C93_fixed_point`, `C93_gradient`, `C94_update`, `C94_goodness`, `C94_run`, `C94_radial`, `C95_error`, `C95_lipschitz`, `C95_refine`, `C96_kullback_leibler`, `C96_least_squares`, `C97_elements`, `C97_other`, `C97_errors`, `C98_limits`, `C98_kuhn_tucker`, `C124_radial`, `C124_cubic_atom`, `C124_cubic_molecule`, `C99_moments`, `C99_update`, `C99_run`, `C99_constructed`.

Quot.sound, propext: `C90_count`.

