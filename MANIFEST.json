{
 "claims": [
  {
   "property": "C01",
   "status": "proved",
   "theorems": [
    "BFit.C01_shape_check",
    "BFit.C01_linear"
   ],
   "note": ""
  },
  {
   "property": "C02",
   "status": "proved",
   "theorems": [
    "BFit.C02_trapezoid_areas",
    "BFit.C02_exact_for_lines"
   ],
   "note": ""
  },
  {
   "property": "C03",
   "status": "proved",
   "theorems": [
    "BFit.C03_monotone",
    "BFit.C03_nonneg"
   ],
   "note": ""
  },
  {
   "property": "C04",
   "status": "proved",
   "theorems": [
    "BFit.C04_uniform_points",
    "BFit.C04_uniform_errors"
   ],
   "note": "Points for all finite bounds a<b; error conditions for all argument objects."
  },
  {
   "property": "C05",
   "status": "proved",
   "theorems": [
    "BFit.C05_clenshaw_points",
    "BFit.C05_clenshaw_ranges",
    "BFit.C05_clenshaw_type_errors"
   ],
   "note": ""
  },
  {
   "property": "C06",
   "status": "proved",
   "theorems": [
    "BFit.C06_row_major",
    "BFit.C06_errors"
   ],
   "note": ""
  },
  {
   "property": "C07",
   "status": "proved",
   "theorems": [
    "BFit.C07_weights",
    "BFit.C07_integrate_value",
    "BFit.C07_integrate_laws",
    "BFit.C07_shape_check",
    "BFit.C07_negative_shape"
   ],
   "note": ""
  },
  {
   "property": "C08",
   "status": "partial",
   "theorems": [
    "BFit.C08_box_partial",
    "BFit.C08_not_enclosed"
   ],
   "note": "The property is false of the code: C08_not_enclosed is a concrete molecule with an atom outside the grid. C08_box_partial proves the containment that does hold."
  },
  {
   "property": "C09",
   "status": "partial",
   "theorems": [
    "BFit.C09_volume_partial",
    "BFit.C09_axes_not_principal"
   ],
   "note": "The property is false of the code (rows instead of columns are used): C09_axes_not_principal. C09_volume_partial proves volume, lengths and orthogonality for every orthonormal eigenvector matrix."
  },
  {
   "property": "C10",
   "status": "proved",
   "theorems": [
    "BFit.C10_formula"
   ],
   "note": "Every Atomic object with finite radii and natural counts; exponents >= 0 when normalised (negative exponents would take a real power of a negative number)."
  },
  {
   "property": "C100",
   "status": "proved",
   "theorems": [
    "BFit.C100_moments"
   ],
   "note": "Real arithmetic."
  },
  {
   "property": "C101",
   "status": "proved",
   "theorems": [
    "BFit.C101_fpi",
    "BFit.C101_other",
    "BFit.C101_counts"
   ],
   "note": "json.load is an arbitrary function that maps texts of this form to the exact values of the decimal numbers; a reader of this kind is constructed."
  },
  {
   "property": "C102",
   "status": "partial",
   "theorems": [
    "BFit.C102_slsqp_partial",
    "BFit.C102_wrong"
   ],
   "note": "The property does not hold for calcium, ruthenium, tin, antimony and xenon: their entries have functions with exponents near 1e-12 and the mean square radius is more than 1000 times too large (C102_wrong). For the other 49 elements everything is proved, and the integrals for all 54."
  },
  {
   "property": "C103",
   "status": "proved",
   "theorems": [
    "BFit.C103_nucleus",
    "BFit.C103_cusp",
    "BFit.C103_kato"
   ],
   "note": "Real arithmetic; orbitals_cusp as a list (the code holds a column)."
  },
  {
   "property": "C104",
   "status": "proved",
   "theorems": [
    "BFit.C104_radial",
    "BFit.C104_cubic"
   ],
   "note": "Real arithmetic; names in ASCII letters."
  },
  {
   "property": "C105",
   "status": "proved",
   "theorems": [
    "BFit.C105_single",
    "BFit.C105_default",
    "BFit.C105_linear",
    "BFit.C124_radial",
    "BFit.C124_cubic_atom",
    "BFit.C124_cubic_molecule"
   ],
   "note": "Real arithmetic."
  },
  {
   "property": "C106",
   "status": "proved",
   "theorems": [
    "BFit.C106_rebuild",
    "BFit.C106_arguments",
    "BFit.C106_history",
    "BFit.C106_greedy",
    "BFit.C106_unchecked"
   ],
   "note": "numpy integers, which the constructor accepts and this method refuses, are not represented."
  },
  {
   "property": "C107",
   "status": "proved",
   "theorems": [
    "BFit.C107_problem",
    "BFit.C107_report",
    "BFit.C107_improves"
   ],
   "note": "Printing, the callback and the timer are not modelled. For the Kullback-Leibler measure no value is masked."
  },
  {
   "property": "C108",
   "status": "proved",
   "theorems": [
    "BFit.C108_radial",
    "BFit.C108_cubic",
    "BFit.C108_molecular",
    "BFit.C108_sizes"
   ],
   "note": "Molecular models on 2-D points; cubic grids with finite origin and axes."
  },
  {
   "property": "C109",
   "status": "proved",
   "theorems": [
    "BFit.C109_least_squares",
    "BFit.C109_kl"
   ],
   "note": "Radial grids; tolerances and iteration limits of the objects are arguments of the modelled searches (C92)."
  },
  {
   "property": "C11",
   "status": "proved",
   "theorems": [
    "BFit.C11_derivatives"
   ],
   "note": "HasDerivAt for every column; exponents > 0 when normalised."
  },
  {
   "property": "C110",
   "status": "partial",
   "theorems": [
    "BFit.C110_detected_partial",
    "BFit.C110_format",
    "BFit.C110_tables",
    "BFit.C110_hangs",
    "BFit.C110_silent"
   ],
   "note": "False of the code: cut among the blank lines the reader loops for ever (C110_hangs), cut in the tables it returns the rest without an exception (C110_silent). Proved: the exceptions for all other cuts before the tables and for malformed energy lines."
  },
  {
   "property": "C111",
   "status": "proved",
   "theorems": [
    "BFit.C111_malformed",
    "BFit.C111_total",
    "BFit.C111_cut",
    "BFit.C111_unnoticed"
   ],
   "note": ""
  },
  {
   "property": "C112",
   "status": "proved",
   "theorems": [
    "BFit.C112_accepts",
    "BFit.C112_one_dimensional"
   ],
   "note": "Arrays of points with more than two dimensions are not modelled."
  },
  {
   "property": "C113",
   "status": "proved",
   "theorems": [
    "BFit.C113_radial",
    "BFit.C113_cubic",
    "BFit.C113_relative",
    "BFit.C113_linear",
    "BFit.C113_exact"
   ],
   "note": ""
  },
  {
   "property": "C114",
   "status": "proved",
   "theorems": [
    "BFit.C114_conservation",
    "BFit.C114_iterations"
   ],
   "note": ""
  },
  {
   "property": "C115",
   "status": "proved",
   "theorems": [
    "BFit.C115_evaluate",
    "BFit.C115_update"
   ],
   "note": ""
  },
  {
   "property": "C116",
   "status": "proved",
   "theorems": [
    "BFit.C116_radial",
    "BFit.C116_integral"
   ],
   "note": ""
  },
  {
   "property": "C117",
   "status": "proved",
   "theorems": [
    "BFit.C117_update",
    "BFit.C117_electrons"
   ],
   "note": ""
  },
  {
   "property": "C118",
   "status": "proved",
   "theorems": [
    "BFit.C118_feasible",
    "BFit.C118_squared",
    "BFit.C118_kl",
    "BFit.C118_kl_masked",
    "BFit.C118_tsallis",
    "BFit.C118_free_squared",
    "BFit.C118_free_kl",
    "BFit.C118_free_tsallis",
    "BFit.C124_radial",
    "BFit.C124_cubic_atom",
    "BFit.C124_cubic_molecule"
   ],
   "note": ""
  },
  {
   "property": "C119",
   "status": "proved",
   "theorems": [
    "BFit.C119_squared",
    "BFit.C119_kl",
    "BFit.C119_tsallis",
    "BFit.C124_radial",
    "BFit.C124_cubic_atom",
    "BFit.C124_cubic_molecule"
   ],
   "note": ""
  },
  {
   "property": "C12",
   "status": "proved",
   "theorems": [
    "BFit.C12_normalised",
    "BFit.C12_unnormalised"
   ],
   "note": "Lebesgue integral over Euclidean 3-space and the radial form; also closed form without normalisation."
  },
  {
   "property": "C120",
   "status": "proved",
   "theorems": [
    "BFit.C120_model",
    "BFit.C120_coefficients",
    "BFit.C124_radial",
    "BFit.C124_cubic_atom",
    "BFit.C124_cubic_molecule"
   ],
   "note": ""
  },
  {
   "property": "C121",
   "status": "proved",
   "theorems": [
    "BFit.C121_upper",
    "BFit.C121_lower",
    "BFit.C121_fixed_points",
    "BFit.C124_radial",
    "BFit.C124_cubic_atom",
    "BFit.C124_cubic_molecule"
   ],
   "note": ""
  },
  {
   "property": "C122",
   "status": "proved",
   "theorems": [
    "BFit.C122_calls",
    "BFit.C122_least_squares",
    "BFit.C122_sharp"
   ],
   "note": ""
  },
  {
   "property": "C123",
   "status": "proved",
   "theorems": [
    "BFit.C123_electrons",
    "BFit.C123_fit"
   ],
   "note": "Rounding is not modelled here; the grid sizes B and n are not explicit."
  },
  {
   "property": "C124",
   "status": "proved",
   "theorems": [
    "BFit.C124_radial",
    "BFit.C124_cubic_atom",
    "BFit.C124_cubic_molecule"
   ],
   "note": "Listed also for the properties whose theorems assume IsFPI or FitData."
  },
  {
   "property": "C125",
   "status": "proved",
   "theorems": [
    "BFit.C125_goodness",
    "BFit.C125_exact"
   ],
   "note": "No underflow (tau = 0) and no overflow."
  },
  {
   "property": "C126",
   "status": "proved",
   "theorems": [
    "BFit.C126_descent",
    "BFit.C126_exact"
   ],
   "note": "No underflow (tau = 0) and no overflow; no point masked in the computed and in the exact update."
  },
  {
   "property": "C127",
   "status": "proved",
   "theorems": [
    "BFit.C127_orbital",
    "BFit.C127_density",
    "BFit.C127_integral",
    "BFit.C127_fit",
    "BFit.C127_clenshaw"
   ],
   "note": ""
  },
  {
   "property": "C128",
   "status": "proved",
   "theorems": [
    "BFit.C128_element",
    "BFit.C128_script"
   ],
   "note": ""
  },
  {
   "property": "C129",
   "status": "proved",
   "theorems": [
    "BFit.C129_zeros",
    "BFit.C129_fit",
    "BFit.C129_element",
    "BFit.C129_script"
   ],
   "note": ""
  },
  {
   "property": "C13",
   "status": "proved",
   "theorems": [
    "BFit.C13_linear_nonneg"
   ],
   "note": ""
  },
  {
   "property": "C130",
   "status": "proved",
   "theorems": [
    "BFit.C130_least_squares",
    "BFit.C130_divergence",
    "BFit.C130_scripts"
   ],
   "note": ""
  },
  {
   "property": "C131",
   "status": "proved",
   "theorems": [
    "BFit.C131_element",
    "BFit.C131_script",
    "BFit.C131_interrupted"
   ],
   "note": ""
  },
  {
   "property": "C132",
   "status": "proved",
   "theorems": [
    "BFit.C132_density",
    "BFit.C132_derivative",
    "BFit.C132_kinetic",
    "BFit.C132_integral",
    "BFit.C132_nonneg",
    "BFit.C132_exact"
   ],
   "note": ""
  },
  {
   "property": "C133",
   "status": "proved",
   "theorems": [
    "BFit.C133_squared",
    "BFit.C133_kl",
    "BFit.C133_constraint",
    "BFit.C133_exact"
   ],
   "note": "TsallisDivergence is the subject of C148."
  },
  {
   "property": "C134",
   "status": "proved",
   "theorems": [
    "BFit.C134_atomic",
    "BFit.be_density"
   ],
   "note": "Printing and drawing are left out; the arrays handed to them are kept."
  },
  {
   "property": "C135",
   "status": "proved",
   "theorems": [
    "BFit.C135_greedy"
   ],
   "note": ""
  },
  {
   "property": "C136",
   "status": "proved",
   "theorems": [
    "BFit.C136_equal",
    "BFit.C136_water"
   ],
   "note": "The grid, density and positions come from other packages; the grid is a list of points and weights."
  },
  {
   "property": "C137",
   "status": "proved",
   "theorems": [
    "BFit.C137_fpi_result",
    "BFit.C137_fpi_quiet",
    "BFit.C137_fpi",
    "BFit.C137_greedy_result",
    "BFit.C137_greedy_quiet",
    "BFit.C137_greedy",
    "BFit.C137_scipy_quiet",
    "BFit.C137_scipy",
    "BFit.C137_scipy_lengths"
   ],
   "note": "A printed line is kept as the numbers in it; text, formatting and what scipy prints itself are left out."
  },
  {
   "property": "C138",
   "status": "proved",
   "theorems": [
    "BFit.C138_run",
    "BFit.C138_again",
    "BFit.C138_init",
    "BFit.C138_changed",
    "BFit.C138_scipy",
    "BFit.C138_redundancies"
   ],
   "note": "Only arrays that are changed in place or handed out are places in memory; the two slices of the optimiser's result are represented by new arrays. Grid points are shared when the given array is contiguous."
  },
  {
   "property": "C139",
   "status": "proved",
   "theorems": [
    "BFit.C139_stops",
    "BFit.C139_runs",
    "BFit.C139_integral",
    "BFit.C139_beryllium"
   ],
   "note": "As printed, README.md:146 has minus signs where the multiplication signs of 4 pi r**2 were meant; the model takes the line as it is."
  },
  {
   "property": "C14",
   "status": "proved",
   "theorems": [
    "BFit.C14_sum_of_atoms",
    "BFit.C14_single_centre"
   ],
   "note": ""
  },
  {
   "property": "C140",
   "status": "proved",
   "theorems": [
    "BFit.C140_same",
    "BFit.C140_fpi",
    "BFit.C140_slsqp",
    "BFit.C140_other"
   ],
   "note": "The ZIP layer and the pickling layer of np.load are not modelled: an archive is the list of the names and bytes of its members."
  },
  {
   "property": "C141",
   "status": "proved",
   "theorems": [
    "BFit.C141_one_reading",
    "BFit.C141_fpi",
    "BFit.C141_scipy",
    "BFit.C141_greedy",
    "BFit.C141_same_text",
    "BFit.C141_widths"
   ],
   "note": "The sign of negative zero is not modelled. Lines with arrays, the time, the objective of the greedy run and its exit message have no text in the model."
  },
  {
   "property": "C142",
   "status": "proved",
   "theorems": [
    "BFit.C142_total",
    "BFit.C142_split",
    "BFit.C142_sum",
    "BFit.C142_nonneg",
    "BFit.C142_exact"
   ],
   "note": "Overflow is not modelled. The derivative and the kinetic energy density are covered by C132 without underflow only."
  },
  {
   "property": "C143",
   "status": "proved",
   "theorems": [
    "BFit.C143_text",
    "BFit.C143_errors",
    "BFit.C143_one_reading"
   ],
   "note": "Python's str for floats is a parameter. That the form names the true reason of the stop is false, see C56."
  },
  {
   "property": "C144",
   "status": "proved",
   "theorems": [
    "BFit.C144_basis",
    "BFit.C144_density",
    "BFit.C144_far",
    "BFit.C144_centre",
    "BFit.C144_nan",
    "BFit.C144_total",
    "BFit.C144_double"
   ],
   "note": "Derivatives (deriv=True), integration and the other classes are not covered by the overflow model."
  },
  {
   "property": "C145",
   "status": "proved",
   "theorems": [
    "BFit.C145_basis",
    "BFit.C145_density",
    "BFit.C145_double",
    "BFit.C145_total"
   ],
   "note": "The error is measured against the peak of each function, not against the value: far from a centre the relative error is unbounded (underflow to zero). The distances are exact inputs."
  },
  {
   "property": "C146",
   "status": "proved",
   "theorems": [
    "BFit.C146_fpi",
    "BFit.C146_slsqp"
   ],
   "note": "Distances are exact inputs."
  },
  {
   "property": "C147",
   "status": "proved",
   "theorems": [
    "BFit.C147_deriv",
    "BFit.C147_finite",
    "BFit.C147_double",
    "BFit.C147_exact",
    "BFit.C147_far",
    "BFit.C147_total"
   ],
   "note": "C147_deriv and C147_exact are about the operations without overflow, C147_finite shows that these are the only ones for the given ranges. C147_total shows that executions exist."
  },
  {
   "property": "C148",
   "status": "proved",
   "theorems": [
    "BFit.C148_tsallis",
    "BFit.C148_exact"
   ],
   "note": "Without underflow, as C133. Executions with a negative density, or with a masked or zero ratio and a negative power (nan or inf in numpy), are not modelled."
  },
  {
   "property": "C149",
   "status": "proved",
   "theorems": [
    "BFit.C149_core",
    "BFit.C149_diffuse",
    "BFit.C149_grid",
    "BFit.C149_uniform",
    "BFit.C149_collapse",
    "BFit.C149_exact"
   ],
   "note": "The theorems about integration with rounding (C113, C133 and others) take the stored points as they are; this property is about the points."
  },
  {
   "property": "C15",
   "status": "proved",
   "theorems": [
    "BFit.C15_derivative_layout"
   ],
   "note": ""
  },
  {
   "property": "C150",
   "status": "proved",
   "theorems": [
    "BFit.C150_points",
    "BFit.C150_weights",
    "BFit.C150_integral",
    "BFit.C150_cancel",
    "BFit.C150_exact"
   ],
   "note": "No underflow or overflow; from_molecule is not included."
  },
  {
   "property": "C151",
   "status": "proved",
   "theorems": [
    "BFit.C151_shape",
    "BFit.C151_origin",
    "BFit.C151_grid",
    "BFit.C151_extra"
   ],
   "note": "rotate=True (np.linalg.eigh) is not included; no underflow. The margin is that of C08_box_partial, since the extension around every atom is false already in exact arithmetic."
  },
  {
   "property": "C152",
   "status": "proved",
   "theorems": [
    "BFit.C152_guesses",
    "BFit.C152_between",
    "BFit.C152_kept",
    "BFit.C152_same",
    "BFit.C152_exact"
   ],
   "note": "get_two_next_choices and pick_two_lose_one are in C154; no underflow."
  },
  {
   "property": "C153",
   "status": "proved",
   "theorems": [
    "BFit.C153_ls",
    "BFit.C153_kl",
    "BFit.C153_exact"
   ],
   "note": "Radial grids only; no underflow and no overflow."
  },
  {
   "property": "C154",
   "status": "proved",
   "theorems": [
    "BFit.C154_two",
    "BFit.C154_lose",
    "BFit.C154_exact"
   ],
   "note": "No underflow and no overflow."
  },
  {
   "property": "C16",
   "status": "proved",
   "theorems": [
    "BFit.C16_assign",
    "BFit.C16_negative_index"
   ],
   "note": "Negative indices are silently assigned to centre 0."
  },
  {
   "property": "C17",
   "status": "proved",
   "theorems": [
    "BFit.C17_prefactor",
    "BFit.C17_molecular"
   ],
   "note": ""
  },
  {
   "property": "C18",
   "status": "proved",
   "theorems": [
    "BFit.C18_radii",
    "BFit.C18_radii_1d",
    "BFit.C18_distance_laws",
    "BFit.C18_only_radii"
   ],
   "note": ""
  },
  {
   "property": "C19",
   "status": "partial",
   "theorems": [
    "BFit.C19_construction",
    "BFit.C19_evaluate",
    "BFit.C19_one_radius_per_point_partial",
    "BFit.C19_several_values"
   ],
   "note": "False of the code: for a single point on a line and a centre with several entries, evaluate returns one value per entry of the centre."
  },
  {
   "property": "C20",
   "status": "proved",
   "theorems": [
    "BFit.C20_squared_difference"
   ],
   "note": ""
  },
  {
   "property": "C21",
   "status": "proved",
   "theorems": [
    "BFit.C21_value_and_derivative"
   ],
   "note": "Above the mask also means quotient below 2^1022, where numpy stops masking the division."
  },
  {
   "property": "C22",
   "status": "proved",
   "theorems": [
    "BFit.C22_mask"
   ],
   "note": ""
  },
  {
   "property": "C23",
   "status": "proved",
   "theorems": [
    "BFit.C23_negative_penalty"
   ],
   "note": ""
  },
  {
   "property": "C24",
   "status": "partial",
   "theorems": [
    "BFit.C24_zero_density_partial",
    "BFit.C24_zero_density_is_nan"
   ],
   "note": "False of the code: a zero density with model above the mask gives NaN."
  },
  {
   "property": "C25",
   "status": "partial",
   "theorems": [
    "BFit.C25_infinite_model_partial",
    "BFit.C25_nan_model_reported_as_zero"
   ],
   "note": "False of the code: NaN model values give an entry of exactly zero."
  },
  {
   "property": "C26",
   "status": "proved",
   "theorems": [
    "BFit.C26_gibbs",
    "BFit.C26_zero_iff"
   ],
   "note": ""
  },
  {
   "property": "C27",
   "status": "proved",
   "theorems": [
    "BFit.C27_construction",
    "BFit.C27_value_and_derivative"
   ],
   "note": "alpha is a finite number."
  },
  {
   "property": "C28",
   "status": "partial",
   "theorems": [
    "BFit.C28_upper_bound_partial",
    "BFit.C28_fails_at_masked_points"
   ],
   "note": "True above the mask, false at every masked point with positive density."
  },
  {
   "property": "C29",
   "status": "proved",
   "theorems": [
    "BFit.C29_rate",
    "BFit.C29_limit"
   ],
   "note": ""
  },
  {
   "property": "C30",
   "status": "proved",
   "theorems": [
    "BFit.C30_tsallis_nonneg"
   ],
   "note": ""
  },
  {
   "property": "C31",
   "status": "partial",
   "theorems": [
    "BFit.C31_validation_partial",
    "BFit.C31_both_not_arrays"
   ],
   "note": "AttributeError instead of ValueError when neither argument is an array."
  },
  {
   "property": "C32",
   "status": "proved",
   "theorems": [
    "BFit.C32_integrate",
    "BFit.C32_construct"
   ],
   "note": ""
  },
  {
   "property": "C33",
   "status": "proved",
   "theorems": [
    "BFit.C33_goodness",
    "BFit.C33_sizes",
    "BFit.C33_sizes_update",
    "BFit.C124_radial",
    "BFit.C124_cubic_atom",
    "BFit.C124_cubic_molecule"
   ],
   "note": ""
  },
  {
   "property": "C34",
   "status": "proved",
   "theorems": [
    "BFit.C34_lagrange",
    "BFit.C34_finite",
    "BFit.C34_zero_target"
   ],
   "note": "A zero integral_dens is accepted and gives an infinite multiplier (C34_zero_target)."
  },
  {
   "property": "C35",
   "status": "proved",
   "theorems": [
    "BFit.C35_conservation",
    "BFit.C35_bound",
    "BFit.C124_radial",
    "BFit.C124_cubic_atom",
    "BFit.C124_cubic_molecule"
   ],
   "note": ""
  },
  {
   "property": "C36",
   "status": "proved",
   "theorems": [
    "BFit.C36_coeffs",
    "BFit.C36_positive",
    "BFit.C36_degenerate",
    "BFit.C124_radial",
    "BFit.C124_cubic_atom",
    "BFit.C124_cubic_molecule"
   ],
   "note": "Positivity of all parameters needs a basis function to see density away from its centre; C36_degenerate shows that this is necessary."
  },
  {
   "property": "C37",
   "status": "proved",
   "theorems": [
    "BFit.C37_monotone",
    "BFit.C37_lagrangian",
    "BFit.C37_history",
    "BFit.C124_radial",
    "BFit.C124_cubic_atom",
    "BFit.C124_cubic_molecule"
   ],
   "note": "Densities at least the mask value; the model must exceed the mask at the parameters an update starts from."
  },
  {
   "property": "C38",
   "status": "proved",
   "theorems": [
    "BFit.C38_stationary",
    "BFit.C124_radial",
    "BFit.C124_cubic_atom",
    "BFit.C124_cubic_molecule"
   ],
   "note": ""
  },
  {
   "property": "C39",
   "status": "proved",
   "theorems": [
    "BFit.C39_trace",
    "BFit.C39_sizes",
    "BFit.C39_input_errors",
    "BFit.C39_total",
    "BFit.C124_radial",
    "BFit.C124_cubic_atom",
    "BFit.C124_cubic_molecule"
   ],
   "note": ""
  },
  {
   "property": "C40",
   "status": "proved",
   "theorems": [
    "BFit.C40_frozen",
    "BFit.C40_nothing"
   ],
   "note": ""
  },
  {
   "property": "C41",
   "status": "partial",
   "theorems": [
    "BFit.C41_success_partial",
    "BFit.C41_finite_partial",
    "BFit.C41_good",
    "BFit.C41_nan_success",
    "BFit.C41_negative_maxiter"
   ],
   "note": "False of the code: NaN parameters, or a negative maxiter, are reported as success. True from non-negative coefficients and positive exponents when every basis function sees density (C41_good)."
  },
  {
   "property": "C42",
   "status": "proved",
   "theorems": [
    "BFit.C42_squared",
    "BFit.C42_kl",
    "BFit.C42_tsallis",
    "BFit.C124_radial",
    "BFit.C124_cubic_atom",
    "BFit.C124_cubic_molecule"
   ],
   "note": ""
  },
  {
   "property": "C43",
   "status": "partial",
   "theorems": [
    "BFit.C43_const_norm",
    "BFit.C43_slsqp",
    "BFit.C43_trust_constr_partial",
    "BFit.C43_trust_constr_raises",
    "BFit.C124_radial",
    "BFit.C124_cubic_atom",
    "BFit.C124_cubic_molecule"
   ],
   "note": "False of the code for trust-constr with frozen parameters."
  },
  {
   "property": "C44",
   "status": "proved",
   "theorems": [
    "BFit.C44_run",
    "BFit.C44_bounds",
    "BFit.C44_nothing"
   ],
   "note": ""
  },
  {
   "property": "C45",
   "status": "partial",
   "theorems": [
    "BFit.C45_radial_partial",
    "BFit.C45_cubic_partial",
    "BFit.C45_default_raises"
   ],
   "note": "False of the code: the default measure always raises TypeError; with a measure instance construction works."
  },
  {
   "property": "C46",
   "status": "proved",
   "theorems": [
    "BFit.C46_next_choices",
    "BFit.C46_sizes",
    "BFit.C46_empty",
    "BFit.C46_ascending"
   ],
   "note": ""
  },
  {
   "property": "C47",
   "status": "proved",
   "theorems": [
    "BFit.C47_two_choices",
    "BFit.C47_count",
    "BFit.C47_guess"
   ],
   "note": ""
  },
  {
   "property": "C48",
   "status": "proved",
   "theorems": [
    "BFit.C48_pick_two_lose_one",
    "BFit.C48_sizes"
   ],
   "note": ""
  },
  {
   "property": "C49",
   "status": "proved",
   "theorems": [
    "BFit.C49_characterisation",
    "BFit.C49_no_similar",
    "BFit.C49_apart",
    "BFit.C49_dropped",
    "BFit.C49_unchanged_iff"
   ],
   "note": ""
  },
  {
   "property": "C50",
   "status": "partial",
   "theorems": [
    "BFit.C50_sum_partial",
    "BFit.C50_real_partial",
    "BFit.C50_fails_on_chain"
   ],
   "note": "True unless a dropped function is itself similar to a later one; C50_fails_on_chain shows that coefficients are then counted twice."
  },
  {
   "property": "C51",
   "status": "proved",
   "theorems": [
    "BFit.C51_find_best",
    "BFit.C51_round"
   ],
   "note": "Optimisers and objective are arbitrary."
  },
  {
   "property": "C52",
   "status": "proved",
   "theorems": [
    "BFit.C52_round_bound",
    "BFit.C52_bound_irrelevant",
    "BFit.C52_unsuccessful_round"
   ],
   "note": ""
  },
  {
   "property": "C53",
   "status": "proved",
   "theorems": [
    "BFit.C53_never_worse",
    "BFit.C53_no_worse_than_start"
   ],
   "note": "SizeChecked is proved for both subclasses (lsEnv_sizeChecked, klEnv_sizeChecked)."
  },
  {
   "property": "C54",
   "status": "proved",
   "theorems": [
    "BFit.C54_consistent",
    "BFit.lsEnv_sizeChecked",
    "BFit.klEnv_sizeChecked"
   ],
   "note": ""
  },
  {
   "property": "C55",
   "status": "partial",
   "theorems": [
    "BFit.C55_general",
    "BFit.C55_max_partial",
    "BFit.C55_fails_for_pick_two"
   ],
   "note": "False for pick-two, which can exceed the maximum by one; C55_general is the bound that holds."
  },
  {
   "property": "C56",
   "status": "partial",
   "theorems": [
    "BFit.C56_exit_partial",
    "BFit.C56_fails_max_success",
    "BFit.C56_fails_converged",
    "BFit.C56_fails_infinite_start"
   ],
   "note": "False of the code in three ways; C56_exit_partial states exactly what the flag and the message do tell."
  },
  {
   "property": "C57",
   "status": "partial",
   "theorems": [
    "BFit.C57_extra_choices_ignored",
    "BFit.C57_called_partial"
   ],
   "note": "False of the code: the argument never changes the outcome of a run; only exceptions it raises propagate."
  },
  {
   "property": "C58",
   "status": "partial",
   "theorems": [
    "BFit.C58_second_run_raises",
    "BFit.C58_least_squares",
    "BFit.C58_kullback_leibler",
    "BFit.C58_rerun_partial"
   ],
   "note": "False of the code after a run that accepted a function; otherwise the second run equals the first with an accumulated performance array."
  },
  {
   "property": "C59",
   "status": "proved",
   "theorems": [
    "BFit.C59_least_squares",
    "BFit.C59_exact",
    "BFit.C59_best_of_three",
    "BFit.C59_recovers",
    "BFit.C59_degenerate"
   ],
   "note": "The last theorem shows what is excluded: when all points are equally far from the centre the start is nan."
  },
  {
   "property": "C60",
   "status": "proved",
   "theorems": [
    "BFit.C60_start",
    "BFit.C60_fails_plain"
   ],
   "note": "Proved for spherical fits with the default integral. C60_fails_plain: for the default spherical=False the start is not a fixed point."
  },
  {
   "property": "C61",
   "status": "partial",
   "theorems": [
    "BFit.C61_unnormalised",
    "BFit.C61_fails_normalised"
   ],
   "note": "True for normalize=False; C61_fails_normalised is a counterexample for normalize=True."
  },
  {
   "property": "C62",
   "status": "proved",
   "theorems": [
    "BFit.C62_formula",
    "BFit.C62_normalised"
   ],
   "note": "Positive exponents, n >= 1, all real points; other shapes rejected."
  },
  {
   "property": "C63",
   "status": "proved",
   "theorems": [
    "BFit.C63_derivative"
   ],
   "note": ""
  },
  {
   "property": "C64",
   "status": "proved",
   "theorems": [
    "BFit.C64_split",
    "BFit.C64_unknown_mode"
   ],
   "note": "Finite orbital data of matching lengths with non-negative occupations."
  },
  {
   "property": "C65",
   "status": "partial",
   "theorems": [
    "BFit.C65_homo_partial",
    "BFit.C65_fails",
    "BFit.C65_uses_last"
   ],
   "note": "False of the code: the reference is the orbital listed last (C65_uses_last, witness C65_fails with the outer orbitals of Xe). Proved when the last orbital is the highest."
  },
  {
   "property": "C66",
   "status": "proved",
   "theorems": [
    "BFit.C66_derivative"
   ],
   "note": ""
  },
  {
   "property": "C67",
   "status": "proved",
   "theorems": [
    "BFit.C67_electrons"
   ],
   "note": ""
  },
  {
   "property": "C68",
   "status": "proved",
   "theorems": [
    "BFit.C68_kinetic"
   ],
   "note": ""
  },
  {
   "property": "C69",
   "status": "proved",
   "theorems": [
    "BFit.C69_configuration",
    "BFit.C69_entries",
    "BFit.C69_cores"
   ],
   "note": ""
  },
  {
   "property": "C70",
   "status": "proved",
   "theorems": [
    "BFit.C70_neutral",
    "BFit.C70_anion",
    "BFit.C70_cation",
    "BFit.C70_case",
    "BFit.C70_rejects"
   ],
   "note": ""
  },
  {
   "property": "C71",
   "status": "proved",
   "theorems": [
    "BFit.C71_file"
   ],
   "note": ""
  },
  {
   "property": "C72",
   "status": "proved",
   "theorems": [
    "BFit.C72_exponents",
    "BFit.C72_case"
   ],
   "note": ""
  },
  {
   "property": "C73",
   "status": "proved",
   "theorems": [
    "BFit.C73_no_similar_exponents"
   ],
   "note": ""
  },
  {
   "property": "C74",
   "status": "partial",
   "theorems": [
    "BFit.C74_caesium",
    "BFit.C74_cations_partial"
   ],
   "note": "False of the code for caesium (C74_caesium): its cation file is taken for the heavy layout and rejected. Proved for all other listed cations."
  },
  {
   "property": "C75",
   "status": "proved",
   "theorems": [
    "BFit.C75_density"
   ],
   "note": ""
  },
  {
   "property": "C76",
   "status": "proved",
   "theorems": [
    "BFit.C76_converges",
    "BFit.C76_a_priori",
    "BFit.C124_radial",
    "BFit.C124_cubic_atom",
    "BFit.C124_cubic_molecule"
   ],
   "note": ""
  },
  {
   "property": "C77",
   "status": "proved",
   "theorems": [
    "BFit.C77_error_bound",
    "BFit.C77_uniform",
    "BFit.C77_converges",
    "BFit.C77_electrons"
   ],
   "note": ""
  },
  {
   "property": "C78",
   "status": "proved",
   "theorems": [
    "BFit.C78_pinsker",
    "BFit.C78_norms",
    "BFit.C124_radial",
    "BFit.C124_cubic_atom",
    "BFit.C124_cubic_molecule"
   ],
   "note": ""
  },
  {
   "property": "C79",
   "status": "proved",
   "theorems": [
    "BFit.C79_update",
    "BFit.C79_run",
    "BFit.C124_radial",
    "BFit.C124_cubic_atom",
    "BFit.C124_cubic_molecule"
   ],
   "note": ""
  },
  {
   "property": "C80",
   "status": "proved",
   "theorems": [
    "BFit.C80_optimal",
    "BFit.C124_radial",
    "BFit.C124_cubic_atom",
    "BFit.C124_cubic_molecule"
   ],
   "note": "Only the coefficients are optimised and no single basis function with coefficient T falls under the mask."
  },
  {
   "property": "C81",
   "status": "proved",
   "theorems": [
    "BFit.C81_rate",
    "BFit.C81_limit",
    "BFit.C124_radial",
    "BFit.C124_cubic_atom",
    "BFit.C124_cubic_molecule"
   ],
   "note": "Same setting as C80."
  },
  {
   "property": "C82",
   "status": "proved",
   "theorems": [
    "BFit.C82_weizsaecker"
   ],
   "note": ""
  },
  {
   "property": "C83",
   "status": "proved",
   "theorems": [
    "BFit.C83_constructs",
    "BFit.C83_kullback_leibler",
    "BFit.C83_least_squares"
   ],
   "note": "The docstrings promise more than the code does; this states what it does."
  },
  {
   "property": "C84",
   "status": "proved",
   "theorems": [
    "BFit.C84_squared",
    "BFit.C84_kl",
    "BFit.C84_tsallis",
    "BFit.C84_optimal",
    "BFit.C124_radial",
    "BFit.C124_cubic_atom",
    "BFit.C124_cubic_molecule"
   ],
   "note": ""
  },
  {
   "property": "C85",
   "status": "proved",
   "theorems": [
    "BFit.C85_rigid",
    "BFit.C85_atom_order",
    "BFit.C85_function_order",
    "BFit.C85_length_unit"
   ],
   "note": ""
  },
  {
   "property": "C86",
   "status": "proved",
   "theorems": [
    "BFit.C86_update",
    "BFit.C86_run",
    "BFit.C86_radial"
   ],
   "note": "Where the density is positive and each function sees density away from its centre."
  },
  {
   "property": "C87",
   "status": "proved",
   "theorems": [
    "BFit.C87_kinetic_energy"
   ],
   "note": ""
  },
  {
   "property": "C88",
   "status": "proved",
   "theorems": [
    "BFit.C88_scaling"
   ],
   "note": ""
  },
  {
   "property": "C89",
   "status": "proved",
   "theorems": [
    "BFit.C89_bundled",
    "BFit.C89_complete",
    "BFit.C89_caesium"
   ],
   "note": "Numbers are read exactly (no rounding). The anion of silver is not a text and is left out."
  },
  {
   "property": "C90",
   "status": "proved",
   "theorems": [
    "BFit.C90_reference",
    "BFit.C90_count"
   ],
   "note": "States what the code does; the documented reference is the highest occupied orbital (C65)."
  },
  {
   "property": "C91",
   "status": "proved",
   "theorems": [
    "BFit.C91_rounds"
   ],
   "note": "Objective values must not be NaN."
  },
  {
   "property": "C92",
   "status": "proved",
   "theorems": [
    "BFit.C92_least_squares",
    "BFit.C92_kullback_leibler",
    "BFit.C92_least_squares_step",
    "BFit.C92_kullback_leibler_step",
    "BFit.C92_factor"
   ],
   "note": "The step of GreedyLeastSquares is stated for finite data; nnls and the minimiser are arbitrary functions."
  },
  {
   "property": "C93",
   "status": "proved",
   "theorems": [
    "BFit.C93_fixed_point",
    "BFit.C93_gradient"
   ],
   "note": ""
  },
  {
   "property": "C94",
   "status": "proved",
   "theorems": [
    "BFit.C94_update",
    "BFit.C94_goodness",
    "BFit.C94_run",
    "BFit.C94_radial"
   ],
   "note": "Runs with proper copies need a negative threshold on the coefficients, because the largest change of a coefficient depends on the splitting."
  },
  {
   "property": "C95",
   "status": "proved",
   "theorems": [
    "BFit.C95_error",
    "BFit.C95_lipschitz",
    "BFit.C95_refine"
   ],
   "note": ""
  },
  {
   "property": "C96",
   "status": "proved",
   "theorems": [
    "BFit.C96_kullback_leibler",
    "BFit.C96_least_squares"
   ],
   "note": "The contract of nnls and the minimiser is a hypothesis of the least-squares half."
  },
  {
   "property": "C97",
   "status": "proved",
   "theorems": [
    "BFit.C97_elements",
    "BFit.C97_other",
    "BFit.C97_errors"
   ],
   "note": "The lines of data/ygbs are copied by tools/gendata.py."
  },
  {
   "property": "C98",
   "status": "proved",
   "theorems": [
    "BFit.C98_limits",
    "BFit.C98_kuhn_tucker",
    "BFit.C124_radial",
    "BFit.C124_cubic_atom",
    "BFit.C124_cubic_molecule"
   ],
   "note": ""
  },
  {
   "property": "C99",
   "status": "proved",
   "theorems": [
    "BFit.C99_moments",
    "BFit.C99_update",
    "BFit.C99_run",
    "BFit.C99_constructed"
   ],
   "note": "Assumes, as in C36, that every basis function sees a point with positive density and weight away from the centre, and that the model is not masked; real arithmetic. For molecules the sum over functions of the moments about their own centres is the density-weighted average over the shares (lemma update_moment)."
  }
 ]
}