{
 "claims": [
  {
   "property": "C01",
   "status": "proved",
   "theorems": [
    "TadDftd4.C01_dftd4_energy",
    "TadDftd4.C01_dftd4_energy_default",
    "TadDftd4.C01_dftd4_textbook"
   ],
   "note": "dftd4 = two-body BJ sum plus ATM sum of Spec.energy over the coefficients of Spec.C6; C01_dftd4_textbook removes the code's numerical guards under explicit regularity conditions. CN and EEQ charges enter as per-system functions (external packages)."
  },
  {
   "property": "C02",
   "status": "proved",
   "theorems": [
    "TadDftd4.C02_any_disp",
    "TadDftd4.C02_relabelling"
   ],
   "note": "For CN/EEQ functions that are themselves equivariant under relabelling."
  },
  {
   "property": "C03",
   "status": "proved",
   "theorems": [
    "TadDftd4.C03_any_disp",
    "TadDftd4.C03_isometry",
    "TadDftd4.C03_rigid_motion"
   ],
   "note": "For CN/EEQ functions that depend on positions through distances; covers every isometry, rigid motions included."
  },
  {
   "property": "C04",
   "status": "proved",
   "theorems": [
    "TadDftd4.C04_any_disp",
    "TadDftd4.C04_padding",
    "TadDftd4.C04_padding_zero"
   ],
   "note": "For CN/EEQ functions that ignore padding."
  },
  {
   "property": "C05",
   "status": "proved",
   "theorems": [
    "TadDftd4.C05_any_disp",
    "TadDftd4.C05_batch_independence"
   ],
   "note": "Entry of a batch equals the same system in any other batch."
  },
  {
   "property": "C06",
   "status": "proved",
   "theorems": [
    "TadDftd4.C06_any_disp",
    "TadDftd4.C06_no_exception",
    "TadDftd4.C06_no_exception_shipped"
   ],
   "note": "No error value and output shape; tables hypotheses are discharged for the transcribed shipped tables in C06_no_exception_shipped."
  },
  {
   "property": "C07",
   "status": "proved",
   "theorems": [
    "TadDftd4.C07_matrix",
    "TadDftd4.C07_rvdw_optional",
    "TadDftd4.C07_rvdw_required"
   ],
   "note": "Atom energies are half the row sums of the pair matrix; the matrix is symmetric with zero diagonal and zero padding rows."
  },
  {
   "property": "C08",
   "status": "proved",
   "theorems": [
    "TadDftd4.C08_attractive",
    "TadDftd4.C08_monotone",
    "TadDftd4.C08_dftd4"
   ],
   "note": "All four damping families; rational damping for arbitrary a1, a2."
  },
  {
   "property": "C09",
   "status": "proved",
   "theorems": [
    "TadDftd4.C09_beyond",
    "TadDftd4.C09_within",
    "TadDftd4.C09_value",
    "TadDftd4.C09_default"
   ],
   "note": "Distances below sqrt(eps) are clamped by the code, hence the condition sqrt(eps) <= cutoff."
  },
  {
   "property": "C10",
   "status": "partial",
   "theorems": [
    "TadDftd4.C10_two_sides_partial",
    "TadDftd4.C10_all_sides_partial",
    "TadDftd4.C10_inclusive_partial",
    "TadDftd4.C10_all_sides_false",
    "TadDftd4.C10_total_partial"
   ],
   "note": "The full statement AllSidesWithinCutoff is false of the code (C10_all_sides_false): the third distance test repeats r_jk, so r_ik is never compared. Proved: only two sides are tested, contributions are inclusive at the cutoff, and the total equals the specified sum with the share of ordered triples that pass."
  },
  {
   "property": "C11",
   "status": "proved",
   "theorems": [
    "TadDftd4.C11_energy"
   ],
   "note": "Atoms further apart than sqrt(eps); the angular term is stated with Euclidean angles."
  },
  {
   "property": "C12",
   "status": "proved",
   "theorems": [
    "TadDftd4.C12_atom",
    "TadDftd4.C12_total",
    "TadDftd4.C12_few_atoms"
   ],
   "note": "Thirds, unordered triples, and zero below three atoms; conditional on all triples being within cutoff, C10_total_partial covers the rest."
  },
  {
   "property": "C13",
   "status": "proved",
   "theorems": [
    "TadDftd4.C13_any_disp",
    "TadDftd4.C13_two_body",
    "TadDftd4.C13_three_body",
    "TadDftd4.C13_dftd4"
   ],
   "note": "Two-body, three-body and full dftd4 level; CN/charges of a fragment are assumed unchanged by a far fragment."
  },
  {
   "property": "C14",
   "status": "proved",
   "theorems": [
    "TadDftd4.C14_d4",
    "TadDftd4.C14_d4s",
    "TadDftd4.C14_d4_underflow",
    "TadDftd4.C14_d4s_underflow",
    "TadDftd4.C14_padding",
    "TadDftd4.C14_observable"
   ],
   "note": "Any rounding function fl with fl >= 0 on non-negative input stands for underflow; table condition HasTop proved for the shipped tables."
  },
  {
   "property": "C15",
   "status": "partial",
   "theorems": [
    "TadDftd4.C15_bounds",
    "TadDftd4.C15_no_hardness",
    "TadDftd4.C15_nonpositive",
    "TadDftd4.C15_reference_shifted",
    "TadDftd4.C15_reference",
    "TadDftd4.C15_decreasing_partial",
    "TadDftd4.C15_strict",
    "TadDftd4.C15_decreasing_false",
    "TadDftd4.C15_tensor"
   ],
   "note": "Bounds, non-positive charges, reference charge and strict decrease above eps are proved. The full monotonicity ZetaDecreases is false for charges in (0, eps) (C15_decreasing_false); C15_decreasing_partial excludes that gap."
  },
  {
   "property": "C16",
   "status": "proved",
   "theorems": [
    "TadDftd4.C16_symmetric",
    "TadDftd4.C16_weights_nonneg",
    "TadDftd4.C16_nonneg",
    "TadDftd4.C16_psd",
    "TadDftd4.C16_cauchy_schwarz",
    "TadDftd4.C16_positive",
    "TadDftd4.C16_positive_shipped"
   ],
   "note": "Strict positivity (C16_positive, C16_positive_shipped) assumes no underflow and excludes cerium. Symmetry and semidefiniteness for every weights tensor, non-negativity for the weights returned by weight_references; default rc6."
  },
  {
   "property": "C17",
   "status": "partial",
   "theorems": [
    "TadDftd4.C17_d4",
    "TadDftd4.C17_static",
    "TadDftd4.C17_d4s_mean_partial",
    "TadDftd4.C17_d4s_batch_error",
    "TadDftd4.C17_d4s_static_shape",
    "TadDftd4.C17_d4s_false"
   ],
   "note": "Proved for D4 with arbitrary weights. False for D4S with constant weighting factors (C17_d4s_false, shipped tables): get_weighted_pols averages over all atoms (C17_d4s_mean_partial), fails for batches (C17_d4s_batch_error), get_polarizabilities returns a matrix (C17_d4s_static_shape)."
  },
  {
   "property": "C18",
   "status": "proved",
   "theorems": [
    "TadDftd4.C18_weights",
    "TadDftd4.C18_c6",
    "TadDftd4.C18_debug"
   ],
   "note": "Exponentials without underflow (fl = id); D4SDebug included."
  },
  {
   "property": "C19",
   "status": "proved",
   "theorems": [
    "TadDftd4.C19_d4",
    "TadDftd4.C19_d4s",
    "TadDftd4.C19_factor",
    "TadDftd4.C19_local"
   ],
   "note": "epsFactor is the eps shift of the statement; C19_factor bounds it. Both D4 and D4S."
  },
  {
   "property": "C20",
   "status": "partial",
   "theorems": [
    "TadDftd4.C20_negative_partial",
    "TadDftd4.C20_derivative_false"
   ],
   "note": "The full statement is false of the code (C20_derivative_false, shipped tables): the returned tensor is the negative derivative (C20_negative_partial); D4S raises NotImplementedError."
  },
  {
   "property": "C21",
   "status": "proved",
   "theorems": [
    "TadDftd4.C21_rule",
    "TadDftd4.C21_positive",
    "TadDftd4.C21_length",
    "TadDftd4.C21_exact",
    "TadDftd4.C21_trapzd",
    "TadDftd4.C21_trapzd_noref",
    "TadDftd4.C21_one_argument",
    "TadDftd4.C21_trapzd_atm"
   ],
   "note": "Exact equality including the 1e-17 digit in the third literal weight."
  },
  {
   "property": "C22",
   "status": "proved",
   "theorems": [
    "TadDftd4.C22_formula",
    "TadDftd4.C22_bounds",
    "TadDftd4.C22_undamped",
    "TadDftd4.C22_decreasing",
    "TadDftd4.C22_long_range",
    "TadDftd4.C22_pair_energy"
   ],
   "note": "All orders, any a1, a2 for which the damping is active; pair energy consequence at dispersion2 level."
  },
  {
   "property": "C23",
   "status": "partial",
   "theorems": [
    "TadDftd4.C23_spec_increasing",
    "TadDftd4.C23_spec_long",
    "TadDftd4.C23_spec_short",
    "TadDftd4.C23_threebody",
    "TadDftd4.C23_threebody_increasing",
    "TadDftd4.C23_threebody_long",
    "TadDftd4.C23_twobody_partial",
    "TadDftd4.C23_twobody_decreasing",
    "TadDftd4.C23_twobody_false",
    "TadDftd4.C23_pair_energy_partial"
   ],
   "note": "Three-body (order 9) zero damping is proved. The two-body code is inverted: ZeroDampingTwoBody is false (C23_twobody_false); C23_twobody_partial gives what is computed."
  },
  {
   "property": "C24",
   "status": "partial",
   "theorems": [
    "TadDftd4.C24_spec_bounded",
    "TadDftd4.C24_formula_partial",
    "TadDftd4.C24_long_range",
    "TadDftd4.C24_bounded_partial",
    "TadDftd4.C24_diverges",
    "TadDftd4.C24_bounded_false"
   ],
   "note": "The code uses a different denominator than the published optimised power damping: OptPowerBounded is false (C24_bounded_false, C24_diverges for bet < n); bounded for bet >= n (C24_bounded_partial)."
  },
  {
   "property": "C25",
   "status": "proved",
   "theorems": [
    "TadDftd4.C25_formula",
    "TadDftd4.C25_bounds",
    "TadDftd4.C25_increasing",
    "TadDftd4.C25_long_range"
   ],
   "note": "Modified zero damping, orders 6 and 8 (the class has no other)."
  },
  {
   "property": "C26",
   "status": "partial",
   "theorems": [
    "TadDftd4.C26_zeros",
    "TadDftd4.C26_outcome",
    "TadDftd4.C26_nonzero",
    "TadDftd4.C26_zeros_iff",
    "TadDftd4.C26_type",
    "TadDftd4.C26_value_partial",
    "TadDftd4.C26_unknown",
    "TadDftd4.C26_param",
    "TadDftd4.C26_value_false"
   ],
   "note": "ValueErrorExact is false (C26_value_false): rational damping accepts every order and the bet assertion of mzero/op precedes the order check. C26_outcome, C26_type, C26_unknown, C26_value_partial are exact for the rest."
  },
  {
   "property": "C27",
   "status": "partial",
   "theorems": [
    "TadDftd4.C27_s6",
    "TadDftd4.C27_s9",
    "TadDftd4.C27_alp",
    "TadDftd4.C27_rs9",
    "TadDftd4.C27_s10",
    "TadDftd4.C27_s10_zero",
    "TadDftd4.C27_s8_partial",
    "TadDftd4.C27_s8_missing",
    "TadDftd4.C27_s8_false"
   ],
   "note": "s6, s9, alp, rs9: equality of the whole result for every input and damping. s10: rational damping (with zero damping passing s10 always fails, C27_s10_zero). s8: OmittedS8IsDefault is false (C27_s8_false); omitting s8 equals s8 = 0 (C27_s8_partial, C27_s8_missing)."
  },
  {
   "property": "C28",
   "status": "proved",
   "theorems": [
    "TadDftd4.C28_linear",
    "TadDftd4.C28_any_damping"
   ],
   "note": "Rational damping with all four scaling parameters; any damping function for s6, s8, s9."
  },
  {
   "property": "C29",
   "status": "partial",
   "theorems": [
    "TadDftd4.C29_functional_partial",
    "TadDftd4.C29_default_partial",
    "TadDftd4.C29_no_file",
    "TadDftd4.C29_default_none",
    "TadDftd4.C29_case",
    "TadDftd4.C29_case_false",
    "TadDftd4.C29_default_false"
   ],
   "note": "Proved in every reachable state for casefolded functional names and for default parameters of an explicitly given listed variant. The documented case-insensitivity and the default variant of the default parameters are false of the code (C29_case_false, C29_default_false)."
  },
  {
   "property": "C30",
   "status": "proved",
   "theorems": [
    "TadDftd4.C30_independent",
    "TadDftd4.C30_like_first",
    "TadDftd4.C30_no_interference",
    "TadDftd4.C30_separate",
    "TadDftd4.C30_read_once"
   ],
   "note": "For every reachable state of the parameter cache and every history of calls and in-place changes of returned dictionaries."
  },
  {
   "property": "C31",
   "status": "partial",
   "theorems": [
    "TadDftd4.C31_d4_partial",
    "TadDftd4.C31_extra_never",
    "TadDftd4.C31_zero_never",
    "TadDftd4.C31_d3_zero",
    "TadDftd4.C31_default_never",
    "TadDftd4.C31_default_false",
    "TadDftd4.C31_d3_bj_partial",
    "TadDftd4.C31_d3_zero_partial",
    "TadDftd4.C31_d3_alp"
   ],
   "note": "Proved for all sets of functionals in the shipped d4 file (C31_d4_partial), all d3 sets for rational damping (C31_d3_bj_partial) and three d3 sets for zero damping (C31_d3_zero_partial), after any history of calls. False for the default parameters (C31_default_never, C31_default_false) and for all other d3 sets for zero damping (C31_d3_zero). C31_d3_alp: the exponent listed in the d3 file is not used."
  },
  {
   "property": "C32",
   "status": "proved",
   "theorems": [
    "TadDftd4.C32_positions",
    "TadDftd4.C32_outcome",
    "TadDftd4.C32_sum",
    "TadDftd4.C32_term_error",
    "TadDftd4.C32_cn_shared",
    "TadDftd4.C32_cn_scalar",
    "TadDftd4.C32_cn_scalar_d4s",
    "TadDftd4.C32_cn_shared_dftd4",
    "TadDftd4.C32_coordinates"
   ],
   "note": "For every Disp object, all shapes and options; the exact outcome (ValueError, RuntimeError, or the sum of the term energies) given that model, tables and external functions raise nothing. Inconsistent positions are rejected unconditionally. Any number of coordinates per atom is accepted (C32_coordinates), as are coordination numbers without batch axes (C32_cn_shared, C32_cn_shared_dftd4); a single coordination number is accepted by D4 only (C32_cn_scalar, C32_cn_scalar_d4s)."
  },
  {
   "property": "C33",
   "status": "proved",
   "theorems": [
    "TadDftd4.C33_given",
    "TadDftd4.C33_given_dftd4",
    "TadDftd4.C33_unused",
    "TadDftd4.C33_d3",
    "TadDftd4.C33_explicit",
    "TadDftd4.C33_explicit_dftd4",
    "TadDftd4.C33_threebody"
   ],
   "note": "Equality of results and exceptions for every Disp object and dftd4; the three-body part is stated as the difference to s9 = 0."
  },
  {
   "property": "C34",
   "status": "proved",
   "theorems": [
    "TadDftd4.C34_energy",
    "TadDftd4.C34_history",
    "TadDftd4.C34_attributes",
    "TadDftd4.C34_new",
    "TadDftd4.C34_deregister",
    "TadDftd4.C34_undo"
   ],
   "note": "For all histories on any number of objects (heap model of the term lists) and for the energy with any broadcasting of term energies. Floating-point rounding of the summation order is not modelled."
  },
  {
   "property": "C35",
   "status": "partial",
   "theorems": [
    "TadDftd4.C35_accept",
    "TadDftd4.C35_default_cn",
    "TadDftd4.C35_instance",
    "TadDftd4.C35_usable_partial",
    "TadDftd4.C35_d5_never",
    "TadDftd4.C35_d3_never",
    "TadDftd4.C35_restrict_false",
    "TadDftd4.C35_usable_false"
   ],
   "note": "Acceptance of keys, model instances and usability of d4/d4s proved for every class and string; the claims that the classes restrict models (ALLOWED_MODELS is never read) and that every accepted key (d3, d5) is usable are false of the code: proved by C35_restrict_false, C35_d3_never, C35_d5_never, C35_usable_false."
  },
  {
   "property": "C36",
   "status": "partial",
   "theorems": [
    "TadDftd4.C36_only",
    "TadDftd4.C36_cn_ignored",
    "TadDftd4.C36_properties",
    "TadDftd4.C36_isolated",
    "TadDftd4.C36_isolated_dftd4",
    "TadDftd4.C36_within",
    "TadDftd4.C36_cn_eeq",
    "TadDftd4.C36_cn_false"
   ],
   "note": "disp2, disp3 and cn_eeq proved to be honoured at API level (isolation, inclusiveness, non-interference); Cutoff.cn is never read by the code, so the claim for it is false: C36_cn_ignored, C36_properties, C36_cn_false. The disp3 test of only two sides of a triangle is C10."
  },
  {
   "property": "C37",
   "status": "proved",
   "theorems": [
    "TadDftd4.C37_shapes",
    "TadDftd4.C37_cn_q",
    "TadDftd4.C37_c6",
    "TadDftd4.C37_polarizabilities"
   ],
   "note": "C37_cn_q holds for all arguments, valid or not; CN and EEQ are external functions, cn_d4 with its default counting function."
  },
  {
   "property": "C38",
   "status": "proved",
   "theorems": [
    "TadDftd4.C38_consistent",
    "TadDftd4.C38_alpha"
   ],
   "note": "About the transcribed tables themselves (all elements and references), computed by the kernel from the data modules; tables of external packages enter through ExtTables."
  },
  {
   "property": "C39",
   "status": "partial",
   "theorems": [
    "TadDftd4.C39_weighted_pols_iff",
    "TadDftd4.C39_weighted_pols_single",
    "TadDftd4.C39_square_batch",
    "TadDftd4.C39_static_never",
    "TadDftd4.C39_debug",
    "TadDftd4.C39_debug_error",
    "TadDftd4.C39_weighted_pols_false",
    "TadDftd4.C39_static_false",
    "TadDftd4.C39_debug_false"
   ],
   "note": "The claim is false of the code. Proved: the exact condition under which get_weighted_pols has the documented shape (C39_weighted_pols_iff), the value for square batches (divided by the atom count of the wrong system), that get_polarizabilities never has the documented shape for D4S, exactly when D4SDebug works or raises (systems of two or more atoms), and the negations of the three documented statements. Missing: the claim itself, which does not hold."
  },
  {
   "property": "C40",
   "status": "proved",
   "theorems": [
    "TadDftd4.C40_call",
    "TadDftd4.C40_calculate",
    "TadDftd4.C40_dftd4",
    "TadDftd4.C40_histories",
    "TadDftd4.C40_doi_call",
    "TadDftd4.C40_doi_twobody",
    "TadDftd4.C40_doi_atm",
    "TadDftd4.C40_doi_dftd4"
   ],
   "note": "Model with a heap (DampingState): damping instances, their lazily set DOI and arbitrary histories of other calls; energies equal those of the stateless model."
  },
  {
   "property": "C41",
   "status": "proved",
   "theorems": [
    "TadDftd4.C41_approx",
    "TadDftd4.C41_exact",
    "TadDftd4.C41_exact_d4s"
   ],
   "note": "Approximate C9 for D4 and D4S in every batch, exact C9 for D4 in every batch and for D4S in every batch in which the weighted polarizabilities have the documented shape (C39 gives exactly these)."
  },
  {
   "property": "C42",
   "status": "proved",
   "theorems": [
    "TadDftd4.C42_smooth",
    "TadDftd4.C42_forces_sum_zero",
    "TadDftd4.C42_torque_zero",
    "TadDftd4.C42_padding_force_zero"
   ],
   "note": "Derivatives of the energy as a real function (the backward pass of autograd is the subject of C48, C60, C61 and C72); exponentials without underflow for smoothness (fl = id); CN/EEQ functions differentiable, invariant, and blind to padding positions as stated. Generic also excludes the thresholds of the regularised square root of C9 and of the charge scaling."
  },
  {
   "property": "C43",
   "status": "proved",
   "theorems": [
    "TadDftd4.DType.C43_calculate",
    "TadDftd4.DType.C43_dftd4",
    "TadDftd4.DType.C43_properties"
   ],
   "note": "Abstract interpretation of dtypes (Model/DType): promotion rules of torch for the operations used are trusted as stated there."
  },
  {
   "property": "C44",
   "status": "partial",
   "theorems": [
    "TadDftd4.DType.C44_single_object_double_positions",
    "TadDftd4.DType.C44_double_object_single_positions",
    "TadDftd4.DType.C44_full_false",
    "TadDftd4.DType.C44_partial"
   ],
   "note": "False of the code: a float32 object (the default) with float64 positions raises RuntimeError in einsum (C44_single_object_double_positions, C44_full_false); a float64 object with float32 positions silently returns float64. Proved for equal dtypes."
  },
  {
   "property": "C45",
   "status": "proved",
   "theorems": [
    "TadDftd4.C45_c6",
    "TadDftd4.C45_energy"
   ],
   "note": "Explicit bounds on C6 and on the energy that do not depend on positions, in real arithmetic with the code's guards."
  },
  {
   "property": "C46",
   "status": "proved",
   "theorems": [
    "TadDftd4.C46_dftd4",
    "TadDftd4.C46_no_threebody"
   ],
   "note": "For all arguments, also invalid ones; presupposes that cn_d4 uses erf_count by default."
  },
  {
   "property": "C47",
   "status": "partial",
   "theorems": [
    "TadDftd4.C47_own_atoms_partial",
    "TadDftd4.C47_other_atoms",
    "TadDftd4.C47_objects_checked_false"
   ],
   "note": "Objects built for the numbers of the system are equivalent to their key (C47_own_atoms_partial). Objects built for other atoms of the same shape are accepted; C47_other_atoms gives the energies computed then, C47_objects_checked_false refutes the full claim."
  },
  {
   "property": "C48",
   "status": "partial",
   "theorems": [
    "TadDftd4.C48_forward",
    "TadDftd4.C48_finite_partial",
    "TadDftd4.C48_forces_partial",
    "TadDftd4.C48_underflow_nan",
    "TadDftd4.C48_always_finite_false"
   ],
   "note": "Graph and backward pass are modelled for one scalar parameter of the positions, with overflow of the inner exponential of the charge scaling. Proved: forward pass = energies; gradient = minus force at generic geometries without underflow; gradient is a number at every geometry unless all Gaussians of an atom underflow or that exponential overflows. The full claim is false: C48_underflow_nan, C48_always_finite_false. Rules of PyTorch and backward passes of external functions are trusted."
  },
  {
   "property": "C49",
   "status": "partial",
   "theorems": [
    "TadDftd4.C49_keywords_reach_partial",
    "TadDftd4.C49_energy_partial",
    "TadDftd4.C49_defaults",
    "TadDftd4.C49_instance_ignores",
    "TadDftd4.C49_unknown_keyword",
    "TadDftd4.C49_unknown_charges",
    "TadDftd4.C49_gfn2_heavy",
    "TadDftd4.C49_wf_number_false"
   ],
   "note": "Proved for D4 with number wf and for D4S with a matrix wf, and for reference charges that cover the elements; refuted for D4S with a number wf (exception in every calculation; its type depends on the einsum backend) and for gfn2 charges of elements beyond the table (IndexError). The rc6 keyword is the subject of C93; C49_energy_partial is about calls without it."
  },
  {
   "property": "C50",
   "status": "partial",
   "theorems": [
    "TadDftd4.Device.C50_calculate_partial",
    "TadDftd4.Device.C50_dftd4_partial",
    "TadDftd4.Device.C50_properties",
    "TadDftd4.Device.C50_model",
    "TadDftd4.Device.C50_model_elsewhere_false",
    "TadDftd4.Device.C50_object_elsewhere_false",
    "TadDftd4.Device.C50_model_construction_false",
    "TadDftd4.Device.C50_default_device_false"
   ],
   "note": "Proved for objects and models on the device of the inputs and default devices CPU or that of the inputs (any default device if a1, a2 / rs9 are given). The claim for objects on another device and for other default devices is false of the code; refutations proved (_false)."
  },
  {
   "property": "C51",
   "status": "proved",
   "theorems": [
    "TadDftd4.C51_forward",
    "TadDftd4.C51_gradient",
    "TadDftd4.C51_loss",
    "TadDftd4.C51_smooth"
   ],
   "note": "Reverse-mode model (Tape) of the code path; the derivative rules of torch operations are trusted as stated in DESIGN.md."
  },
  {
   "property": "C52",
   "status": "proved",
   "theorems": [
    "TadDftd4.C52_inside",
    "TadDftd4.C52_error"
   ],
   "note": "C52_inside is exact; C52_error is a uniform bound. C81 gives the neglected terms themselves."
  },
  {
   "property": "C53",
   "status": "partial",
   "theorems": [
    "TadDftd4.C53_zero_partial",
    "TadDftd4.C53_ignored",
    "TadDftd4.C53_only_damping_false",
    "TadDftd4.C53_atm",
    "TadDftd4.C53_disp"
   ],
   "note": "Proved for zero damping. The other classes ignore the flag (C53_ignored), so the documented meaning is false of them (C53_only_damping_false), and three-body terms with them always raise (C53_atm, C53_disp)."
  },
  {
   "property": "C54",
   "status": "partial",
   "theorems": [
    "TadDftd4.C54_created",
    "TadDftd4.C54_rejected",
    "TadDftd4.C54_run",
    "TadDftd4.C54_call",
    "TadDftd4.C54_instances",
    "TadDftd4.C54_own_partial",
    "TadDftd4.C54_own_false",
    "TadDftd4.C54_package"
   ],
   "note": "Creation, instantiation and the exact outcome of calls are proved for all hierarchies. That a class is checked against exactly its own requirements holds if it defines _f or shares the requirements of its bases (C54_own_partial) and is false otherwise (C54_own_false)."
  },
  {
   "property": "C55",
   "status": "proved",
   "theorems": [
    "TadDftd4.C55_exists",
    "TadDftd4.C55_symmetric",
    "TadDftd4.C55_translation",
    "TadDftd4.C55_rotation",
    "TadDftd4.C55_rotation_mode",
    "TadDftd4.C55_padding"
   ],
   "note": "Second derivatives of the specified total energy; C61 and C77 show that double back-propagation computes them."
  },
  {
   "property": "C56",
   "status": "proved",
   "theorems": [
    "TadDftd4.C56_d4",
    "TadDftd4.C56_d4s",
    "TadDftd4.C56_weights",
    "TadDftd4.C56_c6",
    "TadDftd4.C56_single_range"
   ],
   "note": "With underflow (env.fl) and, in C56_weights and C56_c6, a relative error of every operation; C56_single_range shows which references survive in single precision."
  },
  {
   "property": "C57",
   "status": "proved",
   "theorems": [
    "TadDftd4.C57_energy",
    "TadDftd4.C57_twobody",
    "TadDftd4.C57_machine",
    "TadDftd4.C57_distance",
    "TadDftd4.C57_far"
   ],
   "note": "Relative-error model of floating point without underflow; C78 shows that the range of double precision suffices. Coefficients and distances carry given errors; C63 computes them."
  },
  {
   "property": "C58",
   "status": "partial",
   "theorems": [
    "TadDftd4.C58_accepted",
    "TadDftd4.C58_accepted_zero",
    "TadDftd4.C58_energy",
    "TadDftd4.C58_same_partial",
    "TadDftd4.C58_threebody",
    "TadDftd4.C58_d4",
    "TadDftd4.C58_d3",
    "TadDftd4.C58_default",
    "TadDftd4.C58_same_false"
   ],
   "note": "Acceptance and energies of validated sets are characterised completely. Missing part is false of the code: validation discards s9 and alp (C58_same_false: r2SCAN-3c and water), and variants other than the default ones and default blocks are rejected (C58_d4, C58_d3, C58_default)."
  },
  {
   "property": "C59",
   "status": "proved",
   "theorems": [
    "TadDftd4.C59_energy",
    "TadDftd4.C59_weaker",
    "TadDftd4.C59_dimer"
   ],
   "note": "Lower and upper bounds by undamped terms; C59_dimer is the limit for two atoms, C84 that for two molecules."
  },
  {
   "property": "C60",
   "status": "partial",
   "theorems": [
    "TadDftd4.C60_monotone",
    "TadDftd4.C60_strict",
    "TadDftd4.C60_gradient_partial",
    "TadDftd4.C60_gradient_nonneg",
    "TadDftd4.C60_padding",
    "TadDftd4.C60_gradient_nan",
    "TadDftd4.C60_always_finite_false"
   ],
   "note": "Proved: monotonicity (weak and strict); gradient = derivative, not negative, zero for padding, for effective charges above eps or negative without overflow, including underflow of all weights. The full claim is false: C60_gradient_nan, C60_always_finite_false (hydride). Rules of PyTorch's backward passes are trusted."
  },
  {
   "property": "C61",
   "status": "proved",
   "theorems": [
    "TadDftd4.C61_finite",
    "TadDftd4.C61_hessian",
    "TadDftd4.C61_symmetric",
    "TadDftd4.C61_zero_modes"
   ],
   "note": "One scalar second derivative at a time, D4 and D4S. Rules of PyTorch's backward passes and the double backward passes of the external functions (coordination numbers, charges) are trusted. If all Gaussians of an atom underflow the gradient is NaN already (C48)."
  },
  {
   "property": "C62",
   "status": "proved",
   "theorems": [
    "TadDftd4.C62_exact",
    "TadDftd4.C62_d3bj",
    "TadDftd4.C62_d3zero"
   ],
   "note": "Without underflow in the Gaussian weights. DispD4 is the subject of C01 and C46."
  },
  {
   "property": "C63",
   "status": "proved",
   "theorems": [
    "TadDftd4.C63_c6",
    "TadDftd4.C63_energy",
    "TadDftd4.C63_refc6",
    "TadDftd4.C63_c6_tables",
    "TadDftd4.C63_energy_tables"
   ],
   "note": "Rounded evaluation of the whole chain of D4/D4S from coordinates, CNs and charges (C63_energy), including the construction of reference C6 coefficients (C63_energy_tables). CN and EEQ are inputs with a given error."
  },
  {
   "property": "C64",
   "status": "proved",
   "theorems": [
    "TadDftd4.C64_scaling",
    "TadDftd4.C64_scaling_strict",
    "TadDftd4.C64_damping",
    "TadDftd4.C64_damping_strict",
    "TadDftd4.C64_gradient_scaling",
    "TadDftd4.C64_gradient_damping"
   ],
   "note": "Needs r4r2 not negative; gradients need a1, a2 >= 0, not both zero."
  },
  {
   "property": "C65",
   "status": "proved",
   "theorems": [
    "TadDftd4.C65_rotation",
    "TadDftd4.C65_relabelling",
    "TadDftd4.C65_padding",
    "TadDftd4.C65_batch"
   ],
   "note": "For external CN and charge functions that have the respective symmetry (shown for those of D4 in C69)."
  },
  {
   "property": "C66",
   "status": "proved",
   "theorems": [
    "TadDftd4.C66_apart",
    "TadDftd4.C66_strict"
   ],
   "note": "Function dispersion2 with given C6 coefficients (fixed CN and charges), rational damping, parameters a1 and a2 of any sign."
  },
  {
   "property": "C67",
   "status": "proved",
   "theorems": [
    "TadDftd4.C67_bounds",
    "TadDftd4.C67_repulsive",
    "TadDftd4.C67_attractive",
    "TadDftd4.C67_dftd4_repulsive",
    "TadDftd4.C67_dftd4_attractive"
   ],
   "note": "Bounds by C9 and distances; signs for non-obtuse triangles and collinear atoms."
  },
  {
   "property": "C68",
   "status": "proved",
   "theorems": [
    "TadDftd4.C68_model",
    "TadDftd4.C68_calculate",
    "TadDftd4.C68_dftd4",
    "TadDftd4.C68_properties",
    "TadDftd4.C68_accepted"
   ],
   "note": "Errors are raised by the range check of the model or by indexing; C68_accepted is the converse."
  },
  {
   "property": "C69",
   "status": "proved",
   "theorems": [
    "TadDftd4.C69_relabelling",
    "TadDftd4.C69_rigid_motion",
    "TadDftd4.C69_padding",
    "TadDftd4.C69_fragment",
    "TadDftd4.C69_smooth",
    "TadDftd4.C69_forces",
    "TadDftd4.C69_rotation",
    "TadDftd4.C69_charges",
    "TadDftd4.C69_solvable"
   ],
   "note": "External coordination numbers and charges replaced by formulas of the D4 counting function and the EEQ linear system, as documented in the external packages (Spec, not their code)."
  },
  {
   "property": "C70",
   "status": "proved",
   "theorems": [
    "TadDftd4.C70_smooth",
    "TadDftd4.C70_forces_sum_zero",
    "TadDftd4.C70_torque_zero",
    "TadDftd4.C70_padding_force_zero",
    "TadDftd4.C70_rotation",
    "TadDftd4.C70_relabelling",
    "TadDftd4.C70_padding",
    "TadDftd4.C70_batch"
   ],
   "note": "For every list of registered terms (Disp.Total) at generic geometries; external functions smooth and invariant."
  },
  {
   "property": "C71",
   "status": "partial",
   "theorems": [
    "TadDftd4.C71_positions",
    "TadDftd4.C71_parameters_partial",
    "TadDftd4.C71_mzero_padding_false",
    "TadDftd4.C71_op_underflow_false"
   ],
   "note": "C71_positions is the full claim for positions and C6 coefficients. For parameters the claim is false of the code: C71_mzero_padding_false (rs6, rs8 and alp of modified zero damping with padding of van der Waals radius zero) and C71_op_underflow_false (a1, a2 and bet of optimised power damping in single precision). C71_parameters_partial is the claim under conditions that exclude these cases."
  },
  {
   "property": "C72",
   "status": "proved",
   "theorems": [
    "TadDftd4.C72_forward",
    "TadDftd4.C72_forces",
    "TadDftd4.C72_finite",
    "TadDftd4.C72_underflow_nan"
   ],
   "note": "Conditions are Term.Generic (value) and Term.Regular, Term.GradOk (finiteness); backward passes of external functions are presupposed."
  },
  {
   "property": "C73",
   "status": "proved",
   "theorems": [
    "TadDftd4.C73_forward",
    "TadDftd4.C73_gradient",
    "TadDftd4.C73_loss",
    "TadDftd4.C73_vdw_padding_nan"
   ],
   "note": "As C51, for every registered term and damping function; C73_vdw_padding_nan is a refutation for padding with a given rvdw."
  },
  {
   "property": "C74",
   "status": "proved",
   "theorems": [
    "TadDftd4.C74_values",
    "TadDftd4.C74_relabelling",
    "TadDftd4.C74_isometry",
    "TadDftd4.C74_rigid_motion",
    "TadDftd4.C74_padding",
    "TadDftd4.C74_batch_independence",
    "TadDftd4.C74_c6",
    "TadDftd4.C74_no_charge"
   ],
   "note": "For external functions with the respective symmetry (shown for those of D4 in C69)."
  },
  {
   "property": "C75",
   "status": "proved",
   "theorems": [
    "TadDftd4.C75_gradient",
    "TadDftd4.C75_finite",
    "TadDftd4.C75_positions",
    "TadDftd4.C75_underflow_nan"
   ],
   "note": "Weighted sum of all results with arbitrary grad_outputs; conditions on charges as in C72."
  },
  {
   "property": "C76",
   "status": "proved",
   "theorems": [
    "TadDftd4.C76_machines",
    "TadDftd4.C76_relabelling",
    "TadDftd4.C76_rigid_motion",
    "TadDftd4.C76_padding"
   ],
   "note": "Consequence of C57/C63 for two runs; the exact values agree by the symmetry claims."
  },
  {
   "property": "C77",
   "status": "proved",
   "theorems": [
    "TadDftd4.C77_finite",
    "TadDftd4.C77_hessian",
    "TadDftd4.C77_symmetric",
    "TadDftd4.C77_zero_modes"
   ],
   "note": "Second backward pass through the recorded first one (Tape.backT); conditions Term.Generic, Term.Regular, Term.HessOk."
  },
  {
   "property": "C78",
   "status": "proved",
   "theorems": [
    "TadDftd4.C78_finite",
    "TadDftd4.C78_runs",
    "TadDftd4.C78_energy",
    "TadDftd4.C78_single",
    "TadDftd4.C78_single_runs",
    "TadDftd4.C78_c6",
    "TadDftd4.C78_single_finite",
    "TadDftd4.C78_single_finite_runs",
    "TadDftd4.C78_c6_le"
   ],
   "note": "IEEE formats with subnormals, infinities and NaN; accuracy of pow up to 1/10. C78_single is the refutation for coinciding atoms in single precision."
  },
  {
   "property": "C79",
   "status": "partial",
   "theorems": [
    "TadDftd4.Alias.C79_settings",
    "TadDftd4.Alias.C79_fixed_partial",
    "TadDftd4.Alias.C79_rebuilt",
    "TadDftd4.Alias.C79_fixed_false"
   ],
   "note": "C79_settings says what an object uses at any later time: the current contents of the dictionaries and the model passed to it, except that an empty model_kwargs is not kept. C79_fixed_partial: it stays as created while nobody assigns to these. C79_rebuilt: with nonempty keywords it behaves as if created now. The full claim is false because dictionaries are kept by reference (C79_fixed_false)."
  },
  {
   "property": "C80",
   "status": "partial",
   "theorems": [
    "TadDftd4.C80_builtin",
    "TadDftd4.C80_sum",
    "TadDftd4.C80_raises",
    "TadDftd4.C80_register",
    "TadDftd4.C80_deregister_partial",
    "TadDftd4.C80_deregister_false"
   ],
   "note": "Everything but deregister is proved (C80_sum, C80_raises, C80_register, C80_builtin). deregister removes the given term if no term registered earlier has the same class, damping class and charge dependence (C80_deregister_partial); otherwise another one is removed (C80_deregister_false), because the inherited __eq__ ignores other attributes. Terms that change tensors in place are not modelled."
  },
  {
   "property": "C81",
   "status": "proved",
   "theorems": [
    "TadDftd4.C81_exact",
    "TadDftd4.C81_neglected"
   ],
   "note": "C81_exact is an equality of energies for two pairs of cutoffs; C81_neglected bounds the difference by undamped terms."
  },
  {
   "property": "C82",
   "status": "proved",
   "theorems": [
    "TadDftd4.C82_limit",
    "TadDftd4.C82_inside",
    "TadDftd4.C82_continuous",
    "TadDftd4.C82_jump"
   ],
   "note": "External functions continuous at the geometry; effective nuclear charges positive; cutoffs above sqrt(eps)."
  },
  {
   "property": "C83",
   "status": "proved",
   "theorems": [
    "TadDftd4.C83_conservation",
    "TadDftd4.C83_dftd4",
    "TadDftd4.C83_cutoff"
   ],
   "note": "Spec.Motion: differentiable trajectories that solve Newton's equations with dispGrad/positionsGrad as forces; existence for the examples by Picard-Lindelof."
  },
  {
   "property": "C84",
   "status": "proved",
   "theorems": [
    "TadDftd4.C84_interaction",
    "TadDftd4.C84_mean"
   ],
   "note": "The molecules in the complex have the CNs and charges they have alone (true beyond the CN cutoff and with given charges), cutoffs exceed all distances. C84_mean concerns the coefficient of the limit."
  },
  {
   "property": "C85",
   "status": "proved",
   "theorems": [
    "TadDftd4.C85_gradient",
    "TadDftd4.C85_chain",
    "TadDftd4.C85_finite"
   ],
   "note": "Coordination numbers and charges are external functions, assumed differentiable along the path (finite gradients for C85_finite). Floating point is modelled by special values, underflow and overflow, not by rounding."
  },
  {
   "property": "C86",
   "status": "proved",
   "theorems": [
    "TadDftd4.C86_cutoff",
    "TadDftd4.C86_energy"
   ],
   "note": "The constants depend on tables, parameters, model and the smallest distance only. Cutoffs of coordination numbers and charges are the same in both calls, since these functions are external."
  },
  {
   "property": "C87",
   "status": "proved",
   "theorems": [
    "TadDftd4.C87_local",
    "TadDftd4.C87_uniform",
    "TadDftd4.C87_total"
   ],
   "note": "Between effective nuclear charges of zero and the machine epsilon the scaling function falls to zero (C15_decreasing_false), so such charges are excluded. The three-body term does not depend on the charges."
  },
  {
   "property": "C88",
   "status": "proved",
   "theorems": [
    "TadDftd4.C88_systems",
    "TadDftd4.C88_alone",
    "TadDftd4.C88_atoms",
    "TadDftd4.C88_numbers",
    "TadDftd4.C88_dftd4",
    "TadDftd4.C88_dftd4_atoms",
    "TadDftd4.C88_flat_raises",
    "TadDftd4.C88_flat_false"
   ],
   "note": "C88_systems, C88_alone, C88_numbers, C88_atoms for every class of dispersion object, C88_dftd4, C88_dftd4_atoms for the function; C88_flat_raises and C88_flat_false for flat tensors. Model in Model/ParamTensor.lean."
  },
  {
   "property": "C89",
   "status": "proved",
   "theorems": [
    "TadDftd4.C89_c6",
    "TadDftd4.C89_energy",
    "TadDftd4.C89_pairs",
    "TadDftd4.C89_uniform",
    "TadDftd4.C89_shipped"
   ],
   "note": "For exact exponentials (env.fl = id): when all Gaussians of an atom underflow the code switches to another branch and jumps."
  },
  {
   "property": "C90",
   "status": "proved",
   "theorems": [
    "TadDftd4.C90_systems",
    "TadDftd4.C90_alone",
    "TadDftd4.C90_atoms",
    "TadDftd4.C90_numbers",
    "TadDftd4.C90_dftd4",
    "TadDftd4.C90_flat_raises",
    "TadDftd4.C90_disp3_raises",
    "TadDftd4.C90_flat_false"
   ],
   "note": "calculate and dftd4 with tensors as cutoffs (and damping parameters); that a flat tensor acts per system is refuted (C90_flat_false), wrong shapes raise (C90_flat_raises, C90_disp3_raises). The cutoff handed to the external charge function is a number."
  },
  {
   "property": "C91",
   "status": "proved",
   "theorems": [
    "TadDftd4.C91_sets",
    "TadDftd4.C91_broadcast",
    "TadDftd4.C91_dftd4",
    "TadDftd4.C91_molecule",
    "TadDftd4.C91_s10_raises"
   ],
   "note": "energies for all sets of parameters at once equal those of separate calculations; s10 alone as the parameter with sets raises (C91_s10_raises)"
  },
  {
   "property": "C92",
   "status": "proved",
   "theorems": [
    "TadDftd4.C92_uniform",
    "TadDftd4.C92_cutoffs",
    "TadDftd4.C92_pairs"
   ],
   "note": "C92_uniform: two calls of dftd4 with different positions, constants independent of the system (C92_cutoffs: without the condition that no distance crosses a cutoff). C92_pairs: relative version for pair terms without a minimal distance. As in C89, exponentials must not underflow (env.fl = id)."
  },
  {
   "property": "C93",
   "status": "proved",
   "theorems": [
    "TadDftd4.C93_energy",
    "TadDftd4.C93_object",
    "TadDftd4.C93_own",
    "TadDftd4.C93_linear",
    "TadDftd4.C93_wrong_shape",
    "TadDftd4.C93_exact_ignores",
    "TadDftd4.C93_shared",
    "TadDftd4.C93_one_atom"
   ],
   "note": "Energies for the D4 terms (DispD4 and dftd4 with rational damping); the type of the exception for a wrong shape depends on the einsum backend and is left open. Axes of size one are broadcast by einsum: coefficients without batch axes (C93_shared) and of a single atom (C93_one_atom)."
  },
  {
   "property": "C94",
   "status": "proved",
   "theorems": [
    "TadDftd4.C94_energy",
    "TadDftd4.C94_nonneg",
    "TadDftd4.C94_accepted",
    "TadDftd4.C94_attracts",
    "TadDftd4.C94_rejected_false",
    "TadDftd4.C94_padding_false"
   ],
   "note": "Integers as atomic numbers of dftd4 with a model given by name; the expectations that negative numbers are rejected or act as padding are refuted (C94_rejected_false, C94_padding_false). The external coordination numbers and charges are assumed to accept the same numbers."
  },
  {
   "property": "C95",
   "status": "proved",
   "theorems": [
    "TadDftd4.C95_forces",
    "TadDftd4.C95_neighbourhood",
    "TadDftd4.C95_hessian",
    "TadDftd4.C95_param",
    "TadDftd4.C95_step",
    "TadDftd4.C95_cutoff_false"
   ],
   "note": "For the total energy of one system (gradient, Hessian) and an atom's energy (parameters). Coordination numbers and charges are three (for the Hessian four) times continuously differentiable by hypothesis; exponentials do not underflow, as in C48. Errors eta of the displaced values are arbitrary. C95_cutoff_false refutes convergence at the two-body cutoff."
  },
  {
   "property": "C96",
   "status": "proved",
   "theorems": [
    "TadDftd4.C96_ignored",
    "TadDftd4.C96_dftd4",
    "TadDftd4.C96_zero",
    "TadDftd4.C96_overbinds",
    "TadDftd4.C96_false",
    "TadDftd4.C96_energy",
    "TadDftd4.C96_dftd4_false"
   ],
   "note": "The effect with zero damping is stated for dispersion2 (C96_zero, C96_overbinds) and for the energies of whole dispersion objects without three-body energy (C96_energy); C96_false and C96_dftd4_false refute the claim that the entry never matters."
  },
  {
   "property": "C97",
   "status": "proved",
   "theorems": [
    "TadDftd4.C97_total",
    "TadDftd4.C97_gradient",
    "TadDftd4.C97_force",
    "TadDftd4.C97_given"
   ],
   "note": "Sharp cutoffs are excluded (no distance crosses one, C92 bounds what crossing adds). Charges from EEQ respond to distant displacements, so their change stays in the bound."
  },
  {
   "property": "C98",
   "status": "partial",
   "theorems": [
    "TadDftd4.C98_integer",
    "TadDftd4.C98_objects",
    "TadDftd4.C98_tensor",
    "TadDftd4.C98_dftd4_partial",
    "TadDftd4.C98_error",
    "TadDftd4.C98_number_false"
   ],
   "note": "False for dftd4 (C98_number_false): disp.py:139 converts a Python float to the default dtype before base.py:352 converts it to that of the positions. True for numbers representable in both dtypes, in particular whole charges; the error is bounded (C98_error)."
  },
  {
   "property": "C99",
   "status": "partial",
   "theorems": [
    "TadDftd4.C99_rcov",
    "TadDftd4.C99_rcov_dftd4",
    "TadDftd4.C99_rcov_false",
    "TadDftd4.C99_rvdw_ignored",
    "TadDftd4.C99_rvdw_dftd4",
    "TadDftd4.C99_radii",
    "TadDftd4.C99_one_column",
    "TadDftd4.C99_one_column_dftd4",
    "TadDftd4.C99_columns",
    "TadDftd4.C99_columns_runtime",
    "TadDftd4.C99_columns_runtime_atm",
    "TadDftd4.C99_columns_false"
   ],
   "note": "r4r2 and rvdw are used as given (C99_radii; values of single atoms: C01, C62). The documented meaning of rcov is false of the code (C99_rcov, C99_rcov_dftd4, C99_rcov_false), rvdw is ignored by rational and optimised-power damping (C99_rvdw_ignored, C99_rvdw_dftd4), and rvdw with one column is broadcast (C99_one_column for every dispersion object, C99_one_column_dftd4, C99_columns_false); other wrong numbers of columns raise (C99_columns), namely RuntimeError in dispersion2 with zero damping and in get_atm_dispersion (C99_columns_runtime, C99_columns_runtime_atm)."
  }
 ]
}
