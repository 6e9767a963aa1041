{
"C01": {"note": "dftd4 = two-body BJ sum plus ATM sum of Spec.energy over the coefficients of Spec.C6; C01_dftd4_textbook removes the code's numerical guards under explicit regularity conditions. CN and EEQ charges enter as per-system functions (external packages)."},
"C02": {"note": "For CN/EEQ functions that are themselves equivariant under relabelling."},
"C03": {"note": "For CN/EEQ functions that depend on positions through distances; covers every isometry, rigid motions included."},
"C04": {"note": "For CN/EEQ functions that ignore padding."},
"C05": {"note": "Entry of a batch equals the same system in any other batch."},
"C06": {"note": "No error value and output shape; tables hypotheses are discharged for the transcribed shipped tables in C06_no_exception_shipped."},
"C07": {"note": "Atom energies are half the row sums of the pair matrix; the matrix is symmetric with zero diagonal and zero padding rows."},
"C08": {"note": "All four damping families; rational damping for arbitrary a1, a2."},
"C09": {"note": "Distances below sqrt(eps) are clamped by the code, hence the condition sqrt(eps) <= cutoff."},
"C10": {"status": "partial", "note": "The full statement AllSidesWithinCutoff is false of the code (C10_all_sides_false): the third distance test repeats r_jk, so r_ik is never compared. Proved: only two sides are tested, contributions are inclusive at the cutoff, and the total equals the specified sum with the share of ordered triples that pass."},
"C11": {"note": "Atoms further apart than sqrt(eps); the angular term is stated with Euclidean angles."},
"C12": {"note": "Thirds, unordered triples, and zero below three atoms; conditional on all triples being within cutoff, C10_total_partial covers the rest."},
"C13": {"note": "Two-body, three-body and full dftd4 level; CN/charges of a fragment are assumed unchanged by a far fragment."},
"C14": {"note": "Any rounding function fl with fl >= 0 on non-negative input stands for underflow; table condition HasTop proved for the shipped tables."},
"C15": {"status": "partial", "note": "Bounds, non-positive charges, reference charge and strict decrease above eps are proved. The full monotonicity ZetaDecreases is false for charges in (0, eps) (C15_decreasing_false); C15_decreasing_partial excludes that gap."},
"C16": {"note": "Strict positivity (C16_positive, C16_positive_shipped) assumes no underflow and excludes cerium. Symmetry and semidefiniteness for every weights tensor, non-negativity for the weights returned by weight_references; default rc6."},
"C17": {"status": "partial", "note": "Proved for D4 with arbitrary weights. False for D4S with constant weighting factors (C17_d4s_false, shipped tables): get_weighted_pols averages over all atoms (C17_d4s_mean_partial), fails for batches (C17_d4s_batch_error), get_polarizabilities returns a matrix (C17_d4s_static_shape)."},
"C18": {"note": "Exponentials without underflow (fl = id); D4SDebug included."},
"C19": {"note": "epsFactor is the eps shift of the statement; C19_factor bounds it. Both D4 and D4S."},
"C20": {"status": "partial", "note": "The full statement is false of the code (C20_derivative_false, shipped tables): the returned tensor is the negative derivative (C20_negative_partial); D4S raises NotImplementedError."},
"C21": {"note": "Exact equality including the 1e-17 digit in the third literal weight."},
"C22": {"note": "All orders, any a1, a2 for which the damping is active; pair energy consequence at dispersion2 level."},
"C23": {"status": "partial", "note": "Three-body (order 9) zero damping is proved. The two-body code is inverted: ZeroDampingTwoBody is false (C23_twobody_false); C23_twobody_partial gives what is computed."},
"C24": {"status": "partial", "note": "The code uses a different denominator than the published optimised power damping: OptPowerBounded is false (C24_bounded_false, C24_diverges for bet < n); bounded for bet >= n (C24_bounded_partial)."},
"C25": {"status": "proved", "note": "Modified zero damping, orders 6 and 8 (the class has no other)."},
"C26": {"status": "partial", "note": "ValueErrorExact is false (C26_value_false): rational damping accepts every order and the bet assertion of mzero/op precedes the order check. C26_outcome, C26_type, C26_unknown, C26_value_partial are exact for the rest."},
"C27": {"status": "partial", "note": "s6, s9, alp, rs9: equality of the whole result for every input and damping. s10: rational damping (with zero damping passing s10 always fails, C27_s10_zero). s8: OmittedS8IsDefault is false (C27_s8_false); omitting s8 equals s8 = 0 (C27_s8_partial, C27_s8_missing)."},
"C28": {"note": "Rational damping with all four scaling parameters; any damping function for s6, s8, s9."},
"C29": {"status": "partial", "note": "Proved in every reachable state for casefolded functional names and for default parameters of an explicitly given listed variant. The documented case-insensitivity and the default variant of the default parameters are false of the code (C29_case_false, C29_default_false)."},
"C30": {"status": "proved", "note": "For every reachable state of the parameter cache and every history of calls and in-place changes of returned dictionaries."},
"C31": {"status": "partial", "note": "Proved for all sets of functionals in the shipped d4 file (C31_d4_partial), all d3 sets for rational damping (C31_d3_bj_partial) and three d3 sets for zero damping (C31_d3_zero_partial), after any history of calls. False for the default parameters (C31_default_never, C31_default_false) and for all other d3 sets for zero damping (C31_d3_zero). C31_d3_alp: the exponent listed in the d3 file is not used."},
"C32": {"status": "proved", "note": "For every Disp object, all shapes and options; the exact outcome (ValueError, RuntimeError, or the sum of the term energies) given that model, tables and external functions raise nothing. Inconsistent positions are rejected unconditionally. Any number of coordinates per atom is accepted (C32_coordinates), as are coordination numbers without batch axes (C32_cn_shared, C32_cn_shared_dftd4); a single coordination number is accepted by D4 only (C32_cn_scalar, C32_cn_scalar_d4s)."},
"C33": {"status": "proved", "note": "Equality of results and exceptions for every Disp object and dftd4; the three-body part is stated as the difference to s9 = 0."},
"C34": {"status": "proved", "note": "For all histories on any number of objects (heap model of the term lists) and for the energy with any broadcasting of term energies. Floating-point rounding of the summation order is not modelled."},
"C35": {"status": "partial", "note": "Acceptance of keys, model instances and usability of d4/d4s proved for every class and string; the claims that the classes restrict models (ALLOWED_MODELS is never read) and that every accepted key (d3, d5) is usable are false of the code: proved by C35_restrict_false, C35_d3_never, C35_d5_never, C35_usable_false."},
"C36": {"status": "partial", "note": "disp2, disp3 and cn_eeq proved to be honoured at API level (isolation, inclusiveness, non-interference); Cutoff.cn is never read by the code, so the claim for it is false: C36_cn_ignored, C36_properties, C36_cn_false. The disp3 test of only two sides of a triangle is C10."},
"C37": {"status": "proved", "note": "C37_cn_q holds for all arguments, valid or not; CN and EEQ are external functions, cn_d4 with its default counting function."},
"C38": {"status": "proved", "note": "About the transcribed tables themselves (all elements and references), computed by the kernel from the data modules; tables of external packages enter through ExtTables."},
"C39": {"status": "partial", "note": "The claim is false of the code. Proved: the exact condition under which get_weighted_pols has the documented shape (C39_weighted_pols_iff), the value for square batches (divided by the atom count of the wrong system), that get_polarizabilities never has the documented shape for D4S, exactly when D4SDebug works or raises (systems of two or more atoms), and the negations of the three documented statements. Missing: the claim itself, which does not hold."},
"C40": {"status": "proved", "note": "Model with a heap (DampingState): damping instances, their lazily set DOI and arbitrary histories of other calls; energies equal those of the stateless model."},
"C41": {"status": "proved", "note": "Approximate C9 for D4 and D4S in every batch, exact C9 for D4 in every batch and for D4S in every batch in which the weighted polarizabilities have the documented shape (C39 gives exactly these)."},
"C42": {"status": "proved", "note": "Derivatives of the energy as a real function (the backward pass of autograd is the subject of C48, C60, C61 and C72); exponentials without underflow for smoothness (fl = id); CN/EEQ functions differentiable, invariant, and blind to padding positions as stated. Generic also excludes the thresholds of the regularised square root of C9 and of the charge scaling."},
"C43": {"status": "proved", "note": "Abstract interpretation of dtypes (Model/DType): promotion rules of torch for the operations used are trusted as stated there."},
"C44": {"status": "partial", "note": "False of the code: a float32 object (the default) with float64 positions raises RuntimeError in einsum (C44_single_object_double_positions, C44_full_false); a float64 object with float32 positions silently returns float64. Proved for equal dtypes."},
"C45": {"status": "proved", "note": "Explicit bounds on C6 and on the energy that do not depend on positions, in real arithmetic with the code's guards."},
"C46": {"status": "proved", "note": "For all arguments, also invalid ones; presupposes that cn_d4 uses erf_count by default."},
"C47": {"status": "partial", "note": "Objects built for the numbers of the system are equivalent to their key (C47_own_atoms_partial). Objects built for other atoms of the same shape are accepted; C47_other_atoms gives the energies computed then, C47_objects_checked_false refutes the full claim."},
"C48": {"status": "partial", "note": "Graph and backward pass are modelled for one scalar parameter of the positions, with overflow of the inner exponential of the charge scaling. Proved: forward pass = energies; gradient = minus force at generic geometries without underflow; gradient is a number at every geometry unless all Gaussians of an atom underflow or that exponential overflows. The full claim is false: C48_underflow_nan, C48_always_finite_false. Rules of PyTorch and backward passes of external functions are trusted."},
"C49": {"status": "partial", "note": "Proved for D4 with number wf and for D4S with a matrix wf, and for reference charges that cover the elements; refuted for D4S with a number wf (exception in every calculation; its type depends on the einsum backend) and for gfn2 charges of elements beyond the table (IndexError). The rc6 keyword is the subject of C93; C49_energy_partial is about calls without it."},
"C50": {"status": "partial", "note": "Proved for objects and models on the device of the inputs and default devices CPU or that of the inputs (any default device if a1, a2 / rs9 are given). The claim for objects on another device and for other default devices is false of the code; refutations proved (_false)."},
"C51": {"status": "proved", "note": "Reverse-mode model (Tape) of the code path; the derivative rules of torch operations are trusted as stated in DESIGN.md."},
"C52": {"status": "proved", "note": "C52_inside is exact; C52_error is a uniform bound. C81 gives the neglected terms themselves."},
"C53": {"status": "partial", "note": "Proved for zero damping. The other classes ignore the flag (C53_ignored), so the documented meaning is false of them (C53_only_damping_false), and three-body terms with them always raise (C53_atm, C53_disp)."},
"C54": {"status": "partial", "note": "Creation, instantiation and the exact outcome of calls are proved for all hierarchies. That a class is checked against exactly its own requirements holds if it defines _f or shares the requirements of its bases (C54_own_partial) and is false otherwise (C54_own_false)."},
"C55": {"status": "proved", "note": "Second derivatives of the specified total energy; C61 and C77 show that double back-propagation computes them."},
"C56": {"status": "proved", "note": "With underflow (env.fl) and, in C56_weights and C56_c6, a relative error of every operation; C56_single_range shows which references survive in single precision."},
"C57": {"status": "proved", "note": "Relative-error model of floating point without underflow; C78 shows that the range of double precision suffices. Coefficients and distances carry given errors; C63 computes them."},
"C58": {"status": "partial", "note": "Acceptance and energies of validated sets are characterised completely. Missing part is false of the code: validation discards s9 and alp (C58_same_false: r2SCAN-3c and water), and variants other than the default ones and default blocks are rejected (C58_d4, C58_d3, C58_default)."},
"C59": {"status": "proved", "note": "Lower and upper bounds by undamped terms; C59_dimer is the limit for two atoms, C84 that for two molecules."},
"C60": {"status": "partial", "note": "Proved: monotonicity (weak and strict); gradient = derivative, not negative, zero for padding, for effective charges above eps or negative without overflow, including underflow of all weights. The full claim is false: C60_gradient_nan, C60_always_finite_false (hydride). Rules of PyTorch's backward passes are trusted."},
"C61": {"status": "proved", "note": "One scalar second derivative at a time, D4 and D4S. Rules of PyTorch's backward passes and the double backward passes of the external functions (coordination numbers, charges) are trusted. If all Gaussians of an atom underflow the gradient is NaN already (C48)."},
"C62": {"status": "proved", "note": "Without underflow in the Gaussian weights. DispD4 is the subject of C01 and C46."},
"C63": {"status": "proved", "note": "Rounded evaluation of the whole chain of D4/D4S from coordinates, CNs and charges (C63_energy), including the construction of reference C6 coefficients (C63_energy_tables). CN and EEQ are inputs with a given error."},
"C64": {"status": "proved", "note": "Needs r4r2 not negative; gradients need a1, a2 >= 0, not both zero."},
"C65": {"status": "proved", "note": "For external CN and charge functions that have the respective symmetry (shown for those of D4 in C69)."},
"C66": {"status": "proved", "note": "Function dispersion2 with given C6 coefficients (fixed CN and charges), rational damping, parameters a1 and a2 of any sign."},
"C67": {"status": "proved", "note": "Bounds by C9 and distances; signs for non-obtuse triangles and collinear atoms."},
"C68": {"status": "proved", "note": "Errors are raised by the range check of the model or by indexing; C68_accepted is the converse."},
"C69": {"status": "proved", "note": "External coordination numbers and charges replaced by formulas of the D4 counting function and the EEQ linear system, as documented in the external packages (Spec, not their code)."},
"C70": {"status": "proved", "note": "For every list of registered terms (Disp.Total) at generic geometries; external functions smooth and invariant."},
"C71": {"status": "partial", "note": "C71_positions is the full claim for positions and C6 coefficients. For parameters the claim is false of the code: C71_mzero_padding_false (rs6, rs8 and alp of modified zero damping with padding of van der Waals radius zero) and C71_op_underflow_false (a1, a2 and bet of optimised power damping in single precision). C71_parameters_partial is the claim under conditions that exclude these cases."},
"C72": {"status": "proved", "note": "Conditions are Term.Generic (value) and Term.Regular, Term.GradOk (finiteness); backward passes of external functions are presupposed."},
"C73": {"status": "proved", "note": "As C51, for every registered term and damping function; C73_vdw_padding_nan is a refutation for padding with a given rvdw."},
"C74": {"status": "proved", "note": "For external functions with the respective symmetry (shown for those of D4 in C69)."},
"C75": {"status": "proved", "note": "Weighted sum of all results with arbitrary grad_outputs; conditions on charges as in C72."},
"C76": {"status": "proved", "note": "Consequence of C57/C63 for two runs; the exact values agree by the symmetry claims."},
"C77": {"status": "proved", "note": "Second backward pass through the recorded first one (Tape.backT); conditions Term.Generic, Term.Regular, Term.HessOk."},
"C78": {"status": "proved", "note": "IEEE formats with subnormals, infinities and NaN; accuracy of pow up to 1/10. C78_single is the refutation for coinciding atoms in single precision."},
"C79": {"status": "partial", "note": "C79_settings says what an object uses at any later time: the current contents of the dictionaries and the model passed to it, except that an empty model_kwargs is not kept. C79_fixed_partial: it stays as created while nobody assigns to these. C79_rebuilt: with nonempty keywords it behaves as if created now. The full claim is false because dictionaries are kept by reference (C79_fixed_false)."},
"C80": {"status": "partial", "note": "Everything but deregister is proved (C80_sum, C80_raises, C80_register, C80_builtin). deregister removes the given term if no term registered earlier has the same class, damping class and charge dependence (C80_deregister_partial); otherwise another one is removed (C80_deregister_false), because the inherited __eq__ ignores other attributes. Terms that change tensors in place are not modelled."},
"C81": {"status": "proved", "note": "C81_exact is an equality of energies for two pairs of cutoffs; C81_neglected bounds the difference by undamped terms."},
"C82": {"status": "proved", "note": "External functions continuous at the geometry; effective nuclear charges positive; cutoffs above sqrt(eps)."},
"C83": {"status": "proved", "note": "Spec.Motion: differentiable trajectories that solve Newton's equations with dispGrad/positionsGrad as forces; existence for the examples by Picard-Lindelof."},
"C84": {"status": "proved", "note": "The molecules in the complex have the CNs and charges they have alone (true beyond the CN cutoff and with given charges), cutoffs exceed all distances. C84_mean concerns the coefficient of the limit."},
"C85": {"status": "proved", "note": "Coordination numbers and charges are external functions, assumed differentiable along the path (finite gradients for C85_finite). Floating point is modelled by special values, underflow and overflow, not by rounding."},
"C86": {"status": "proved", "note": "The constants depend on tables, parameters, model and the smallest distance only. Cutoffs of coordination numbers and charges are the same in both calls, since these functions are external."},
"C87": {"status": "proved", "note": "Between effective nuclear charges of zero and the machine epsilon the scaling function falls to zero (C15_decreasing_false), so such charges are excluded. The three-body term does not depend on the charges."},
"C88": {"status": "proved", "note": "C88_systems, C88_alone, C88_numbers, C88_atoms for every class of dispersion object, C88_dftd4, C88_dftd4_atoms for the function; C88_flat_raises and C88_flat_false for flat tensors. Model in Model/ParamTensor.lean."},
"C89": {"status": "proved", "note": "For exact exponentials (env.fl = id): when all Gaussians of an atom underflow the code switches to another branch and jumps."},
"C90": {"status": "proved", "note": "calculate and dftd4 with tensors as cutoffs (and damping parameters); that a flat tensor acts per system is refuted (C90_flat_false), wrong shapes raise (C90_flat_raises, C90_disp3_raises). The cutoff handed to the external charge function is a number."},
"C91": {"status": "proved", "note": "energies for all sets of parameters at once equal those of separate calculations; s10 alone as the parameter with sets raises (C91_s10_raises)"},
"C92": {"status": "proved", "note": "C92_uniform: two calls of dftd4 with different positions, constants independent of the system (C92_cutoffs: without the condition that no distance crosses a cutoff). C92_pairs: relative version for pair terms without a minimal distance. As in C89, exponentials must not underflow (env.fl = id)."},
"C93": {"status": "proved", "note": "Energies for the D4 terms (DispD4 and dftd4 with rational damping); the type of the exception for a wrong shape depends on the einsum backend and is left open. Axes of size one are broadcast by einsum: coefficients without batch axes (C93_shared) and of a single atom (C93_one_atom)."},
"C94": {"status": "proved", "note": "Integers as atomic numbers of dftd4 with a model given by name; the expectations that negative numbers are rejected or act as padding are refuted (C94_rejected_false, C94_padding_false). The external coordination numbers and charges are assumed to accept the same numbers."},
"C95": {"status": "proved", "note": "For the total energy of one system (gradient, Hessian) and an atom's energy (parameters). Coordination numbers and charges are three (for the Hessian four) times continuously differentiable by hypothesis; exponentials do not underflow, as in C48. Errors eta of the displaced values are arbitrary. C95_cutoff_false refutes convergence at the two-body cutoff."},
"C96": {"status": "proved", "note": "The effect with zero damping is stated for dispersion2 (C96_zero, C96_overbinds) and for the energies of whole dispersion objects without three-body energy (C96_energy); C96_false and C96_dftd4_false refute the claim that the entry never matters."},
"C97": {"status": "proved", "note": "Sharp cutoffs are excluded (no distance crosses one, C92 bounds what crossing adds). Charges from EEQ respond to distant displacements, so their change stays in the bound."},
"C98": {"status": "partial", "note": "False for dftd4 (C98_number_false): disp.py:139 converts a Python float to the default dtype before base.py:352 converts it to that of the positions. True for numbers representable in both dtypes, in particular whole charges; the error is bounded (C98_error)."},
"C99": {"status": "partial", "note": "r4r2 and rvdw are used as given (C99_radii; values of single atoms: C01, C62). The documented meaning of rcov is false of the code (C99_rcov, C99_rcov_dftd4, C99_rcov_false), rvdw is ignored by rational and optimised-power damping (C99_rvdw_ignored, C99_rvdw_dftd4), and rvdw with one column is broadcast (C99_one_column for every dispersion object, C99_one_column_dftd4, C99_columns_false); other wrong numbers of columns raise (C99_columns), namely RuntimeError in dispersion2 with zero damping and in get_atm_dispersion (C99_columns_runtime, C99_columns_runtime_atm)."}
}
