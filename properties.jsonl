{"id": "C01", "title": "dftd4 returns the documented DFT-D4 energy", "statement": "For a valid input, dftd4(numbers, positions, charge, param) returns, for every atom of every system, the documented sum: half of each damped pair term -(s6*C6/(R^6+R0^6) + s8*C8/(R^8+R0^8) [+ s10*C10/(R^10+R0^10)]) over the other real atoms within the two-body cutoff, plus one sixth of each ordered three-body Axilrod-Teller-Muto term, with C6 from the charge- and CN-weighted reference polarizabilities, C8 = 3*Q_i*Q_j*C6, R0 = a1*sqrt(3*Q_i*Q_j)+a2.", "quantifier": "every batch shape, number of atoms, atomic numbers covered by the tables, positions, charges, damping parameters and cutoffs", "why_tests_cant": "tests compare a few dozen fixed molecules with reference numbers; the formula must hold for every molecule, padding pattern and parameter set", "anchors": ["src/tad_dftd4/disp.py:dftd4", "src/tad_dftd4/dispersion/base.py:Disp.calculate", "src/tad_dftd4/dispersion/twobody.py:dispersion2", "src/tad_dftd4/dispersion/threebody.py:get_atm_dispersion", "src/tad_dftd4/model/d4.py:D4Model.weight_references"]}
{"id": "C02", "title": "Energies follow a relabelling of the atoms", "statement": "Permuting the atoms of the input (numbers, positions, and any per-atom q, r4r2, rvdw) permutes the atom-resolved energies of dftd4 in the same way and leaves the total energy unchanged, for the D4 and the D4S model.", "quantifier": "every system, every permutation of its atoms, every batch", "why_tests_cant": "n! permutations of unboundedly many systems; a broadcasting slip can hide in any one index", "anchors": ["src/tad_dftd4/disp.py:dftd4", "src/tad_dftd4/dispersion/twobody.py:dispersion2", "src/tad_dftd4/dispersion/threebody.py:get_atm_dispersion", "src/tad_dftd4/model/d4s.py:D4SModel"]}
{"id": "C03", "title": "Energies do not depend on the frame of reference", "statement": "Translating, rotating or reflecting all positions of a system leaves every atom-resolved dispersion energy of dftd4 unchanged (given that the coordination number and charge functions are invariant).", "quantifier": "every system, every orthogonal matrix and translation vector", "why_tests_cant": "a continuous group acting on a continuous input space", "anchors": ["src/tad_dftd4/dispersion/twobody.py:dispersion2", "src/tad_dftd4/dispersion/threebody.py:get_atm_dispersion"]}
{"id": "C04", "title": "Padding does not change a system's energies", "statement": "If a system is packed into a batch with padding atoms (atomic number 0), each real atom gets exactly the energy it gets when the system is calculated alone, and each padding atom gets exactly 0.", "quantifier": "every system, every number of padding atoms, every position in every batch, D4 and D4S", "why_tests_cant": "tests pack a handful of pairs of molecules", "anchors": ["src/tad_dftd4/disp.py:dftd4", "src/tad_dftd4/dispersion/twobody.py:dispersion2", "src/tad_dftd4/dispersion/threebody.py:get_atm_dispersion", "src/tad_dftd4/model/d4.py:D4Model", "src/tad_dftd4/model/d4s.py:D4SModel"]}
{"id": "C05", "title": "Systems of a batch do not influence each other", "statement": "The energies of one system of a batch are unchanged when the other systems of the batch are replaced by arbitrary other systems of the same padded size.", "quantifier": "every batch shape (any number of batch axes), every pair of batches agreeing on one entry", "why_tests_cant": "would need all pairs of batches", "anchors": ["src/tad_dftd4/disp.py:dftd4", "src/tad_dftd4/model/d4.py:D4Model.get_atomic_c6", "src/tad_dftd4/utils.py:trapzd"]}
{"id": "C06", "title": "Valid input never raises and gives an energy per atom", "statement": "With positions of shape numbers.shape+(3,), atomic numbers covered by the reference tables and a parameter dictionary with a1, a2 (and only known numeric keys), dftd4 raises nothing and returns a tensor of exactly numbers.shape.", "quantifier": "every batch shape, system and parameter set", "why_tests_cant": "absence of an exception and shape agreement must hold for all shapes, including single atoms, empty systems, batch size equal to atom count", "anchors": ["src/tad_dftd4/disp.py:dftd4", "src/tad_dftd4/dispersion/base.py:Disp.calculate"]}
{"id": "C07", "title": "Pair matrix and atom-resolved energies agree", "statement": "dispersion2(..., as_matrix=True) is a symmetric matrix with zero diagonal, zero rows and columns for padding, and half of each row sum is the atom-resolved energy returned with as_matrix=False; half the sum of all entries is the total energy. Van der Waals radii may be omitted for damping functions that do not use them; the others raise ValueError without them.", "quantifier": "every system, symmetric C6, damping function, parameter set", "why_tests_cant": "must hold entry by entry for every system", "anchors": ["src/tad_dftd4/dispersion/twobody.py:dispersion2"]}
{"id": "C08", "title": "Two-body dispersion is attractive and grows with the cutoff", "statement": "With non-negative C6, radii, r4r2 and s6, s8 (s10), and (except for rational damping) non-negative shape parameters, every atom-resolved two-body energy is <= 0, and enlarging the two-body cutoff never increases any atom's energy.", "quantifier": "every system, parameter set and pair of cutoffs", "why_tests_cant": "inequality over a continuous domain", "anchors": ["src/tad_dftd4/dispersion/twobody.py:dispersion2", "src/tad_dftd4/damping/functions.py:RationalDamping"]}
{"id": "C09", "title": "The two-body cutoff is sharp and inclusive", "statement": "A pair whose distance exceeds the cutoff contributes exactly nothing to dispersion2; a pair at exactly the cutoff contributes in full; omitting the cutoff is the same as passing 60 Bohr.", "quantifier": "every system and cutoff", "why_tests_cant": "boundary equality is a measure-zero case that sampled tests never hit", "anchors": ["src/tad_dftd4/dispersion/twobody.py:dispersion2", "src/tad_dftd4/defaults.py:D4_DISP2_CUTOFF"]}
{"id": "C10", "title": "The three-body cutoff applies to all three sides of a triangle", "statement": "A triple of atoms contributes to the three-body energy only if all three of its pair distances are within the three-body cutoff.", "quantifier": "every system, triple and cutoff", "why_tests_cant": "only triangles with exactly one long side expose it", "anchors": ["src/tad_dftd4/dispersion/threebody.py:get_atm_dispersion"]}
{"id": "C11", "title": "Three-body angular factor is 3 cos cos cos + 1", "statement": "The weight of a triple in the three-body energy is C9*s9*fdamp*(3*cos(A)*cos(B)*cos(C)+1)/(r_ab*r_bc*r_ca)^3 with the interior angles of the triangle of the three positions.", "quantifier": "every non-degenerate triangle in any orientation", "why_tests_cant": "trigonometric identity over all triangles", "anchors": ["src/tad_dftd4/dispersion/threebody.py:get_atm_dispersion"]}
{"id": "C12", "title": "Three-body energy is shared equally by the atoms of each triple", "statement": "Within the cutoff, the three-body energies of all atoms add up to one contribution per unordered triple of distinct real atoms, each of its three atoms receiving a third; systems with fewer than three real atoms get exactly zero.", "quantifier": "every system with symmetric C9 and radii", "why_tests_cant": "counting argument for every n", "anchors": ["src/tad_dftd4/dispersion/threebody.py:get_atm_dispersion"]}
{"id": "C13", "title": "Non-interacting fragments are additive", "statement": "If two groups of atoms are farther apart than both cutoffs, each atom's two- and three-body energy equals the one computed for its own group alone (same C6/C9 coefficients).", "quantifier": "every system, every split into two groups beyond the cutoffs", "why_tests_cant": "needs all splits of all systems", "anchors": ["src/tad_dftd4/dispersion/twobody.py:dispersion2", "src/tad_dftd4/dispersion/threebody.py:get_atm_dispersion"]}
{"id": "C14", "title": "Reference weights are a partition of unity for every coordination number", "statement": "For every real atom and any coordination number, the Gaussian weights (before charge scaling) are finite, lie in [0,1], vanish on reference systems the element does not have and add up to one; when all Gaussians underflow to zero the whole weight goes to the reference with the largest coordination number. Padding atoms have only zero weights.", "quantifier": "every element of the tables, every real coordination number, every underflow behaviour of exp/pow, D4 and D4S", "why_tests_cant": "underflow happens only far from all references; no finite set of CN values covers it", "anchors": ["src/tad_dftd4/model/d4.py:D4Model.weight_references", "src/tad_dftd4/model/d4s.py:D4SModel.weight_references", "src/tad_dftd4/utils.py:is_exceptional"]}
{"id": "C15", "title": "Charge scaling is bounded, decreasing and neutral at the reference charge", "statement": "The charge scaling function is positive, at most exp(ga), equals exp(ga) for non-positive effective charge, decreases with the charge, and equals 1 (up to the eps shift) when the atom carries the reference charge.", "quantifier": "all charges, hardnesses >= 0 and reference charges > 0", "why_tests_cant": "monotonicity and bounds over a continuum, including the singular point of the formula", "anchors": ["src/tad_dftd4/model/base.py:BaseModel._zeta"]}
{"id": "C16", "title": "C6 coefficients are symmetric, non-negative and obey Cauchy-Schwarz", "statement": "get_atomic_c6(weight_references(cn, q)) is symmetric and non-negative for D4 and D4S with the default reference C6; for D4 it is positive semidefinite, so C6_ij^2 <= C6_ii*C6_jj.", "quantifier": "every system, coordination number and charge", "why_tests_cant": "definiteness quantifies over all vectors", "anchors": ["src/tad_dftd4/model/base.py:BaseModel._get_refc6", "src/tad_dftd4/model/d4.py:D4Model.get_atomic_c6", "src/tad_dftd4/model/d4s.py:D4SModel.get_atomic_c6", "src/tad_dftd4/utils.py:trapzd"]}
{"id": "C17", "title": "C6 is the Casimir-Polder integral of the weighted polarizabilities", "statement": "For D4 and D4S, integrating the weighted polarizabilities of each atom (get_weighted_pols) pairwise gives the model's own C6 (exactly for D4; for D4S with constant weighting factors), and get_polarizabilities is their zero-frequency value.", "quantifier": "every system, cn and q", "why_tests_cant": "tests compare only sums or one-sided inequalities", "anchors": ["src/tad_dftd4/model/d4.py:D4Model.get_weighted_pols", "src/tad_dftd4/model/d4s.py:D4SModel.get_weighted_pols", "src/tad_dftd4/model/base.py:BaseModel.get_polarizabilities", "src/tad_dftd4/utils.py:trapzd_noref"]}
{"id": "C18", "title": "D4S with constant weighting factors is D4", "statement": "If all pairwise weighting factors equal w, the D4S weights for every partner and the D4S C6 coefficients equal those of D4 with wf=w.", "quantifier": "every system, cn, q and w", "why_tests_cant": "one system is tested, at cn=q=0", "anchors": ["src/tad_dftd4/model/d4s.py:D4SModel", "src/tad_dftd4/model/d4s.py:D4SDebug", "src/tad_dftd4/model/d4.py:D4Model"]}
{"id": "C19", "title": "weight_references(with_dgwdq=True) returns the charge derivative", "statement": "The additional output is the derivative of the returned weights with respect to the partial charge of the atom (D4 and D4S), up to the eps shift of the denominator.", "quantifier": "every element, cn and q with positive effective charge", "why_tests_cant": "a derivative is a limit", "anchors": ["src/tad_dftd4/model/base.py:BaseModel._dzeta", "src/tad_dftd4/model/d4.py:D4Model.weight_references", "src/tad_dftd4/model/d4s.py:D4SModel.weight_references"]}
{"id": "C20", "title": "weight_references(with_dgwdcn=True) returns the CN derivative", "statement": "The additional output is the derivative of the returned weights with respect to the coordination number of the atom.", "quantifier": "every element, cn and q", "why_tests_cant": "a derivative is a limit; the repository's own test compares with a minus sign", "anchors": ["src/tad_dftd4/model/d4.py:D4Model.weight_references"]}
{"id": "C21", "title": "Casimir-Polder quadrature is the trapezoidal rule", "statement": "The integration weights of trapzd, trapzd_noref and trapzd_atm are the trapezoidal weights of the D4 frequency grid, hence positive, exact for piecewise linear integrands, and summing to the length of the integration interval; trapzd of one argument equals trapzd of it with itself.", "quantifier": "all polarizabilities, all piecewise linear integrands on the grid", "why_tests_cant": "exactness on an infinite dimensional class of integrands", "anchors": ["src/tad_dftd4/utils.py:trapzd", "src/tad_dftd4/utils.py:trapzd_noref", "src/tad_dftd4/utils.py:trapzd_atm"]}
{"id": "C22", "title": "Rational damping is finite, monotone and has the correct long-range limit", "statement": "For a critical radius > 0, rational damping of even order is positive and bounded by 1/R0^n for all distances including zero, decreases with the distance and approaches 1/R^n at long range, so the two-body energy of two atoms tends to -s6*C6/R^6.", "quantifier": "all distances, radii, a1, a2, orders", "why_tests_cant": "limits and continuum inequalities", "anchors": ["src/tad_dftd4/damping/functions.py:RationalDamping"]}
{"id": "C23", "title": "Zero damping switches off at short range and on at long range", "statement": "As documented, f = 1/(1+6*(R/R0)^-a): the damping factor increases with distance, tends to 0 for R->0 and to 1 for R->infinity, in the two-body and in the three-body term.", "quantifier": "all distances, radii, rs, alp", "why_tests_cant": "limits; tests only check dtype and shape", "anchors": ["src/tad_dftd4/damping/functions.py:ZeroDamping", "src/tad_dftd4/dispersion/twobody.py:dispersion2", "src/tad_dftd4/dispersion/threebody.py:get_atm_dispersion"]}
{"id": "C24", "title": "Optimised-power damping stays finite at short range", "statement": "Optimised-power damping uses the critical radius in its denominator (R^b/(R^b*R^n + R0^b*R0^n)), so the damped interaction is bounded as the distance goes to zero.", "quantifier": "all distances, radii, a1, a2, bet", "why_tests_cant": "a limit; tests only check dtype and shape", "anchors": ["src/tad_dftd4/damping/functions.py:OptimisedPowerDamping"]}
{"id": "C25", "title": "Modified zero damping is bounded by the undamped interaction", "statement": "For alp, rs, radii > 0 and bet >= 0, modified zero damping is positive, below 1/R^n, its damping factor increases with distance and tends to 1.", "quantifier": "all distances and parameters", "why_tests_cant": "continuum inequality and limit", "anchors": ["src/tad_dftd4/damping/functions.py:MZeroDamping"]}
{"id": "C26", "title": "Damping parameters are validated exactly", "statement": "A damping call of order n raises TypeError exactly when an unknown keyword is given or a parameter required for that order is missing/None, ValueError exactly for unsupported orders, and returns zeros exactly when the scaling parameters of that order are None.", "quantifier": "all four damping functions, all orders, all combinations of present/absent/None parameters", "why_tests_cant": "2^12 combinations times all orders and values", "anchors": ["src/tad_dftd4/damping/functions.py:Damping.__call__", "src/tad_dftd4/damping/functions.py:Damping.__init_subclass__"]}
{"id": "C27", "title": "Omitting a scaling parameter equals passing its documented default", "statement": "Leaving s6, s8, s9, s10 or alp out of the parameter dictionary gives the same energy as passing the documented default (1, 1, 1, 0, 16).", "quantifier": "every system and remaining parameters", "why_tests_cant": "equality of two functions on all inputs", "anchors": ["src/tad_dftd4/dispersion/twobody.py:dispersion2", "src/tad_dftd4/dispersion/threebody.py:ATM.calculate", "src/tad_dftd4/defaults.py", "src/tad_dftd4/damping/functions.py:Damping.__call__"]}
{"id": "C28", "title": "Energy is linear in the scaling parameters", "statement": "The dftd4 energy of every atom is s6*e6 + s8*e8 + s10*e10 + s9*e9 with e6, e8, e10, e9 independent of s6, s8, s10, s9.", "quantifier": "every system and all values of the scaling parameters", "why_tests_cant": "functional identity in the parameters", "anchors": ["src/tad_dftd4/dispersion/twobody.py:dispersion2", "src/tad_dftd4/dispersion/threebody.py:get_atm_dispersion"]}
{"id": "C29", "title": "get_params finds exactly what the parameter file holds", "statement": "get_params returns the block of (functional, method, variant), with the first default variant if none is given, without the doi unless asked for, and raises KeyError exactly if functional, method or variant is not in the file; the functional name is case-insensitive.", "quantifier": "all parameter tables, all names", "why_tests_cant": "all strings", "anchors": ["src/tad_dftd4/damping/parameters/loader.py:get_params"]}
{"id": "C30", "title": "Changing a returned parameter set does not change later ones", "statement": "Whatever a caller does to dictionaries returned by get_params, later get_params calls return the values of the parameter file, and the file is read once per method.", "quantifier": "every history of get_params calls and of mutations of their results", "why_tests_cant": "histories of unbounded length", "anchors": ["src/tad_dftd4/damping/parameters/loader.py:_load", "src/tad_dftd4/damping/parameters/loader.py:get_params"]}
{"id": "C31", "title": "Parameter sets from get_params can be used for a calculation", "statement": "Every parameter set get_params(method='d4') returns is accepted by dftd4 (no unknown key, all required damping parameters present), and every d3 zero-damping set by the D3 zero-damping method.", "quantifier": "all functionals and variants of the shipped files", "why_tests_cant": "tests load three functionals and never calculate with them", "anchors": ["src/tad_dftd4/damping/parameters/loader.py:get_params", "src/tad_dftd4/damping/parameters/d4.toml", "src/tad_dftd4/damping/parameters/d3.toml", "src/tad_dftd4/damping/functions.py:Damping.__call__"]}
{"id": "C32", "title": "Inconsistent shapes are rejected before anything is calculated", "statement": "Disp.calculate raises ValueError exactly if the shape of positions, rcov, r4r2, rvdw (leading axes) or q disagrees with numbers, and RuntimeError if q is given although no term uses charges; otherwise the result is the sum of the term energies. The number of coordinates per atom is not tested: fewer than three coordinates give the outcome of positions completed by zeros, if the coordination number and charge functions do. Neither is the shape of the coordination numbers: one value per atom without batch axes is used for every system of a batch. A single value for all atoms is used by the D4 model, whereas D4S raises an exception.", "quantifier": "all shapes, all lists of terms", "why_tests_cant": "all shape combinations", "anchors": ["src/tad_dftd4/dispersion/base.py:Disp.calculate"]}
{"id": "C33", "title": "Charges enter only the charge-dependent terms", "statement": "If q is given, the total charge has no effect; passing q equal to the computed EEQ charges changes nothing; in dftd4 the three-body energy does not depend on q or charge; a DispD3-like calculation without charge-dependent terms never evaluates EEQ.", "quantifier": "all systems, charges, q", "why_tests_cant": "non-interference over all inputs", "anchors": ["src/tad_dftd4/disp.py:dftd4", "src/tad_dftd4/dispersion/base.py:Disp.calculate", "src/tad_dftd4/dispersion/threebody.py:C9ApproxMixin.get_c9"]}
{"id": "C34", "title": "Registering and deregistering terms behaves like a multiset of terms", "statement": "The energy of a Disp object depends only on the multiset of registered terms (not on the order); deregistering a term equal to a registered one removes exactly one occurrence, undoing one registration; deregistering an unregistered term raises ValueError and changes nothing; objects never share terms.", "quantifier": "every history of register/deregister calls on any number of objects", "why_tests_cant": "histories of unbounded length", "anchors": ["src/tad_dftd4/dispersion/base.py:Disp.register", "src/tad_dftd4/dispersion/base.py:Disp.deregister", "src/tad_dftd4/dispersion/base.py:DispTerm.__eq__", "src/tad_dftd4/damping/functions.py:Damping.__eq__"]}
{"id": "C35", "title": "Model selection accepts exactly the allowed models", "statement": "A Disp class accepts a model key iff it is (case-insensitively) one of its allowed models; DispD4 allows d4/d4s only and DispD3 d3 only; every accepted key yields a model that can be evaluated; a model instance is used as is.", "quantifier": "all strings, all Disp classes", "why_tests_cant": "all strings", "anchors": ["src/tad_dftd4/dispersion/base.py:Disp.__init__", "src/tad_dftd4/dispersion/base.py:Disp.get_model", "src/tad_dftd4/dispersion/d4.py:_DispD4", "src/tad_dftd4/dispersion/d3.py:_DispD3"]}
{"id": "C36", "title": "Every cutoff of the Cutoff object is honoured", "statement": "Each of disp2, disp3, cn and cn_eeq limits the range of its interaction; in particular the coordination number ignores atoms beyond cutoff.cn.", "quantifier": "all systems and cutoffs", "why_tests_cant": "non-interference over all inputs", "anchors": ["src/tad_dftd4/cutoff.py:Cutoff", "src/tad_dftd4/dispersion/base.py:Disp.calculate", "src/tad_dftd4/disp.py:get_properties"]}
{"id": "C37", "title": "get_properties is consistent with dftd4", "statement": "The CN, charges and C6 returned by get_properties are those dftd4 uses for its two-body term with default settings; its polarizabilities are non-negative and zero for padding.", "quantifier": "every system and charge", "why_tests_cant": "agreement of two code paths on all inputs", "anchors": ["src/tad_dftd4/disp.py:get_properties", "src/tad_dftd4/disp.py:dftd4"]}
{"id": "C38", "title": "Reference tables are consistent", "statement": "For every element 1..103: between one and seven references, each with one or three Gaussians, reference system indices inside the secondary tables, equal masks in all tables, a unique largest reference CN carried by an existing reference, non-negative polarizabilities that vanish for missing references; the pairwise weighting factors are symmetric and positive; r4r2 is positive.", "quantifier": "all elements, all references, all element pairs", "why_tests_cant": "tests check only table shapes", "anchors": ["src/tad_dftd4/reference/d4/params.py", "src/tad_dftd4/data/wfpair.py:WFPAIR", "src/tad_dftd4/data/r4r2.py:R4R2", "src/tad_dftd4/reference/d4/charge_eeq.py", "src/tad_dftd4/reference/d4/charge_gfn2.py"]}
{"id": "C39", "title": "D4S helper outputs have the documented batch shapes", "statement": "For D4S, get_weighted_pols returns shape (..., nat, 23), get_polarizabilities shape (..., nat), and D4SDebug works for batches, for every batch shape.", "quantifier": "all batch shapes and atom counts", "why_tests_cant": "all shapes; broadcasting accidentally works when batch size equals atom count", "anchors": ["src/tad_dftd4/model/d4s.py:D4SModel.get_weighted_pols", "src/tad_dftd4/model/d4s.py:D4SDebug._get_wf", "src/tad_dftd4/model/base.py:BaseModel.get_polarizabilities"]}
{"id": "C40", "title": "Damping objects carry no state into the energy", "statement": "Damping instances shared between terms and calculations do not influence results: after any history of calls, an energy depends only on the arguments of the current call; the only state, doi, is that of the last call.", "quantifier": "every history of damping calls", "why_tests_cant": "histories of unbounded length", "anchors": ["src/tad_dftd4/damping/functions.py:Damping.__call__", "src/tad_dftd4/disp.py:dftd4"]}
{"id": "C41", "title": "C9 coefficients are symmetric and non-negative", "statement": "Both the approximate and the exact C9 coefficients are non-negative and invariant under all permutations of the three atoms.", "quantifier": "every system, cn and q, D4 and D4S (exact C9 of D4S: every batch in which the weighted polarizabilities have the documented shape, see C39)", "why_tests_cant": "all index triples of all systems", "anchors": ["src/tad_dftd4/dispersion/threebody.py:C9ApproxMixin.get_c9", "src/tad_dftd4/dispersion/threebody.py:C9ExactMixin.get_c9", "src/tad_dftd4/utils.py:trapzd_atm"]}
{"id": "C42", "title": "Forces exist, balance, and vanish on padding", "statement": "At every geometry where no two atoms coincide and no distance equals a cutoff, the total energy of a system is as often differentiable in the positions as the coordination numbers and charges are; the forces on all atoms add up to zero, exert no net torque, and are zero on padding atoms.", "quantifier": "every batch shape, system, generic geometry, parameter set, D4 and D4S", "why_tests_cant": "a statement about derivatives at a continuum of geometries; gradient checks sample single points", "anchors": ["src/tad_dftd4/disp.py:dftd4", "src/tad_dftd4/dispersion/twobody.py:dispersion2", "src/tad_dftd4/dispersion/threebody.py", "src/tad_dftd4/model/base.py:_zeta", "examples/forces.py"]}
{"id": "C43", "title": "The result has the precision of the positions", "statement": "dftd4 and get_properties return tensors of the dtype of the positions and never fail for a dtype mismatch, whatever PyTorch's default dtype and whatever mixture of Python numbers and zero-dimensional tensors of any dtype the parameters are.", "quantifier": "every default dtype, dtype of positions, damping function, model, dtypes of parameters", "why_tests_cant": "all combinations of dtypes of eleven optional parameters", "anchors": ["src/tad_dftd4/disp.py:dftd4", "src/tad_dftd4/disp.py:get_properties", "src/tad_dftd4/dispersion/base.py:Disp.calculate", "src/tad_dftd4/model/base.py", "src/tad_dftd4/damping/functions.py"]}
{"id": "C44", "title": "A Disp object works with positions of any precision", "statement": "A Disp object, which has a dtype of its own (PyTorch's default if not given), can be used with positions of any floating dtype and returns energies in their dtype.", "quantifier": "every dtype of object, positions and parameters", "why_tests_cant": "all combinations of dtypes", "anchors": ["src/tad_dftd4/dispersion/base.py:Disp.__init__", "src/tad_dftd4/dispersion/base.py:Disp.calculate", "src/tad_dftd4/model/d4.py:D4Model.get_atomic_c6"]}
{"id": "C45", "title": "Dispersion never collapses", "statement": "With rational damping (a1 >= 0, a2 > 0) and alp >= 9, the energy of every atom is bounded by n K2 + n^2 K3 with constants that depend only on tables, model settings and damping parameters, not on positions (atoms may coincide), elements, coordination numbers or charges; the C6 coefficients have such a bound as well.", "quantifier": "every system, geometry, coordination number and charge function, number of atoms; D4 and D4S", "why_tests_cant": "a uniform bound over a non-compact set of geometries", "anchors": ["src/tad_dftd4/disp.py:dftd4", "src/tad_dftd4/damping/functions.py:RationalDamping", "src/tad_dftd4/dispersion/threebody.py:get_atm_dispersion", "src/tad_dftd4/model/base.py:_zeta"]}
{"id": "C46", "title": "dftd4 and DispD4 agree", "statement": "DispD4(model).calculate(...) and dftd4(..., model=model) return the same energies or raise the same exception; with s9 = 0 an object gives the energies of its two-body terms alone.", "quantifier": "every D4/D4S model key or object, all arguments including invalid ones", "why_tests_cant": "all inputs, including all ways to fail", "anchors": ["src/tad_dftd4/disp.py:dftd4", "src/tad_dftd4/dispersion/d4.py:DispD4", "src/tad_dftd4/dispersion/base.py:Disp"]}
{"id": "C47", "title": "Model objects and the system they were built for", "statement": "A model object passed instead of a key gives the energies of the system it is applied to: an object built for the numbers of the system is equivalent to its key, and an object built for other atoms is rejected.", "quantifier": "every system, model object, and arguments", "why_tests_cant": "objects that fit in shape but not in content are not rejected, so tests with own objects pass", "anchors": ["src/tad_dftd4/disp.py:dftd4", "src/tad_dftd4/dispersion/base.py:Disp.calculate", "src/tad_dftd4/model/base.py:BaseModel.__init__"]}
{"id": "C48", "title": "Forces from automatic differentiation", "statement": "Back-propagation through dftd4 gives, in positions.grad, minus the forces (the derivative of the total energy) and never NaN where the energy is a number.", "quantifier": "every system and geometry, every coordinate; D4 and D4S, every parameter set", "why_tests_cant": "NaN arises in branches torch.where discards, at geometries or coordination numbers tests do not contain; gradcheck compares at sample points", "anchors": ["src/tad_dftd4/disp.py:dftd4", "src/tad_dftd4/model/d4.py:D4Model.weight_references", "src/tad_dftd4/model/d4s.py:D4SModel.weight_references", "src/tad_dftd4/model/base.py:_zeta", "src/tad_dftd4/dispersion/twobody.py", "src/tad_dftd4/dispersion/threebody.py", "src/tad_dftd4/damping/functions.py"]}
{"id": "C49", "title": "Model keywords take effect", "statement": "Every documented keyword in `model_kwargs` (ga, gc, wf, ref_charges) given to a dispersion object with model key 'd4' or 'd4s' takes effect: the energies are those of the method with exactly these settings and the documented defaults for what is left out. Spelling out a default changes nothing. Keywords are without effect if a model object is given. An unknown keyword raises TypeError and unknown reference charges raise ValueError, though only at the first calculation, not when the object is created. (False in two documented cases: a number as wf raises in every D4S calculation, and 'gfn2' raises IndexError for elements beyond radon.)", "quantifier": "all systems, classes, keys, keyword values, parameters", "why_tests_cant": "the keywords pass through dictionaries and a constructor chosen at run time; a test with one value of one keyword does not show that the other values, keywords and model kinds are used or rejected", "anchors": ["src/tad_dftd4/dispersion/base.py:140-175", "src/tad_dftd4/dispersion/base.py:221-259", "src/tad_dftd4/model/base.py:107-151", "src/tad_dftd4/model/d4s.py:197"]}
{"id": "C50", "title": "Calculations run on the device of their inputs", "statement": "If numbers, positions and the other tensors of a calculation are on one device, and parameters are Python numbers, CPU tensors without dimensions or tensors on that device, then dftd4, get_properties, dispersion objects and models raise no device mismatch and their results are on that device, whatever PyTorch's default device and the device of the total charge. (False for objects created for another device, e.g. without the device argument, and for missing three-body parameters if the default device is neither the CPU nor that of the inputs.)", "quantifier": "every device, damping function, model, list of terms, devices of parameters, cutoffs and charge", "why_tests_cant": "the tests run on the CPU, where every device bug is invisible; several GPUs and default devices multiply the cases", "anchors": ["src/tad_dftd4/disp.py:dftd4", "src/tad_dftd4/disp.py:get_properties", "src/tad_dftd4/dispersion/base.py:Disp.calculate", "src/tad_dftd4/dispersion/threebody.py:244-270", "src/tad_dftd4/model/base.py", "src/tad_dftd4/model/d4.py", "src/tad_dftd4/model/d4s.py"]}
{"id": "C51", "title": "Gradients with respect to damping parameters", "statement": "If damping parameters (s6, s8, s10, s9, a1, a2, alp) are tensors that require gradients, back-propagation through dftd4 gives the derivatives of the returned energies with respect to them; the energies are arbitrarily often differentiable in all parameters together.", "quantifier": "every system, batch, geometry (also coinciding atoms), parameter, atom, incoming gradient; every parameter set with a1, a2 not negative and not both zero; D4 and D4S", "why_tests_cant": "gradcheck compares with finite differences for a few molecules and one parameter set", "anchors": ["src/tad_dftd4/disp.py:dftd4", "src/tad_dftd4/dispersion/twobody.py", "src/tad_dftd4/dispersion/threebody.py", "src/tad_dftd4/damping/functions.py"]}
{"id": "C52", "title": "Cutoffs do not matter beyond the size of the system and little below", "statement": "If all atoms of a system are within the two- and three-body cutoffs, the values of these cutoffs have no effect. In general, two calculations whose cutoffs are at least c2 and c3 differ, for every atom, by at most n*(K6/c2^6 + K8/c2^8 + K10/c2^10) + n^2*K9/(c3^2*d)^3, where d is the smallest distance of two atoms and the constants depend on tables, model settings and damping parameters only.", "quantifier": "every system, batch, geometry, elements, coordination numbers, charges, pair of Cutoff objects", "why_tests_cant": "a bound over all geometries and cutoffs; tests compare single molecules that are smaller than the default cutoffs", "anchors": ["src/tad_dftd4/disp.py:dftd4", "src/tad_dftd4/dispersion/twobody.py:dispersion2", "src/tad_dftd4/dispersion/threebody.py:get_atm_dispersion", "src/tad_dftd4/cutoff.py:Cutoff"]}
{"id": "C53", "title": "only_damping returns the bare damping factor", "statement": "With only_damping=True a damping function returns the factor which the default call divides by the distance to the power of the order, and three-body terms, which call their damping function this way, work with every damping function. (True of zero damping only: the other classes ignore the flag, and three-body terms with them raise AssertionError for every input and parameter set.)", "quantifier": "every damping class, order, keyword values, distances, radii; every Disp object with a three-body term", "why_tests_cant": "the flag and the damping_fn argument are accepted silently by all classes; the tests use the flag with zero damping only", "anchors": ["src/tad_dftd4/damping/functions.py:Damping._f", "src/tad_dftd4/dispersion/threebody.py:get_atm_dispersion", "src/tad_dftd4/dispersion/threebody.py:ThreeBodyTerm"]}
{"id": "C54", "title": "User-defined damping classes are validated", "statement": "A class derived from Damping (or from another damping class) is rejected when it is created exactly if its REQUIRED_BY_ORDER, own or inherited, names something that is not a parameter of its _f, own or inherited. Classes without a concrete _f cannot be instantiated. A call raises TypeError exactly if a keyword the class requires for that order is None, and otherwise runs _f. The classes of the package are instances of this. (The third part is false for a class that inherits _f and changes REQUIRED_BY_ORDER: the requirements of all bases since the definition of _f are enforced too.)", "quantifier": "every hierarchy of class statements (single inheritance), every _f and REQUIRED_BY_ORDER, every call", "why_tests_cant": "the check is code that runs at class creation and wraps methods; tests can only define a few classes", "anchors": ["src/tad_dftd4/damping/functions.py:Damping.__init_subclass__", "src/tad_dftd4/damping/functions.py:Damping.__call__"]}
{"id": "C55", "title": "Hessians obey the symmetries of the energy", "statement": "At geometries where no distance equals a cutoff and no switching point is hit, the total energy has second derivatives in the positions. The Hessian is symmetric, each row adds up to zero over the atoms for each direction (translations), its first moments equal force components (rotations), so that overall rotations of a structure without forces have no curvature, and rows and columns of padding atoms are zero.", "quantifier": "every system, batch, padding, D4 model settings, damping parameters, generic geometry; every invariant smooth coordination number and charge model", "why_tests_cant": "tests compare a few Hessians with finite differences at one tolerance; the sum rules hold for all geometries", "anchors": ["src/tad_dftd4/disp.py:dftd4", "src/tad_dftd4/dispersion/twobody.py", "src/tad_dftd4/dispersion/threebody.py"]}
{"id": "C56", "title": "Reference weights are accurate despite rounding and underflow", "statement": "weight_references calculates its Gaussians in double precision. For every coordination number that is not negative the normalised weights are finite and differ from the exact normalised Gaussians by at most 50*2^-53 if the coordination number is at most 10, and (D4) by at most 3e-10 beyond, where all Gaussians underflow and the fallback of the code takes over; the C6 coefficients inherit this error. With the exponent range of single precision the weights would be wrong.", "quantifier": "every system, batch, element, non-negative coordination number, charge; every correct rounding of exponentials and powers to double precision, including underflow", "why_tests_cant": "tests check a few coordination numbers; the fallback depends on the spacing of the reference coordination numbers of every element and on the exponent range of the number format", "anchors": ["src/tad_dftd4/model/d4.py:weight_references", "src/tad_dftd4/model/d4s.py:weight_references", "src/tad_dftd4/reference/d4/params.py"]}
{"id": "C57", "title": "Rounding errors of energies are small", "statement": "If every floating point operation of dispersion2 (rational damping) and get_atm_dispersion has a relative error of at most u, sums being evaluated in any order, then the computed energy of each atom differs from the exact one by at most 2*K*u*(|E2| + A3), where A3 is the sum of the absolute values of the terms of the three-body energy and K is a number of roundings (21 kd + 2 kc + 14 kQ + q(3kQ+3kd+20) + L + n^2 + 56 for kd, kc, kQ roundings of distances, C6 coefficients and r4r2); without three-body term this is a relative error. No distance may be within rounding of a cutoff. Distances calculated by quadratic expansion meet the assumption with kd - 1 >= 10 (|x|+|y|)^2/d^2; far from the origin they can be lost completely.", "quantifier": "every system, batch, geometry clear of the cutoffs, non-negative damping parameters, unit roundoff, outcome of every rounding, order of summation", "why_tests_cant": "tests compare single results with a tolerance; the bound holds for every outcome of every rounding and shows which sums cancel and which do not", "anchors": ["src/tad_dftd4/dispersion/twobody.py:dispersion2", "src/tad_dftd4/dispersion/threebody.py:get_atm_dispersion", "src/tad_dftd4/damping/functions.py:RationalDamping", "src/tad_dftd4/damping/functions.py:ZeroDamping"]}
{"id": "C58", "title": "Validated parameter sets are equivalent", "statement": "The parameter class registered for a variant (PARAM_MODELS) accepts the sets returned by get_params for that variant, and model_dump() of the validated set used as damping parameters gives the same energies as the set itself. (Accepted are exactly the sets of functionals for the default variants bj-eeq-atm and bj; the other variants of the parameter files have no class or lack required fields, as do the default blocks. Energies are the same only if s9 = 1 and alp = 16: the class has no such fields and discards them silently, which halves the three-body energy of r2SCAN-3c.)", "quantifier": "every reachable state of the parameter cache, every request to get_params, every system, batch, model and cutoff", "why_tests_cant": "the classes are not used by the package itself and the tests do not look at energies with validated sets; every set of two parameter files is concerned", "anchors": ["src/tad_dftd4/damping/parameters/base.py:RationalParams", "src/tad_dftd4/damping/parameters/base.py:PARAM_MODELS", "src/tad_dftd4/damping/parameters/loader.py:get_params", "src/tad_dftd4/damping/parameters/d4.toml"]}
{"id": "C59", "title": "Damping acts at short range only", "statement": "For damping parameters that are not negative, if all distances are at least L >= 1 critical radii a1*sqrt(3*r4r2_i*r4r2_j)+a2, the energy of each atom differs from the undamped one (London and Axilrod-Teller-Muto) by at most L^-6 times the undamped two-body energy plus 6*L^-alp times the sum of the absolute undamped three-body terms. Damping never makes the two-body energy more attractive than the undamped one. For two atoms at a distance r within the cutoff, E*r^6 differs from -s6*C6 by at most C6*(s6*(R0/r)^6 + s8*3*Q_i*Q_j/r^2 + s10*49/40*(3*Q_i*Q_j)^2/r^4): with s6 = 1 the correct long-range limit.", "quantifier": "every system, batch, padding, model settings, parameters that are not negative, geometry, L", "why_tests_cant": "tests compare energies at a few distances; the limit and its rate concern all distances and elements", "anchors": ["src/tad_dftd4/dispersion/twobody.py:dispersion2", "src/tad_dftd4/dispersion/threebody.py:get_atm_dispersion", "src/tad_dftd4/damping/functions.py:RationalDamping", "src/tad_dftd4/damping/functions.py:ZeroDamping"]}
{"id": "C60", "title": "Energy increases with atomic charges, and its charge gradient is exact", "statement": "If charges passed to dftd4 are raised on some atoms and lowered on none, no atomic energy becomes more negative, and the energy of an atom that becomes more positive and has a partner within the cutoff becomes strictly less negative. charges.grad after energy.sum().backward() is the derivative of the total energy with respect to the charges, a number that is not negative, and zero for padding atoms, also when Gaussian weights underflow. (This fails if an effective charge q + zeff is between 0 and eps, and if it is zero or slightly negative, as for a hydride ion: then the exponential in the branch of _zeta that torch.where does not select overflows and the gradient is NaN.)", "quantifier": "every system, batch, padding, model settings, parameters that are not negative, charges", "why_tests_cant": "tests compare gradients by finite differences for a few molecules with moderate charges; sign and existence concern all charges and elements", "anchors": ["src/tad_dftd4/model/base.py:_zeta", "src/tad_dftd4/model/d4.py:weight_references", "src/tad_dftd4/model/d4s.py:weight_references", "src/tad_dftd4/disp.py:dftd4"]}
{"id": "C61", "title": "Hessians from automatic differentiation are exact", "statement": "If the total energy of dftd4 is differentiated twice with respect to positions by automatic differentiation (gradient with create_graph=True, then backward), the entries are the second derivatives of the total energy wherever distances are clear of cutoffs and clamps, no Gaussian weight underflows and coordination numbers and charges are twice continuously differentiable. The matrix is then symmetric, its rows sum to zero over all atoms for each direction, and rows and columns of padding atoms vanish. The entries are numbers (neither NaN nor infinite) at any geometry, coinciding atoms included, unless all Gaussians of an atom underflow or the exponential in _zeta overflows.", "quantifier": "every system, batch, padding, settings of D4 and D4S (for finiteness D4 with weighting exponents 1 or at least 2), damping parameters, geometry, pair of coordinates", "why_tests_cant": "tests compare Hessians of a few molecules with stored ones to a tolerance; double backward passes through torch.where, clamp, sqrt and pow may be wrong or NaN at special points", "anchors": ["test/test_grad/test_hessian.py", "src/tad_dftd4/model/d4.py:weight_references", "src/tad_dftd4/model/base.py:_zeta", "src/tad_dftd4/dispersion/twobody.py:dispersion2", "src/tad_dftd4/dispersion/threebody.py:get_atm_dispersion"]}
{"id": "C62", "title": "Energies of the other dispersion classes", "statement": "DispD4Exact gives the two-body energy of DispD4 plus three-body energies with C9 = 3/pi times the integral over the product of three polarizabilities of uncharged atoms in their coordination environment (instead of the geometric mean of C6 coefficients), with BJ radii. DispD3BJ gives two-body and three-body energies with C6 coefficients of uncharged atoms and three-body damping radii rs9 times the van der Waals radii; DispD3Zero in addition damps pairs with 1/(1+6(rs6*r/r_vdw)^alp) (as computed, see C23) and alp+2 for r^-8.", "quantifier": "every system, batch, padding, order of terms, parameters, model settings", "why_tests_cant": "no reference values for these classes exist in other programs; which coefficients and radii are combined follows from the interplay of mixins and class attributes", "anchors": ["src/tad_dftd4/dispersion/d4.py:DispD4Exact", "src/tad_dftd4/dispersion/d3.py:DispD3BJ", "src/tad_dftd4/dispersion/d3.py:DispD3Zero", "src/tad_dftd4/dispersion/threebody.py", "src/tad_dftd4/dispersion/base.py:Disp"]}
{"id": "C63", "title": "Energies computed from coordinates in floating point are accurate", "statement": "If every floating point operation has a relative error of at most u (no underflow), that of double precision in the normalised Gaussians (which are always computed in double precision), the C6 coefficients computed from coordination numbers, charges and reference C6 coefficients that are accurate to kn, kq, kr roundings have a relative error of at most 2*Kc*u, with Kc an explicit number growing linearly with kn, kq, kr and with the squared distance of the coordination number from those of the references, and the energies computed from coordinates with these coefficients and with computed distances differ from the exact ones by at most 2*K*u*(|E2| + A3), K as in the rounding bound for energies. The effective charge q + zeff must be positive and not much smaller than |q| + zeff, the atoms must not be far from the origin, and no distance within rounding of a cutoff. The reference C6 coefficients that are computed from the tables are accurate to an explicit number kr of roundings, which is proportional to the cancellation d = max (a + b)/|a - b| between the polarizabilities a of a reference and b of its secondary systems, so the bounds hold for calculations that begin with the tables.", "quantifier": "every pair of atoms, system, batch, geometry, settings of D4 and D4S, damping parameters that are not negative, unit roundoff (of single or double precision, say), outcome of every rounding, order of summation", "why_tests_cant": "tests compare energies in single and double precision for a few molecules; the bound holds for every outcome of every rounding", "anchors": ["src/tad_dftd4/model/d4.py:weight_references", "src/tad_dftd4/model/d4s.py:weight_references", "src/tad_dftd4/model/base.py:_zeta", "src/tad_dftd4/model/d4.py:get_atomic_c6", "src/tad_dftd4/dispersion/twobody.py:dispersion2", "src/tad_dftd4/dispersion/threebody.py:get_atm_dispersion"]}
{"id": "C64", "title": "Response of the energy to damping parameters", "statement": "Raising s6, s8 or s10 lowers the energy of every atom or leaves it unchanged, whatever the signs of the parameters (r4r2 not negative), and raising s6 lowers it strictly for atoms with a partner within the cutoff. Without three-body term (s9 = 0) and for parameters that are not negative, raising a1 or a2 raises the energy of every atom, strictly for atoms with a partner within the cutoff if s6 > 0. Accordingly the gradients that automatic differentiation gives with respect to s6, s8 and s10 are never positive, and those with respect to a1 and a2 never negative (a1, a2 >= 0, not both zero): gradient descent on damping parameters moves in the right direction.", "quantifier": "every system, batch, padding, model settings, geometry, pair of parameter sets", "why_tests_cant": "tests compare gradients with respect to parameters with finite differences for a few molecules; the sign concerns all of them", "anchors": ["src/tad_dftd4/dispersion/twobody.py:dispersion2", "src/tad_dftd4/damping/functions.py:RationalDamping", "src/tad_dftd4/disp.py:dftd4", "test/test_grad/test_param.py"]}
{"id": "C65", "title": "Forces turn with the molecule, follow its labels and do not depend on padding and batch", "statement": "Rotating, reflecting and shifting all positions of a system rotates and reflects its forces (the negative derivatives of its total energy); relabelling its atoms relabels them; padding atoms do not change the forces on real atoms; and back-propagating the sum of the energies of all systems of a batch gives each system its own forces.", "quantifier": "every system, batch, padding, rigid motion, permutation, geometry (no differentiability needed: both sides exist or neither does)", "why_tests_cant": "tests compare gradients of a few molecules with numerical ones and stored ones; symmetry of the gradient for every motion and batch composition is not sampled", "anchors": ["src/tad_dftd4/disp.py:dftd4", "src/tad_dftd4/dispersion/twobody.py:dispersion2", "src/tad_dftd4/dispersion/threebody.py:get_atm_dispersion", "test/test_grad/test_pos.py"]}
{"id": "C66", "title": "Pulling atoms apart never strengthens two-body dispersion", "statement": "With rational damping, given C6 coefficients that are not negative and s6, s8, s10 that are not negative, an atom is at most as strongly bound (dispersion2) in a geometry in which no distance is smaller, for every cutoff; it is strictly less bound if a distance to a partner within the cutoff has grown and s6 and the C6 coefficient are positive. There is no artificial repulsion at short distances.", "quantifier": "every pair of geometries, system, batch, padding, cutoff, a1, a2 (of any sign)", "why_tests_cant": "tests evaluate single geometries; monotonicity concerns all pairs of geometries, including distances that cross the cutoff", "anchors": ["src/tad_dftd4/dispersion/twobody.py:dispersion2", "src/tad_dftd4/damping/functions.py:RationalDamping"]}
{"id": "C67", "title": "Sign and size of the three-body energy", "statement": "For s9, C9 coefficients and critical radii that are not negative, the three-body energy of an atom is at least -2 and at most 11/8 times the sum of s9*C9/(r_ab*r_bc*r_ca)^3 over its triples (each with weight 1/6 per ordered triple); it is not negative if no triangle of atoms has an obtuse angle, and not positive if all atoms are on a line. In dftd4, raising s9 accordingly raises the energies of every atom in the first case and lowers them in the second.", "quantifier": "every system, batch, padding, geometry with separated atoms, cutoff, alp", "why_tests_cant": "tests compare energies of a few molecules with stored values; the sign follows from geometry for all of them", "anchors": ["src/tad_dftd4/dispersion/threebody.py:get_atm_dispersion", "src/tad_dftd4/disp.py:dftd4"]}
{"id": "C68", "title": "Atomic numbers without data are rejected", "statement": "If a system contains an atomic number above 103 (the last element with reference data), dftd4 and calculate of every dispersion object whose model is given by name raise IndexError instead of returning an energy, no model object can be constructed, and get_properties returns nothing. Of calls that are correct otherwise, exactly those with atomic numbers up to 103 (0 is padding) are accepted. Negative numbers are the subject of C94.", "quantifier": "all atomic numbers that are not negative, shapes, positions, parameters, options, external functions, model settings", "why_tests_cant": "tests use molecules of covered elements; that no combination of options lets an element without data through is a statement about all calls (tables have different lengths)", "anchors": ["src/tad_dftd4/model/base.py:BaseModel.__init__", "src/tad_dftd4/model/base.py:_get_alpha", "src/tad_dftd4/dispersion/base.py:calculate", "src/tad_dftd4/disp.py:dftd4", "src/tad_dftd4/disp.py:get_properties"]}
{"id": "C69", "title": "Symmetries and forces with the coordination numbers and charges of D4", "statement": "With the default external functions as published (coordination numbers from an error function of the distance, EEQ charges from the electronegativity equilibration equations; any parameters of these models), energies follow the labels of the atoms, do not change under rotations, reflections and translations and do not depend on padding and batch. With given charges, fragments beyond all cutoffs (that of the coordination number included) do not affect each other. At geometries without atoms on top of each other or at a cutoff, and where the charge equations have exactly one solution, the energy is smooth, forces add up to zero and exert no torque, padding feels none, and the Hessian is symmetric with rows that add up to zero. The equations have exactly one solution if hardnesses and radii are positive and atoms are distinct; the charges then add up to the total charge.", "quantifier": "every system, batch, padding, rigid motion, permutation, geometry, parameters of the coordination number and of EEQ", "why_tests_cant": "tests compare a few molecules with stored values; what holds for dftd4 given any coordination number and charges is a statement about the actual ones only if these have the properties assumed of them", "anchors": ["src/tad_dftd4/disp.py:dftd4", "src/tad_dftd4/dispersion/base.py:calculate", "src/tad_dftd4/dispersion/d4.py:DispD4"]}
{"id": "C70", "title": "Forces of every dispersion class", "statement": "For calculate of DispD4, DispD4Exact, DispD3BJ, DispD3Zero or any object with registered terms (all damping functions, approximate and exact three-body terms): the total energy of a system is as often differentiable as coordination numbers and charges are, at geometries without atoms on top of each other or at a cutoff of a term (and with radii and scaling parameters that keep the damping function away from its singularities); forces then add up to zero and exert no torque. Forces vanish on padding, turn with the molecule, follow the labels of its atoms, do not depend on padding, and are not mixed by back-propagating a whole batch.", "quantifier": "every list of terms, damping function, system, batch, padding, rigid motion, permutation, geometry", "why_tests_cant": "tests check gradients of the default class for a few molecules; other classes and combinations of terms can be formed at will by registering them", "anchors": ["src/tad_dftd4/dispersion/base.py:calculate", "src/tad_dftd4/dispersion/base.py:register", "src/tad_dftd4/dispersion/d3.py:DispD3BJ", "src/tad_dftd4/dispersion/d4.py:DispD4Exact", "src/tad_dftd4/damping/functions.py:MZeroDamping", "src/tad_dftd4/damping/functions.py:OptimisedPowerDamping"]}
{"id": "C71", "title": "Gradients of dispersion2 for every damping function", "statement": "For rational, zero, modified zero and optimised power damping, back-propagating an atomic energy returned by dispersion2 yields its derivative: with respect to positions and C6 coefficients (and whatever they are computed from), and with respect to every damping parameter. The gradient is a number for every padding, although masked pairs go through the damping function with the distance eps.", "quantifier": "every damping function, parameter, system, batch, padding, geometry (atoms apart, not at the cutoff), cutoff, incoming gradient", "why_tests_cant": "masked pairs have harmless energies, but their gradients are products of zero and derivatives that may be infinite; which padding, parameter and precision is affected depends on the graph, and gradient tests use single molecules and the default damping in double precision", "anchors": ["src/tad_dftd4/dispersion/twobody.py:dispersion2", "src/tad_dftd4/damping/functions.py:RationalDamping", "src/tad_dftd4/damping/functions.py:ZeroDamping", "src/tad_dftd4/damping/functions.py:MZeroDamping", "src/tad_dftd4/damping/functions.py:OptimisedPowerDamping"]}
{"id": "C72", "title": "Automatic differentiation gives the forces of every dispersion class", "statement": "For calculate of DispD4, DispD4Exact, DispD3BJ, DispD3Zero or any object with registered terms: at geometries without atoms on top of each other or at a cutoff of a term, and as long as nothing underflows, back-propagating the sum of the energies of a system yields minus the forces, that is the derivatives of the total energy, through positions, coordination numbers, charges, weights, C6 coefficients, polarizabilities integrated over frequencies and all damping functions, and whatever the padding is. At any other geometry (atoms on top of each other or at a cutoff) the gradient is at least a number, and the graph has the values of the energies, provided that charges are not at the singularity of the charge scaling, its inner exponential does not overflow, critical radii are positive (or zero with an exponent of at least three) and powers of the smallest distance do not underflow. If all Gaussian weights of an atom underflow, the gradient is NaN for every class although energies are numbers.", "quantifier": "every list of terms, damping function, parameters, model settings, system, batch, padding, geometry (generic for the value, any for finiteness), atom and axis", "why_tests_cant": "tests of gradients use the default class and a few molecules; which branches of masked expressions contribute depends on padding, radii and parameters, and other classes and combinations of terms can be formed at will", "anchors": ["src/tad_dftd4/dispersion/base.py:calculate", "src/tad_dftd4/dispersion/twobody.py", "src/tad_dftd4/dispersion/threebody.py", "src/tad_dftd4/dispersion/d3.py", "src/tad_dftd4/dispersion/d4.py", "src/tad_dftd4/damping/functions.py", "src/tad_dftd4/model/d4.py:get_weighted_pols", "src/tad_dftd4/utils.py:trapzd_atm", "test/test_grad/test_pos.py"]}
{"id": "C73", "title": "Gradients with respect to damping parameters for every dispersion class", "statement": "For calculate of DispD4, DispD4Exact, DispD3BJ, DispD3Zero or any object with registered terms: after param[m] = v for any key m of the parameter dictionary, the energy of every atom is differentiable in v and back-propagation yields its derivative, also for weighted sums of energies over atoms and systems of a batch (losses of a fit). This holds wherever the atoms are and whichever Gaussian weights underflow, provided the critical radii of the damping functions, also those of masked pairs, are positive (or zero with an exponent of at least three in the three-body term of D3) and powers of distances do not underflow; with zero radii of padding and an exponent below three the gradient with respect to rs9 is NaN.", "quantifier": "every list of terms, damping function, key of the dictionary, value, parameters, system, batch, padding, geometry, atom, incoming gradient, weights of a loss", "why_tests_cant": "tests differentiate the energy with respect to four parameters of one class for a few molecules; every key may enter several terms at once, and masked pairs and triples go through powers with variable exponents whose gradients may be infinite", "anchors": ["src/tad_dftd4/dispersion/base.py:calculate", "src/tad_dftd4/dispersion/twobody.py", "src/tad_dftd4/dispersion/threebody.py", "src/tad_dftd4/damping/functions.py", "test/test_grad/test_param.py"]}
{"id": "C74", "title": "Properties follow the symmetries of the system", "statement": "For valid input, get_properties returns, without underflow, the coordination numbers and charges of the external functions, the C6 coefficients of the D4 publication (Casimir-Polder integrals of weighted reference polarizabilities) and the polarizabilities at frequency zero. Relabelling atoms relabels the properties (both indices of C6), rotations, reflections and translations leave them unchanged, and they depend neither on padding, place and shape of the batch nor on its other systems; polarizabilities and C6 coefficients of padding are zero. The matrix of C6 coefficients is symmetric, has no negative entries, is positive semi-definite and obeys the Cauchy-Schwarz inequality. Without a charge, one system is neutral.", "quantifier": "all systems, batches, paddings, permutations, rigid motions, charges, cutoffs, external functions with the respective symmetry (those of D4 have it, C69)", "why_tests_cant": "tests compare properties of a few molecules with stored numbers", "anchors": ["src/tad_dftd4/disp.py:get_properties", "src/tad_dftd4/model/d4.py:weight_references", "src/tad_dftd4/model/d4.py:get_atomic_c6", "src/tad_dftd4/model/base.py:get_polarizabilities"]}
{"id": "C75", "title": "Derivatives of properties from automatic differentiation", "statement": "Back-propagating coordination numbers, charges, C6 coefficients and polarizabilities returned by get_properties, with any grad_outputs, gives the derivatives of their weighted sum with respect to positions, total charge or any scalar these depend on, as long as nothing underflows and coordination numbers and charges are differentiable; derivatives with respect to positions add up to zero over the atoms. At any geometry the gradient is at least a number unless all Gaussian weights of an atom underflow, a charge is at the singularity of the charge scaling, or its inner exponential overflows. If the weights underflow, the properties are computed, but derivatives of polarizabilities and C6 coefficients with respect to positions are NaN.", "quantifier": "all systems, batches, paddings, geometries, grad_outputs, scalars the input depends on, cutoffs, external functions", "why_tests_cant": "there are no tests of such gradients; which parts of masked expressions contribute depends on padding and charges", "anchors": ["src/tad_dftd4/disp.py:get_properties", "src/tad_dftd4/model/d4.py:weight_references", "src/tad_dftd4/model/d4.py:get_atomic_c6", "src/tad_dftd4/model/base.py:get_polarizabilities", "src/tad_dftd4/model/base.py:_zeta"]}
{"id": "C76", "title": "Computed energies agree up to rounding", "statement": "If every floating point operation has a relative error of at most u (no underflow), two computed energies of an atom differ by at most 4*K*u*(|E2| + A3), where K is the explicit number of roundings of the rounding bound for energies computed from coordinates, E2 the two-body energy and A3 the sum of absolute values of the three-body terms, whether they come from two machines (which may round and sum differently), from atoms in different order, from a system that has been rotated, reflected or translated (with atoms not far from the origin), or from the system alone and padded in a batch.", "quantifier": "all systems, batches, paddings, permutations, isometries, settings of D4 and D4S, damping parameters that are not negative, unit roundoff, outcomes of every rounding, orders of summation", "why_tests_cant": "tests compare results of one machine with fixed tolerances", "anchors": ["src/tad_dftd4/disp.py:dftd4", "src/tad_dftd4/model/d4.py:get_atomic_c6", "src/tad_dftd4/dispersion/threebody.py:get_atm_dispersion", "src/tad_dftd4/dispersion/twobody.py:dispersion2"]}
{"id": "C77", "title": "Hessians of every dispersion class from automatic differentiation", "statement": "For calculate of DispD4, DispD4Exact, DispD3BJ, DispD3Zero or any object with registered terms: at geometries without atoms on top of each other or at a cutoff of a term, and as long as nothing underflows, differentiating twice (a backward pass with create_graph=True and another one through it) yields the second derivatives of the total energy, whatever terms, damping functions and padding are. So the matrix is symmetric, its rows add up to zero over the atoms, their first moments are given by the gradient of the first pass, and rows and columns of padding are zero. At any other geometry the entries are at least numbers, unless all Gaussian weights of an atom underflow, exponents of D4 weights lie strictly between one and two, or a critical radius is zero with an exponent of the three-body damping other than three and below six (charges, radii and powers of distances as for the gradients of every class).", "quantifier": "every list of terms, damping function, parameters, model settings, system, batch, padding, geometry (generic for the value, any for finiteness), pair of atoms and axes", "why_tests_cant": "tests compute Hessians of dftd4 for a few molecules; other classes, damping functions and combinations of terms have other graphs, and second derivatives of masked expressions may be infinite although first ones are not", "anchors": ["src/tad_dftd4/dispersion/base.py:calculate", "src/tad_dftd4/dispersion/twobody.py", "src/tad_dftd4/dispersion/threebody.py", "src/tad_dftd4/damping/functions.py", "src/tad_dftd4/model/d4.py:get_weighted_pols", "test/test_grad/test_hessian.py"]}
{"id": "C78", "title": "Double precision has enough range for energies at any geometry; single precision only if atoms are apart", "statement": "Evaluated in IEEE double precision (every operation rounded to a nearest number, with overflow, gradual underflow, infinities and NaN; sums in any order), the D4 energy of every atom is finite for any geometry with distances up to 2^20 Bohr, also with atoms on top of each other, for up to 2^20 atoms, parameters of a reasonable magnitude and C6 coefficients between 2^-250 and 2^60 (or zero); no intermediate result leaves the range of normal numbers, so the error bound of the rounding model holds. C6 coefficients of D4 and D4S are in that range for the shipped tables, all elements except cerium, coordination numbers up to three, hardnesses up to one and any charges outside the gap where the charge scaling vanishes. In single precision the energy of three atoms at the same position is NaN: the fifth power of the product of the distances underflows to zero and the damping function is zero, too. For up to 2048 atoms whose distances are between 1/2 and 2^17 Bohr, however, single precision gives finite energies, too, whatever the cutoffs and the exponent of the three-body damping are, if C6 coefficients are at most 2^23; with the shipped tables C6 coefficients never exceed that.", "quantifier": "all systems, geometries, parameters and cutoffs within the stated magnitudes, outcomes of every rounding, orders of summation, accuracies of pow of at most 1/10", "why_tests_cant": "tests evaluate a few molecules near equilibrium; whether products of powers of distances overflow or underflow depends on the geometry", "anchors": ["src/tad_dftd4/dispersion/threebody.py:get_atm_dispersion", "src/tad_dftd4/dispersion/twobody.py:dispersion2", "src/tad_dftd4/damping/functions.py:RationalDamping", "src/tad_dftd4/damping/functions.py:ZeroDamping"]}
{"id": "C79", "title": "Settings of a dispersion object do not change after its creation", "statement": "What an object computes depends on the arguments it was created with, not on what happens to these arguments afterwards; two objects created from the same dictionaries stay independent of each other.", "quantifier": "all histories of creating and changing dictionaries and models, creating objects from them and registering terms", "why_tests_cant": "tests create an object and use it once; nothing is changed in between", "anchors": ["src/tad_dftd4/dispersion/base.py:__init__", "src/tad_dftd4/dispersion/base.py:calculate", "src/tad_dftd4/dispersion/base.py:register"]}
{"id": "C80", "title": "User-defined terms take part like built-in ones", "statement": "Terms of user-defined subclasses of DispTerm are called like those of the package: every registered term gets the same arguments (numbers, positions and parameters of the caller, coordination numbers, model, charges given by the caller or EEQ charges if some term is charge-dependent, radii and cutoffs with their defaults), the energy of an atom is the sum of the results, the first error of a term is passed on, registering a term adds its result without changing contributions of the built-in ones, and deregister removes the term that is given.", "quantifier": "all lists of terms whose calculate is a function of its arguments, systems, batches, settings", "why_tests_cant": "tests register a few built-in terms; user code can return anything", "anchors": ["src/tad_dftd4/dispersion/base.py:DispTerm", "src/tad_dftd4/dispersion/base.py:calculate", "src/tad_dftd4/dispersion/base.py:deregister", "src/tad_dftd4/damping/functions.py:__eq__"]}
{"id": "C81", "title": "Exactly the terms beyond a cutoff are neglected", "statement": "Energies calculated with a smaller and a larger dispersion cutoff differ exactly by the pair terms with a distance between the two-body cutoffs and by the triple terms only the larger three-body cutoff admits. For atoms farther apart than the square root of the machine epsilon the difference is at most the undamped London terms of the neglected pairs plus four times the undamped triple-dipole terms of the neglected triples.", "quantifier": "all systems, batches, charges, external functions, rational-damping parameter sets with a1, a2 >= 0, pairs of cutoffs", "why_tests_cant": "tests compare a few systems with default cutoffs; the truncation error is a statement about all systems and cutoffs", "anchors": ["src/tad_dftd4/cutoff.py:Cutoff", "src/tad_dftd4/dispersion/twobody.py:dispersion2", "src/tad_dftd4/dispersion/threebody.py:get_atm_dispersion"]}
{"id": "C82", "title": "The energy surface is continuous except at the cutoffs", "statement": "The energy of every atom depends continuously on the positions wherever no distance of two real atoms equals the two- or three-body cutoff, also where atoms coincide. Where a distance equals a cutoff, the energy approaches its value along all paths on which the pairs at the cutoff stay within it. Along paths on which they are beyond it, the limit lacks exactly the terms of the pairs and triples beyond the cutoff; so the energy of an atom with a partner at the two-body cutoff jumps upwards by half of their pair terms when the system expands, and is not continuous there.", "quantifier": "all systems, batches, padding, rational-damping parameter sets with a1, a2 >= 0, cutoffs above the square root of the machine epsilon, paths; external coordination numbers and charges continuous at the geometry; atoms with positive effective nuclear charge", "why_tests_cant": "tests evaluate single geometries; continuity is a statement about all neighbouring ones", "anchors": ["src/tad_dftd4/dispersion/twobody.py:dispersion2", "src/tad_dftd4/dispersion/threebody.py:get_atm_dispersion", "src/tad_dftd4/model/d4.py", "src/tad_dftd4/cutoff.py:Cutoff"]}
{"id": "C83", "title": "Molecular dynamics with the computed forces conserves energy, momentum and angular momentum", "statement": "If the atoms of a system move by Newton's equations with the forces obtained from back-propagation (dftd4, or calculate of any dispersion class), then kinetic plus dispersion energy, total momentum and total angular momentum do not change, as long as no atoms coincide or are at a cutoff. When pairs cross the two-body cutoff, kinetic plus dispersion energy increases by the magnitude of the pair energies of those that leave it and decreases by that of those that enter it; there are no other sources of drift.", "quantifier": "all trajectories, masses, systems, batches, padding, dispersion classes, parameters and settings for which forces are defined along the trajectory; external coordination numbers and charges differentiable (invariant under rotations and translations for momentum and angular momentum)", "why_tests_cant": "tests compare gradients with finite differences at single geometries; conservation is a statement about entire trajectories", "anchors": ["src/tad_dftd4/disp.py:dftd4", "src/tad_dftd4/dispersion/base.py:calculate", "src/tad_dftd4/dispersion/twobody.py:dispersion2", "src/tad_dftd4/dispersion/threebody.py:get_atm_dispersion"]}
{"id": "C84", "title": "Interaction of two molecules at long range", "statement": "When two molecules move apart in some direction and the cutoffs exceed all distances, R^6 times the interaction energy (energy of the complex minus those of the molecules alone, three calls of dftd4) converges to the sum of -s6*C6 over all pairs of an atom of either molecule, plus s9 times the sum of C9*(1 - 3*cos^2(theta))/r^3 over pairs of atoms in one molecule and an atom of the other one (r: distance of the pair, theta: angle between the pair and the direction, C9 of neutral atoms). In the mean over three perpendicular directions the latter vanishes. Higher coefficients, damping parameters and short-range details do not matter.", "quantifier": "all pairs of molecules, batches, paddings, ways of moving apart with converging shapes, parameters with alp > 0, settings of D4 and D4S; each molecule in the complex has the coordination numbers and charges it has alone", "why_tests_cant": "tests evaluate single geometries; an asymptotic law is a statement about a limit", "anchors": ["src/tad_dftd4/dispersion/twobody.py:dispersion2", "src/tad_dftd4/dispersion/threebody.py:get_atm_dispersion", "src/tad_dftd4/disp.py:dftd4"]}
{"id": "C85", "title": "Gradients with respect to the total charge and whatever else the input depends on", "statement": "If positions, the total charge or given atomic charges depend on a scalar (the total charge itself, a strain, a weight of a network that predicts charges), back-propagating a weighted sum of the energies of any atoms of any systems to that scalar gives its derivative, at generic geometries. If only the positions of a system depend on it, that is minus the sum of forces times velocities (for uniform stretching: the virial). Wherever the atoms are, at the same place or at a cutoff, the gradient is a number.", "quantifier": "all dispersion classes and lists of terms, systems, batches, weights, differentiable ways in which the input depends on the scalar, subsets of the input that require gradients; without underflow, critical radii positive (or zero, with exponents of at least three), scaling functions not overflowing, references of padding zero", "why_tests_cant": "tests compare gradients with respect to positions and a few parameters with finite differences for some molecules; gradients with respect to charges are not tested, and the claim is about all dependences", "anchors": ["src/tad_dftd4/dispersion/base.py:calculate", "src/tad_dftd4/dispersion/twobody.py", "src/tad_dftd4/dispersion/threebody.py", "src/tad_dftd4/model/d4.py", "src/tad_dftd4/model/d4s.py"]}
{"id": "C86", "title": "Energies per atom and cutoff errors do not grow with the system", "statement": "For tables, a parameter set and a smallest distance between atoms there are constants, the same for every system of any size, such that the energy of an atom is bounded, and such that what cutoffs R2 (two-body) and R3 (three-body) neglect of it (the difference to any larger cutoffs) is at most K2/R2^3 + K3/R3^2.", "quantifier": "all systems, sizes, batches, paddings, coordination numbers, charges, settings of D4 and D4S with tabulated r4r2; cutoffs of at least twice the smallest distance; smallest distance of at least the square root of the machine epsilon", "why_tests_cant": "tests evaluate small molecules at default cutoffs; a bound that is uniform in the size of the system cannot be sampled", "anchors": ["src/tad_dftd4/cutoff.py:Cutoff", "src/tad_dftd4/dispersion/twobody.py:dispersion2", "src/tad_dftd4/dispersion/threebody.py:get_atm_dispersion", "src/tad_dftd4/disp.py:dftd4"]}
{"id": "C87", "title": "Errors of atomic charges enter the energy in proportion", "statement": "If the atomic charges given to dftd4 are changed, the energy of an atom changes by at most a constant times the sum over its partners of the changes of both charges divided by the sixth power of the distance. Hence charges wrong by at most D give energies of atoms wrong by at most K*D, and the total energy is wrong by at most K times the sum of the errors of the charges. The constants depend on the tables, the parameters and the smallest distance between atoms only, not on the system or its size.", "quantifier": "all systems, sizes, batches, paddings, settings of D4 and D4S with tabulated r4r2, pairs of charge tensors; effective nuclear charges not between zero and the machine epsilon; atoms at least the square root of the machine epsilon apart", "why_tests_cant": "tests use some charges for some molecules; a Lipschitz bound is a statement about all pairs of charges and about systems of any size", "anchors": ["src/tad_dftd4/model/base.py:_zeta", "src/tad_dftd4/model/d4.py:weight_references", "src/tad_dftd4/dispersion/twobody.py:dispersion2", "src/tad_dftd4/disp.py:dftd4"]}
{"id": "C88", "title": "Damping parameters given as tensors: one set per system of a batch", "statement": "The entries of the parameter dictionary may be tensors. If they hold one value per system with trailing dimensions of size one (s6, s8, s10 of shape (..., 1), a1, a2, rs6, rs8, rs9, bet of shape (..., 1, 1), s9, alp of shape (..., 1, 1, 1)) or a single value, nothing is raised and every system of the batch has exactly the energies of a calculation, alone or in the batch, with its own parameters as plain numbers, for every dispersion class and damping function (alp has to be a single value if a two-body term uses zero-type damping). Numbers and 0-dimensional tensors are interchangeable. A tensor s6, s8 or s10 of any other shape that fits the energies is applied atom by atom. A flat tensor does not hold one value per system: if its length differs from the number of atoms a RuntimeError is raised, and if it coincides the values are silently used per atom.", "quantifier": "for all batches, elements, geometries, charges, options, reference models and all tensors of these shapes as parameters", "why_tests_cant": "Tests pass scalar parameters only. The annotation Tensor | float permits tensors, and parameters meet arrays of three different ranks (energies, pairs, triples); whether broadcasting assigns them to systems, atoms or neighbours depends on shapes, and coinciding sizes hide the difference.", "anchors": ["src/tad_dftd4/damping/parameters/base.py:Param", "src/tad_dftd4/damping/functions.py:Damping.__call__", "src/tad_dftd4/dispersion/twobody.py:dispersion2", "src/tad_dftd4/dispersion/threebody.py:get_atm_dispersion", "src/tad_dftd4/dispersion/threebody.py:RadiiBJMixin.get_radii", "src/tad_dftd4/dispersion/base.py:Disp.calculate"]}
{"id": "C89", "title": "Errors of coordination numbers change coefficients and energies by a bounded factor", "statement": "If the coordination numbers of two atoms are changed by at most d each, their C6 coefficient is multiplied by a factor between exp(-2 K d) and exp(2 K d), where K = 2 w D + 6 sqrt(w), w is the largest exponent of the Gaussian weights and D the largest difference between reference coordination numbers of one element; with the tables of the package K is at most 200, for D4 and D4S. Hence two calls of dftd4 that differ in the function for coordination numbers give energies of an atom that differ by at most exp(3 K d) - 1 times the magnitude of its pair and triple terms; without the three-body term, and with parameters of the usual signs, by at most exp(2 K d) - 1 times the energy (also for the total energy); and by at most a constant times exp(3 K d) - 1, whatever the system and its size.", "quantifier": "all systems, sizes, batches, paddings, pairs of functions for coordination numbers, charges, parameters, cutoffs, D4 and D4S models; exact exponentials (no underflow); for the last part a smallest distance between atoms and tabulated r4r2", "why_tests_cant": "The statement bounds the response to every possible change of every coordination number by one constant; tests compare a few molecules with fixed coordination numbers.", "anchors": ["src/tad_dftd4/model/d4.py:weight_references", "src/tad_dftd4/model/d4s.py:weight_references", "src/tad_dftd4/model/d4.py:get_atomic_c6", "src/tad_dftd4/dispersion/twobody.py:dispersion2", "src/tad_dftd4/dispersion/threebody.py:get_atm_dispersion", "src/tad_dftd4/disp.py:dftd4"]}
{"id": "C90", "title": "Cutoffs given as tensors: one set per system of a batch", "statement": "Cutoff accepts tensors. If they hold one value per system with trailing dimensions of size one (disp2 of shape (..., 1, 1), disp3 of shape (..., 1, 1, 1)) or a single value, nothing is raised and every system of the batch has exactly the energies of a calculation, alone or in the batch, with its own cutoffs as plain numbers, for every dispersion class, together with damping parameters given per system in the same way. Numbers and 0-dimensional tensors are interchangeable. A disp2 of any other shape that fits the pairs of atoms is applied pair by pair: an atom whose pairs all use one value has the energy of a calculation with that value. The shapes are not interchangeable: a flat disp2 whose length differs from the number of atoms, or a disp3 of shape (nbatch, 1, 1) with nbatch different from the number of atoms, raises a RuntimeError, and a flat disp2 whose length coincides with the number of atoms is silently used per partner atom instead of per system.", "quantifier": "for all batches, elements, geometries, charges, options, reference models, damping parameters and all tensors of these shapes as cutoffs (those of triples not negative)", "why_tests_cant": "Tests use scalar cutoffs only. The annotation int | float | Tensor permits tensors, which are compared with arrays of distances of different rank in the two- and three-body terms; whether broadcasting assigns them to systems or atoms depends on shapes, and coinciding sizes hide the difference.", "anchors": ["src/tad_dftd4/cutoff.py:Cutoff", "src/tad_dftd4/dispersion/twobody.py:dispersion2", "src/tad_dftd4/dispersion/twobody.py:TwoBodyTerm.calculate", "src/tad_dftd4/dispersion/threebody.py:get_atm_dispersion", "src/tad_dftd4/dispersion/base.py:Disp.calculate", "src/tad_dftd4/disp.py:dftd4"]}
{"id": "C91", "title": "Damping parameters given as tensors: several sets of parameters at once", "statement": "Damping parameters with further leading dimensions K (s6, s8, s10 of shape (K, ..., 1), a1, a2 and other parameters of pairs of shape (K, ..., 1, 1), s9, alp of shape (K, ..., 1, 1, 1), the rest single values) evaluate one molecule or batch with all sets of parameters at once: nothing is raised, the result has shape K + numbers.shape if a parameter that is used holds values for all sets, and the energies of every system with set k are exactly those of a calculation with the parameters of set k as plain numbers, for every dispersion class and damping function. The exception is s10: if only s10 differs between the sets, a RuntimeError is raised, because its energies are added in place to an array without the dimensions of the sets.", "quantifier": "for all molecules and batches, elements, geometries, charges, options, reference models, numbers of sets and all values of the parameters", "why_tests_cant": "Tests use one set of scalar parameters per call. Fitting and scanning parameters over many sets relies on broadcasting in every intermediate array (pairs, triples, masks, sums over neighbours), which must keep sets apart and put them into the leading dimensions whatever the sizes; whether an in-place addition fits depends on which parameters carry the dimension.", "anchors": ["src/tad_dftd4/dispersion/twobody.py:dispersion2", "src/tad_dftd4/dispersion/threebody.py:get_atm_dispersion", "src/tad_dftd4/dispersion/threebody.py:RadiiBJMixin.get_radii", "src/tad_dftd4/damping/functions.py:Damping.__call__", "src/tad_dftd4/dispersion/base.py:Disp.calculate", "src/tad_dftd4/disp.py:dftd4"]}
{"id": "C92", "title": "Errors of positions change energies in proportion", "statement": "Let real atoms be at least delta apart. Displacing all of them by at most h changes the energy of every atom by at most K h, plus K1 (exp(3 K' d) - 1) + K2 t where d and t bound the resulting changes of coordination numbers and charges; the constants depend neither on the system nor on its size. Distances that cross a cutoff add at most K3 / disp2^3 + K4 / disp3^2. Without the three-body term and with the usual signs of parameters, distances that agree up to a factor l (a wrong conversion factor, say) give energies that agree up to a factor l^10 exp(2 K' d), however close atoms are.", "quantifier": "all batches of systems of any size, all pairs of geometries, all functions for coordination numbers and charges, all parameters with a1, a2 >= 0", "why_tests_cant": "a test compares a few displaced geometries; a constant that holds for all systems of any size and all displacements cannot be sampled", "anchors": ["src/tad_dftd4/disp.py:dftd4", "src/tad_dftd4/damping/functions.py:RationalDamping", "src/tad_dftd4/dispersion/twobody.py:dispersion2", "src/tad_dftd4/dispersion/threebody.py:get_atm_dispersion"]}
{"id": "C93", "title": "Reference C6 coefficients given by the user are the ones used", "statement": "A model built with the keyword rc6, a tensor of shape (..., nat, nat, nref, nref) of arbitrary numbers, gives for every system exactly the energies of the method in which the C6 coefficient of two atoms is the sum of the given coefficients over all pairs of references, weighted with charge scaling and Gaussian weights that do not depend on rc6; the three-body energies use the same coefficients with uncharged weights. The same holds for a model object whose attribute is replaced. Giving the coefficients which the model would compute changes nothing. Without three-body term the energies are linear in rc6. A tensor without batch axes is used for every system of a batch. A tensor with fewer than four axes, or one for another number of atoms, is accepted by the constructors but makes every calculation raise; except that coefficients of a single atom are silently used for all pairs of atoms of larger systems. The exact three-body term ignores rc6.", "quantifier": "all coefficients, systems, batches, keywords, both models, parameters and cutoffs", "why_tests_cant": "The coefficients are a free real tensor with four indices per pair of atoms; tests in the repository never pass rc6, and no sample shows that no entry is transposed, dropped or replaced by the built-in one.", "anchors": ["src/tad_dftd4/model/base.py:BaseModel", "src/tad_dftd4/model/d4.py:D4Model", "src/tad_dftd4/model/d4s.py:D4SModel", "src/tad_dftd4/dispersion/base.py:Disp"]}
{"id": "C94", "title": "Negative atomic numbers count from the end of each table", "statement": "Nothing tests the sign of atomic numbers. With the shipped tables, dftd4 (model \"d4\" or \"d4s\") accepts exactly the atomic numbers from -104 to 103. For non-negative numbers nothing changes. A negative number z gives the energies of an element that has, in every table of N rows, the data of row z mod N; the tables have different lengths, so -1 has the reference systems of element 103 but the hardness, effective charge and r4/r2 of the last rows (element 118) of the longer tables. Hence negative numbers are neither rejected nor padding: with positive s6 and without three-body term an atom within the cutoff of another one with a negative number has a negative energy.", "quantifier": "every batch of integer atomic numbers, positions, charges, parameters; the table rows of every length", "why_tests_cant": "A test calls with one negative number and sees some energy or an exception; which rows are read from which table, and that exactly this range is accepted, is a statement about all integers.", "anchors": ["src/tad_dftd4/model/base.py:BaseModel._get_alpha", "src/tad_dftd4/src/tad_dftd4/model/d4.py:D4Model.weight_references", "src/tad_dftd4/dispersion/base.py:Disp.get_r4r2", "src/tad_dftd4/disp.py:dftd4"]}
{"id": "C95", "title": "Numerical derivatives agree with those of automatic differentiation", "statement": "Central differences of total energies with step t, the workflow of examples/forces.py, approach positions.grad as the step decreases: if displaced energies carry errors of at most eta, the quotient differs from the gradient by at most K t^2 + eta / t, with K depending on the system only. Hence a step of eta^(1/3) yields derivatives precise to a multiple of eta^(2/3). The same holds of central differences of gradients and the Hessian, and of differences in a damping parameter and its gradient. It holds at geometries where no distance equals a cutoff and no regularisation is at its threshold, and these form an open set. At a two-body cutoff the quotients of an atom's energy under dilation of the system grow without bound instead.", "quantifier": "for all systems, batches, parameters, generic geometries, atoms and axes, all small steps and all errors of the values; for all geometries with a pair at the two-body cutoff", "why_tests_cant": "Tests compare one quotient with one gradient at one step within a tolerance; they cannot show the order of convergence, how errors of energies enter, or that the comparison must fail at a cutoff.", "anchors": ["src/tad_dftd4/disp.py:dftd4", "src/tad_dftd4/dispersion/twobody.py:dispersion2", "src/tad_dftd4/damping/functions.py:RationalDamping", "examples/forces.py"]}
{"id": "C96", "title": "An entry only_damping of the parameters has an effect with zero damping only", "statement": "The parameter dictionary is passed on as keywords of the damping function, so an entry only_damping reaches the damping function. Such an entry, whatever its value, changes neither results nor exceptions of dftd4 or of a dispersion object, unless its value is the object True and a two-body term uses zero damping. In that case the powers of the distance are dropped: a pair contributes -(s6 C6 f6 + s8 C8 f8), which for distances of one Bohr or more overestimates its energy by a factor of at least r^6. No exception tells.", "quantifier": "all systems, batches, parameters, dispersion objects and values of the entry; for the values all geometries with distances above the threshold of the code", "why_tests_cant": "Tests never pass this entry in a dictionary; that it is silently accepted, and for which terms it matters, depends on how keywords are forwarded through all terms.", "anchors": ["src/tad_dftd4/damping/functions.py:Damping", "src/tad_dftd4/damping/functions.py:ZeroDamping", "src/tad_dftd4/dispersion/twobody.py:dispersion2"]}
{"id": "C97", "title": "Total energies change in proportion to the sum of displacements; forces do not grow with the system", "statement": "Let the atoms of a system keep a distance delta. Displacing atoms (by at most delta, no distance crossing a cutoff) changes the energies of all atoms together by at most K times the sum of the displacements, plus K1 times the sum of the changes of coordination numbers, plus K2 times the sum of the changes of charges. The constants depend on delta, the parameters and the tables but not on the system or its size: moving one atom of a large system changes the total energy by a bounded amount. Consequently derivatives of the total energy in any direction obey the same bound, the force on an atom is bounded by K plus what its displacement does to coordination numbers and charges, and with given charges and the error-function coordination numbers of D4 one constant bounds all forces on all atoms of all systems.", "quantifier": "All systems of any size (and batches), positions, charges, options and parameters with a1, a2 >= 0; all delta above the smallest distance; all directions, atoms and axes.", "why_tests_cant": "Whether forces stay bounded as systems grow is a statement about infinitely many systems; tests compare a few small molecules with reference values.", "anchors": ["src/tad_dftd4/disp.py:dftd4", "src/tad_dftd4/dispersion/twobody.py:dispersion2", "src/tad_dftd4/dispersion/threebody.py:get_atm_dispersion", "src/tad_dftd4/damping/functions.py:RationalDamping"]}
{"id": "C98", "title": "A total charge given as a number is the charge used", "statement": "The total charge may be given to dftd4, get_properties and Disp.calculate as a Python int or float. The result is that for a tensor of the dtype of the positions with this value. This holds for whole charges in all three functions, and for every number of the dtype of the positions in get_properties and Disp.calculate. It fails for dftd4, which first converts the number to the default dtype (single precision unless changed): dftd4 with charge 0.1 and positions in double precision has another energy. The error is at most a constant times the precision of single precision numbers.", "quantifier": "all numbers, systems, parameters, options, default dtypes and dtypes of the positions (single or double precision)", "why_tests_cant": "Tests use whole charges, which are exact in single precision.", "anchors": ["src/tad_dftd4/disp.py:dftd4", "src/tad_dftd4/disp.py:get_properties", "src/tad_dftd4/dispersion/base.py:Disp"]}
{"id": "C99", "title": "Radii given as arguments are the ones used", "statement": "The arguments rcov, r4r2 and rvdw of dftd4 and of Disp.calculate replace the default values of the atoms: with r4r2 and rvdw taken from other tables the energies of every dispersion object are those of a program whose tables contain these values. Covalent radii rcov, which dftd4 documents as radii of the atoms replacing default values, are never used: any tensor of the right shape gives the same result or exception as none. Van der Waals radii have no effect (and the number of their columns is not tested) unless a two-body term uses zero or modified zero damping, or the D3 three-body term is present; in particular dftd4 with its default damping ignores them. Where a term uses them, radii with a single column instead of one per atom raise no exception either: every atom gets its one value for all partners. Any other wrong number of columns raises an exception (systems of more than one atom).", "quantifier": "all systems, batches, values of the radii, dispersion objects, models, parameters and options", "why_tests_cant": "A test with one set of radii that equals the defaults, or compares only shapes, cannot tell used from unused arguments; that no value has an influence is a statement about all values.", "anchors": ["src/tad_dftd4/disp.py:dftd4", "src/tad_dftd4/dispersion/base.py:Disp", "src/tad_dftd4/dispersion/twobody.py:dispersion2", "src/tad_dftd4/dispersion/threebody.py:ATM"]}
