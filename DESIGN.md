# Formal model of tad-dftd4 in Lean 4

## What is verified

The Python package `tad_dftd4` (`/repo/src/tad_dftd4`) is modelled function by
function in `lean/Verif/Model/*`; `lean/Verif/Spec/*` contains small,
model-independent specifications (the published formulas, written over one
molecule with `Fin n` atoms); `lean/Verif/Props/*` states and proves the
properties of `properties.jsonl`; `lean/Verif/Lemmas/*` holds the refinement
proofs connecting the two; `lean/Verif/Data/*` are tables transcribed from the
repository by `tools/gen_data.py` (text parsing, nothing is executed).

## Modelling approach

* **Tensors** (`Model/Tensor.lean`).  A tensor is `(err, shape, get)`.  Shapes
  and indices are lists, innermost axis first, so that broadcasting (aligned at
  the last axis) is list alignment.  `err` records the Python exception raised
  while computing it (poison semantics: it propagates through all operations).
  `torch` broadcasting, `unsqueeze`, `expand`, `where`, `sum(dim, keepdim)`,
  `max`, fancy indexing of a table with an index tensor (IndexError if out of
  range) and a generic `einsum` (labels, ellipsis, size-1 broadcasting) are
  defined once and used to transcribe the code expression by expression.
* **Numbers.**  Entries are real numbers.  Rounding and overflow are not
  modelled in general; three floating point effects the code explicitly deals with are:
  `eps` (machine epsilon as filler and clamp; an arbitrary positive real),
  underflow of the Gaussians (`fl`, an arbitrary function applied to every
  `exp`/`pow` of the weights, only assumed to map non-negative numbers to
  non-negative numbers) and the IEEE special values produced by division by
  zero (`FP` = NaN | ±inf | finite), used for the normalisation of the weights
  (`0/0`), for `is_exceptional`, and for the singular point of `_zeta`.
* **Exceptions** are values (`Err`): functions return `Except Err (Tensor ℝ)`.
* **Parameters** (`Param`): every key is `absent`, `None` or a number (a tensor of
  any shape in `Model/ParamTensor.lean`, C88, C91; cutoffs of the energies as tensors
  in `Model/CutoffTensor.lean`, C90);
  unknown keys are kept in a list.
* **Atomic numbers** are natural numbers; integers, read as indices that may be negative,
  are treated in `Model/SignedIndex.lean` (C94).
* **Total charges** are tensors; Python numbers and their conversion by
  `tad_mctc.convert.any_to_tensor` (assumed to round to nearest) are treated in
  `Model/NumberCharge.lean` (C98).
* **External code** (`tad_mctc`, `tad_multicharge`) is not in the repository.
  `storch.sqrt/divide/cdist`, `real_pairs`, `real_triples` are small and are
  modelled from their documented behaviour (`Model/Numeric.lean`); coordination
  number functions, EEQ charges and the tables `GAM`, `ZEFF`, `VDW_PAIRWISE`,
  `COV_D3` are parameters (`Ext`, arguments of `shipped`), with the contracts a
  theorem needs as explicit hypotheses: "acts on each system of a batch
  separately" (`PerSystem`), "invariant under isometries", "equivariant under
  relabelling", "ignores padding", `DefaultErf` (omitting the counting function
  is passing `erf_count`), and `ExtTables` (hardnesses positive and
  `min Z 5 <= zeff Z`).  The contracts are satisfied by concrete instances shown
  as examples (`Demo` in `Lemmas/Setup.lean`: a pairwise counting function,
  uniform charges), and by the published formulas of the coordination number
  (error function) and of EEQ with any parameters (`Spec/Textbook.lean`, C69).
  These formulas are taken from the publications, not from source code: that
  `tad_mctc` and `tad_multicharge` compute them is an assumption (`Call.cn`,
  `Call.eeq`).  That hardnesses are positive, as `C69_solvable` asks, need not
  hold for all published parameters; C69 otherwise asks for a unique solution.
* **Data types** (`Model/DType.lean`) are followed in a model of their own:
  same code, types instead of values, with PyTorch's promotion rules.
* **Devices** (`Model/Device.lean`) likewise: devices instead of values, with
  PyTorch's rules for mixing devices; the type of devices is arbitrary.
* **State**: term lists of `Disp` objects (`Model/Objects.lean`, a heap), the
  `doi` field of shared damping objects (`Model/DampingState.lean`) and the
  `lru_cache` of `get_params` with dictionaries aliased by callers
  (`Model/Params.lean`) are explicit state machines with arbitrary histories.
  Terms and damping objects are otherwise immutable values.

## Trusted base

* Lean's kernel, and the axioms `propext`, `Classical.choice`, `Quot.sound`;
  `AXIOMS.txt` lists the axioms of every theorem of `MANIFEST.json`
  (`tools/axioms.py` writes it with `#print axioms`).  Mathlib is checked by the
  same kernel.
* That the definitions in `lean/Verif/Model` transcribe the cited lines.
* That the generated tables equal the repository's tables
  (`tools/gen_data.py`, `tools/gen_params.py` regenerate `Data/*`).
* Behaviour of PyTorch/`tad_mctc` operations as modelled in `Tensor.lean`,
  `Numeric.lean`, `DType.lean` and `Device.lean`.

Modelled: `disp.py`, `cutoff.py`, `defaults.py`, `utils.py`, `dispersion/*`,
`damping/functions.py` (the creation of damping classes in `Model/DampingClass.lean`),
`damping/parameters/loader.py` with both TOML files, `damping/parameters/base.py` (C58),
`model/{base,d4,d4s}.py` with the classes `d3`/`d5` as unimplemented models,
`data/{r4r2,wfpair}.py`, `reference/d4/*`.

Rounding: the model computes with real numbers, except that rounding and underflow
of the Gaussians of `weight_references` are an arbitrary function (`Env.fl`, bounded
in C56), that `Model/Rounded.lean` and `Model/RoundedAlpha.lean` have the expressions of energies, reference weights
and C6 coefficients with all possible rounding errors (C57, C63), and that
`Model/Ieee.lean` evaluates the expressions of energies in a binary format (C78).

Overflow is modelled for the inner exponential of `_zeta` in the graph of the energy
(`Model/Autograd.lean`), where it matters for gradients (C48, C60), and for energies
computed from distances, C6 coefficients and `r4r2` (`Model/Ieee.lean`, C78; trusted:
`torch.pow` has a relative error of at most `u` in the normal range and does not
change signs).

Conventions of the real numbers of Lean that differ from IEEE arithmetic: `x / 0 = 0`,
`0 ^ y = 0` for `y < 0` and `√x = 0` for `x < 0`.  Masked divisions of the code avoid
them; they matter only for modified zero damping with `rs * r = 0` and `bet > 0`,
optimized power damping with a radius of zero and `bet < 0`, and zero damping with
negative `rs`.  Theorems about numbers exclude these cases or use the evaluation with
NaN and infinities (`FP`, C71, C72).

Not modelled: rounding and overflow elsewhere, `to()` of objects,
derivatives by autograd of third and higher order, performance, printing (`__str__`), negative atomic numbers in model objects
(for `dftd4` see C94), tensors as cutoffs of coordination numbers and
charges other than 0-dimensional ones,
conversions of pydantic (numeric strings as numbers),
half precision and complex types.

## Where code and documented behaviour disagree

Each of these is a theorem (a negation with a witness, named `..._false`, or an
exact description of what the code does); the property keeps its full statement
and the provable part is named `..._partial`.

1. The three-body cutoff tests ij, jk, jk: side ik is unlimited (C10).
2. `get_params` compares functional names case-sensitively in part, and default
   parameters without variant fail (C29); the default blocks of the d4 file and
   the d3 zero-damping sets cannot be used for a calculation (C31).
3. Two-body zero damping swaps distance and radius (C23).
4. Optimised-power damping has the distance instead of the radius in its
   denominator and diverges for short distances if bet < n (C24).
5. `with_dgwdcn` returns minus the derivative (C20).
6. D4S: `get_weighted_pols` averages over partners in a way that does not
   reproduce C6 (C17) and has the documented shape only in special cases (C39).
7. `Cutoff.cn` is never read (C36).
8. `ALLOWED_MODELS` is not enforced; `d3` and `d5` are accepted but cannot be
   evaluated (C35).
9. An omitted `s8` counts as 0 in the damping, not as its default (C27).
10. The validation of modified zero and optimised-power damping asserts before
    checking the order; rational damping accepts every order (C26).
11. The charge scaling is not monotone on (0, eps) (C15).
12. A float32 `Disp` object (the default) fails for float64 positions; a
    float64 object with float32 positions returns float64 (C44).
13. A model object built for other atoms is used without complaint (C47).
14. The third literal weight of the quadrature is off by 1e-17 (stated exactly
    in C21).
15. Gradients are NaN if all Gaussian weights of an atom underflow (C48).
16. `model_kwargs={"wf": number}` raises in every D4S calculation (C49).
17. `ref_charges="gfn2"` raises IndexError for elements beyond radon (C49).
18. `Disp` objects and models do not follow the device of their inputs; defaults
    of missing three-body parameters are created on PyTorch's default device
    (C50).
19. `only_damping` is ignored by all classes but zero damping, and three-body
    terms cannot be calculated with any other class (C53). As entry of the parameter
    dictionary it is accepted and, with zero damping, drops the powers of the
    distance (C96).
20. A damping class that inherits `_f` cannot relax the requirements of its base
    class (C54).
21. The parameter classes have no fields `s9` and `alp`: validation of the shipped
    set of r2SCAN-3c (`s9 = 2`) changes energies. The class names of `Variant`
    (`mzero`, `optimizedpower`) are not the ones of the parameter files (`zerom`,
    `op`), and no shipped set for zero damping has the required `alp` (C58).
22. Gradients with respect to charges are NaN if `q + zeff` is zero or slightly
    negative (a hydride ion): the exponential in the branch of `_zeta` that
    `torch.where` does not select overflows (C60).
23. Gradients with respect to `rs6`, `rs8` and `alp` of modified zero damping are
    NaN if padding has the van der Waals radius zero, and gradients with respect
    to `a1`, `a2` and `bet` of optimised-power damping are NaN in single
    precision, since the eighth power of `eps` is zero there (C71). The gradient
    with respect to `rs9` is NaN if such padding meets `alp < 3` (C73).
24. In single precision the energy of three atoms at the same position is NaN
    (`inf * 0` in `get_atm_dispersion`), although distances are clamped to avoid
    divisions by zero (C78).
25. `Disp` keeps the dictionaries `model_kwargs` and `cn_fn_kwargs` and the model
    by reference: assignments to them change objects created before.  An empty
    `model_kwargs` is replaced (`model_kwargs or {}`), so later assignments to it
    are not seen (C79).
26. User-defined terms inherit an `__eq__` that compares class, damping class and
    `charge_dependent` only: `deregister` may remove another instance (C80).
27. The default blocks of the D3 file (`alp = 14`, `rs8 = 1`) are never merged into
    the sets of the functionals: calculations with D3 sets use `alp = 16`, and zero
    damping lacks `rs8` (C31).
28. `dftd4(charge=0.1)` rounds the charge to the default dtype of PyTorch
    (`any_to_tensor(charge)` without dtype, `disp.py:139`) before converting it to
    that of the positions; `Disp.calculate` and `get_properties` do not (C98).
29. Nothing compares the shape of given reference coefficients `rc6` with the
    system: coefficients of a single atom are used for all pairs of atoms (C93).
30. The argument `rcov` of `dftd4`, documented as the covalent radii to use, has no
    effect; its shape is tested only. The last axis of `rvdw` is not tested:
    a matrix with one column is broadcast silently (C99).
31. The number of coordinates per atom and the shape of the result of a user-defined
    coordination number function are not tested (C32).

Read but not stated as a property: the README calls
`get_params("tpssh")` positionally although the arguments are keyword-only;
17 functionals of the d3 file lack the default variant.

## Plan per property

| Id | Model | Proof idea |
|----|-------|------------|
| C01 | `dftd4` over arbitrary batch shapes | evaluate every tensor expression at an in-bounds index; compare with `Spec.energy` |
| C02 | as C01 | refinement + re-indexing of the sums of the spec by a permutation |
| C03 | as C01 | refinement + spec depends on positions through distances only |
| C04 | as C01 | refinement + terms of padding atoms vanish; sums over `Fin n ⊕ padding` |
| C05 | as C01 | refinement: value at batch index b depends on the molecule at b only |
| C06 | as C01 | no-error part and shape part of the refinement |
| C07 | `dispersion2` both modes | direct evaluation |
| C08 | `dispersion2` | termwise inequality; more pairs, more non-positive terms |
| C09 | `dispersion2` | evaluation with an indicator function |
| C10 | `get_atm_dispersion` | false: negation with a witness; `_partial`: sides ij and jk are tested |
| C11 | `get_atm_dispersion` | law of cosines in Euclidean space |
| C12 | `get_atm_dispersion` | sum over ordered triples, S3 symmetry |
| C13 | both terms | indicator functions vanish across fragments |
| C14 | `weight_references` D4/D4S with `fl` and `FP` | case split norm = 0; table facts for the fallback |
| C15 | `_zeta` in `FP` | calculus of exp; negation of monotonicity on (0, eps) |
| C16 | `_get_alpha`, `trapzd`, `get_atomic_c6` | sum of squares with positive weights |
| C17 | `get_weighted_pols`, `trapzd_noref` | exchange of sums; D4S: negation with a witness |
| C18 | D4S vs D4 | exp(-w x²)=exp(-x²)^w |
| C19 | `_dzeta` | HasDerivAt of the model with eps → 0, exact formula with eps |
| C20 | `dgwdcn` | HasDerivAt: returned value is minus the derivative; negation |
| C21 | `trapzd*` weights | rational arithmetic on the 23 literals; exactness for piecewise linear |
| C22–C25 | damping `_f` | real analysis (monotonicity, limits) |
| C26 | `Damping.__call__` | case analysis over presence of parameters |
| C27, C28 | `dispersion2`, `calculate` | evaluation; C27: s8 negation |
| C29 | `get_params` over arbitrary tables | case analysis; negation of case-insensitivity |
| C30 | cache state machine | invariant over histories |
| C31 | generated TOML tables | `decide` over the whole finite table |
| C32 | `Disp.calculate` | case analysis over all shapes; positions enter the terms through `cdist` only, coordination numbers through the difference to the reference values |
| C33 | `Disp.calculate`, `dftd4` | non-interference by rewriting |
| C34 | term list state machine | list/multiset lemmas, induction over histories |
| C35 | constructor/get_model | case analysis over strings |
| C36 | `calculate`, `get_properties` | independence of cutoff.cn = negation of the claim |
| C37 | `get_properties` | evaluation, compare with dftd4 |
| C38 | generated tables | kernel evaluation over the complete tables |
| C39 | D4S shapes | evaluation of shapes for symbolic batch shapes |
| C40 | doi state machine | induction over histories |
| C41 | `get_c9` | evaluation, symmetry |
| C42 | `Spec.energy` via C01 | smoothness of every term, derivative along translations, chain rule |
| C43, C44 | `Model/DType` | type inference over all combinations of types, refutations |
| C45 | as C01 | bounds of weights, C6, damping; triangle inequality for the ATM term |
| C46 | `DispD4`, `dftd4` | unfolding to the same computation, error cases included |
| C47 | `dftd4` with model objects | refinement with C6 from the object's own numbers; negation |
| C48 | `Model/Autograd` | see below |
| C49 | constructor, `get_model` | unfolding; refinement with the settings asked for; negations |
| C50 | `Model/Device` | device inference over all combinations; negations |
| C51 | `Model/AutogradParam` | as C48; joint smoothness by the calculus of `ContDiffAt` |
| C52 | as C01 | only terms with a side beyond a cutoff differ; triangle inequality |
| C53 | `Damping.call`, `get_atm_dispersion` | pointwise evaluation; false for three of four classes |
| C54 | `Model/DampingClass` | induction on the hierarchy; false for relaxed requirements |
| C55 | `Spec` (energy as function of positions), `Props/C42` | symmetry of second derivatives; differentiate invariance of the gradient along translations and rotations |
| C56 | `Model/RefModel` (`weight_references`), `Env.fl` with `Spec.DoubleRounding` | relative errors while some Gaussian is at least exp(-660); otherwise the coordination number is above those of all references (table check) and both the exact and the computed weights are close to the top reference |
| C57 | `Model/Rounded` (expressions of both energies with all values a machine can obtain) | count roundings: `(1-u)^k` bounds for non-negative expressions, absolute bounds with a majorant for the angular term; the exact values are the energies of `Spec` |
| C58 | `Model/Schema` (fields, validation, `model_dump`) | validation as a fold over fields; the dumped set reads as the listed numbers with `s9 = 1`, `alp = 16`; checks of all shipped blocks by kernel evaluation; a right-angled triangle has positive three-body energy |
| C59 | energy of `Spec`, via the evaluation of `dftd4` | `1/r^m - 1/(r^m+R^m) <= L^-6/r^m` and `1 - f9 <= 6 L^-alp` termwise; dimers directly |
| C60 | `Model/Autograd`, energy of `Spec` | `zeta` decreases (C15), so C6 and pair energies do; graph with only one charge tracked: everything else has no leaf and its gradient is 0 even if NaN otherwise; overflow followed through the unselected branch |
| C61 | `Tape.backT` in `Model/Autograd`: the backward pass as a graph of its own | graph of the gradient evaluates like `Tape.back` (with `create_graph`) and is again a graph; its gradient is the second derivative by the same soundness theorem; symmetry and zero modes from C55; finiteness node by node |
| C62 | `DispD4Exact`, `DispD3BJ`, `DispD3Zero` via the evaluation of `Disp.calculate` | term by term; coefficients identified with the integrals of `Spec/C6` |
| C63 | `Model/Rounded` (weights, C6 coefficients, `Input.computed`) | absolute errors of arguments are relative errors of exponentials; absolute errors with a small majorant are relative errors; count; roundings of double precision are fractions of roundings of single precision; results from computed distances and coefficients are possible results for rounded inputs, so C57 applies. `Model/RoundedAlpha` (`_get_alpha`, `trapzd`): the difference of polarizabilities has a relative error proportional to its cancellation, a clearly negative one is clipped exactly |
| C64 | energy of `Spec`, `Model/Autograd` (C51) | pair terms factor as C6 times a function of the parameters; compare termwise; a function that does not fall to the right has no negative derivative |
| C65 | `dftd4`, `TotalEnergy` (C42) | the energy is invariant (C02-C05), so its derivative is equivariant; chain rule with linear equivalences; padding: projection and section |
| C66 | `dispersion2` | pair terms decrease with the distance and vanish beyond the cutoff; compare termwise |
| C67 | `atmDispersion`, `dftd4` | angular factor of C11 in terms of interior angles: their sum is π, `8 cos A cos B cos C <= 1`; damping factor in [0, 1] |
| C68 | `buildModel`, `Disp.calculate`, `dftd4`, `getProperties` | follow the first exception through the constructor; acceptance from C06 |
| C69 | `dftd4` with `Spec/Textbook.lean` | contracts of external functions proved for the published formulas: permutation of sums and uniqueness of solutions; Cramer's rule for smooth charges; the interaction of Gaussian charges is positive definite (Schur products of Gaussian overlaps, widening lowers the energy to zero) |
| C70 | `Disp.calculate`, `Disp.Total` | as C42 and C65, from the theorems about any `Disp` (C02-C05); every damping function is smooth for positive distances and radii |
| C71 | `Model/AutogradDamping` | as C48; masked pairs: a dead subgraph, or a zero gradient that stays zero unless a derivative is infinite |
| C72 | `Model/AutogradDisp` | as C48, with the two-body graphs of C71 and new ones for polarizabilities, exact C9 and radii; forward pass equal to the energies of `Disp.calculate`; a lost atom makes every graph that contains its C6 coefficient bad; `C72_finite` wherever the atoms are, by finite local derivatives of every node |
| C73 | `Model/AutogradDisp` | the graphs of C72 with an entry of the dictionary as variable and everything else constant; a power of a base that is zero everywhere has gradient zero if the exponent is at least one; a dictionary usable for one value is usable for all |
| C74 | `Disp` (`getProperties`) | values in terms of `system`; the lemmas on relabelled, moved and padded systems of C02-C05; C6 as weighted sum of products over frequencies |
| C75 | `Model/AutogradProps` | the graphs of weights, C6 coefficients and polarizabilities of C72 without distances, for input that depends on a scalar in any way |
| C76 | `Rounded` | triangle inequality with the exact energy: C63 for both calculations, C02-C04 for the exact energies; sums of absolute values have the same symmetries |
| C77 | `Model/AutogradDisp`, `Tape.backT` | as C61 with the graphs of C72; masked pairs of damping functions: a subgraph with gradient zero whose recorded backward pass is finite (`Dead2`) |
| C78 | `Model/Ieee` (expressions of `Model/Rounded`) | interval bounds `2^m ≤ |x| ≤ 2^M` for every subexpression (`Sound`), differences of squared distances bounded below because they are multiples of a power of two; single precision: evaluation step by step for coincident atoms; for atoms that are apart upper bounds only (`Fine`), lower bounds of denominators that may overflow (`Lo`), a common scale of the three distances of a triple from the triangle inequality |
| C79 | `Model/Aliasing` (store of dictionaries, models and objects) | induction over histories: attributes other than terms never change, addresses change only by assignments to them; counterexample `kw["gamma"] = 2.0` |
| C80 | `Model/UserTerm` (terms with any method `calculate`) | `calculate` unfolded once for arbitrary terms; built-in terms ignore charges unless charge-dependent; counterexample for `deregister`: two instances of one class |
| C81 | `dftd4` with two cutoffs (`Model/Disp`, `Model/TwoBody`, `Model/ThreeBody`) | sums with nested conditions differ by the terms in between; damping only weakens a term, cosines are at most 1 |
| C82 | `dftd4` along a path of geometries (`Model/Disp`, `Model/TwoBody`, `Model/ThreeBody`) | every pair and triple term converges (regularised distances are positive); eventually each mask has the value of the limit unless the limit is at the cutoff |
| C83 | forces of `AutogradDisp` and `Autograd` along a trajectory (`Spec.Motion`: Newton's equations) | the gradients are those of the energy (C48, C72), so the time derivative of kinetic plus dispersion energy vanishes; momentum and angular momentum by C42, C70; jump at the cutoff from the one-sided limits of C82. Examples use the existence theorem for differential equations |
| C84 | `dftd4` for the complex and for both molecules; `Spec.longRange` | the energy (C01) is a sum over pairs and triples, of which those within a molecule cancel; limits of the damped terms times R⁶; triples with two distant atoms of one molecule have the angular limit 1 − 3cos²θ |
| C85 | `Disp.calculate`; tapes with inputs that depend on a scalar (`pathSys`, `pathGraph`) | as for C72, for any curve of inputs and any choice of inputs that require gradients; chain rule for forces |
| C86 | `dftd4` with two sets of cutoffs; `Spec.Spaced` | the neglected terms (C81) are bounded by C6 bounds over all elements times inverse powers of distances; disjoint balls around the atoms (`Lemmas/Packing`) bound how many are within a distance, shells of doubling radii give the sums |
| C87 | `dftd4` with two charge tensors (`DftOpts.withQ`) | mean value theorem for the scaling function above its pole and a direct estimate at the pole; C6 is bilinear in the polarizabilities; sums over partners as for C86 |
| C88 | `Model/ParamTensor` (entries of the dictionary as tensors, broadcasting as in the code) | an operand that broadcasts into the shape of the other leaves it unchanged and is read at the index of the result (`Tensor.Into`, `Tensor.Pw`); entries with size-one dimensions are read at the index of the system; a damping function that succeeds with some numbers succeeds with all; flat tensors: two hydrogen molecules |
| C89 | specification of the weights, `dftd4` with two functions for coordination numbers | derivative of the logarithm of a ratio of Gaussian sums is bounded: the quadratic parts differ by a constant, Gaussians beyond the first add at most `3 sqrt w` (`y exp (-k y²) ≤ 1/2`); weights are such ratios, coefficients are bilinear in weights with non-negative coefficients; C9 is a root of three coefficients; bounds of the tables by evaluation (`Data/ChecksCN`) |
| C90 | `Model/CutoffTensor` (cutoffs of the energies as tensors, on top of `Model/ParamTensor`) | cutoffs enter through comparisons only; a comparison with a tensor that broadcasts into the array of distances is at every index the comparison with the number read there, so rows of damped terms agree with those for that number; sums over partners and triples, terms and the prelude of `calculate` follow; flat tensors: two hydrogen molecules |
| C91 | `Model/ParamTensor` | arrays whose shape starts with the shape of the system and that fit it followed by the sets (`Tensor.Scan`), read at every index as for the numbers of the set; kept by the pointwise operations, masks and sums over the last dimensions; an operand with all sets fixes the shape; in-place addition keeps the shape of its left operand only |
| C92 | dftd4 for two sets of positions (Call) | damping functions and 1/u³ change by powers of the ratio of sides 1 + 2h/δ, cosines by 8h/δ (unit vectors); sums by packing (C86); then C89 and C87 for coordination numbers and charges; C86 for crossed cutoffs |
| C93 | `DispD4` with `rc6` among the keywords; `dftd4` with a model object whose `rc6` is replaced | weights do not read `rc6`, so the lemmas of `IsFor` apply to the object without it; energies from the C6 tensor of any model object (`calculate_from`); label sizes of einsum for wrong shapes, and for axes of length one what broadcasting reads |
| C94 | `Model/SignedIndex` (integers as indices: codes of integers, tables rearranged to what PyTorch reads) | `rowOf` is `z mod N` within range; C6 coefficients depend on the rows of the elements only; acceptance from C06 and C68; attraction from C08 with the rearranged tables, which are physical |
| C95 | the same model as C48, C51 and C61 | a function with three continuous derivatives differs from its central differences by a multiple of the squared step (`Lemmas/Central`, mean value inequality twice); generic geometries form an open set, so that C48 holds of displaced geometries; divergence at cutoffs from the one-sided limits of C82 |
| C96 | `OnlyKey`, `dispersion2O`, `Disp.calculateO`, `dftd4O` | equality with the calculation without the entry, term by term; with zero damping the value of each pair, and for whole objects with `s9 = 0` the factor by which energies grow; the claim that the entry never matters is refuted for `dispersion2` and for `dftd4` |
| C97 | `dftd4` on two sets of positions, derivatives of the total energy (with C42, C69, C87, C89, C92) | every pair and triple changes by at most its share of the changes, times inverse powers of distances whose sums over spaced atoms converge; derivatives are limits of difference quotients; the counting function decays like a Gaussian |
| C98 | `Model/NumberCharge.lean`: the two conversions of the argument `charge`, with rounding to nearest in binary formats | exactness of representable numbers; Lipschitz bound of C87 with the charges of C33; `0.1` is not representable (odd numerator) and energies are strictly monotone (C60) |
| C99 | `Disp.calculate`, `dftd4` with `rcov`, `r4r2`, `rvdw` given | equality of whole results for ignored arguments; for used ones, evaluation with the given values and with tables that contain them; the claims that `rcov` is used and that the columns of `rvdw` are checked are refuted |

`Props/AnyDisp.lean` extends C02–C06 and C13 from `dftd4` to every dispersion
class and every list of registered terms.

## Tests against wrong programs

`seeded/LOG.jsonl` records edits of the model as a realistic bug would make them
(in a scratch copy) and which theorems stopped compiling.

## Back-propagation (C48, C51, C60, C61, C71, C72, C73, C75, C77)

`Model/Autograd.lean` contains, node by node, the graph PyTorch records for the energy of one atom in
`dftd4` (two-body and three-body terms, D4 and D4S weights), with a forward and a backward pass.
It is a second transcription of the code: that its forward pass gives the energies of the tensor model is
a theorem (`C48_forward`), so the two transcriptions check each other.

Trusted for C48, C51, C60, C61, C71, C72, C73, C75 and C77, in addition to the rest:

* the rules in `Tape.back` are those of PyTorch (`derivatives.yaml`): in particular that of `div`
  divides the incoming gradient by the denominator, that of `where` passes zero to the branch not taken,
  that of `pow` is zero only if the exponent is;
* the backward passes of the external functions (coordination numbers, charges) give derivatives of the
  functions, and numbers; coordination numbers always depend on positions;
* `storch.cdist` is the quadratic expansion with `sqrt(clamp(.., eps))`;
* for C61 and C77, the graph of the backward pass (`Tape.backT`) consists of the operations PyTorch uses in these
  rules when `create_graph=True`, and the external functions support a second backward pass.

Simplified: numbers are real or one of inf, -inf, nan; there is no rounding; only exponentials and powers in
the Gaussian weights underflow; conversions between precisions pass gradients unchanged; reference
coefficients are constants. The graph of C48 has damping parameters as constants, that of C51
(`Model/AutogradParam.lean`) has one damping parameter as the variable and positions as constants. Since
contributions of the leaves add up, the two together give the gradients of both kinds.
`Model/AutogradDamping.lean` (C71) has the graph of `dispersion2` alone, for all damping functions and with C6
coefficients as inputs that depend on the variable in any way; powers of
distances underflow (`Env.fl`) except in rational damping. That its forward pass gives the energies of the
tensor model is part of `C71_positions` and `C71_parameters_partial`.
`Model/AutogradDisp.lean` (C72, C73) has the graph of `Disp.calculate` for any list of terms: the two-body graph of
C71 with the graphs of the C6 coefficients inserted, and the three-body graphs with approximate and exact C9
coefficients and both kinds of radii. Its forward pass gives the energies of the tensor model (`C72_forward`).
If a parameter is the variable, positions, charges and coefficients are constants of the graph (`C73_forward`).
`Model/AutogradProps.lean` (C75) has the graph of the results of `get_properties`, whose forward pass gives the values
of the tensor model (`C75_gradient`, `C75_finite`).

Finding: if all Gaussians of an atom underflow, the code replaces `expw / norm` (0 / 0) by a fallback with
`torch.where` and energies are numbers, but the backward pass of the division yields NaN
(`C48_underflow_nan`). In the same way the exponential in the branch of `_zeta` that is not selected may
overflow if an effective charge is zero or slightly negative, and the gradient is NaN (`C60_gradient_nan`).
The code has not been run; this follows from the rules above.

## Seeded bugs (`seeded/LOG.jsonl`)

Each line is one edit of the model, as a realistic bug in the code would require, in a scratch copy outside
this directory, followed by a rebuild. Most edits first break the lemma that describes the edited definition,
and Lean then does not recheck what imports it. There are two methods:

* *edit; proofs that fail replaced by sorry until the project builds*: a theorem counts as failed if it fails
  itself or depends on a lemma that fails. Theorems of the broken claim that do not depend on any such lemma
  are listed as still proved; they were read to see that they concern an aspect the edit does not touch, or
  else tightened. A failing lemma alone does not show that the theorem is false of the edited model: neutral
  control edits break proofs in the same way. So this method finds theorems that are too weak, not those
  that are merely proved in a roundabout way.
* *edit only*: the rebuild stops at the first module that fails. Unless a theorem of the claim is among the
  declarations that fail, the run is logged as inconclusive.

Edits that survived led to new theorems, given in `theorems_tightened`.