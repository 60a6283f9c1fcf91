# Design: a Lean 4 model of composipy

Source: `/repo` (rafaelpsilva07/composipy, Python), read as text only. Nothing in `/repo` is run.

## 1. Trusted base

* Lean 4.33.0 kernel. No axiom of our own, no `sorry`, no `native_decide`, no `bv_decide`. Axioms used: `propext`,
  `Classical.choice`, `Quot.sound` (Mathlib's reals need all three). `AXIOMS.md` lists the axioms of every theorem named in
  `MANIFEST.json`; `tools/axioms.py` regenerates it with `Lean.collectAxioms`.
* The reading of the Python text. Every model definition carries a citation `[file:lines]`.
* The transcription of the shipped tables. `tools/gen_tables.py` copies the *text* of `_ii_F.py` and `_S.py` into numerals (base
  256, one byte per character); the kernel parses and evaluates that text (`Verif/Py/Eval.lean`). A wrong byte in the copy would
  be a wrong model. `tools/gen_moments.py` and `tools/gen_duals.py` only write numbers the kernel checks again.
* Number model. Python/NumPy floats are exact real numbers (`ℝ`), or exact rationals (`ℚ`) where the model must compute (parser,
  shipped tables), except in `Model/Rounded.lean`, `Model/RoundedPlate.lean`, `Model/RoundedBuckling.lean`, `Model/RoundedOptimize.lean` and `Model/RoundedStrength.lean`, where the stiffness, plate matrix and
  strength calculations are repeated with a rounding after every operation (C110-C113, C115): any rounding with relative error at most `u`. Overflow and underflow are *not* modelled anywhere. The rounding
  already present in the shipped table texts is (C47, C86). Where NaN and infinities decide control flow (validators, margins, parameters, contour plot), and for stacks, loads, plates and optimisers in `Model/NonFinite`, `Model/NonFinitePlate` and `Model/NonFiniteOptimize` (C132, C133, C134), the type
  `PyFloat = nan | ninf | pinf | fin r` is used. The sign of zero is modelled in `Model/SignedZero.lean` only (C70).
* External code, represented by a contract and visible as a parameter or hypothesis wherever used:

  | external | representation |
  |---|---|
  | `scipy.sparse.linalg.eigsh` | parameter `S : EigSolver`; contracts `Spec.EigshOut` (eigenpairs chosen by the documented Cayley `SM` rule), `Spec.Honest`; C109 uses `Spec.EigshFull`, the same with orthogonal vectors and multiplicities; C129 replaces exactness by small residuals or backward stability (`Spec.StableAt`) |
  | `scipy.optimize.minimize` | not modelled; the theorems are about the problem handed to it |
  | `np.linalg.inv` | matrix inverse; `LinAlgError` iff the determinant is 0; in C111 any function whose result on `T_real` has a bounded error |
  | `np.cos`, `np.sin`, `np.pi`, `np.linspace`, `np.meshgrid`, `reshape`, `itertools.product` | their mathematical meaning |
  | pandas `mask`, `abs`, `/`, `idxmin` | `npDiv`, `idxmin` (NaN skipped, first minimum, as documented; `pandasIdxmin` has the other behaviours, C135) |
  | `float(text)`, `int(text)`, `str.strip`, `str.lower` | `Py/Num.lean`, ASCII only, unlimited digits |
  | `eval(text)` | `Py/Eval.lean`: literals, `xi`, `eta`, parentheses, `+ - * /`, `**` with a literal exponent |
  | `sympy` | polynomials with rational coefficients |

## 1a. What is modelled, file by file

| file | modelled in | left out |
|---|---|---|
| `utils/validators.py` | `Model/Validators` (all) | |
| `core/material.py` | `Model/Material`, `Model/Naming` (constructors, getters, `Q_0`, `Invariants`, `__eq__`, names), `Model/Rounded` (`Q_0`, `Invariants` in floats), `Model/Display` (`__repr__`, operators) | the text of a number (a parameter) |
| `core/property.py` | `Model/Laminate` (values), `Model/LaminateCache` (caches, failures, shared lists), `Model/Attributes` (assignments, shared results; also for the other classes of `core`; not names with underscores, names of methods, deletion), `Model/Rounded` (values in floats), `__eq__`, `Model/Display` (`__repr__`, operators with other objects) | the text of a dictionary (a parameter); comparison with arrays |
| `core/strength.py` | `Model/Strength` (values), `Model/StrengthHeap` (arrays updated in place), `Model/StrengthState` (live object), `Model/SignedZero`, `Model/RoundedStrength` (values in floats), `Model/Effects` (`pd.set_option`), `Model/Idxmin` (versions of `idxmin`) | — |
| `core/structure.py` | `Model/Plate`, `Model/Constraints`, `Model/Stiffness`, `Model/Buckling`, `Model/Plot`, `Model/RoundedPlate` (`calc_K_KG_D` in floats), `Model/RoundedBuckling` (`buckling_analysis` in floats), `Model/Effects` (printing) | the clock (a parameter), drawing calls; `csr_matrix` is the identity |
| `pre_integrated_component/build_k.py` | `Model/Stiffness` (all ten functions), `Model/RoundedPlate` (`calc_k33_ijkl`, `calc_kG33_ijkl` in floats) | |
| `pre_integrated_component/functions.py` | `Model/Tables` (all readers) | |
| `pre_integrated_component/_ii_F.py`, `_S.py` | `Gen/*` (all entries, as text) | |
| `pre_integrated_component/write_*.py` | `Model/ShapeFunctions` (the functions and their integrals), `Model/Generator` (the texts of the files) | sympy's arithmetic and `str` (parameters), encoding and line ends of the file, prints |
| `optimize/utils.py`, `_maximize_buckling.py`, `_minimize_panel_weight.py` | `Model/Optimize`, `Model/RoundedOptimize`, `Model/OptPlot`, `Model/Effects` (printing) | the optimiser itself, drawing calls |
| `nastranapi/pcomp_generator.py` | `Model/Pcomp` (all functions), `Model/PcompAny` (dictionaries and sets as arguments), `Model/PcompArray` (arrays as arguments) | series of pandas as arguments |
| `theoretical/*` | `Model/Theoretical` | `print`; sympy expressions are polynomials |
| `theoretical/Lamination_Parameters_sensitivity.ipynb` | `Model/Notebook` | sympy expressions are real functions of their symbols; stored outputs are transcribed; the plot |
| `doc/*`, `tests/*` | not part of the library; not modelled | |

## 2. Layout

```
lean/Verif/Py/*.lean       Python runtime fragments: exceptions as values, PyFloat, list primitives
lean/Verif/Model/*.lean    the model, function by function, with citations
lean/Verif/Spec/*.lean     small independent specifications used in the theorem statements
lean/Verif/Lemmas/*.lean   helper lemmas
lean/Verif/Props/*.lean    property theorems (named C01_..., C02_...) and their non-vacuity examples
lean/Verif/Gen/*.lean      generated data (text of the shipped tables, certificates), written by tools/gen_*.py, never trusted
seeded/LOG.jsonl           wrong-program experiments
```

## 3. Modelling decisions

* A Python method that may raise returns `Except PyErr α`. An object with mutable attributes that
  survives an exception (laminate caches, the heap of arrays, name counters) is modelled by a state
  passing function `σ → Except PyErr α × σ`, so that the state left behind by a failure is visible.
* `LaminateProperty` has a pure reading (`Lam.*`) used by later modules, and a stateful reading
  (`LamObj.*`) with the `_A,_B,_D,_Q_layup` caches; C23 proves the second refines the first.
* 6-vectors and 6x6 matrices are indexed by `Fin 3 ⊕ Fin 3` (membrane ⊕ bending) instead of `Fin 6`.
* Materials are `Mat.ortho` or `Mat.iso`; attributes an isotropic ply does not have raise `AttributeError`.
* `PlateStructure` matrices are built from the *shipped* table text (`Gen`), and index sets by the code's
  own sequence of `list.remove` and slices.

## 4. Plan per property

| id | model | proof |
|----|-------|-------|
| C01-C03 | validators + constructors over `PyVal`/`PyFloat` | case analysis; exact success/err characterisation |
| C04-C06 | `Q_0` over ℝ | explicit inverse; PosDef iff; trig identities for invariance |
| C07 | `__eq__` over `PyFloat` fields | decision logic |
| C08 | state machine of counters and objects | invariant by induction over the history |
| C09 | `Invariants`, rotated `Q` | double-angle identities |
| C10, C11 | `__init__`, `z_position` loop | list induction |
| C12 | `inv(T_real) @ Q_0 @ T_eng` | det = 1, explicit inverse, identities |
| C13 | A/B/D loops | induction; interval integral of the piecewise constant `Q(z)` |
| C14, C15 | `ABD` | block symmetry; energy as integral, PosDef by induction over plies |
| C16-C18, C21, C22 | A/B/D | list recursion for the moments (`Perm`, `reverse`, append) |
| C19, C20 | `xiA`, `xiD`, LP formulas | linearity + C09; convexity/Cauchy-Schwarz weights |
| C23, C24, C26, C28 | `LamObj` state machine | invariant over read histories; refutation witness for C24 |
| C25, C27 | `__init__` on dicts, `__eq__` | decision logic; refutation witness for C27 |
| C29, C30 | `epsilon0` | matrix inverse; linearity |
| C31, C32, C34 | tables | list induction, C12, C13 |
| C33 | explicit heap of arrays | frame reasoning: writes hit only freshly allocated cells |
| C35-C38 | margins over `PyFloat` with NumPy division | case analysis; refutation witness for C37 |
| C39 | strength on LP laminates | evaluation of the error path |
| C40-C43 | `_compute_constraints` | list lemmas; refutation witnesses C42, C43 |
| C44, C45 | Bardell polynomials over ℚ[X] | Rodrigues form `D^(n-2) (x²-1)^n`, root multiplicity; orthogonality by repeated integration by parts |
| C46, C47 | shipped tables (generated Lean data) | complete finite tables, kernel evaluation (`decide +kernel`), lifted |
| C48, C50, C51 | `calc_K_KG_D` | table symmetry + index algebra |
| C49 | exact-integral version of `k33`, `kG33` | double interval integral; `_partial` w.r.t. shipped tables |
| C52 | `calc_K_KG_ABD` | refutation witness; partial symmetry |
| C53, C54 | `buckling_analysis` with eigsh contract | algebra; ordering argument; refutation witness |
| C55-C59 | optimise utilities | real arithmetic; composition with C50 |
| C60-C62 | `build_sequence` as a character loop | induction over the expression syntax; refutation witnesses |
| C63, C64 | `build_pcomp` text | induction two plies at a time; split-at-comma reading |
| C65, C66 | `plot_eigenvalue` up to the arrays drawn | grid lemmas, C46; state machine with `buckling_analysis` |
| C67-C69 | `LaminateStrength` on a live laminate | simulation by the fresh reading; witnesses for what fails after an exception or a mutation |
| C70 | margins with signed zeros | case analysis; refutation witness |
| C71-C77 | laminate and strength as a whole | group laws of the rotations, moment recursion, PosDef |
| C78 | `plot_optimization` | reshape lemmas; refutation witness |
| C79, C80, C84, C85 | `calc_K_KG_D` and the pencil under similarity, exchange of axes, mirror images, quarter turns | entry identities lifted to congruences of the pencil |
| C81-C83 | Rayleigh quotient of `(KG, K)` | restriction to sub-blocks; monotonicity of quadratic forms |
| C86 | shipped against exact tables | entrywise bound checked by the kernel, lifted through `k33`, `kG33` |
| C87 | positive definiteness of `K` | independence of the selected shape functions, energy zero iff affine |
| C88 | all nine blocks of `calc_K_KG_ABD` | block by block against the laminated plate energy; witnesses for the blocks that are not |
| C89 | clamped plates: `calc_K_KG_D`, `buckling_analysis` | sharp Wirtinger inequality (Lemmas/Wirtinger) on the Ritz deflection; first shape as trial for the upper bound; combined with C54 |
| C90 | `xiD`, `xiA`, `D`, `A`, the constraint regions of the optimisers | converse of C20: a feasible vector is an average of harmonics (two chords of the circle); thicknesses placed at cube-root (bending) or linear (membrane) breakpoints realise any average by a symmetric stack |
| C91, C92 | `build_sequence` on arbitrary texts | invariants of the character loop; refutation witness for unclosed groups |
| C93 | `buckling_analysis` as a table of outcomes | case analysis along the checks; counting of the shapes left by the supports |
| C94 | constructors, laminate, plate and strength chained | composition of C01, C03, C05, C15, C29, C48, C89, C93 |
| C95 | plates held on four edges: `calc_K_KG_D`, supports | integration by parts on the Ritz deflection, completed square, Poincaré inequality; parabolas as trial for the upper bound |
| C96 | `A`, `B`, `D` of assembled stacks | shift lemmas for the moment sums, induction on the number of copies |
| C97 | `ABD` between homogeneous plates | ply-by-ply comparison of the stack energy; C82 for buckling |
| C98 | margin table as a set of safe loads | C35 box, C30 linearity, C38 scaling, C34 equilibrium |
| C99 | plates held on four edges: `calc_K_KG_D`, supports | double sine series (Parseval from Mathlib's Fourier basis); shapes of PINNED span all polynomials vanishing at the ends, Weierstrass approximation of the half waves |
| C100 | shipped tables against exact integrals on held plates | dual polynomials of the end-vanishing shapes and their norms (Gen/Duals.lean, written by tools/gen_duals.py, checked in the kernel) bound each coefficient by the mean square; tensor product argument |
| C101 | exact rational results at multiples of 45 degrees | squares and product of cosine and sine are rational; the sums over the plies commute with the cast from `ℚ`; the test references by evaluation in the kernel (`decide +kernel` on rationals) |
| C102 | two-sided bounds on first buckling factors, buckling tests | lower: C99/C100 (pinned), the Wirtinger inequality of C89 plus the twist energy split between the two slopes (clamped); upper: Rayleigh quotients of polynomials in the Ritz space; the stiffness of the tests by evaluation (C101) and diagonal dominance |
| C103 | best designs of the optimisers, optimisation tests | Rayleigh quotients of quartics and quintics from above, Navier bounds (C99/C100) from below with the shear traded for compression by 2uv <= k u^2 + v^2/k; both are linear in the lamination parameters, so the comparison over the feasible set is linear arithmetic |
| C104 | carried loads are concave, local optima are global | a load is carried iff c.Kc + l c.KGc >= 0 for all c (carries_iff); this is linear in K, K is affine in the lamination parameters and scales with T^3 (panel_form), 1/T^3 is convex; existence by compactness |
| C105 | texts, ==, !=, hash | fields are recovered by counting commas from the end (split_name), then one by one (peel); operators by cases on the two operands, following the Python data model |
| C106 | multipliers from above | expansion in Legendre polynomials (legendre_ode, legendre_deriv_norm) gives a Markov inequality with constant n(n+1)^2(n+2)/4 (markov_ineq); shear is traded for tension (work_shear_le); accuracy as in C100; the first value is the multiplier closest to 1 on a logarithmic scale (head_greatest) |
| C107 | convergence for any supports | approximation of smooth deflections with their derivatives by cubic end data plus twice integrated Bernstein polynomials (Lemmas/Scheme), applied to both variables (tensor_near); these respect the supports (tensor_ritz) and every polynomial that does is spanned by the kept shapes (span_kept); Rayleigh quotients as in C95 |
| C108 | all multipliers | counting by the dimension of the spaces on which energy plus factor times work is not positive (numModes_ge, modes_energy, simultaneous diagonalisation); compactness of the sphere of coefficients and C107's approximation for the limit |
| C109 | order of the reported values | dimension count against the orthogonal complement of the first vectors (full_ordered), monotonicity of the Cayley key, comparison of pencils (compare_kth) |
| C110 | rounding of the stack integrals | Spec.Within (a value, its exact value and a size) closed under sums, products and rounding; induction over the plies with growing exponents |
| C111 | rounding from material to stiffness | the same, with a quotient rule for denominators bounded away from 0 and Lipschitz bounds for cos and sin |
| C112 | rounding of plate matrices and multipliers | Spec.Within with growth 1/(1-u) for quotients; errors of K and KG bound quadratic forms, min-max for the k-th multiplier |
| C113 | rounding of strains, stresses, margins | Spec.Within through matrix-vector products; inverse perturbation in the row-sum norm; one-sided bounds for margins |
| C114 | files written by the table scripts | a reader for dictionary displays; induction on the entries, insertion of fresh keys appends |
| C115 | limits of the computed results | continuity at zero of the error bounds of C111 to C113; perturbation of inverses; a finite list of distances to the allowables |
| C116 | scripts in `theoretical` | unfolding; C45, C102, exact stiffness of 100 plies |
| C117 | allowables of zero | cases on the sign of the stress; C36 |
| C118 | multipliers printed in the notebooks | for each value a bound from below (matrix = multiple of the unit matrix + sum of squares - rank k-1, up to small entries) and from above (k vectors of negative energy); integer matrices from Gen/Nine.lean, certificates Gen/Doc*.lean written by tools/gen_cert.py, all checked by `decide +kernel` with rows packed into single numbers (Lemmas/Packed, Certificate, PlateCert); C109 for the order |
| C119 | optima printed in the optimisation notebook | stiffness affine in the lamination parameters, so each vector gives an upper bound of the multiplier that is a half plane; two vectors on either side of the optimum and the constraint enclose it; certificate from below at a near-optimal design; corner certificates for positivity on the box; Gen/Design*.lean from tools/gen_design.py; C104 for local = global |
| C120 | tables printed in the strain and stress notebook | exact rational strains solve the 6 by 6 system (checked by the kernel); rows of the tables by C101_tables; comparison with the printed numbers by `decide +kernel` |
| C121 | roundings of a plate with held edges | the energy of a deflection bounds its curvatures (C100), so an error of `D` is compared with the smallest stiffness; roundings of the entries as in C112 |
| C122 | printed multipliers with double precision | C111 and C125 for `D`, certificates of C118 for the energy and the brackets, row sums of the sizes of the terms checked by the kernel, C121, ordering of the reported values as in C109 |
| C123 | what is printed | lines printed as part of the outcome; case distinction over the steps of the analysis |
| C124 | display precision of pandas | the option is part of the outcome; induction over the calls |
| C125 | tolerances of the data | growth of errors as in C111 without rounding, Lipschitz bounds of the rotation, telescoping sums over the layers, perturbed pencils as in C121 |
| C126 | tolerances of strains, stresses and margins | C125 for `ABD`, perturbed inverse as in C113, products of matrices and vectors with relative tolerances |
| C127 | tolerances of the sides and loads of a plate | other sides as another stiffness and other loads on the same plate; work of any loads bounded by the bending energy; counting of modes as in C112 |
| C128 | the optimisers in floating-point arithmetic | errors of each operation of the constraints; computed `D` from C111 and rounded loads as small changes of the entries of both matrices; counting of modes as in C112 |
| C129 | errors of the eigenvalue solver | residual in coordinates that diagonalise both matrices; a backward stable output as the exact output of a nearby pencil, small changes of pencils as in C128 |
| C130 | assigning to attributes | induction over histories; invariant of the caches from C23; independence of the analysis from the stored attributes |
| C131 | writing into returned arrays | invariants of the cache slots that all getters preserve |
| C132 | NaN and infinity in the data | a sum or product is finite iff both operands are; followed through the loops |
| C133 | NaN and infinity in plates and lamination parameters | as C132; exceptions compared with those for 1 in place of NaN and infinity |
| C134 | NaN and infinity in the arguments of the optimisers | as C132; `eigsh` and `list.sort` on NaN are parameters |
| C135 | the critical column in every version of pandas | `idxmin` as documented, with NaN filled by +inf, and raising for a row of NaN |
| C136 | dictionaries and sets as arguments of `build_pcomp` | arrays in C139 |
| C137 | releasing supports never raises a buckling load | a term added for each released support; false without; exact integrals, shipped tables under the condition of C100 |
| C138 | optimum in the notebook on lamination parameters | gradient and load as multiples of two influences; completing the square; C26, C99; case 2 of the notebook is wrong for square half waves |
| C139 | arrays as arguments of `build_pcomp` | unfolding; the outcome of the three comparisons decides; versions of numpy are a parameter |

Refuted properties keep their full English statement in `properties.jsonl`; the Lean side has a
`..._false` theorem with a witness and a `..._partial` theorem with what does hold.

## 5. Findings

What the model shows about the code (each with a theorem):

* `IsotropicMaterial` without allowables raises `ValueError` (C02). Accepted constants may give an indefinite `Q_0` (C05).
* A failed stiffness read leaves a partial cache; the second read then returns a wrong value (C24, C68).
* Any two lamination-parameter laminates compare equal (C27).
* Margin rows carry the position labels in the opposite order of the stress rows (C37).
* The flags of the y edges for `v` and `w` are taken from `u` (structure.py:254-255) (C42). A word edge in a mixed dictionary
  constrains nothing (C43).
* `calc_K_KG_ABD`: `k11`, `k13`, `k21`, `k31` are not the plate energy and block (2,3) repeats `k31` (C52, C88).
* `eigsh` orders by the Cayley transform, so the first reported eigenvalue need not be the critical one (C54).
* `build_sequence`: an upper-case `S` always raises (C61); the documented example does not return the documented list (C62).
  An unclosed group is silently dropped, a group without a count raises (C92).
  `build_pcomp`: the continuation mark is glued to the last field of full lines (C63).
* `plot_eigenvalue` raises `IndexError` for `ngridx != ngridy` (C65). `plot_optimization` draws with the raw loads and does not catch the
  solver failure that the objective catches (C78).
* A stress of `-0.0` gives the tension margin `-inf` (C70).
* `LaminateStrength` re-reads the caller's list, so changing it later changes the stresses (C69).
