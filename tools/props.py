#!/usr/bin/env python3
"""Writes /verif/properties.jsonl (one JSON object per line) from the table below."""
import json, os
P = []
def p(id, title, statement, quantifier, why, anchors):
    P.append(dict(id=id, title=title, statement=statement, quantifier=quantifier, why_tests_cant=why, anchors=anchors))
MAT='composipy/core/material.py'; PROP='composipy/core/property.py'; STR='composipy/core/strength.py'
STC='composipy/core/structure.py'; VAL='composipy/utils/validators.py'; BK='composipy/pre_integrated_component/build_k.py'
FN='composipy/pre_integrated_component/functions.py'; IIF='composipy/pre_integrated_component/_ii_F.py'; SS='composipy/pre_integrated_component/_S.py'
WP='composipy/pre_integrated_component/write_pre_integrated_terms.py'; WS='composipy/pre_integrated_component/write_shape_function.py'
OU='composipy/optimize/utils.py'; OM='composipy/optimize/_maximize_buckling.py'; OW='composipy/optimize/_minimize_panel_weight.py'
NA='composipy/nastranapi/pcomp_generator.py'

# ---------------------------------------------------------------- validation and materials
p('C01','OrthotropicMaterial accepts exactly the in-range arguments',
  'OrthotropicMaterial(e1,e2,v12,g12,thickness,t1,c1,t2,c2,s) succeeds exactly when every argument converts to a float, no argument compares below 0 (v12: below -0.5 or above 0.5) and e1 is not 0; the stored attributes are then the converted arguments unchanged. An unconvertible or out-of-range argument raises ValueError; an otherwise valid e1 = 0 raises ZeroDivisionError. Infinities in range, and NaN, are accepted.',
  'every argument value: numbers incl. NaN/inf, strings, None, containers','ten arguments of arbitrary type; boundaries are inclusive and NaN passes every comparison',
  [MAT+':OrthotropicMaterial.__init__',VAL+':ComposipyValidator._float_number'])
p('C02','IsotropicMaterial allowables are optional',
  'IsotropicMaterial(e,v,g,thickness) with in-range values succeeds and the allowables t, c, s may be omitted, as the signature and docstring say (default None). [Refuted for the code: omitting any of t,c,s raises ValueError; with all seven numbers given, acceptance is exactly the in-range condition.]',
  'every argument value','quantifies over all argument combinations',
  [MAT+':IsotropicMaterial.__init__',VAL+':ComposipyValidator._float_number'])
p('C03','PlateStructure accepts exactly integer-valued m, n >= 1 and non-negative sides',
  'PlateStructure(...) succeeds exactly when dproperty is a Property, a and b convert to a float that does not compare below 0, the loads convert to floats, and m and n convert to a finite integer-valued number >= 1; stored m and n are those integers. Anything else raises ValueError.',
  'every argument value incl. NaN, inf, fractional and string numbers','unbounded argument space',
  [STC+':PlateStructure.__init__',VAL+':ComposipyValidator._int_number',VAL+':ComposipyValidator._is_instance'])
p('C04','Q_0 is the inverse of the plane-stress compliance',
  'For e1,e2,g12 nonzero and v12^2*e2 != e1 the matrix OrthotropicMaterial.Q_0 is symmetric and is the two-sided inverse of [[1/e1,-v12/e1,0],[-v12/e1,1/e2,0],[0,0,1/g12]].',
  'all real moduli and Poisson ratios','holds for a continuum of inputs; the test checks one material',
  [MAT+':OrthotropicMaterial.Q_0'])
p('C05','Every accepted material with positive moduli has a positive-definite Q_0',
  'Reading Q_0 of an accepted OrthotropicMaterial with e1,e2,g12 > 0 succeeds and gives a positive-definite matrix. [Refuted for the code: the constructor bounds v12 only by +-0.5. Proved exactly: Q_0 raises ZeroDivisionError iff v12^2*e2 = e1, and is positive definite iff v12^2*e2 < e1.]',
  'all accepted materials','needs every point of the accepted region, including the thin set where the read raises',
  [MAT+':OrthotropicMaterial.Q_0',MAT+':OrthotropicMaterial.__init__'])
p('C06','Isotropic plies are orientation independent and match the orthotropic formula',
  'IsotropicMaterial(e,v,g).Q_0 equals OrthotropicMaterial(e,e,v,g).Q_0, never raises for accepted v, is positive definite for e,g>0, and an isotropic ply with g = e/(2(1+v)) contributes the same rotated stiffness at every ply angle; conversely independence from the angle forces that g.',
  'all e, v, g and all angles','continuum of angles',
  [MAT+':IsotropicMaterial.Q_0',PROP+':LaminateProperty.Q_layup'])
p('C07','Material equality compares the ten mechanical values only',
  'For two OrthotropicMaterials without NaN fields, m1 == m2 iff all ten mechanical attributes agree, whatever their names and creation order; hence == is reflexive, symmetric and transitive. Comparing with anything that is not an OrthotropicMaterial raises ValueError. The same holds for IsotropicMaterial and its seven values.',
  'all pairs and triples of materials','pairs of arbitrary objects',
  [MAT+':OrthotropicMaterial.__eq__',MAT+':IsotropicMaterial.__eq__'])
p('C08','Automatic material names are stable and distinct',
  'In every history of material constructions (successful or failing) and name reads, an unnamed material always reports the same name ply_k, two unnamed materials of one class never share a name, the k-th successfully constructed material of a class has number k, a user-supplied name is reported verbatim, and failed constructions do not consume numbers.',
  'every finite history of operations','histories are unbounded; the counter is class-level state',
  [MAT+':OrthotropicMaterial.name',MAT+':OrthotropicMaterial._ids',MAT+':IsotropicMaterial.name'])
p('C09','Invariants give the rotated ply stiffness',
  'With U1..U5 = Invariants(), the ply stiffness rotated by any angle t is Q11=U1+U2 cos2t+U3 cos4t, Q22=U1-U2 cos2t+U3 cos4t, Q12=U4-U3 cos4t, Q66=U5-U3 cos4t, Q16=U2/2 sin2t+U3 sin4t, Q26=U2/2 sin2t-U3 sin4t, and U5=(U1-U4)/2.',
  'all materials and all real angles','trigonometric identity over a continuum',
  [MAT+':OrthotropicMaterial.Invariants',PROP+':LaminateProperty.Q_layup'])
# ---------------------------------------------------------------- laminate
p('C10','The layup pairs angles and plies in order',
  'LaminateProperty(stacking, plies) with a single material uses it for every angle; with a list it needs exactly one ply per angle, otherwise ValueError; the layup keeps the given bottom-to-top order, one entry per angle.',
  'all stackings and ply lists of any length','unbounded lengths',
  [PROP+':LaminateProperty.__init__'])
p('C11','Ply interfaces partition the thickness symmetrically about the mid-plane',
  'z_position has one more entry than plies, starts at -h/2 and ends at +h/2 where h is the sum of ply thicknesses, and consecutive entries differ by the ply thickness (so it is non-decreasing).',
  'all layups','unbounded number of plies of arbitrary thickness',
  [PROP+':LaminateProperty.z_position'])
p('C12','Rotated ply stiffness obeys the tensor rotation law',
  'For every ply and angle, the rotation matrices are invertible (no LinAlgError), the rotated stiffness is symmetric, has the strain energy of Q_0 in the rotated strain, equals Q_0 at 0 degrees, swaps directions 1 and 2 at 90, flips only the shear-coupling signs for -angle, repeats every 180 degrees, and is positive definite whenever Q_0 is.',
  'all angles and all ply matrices','continuum of angles',
  [PROP+':LaminateProperty.Q_layup',PROP+':LaminateProperty.T_layup'])
p('C13','A, B, D are the through-thickness stiffness moments',
  'For every stack of plies, A, B and D equal the integrals over z from -h/2 to h/2 of Q(z), z*Q(z) and z^2*Q(z), where Q(z) is the rotated stiffness of the ply lying at height z; computing them never fails when the ply stiffnesses can be computed.',
  'all stackings, ply materials and thicknesses >= 0','unbounded plies, real-valued data',
  [PROP+':LaminateProperty.A',PROP+':LaminateProperty.B',PROP+':LaminateProperty.D'])
p('C14','ABD is symmetric with blocks [[A,B],[B,D]]',
  'ABD is the 6x6 block matrix [[A,B],[B,D]] and is symmetric, for stackings and for lamination-parameter laminates.',
  'all laminates','unbounded inputs', [PROP+':LaminateProperty.ABD'])
p('C15','ABD of admissible plies is positive definite',
  'A non-empty stack of plies with positive thickness and positive-definite Q_0 has positive-definite A, D and ABD; in particular ABD is invertible.',
  'all stackings of admissible plies','unbounded plies; definiteness is a universally quantified inequality',
  [PROP+':LaminateProperty.ABD'])
p('C16','A ignores the ply order',
  'Permuting the layup (angles together with their plies) leaves A unchanged.',
  'all permutations of all layups','factorially many permutations', [PROP+':LaminateProperty.A'])
p('C17','Symmetric layups do not couple',
  'If the layup reads the same from bottom to top and top to bottom then B = 0; more generally reversing a layup keeps A and D and negates B.',
  'all layups','unbounded lengths', [PROP+':LaminateProperty.B',PROP+':LaminateProperty.D'])
p('C18','Balanced and cross-ply layups have no shear coupling',
  'If every angle theta is matched by an equal ply at -theta (as a permutation) then A16 = A26 = 0; if all angles are multiples of 90 degrees then A16, A26, B16, B26, D16, D26 are all 0; if the layup is antisymmetric then D16 = D26 = 0 as well.',
  'all layups of those forms','unbounded families', [PROP+':LaminateProperty.A',PROP+':LaminateProperty.D'])
p('C19','Lamination parameters reproduce the stiffness of the stack',
  'For a single-material stack of positive thickness, building LaminateProperty({xiA: lam.xiA, xiD: lam.xiD, T: h}, ply) gives the same A and D as the stack itself.',
  'all stackings of a single orthotropic material','equality of two different code paths for every stack',
  [PROP+':LaminateProperty.xiA',PROP+':LaminateProperty.xiD',PROP+':LaminateProperty.A',PROP+':LaminateProperty.D'])
p('C20','Lamination parameters of real stacks lie in the feasible region',
  'For every stack of positive total thickness (plies of non-negative thickness) xiA and xiD have all components in [-1,1], xi1^2+xi2^2<=1, xi3>=2*xi1^2-1 and the full feasibility inequality 2 xi1^2(1-xi3)+2 xi2^2(1+xi3)+xi3^2+xi4^2-4 xi1 xi2 xi4 <= 1.',
  'all stackings','inequality over unbounded data', [PROP+':LaminateProperty.xiA',PROP+':LaminateProperty.xiD',OU+':natural_constraint_g'])
p('C21','Stiffness scales with ply thickness',
  'Scaling all ply thicknesses by k >= 0 scales A by k, B by k^2 and D by k^3 and leaves xiA and xiD unchanged (k>0).',
  'all layups and scale factors','continuum', [PROP+':LaminateProperty.A',PROP+':LaminateProperty.B',PROP+':LaminateProperty.D'])
p('C22','Splitting or merging identical adjacent plies changes nothing',
  'Replacing one ply of thickness t1+t2 by two adjacent plies of the same material constants and angle with thicknesses t1 and t2 leaves A, B and D unchanged; a zero-thickness ply is inert.',
  'all layups and split positions','unbounded', [PROP+':LaminateProperty.A',PROP+':LaminateProperty.B',PROP+':LaminateProperty.D'])
p('C23','Reading order of laminate properties does not matter',
  'For a laminate whose ply stiffnesses are computable, in every history of reads of z_position, Q_layup, T_layup, A, B, D, ABD, xiA, xiD each read returns what it would return on a fresh object, for stackings and for lamination-parameter laminates.',
  'every finite history of property reads','the getters cache and overwrite each other\'s attributes; histories are unbounded',
  [PROP+':LaminateProperty'])
p('C24','A failed stiffness read keeps failing',
  'If reading A (B, D, Q_layup) raises, reading it again on the same object raises again rather than returning a value. [Refuted: the cache is initialised before the failing computation, so the second read of A returns a zero matrix and of Q_layup a truncated list.]',
  'every laminate and every history after an exception','needs the state left behind at the crash point',
  [PROP+':LaminateProperty.A',PROP+':LaminateProperty.Q_layup'])
p('C25','Lamination-parameter dictionaries without xiD or T are rejected',
  'LaminateProperty(dict, ply) raises (UnboundLocalError) whenever key xiD or T is missing, and succeeds whenever both are present; missing xiA/xiB are treated as None.',
  'all dictionaries','arbitrary key sets', [PROP+':LaminateProperty.__init__'])
p('C26','Lamination-parameter laminates have B = 0 and A only when given',
  'For a laminate defined by lamination parameters B is the zero matrix in every reading order, A is the lamination-parameter formula when xiA is present and zero when it is absent, D is always the formula; without xiA every LaminateStrength.epsilon0 raises LinAlgError.',
  'all lamination-parameter laminates and read histories','histories and real data',
  [PROP+':LaminateProperty.A',PROP+':LaminateProperty.B',STR+':LaminateStrength.epsilon0'])
p('C27','Equal laminates have equal stiffness',
  'If lam1 == lam2 is True then lam1.ABD equals lam2.ABD. [Refuted for lamination-parameter laminates: any two of them compare equal. Proved for stackings, where == holds iff the layups agree entry by entry.]',
  'all pairs of laminates','pairs of arbitrary laminates', [PROP+':LaminateProperty.__eq__'])
p('C28','Later mutation of the stacking list does not change ABD',
  'After construction, mutating the list that was passed as stacking never changes z_position, Q_layup, A, B, D or ABD (xiA and xiD do follow the mutated list).',
  'every history of list mutations and reads','aliasing across an unbounded history', [PROP+':LaminateProperty.__init__',PROP+':LaminateProperty.xiA'])
# ---------------------------------------------------------------- strength
p('C29','epsilon0 is the unique response to the loads',
  'epsilon0() returns the unique vector e with ABD e = [Nxx,Nyy,Nxy,Mxx,Myy,Mxy] when ABD is invertible and raises LinAlgError exactly when ABD is singular; it never raises for admissible non-empty stacks.',
  'all laminates and loads','continuum of loads and laminates', [STR+':LaminateStrength.epsilon0'])
p('C30','Strains and stresses are linear in the loads',
  'Every strain and stress column of calculate_strain and calculate_stress at load c1*L1+c2*L2 is c1 times that at L1 plus c2 times that at L2.',
  'all load pairs, scalars and laminates','continuum', [STR+':LaminateStrength.calculate_strain',STR+':LaminateStrength.calculate_stress'])
p('C31','The strain table lists bottom and top of every ply, bottom to top',
  'calculate_strain and calculate_stress return 2n rows; rows 2k and 2k+1 carry ply number k+1, labels bot and top, the ply angle, the z of the ply bottom and top; plate-axis strains at z are eps0 + z*kappa; strains at the top of a ply equal those at the bottom of the next one.',
  'all laminates, all rows','unbounded number of rows', [STR+':LaminateStrength.calculate_strain',STR+':LaminateStrength.calculate_stress',STR+':LaminateStrength._epsilonk'])
p('C32','Material-axis strains and stresses are consistent',
  'In every row sigma_123 = Q_0 eps_123, sigma_xy = Qbar eps_xy, the strain energy sigma.eps is the same in both axes, and the 123 values are the tensor rotations of the xy values.',
  'all laminates, rows and loads','continuum', [STR+':LaminateStrength._epsilonk_123',STR+':LaminateStrength._stressk_123',STR+':LaminateStrength._stressk'])
p('C33','Computing material-axis strains does not corrupt plate-axis strains',
  'The in-place halving of the shear component done while computing 123 strains never shows up in the epsilonx/epsilony/gammaxy columns: calculate_strain reports full engineering shear, and calling the methods again in any order gives the same tables.',
  'every history of calls','aliasing of mutable arrays', [STR+':LaminateStrength._epsilonk_123',STR+':LaminateStrength.calculate_strain'])
p('C34','Ply stresses equilibrate the applied loads',
  'Integrating the reported (piecewise linear) plate-axis stresses over the thickness returns the applied membrane forces, and integrating z times them returns the applied moments.',
  'all laminates with invertible ABD and all loads','end-to-end identity over unbounded plies', [STR+':LaminateStrength.calculate_stress'])
p('C35','Margins are negative exactly when the allowable is exceeded',
  'For positive allowables: margin_t1<0 iff sigma1>t1, margin_c1<0 iff sigma1<-c1 (same for direction 2), margin_s<0 iff |tau12|>s; a zero stress, or one of the other sign, gives +inf; so a row is safe (all margins >= 0) iff -c1<=sigma1<=t1, -c2<=sigma2<=t2, |tau12|<=s.',
  'all stress values and positive allowables','continuum incl. the zero-stress division', [STR+':LaminateStrength.calculate_maxstressmargin'])
p('C36','critical names the smallest margin',
  'The critical column names a margin that is not NaN and is <= every other non-NaN margin of the row (the first such column on ties).',
  'all rows','all orderings of five values incl. inf/NaN', [STR+':LaminateStrength.calculate_maxstressmargin'])
p('C37','Margin rows are labelled like the stress rows they come from',
  'Row r of calculate_maxstressmargin and row r of calculate_stress agree on ply, angle and position. [Refuted for position: the margin table labels the bottom stress "top" and vice versa in every row; ply and angle agree.]',
  'all laminates, all rows','unbounded rows', [STR+':LaminateStrength._calculate_maxstressallowable',STR+':LaminateStrength.calculate_maxstressmargin'])
p('C38','Margins scale inversely with the load',
  'Multiplying all loads by c>0 multiplies margin+1 by 1/c in every entry.',
  'all loads, laminates and c>0','continuum', [STR+':LaminateStrength.calculate_maxstressmargin'])
p('C39','Ply-by-ply results of lamination-parameter laminates are refused',
  'calculate_strain/calculate_stress on a laminate defined by lamination parameters always raise (IndexError) instead of returning numbers.',
  'all lamination-parameter laminates and loads','universally quantified error path', [STR+':LaminateStrength._epsilonk'])
# ---------------------------------------------------------------- plate structure
p('C40','Each displacement gets m*n shape functions',
  'For every constraints value accepted, the u, v and w index sets each contain exactly m*n pairs, without repetition, in increasing order, and K, KG are (m*n)x(m*n).',
  'all m, n >= 1 and all constraint combinations','unbounded m, n', [STC+':PlateStructure._compute_constraints',STC+':PlateStructure.calc_K_KG_D'])
p('C41','Constraint spellings agree',
  "'PINNED', the default argument and all edges 'pinned' (any letter case, or 'simply_supported') give the same index sets; so do 'CLAMPED' and all edges 'clamped'/'fixed'; an unknown edge word raises KeyError.",
  'all m, n and letter cases','all spellings', [STC+':PlateStructure._compute_constraints'])
p('C42','Every listed edge constraint is honoured for its own displacement',
  "With per-edge lists of TX,TY,TZ,RX,RY,RZ, a T (R) flag on an edge removes the translation (rotation) function of that edge from the index set of exactly that displacement. [Refuted on y edges: v and w use the y-indices of u, so TY/TZ/RY/RZ at y0, yb are ignored and TX/RX are applied to all three; x edges are honoured.]",
  'all constraint lists and m, n','2^24 flag combinations times unbounded m, n', [STC+':PlateStructure._compute_constraints'])
p('C43','An edge given as a word keeps its meaning when other edges are lists',
  "A constraints dictionary mixing words and lists treats 'pinned'/'clamped' edges as such. [Refuted: in a mixed dictionary every word edge is silently free.]",
  'all mixed dictionaries','all combinations', [STC+':PlateStructure._compute_constraints'])
p('C44','Selected shape functions satisfy the edge conditions',
  'For word constraints, every selected deflection shape vanishes along each pinned edge, and vanishes together with its normal slope along each clamped edge, for every m and n.',
  'all m, n, all edges, all points of the edge','unbounded polynomial degree', [STC+':PlateStructure._compute_constraints',SS+':FXI',WS+':_orth_polynomials'])
p('C45','Bardell functions are bubble functions with Legendre second derivatives',
  'For every r>=5 the generated function f_r satisfies f(+-1)=0 and f\'(+-1)=0, has the parity of r-1, its second derivative is the Legendre polynomial P_(r-3), and second derivatives of different functions are orthogonal with norm 2/(2r-5).',
  'all r >= 5','infinitely many polynomials', [WP+':_orth_polynomials',WS+':_orth_polynomials'])
p('C46','The shipped shape-function tables are the generated functions',
  'FXI[i] for all 50 indices, and S[(i,j)] for all 2500 pairs, are exactly the functions the generator defines: FXI[i](xi), and S = FXI[i](xi)*FXI[j](eta).',
  'all 50 indices and 2500 pairs','the shipped file is data that no test reads', [SS+':FXI',SS+':S',WS])
p('C47','The pre-integrated tables are the integrals of the shape functions',
  'Every entry (i,k) of the six shipped tables is within 1e-8 of the exact integral over [-1,1] of the corresponding product of shape functions/derivatives, exactly equal to it for i,k>=4, and the FF, FXI_FXI and FXIXI_FXIXI tables are exactly symmetric.',
  'all 5400 table entries','the table is shipped data; errors would only perturb eigenvalues', [IIF,FN,WP])
p('C48','Bending and geometric stiffness matrices are symmetric',
  'K and KG of calc_K_KG_D are symmetric for all sizes, laminates with symmetric D, loads, constraints, m and n for which they are computed.',
  'all inputs','unbounded matrix sizes', [STC+':PlateStructure.calc_K_KG_D',BK+':calc_k33_ijkl',BK+':calc_kG33_ijkl'])
p('C49','K and KG discretise the plate energies',
  'With exactly integrated shape functions, c^T K c is the bending energy integral of D over the physical a x b plate for w = sum c_ij f_i f_j and c^T KG c is the work integral of the in-plane loads; hence K is positive semidefinite whenever D is. [The shipped tables differ from exact integrals by up to 1e-8.]',
  'all coefficient vectors, sizes, m, n','identity between a finite table lookup and a double integral', [BK+':calc_k33_ijkl',BK+':calc_kG33_ijkl'])
p('C50','K and KG scale with D and with the loads',
  'K is linear in D and independent of the loads, KG is linear in (Nxx,Nyy,Nxy) and independent of the laminate; hence (lambda,c) solves the buckling problem for loads N iff (lambda/s,c) solves it for s*N (s != 0), and scaling D by s scales multipliers by s.',
  'all inputs and scale factors','continuum', [STC+':PlateStructure.calc_K_KG_D',STC+':PlateStructure.buckling_analysis'])
p('C51','No KeyError for usable discretisations',
  'calc_K_KG_D finds every pre-integrated term when m, n <= 26, whatever the constraints; with clamped edges m = 27 raises KeyError.',
  'all m, n and constraints','boundary of a data table', [STC+':PlateStructure.calc_K_KG_D',FN,IIF])
p('C52','The coupled stiffness matrix is symmetric and its bending block is that of calc_K_KG_D',
  'K of calc_K_KG_ABD is symmetric, and its w-w blocks are the matrices of calc_K_KG_D. [Symmetry refuted: block (2,3) repeats k31, k13 lacks a factor, k21 uses a/b for b/a. Proved: bending blocks, and symmetry when a = b and B = 0.]',
  'all laminates and sizes','unbounded matrix sizes', [STC+':PlateStructure.calc_K_KG_ABD',BK])
p('C53','Reported eigenvalues solve the buckling equation',
  'Every (value lambda, vector c) reported by buckling_analysis satisfies (K + lambda*KG) c = 0, given that the sparse eigensolver returns eigenpairs of KG x = w K x with w != 0; min(num_eigvalues, m*n-2) pairs are requested, and m*n <= 2 is refused.',
  'all plates; eigensolver is any function meeting its contract','quantifies over solver outputs', [STC+':PlateStructure.buckling_analysis'])
p('C54','The first reported eigenvalue is the critical multiplier',
  'The smallest positive buckling multiplier is among the values returned by buckling_analysis and is the smallest positive one returned. [Refuted when multipliers below 1 exist: the Cayley mode with sigma=1 selects multipliers closest to 1 in |log|, so smaller ones can be dropped. Proved when every positive multiplier is >= 1.]',
  'all spectra','depends on the whole spectrum', [STC+':PlateStructure.buckling_analysis'])
# ---------------------------------------------------------------- optimise
p('C55','Load normalisation preserves direction and bounds',
  'normalize_critical_load returns loads in [-1,1], at least one of magnitude exactly 1, with norm*max equal to the input; it raises ZeroDivisionError iff all three loads are zero.',
  'all real load triples','continuum', [OU+':normalize_critical_load'])
p('C56','Optimiser constraints agree with the plotted region and with the physics',
  'For |xi1|<=1: _constraint(penalty=True) holds iff penalty_g1 >= 0 and penalty_g2 >= 0, and then natural_constraint_g >= 0; _constraint(penalty=False) iff natural_constraint_g >= 0. Every stack satisfies the natural constraint and every stack of 0/45/-45/90 plies satisfies g1,g2 >= 0. Vectors of length other than 2 or 3 are refused.',
  'all parameter values and all stacks','continuum', [OU+':penalty_g1',OU+':penalty_g2',OU+':natural_constraint_g',OU+':_constraint'])
p('C57','Load warnings are issued exactly when announced',
  'check_loads warns about non-compressive loading iff Nxx>=0, Nyy>=0 and Nxy=0, and about normalisation iff some load exceeds 1 in magnitude.',
  'all load triples','continuum', [OU+':check_loads'])
p('C58','Feasible weight-minimisation points do not buckle',
  'If a point (T,xi1,xi3) satisfies the critical-load constraint passed to the optimiser, then every positive buckling multiplier of that panel under the loads the caller gave is >= 1, given the first reported multiplier is the smallest positive one; the objective T^3 is strictly increasing so minimising it minimises T; multipliers scale with T^3.',
  'all panels, loads and points','continuum; composition of normalisation and eigenproblem', [OW+':minimize_panel_weight',OU+':Ncr_from_lp',OU+':normalize_critical_load'])
p('C59','The buckling objective is the negated multiplier',
  'The objective handed to the optimiser by maximize_buckling_load is minus the first multiplier of the panel with the normalised loads, and +1 if the eigensolver fails, so minimising it maximises the multiplier; start point and bounds lie in the feasible set.',
  'all panels and points','all inputs incl. solver failures', [OM+':maximize_buckling_load'])
# ---------------------------------------------------------------- nastran
p('C60','build_sequence expands well-formed stacking expressions',
  "For every stacking expression made of units a, a_n, a_{n}, \\pm a..., and groups (u/../u)_n joined by '/' (angles and counts with optional sign), optionally bracketed and followed by 's', build_sequence of its text returns the expansion: units repeated n times (not at all for negative n), \\pm alternating sign, groups repeated n times, and the mirror image appended for 's'.",
  'all expressions of any size','unbounded grammar', [NA+':build_sequence',NA+':_build_stack_unit',NA+':_build_pm_unit'])
p('C61','Symmetric stacks are palindromes of even length',
  "If build_sequence succeeds on a text ending in 's' the result is a palindrome of even length whose first half is the result for the text without the 's'; an upper-case S is announced as symmetric too. [Upper-case S refuted: the letter is not removed and the call raises ValueError.]",
  'all texts','all strings', [NA+':build_sequence'])
p('C62','The documented build_sequence example holds',
  "The docstring example '[\\pm45_{1}/0_2/90/(0/90)_1]s' gives [45,-45,0,90,0,90,90,0,90,0,-45,45]. [Refuted: the code returns [45,0,0,90,0,90,90,0,90,0,0,45]; \\pm yields the -angle ply only when the repeat count is at least 2.]",
  'the documented input; and all \\pm units','doc examples are not executed by the tests', [NA+':build_sequence',NA+':_build_pm_unit'])
p('C63','PCOMP cards list every ply once, in order',
  'For every non-empty sequence and matching (or scalar) midi, ti, sout, build_pcomp returns a header line with pid and z0 followed by ceil(n/2) continuation lines which, split at commas, contain exactly the four fields of ply 1, ply 2, ... in order, two plies per line. [Refuted for full lines: the comma before the continuation mark is missing, so the output request of every second ply is read as "YES+" or "NO+". Proved with that mark dropped.]',
  'all sequences of any length','unbounded lengths; odd and even', [NA+':build_pcomp',NA+':_convert_to_list'])
p('C64','Output requests and length mismatches',
  "sout='FIBER' marks exactly the first and last ply YES, 'YES'/'NO' mark all plies; list arguments of the wrong length raise ValueError; an empty sequence with FIBER raises IndexError.",
  'all lengths and arguments','unbounded lengths', [NA+':_convert_sout',NA+':_convert_to_list',NA+':build_pcomp'])
# ---------------------------------------------------------------- plots
p('C65','plot_eigenvalue draws the deflection of the requested mode',
  'After a successful buckling_analysis, plot_eigenvalue(nth, ngridx, ngridy) hands matplotlib a surface whose points are a uniform grid over the plate (corners included) and whose heights are the Ritz deflection of the nth returned eigenvector there, so supported edges are drawn at height 0. [Refuted for ngridx != ngridy: the loops index the mesh with the wrong extents and the call raises IndexError. Proved for square grids of at least 2 points.]',
  'all plates, modes (negative indices included) and grids','unbounded grids and modes; the tests never plot', [STC+':PlateStructure.plot_eigenvalue'])
p('C66','Plotting and analysis share one state consistently',
  'plot_eigenvalue on a fresh plate runs buckling_analysis() first and has its exceptions and its effect; on an analysed plate it changes nothing; a mode number outside -k..k-1 raises IndexError; so any sequence of plots after an analysis leaves the stored results untouched.',
  'all histories of plots','unbounded call histories', [STC+':PlateStructure.plot_eigenvalue',STC+':PlateStructure.buckling_analysis'])
# ---------------------------------------------------------------- strength histories
p('C67','Strength results do not depend on earlier calls',
  'On a laminate whose ply stiffnesses are computable, in every history of laminate reads, strength calls (epsilon0, calculate_strain, calculate_stress, calculate_maxstressmargin), changes of the load attributes and changes of the lists the caller passed, each call returns what new objects with the loads and lists of that moment would return.',
  'every finite history of calls','unbounded histories over two objects sharing caches', [STR+':LaminateStrength',PROP+':LaminateProperty'])
p('C68','A failed stress call keeps failing',
  'If calculate_stress raises, calling it again on the same object raises again. [Refuted: for every stack with an unreadable ply above admissible ones the first call raises ZeroDivisionError and every later call returns a table that stops below that ply and is computed from the stiffness of the plies below it; calculate_maxstressmargin then returns a table of full length with NaN margins from that ply on.]',
  'all stacks with an unreadable ply, all loads, any number of repeated calls','needs the state left behind at the crash point', [STR+':LaminateStrength.calculate_stress',PROP+':LaminateProperty.Q_layup'])
p('C69','Changing the stacking list after construction does not change stresses',
  'After construction, changing the list passed as stacking leaves the results of calculate_strain and calculate_stress unchanged. [Refuted: the methods read the caller\'s list again, so the next table rotates the old plate-axis stresses by the new angles; a shorter list drops plies, a longer one raises IndexError. Plate-axis stresses of the listed plies do stay.]',
  'all stacks, loads and changed lists','aliasing between caller and object', [STR+':LaminateStrength.calculate_stress',STR+':LaminateStrength._stressk_123'])
p('C70','A zero stress has an infinite margin whatever the sign of zero',
  'With positive allowables, a stress component equal to zero has margin +inf in both directions in the table of calculate_maxstressmargin, for +0.0 and for -0.0. [Refuted: for sigma_1 or sigma_2 equal to -0.0 the tension margin is -inf and it is reported as critical; for +0.0 and all other finite stresses the table agrees with the real-number model.]',
  'all finite stresses with signed zeros, all positive allowables','the sign of zero is invisible to equality tests', [STR+':LaminateStrength.calculate_maxstressmargin'])
p('C71','Turning laminate and loads together changes nothing',
  'If every angle is increased by phi and the loads are turned by phi, then A, B, D and the response turn as plane tensors, material-axis stresses are unchanged, and calculate_maxstressmargin returns the same table with phi added to the angles; exceptions agree.',
  'all stacks, loads and angles phi','a continuous symmetry over all laminates', [STR+':LaminateStrength',PROP+':LaminateProperty.ABD'])
p('C72','Symmetric laminates do not couple stretching and bending',
  'For a palindromic stack, loads without moments give zero curvature and the same plate-axis strain in every row of calculate_strain; loads without membrane forces give zero mid-plane strain and strains equal to height times curvature.',
  'all palindromic stacks with a response, all such loads','all layups', [STR+':LaminateStrength.epsilon0',STR+':LaminateStrength.calculate_strain'])
p('C73','Quasi-isotropic laminates have an isotropic A',
  'If the plies can be grouped into sets of n >= 3 equal plies at angles theta, theta+180/n, ... then A looks the same from all axes: A11 = A22, A16 = A26 = 0, 2 A66 = A11 - A12, in any ply order.',
  'all n >= 3, all numbers of groups, materials, start angles and ply orders','unbounded family of layups', [PROP+':LaminateProperty.A'])
p('C74','Trace invariants do not depend on the angles',
  'Two stacks with the same plies in the same order and any angles have the same X11+X22+2 X12 and the same X66-X12 for X = A, B, D, and are readable together.',
  'all pairs of such stacks','all angles', [PROP+':LaminateProperty.A',PROP+':LaminateProperty.B',PROP+':LaminateProperty.D'])
p('C75','Equal plies form a homogeneous plate',
  'If all plies have the same plate-axis stiffness Q and total thickness h then A = h Q, B = 0 and D = h^3/12 Q, whatever the thicknesses.',
  'all such stacks','all ply counts and thicknesses', [PROP+':LaminateProperty.A',PROP+':LaminateProperty.B',PROP+':LaminateProperty.D'])
p('C76','Mirrored laminates have mirrored results',
  'For the stack in reverse order under the same forces and opposite moments, epsilon0 has the same strains and opposite curvatures, and the stress and margin tables are the original tables read backwards with plies renumbered, z negated and top and bottom exchanged; exceptions agree.',
  'all stacks and loads','all layups', [STR+':LaminateStrength.calculate_stress',STR+':LaminateStrength.calculate_maxstressmargin'])
p('C77','Reciprocity and positive work',
  'For two load cases with responses, the work of the first loads on the second response equals the work of the second loads on the first; with admissible plies every nonzero load does positive work on its response.',
  'all stacks and pairs of load cases','all loads', [STR+':LaminateStrength.epsilon0'])
p('C78','The contour plot shows the function being maximised',
  'plot=True of maximize_buckling_load draws points_to_plot by points_to_plot grid points over [-1,1]^2, NaN outside the region, the boundary curves on the edge of the region, and contour values equal to the negated objective. [Refuted for the values: the plot uses the loads as given while the objective uses normalised loads, so contour value times the largest load is the negated objective; and the plot has no ArpackError handler. Grid, mask and curves are proved.]',
  'all panels, loads, grid sizes and solvers','needs the relation between two separately computed eigenproblems', [OU+':plot_optimization',OM+':maximize_buckling_load'])
p('C79','Similar plates buckle alike',
  'Magnifying a and b by s leaves KG unchanged and divides K, hence every buckling multiplier, by s^2, with the same modes; magnifying a, b and every ply thickness by s multiplies every multiplier by s. This holds for every constraint and for the shipped integral tables.',
  'all D, constraints, sizes, loads and factors s','a test compares two plates; the factor must come out of every one of the nine integrals', [BK+':calc_k33_ijkl',BK+':calc_kG33_ijkl',STC+':PlateStructure.calc_K_KG_D'])
p('C80','Exchanging x and y only renumbers the unknowns',
  'For constraints given by name or by four words, exchanging a with b, m with n, Nxx with Nyy, the edges and the axes of D gives the same multipliers and the same deflections. With lists of flags the exchange is not respected.',
  'all symmetric D, word constraints, sizes and loads','needs the symmetry of all table products and of the index sets', [BK+':calc_k33_ijkl',BK+':calc_kG33_ijkl',STC+':PlateStructure._compute_constraints'])
p('C81','More terms never raise the buckling load',
  'For m<=m2, n<=n2 each positive multiplier of the m by n discretisation has a positive multiplier of the m2 by n2 one that is not larger, whenever the finer K is positive definite; this is so for clamped plates with positive definite D and up to 26 by 26 terms.',
  'all D, loads, sizes and pairs of discretisations','a test sees finitely many refinements; the property rests on nested shape sets and the Rayleigh quotient', [STC+':PlateStructure._compute_constraints',STC+':PlateStructure.calc_K_KG_D'])
p('C82','Stiffer plates and milder loads buckle later',
  'For a clamped plate, if D2-D1 is positive semidefinite and the loads of plate 2 minus those of plate 1 are tensile in every direction, every positive multiplier of plate 2 has one of plate 1 that is not larger.',
  'all positive definite D1, all D2, sizes and loads, discretisations up to 26 by 26 (finer ones raise KeyError, C51)','an order between two eigenvalue problems for infinitely many matrices', [STC+':PlateStructure.calc_K_KG_D',BK+':calc_k33_ijkl'])
p('C83','Tension never buckles a plate, compression does',
  'For a clamped plate with positive definite D, loads tensile in every direction give no positive multiplier and buckling_analysis reports none; if Nxx b^2 + Nyy a^2 < 0 there is a positive multiplier whatever Nxy is.',
  'all sizes, discretisations up to 26 by 26, loads and solvers keeping the eigsh contract','absence of a positive eigenvalue for all loads', [STC+':PlateStructure.buckling_analysis',BK+':calc_kG33_ijkl'])
p('C84','Mirror images buckle alike',
  'For a clamped plate, negating D16, D26 and Nxy keeps the multipliers and reflects the modes; so does negating every ply angle together with Nxy.',
  'all laminates, sizes and loads, discretisations up to 26 by 26 (finer ones raise KeyError, C51)','needs the parity of all shape functions in the tables', [BK+':calc_k33_ijkl',BK+':calc_kG33_ijkl',PROP+':LaminateProperty.D'])
p('C85','A quarter turn of the plate changes nothing',
  'For a clamped plate, adding 90 to every ply angle, exchanging a with b, m with n and Nxx with Nyy and negating Nxy keeps the multipliers.',
  'all laminates, sizes and loads, discretisations up to 26 by 26 (finer ones raise KeyError, C51)','joins the rotation law of the laminate with the symmetries of the discretisation', [BK+':calc_k33_ijkl',PROP+':LaminateProperty.D',STC+':PlateStructure.calc_K_KG_D'])
p('C86','The computed matrices are the plate energies up to a stated rounding of the tables',
  'For every plate calc_K_KG_D accepts, with any constraints, c^T K c and c^T KG c differ from (twice) the bending energy and the work of the loads of the deflection by at most 4e-8 times an explicit size of the stiffness (loads) times (sum |c|)^2; so K is positive semidefinite up to that error and every buckled shape balances energy and work up to it. The error is not zero: ii_FF[(1,1)] is 0.0190476190476190, the integral is 2/105.',
  'all symmetric D, constraints, sizes, loads and coefficients','a test samples plates; the bound needs every table entry against the exact integral', ['composipy/pre_integrated_component/_ii_F.py',BK+':calc_k33_ijkl',BK+':calc_kG33_ijkl',STC+':PlateStructure.calc_K_KG_D'])
p('C87','Supported plates are definite, unsupported plates are degenerate',
  'If two opposite edges are both pinned or clamped, or some edge is clamped, every non-zero Ritz deflection has positive bending energy, so K is positive definite (for exact integrals always, for the shipped tables when the energy exceeds the rounding bound of C86). With four free edges a constant deflection is in the kernel of K and of KG: K is singular and every number is a buckling multiplier (shipped tables, 3 to 6 terms each way; exact integrals, any number of terms from 3).',
  'all positive definite D, sizes, loads, words and discretisations','definiteness for all coefficient vectors; degeneracy is invisible to a test that only looks at returned numbers', [STC+':PlateStructure._compute_constraints',BK+':calc_k33_ijkl',BK+':calc_kG33_ijkl',STC+':PlateStructure.buckling_analysis'])
p('C88','Which blocks of the coupled stiffness matrix are the laminated plate energy',
  'With exact integrals and any supports, and with the shipped tables for clamped plates, blocks (1,2), (2,2), (3,2) and (3,3) of the K returned by calc_K_KG_ABD are the mixed strain energies of the corresponding displacements. Block (1,1) is off by A66((b/a)^2-1) times the overlap of u_y, block (2,1) by A16((a/b)^2-1) times the overlap of v_x and u_x, block (1,3) by B11(a-1) and B26(1/a-1) terms, block (3,1) by a B11 term, and block (2,3) repeats block (3,1). For clamped plates these blocks are right iff a = b or A66 = 0, a = b or A16 = 0, a = 1 or B11 = B26 = 0, and B11 = 0 respectively. Without coupling c^T K c is the strain energy plus the two stated errors, and exactly the strain energy on square plates.',
  'all laminate matrices with symmetric blocks, sizes and discretisations','each coefficient of nine formulas is tied to an integral over the plate for all indices; a test compares a few entries', [BK+':calc_K11_ijkl',BK+':calc_k12_ijkl',BK+':calc_k13_ijkl',BK+':calc_k21_ijkl',BK+':calc_k22_ijkl',BK+':calc_k23_ijkl',BK+':calc_k31_ijkl',BK+':calc_k32_ijkl',STC+':PlateStructure.calc_K_KG_ABD'])
p('C89','A clamped plate buckles between the Euler load and an explicit Rayleigh quotient',
  'For a clamped plate with positive definite D, no shear load and at most 26 terms per direction, every positive buckling multiplier computed from the shipped tables is at least the Euler multiplier of a clamped strip: 4 pi^2/((D^-1)_11 a^2) for loads compressing x only, likewise for y, and for biaxial loads at least one of the two strip multipliers 4 pi^2 m1/a^2, 4 pi^2 m2/b^2 whenever D - diag(m1,m2,0) is positive semidefinite. For every compressed plate (any shear) there is a positive multiplier not above (42(D11/a^4 + D22/b^4) + 24(D12 + 2 D66)/(a^2 b^2)) / (Nx/a^2 + Ny/b^2). If the load is within the Euler load, buckling_analysis reports the critical multiplier, it is the smallest positive value reported and lies between both bounds.',
  'all positive definite D, sizes, loads and discretisations up to 26 terms','the lower bound is the sharp Wirtinger inequality on an infinite family of discretisations; a test compares single plates', [STC+':PlateStructure.calc_K_KG_D',STC+':PlateStructure.buckling_analysis',BK+':calc_k33_ijkl'])
p('C90','Every feasible set of lamination parameters is that of a laminate',
  'Four numbers are the bending parameters xiD of some symmetric stack of given thickness and material exactly when they satisfy the inequalities of C20 (box, |w|<=1, and the determinant condition); likewise for xiA. Such a stack has B = 0 when its matrices are readable, and LaminateProperty built from the dictionary {xiD, T} (or {xiA, T}) returns the same D (or A) as the stack, or raises the same ZeroDivisionError. The penalty region of _constraint together with xi3 <= 1 is exactly the set of (xi1, 0, xi3, 0) of symmetric 0/45/-45/90 stacks, the natural region with xi3 <= 1 that of symmetric stacks of any angles. Hence for every point (T, xi1, xi3) admitted by the constraints the D handed to buckling_analysis by the optimisers belongs to a real laminate of thickness T.',
  'all feasible 4-vectors, thicknesses, materials and optimiser points','existence of a laminate for each of infinitely many parameter values needs a construction; a test can only check given laminates', [PROP+':LaminateProperty.xiD',PROP+':LaminateProperty.xiA',PROP+':LaminateProperty.D',PROP+':LaminateProperty.A',OW+':minimize_panel_weight',OM+':maximize_buckling_load'])
p('C91','build_sequence: exceptions and origin of the angles',
  "build_sequence on any text raises only ValueError or IndexError; IndexError exactly when the stripped text consists of letters s only (in particular when it is blank). When it returns, every angle of the result is plus or minus the float of a numeral whose characters appear in the text in that order.",
  'all texts','all strings', [NA+':build_sequence',NA+':_build_stack_unit',NA+':_build_pm_unit'])
p('C92','build_sequence refuses unbalanced groups',
  "A text with unequal numbers of opening and closing parentheses makes build_sequence raise. [Refuted: '45/(0/90' returns [45]; for every list of items followed by an unclosed group the items are returned and the group is silently dropped, and a text consisting of an unclosed group returns the empty list. Proved: a closed group without a repetition count always raises ValueError.]",
  'all lists of items and groups of any size','unbounded grammar; the silent loss of plies is only visible for malformed texts', [NA+':build_sequence'])
p('C93','buckling_analysis: complete table of outcomes',
  "For a plate with at least one term in each direction: an exception of the laminate is passed on; unknown constraint text raises TypeError, a missing edge or unknown word KeyError; a zero side raises ZeroDivisionError; too many terms raise KeyError, namely when the number of terms plus the number of suppressed edge shapes exceeds 30 in a direction (26 terms for CLAMPED, 28 for PINNED); numEig <= 0 or at most two shapes raise ValueError; in all other cases the outcome is that of eigsh called with k = min(numEig, m n - 2), its eigenvalues mapped by -1/x. Hence the exact condition for a return, and no other exceptions than these and the solver's.",
  'all laminates, constraints, plates, loads, numEig and eigensolvers','every combination of constraints, sizes and counts', [STC+':PlateStructure.buckling_analysis',STC+':PlateStructure.calc_K_KG_D',STC+':PlateStructure._compute_constraints'])
p('C94','The documented script works for every sound input',
  "If OrthotropicMaterial and PlateStructure accept their arguments with finite values, e2, g12, thickness and the sides are not zero and v12^2 e2 < e1, and the list of angles is not empty, then LaminateProperty is constructed, A, D and ABD are readable, symmetric and positive definite (D fails, with ZeroDivisionError, exactly when v12^2 e2 = e1); within the limits of C93 buckling_analysis reaches the eigensolver with symmetric K and KG (K positive definite for CLAMPED) and returns its answer; for a clamped plate under one compressive load at most the Euler load, an honest solver makes the smallest positive reported value the critical one, between the Euler and Rayleigh bounds of that laminate; and LaminateStrength returns strain and stress tables of two rows per ply for every load.",
  'all arguments (numbers or texts) accepted by the constructors, all stacks, plates and loads','composition over all inputs of five classes', [MAT+':OrthotropicMaterial.__init__',PROP+':LaminateProperty.__init__',STC+':PlateStructure.__init__',STC+':PlateStructure.buckling_analysis',STR+':LaminateStrength.calculate_strain'])
p('C95','Supported plates carry at least the classical long-plate buckling load',
  "For a plate whose four edges cannot deflect (PINNED, CLAMPED or any flags holding w), without shear load: every positive multiplier times the compression is at least 2 pi^2 (sqrt(D11 D22) + D12 + 2 D66) / width^2 (4 pi^2 D / width^2 for an isotropic stiffness), D being the bending stiffness or any stiffness below it without bending-twisting coupling; under compression in both directions every convex split of the two bounds is reached in one direction. Exact for CLAMPED with the shipped tables and for every support with exact integrals; with the shipped tables of other supports up to an explicit multiple of 4e-8. A PINNED plate in compression with at least two terms each way has a positive multiplier not above (12 (D11/a^4 + D22/b^4) + 20 (D12 + 2 D66)/(a b)^2) / (Nx/a^2 + Ny/b^2), so that a square isotropic plate lies between 39.47 D and 44 D.",
  'all stiffnesses, supports holding the four edges, sides, loads and numbers of terms','a bound over all plates and discretisations; tests see single plates', [STC+':PlateStructure.calc_K_KG_D',STC+':PlateStructure._compute_constraints',STC+':PlateStructure.buckling_analysis'])
p('C96','Laminates put together from laminates',
  "Putting one stack on top of another gives A = A1+A2 and the parallel-axis formulas for B and D with offsets of half the other height; a stack repeated n times has A = n A1, B = n B1, D = n D1 + n(n^2-1) h^2/12 A1; a stack followed by its mirror image has A = 2 A1, B = 0, D = 2 (D1 - h B1 + h^2/4 A1). With n going to infinity B/(nh)^2 tends to 0 and D/((nh)^3/12) to A1/h.",
  'all stacks, plies and repeat counts','relates infinitely many stacks to their parts', [PROP+':LaminateProperty.A',PROP+':LaminateProperty.B',PROP+':LaminateProperty.D',PROP+':LaminateProperty.z_position'])
p('C97','Laminates lie between their weakest and stiffest ply',
  "If every plate-axis ply stiffness lies between symmetric matrices lo and hi (as quadratic forms), then for every strain e and curvature k the energy (e,k)^T ABD (e,k) lies between h e^T lo e + h^3/12 k^T lo k and the same with hi; so h lo <= A <= h hi and h^3/12 lo <= D <= h^3/12 hi, and, for lo positive definite, the smallest positive buckling multiplier of a clamped plate of the laminate lies between those of the two homogeneous plates.",
  'all stacks of non-negative thickness, all bounds, strains and curvatures','an inequality over all stacks and deformations', [PROP+':LaminateProperty.ABD',PROP+':LaminateProperty.Q_layup',STC+':PlateStructure.calc_K_KG_D'])
p('C98','The safe loads form a convex set and margin + 1 is the load factor at failure',
  "With positive allowables: a load case has no negative margin exactly when each stress row is within the max-stress box of its ply; mixtures and parts of safe loads are safe; for c > 0 the load c N is safe exactly when c <= margin + 1 for every finite entry of the margin table of N; every load is safe when reduced enough and every non-zero load is unsafe when multiplied enough.",
  'all laminates, load cases and factors','sets of loads are infinite; tests use single load cases', [STR+':LaminateStrength.calculate_maxstressmargin',STR+':LaminateStrength.calculate_stress'])
p('C99','Simply supported plates: Navier solution as lower bound and as limit',
  "For a plate whose four edges cannot deflect, without shear load, every positive multiplier is at least the Navier multiplier (D11 u^2 + 2(D12+2 D66) u v + D22 v^2) / -(Nxx u + Nyy v), u = (i pi/a)^2, v = (j pi/b)^2, of some pair of half waves i, j >= 1 (D itself if D16 = D26 = 0, otherwise any uncoupled stiffness below it). For PINNED plates and any pair the load can drive, enough terms bring a multiplier within any margin above that Navier value; so with D16 = D26 = 0 the smallest multiplier tends, from above, to the smallest Navier multiplier.",
  'all stiffnesses, supports holding the four edges, sides, loads, numbers of terms and margins','a limit over the number of terms and a bound over all modes; tests compare single plates with 10% tolerance', [STC+':PlateStructure.calc_K_KG_D',STC+':PlateStructure.buckling_analysis',BK+':calc_k33_ijkl',BK+':calc_kG33_ijkl'])
p('C100','Accuracy of the shipped tables relative to the energies of the plate',
  "For a plate whose four edges cannot deflect (any rotations restrained) the matrices computed with the shipped, rounded tables give the bending energy and the work of the loads of every deflection with a relative error of at most tableAcc in each term: 3e-9 up to 10 by 10 terms, 5e-7 up to 16 by 16, 5e-3 for every plate that can be computed. With mu the smallest and M the largest modulus of the bending stiffness the energy is exact up to 3 M/mu tableAcc, so K is positive definite unless the stiffness is ill conditioned, and every critical multiplier computed from the shipped tables differs from the one of the exact energies by that relative amount, independently of the sides. The bounds of C95 and C99 therefore hold for the shipped tables up to that factor.",
  'all stiffnesses, constraints holding the four edges, sides, loads, numbers of terms and deflections','a bound over all plates and all deflections; tests compare a few plates with 10% tolerance', [IIF,STC+':PlateStructure.calc_K_KG_D',STC+':PlateStructure.buckling_analysis',BK+':calc_k33_ijkl',BK+':calc_kG33_ijkl'])
p('C101','Exact rational results for stacks of multiples of 45 degrees; reference values of the tests',
  "For every stack whose angles are integer multiples of 45 degrees and whose material data are rational, A, B, D, xiA, xiD, the mid-plane response, and all rows of the strain and stress tables are rational numbers, given by a separate executable calculation (textbook formulas for the rotated stiffness, sums over the plies, Hooke's law in the axes of the ply). Every rational load has exactly one rational response when the plies are admissible; a ply with nu12 nu21 = 1 makes A, B and D raise ZeroDivisionError. Evaluating the calculation shows that the reference values of test_ABD.py, test_Material_Q0.py, test_lamination_parameters.py and test_laminate_strains.py hold in exact arithmetic within the tolerances of those tests.",
  'all lists of plies with angles 45 k degrees (k any integer) and rational data; all rational loads','a statement about infinitely many stacks; the tests fix four of them and use floating point', [PROP+':LaminateProperty.A',PROP+':LaminateProperty.B',PROP+':LaminateProperty.D',PROP+':LaminateProperty.xiA',PROP+':LaminateProperty.xiD',STR+':LaminateStrength.epsilon0',STR+':LaminateStrength.calculate_strain',STR+':LaminateStrength.calculate_stress',MAT+':OrthotropicMaterial.Q_0'])
p('C102','Two-sided bounds on the first buckling factor of pinned and clamped plates; the buckling tests',
  "For a pinned plate in compression (three terms or more each way, no shear) a smallest positive multiplier exists; it is not below the Navier bound of any uncoupled stiffness below D and not above the Rayleigh quotient of the quartic t - 2t^3 + t^4 in both directions, up to the accuracy of the shipped tables; the quotient is at most 1.0014 times the Navier multiplier of one half wave each way when D12 + 2 D66 is not negative. For a clamped plate (up to 26 terms each way) every positive multiplier meets pi^2(4 D11/a^2 + (D12 + 2 D66)/b^2) <= -lam Nxx or the same with the directions exchanged, again for any uncoupled stiffness below D. If the solver keeps the contract of eigsh and returns the pairs in Cayley order, the first value of buckling_analysis is that smallest multiplier whenever the lower bound is 1 or more. Hence the assertions of tests/test_plate_buckling.py and tests/test_plate_buckling_LP.py (four tests) hold in exact arithmetic for every such solver.",
  'all positive definite D, all sides, all compressive loads without shear, all numbers of terms in the stated ranges, all solvers keeping the contract','the tests compare four plates with one solver; a bound for all plates and all solvers needs a proof', [STC+':PlateStructure.calc_K_KG_D',STC+':PlateStructure.buckling_analysis',BK+':calc_k33_ijkl',BK+':calc_kG33_ijkl'])
p('C103','The best designs of the optimisers; the optimisation tests',
  "Upper bounds: a pinned plate has a positive multiplier not above the Rayleigh quotient of any product of polynomials of the Ritz space that vanish at the edges; for two half waves along x the quintic gives a quotient within 1.7 percent of the Navier multiplier. Lower bounds with shear: replacing a shear Nxy by additional compressions k|Nxy| and |Nxy|/k does not raise the least multiplier, so every multiplier of a held plate is above a Navier multiplier of the traded loads, up to the accuracy of the shipped tables. Consequently, for a pinned panel twice as long as wide, compressed along its length, of a material with U3 >= 0, no lamination parameters give more than 1.014 times the load of xi1 = 0, xi3 = -1. For every solver that keeps the contract: the problem maximize_buckling_load hands to minimize in tests/optimization_test has a finite objective at all feasible designs, and a design minimising it meets the three assertions of the test; of the designs of thickness 0.35 or more acceptable to the problem of minimize_panel_weight in the second test, T = 23.1, xi1 = -0.41, xi3 = -0.18 is one, none is thinner than 22.06, and the thickness of the lightest is within the tolerance of the reference.",
  'all positive definite D, sides, loads and numbers of terms in the stated ranges, all solvers keeping the contract; for the tests all points of the feasible sets','a test runs one local search from one start point; whether its result is the global optimum cannot be seen from it', [OU+':Ncr_from_lp',OU+':normalize_critical_load',OM+':maximize_buckling_load',OW+':minimize_panel_weight',STC+':PlateStructure.buckling_analysis'])
p('C104','Carried loads are concave; local optima of the optimisers are global',
  "If two plates with the same sides, edges and terms carry their loads (definite stiffness, no multiplier below 1), then for s, t >= 0, not both 0, the plate with D = s D1 + t D2 carries s N1 + t N2; in particular the loads a plate carries form a convex set. For a given load, what is carried is concave in D. Hence, for every solver that keeps the contract: if all feasible designs of maximize_buckling_load buckle and carry the normalised load, the objective is finite at all of them, every local minimum of the problem handed to minimize is a global one, there is one, and the minima form a convex set, with and without penalty. If the designs of minimize_panel_weight of thickness at least T0 within the bounds buckle only above the fraction 1/M of the normalised load (M >= 1 the largest load), the feasible ones among them form a convex set, every local minimum among them is a global one, and there is one unless none is feasible. In both optimisation tests a local minimum exists; every local minimum of the first test meets its three assertions, and the thickness of every local minimum of the second test that is at least 0.35 is within the tolerance of the reference.",
  'all stiffnesses, loads, sides, edges and numbers of terms; all panels and thicknesses meeting the stated condition, which is proved for the tests','convexity is a statement about all pairs of designs, and a run of a local search does not show whether another basin exists', [OU+':Ncr_from_lp',OM+':maximize_buckling_load',OW+':minimize_panel_weight',STC+':PlateStructure.buckling_analysis',STC+':PlateStructure.calc_K_KG_D'])
p('C105','Texts and comparison operators of materials and laminates',
  "repr of a material has the stated text; it changes nothing but fills in the automatic name, and a second repr gives the same text. If the text of numbers is injective on the numbers in use, not empty and without commas, then two materials of one class have the same text iff they have the same name and the same numbers; so the text decides == up to the name, even for names that contain commas. Texts of the two classes always differ. The text of a laminate of angles determines the angles and says nothing about the plies. x == y and y == x have the same outcome, exceptions included; x != y is the negation of x == y and raises the same exceptions. A material compared, on either side, with anything that is not a material of its class raises ValueError. A laminate differs from everything that is neither a laminate nor a material, and equals another laminate iff the layups agree. Materials and laminates cannot be hashed.",
  'all names, numbers, stackings, texts of numbers as stated, and pairs of objects','the tests compare a few objects of equal class and never look at the texts', [MAT+':OrthotropicMaterial.__repr__',MAT+':OrthotropicMaterial.__eq__',MAT+':IsotropicMaterial.__repr__',MAT+':IsotropicMaterial.__eq__',PROP+':LaminateProperty.__repr__',PROP+':LaminateProperty.__eq__'])
p('C106','Upper bounds on all multipliers, and thin panels',
  "A deflection made of m by n shape functions has at most curvRatio times as much curvature as slope (Markov inequality). So every load multiplier of a plate in compression is at most the greatest stiffness times that ratio over the compression, for any supports with exact integrals and for plates held along all edges with the shipped tables, up to their accuracy. If this bound is at most 1, the first value reported by buckling_analysis is finite and is the greatest multiplier of all instead of the critical one. For the panel of the weight test: whatever the thickness, no feasible design is thinner than 22.06, there is a local minimum, and every local minimum agrees with the reference of the test; if the panel is at most 0.04 thick, Ncr_from_lp returns the greatest multiplier, at least 1.5 times the critical one.",
  'all plates in compression, stiffness matrices, numbers of terms; all designs of the test; every solver as in C54 with output sorted as in C102','the tests look at thick panels only, where the first value is the critical one', [BK+':buckling_analysis',OU+':Ncr_from_lp',OW+':minimize_panel_weight'])
p('C107','Convergence with the number of terms for any supports',
  "Call a deflection admissible if it has continuous derivatives up to order 2 in each variable and vanishes (with its slope) on the edges whose flags ask for it. With exact integrals, positive definite stiffness, any load, and supports that prevent rigid motion: every load multiplier, for any m and n, is the quotient of bending energy and minus the work of the loads on an admissible deflection, and the smallest multiplier tends from above to the infimum of these quotients as m and n grow; there is no multiplier for any m and n if and only if the loads do negative work on no admissible deflection. For simply supported plates without coupling and shear the infimum is the smallest Navier multiplier. Multipliers of clamped plates with the shipped tables are such quotients too.",
  'all supports that hold the plate, all stiffness matrices, sizes and loads (shear and coupling included)','tests use fixed numbers of terms and compare with a few references', [BK+':buckling_analysis',BK+':calc_K_KG_D',FN+':fxi'])
p('C108','All load multipliers, counted with multiplicity',
  "Count the positive multipliers up to a load factor c with multiplicity, and call the k-th multiplier the least c up to which there are k. More terms never raise the k-th multiplier, a stiffer plate or milder loads never lower it, a held plate compressed in every direction has all its m n multipliers positive, and with exact integrals the k-th multiplier tends from above to the min-max of the quotients of energy and work over k admissible deflections as m and n grow, for every k and any supports that hold the plate.",
  'all supports that hold the plate, all stiffness matrices, sizes, loads, numbers of terms and ranks k','tests look at the first value only', [BK+':buckling_analysis',BK+':calc_K_KG_D'])
p('C109','The reported values are the multipliers in order',
  "If no positive multiplier is below 1 and eigsh keeps its contract (M-orthogonal eigenvectors; an eigenvector orthogonal to all of them comes later in its order), then the value at index i that buckling_analysis returns is the (i+1)-th positive multiplier, counted with multiplicity, as long as there are that many; for compressed clamped plates this covers the whole list. Under compression without shear each of these values agrees with the multiplier of the same rank of the exact energies to the accuracy of the tables.",
  'all plates, stiffnesses, loads, numbers of terms and of eigenvalues','tests look at the first value only', [BK+':buckling_analysis',BK+':calc_K_KG_D'])
p('C110','Rounding errors of z_position, A, B and D of a stack',
  "Computed in floating-point arithmetic with relative error u per operation (and no overflow or underflow), z_position, A, B and D of a stack of n plies differ from their exact values, entry by entry, by at most (1+u)^(2n+1)-1 times half the thickness, and by g(1+u)^(3n+3)-1, g(1+u)^(5n+7)-1 and g(1+u)^(7n+8)-1 times thickness, thickness squared over 4 and thickness cubed over 12 times the sum of the stiffness entries, where g bounds the error of the rotated stiffnesses. So B of a symmetric stack is computed as nearly zero. With a rounding that keeps the order of numbers, the computed interfaces never decrease and nonnegative stiffnesses give nonnegative entries of A. With u=0 the computed matrices are the exact ones.",
  'all stacks with nonnegative thicknesses, all roundings','tests compare a few stacks with a tolerance', [PROP+':z_position',PROP+':A',PROP+':B',PROP+':D'])
p('C111','Rounding errors from the material constants to the stiffness matrices',
  "For materials with v12*v21 (or v*v) in [0,1), Q_0 is computed exactly symmetric and every entry has a small relative error; the rotated stiffness of a ply, the invariants, A, B and D of a stack, and A and D from lamination parameters have errors that are small fractions of the sum of the entries of Q_0 (times the thickness power), with explicit factors. A and D from lamination parameters are computed exactly symmetric. The inverse of T_real is assumed to be computed with relative error gI; cos, sin and @ meet their usual error bounds.",
  'all materials with nonnegative Poisson product below 1, all angles, stacks, lamination parameters in [-1,1] and roundings','tests compare a few stacks with a tolerance', [MAT+':Q_0',MAT+':Invariants',PROP+':Q_layup',PROP+':A',PROP+':B',PROP+':D'])
p('C112','Rounding errors of the plate matrices and of the load multipliers',
  "Computed in floating-point arithmetic with relative error u<1 per operation from a bending stiffness D that is within a factor g of its exact value, the matrices K and KG of calc_K_KG_D (tables as shipped) are returned, exactly symmetric, and differ entry by entry from the exact ones by at most g/(1-u)^13-1 and 1/(1-u)^8-1 times the same formulas with all terms positive. If the exact K is positive definite and the errors are small against its energy, the computed K is positive definite too and the k-th load multipliers of the computed matrices differ from those of the exact ones by at most an explicit factor, for any loads. So for every relative accuracy there is a precision at which every arithmetic computes every load multiplier to that accuracy.",
  'all plates with positive sides for which calc_K_KG_D returns in exact arithmetic, all supports, loads, stiffnesses and roundings','tests compare a few multipliers with a tolerance', [BK+':calc_k33_ijkl',BK+':calc_kG33_ijkl',STC+':calc_K_KG_D'])
p('C113','Rounding errors of strains, stresses and margins',
  "Computed in floating-point arithmetic, the strain and stress tables of a stack have the rows of the exact tables one to one (same ply, position and angle), with heights, strains and stresses in plate and material axes that differ from the exact ones by explicit small fractions of their sizes (stiffness sizes times flexibility sizes times loads). The stiffness matrix ABD computed from the material constants can be inverted when its error is below the reciprocal of the row sums of the exact flexibility, and the flexibility then has an explicit error. Where all five computed margins of a row are at least eta, slightly more than u plus twice the stress error over the allowable, the exact stresses are within the allowables; where the exact stresses leave that room, no computed margin is negative.",
  'all stacks with nonnegative thicknesses, loads, positive allowables and roundings','tests compare a few stacks with a tolerance', [STR+':epsilon0',STR+':calculate_strain',STR+':calculate_stress',STR+':calculate_maxstressmargin'])
p('C114','The table scripts write files that read back as the tables',
  "The text convert_to_str returns reads back, as Python reads a dictionary display, as the dictionary: its name and its entries in order. The file written by write_shape_function.py reads as the tables FXI (the functions 0, 1, ... in order) and S (for every pair (i,k) the product of the i-th function of xi with the k-th of eta). write_pre_integrated_terms.py raises no error, and its file reads as six tables in the order ii_FF, ii_FXI_F, ii_FXI_FXI, ii_FXIXI_F, ii_FXIXI_FXI, ii_FXIXI_FXIXI, each with exactly one entry for every pair (i,k) of indices below n_terms: the text of the integral of the i-th function, differentiated as the first part of the name says, times the k-th, differentiated as the second part says.",
  'all numbers of terms, all script paths without a line end, all sympy expressions whose texts have no quote, backslash or line end','the scripts are not tested', [WS+':convert_to_str',WS+':__main__',WP+':convert_to_str',WP+':__main__'])
p('C115','With enough precision the computed results are as near to the exact ones as wanted',
  "For a laminate built from a stacking whose stiffness matrix is invertible, whose thicknesses are not negative and whose materials have 0 <= v12*v21 < 1, and for every tolerance, there is a precision (relative error of one operation) from which on, whatever the rounding, with inversions whose error is at most a constant times the precision times the condition number: calculate_strain and calculate_stress return tables with the rows of the exact tables and all numbers within the tolerance; the matrices of the buckling analysis, computed from the material constants, the angles and the shipped table texts, have every load multiplier within the relative tolerance of the exact one if the stiffness matrix of the plate is positive definite; and in every row of the margin table whose exact stresses are not equal to an allowable, all five computed margins are nonnegative exactly if the exact stresses are within the allowables.",
  'all laminates of stack mode with nonnegative thicknesses and Poisson products in [0,1), all loads, plates and tolerances','tests compare a few numbers in one precision', [PROP+':ABD',STR+':calculate_strain',STR+':calculate_stress',STR+':calculate_maxstressmargin',STC+':calc_K_KG_D'])
p('C116','The scripts in theoretical',
  "write_bardell_terms.py builds a dictionary with the keys 0 to 9 in order; under key i is shape function number i of the plate, the first four multiplied by the flags t1, r1, t2, r2. A displacement made of these functions has at the ends the displacements t1*c0 and t2*c2 and the slopes r1*c1/2 and r2*c3/2, so a zero flag holds its edge motion. With up to six terms, the functions PlateStructure chooses for the deflection are the first m of the dictionary that do not vanish when the flags of the held motions are zero and the others one. LP_test_composipy.py builds its laminate and plate without error, and the first value it prints is between 2.69 and 2.79.",
  'all rings of flags containing the rationals, all amplitudes, all constraints, m and n up to 6; all eigensolvers that keep the contract of eigsh','the scripts are not tested',
  ['composipy/theoretical/write_bardell_terms.py:f_xi','composipy/theoretical/write_bardell_terms.py:_orth_polynomials','composipy/theoretical/LP_test_composipy.py:plate1'])
p('C117','Allowables of zero, also the default ones',
  "With any accepted allowables, zero included, a margin of calculate_maxstressmargin is negative exactly where its allowable is exceeded, and a row has no negative margin exactly within the max-stress box. OrthotropicMaterial made without allowables has allowables of zero; if all allowables are zero, each margin is -1 where its stress acts and NaN elsewhere, critical is empty exactly in rows without stress and otherwise names a column with margin -1.",
  'all stacks of orthotropic plies, loads and nonnegative allowables','the tests give positive allowables', [MAT+':OrthotropicMaterial.__init__',STR+':calculate_maxstressmargin'])
p('C118','The multipliers printed in the notebooks',
  "For every solver that keeps the contract of eigsh, the values that buckling_analysis reports in exact arithmetic round to the ones printed in doc/notebooks: all five values, to 8 decimals, of panel_SSSS, panel_CCCC, panel_SSFS and panel_CCCC_nxy; the first value of the three plates of the verification study and of the plate of Optimization_buckling to one decimal; 48.52457849227318 of verification_plates to 14 decimals. The clamped plate of the tests has first value 119.7607275 to 7 decimals, where the test has 119.76079572. The number of values is the smaller of the number asked for and the number of terms less two.",
  'all solvers that keep the contract of eigsh, all numbers of values asked for','the tests compare one value within ten per cent; a run gives floating-point values of unknown accuracy', [BK+':buckling_analysis',STC+':PlateStructure.buckling_analysis','doc/notebooks/Critical_buckling_varying_BCs.ipynb','doc/notebooks/Critical_buckling_verification_study.ipynb','tests/test_plate_buckling.py'])
p('C119','The optima printed in the optimisation notebook',
  "For every solver that keeps the contract of eigsh, the three problems of doc/notebooks/Optimization_buckling.ipynb have these solutions in exact arithmetic. maximize_buckling_load with penalty=True: there is an optimum, every local optimum is a global one, has W1 = 0.487 and W3 = -0.026 to the printed digits and load multiplier 26.78917957 within 2e-8; the printed design is feasible and carries more than 26.7891. With penalty=False: the same with W1 = 0.677, W3 = -0.083 and 26.8928082 within 2e-7; the printed design carries more than 26.8927. minimize_panel_weight: there is a local optimum, and every local optimum at least 0.5 thick has T = 4.190, W1 = 0.487, W3 = -0.026 to the printed digits.",
  'all solvers that keep the contract of eigsh, all local optima, all starting points','a run of the optimiser ends at one point and gives no bound for the others', [OM+':maximize_buckling_load',OW+':minimize_panel_weight','doc/notebooks/Optimization_buckling.ipynb'])
p('C120','The tables printed in the notebook on strains and stresses',
  "For the laminate and loads of doc/notebooks/Stress_strain_of_laminate.ipynb the exact mid-plane strains and curvatures, the first ten rows of calculate_strain and all sixteen rows of calculate_stress (ply number, height, position, angle, strains or stresses in laminate and ply axes) agree with every printed number to half a unit of its last digit; numbers below 1e-15 are printed where the exact value is zero. The stress table has exactly the printed sixteen rows.",
  'one laminate and load case; all 26 rows of ten columns','the notebook is not run by the tests, and its output is floating-point', [STR+':LaminateStrength.epsilon0',STR+':LaminateStrength.calculate_strain',STR+':LaminateStrength.calculate_stress','doc/notebooks/Stress_strain_of_laminate.ipynb'])
p('C121','Roundings of a plate whose edges cannot deflect',
  "For a plate whose edges cannot deflect, an error of at most d in every entry of D changes the energy of every deflection by at most 3*d*(1+acc)/(mu*(1-err)) of itself, where mu is the smallest stiffness of D, and leaves the geometric matrix unchanged. Together with the roundings of calc_K_KG_D this gives computed matrices that are symmetric and positive definite, whose k-th load multiplier is between lam*(1-eta-delta*lam') and lam*(1+eta)/(1-delta*lam) for every k, where the error of D enters eta relative to mu and not to the smallest eigenvalue of K.",
  'all symmetric D above mu, all computed D, all plates with held edges, numbers of terms, loads and arithmetics of relative error u < 1','the tests compare single values to a few digits', [STC+':PlateStructure.calc_K_KG_D',BK+':calc_k33_ijkl',BK+':calc_kG33_ijkl',PROP+':LaminateProperty.D'])
p('C122','The printed multipliers with double precision',
  "When the material data are rounded to doubles and D, the table readings, the matrices and the last division are computed with relative errors of at most 2^-52 per operation and with a backward stable np.linalg.inv (constant 100), buckling_analysis of the seven plates with held edges in the notebooks and tests returns, for every solver that keeps the contract of eigsh on the computed matrices, values that agree with the printed ones, all five of them where five are printed: to 5e-5 (panel_SSSS, values up to 393), 2e-5 (panel_CCCC), 5e-5 (panel_CCCC_nxy, values up to 883), 0.0501 (verification study, one printed decimal), 5e-6 and 7e-6 (verification_plates and tests). The computed K is positive definite, so a solver that returns exists.",
  'every arithmetic of this accuracy and every solver; seven plates','floating-point results differ between platforms; the tests check one platform and one value per plate', [STC+':PlateStructure.buckling_analysis',STC+':PlateStructure.calc_K_KG_D',PROP+':LaminateProperty.D','doc/notebooks/Critical_buckling_varying_BCs.ipynb','doc/notebooks/Critical_buckling_verification_study.ipynb','tests/test_plate_buckling.py'])
p('C123','What is printed',
  "buckling_analysis(silent=True) prints nothing; with silent=False it prints four lines when it returns ('calculating K and KG', 'K and KG calculated in .. seconds', 'Calculating eigenvalues', 'eigenvalues calculated in .. seconds'), the first three when the matrices are built but no eigenvalues are found, and only the first when the matrices cannot be built. silent changes neither the result nor the attributes left on the plate, also when an exception is raised. plot_eigenvalue and Ncr_from_lp print nothing; _constraint prints a refused point only when it is not silent and answers the same; plot_optimization prints 'generating plot...' and, once the grid is computed without the penalty curves, 'penalty False'.",
  'all plates, solvers, requests, states, clocks and worlds before the call','tests do not capture output, and the output on each failure needs each failure', [STC+':PlateStructure.buckling_analysis',STC+':PlateStructure.plot_eigenvalue',OU+':_constraint',OU+':plot_optimization',OU+':Ncr_from_lp'])
p('C124','Display precision of pandas',
  "calculate_strain and calculate_stress set the process-wide pandas option display.precision to 2 when they return and leave it when they raise. calculate_maxstressmargin sets it as soon as every ply has allowables, even if it then raises because the stresses cannot be computed, and leaves it if a ply is isotropic. The option is never restored: after any sequence of calls on any laminates it is 2 if one of them set it and unchanged otherwise.",
  'all laminates, loads and sequences of calls','a global side effect shows only in unrelated later output', [STR+':LaminateStrength.calculate_strain',STR+':LaminateStrength.calculate_stress',STR+':LaminateStrength._calculate_maxstressallowable',STR+':LaminateStrength.calculate_maxstressmargin'])
p('C125','Tolerances of the data',
  "Change every elastic constant and thickness of a stack by at most the fraction e and every angle by at most al radians. Where the product of the Poisson ratios is at most r < 1 and e is small, A, B, D of the changed stack can be read and every entry changes by at most ((k+8)e + 5 al) S h (0.51 h)^k (k = 0, 1, 2 for A, B, D; h height, S bound of the sums of the sizes of the entries of Q_0; e up to one percent, r up to 1/2; explicit bounds for larger values), independently of the number of plies. For a plate with held edges KG does not change, K stays positive definite, and every positive multiplier, also for shear loads, changes by at most the fraction eta of the order of 3d/mu, where d is the change of D and mu bounds D from below; the plates have the same number of positive multipliers.",
  'all stacks of orthotropic and isotropic plies, all tolerances, all plates with held edges and all loads','tests use nominal data; how far an answer can be off within tolerances is a statement about a box of inputs', [PROP+':LaminateProperty.A',PROP+':LaminateProperty.B',PROP+':LaminateProperty.D',MAT+':OrthotropicMaterial.Q_0',MAT+':IsotropicMaterial.Q_0',STC+':PlateStructure.calc_K_KG_D'])
p('C126','Tolerances of strains, stresses and margins',
  "Change every elastic constant, thickness and load of a stack by at most the fraction e and every angle by at most al radians, as in C125. If the row sums of the flexibility are at most nu, those of the change of ABD at most eps and nu eps < 1, then the changed ABD can be inverted too and its flexibility differs by at most nu (nu eps / (1 - nu eps)) in every entry. calculate_strain and calculate_stress then return tables with the same plies and positions, interfaces that differ by at most e h / 2, angles by at most al, and strains and stresses, in plate and in material axes, that differ by explicit fractions of their sizes. Where all five margins calculate_maxstressmargin reports in a row are at least eta, and the change of the stresses is at most (1 - e - 1/(1 + eta)) times each allowable, the stresses of the changed stack are within the changed allowables, if these are at least 1 - e times the nominal ones.",
  'all stacks with an invertible ABD, all tolerances with nu eps < 1, all loads','tests compare tables for one set of nominal data; what a margin guarantees for parts within tolerances is a statement about all of them', [STR+':LaminateStrength.calculate_strain',STR+':LaminateStrength.calculate_stress',STR+':LaminateStrength.calculate_maxstressmargin',PROP+':LaminateProperty.ABD'])
p('C127','Tolerances of the sides and loads of a plate',
  "Take a plate with held edges and a stiffness between mu and M. Change every entry of the stiffness by at most d, and the sides and loads by at most the fraction e. calc_K_KG_D still returns matrices, and the bending matrix is still positive definite. For any loads the k-th multiplier lam, counted with multiplicity, becomes a lam' with lam' (1 - delta lam) <= (1 + eta) lam and lam (1 - eta - delta lam') <= lam', where eta covers stiffness and sides and delta covers the loads. Under compression without shear the change is a fraction whatever the size of the multiplier: lam' lies between (1 - eta) / (1 + g) and (1 + eta) / (1 - g) times lam, with g = (1 + e)^2 / (1 - e) - 1.",
  'all plates with held edges whose matrices calc_K_KG_D returns, all tolerances with eta < 1, all loads','tests evaluate single plates; a bound for all parts within tolerances needs an argument about the energies', [STC+':PlateStructure.calc_K_KG_D',STC+':PlateStructure.buckling_analysis'])
p('C128','The optimisers in floating-point arithmetic',
  "With every operation of normalize_critical_load, the constraint functions, Ncr_from_lp and the laminate rounded: the normalised loads fail exactly when they fail in exact arithmetic, each ratio is off by one rounding and the largest magnitude is exact. On the box of the optimisers the penalty functions are off by at most 10 units of rounding and the natural constraint by 12. With six digits or more, a design that satisfies the constraints exactly is accepted and an accepted design violates them by at most 0.00012. For every accuracy asked for there is a precision from which on the objective of maximize_buckling_load at a design, and the first constraint of minimize_panel_weight, have that relative accuracy, if the bending matrix is positive definite and the critical multiplier of the normalised loads exceeds 1. The objective of minimize_panel_weight is off by one rounding.",
  'all accepted panels with v12^2 E2 < E1, all loads, all designs in the box, all roundings of the stated precision, all solvers that keep the contract of eigsh for the computed matrices','tests evaluate single designs with one arithmetic; the statement is about every rounding', [OU+':Ncr_from_lp',OU+':normalize_critical_load',OM+':maximize_buckling_load',OW+':minimize_panel_weight'])
p('C129','Errors of the eigenvalue solver',
  "Two assumptions cover the roundings inside eigsh. A posteriori: whatever pair (w, v) the solver returns, if the residual KG v - w K v is at most rho kap |v|, where kap bounds the bending energy from below, then an eigenvalue lies within rho of w, and for rho < |w| the plate buckles at a load lam with |lam - (-1/w)| (|w| - rho) <= rho |-1/w|. Backward stability: if the output belongs, up to a fraction d of the values, to symmetric matrices whose entries differ from the given ones by at most the fraction d of the size of the matrix, then for every accuracy asked for there is a precision such that all values reported by buckling_analysis have it, in order and with multiplicity, when D, the matrices and the solver have that precision and no multiplier is 1 or less. The same holds from the plies of a stack to the reported values, and for the objective of maximize_buckling_load, which is 1 where the solver did not converge.",
  'all plates with positive definite bending matrix and multipliers above 1, all stacks with Poisson products below 1, all accepted panels; all roundings and all stable solvers of the stated precision','the statement is about every solver with small errors, a test runs one', [STC+':PlateStructure.buckling_analysis',OM+':maximize_buckling_load'])
p('C130','Assigning to attributes of live objects',
  "The constructor parameters of materials and plates and all getters of laminates cannot be assigned: AttributeError, and the object is unchanged; other public names can. Materials: in every history of reads and assignments all reads give the values of the constructor arguments. Laminates given as stacks: assigning stacking or plies never changes z_position, Q_layup, T_layup, A, B, D, ABD. Laminates given by lamination parameters: A and D are computed anew from the stored parameters and the plies assigned last. Assigning layup before the first read gives the results of the new layup; after a read of D, z_position is new, Q_layup and D are old, and A and B combine old stiffnesses with new interfaces or raise IndexError. LaminateStrength: each call uses the loads and the laminate assigned last, as a new object would. PlateStructure: whatever is assigned to sw_idx, eigenvalue, eigenvector, buckling_analysis returns what it returns on a new plate; plot_eigenvalue draws the assigned eigenvector, raises TypeError if only eigenvalue is an array, and analyses again if both are None.",
  'all objects, all histories of reads, calls and assignments to public names that are not methods; stacks and assigned laminates with readable plies','tests construct, call once and discard; the statement is about every history', [MAT+':OrthotropicMaterial',PROP+':LaminateProperty',STR+':LaminateStrength.__init__',STC+':PlateStructure.plot_eigenvalue'])
p('C131','Writing into returned arrays',
  "The getters A, B, D, Q_layup of a laminate and Q_0 of a material return the arrays they keep. Writing into A, B or D of a stack (into B of any laminate) replaces the matrix: later reads return what was written until it is written again, whatever else is read, assigned or written. Writing into Q_layup before the first read makes A, B, D sums over what was written. Writing into Q_0 of a material replaces its stiffness and its Invariants but not its parameters. A and D of laminates given by lamination parameters, and ABD of any laminate, are not affected by writing into what was returned.",
  'all live laminates and materials, all matrices written, all later histories','no test writes into a result; the statement is about every later history', [PROP+':LaminateProperty.A',PROP+':LaminateProperty.B',PROP+':LaminateProperty.D',PROP+':LaminateProperty.Q_layup',MAT+':OrthotropicMaterial.Q_0'])
p('C132','NaN and infinity in materials, angles and loads',
  "The constructors accept NaN for every argument and infinity for all but Poisson ratios. Such a value is never lost: Q_0 consists of numbers iff every elastic constant is a number (so do U1, U3, U4, U5); every single entry of the rotated stiffness of a ply is a number iff its angle and constants are; every single entry of A, of B and of D is a number iff all angles, thicknesses and constants of all plies are; every single strain and stress of every ply, at both faces and in both axes, is a number iff these and all six loads are. A NaN or infinite thickness makes all entries of A, B, D NaN; NaN or infinity in the data of one ply makes all strains and stresses of all plies NaN. A margin is NaN iff its allowable or stress is NaN, or for 0 over 0 or infinity over infinity; an infinite stress gives -1 on its own side. NaN and infinity never make Q_0, A, B, D raise. For numbers all results are those of the other properties.",
  'all accepted parameters, all stacks of such materials, all angles and loads; rounding and overflow left out; np.linalg.inv assumed to give the inverse of an array of numbers and NaN for an array without numbers','tests use finite data; the statement is about every position of a non-finite value', [MAT+':OrthotropicMaterial.Q_0',PROP+':LaminateProperty.A',PROP+':LaminateProperty.Q_layup',STR+':LaminateStrength.calculate_maxstressmargin'])
p('C133','NaN and infinity in plates and lamination parameters',
  "PlateStructure accepts NaN for both sides and all loads, and infinity. Such a value is never lost: every single entry of K of calc_K_KG_D is a number iff a, b and all angles, thicknesses and constants of all plies are (for any D: iff its entries are); every single entry of KG is a number iff a, b and the three loads are; K of calc_K_KG_ABD consists of numbers iff a, b and the 18 stiffness numbers are. Every single entry of A and D of a laminate given by lamination parameters is a number iff T, the elastic constants and the parameters it depends on are. Every single one of xiA and xiD of a stack is a number iff all angles and thicknesses are and the total thickness is not 0. NaN and infinity never cause an exception here: the matrices raise what they raise with 1 in place of every such value. For numbers all results are those of the other properties.",
  'all accepted sides, loads, laminates, parameters and boundary conditions, any tables; rounding and overflow left out','tests use finite data; the statement is about every position of a non-finite value', [STC+':PlateStructure.calc_K_KG_D',STC+':PlateStructure.calc_K_KG_ABD',PROP+':LaminateProperty.D',PROP+':LaminateProperty.xiA'])
p('C134','NaN and infinity in the arguments of the optimisers',
  "normalize_critical_load returns three numbers iff the three loads are numbers; without NaN, an infinite load becomes NaN, the finite loads beside it 0 and max_load infinity; it raises only ZeroDivisionError, and without NaN only if all loads are 0. check_loads warns about an infinite load, never about NaN. The constraint functions give a number iff both parameters are; _constraint, used for the plot, however accepts every point with a NaN parameter. In Ncr_from_lp every single entry of K is a number iff the sides, elastic constants, thickness and parameters are, every single entry of KG iff the sides and loads are, and what is raised before eigsh does not depend on thickness, parameters and loads. So with a NaN or infinite load maximize_buckling_load minimises a function that only shows what eigsh does with arrays without any number; if that is ArpackError the objective is constant, and minimize_panel_weight has no admissible point. For numbers all results are those of the other properties.",
  'all floats for all numeric arguments, every eigsh, every list.sort that permutes and orders lists without NaN; rounding and overflow left out','tests use finite loads; the statement covers every position of a non-finite value and every solver', [OU+':normalize_critical_load',OU+':check_loads',OU+':_constraint',OU+':Ncr_from_lp',OM+':maximize_buckling_load',OW+':minimize_panel_weight'])
p('C135','The critical column in every version of pandas',
  "Versions of DataFrame.idxmin differ: the documentation skips NaN, the implementation replaces NaN by +inf first; a row of NaN only gives NaN in older versions and ValueError in newer ones. calculate_maxstressmargin gives the same table in all of them if all allowables are positive, or if every row has a stress that is not zero; exceptions of earlier steps are the same. Otherwise, for accepted allowables, only the column critical of rows without stress differs: by the documentation it names the first column with a positive allowable, in the implementation margin_t1 even where that margin is NaN, and nothing if the allowables of the ply are all zero. In newer versions the call raises ValueError iff there is such a row without stress and without allowables.",
  'all stacks with accepted allowables, all loads, both treatments of NaN and both of rows without numbers; exact arithmetic','tests have positive allowables and run with one version of pandas', [STR+':LaminateStrength.calculate_maxstressmargin'])
p('C136','Dictionaries and sets as arguments of build_pcomp',
  "The length checks of build_pcomp let dictionaries and sets through. Dictionaries with the keys 0, ..., n-1 in place of the lists sequence, midi, ti and sout give the card of the lists, with one exception: if the number of plies is odd and midi is a dictionary, KeyError is raised. In general the call raises for the first ply for which an object has no entry, with the exception of the first such object in the order midi, ti, sequence, sout (KeyError for a dictionary, TypeError for a set); for an odd number of plies one more ply is tried, and only IndexError is caught. An object of another length raises ValueError.",
  'all lists, dictionaries and sets as arguments, all pid and z0; arrays left out','tests pass lists and single values only', [NA+':build_pcomp',NA+':_convert_to_list',NA+':_convert_sout'])
p('C137','Releasing supports never raises a buckling load',
  "If every edge support of one plate that counts for w (structure.py:202-255) is also one of another plate with the same laminate, sides and loads, and the first has one more term for each support it lacks, in the direction of that support, then it has at least as many multipliers up to any load factor (counted with multiplicity), and for every k its k-th positive multiplier is at most that of the other plate. In particular a plate with 'PINNED' and m + 2 by n + 2 terms is at or below one with 'CLAMPED' and m by n terms. In the limit of many terms the condition on their numbers drops out. Without the added terms the statement is false: a clamped plate with one term each way, compressed along x and pulled along y, has the multiplier 132, and with one slope released and the same numbers of terms it has none.",
  'all positive definite D, all pairs of accepted constraints of which the released one still holds the plate, all sides, loads and numbers of terms, with exact integrals; with the shipped tables if the released K is positive definite, in particular if the bound of C100 is below 1','tests compute a few plates and do not compare supports', [STC+':PlateStructure._compute_constraints',STC+':PlateStructure.calc_K_KG_D'])
p('C138','The optimum in the notebook on lamination parameters',
  "For composipy/theoretical/Lamination_Parameters_sensitivity.ipynb: the matrix D of cell 3 is the D the library gives a laminate of lamination parameters, the values of cell 33 are Invariants, and Nxcr of cell 8 is the Navier load of the plate compressed along x, so that its least value over all half waves is the limit of the first multiplier of the 'PINNED' plate. The four expressions of cell 16 are the derivatives of L. The solutions stored for cases 1, 3 and 4 are all solutions, for all materials with U2 and U3 not zero and all plates (case 3: none if xi3 has no influence). The empty set stored for case 2 is right if and only if a n is not b m; the notebook goes on to evaluate a = b, m = n = 1, where every point with xi3 = 1 is a solution. If xi3 lowers the load the point of case 3 is the only maximum over xi3 >= 2 xi1^2 - 1; over xi3 <= 1 in addition one of the stored points is a maximum for every plate. For square plates it is (0, -1), one half wave each way then is critical, and no other laminate has a higher buckling load, all half waves considered; so also for the plates of the library with enough terms. The numbers stored in cells 32, 37, 40 and 42 are right to all digits shown.",
  'all invariants, thicknesses, sides and half waves, all points of the plane of lamination parameters; one material for the numbers','the notebook is not run by the tests, and computer algebra drops special cases without a message', ['composipy/theoretical/Lamination_Parameters_sensitivity.ipynb',PROP+':LaminateProperty.D',MAT+':OrthotropicMaterial.Invariants'])
p('C139','Arrays as arguments of build_pcomp',
  "A numpy array as sout is compared with 'FIBER', 'NO' and 'YES' entry by entry (pcomp_generator.py:139-147). With two entries or more build_pcomp therefore raises ValueError, even if the array holds a request for every ply as an accepted list does (arrays of numbers: from numpy 1.25; before, they count as the list). An array with one entry counts as the text if this is one of the three words, for any number of plies, where the list with this entry raises ValueError; otherwise it counts as the list. An array without dimension counts as the text if this is one of the three words, and raises ValueError otherwise. An array without entries counts as the empty list up to numpy 2.1 and raises ValueError later.",
  'all arrays of texts, objects or numbers, all plies, materials, thicknesses and versions of numpy; one-dimensional arrays as sequence, midi and ti are covered by C136','the tests have no array; the behaviour differs between versions of numpy', [NA+':_convert_sout',NA+':_convert_to_list',NA+':build_pcomp'])
here=os.path.dirname(os.path.abspath(__file__))
with open(os.path.join(here,'..','properties.jsonl'),'w') as f:
    for x in P: f.write(json.dumps(x)+'\n')
print(len(P))
