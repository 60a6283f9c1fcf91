"""Write MANIFEST.json and lean/Verif.lean from the theorem names found in lean/Verif/Props."""
import glob, json, os, re

ROOT = os.path.dirname(os.path.dirname(os.path.abspath(__file__)))
REFUTED = 'The unchanged code violates the property as stated; '
# property -> (status, note); properties without an entry are "proved"
NOTES = {
    'C02': ('partial', REFUTED + 'omitting an allowable raises ValueError (C02_iso_optional_allowables_false). '
            'Acceptance with all seven numbers is characterised exactly.'),
    'C05': ('partial', REFUTED + 'accepted materials can have an unreadable or indefinite Q_0. '
            'The exact conditions are proved (C05_Q0_raises_iff, C05_Q0_posDef_iff).'),
    'C24': ('partial', REFUTED + 'the second read returns zeros or a truncated list for every stack with an '
            'unreadable ply (C24_second_read_returns_garbage).'),
    'C37': ('partial', REFUTED + 'the position label is swapped in every row (C37_labels_false); ply and angle agree.'),
    'C42': ('partial', REFUTED + 'on y edges v and w follow the flags of u (C42_own_flags_false, '
            'C42_foreign_flag_applied); u on all edges and v, w on x edges are proved.'),
    'C43': ('partial', REFUTED + 'a word edge in a mixed dictionary is free (C43_word_edges_free_partial).'),
    'C52': ('partial', REFUTED + 'K of calc_K_KG_ABD is not symmetric in general. The bending blocks, and symmetry when '
            'a = b and B = 0, are proved.'),
    'C54': ('partial', REFUTED + 'the critical multiplier can be dropped when it is below 1 (C54_false, '
            'C54_overloaded_missed). Proved when every positive multiplier is at least 1.'),
    'C58': ('proved', 'The hypothesis "the first reported multiplier is the smallest positive one" is Spec.FirstIsCritical; '
            'first_is_critical derives it from the eigensolver contract when all positive multipliers are at least 1.'),
    'C61': ('partial', REFUTED + 'an upper-case S always raises ValueError (C61_uppercase_raises). Lower-case s is proved.'),
    'C62': ('partial', REFUTED + 'the documented example is wrong (C62_example_false); what it returns is C62_example_returns.'),
    'C63': ('partial', REFUTED + 'the continuation mark is glued to the last field of full lines (C63_glued_mark_false). The exact '
            'card and the order of the plies are proved.'),
    'C65': ('partial', REFUTED + 'unequal grid numbers raise IndexError (C65_unequal_raises). Square grids are proved.'),
    'C68': ('partial', REFUTED + 'later calls return a truncated table (C68_truncated_table, C68_failed_call_keeps_failing_false).'),
    'C69': ('partial', REFUTED + 'the caller\'s list is read again (C69_mutated_stress, C69_list_change_false, C69_longer_raises). '
            'Plate-axis stresses of the listed plies stay.'),
    'C70': ('partial', REFUTED + 'for sigma_1 or sigma_2 equal to -0.0 the tension margin is -inf and critical '
            '(C70_negative_zero, C70_critical_wrong, C70_zero_stress_false); all other finite stresses are proved.'),
    'C78': ('partial', REFUTED + 'the contour uses the loads as given, the objective the normalised ones (C78_contour_false, '
            'C78_contour_scaled); grid, mask, curves and failures are proved.'),
    'C92': ('partial', REFUTED + 'an unclosed group is dropped without an exception (C92_unbalanced_raises_false, '
            'C92_unclosed_dropped, C92_unclosed_empty); a group without a count raises (C92_missing_count_raises).'),
    'C95': ('proved', 'Exact for CLAMPED with the shipped tables and for all supports with exact integrals; for other supports the '
            'shipped tables are rounded and C95_shipped carries the error term of C86.'),
    'C96': ('proved', ''),
    'C97': ('proved', 'Buckling part for CLAMPED plates with the shipped tables.'),
    'C98': ('proved', 'Finite loads; margins over the reals with the IEEE infinities of numpy division.'),
    'C99': ('proved', 'Exact integrals for PINNED and other supports; for CLAMPED the lower bound also with the shipped tables (C99_clamped). '
            'The limit needs more terms than the 30 of the shipped tables, so it is about exact integrals only.'),
    'C100': ('proved', 'Plates held along the four edges; for other supports the rounding is bounded by C86. tableAcc are proved upper bounds, '
            'not the exact values; C100_shear covers shear and tensile loads.'),
    'C101': ('proved', 'Orthotropic plies. The tests are restated with numpy.testing tolerances; the two references of order 1e-17 are replaced by '
            'the exact value 0.'),
    'C102': ('proved', 'The order of the eigenvalues is an assumption on the solver (CayleySorted), as in C54; the lower bound 1 on the multiplier '
            'is needed for the reason given there. math.isclose of the tests is restated on the reals.'),
    'C103': ('proved', 'scipy.optimize.minimize stays outside the model: the statements are about the global optimum of the problem handed to it, not about '
            'where its search stops. In the weight test thinner designs than 0.35 are excluded because there the first value could be a spurious '
            'large multiplier (C54); the lamination parameters of that test are not determined by these bounds, only the thickness.'),
    'C104': ('proved', 'That minimize stops at a local minimum is outside the model. The hypothesis on the feasible designs is needed: below it the first '
            'value need not be the least multiplier (C54).'),
    'C105': ('proved', 'The text of a number and of a dictionary are parameters; objects that compare entry by entry (arrays) are left out.'),
    'C106': ('proved', 'C106_test_weight removes the restriction T >= 0.35 of C103 and C104.'),
    'C107': ('proved', 'Generalises C99_converges to any supports, coupling and shear; the limit is over exact integrals (the shipped tables end at 30 terms).'),
    'C108': ('proved', 'C108_terms is for the shipped tables; C108_monotone, C108_converges and C108_limits for exact integrals.'),
    'C109': ('proved', 'The contract of eigsh (EigshFull, CayleySorted) is a hypothesis; exists_full shows that it can be met. C54 says why the bound 1 is needed.'),
    'C110': ('proved', 'Model/Rounded repeats the calculation with a rounding after every operation; Spec/Nearest builds round-to-nearest with p+1 bits and shows that it meets the contract.'),
    'C111': ('proved', 'The error of np.linalg.inv and of cos, sin and @ are hypotheses; nearestLib meets them. The examples bound the error of two double-precision stacks.'),
    'C112': ('proved', 'Model/RoundedPlate repeats calc_k33_ijkl, calc_kG33_ijkl and calc_K_KG_D with a rounding after every operation and reading of the tables; eigsh itself is not rounded here, the multipliers are those of the computed matrices.'),
    'C113': ('proved', 'Model/RoundedStrength repeats strength.py with a rounding after every operation; products with vectors meet the usual error bound and np.linalg.inv has a bounded error on ABD. The example bounds a double-precision margin table.'),
    'C114': ('proved', 'Sympy is a parameter (products, derivatives, integrals, str). The reader is a separate specification of the part of the Python grammar that occurs. The functions and integrals themselves are the subject of the properties on Model/ShapeFunctions.'),
    'C115': ('proved', 'Underflow and overflow are left out. The stability of the inversions is a hypothesis on numpy (Spec.StableInv), satisfied by rounding the exact inverse.'),
    'C116': ('proved', 'The contract of eigsh is a hypothesis of the last part. print and plot_eigenvalue are left out.'),
    'C117': ('proved', 'Stresses are real numbers with one zero; C70 treats -0.0.'),
    'C118': ('proved', 'The matrices are those of the shipped tables with the exact stiffness; the multipliers are enclosed by certificates that the kernel checks.'),
    'C119': ('proved', 'The matrices are those of the shipped tables at the lamination parameters; the optimum is enclosed by tangent planes of the multiplier, all checked by the kernel. Termination and accuracy of scipy.optimize.minimize are not modelled.'),
    'C120': ('proved', 'Exact values from C101, compared by the kernel with the printed text of the tables (pandas rounds to three digits there).'),
    'C121': ('proved', 'Concrete case: the seven plates of C122.'),
    'C122': ('proved', 'The rounding of the material data (literals such as 0.07) to doubles is included; the angles, sides and loads of these plates are exact. Overflow, underflow and the roundings inside eigsh are not included.'),
    'C123': ('proved', 'Times are differences of the readings of a clock parameter.'),
    'C124': ('proved', ''),
    'C125': ('proved', 'Concrete case: panel_SSSS of the notebooks with changed modulus and angles.'),
    'C126': ('proved', 'Concrete case: two plies with changed modulus, strength, angle and load.'),
    'C127': ('proved', 'Concrete cases: a clamped plate under compression, and with shear, all data off by a thousandth.'),
    'C128': ('proved', 'Concrete case: with enough bits rounding to nearest evaluates the objective of the demonstration panel to six digits. The roundings inside eigsh are not covered.'),
    'C129': ('proved', 'Concrete cases: a wrong pair of a diagonal pencil; an inexact solver on the clamped demonstration plate with rounding to nearest.'),
    'C130': ('proved', 'Concrete case: a carbon laminate keeps A after its stacking and plies were replaced. C130_layup_late states what a late assignment of layup mixes up.'),
    'C131': ('proved', 'Concrete case: zeros written into A of a carbon ply. Results are shared, not copied.'),
    'C132': ('proved', 'Concrete cases: an infinite modulus gives Q_0 with infinity and NaN; NaN in one of two plies leaves no number in A. The assumption on np.linalg.inv is satisfiable (goodInv_exists).'),
    'C133': ('proved', 'What scipy.sparse.linalg.eigsh does with a matrix that holds NaN is not modelled.'),
    'C134': ('proved', 'What eigsh does with arrays that hold NaN, and the order list.sort gives to lists with NaN, are parameters; scipy.optimize.minimize is external.'),
    'C135': ('proved', 'That these are the behaviours of the versions of pandas is part of the trusted base.'),
    'C136': ('proved', ''),
    'C137': ('proved', 'C137_same_terms_false shows that the added terms are needed.'),
    'C138': ('proved', 'C138_case2 shows for which plates the empty set stored for case 2 is wrong.'),
    'C139': ('proved', 'The versions of numpy are a parameter.'),
    'C27': ('partial', REFUTED + 'any two lamination-parameter laminates compare equal. Proved for stackings.'),
}

def main():
    found = {}
    for path in sorted(glob.glob(os.path.join(ROOT, 'lean/Verif/Props/*.lean'))):
        for m in re.finditer(r'^theorem (C(\d+)_\w+)', open(path).read(), re.M):
            found.setdefault('C' + m.group(2), []).append('Composipy.' + m.group(1))
    claims = []
    for line in open(os.path.join(ROOT, 'properties.jsonl')):
        pid = json.loads(line)['id']
        if pid in found:
            status, note = NOTES.get(pid, ('proved', ''))
            claims.append({'property': pid, 'status': status, 'theorems': found[pid], 'note': note})
        else:
            status, note = NOTES.get(pid, ('partial', ''))
            claims.append({'property': pid, 'status': status, 'theorems': [],
                           'note': note or 'Stated; no theorem yet.'})
    with open(os.path.join(ROOT, 'MANIFEST.json'), 'w') as f:
        json.dump({'claims': claims}, f, indent=1)
        f.write('\n')
    mods = []
    base = os.path.join(ROOT, 'lean')
    for path in glob.glob(os.path.join(base, 'Verif/**/*.lean'), recursive=True):
        mods.append(os.path.relpath(path, base)[:-5].replace('/', '.'))
    with open(os.path.join(base, 'Verif.lean'), 'w') as f:
        f.write(''.join(f'import {m}\n' for m in sorted(mods)))
    print(sum(bool(c['theorems']) for c in claims), 'of', len(claims), 'properties have theorems;',
          sum(len(c['theorems']) for c in claims), 'theorems')

main()
