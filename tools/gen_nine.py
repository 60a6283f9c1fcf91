"""Write lean/Verif/Gen/Nine.lean: the shipped integrals with indices below 14 over one common denominator.

The numbers are checked in Lean against the texts of the tables, so nothing here is trusted."""
import math
import os
import re
from fractions import Fraction as F

HERE = os.path.dirname(os.path.abspath(__file__))
SRC = '/repo/composipy/pre_integrated_component/_ii_F.py'
NAMES = {'ff': 'ii_FF', 'xf': 'ii_FXI_F', 'xx': 'ii_FXI_FXI', 'Xf': 'ii_FXIXI_F', 'Xx': 'ii_FXIXI_FXI', 'XX': 'ii_FXIXI_FXIXI'}
SIZE = 14


def tables():
    """The six tables as exact fractions."""
    tab, cur = {}, None
    for line in open(SRC).read().split('\n'):
        m = re.match(r"(ii_\w+) = \{", line)
        if m:
            cur = m.group(1)
            tab[cur] = {}
            continue
        m = re.match(r"\s+\((\d+), (\d+)\): '([^']*)'", line)
        if m:
            tab[cur][int(m.group(1)), int(m.group(2))] = F(m.group(3))
    return tab


def scaled():
    """Common denominator and the integer tables, names as in NAMES."""
    tab = tables()
    sc = 1
    for t in tab.values():
        for (i, k), v in t.items():
            if i < SIZE and k < SIZE:
                sc = sc * v.denominator // math.gcd(sc, v.denominator)
    return sc, {n: [[int(tab[NAMES[n]][i, k] * sc) for k in range(SIZE)] for i in range(SIZE)] for n in NAMES}


def main():
    sc, T = scaled()

    def nine(i, k):
        return [T['ff'][i][k], T['xf'][i][k], T['xf'][k][i], T['xx'][i][k], T['Xf'][i][k], T['Xf'][k][i], T['Xx'][i][k], T['Xx'][k][i],
                T['XX'][i][k]]

    out = ['/-!', 'Generated by tools/gen_nine.py; checked in Lemmas/NineCheck.lean.', '-/', '', 'namespace Composipy', '',
           '/-- Common denominator of the shipped integrals with indices below 14. -/', f'def nineDen : Nat := {sc}', '']
    for i in range(SIZE):
        rows = ',\n'.join('  [' + ', '.join(map(str, nine(i, k))) + ']' for k in range(SIZE))
        out += [f'/-- The nine integrals of the pairs `({i}, k)` times the common denominator. -/',
                f'def nine{i} : List (List Int) := [\n{rows}]', '']
    out += ['/-- The nine integrals of all pairs: `ff`, `fxi_f`, `f_fxi`, `fxi_fxi`, `fxixi_f`, `f_fxixi`, `fxixi_fxi`, `fxi_fxixi`, `fxixi_fxixi`. -/',
            'def nineTab : List (List (List Int)) := [' + ', '.join(f'nine{i}' for i in range(SIZE)) + ']', '', 'end Composipy', '']
    open(os.path.join(HERE, '..', 'lean', 'Verif', 'Gen', 'Nine.lean'), 'w').write('\n'.join(out))


if __name__ == '__main__':
    main()
