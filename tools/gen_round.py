"""Write lean/Verif/Gen/RoundPlates.lean: bounds for the roundings of the plates of Lemmas/DocPlates.lean.

Everything written here is checked by Lean's kernel, so nothing here is trusted."""
import os
import re
import sys
from fractions import Fraction as F

HERE = os.path.dirname(os.path.abspath(__file__))
sys.path.insert(0, HERE)
from gen_cert import Plate, TI, lcm


def absrows(P, c, g):
    """Largest sum of the sizes of the terms in a row."""
    T = {k: [[abs(v) for v in row] for row in t] for k, t in TI.items()}
    best = 0
    for i, j in P.w:
        tot = 0
        for k, l in P.w:
            tot += (c[0] * T['XX'][i][k] * T['ff'][j][l] + c[1] * (T['Xf'][i][k] * T['Xf'][l][j] + T['Xf'][k][i] * T['Xf'][j][l])
                    + c[2] * T['ff'][i][k] * T['XX'][j][l] + c[3] * (T['Xx'][i][k] * T['xf'][l][j] + T['Xx'][k][i] * T['xf'][j][l])
                    + c[4] * (T['xf'][i][k] * T['Xx'][l][j] + T['xf'][k][i] * T['Xx'][j][l]) + c[5] * T['xx'][i][k] * T['xx'][j][l]
                    + g[0] * T['xx'][i][k] * T['ff'][j][l] + g[1] * T['ff'][i][k] * T['xx'][j][l]
                    + g[2] * (T['xf'][k][i] * T['xf'][j][l] + T['xf'][i][k] * T['xf'][l][j]))
        best = max(best, tot)
    return best


def up(x):
    """Round up to two digits."""
    k = 0
    while x * 10**k < 10:
        k += 1
    return f'({-(-(x * 10**k) // 1)} / 10 ^ {k})'


def ints(l):
    den = lcm([F(x).denominator for x in l])
    return den, [int(x * den) for x in l]


def main():
    names = ['Ssss', 'Cccc', 'Shear', 'KasP', 'KasC', 'TestP', 'TestC']
    out = [f'import Verif.Gen.Doc{n}' for n in names] + ['import Verif.Lemmas.RoundedCert', '', '/-! Written by tools/gen_round.py. -/', '', 'namespace Composipy', '']
    for n in names:
        P = Plate(n)
        t = open(f'{HERE}/../lean/Verif/Gen/Doc{n}.lean').read()
        m = re.search(r'(\w+)Zero : Cert := ⟨(\d+), (\d+), (\d+), 2 \^ (\d+), (\d+),', t)
        low, q, sh = m.group(1), int(m.group(3)), int(m.group(6))
        d0 = int(re.search(r'Zero_ok : \w+\.lowOk 0 (\d+)', t).group(1))
        kap = sh - len(P.w) * 2**(q - 1) - 1
        dK, c = ints([F(101, 100) * x for x in P.c])
        dG, g = ints([abs(x) for x in P.g])
        mK, mG = absrows(P, c, [0, 0, 0]), absrows(P, [0] * 6, g)
        e2, de = F(14, 2**52) * mK * d0 / (kap * dK), F(9, 2**52) * mG * d0 / (kap * dG)
        out.append(f"theorem {low}_round : {low}Plate.roundOk {d0} {low}Zero {kap}\n    {dK} ⟨{', '.join(map(str, c))}, 0, 0, 0⟩ {mK}\n"
                   f"    {dG} ⟨0, 0, 0, 0, 0, 0, {', '.join(map(str, g))}⟩ {mG} {up(e2)} {up(de)} = true := by decide +kernel\n")
    out.append('end Composipy\n')
    open(f'{HERE}/../lean/Verif/Gen/RoundPlates.lean', 'w').write('\n'.join(out))


main()
