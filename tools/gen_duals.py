"""Write dual polynomials of the shape functions that vanish at both ends, and bounds for the rounding of the shipped tables, to
lean/Verif/Gen/Duals.lean.

The data are not trusted: Lemmas/DualCheck.lean checks every number in the kernel."""
import math, os, re
from fractions import Fraction as F
from gen_moments import coefs, deriv

ROOT = os.path.dirname(os.path.dirname(os.path.abspath(__file__)))
SRC = '/repo/composipy/pre_integrated_component/_ii_F.py'
N = 30

def integ(p, q):
    return sum((a * b * F(2, i + j + 1) for i, a in enumerate(p) if a for j, b in enumerate(q) if (i + j) % 2 == 0), F(0))

def inverse(G):
    n = len(G)
    M = [list(r) + [F(int(i == j)) for j in range(n)] for i, r in enumerate(G)]
    for i in range(n):
        p = next(r for r in range(i, n) if M[r][i])
        M[i], M[p] = M[p], M[i]
        d = M[i][i]
        M[i] = [x / d for x in M[i]]
        for r in range(n):
            if r != i and M[r][i]:
                q = M[r][i]
                M[r] = [x - q * y for x, y in zip(M[r], M[i])]
    return [r[n:] for r in M]

f = [[coefs(i) for i in range(N)]]
f.append([deriv(c) for c in f[0]])
f.append([deriv(c) for c in f[1]])

tabs, cur = {}, None
for line in open(SRC):
    m = re.match(r'(ii_\w+) = \{', line)
    if m:
        cur = tabs.setdefault(m.group(1), {})
    m = re.match(r"\s+\((\d+), (\d+)\): '(.*)',?", line)
    if m:
        cur[(int(m.group(1)), int(m.group(2)))] = F(m.group(3))
ORD = {'FF': (0, 0), 'FXI_F': (1, 0), 'FXI_FXI': (1, 1), 'FXIXI_F': (2, 0), 'FXIXI_FXI': (2, 1), 'FXIXI_FXIXI': (2, 2)}

def rows(rws):
    return '[\n' + ',\n'.join('  [' + ', '.join(map(str, r)) + ']' for r in rws) + ']\n\n'

with open(os.path.join(ROOT, 'lean/Verif/Gen/Duals.lean'), 'w') as out:
    out.write('/-!\nGenerated by tools/gen_duals.py; checked in Lemmas/DualCheck.lean.\n-/\n\nnamespace Composipy\n\n')
    for t, (p, q) in ORD.items():
        e = [[math.ceil(abs(tabs['ii_' + t][(i, k)] - integ(f[p][i], f[q][k])) * 10 ** 22) for k in range(N)] for i in range(N)]
        out.write(f'/-- Rounding of `ii_{t}` in units of `1e-22`, upwards. -/\ndef err_{t} : List (List Nat) := ' + rows(e))
    for top in (14, 20, 30):
        S = [1, 3] + list(range(4, top))
        for d in range(3):
            H = inverse([[integ(f[d][i], f[d][k]) for k in S] for i in S])
            ints, dens, hs = [[] for _ in range(N)], [1] * N, [0] * N
            for a, i in enumerate(S):
                c = [F(0)] * N
                for b, k in enumerate(S):
                    for j, x in enumerate(f[d][k]):
                        c[j] += H[a][b] * x
                while c and c[-1] == 0:
                    c.pop()
                den = math.lcm(*[x.denominator for x in c])
                ints[i], dens[i] = [int(x * den) for x in c], den
                hs[i] = math.isqrt(math.floor(H[a][a])) + 1
            out.write(f'/-- Numerators of the dual polynomials, derivatives of order {d}, shapes below {top}. -/\n'
                      f'def dualNum{d}_{top} : List (List Int) := ' + rows(ints))
            out.write(f'/-- Their denominators. -/\ndef dualDen{d}_{top} : List Nat := {dens}\n\n')
            out.write(f'/-- Bounds for their norms. -/\ndef dualNorm{d}_{top} : List Nat := {hs}\n\n')
    out.write('end Composipy\n')
