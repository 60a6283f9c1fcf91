"""Write integer coefficients and moments of the first 30 shape functions to lean/Verif/Gen/ShapeInts.lean.

The data are not trusted: Lemmas/TableCheck.lean checks every number in the kernel."""
import math, os
from fractions import Fraction as F

ROOT = os.path.dirname(os.path.dirname(os.path.abspath(__file__)))

def df(n):
    return 1 if n <= 0 else n * df(n - 2)

def coefs(i):
    if i < 4:
        return [[F(1, 2), F(-3, 4), F(0), F(1, 4)], [F(1, 8), F(-1, 8), F(-1, 8), F(1, 8)],
                [F(1, 2), F(3, 4), F(0), F(-1, 4)], [F(-1, 8), F(-1, 8), F(1, 8), F(1, 8)]][i]
    r = i + 1
    c = [F(0)] * r
    for n in range(i // 2 + 1):
        c[r - 2 * n - 1] = F((-1) ** n * df(2 * r - 2 * n - 7), 2 ** n * math.factorial(n) * math.factorial(r - 2 * n - 1))
    return c

def deriv(c):
    return [p * a for p, a in enumerate(c)][1:]

N = 30
L = 1
for q in range(1, 62, 2):
    L = math.lcm(L, q)
dens, ints = [], []
for i in range(N):
    c = coefs(i)
    d = 1
    for a in c:
        d = math.lcm(d, a.denominator)
    dens.append(d)
    ints.append([int(a * d) for a in c])

def mu(q):
    return 0 if q % 2 else 2 * L // (q + 1)

def moments(c):
    return [sum(a * mu(p + q) for p, a in enumerate(c)) for q in range(N)]

def rows(rws):
    return '[\n' + ',\n'.join('  [' + ', '.join(map(str, r)) + ']' for r in rws) + ']\n\n'

with open(os.path.join(ROOT, 'lean/Verif/Gen/ShapeInts.lean'), 'w') as f:
    f.write('/-!\nGenerated by tools/gen_moments.py; checked in Lemmas/TableCheck.lean.\n-/\n\nnamespace Composipy\n\n')
    f.write('/-- Common denominators of the first 30 shape functions. -/\ndef shapeDen : List Nat := [' + ', '.join(map(str, dens)) + ']\n\n')
    f.write('/-- Coefficients times the common denominator, lowest degree first. -/\ndef shapeInt : List (List Int) := ' + rows(ints))
    d = ints
    for a in range(3):
        f.write(f'/-- Scaled moments of the derivatives of order {a}. -/\ndef shapeMom{a} : List (List Int) := ' + rows([moments(c) for c in d]))
        d = [deriv(c) for c in d]
    f.write(f'/-- Common denominator of the moments. -/\ndef momDen : Nat := {L}\n\nend Composipy\n')
