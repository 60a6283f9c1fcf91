"""Write lean/Verif/Gen/Design*.lean: certificates for the optimal designs printed in doc/notebooks/Optimization_buckling.ipynb.

Everything written here is checked by Lean's kernel, so nothing here is trusted. The plates are those of Lemmas/DesignPlates.lean."""
import os
import sys
from decimal import Decimal as Dc, getcontext
from fractions import Fraction as F

sys.path.insert(0, os.path.dirname(os.path.abspath(__file__)))
from gen_cert import HERE, MA, Plate, indices, mode, low, bound, lcm, coef, rat

HEAD = ['import Verif.Lemmas.DesignPlates', '', '/-!', 'Generated by tools/gen_design.py; the certificates are checked here.', '-/', '',
        'set_option maxRecDepth 100000', '', 'namespace Composipy', '']


def invariants():
    e1, e2, v, g, _ = map(F, MA)
    po = 1 - v * v * e2 / e1
    q11, q12, q22, q66 = e1 / po, v * e2 / po, e2 / po, g
    return ((3 * q11 + 3 * q22 + 2 * q12 + 4 * q66) / 8, (q11 - q22) / 2, (q11 + q22 - 2 * q12 - 4 * q66) / 8,
            (q11 + q22 + 6 * q12 - 4 * q66) / 8, (q11 + q22 - 2 * q12 + 4 * q66) / 8)


class Design(Plate):
    def __init__(self, x1, x3):
        u1, u2, u3, u4, u5 = invariants()
        k = F(42, 10)**3 / 12
        a = b = F(360)
        self.c = [4 * b / a**3 * k * (u1 + u2 * x1 + u3 * x3), 4 / (a * b) * k * (u4 - u3 * x3), 4 * a / b**3 * k * (u1 - u2 * x1 + u3 * x3),
                  F(0), F(0), 16 / (a * b) * k * (u5 - u3 * x3)]
        self.g = [F(-1), F(-1, 2), F(1, 2)]
        self.xs, self.ys = indices('ppfp', 7)
        self.w = [(i, j) for i in self.xs for j in self.ys]


def arg(x):
    return f'({x.numerator} / {x.denominator})' if x.denominator != 1 else f'({x.numerator})'


def critical(x1, x3, guess):
    P = Design(x1, x3)
    den, c, g = P.ints(F(guess))
    v, th = mode(P.mat(c, [0, 0, 0]), P.mat(c, g), F(guess))
    return Dc(guess) / (1 - th), v


def put_low(out, name, x1, x3, mu):
    r = low(Design(x1, x3), mu, [])
    if r is None:
        sys.exit(f'{name}: no certificate')
    den, c, k, q, u, z2, shi, t, cols, ucols = r
    print(name, 'u', u, 'q', q, 'k', k, 'size', sum(len(str(x)) for _, x in cols), flush=True)
    pr = ',\n  '.join(f'({a}, {b})' for a, b in cols)
    out.extend([f'def {name} : Cert := ⟨{k}, {q}, {u}, 2 ^ {z2}, {shi}, {t}, [\n  {pr}], []⟩', '',
                f'theorem {name}_ok : (designPlate {arg(x1)} {arg(x3)}).lowOk {arg(mu)} {den} {coef(c)} {name} 0 = true := by decide +kernel', ''])


def put_forms(out, name, v, mu):
    ub = 44
    mx = max(abs(x) for x in v)
    vi = [int((x / mx * 2**ub).to_integral_value()) for x in v]
    u = ub + 2
    Ds = [(F(0), F(0)), (F(1), F(0)), (F(0), F(1))]
    den = lcm([Design(*d).ints(mu)[0] for d in Ds])
    packed = sum((x + 2**(u - 1)) << (u * i) for i, x in enumerate(vi))
    out.extend([f'def {name} : ℕ := {packed}', ''])
    for n, d in enumerate(Ds):
        P = Design(*d)
        c = [int(x * den) for x in P.c + [mu * y for y in P.g]]
        assert all(x * den == y for x, y in zip(P.c + [mu * y for y in P.g], c))
        R = P.mat(c[:6], c[6:])
        val = sum(a * sum(p * q for p, q in zip(row, vi)) for a, row in zip(vi, R))
        k = (2 * (len(vi) * 2**u * bound(c[:6], c[6:])) + 1).bit_length()
        out.extend([f'theorem {name}_{n} : (designPlate {arg(d[0])} {arg(d[1])}).formOk {arg(mu)} {den} {coef(c)} {k} {u} {name} ({val}) = true := by',
                    '  decide +kernel', ''])


def write(name, out):
    open(os.path.join(HERE, '..', 'lean', 'Verif', 'Gen', name + '.lean'), 'w').write('\n'.join(HEAD + out + ['end Composipy', '']))


def main():
    out = []
    for nm, x1, x3 in (('PP', 1, 1), ('PM', 1, -1), ('MP', -1, 1), ('MM', -1, -1)):
        put_low(out, 'corner' + nm + 'Zero', F(x1), F(x3), F(0))
        put_low(out, 'corner' + nm + 'Low', F(x1), F(x3), F(25))
    write('DesignCorners', out)
    out = []
    for nm, x, edge, guess, mu, printed, h in (
            ('miki', F('0.486831'), lambda x: 2 * x - 1 - F(1, 10000), '26.789', F('26.7891795'), (F('0.487'), F('-0.026'), F('26.7891')), F('0.00003')),
            ('nat', F('0.677067'), lambda x: 2 * x * x - 1 - F(1, 10000), '26.8928', F('26.892808'), (F('0.677'), F('-0.083'), F('26.8927')), F('0.00005'))):
        lam, _ = critical(x, edge(x), guess)
        mu = F(int(lam * 10**10) - 1, 10**10)
        print(nm, 'lam', lam, 'mu', mu)
        put_low(out, nm + 'Best', x, edge(x), mu)
        print(nm, 'printed', critical(printed[0], printed[1], guess)[0])
        put_low(out, nm + 'Printed', *printed)
        for s, y in (('Left', x - h), ('Right', x + h)):
            put_forms(out, nm + s, critical(y, edge(y), guess)[1], mu)
    write('DesignBest', out)
    print([arg(u) for u in invariants()])


if __name__ == '__main__':
    main()
