"""Write lean/Verif/Gen/Doc*.lean: certificates for the multipliers printed in the notebooks.

Everything written here is checked by Lean's kernel, so nothing here is trusted. The plates are those of Lemmas/DocPlates.lean.
usage: gen_cert.py [case ...]"""
import math
import os
import sys
from decimal import Decimal as Dc, getcontext
from fractions import Fraction as F

sys.path.insert(0, os.path.dirname(os.path.abspath(__file__)))
from gen_nine import scaled, SIZE

HERE = os.path.dirname(os.path.abspath(__file__))
getcontext().prec = 70
SC, TI = scaled()
NINEMAX = max(abs(v) for t in TI.values() for row in t for v in row)

PIN, CLA, FREE = 'p', 'c', 'f'
MA = (60800, 58250, F('0.07'), 4550, F('0.21'))
SA = [1, -1, 0, 2, 1, -1, 0, 2, 1, -1]
SA = SA + SA[::-1]
MB = (137900, 11700, F('0.31'), 4820, F('0.1524'))
SB = [1, -1, 1, -1, 0, 0, 2, 2]
SB = SB + SB[::-1]
H = F(5, 10**9)
CASES = {
    'Ssss': (MA, SA, 360, 360, (-1, 0, 0), 'pppp', 10, ['97.04915682', '144.47730786', '246.83882036', '388.19669784', '393.21258067'], H),
    'Cccc': (MA, SA, 360, 540, (0, -1, -1), 'cccc', 10, ['138.79310181', '146.27293322', '214.40196835', '235.95368935', '345.90300267'], H),
    'Ssfs': (MA, SA, 540, 360, (-1, 0, 0), 'ppfp', 10, ['20.12080055', '47.13886913', '92.5739614', '156.53663617', '185.19779529'], H),
    'Shear': (MA, SA, 360, 360, (0, 0, -1), 'cccc', 10, ['338.84283307', '389.26571459', '776.82143839', '824.28455938', '882.94931083'], H),
    'KasP': (MB, SB, 100, 100, (-1, F(-1, 2), 0), 'pppp', 7, ['225.9'], F(1, 20)),
    'KasC': (MB, SB, 100, 100, (-1, F(-1, 2), 0), 'cccc', 7, ['495.0'], F(1, 20)),
    'KasF': (MB, SB, 100, 100, (-1, F(-1, 2), 0), 'ppfp', 10, ['89.6'], F(1, 20)),
    'Opt': (MA, SA, 360, 360, (-1, F(-1, 2), F(1, 2)), 'ppfp', 7, ['26.6'], F(1, 20)),
    'TestC': (MA, SA, 360, 360, (-1, -1, 0), 'cccc', 10, ['119.76072750'], F(1, 10**7)),
    'TestP': (MA, SA, 360, 360, (-1, -1, 0), 'pppp', 10, ['48.52457849227318'], F(5, 10**15)),
}


def exact_d(stack, mat):
    e1, e2, v, g, t = map(F, mat)
    trig = [(F(1), F(0), F(0)), (F(1, 2), F(1, 2), F(1, 2)), (F(0), F(1), F(0)), (F(1, 2), F(1, 2), -F(1, 2))]
    po = 1 - v * v * e2 / e1
    q11, q12, q22, q66 = e1 / po, v * e2 / po, e2 / po, g
    z = -len(stack) * t / 2
    d = [F(0)] * 6
    for k in stack:
        x, y, c = trig[k % 4]
        q = (q11 * x**2 + 2 * (q12 + 2 * q66) * x * y + q22 * y**2,
             (q11 + q22 - 4 * q66) * x * y + q12 * (x**2 + y**2),
             q11 * y**2 + 2 * (q12 + 2 * q66) * x * y + q22 * x**2,
             ((q11 - q12 - 2 * q66) * x + (q12 - q22 + 2 * q66) * y) * c,
             ((q11 - q12 - 2 * q66) * y + (q12 - q22 + 2 * q66) * x) * c,
             (q11 + q22 - 2 * q12 - 2 * q66) * x * y + q66 * (x**2 + y**2))
        w = ((z + t)**3 - z**3) / 3
        d = [a + w * b for a, b in zip(d, q)]
        z += t
    return d  # D11 D12 D22 D16 D26 D66


def indices(e, n):
    def lst(e0, e1):
        drop = set()
        drop |= {0} if e0 in 'pc' else set()
        drop |= {1} if e0 == 'c' else set()
        drop |= {2} if e1 in 'pc' else set()
        drop |= {3} if e1 == 'c' else set()
        return [i for i in range(n + 4) if i not in drop][:n]
    return lst(e[0], e[1]), lst(e[2], e[3])


def lcm(l):
    r = 1
    for x in l:
        r = r * x // math.gcd(r, x)
    return r


class Plate:
    def __init__(self, name):
        mat, st, a, b, N, e, n, self.refs, self.half = CASES[name]
        D11, D12, D22, D16, D26, D66 = exact_d(st, mat)
        a, b = F(a), F(b)
        self.c = [4 * b / a**3 * D11, 4 / (a * b) * D12, 4 * a / b**3 * D22, 8 / a**2 * D16, 8 / b**2 * D26, 16 / (a * b) * D66]
        self.g = [F(N[0]) * b / a, F(N[1]) * a / b, F(N[2])]
        self.xs, self.ys = indices(e, n)
        self.w = [(i, j) for i in self.xs for j in self.ys]

    def ints(self, mu):
        g = [mu * x for x in self.g]
        den = lcm([x.denominator for x in self.c + g])
        return den, [int(x * den) for x in self.c], [int(x * den) for x in g]

    def mat(self, c, g):
        T, N = TI, len(self.w)
        R = [[0] * N for _ in range(N)]
        for r in range(N):
            i, j = self.w[r]
            for s in range(r + 1):
                k, l = self.w[s]
                v = (c[0] * T['XX'][i][k] * T['ff'][j][l] + c[1] * (T['Xf'][i][k] * T['Xf'][l][j] + T['Xf'][k][i] * T['Xf'][j][l])
                     + c[2] * T['ff'][i][k] * T['XX'][j][l] + c[3] * (T['Xx'][i][k] * T['xf'][l][j] + T['Xx'][k][i] * T['xf'][j][l])
                     + c[4] * (T['xf'][i][k] * T['Xx'][l][j] + T['xf'][k][i] * T['Xx'][j][l]) + c[5] * T['xx'][i][k] * T['xx'][j][l]
                     + g[0] * T['xx'][i][k] * T['ff'][j][l] + g[1] * T['ff'][i][k] * T['xx'][j][l]
                     + g[2] * (T['xf'][k][i] * T['xf'][j][l] + T['xf'][i][k] * T['xf'][l][j]))
                R[r][s] = R[s][r] = v
        return R


def chol(R, sh):
    C = []
    for i in range(len(R)):
        row = []
        for j in range(i + 1):
            s = Dc(R[i][j]) - (sh if i == j else 0)
            cj = row if i == j else C[j]
            for k in range(j):
                s -= row[k] * cj[k]
            if i == j:
                if s <= 0:
                    return None
                row.append(s.sqrt())
            else:
                row.append(s / cj[j] if s else Dc(0))
        C.append(row)
    return C


def ldl(R):
    """L D L^T without pivoting."""
    N = len(R)
    L, D = [], []
    for i in range(N):
        row = []
        for j in range(i + 1):
            s = Dc(R[i][j])
            lj = row if i == j else L[j]
            for k in range(j):
                if row[k] and lj[k]:
                    s -= row[k] * lj[k] * D[k]
            if i == j:
                D.append(s)
            else:
                row.append(s / D[j])
        L.append(row)
    return L, D


def solve(f, b):
    L, D = f
    N = len(D)
    y = list(b)
    for i in range(N):
        for k in range(i):
            y[i] -= L[i][k] * y[k]
    y = [v / d for v, d in zip(y, D)]
    for i in reversed(range(N)):
        for k in range(i):
            y[k] -= L[i][k] * y[i]
    return y


def matvec(R, v):
    return [sum((Dc(a) * b for a, b in zip(row, v) if a), Dc(0)) for row in R]


def mode(KI, R, lam):
    """Multiplier near `lam` (R = scaled K + lam KG) and its shape: inverse iteration; KI and R have the same scale."""
    f = ldl(R)
    v = [Dc(1) + Dc(i * 37 % 11) / 7 for i in range(len(R))]
    th = None
    for _ in range(6):
        w = solve(f, matvec(KI, v))
        kw = matvec(KI, w)
        th = sum(a * b for a, b in zip(kw, v)) / sum(a * b for a, b in zip(kw, w))   # R v = th K v
        nrm = sum(a * b for a, b in zip(kw, w)).sqrt()
        v = [x / nrm for x in w]
    return v, th


def bound(c, g):
    return 9 * sum(map(abs, c + g)) * NINEMAX**2


def low(P, mu, U):
    """Certificate that at most len(U) modes lie below mu. U: (scaled) vectors K v with v K v = 1 for the real K."""
    den, c, g = P.ints(mu)
    R = P.mat(c, g)
    N = len(R)
    sc = Dc(den) * SC * SC
    ubits = 40
    t, ui = 0, []
    if U:
        mx = max(abs(x) for u in U for x in u)
        al = Dc(2**ubits) / mx
        ui = [[int((x * al).to_integral_value()) for x in u] for u in U]
        t = int((12 * sc / (al * al)).to_integral_value())
        assert t > 0
    for i in range(N):
        for j in range(N):
            R[i][j] += t * sum(u[i] * u[j] for u in ui)
    tr = Dc(max(R[i][i] for i in range(N)))
    sh, C = tr, None
    while C is None:
        sh /= 8
        C = chol(R, sh)
        if sh < tr * Dc(10)**-40:
            return None
    for f in (4, 2):
        C2 = chol(R, sh * f)
        if C2:
            sh, C = sh * f, C2
            break
    shi = int(sh)
    lo, best = 1, None
    for z in range(260, 0, -1):
        uu = Dc(2)**z
        Ci = [[int((x / uu).to_integral_value()) for x in row] for row in C]
        s = 2**(2 * z)
        e, ok = 0, True
        for i in range(N):
            for j in range(i + 1):
                d = sum(x * y for x, y in zip(Ci[i], Ci[j]))
                e = max(e, abs(R[i][j] - s * d - (shi if i == j else 0)))
                if N * e >= shi:
                    ok = False
                    break
            if not ok:
                break
        if ok:
            q = e.bit_length() + 1
            if N * 2**(q - 1) < shi:
                break
    else:
        return None
    mx = max([abs(x) for r in Ci for x in r] + [abs(x) for u in ui for x in u])
    u = mx.bit_length() + 1
    cols = [(k, sum((Ci[i][k] + 2**(u - 1)) << (u * (i - k)) for i in range(k, N))) for k in range(N)]
    ucols = [(0, sum((x + 2**(u - 1)) << (u * i) for i, x in enumerate(w))) for w in ui]
    tot = 2 * (bound(c, g) + 2**(q - 1) + shi + s * len(cols) * 4**u + t * len(ucols) * 4**u) + 1
    k = max(tot, 2 * 2**q + 1).bit_length()
    return den, c + g, k, q, u, 2 * z, shi, t, cols, ucols


def high(P, mu, V):
    """Vectors on which the form is negative at mu."""
    den, c, g = P.ints(mu)
    R = P.mat(c, g)
    N = len(R)
    for ub in (40, 60, 80, 100, 120):
        mx = max(abs(x) for v in V for x in v)
        vi = [[int((x / mx * 2**ub).to_integral_value()) for x in v] for v in V]
        u = ub + 2
        Rv = [[sum(a * b for a, b in zip(row, v)) for row in R] for v in vi]
        G = [[sum(a * b for a, b in zip(rv, w)) for w in vi] for rv in Rv]
        gg = max([abs(G[p][q]) for p in range(len(V)) for q in range(len(V)) if p != q] + [0])
        if all(G[p][p] + len(V) * gg < 0 for p in range(len(V))):
            break
    else:
        return None
    k = (2 * (N * 2**u * bound(c, g)) + 1).bit_length()
    return den, c + g, k, u, gg, [sum((x + 2**(u - 1)) << (u * i) for i, x in enumerate(w)) for w in vi]


def rat(x):
    return f'({x.numerator} / {x.denominator})' if x.denominator != 1 else f'{x.numerator}'


def coef(c):
    return '⟨' + ', '.join(map(str, c)) + '⟩'


def main(name):
    P = Plate(name)
    nm = name[0].lower() + name[1:]
    out = ['import Verif.Lemmas.DocPlates', '', '/-!', 'Generated by tools/gen_cert.py; the certificates are checked here.', '-/', '',
           'set_option maxRecDepth 100000', '', 'namespace Composipy', '']

    def put_low(tag, mu, U):
        r = low(P, mu, U)
        if r is None:
            sys.exit(f'{name} {tag}: no certificate')
        den, c, k, q, u, z2, shi, t, cols, ucols = r
        print(name, tag, 'u', u, 'q', q, 'k', k, 'size', sum(len(str(x)) for _, x in cols), flush=True)
        pr = lambda l: ',\n  '.join(f'({a}, {b})' for a, b in l)
        out.extend([f'def {nm}{tag} : Cert := ⟨{k}, {q}, {u}, 2 ^ {z2}, {shi}, {t}, [\n  {pr(cols)}], [\n  {pr(ucols)}]⟩', '',
                    f'theorem {nm}{tag}_ok : {nm}Plate.lowOk {rat(mu)} {den} {coef(c)} {nm}{tag} {len(U)} = true := by decide +kernel', ''])

    put_low('Zero', F(0), [])
    V, U, names = [], [], []
    for i, ref in enumerate(P.refs):
        mid = F(ref)
        lo, hi = mid - P.half, mid + P.half
        den, c, g = P.ints(mid)
        R = P.mat(c, g)
        KI = P.mat(c, [0, 0, 0])
        v, th = mode(KI, R, mid)
        lam = Dc(mid.numerator) / Dc(mid.denominator) / (1 - th)
        kv = matvec(KI, v)
        sc = Dc(den) * SC * SC
        # v K v = 1 for KI; the real K is KI / sc
        print(name, i + 1, 'lam', str(lam)[:22], 'printed', ref, flush=True)
        if not (Dc(lo.numerator) / lo.denominator < lam < Dc(hi.numerator) / hi.denominator):
            sys.exit('does not agree')
        put_low(f'Low{i + 1}', lo, U)
        rt = sc.sqrt()
        V.append([x * rt for x in v])
        U.append([x / rt for x in kv])
        h = high(P, hi, V)
        if h is None:
            sys.exit(f'{name} {i}: no vectors')
        den, c, k, u, gg, vs = h
        pv = ',\n  '.join(map(str, vs))
        out.extend([f'def {nm}Vec{i + 1} : List ℕ := [\n  {pv}]', '',
                    f'theorem {nm}High{i + 1}_ok : {nm}Plate.highOk {rat(hi)} {den} {coef(c)} {k} {u} {gg} {nm}Vec{i + 1} = true := by', '  decide +kernel', ''])
        names.append((lo, hi))
    brs = ', '.join(f'({rat(a)}, {rat(b)})' for a, b in names)
    prf = '.nil _ _'
    for i in reversed(range(len(names))):
        prf = f'.cons (IntPlate.low {nm}Low{i + 1}_ok) (IntPlate.high {nm}High{i + 1}_ok rfl) ({prf})'
    out.extend([f'theorem {nm}_brackets : {nm}Plate.Brackets 0 [{brs}] :=', f'  {prf}', '', 'end Composipy', ''])
    open(os.path.join(HERE, '..', 'lean', 'Verif', 'Gen', f'Doc{name}.lean'), 'w').write('\n'.join(out))


if __name__ == '__main__':
    for nme in sys.argv[1:] or CASES:
        main(nme)
