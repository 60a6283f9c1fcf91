"""Transcribe the shipped text tables of /repo into lean/Verif/Gen (reads the files as text)."""
import ast, os

ROOT = os.path.dirname(os.path.dirname(os.path.abspath(__file__)))
SRC = '/repo/composipy/pre_integrated_component/'
OUT = os.path.join(ROOT, 'lean/Verif/Gen/')

def pack(s):
    return '0x' + s.encode('ascii').hex()

def dicts(name):
    tree = ast.parse(open(SRC + name).read())
    out = {}
    for node in tree.body:
        if isinstance(node, ast.Assign) and isinstance(node.value, ast.Dict):
            keys = [ast.literal_eval(k) for k in node.value.keys]
            vals = [ast.literal_eval(v) for v in node.value.values]
            out[node.targets[0].id] = (keys, vals, node.lineno)
    return out

def rows(keys, vals, n):
    assert keys == [(i, j) for i in range(n) for j in range(n)]
    return [vals[i * n:(i + 1) * n] for i in range(n)]

HEAD = '''/-!
Generated by tools/gen_tables.py from {src}.
Every entry is the verbatim text of the shipped dictionary, packed base 256 (see `unpack`).
-/

namespace Composipy

'''

def table(f, name, rws, doc):
    f.write(f'/-- {doc} -/\ndef {name} : List (List Nat) := [\n')
    f.write(',\n'.join('  [' + ', '.join(r) + ']' for r in rws))
    f.write(']\n\n')

def main():
    os.makedirs(OUT, exist_ok=True)
    ii = dicts('_ii_F.py')
    assert list(ii) == ['ii_FF', 'ii_FXI_F', 'ii_FXI_FXI', 'ii_FXIXI_F', 'ii_FXIXI_FXI', 'ii_FXIXI_FXIXI']
    for name, lean in [('ii_FF', 'FF'), ('ii_FXI_F', 'FXI_F'), ('ii_FXI_FXI', 'FXI_FXI'),
                       ('ii_FXIXI_F', 'FXIXI_F'), ('ii_FXIXI_FXI', 'FXIXI_FXI'), ('ii_FXIXI_FXIXI', 'FXIXI_FXIXI')]:
        keys, vals, line = ii[name]
        with open(OUT + lean + '.lean', 'w') as f:
            f.write(HEAD.format(src='pre_integrated_component/_ii_F.py'))
            table(f, 'text_' + lean, [[pack(v) for v in r] for r in rows(keys, vals, 30)],
                  f'`{name}`, row `i`, column `k`. [_ii_F.py:{line}-{line + 901}]')
            f.write('end Composipy\n')
    s = dicts('_S.py')
    keys, fxi, line = s['FXI']
    assert keys == list(range(50))
    skeys, svals, sline = s['S']
    ids = {}
    for v in fxi:
        ids.setdefault(v, len(ids))
    for v in fxi:
        ids.setdefault(v.replace('xi', 'eta'), len(ids))
    out = []
    for r in rows(skeys, svals, 50):
        row = []
        for v in r:
            assert v[0] == '(' and v[-1] == ')'
            a, b = v[1:-1].split(')*(')
            assert v == '(' + a + ')*(' + b + ')'
            row.append(f'({ids[a]}, {ids[b]})')
        out.append(row)
    assert len(ids) == 100
    with open(OUT + 'S.lean', 'w') as f:
        f.write(HEAD.format(src='pre_integrated_component/_S.py'))
        f.write(f'/-- `FXI`. [_S.py:{line}-{line + 51}] -/\ndef text_FXI : List Nat := [\n')
        f.write(',\n'.join('  ' + pack(v) for v in fxi) + ']\n\n')
        f.write('/-- The 100 distinct factor texts that occur in `S`. -/\ndef text_factors : List Nat := [\n')
        f.write(',\n'.join('  ' + pack(v) for v in ids) + ']\n\n')
        f.write('/-- `S[(i, j)]` is the text `"(" + p + ")*(" + q + ")"` with the factors of these two numbers.\n'
                f'[_S.py:{sline}-{sline + 2501}] -/\ndef ids_S : List (List (Nat × Nat)) := [\n')
        f.write(',\n'.join('  [' + ', '.join(r) + ']' for r in out) + ']\n\n')
        f.write('end Composipy\n')

main()
