#!/usr/bin/env python3
"""Generates lean/Verif/Model/BorderTable.lean (the table of /repo/radolan2png/borders.go) and
lean/Verif/Lemmas/BorderPoints.lean (numeric enclosures of the plane coordinates of some points; the numbers are only
proof hints, Lean checks every inequality)."""
import re
from decimal import Decimal as D, getcontext
getcontext().prec = 50
src = open('/repo/radolan2png/borders.go').read()
ls = src.split('\n')
pts = re.findall(r'p\{(\d+)\.(\d{6}), (\d+)\.(\d{6})\}', src)
assert len(pts) == src.count('p{') - 1 == 12492
first = next(i for i, l in enumerate(ls) if 'p{' in l) + 1
last = max(i for i, l in enumerate(ls) if 'p{' in l) + 1
T = [(int(a + b), int(c + d)) for a, b, c, d in pts]
CH = 446
chunks = [T[i:i + CH] for i in range(0, len(T), CH)]
out = [f'''/-
GENERATED by tools/mkborders.py from /repo/radolan2png/borders.go:{first}-{last}: the table `border`, each pair in
millionths of a degree (every literal there has six decimals). The comment in borders.go calls the pairs {{longitude,
latitude}}; they are latitude, longitude.
-/
namespace Radolan.Cli
''']
for i, c in enumerate(chunks):
    body = ', '.join(f'({a}, {b})' for a, b in c)
    import textwrap
    body = '\n'.join(textwrap.wrap(body, 118, break_long_words=False))
    out.append(f'/-- borders.go:{first + i * CH}-{first + i * CH + len(c) - 1} -/\ndef border{i} : List (Nat × Nat) := [\n{body}]\n')
out.append(f'/-- borders.go:{first}-{last} -/\ndef borderTable : List (Nat × Nat) := List.flatten [\n  ' +
    '\n'.join(textwrap.wrap(', '.join(f'border{i}' for i in range(len(chunks))), 110, subsequent_indent='  ')) + ']\n')
out.append('end Radolan.Cli\n')
open('/verif/lean/Verif/Model/BorderTable.lean', 'w').write('\n'.join(out))

PI = D('3.14159265358979323846')
def series(x, first):
    t = D(1) if first == 0 else x
    k = first; s = D(0)
    while k < 16:
        s += t; t = -t * x * x / ((k + 1) * (k + 2)); k += 2
    return s
def cosP(x): return series(x, 0)
def sinP(x): return series(x, 1)
def q(x, n): return x.quantize(D(1).scaleb(-n))
def lit(x, n):
    v = int(q(x, n).scaleb(n))
    return f'({v} / 10 ^ {n})' if v >= 0 else f'(-{-v} / 10 ^ {n})'
ECC = D('8181919084262032') / D(10) ** 17
K = D('118866564631230255574') / D(10) ** 16
S = [('e', '47.27', '15.04'), ('w', '47.27', '4.96'), ('s', '47.27', '10'), ('n', '54.97', '15.04'), ('e1', '50.6', '15.04'),
     ('e2', '47.27', '14'), ('n1', '54.97', '12.1'), ('n2', '54.85', '15.04'), ('n3', '54.89', '11.74'), ('n4', '54.77', '15.04'),
     ('out', '54.91', '10'), ('edge', '54.900917', '8.707681')]
W = [('e', '47.27', '15.04'), ('w', '47.27', '4.96'), ('s', '47.27', '10'), ('n', '54.97', '15.04')]
out = ['''/-
GENERATED by tools/mkborders.py. Enclosures of the plane coordinates (km) of points enclosing the border of Germany.
-/
import Verif.Lemmas.TrigNum

namespace Radolan.Num
open Real
''']
for w, cond, ps in ((False, '¬ 5 ≤ format', S), (True, '5 ≤ format', W)):
    for (nm, n, e) in ps:
        nm = ('bw_' if w else 'bs_') + nm
        dn, de = D(n), D(e)
        xn = q(dn * PI / 180, 15); xe = q((de - 10) * PI / 180, 15)
        sn, cn, se, ce = q(sinP(xn), 15), q(cosP(xn), 15), q(sinP(xe), 15), q(cosP(xe), 15)
        L = [f'theorem {nm} {{format : Int}} (hf : {cond}) :']
        nl, el = f'({n} : ℝ)', f'({e} : ℝ)'
        args = ' '.join(lit(v, 15) for v in (sn, cn, se, ce))
        enc = [f'  have h : Enc {nl} {el} {args} := by',
               f'    apply enc (xn := {lit(xn,15)}) (xe := {lit(xe,15)}) <;>',
               '      first | (constructor <;> norm_num) | (simp only [sinP, cosP, abs_le]; constructor <;> norm_num)']
        if not w:
            X = K * cn / (1 + sn) * se; Y = K * cn / (1 + sn) * ce
            L.append(f'    |(planeXY realArith format {nl} {el}).1 - {lit(X,9)}| ≤ 3 / 10 ^ 8 ∧')
            L.append(f'    |(planeXY realArith format {nl} {el}).2 - {lit(Y,9)}| ≤ 3 / 10 ^ 8 := by')
            L += enc
            L.append('  exact sphere_point hf h (by rw [abs_le]; constructor <;> norm_num) (by rw [abs_le]; constructor <;> norm_num)')
        else:
            y0 = q(ECC * sn, 15)
            v0 = q(ECC / 2 * 2 * sum(y0 ** k / k for k in (1, 3, 5, 7, 9, 11, 13)), 15)
            g0 = q(1 + v0 + v0 ** 2 / 2 + v0 ** 3 / 6 + v0 ** 4 / 24 + v0 ** 5 / 120, 15)
            k0 = D('11862667.042661695') / 1000
            X = D('543.19683521776402') + k0 * cn / (1 + sn) * g0 * se
            Y = -D('3622.588861931001') + k0 * cn / (1 + sn) * g0 * ce
            L.append(f'    |(planeXY realArith format {nl} {el}).1 - {lit(X,9)}| ≤ 3 / 10 ^ 8 ∧')
            L.append(f'    |(planeXY realArith format {nl} {el}).2 - {lit(Y,9)}| ≤ 3 / 10 ^ 8 := by')
            L += enc
            L.append(f'  apply wgs_point hf h (y0 := {lit(y0,15)}) (v0 := {lit(v0,15)}) (g0 := {lit(g0,15)}) <;>')
            L.append('    first | (constructor <;> norm_num) | (simp only [ecc84, logP, expP, abs_le]; constructor <;> norm_num)')
        out.append('\n'.join(L) + '\n')
out.append('end Radolan.Num\n')
open('/verif/lean/Verif/Lemmas/BorderPoints.lean', 'w').write('\n'.join(out))
