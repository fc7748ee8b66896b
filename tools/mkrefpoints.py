#!/usr/bin/env python3
"""Generates lean/Verif/Lemmas/RefPoints.lean: numeric enclosures of the plane coordinates of the documented
reference points (Spec/Reference.lean). The numbers below are only proof hints; Lean checks every inequality."""
from decimal import Decimal as D, getcontext
getcontext().prec = 50
PI = D('3.14159265358979323846')
def series(x, first):
    t = D(1) if first == 0 else x
    k = first; s = D(0)
    while k < 16:
        s += t; t = -t * x * x / ((k + 1) * (k + 2)); k += 2
    return s
def cosP(x): return series(x, 0)
def sinP(x): return series(x, 1)
def q(x, n):
    return x.quantize(D(1).scaleb(-n))
def lit(x, n):
    v = int(q(x, n).scaleb(n))
    return f'({v} / 10 ^ {n})' if v >= 0 else f'(-{-v} / 10 ^ {n})'
G = [
 ('g900', '¬ 5 ≤ format', (900, 900), [('54.5877','2.0715',0,0),('54.7405','15.7208',900,0),('51','9',450,450),('46.9526','3.5889',0,900),('47.0705','14.6209',900,900)], '25 / 1000'),
 ('g920', '¬ 5 ≤ format', (920, 920), [('54.66218275','1.900684377',0,0),('54.81884457','15.88724008',920,0),('51','9',460,460),('46.86029310','3.481345126',0,920),('46.98044293','14.73300934',920,920)], '1 / 10 ^ 6'),
 ('g1100', '¬ 5 ≤ format', (900, 1100), [('55.5482','3.0889',0,0),('55.5342','17.1128',900,0),('51','9',370,550),('46.1929','4.6759',0,1100),('46.1827','15.4801',900,1100)], '25 / 1000'),
 ('g1200s', '¬ 5 ≤ format', (1100, 1200), [('55.86584289','1.435612143',0,0),('55.84848692','18.76728172',1100,0),('51','9',470,600),('45.69587048','3.551921296',0,1200),('45.68358331','16.60186543',1100,1200)], '1 / 10 ^ 6'),
 ('g1500', '¬ 5 ≤ format', (1400, 1500), [('56.5423','-0.8654',0,0),('56.4505','21.6986',1400,0),('51','9',600,700),('43.9336','2.3419',0,1500),('43.8736','18.2536',1400,1500)], '25 / 1000'),
 ('g1200w', '5 ≤ format', (1100, 1200), [('55.86208711','1.463301510',0,0),('55.84543856','18.73161645',1100,0),('45.68460578','16.58086935',1100,1200),('45.69642538','3.566994635',0,1200)], '1 / 10 ^ 6'),
]
ECC = D('8181919084262032') / D(10) ** 17
K = D('118866564631230255574') / D(10) ** 16
out = ['''/-
GENERATED by tools/mkrefpoints.py. Enclosures of the plane coordinates (km) of the documented reference points.
-/
import Verif.Lemmas.TrigNum

namespace Radolan.Num
open Real
''']
pts = {}
for name, cond, ext, ps, tol in G:
    w = name.endswith('w')
    for i, (n, e, x, y) in enumerate(ps):
        if ('sph' if not w else 'wgs', n, e) in pts: continue
        nm = f'pt_{name}_{i}'
        pts[('sph' if not w else 'wgs', n, e)] = nm
        dn, de = D(n), D(e)
        xn = q(dn * PI / 180, 15); xe = q((de - 10) * PI / 180, 15)
        sn, cn, se, ce = q(sinP(xn), 15), q(cosP(xn), 15), q(sinP(xe), 15), q(cosP(xe), 15)
        L = [f'theorem {nm} {{format : Int}} (hf : {cond}) :']
        nl, el = f'({n} : ℝ)', f'({e} : ℝ)'
        args = ' '.join(lit(v, 15) for v in (sn, cn, se, ce))
        enc = [f'  have h : Enc {nl} {el} {args} := by',
               f'    apply enc (xn := {lit(xn,15)}) (xe := {lit(xe,15)}) <;>',
               '      first | (constructor <;> norm_num) | (simp only [sinP, cosP, abs_le]; constructor <;> norm_num)']
        if not w:
            X = K * cn / (1 + sn) * se; Y = K * cn / (1 + sn) * ce
            L.append(f'    |(planeXY realArith format {nl} {el}).1 - {lit(X,9)}| ≤ 3 / 10 ^ 8 ∧')
            L.append(f'    |(planeXY realArith format {nl} {el}).2 - {lit(Y,9)}| ≤ 3 / 10 ^ 8 := by')
            L += enc
            L.append('  exact sphere_point hf h (by rw [abs_le]; constructor <;> norm_num) (by rw [abs_le]; constructor <;> norm_num)')
        else:
            y0 = q(ECC * sn, 15)
            v0 = q(ECC / 2 * 2 * sum(y0 ** k / k for k in (1, 3, 5, 7, 9, 11, 13)), 15)
            g0 = q(1 + v0 + v0 ** 2 / 2 + v0 ** 3 / 6 + v0 ** 4 / 24 + v0 ** 5 / 120, 15)
            k0 = D('11862667.042661695') / 1000
            X = D('543.19683521776402') + k0 * cn / (1 + sn) * g0 * se
            Y = -D('3622.588861931001') + k0 * cn / (1 + sn) * g0 * ce
            L.append(f'    |(planeXY realArith format {nl} {el}).1 - {lit(X,9)}| ≤ 3 / 10 ^ 8 ∧')
            L.append(f'    |(planeXY realArith format {nl} {el}).2 - {lit(Y,9)}| ≤ 3 / 10 ^ 8 := by')
            L += enc
            L.append(f'  apply wgs_point hf h (y0 := {lit(y0,15)}) (v0 := {lit(v0,15)}) (g0 := {lit(g0,15)}) <;>')
            L.append('    first | (constructor <;> norm_num) | (simp only [ecc84, logP, expP, abs_le]; constructor <;> norm_num)')
        out.append('\n'.join(L) + '\n')
out.append('''/-- position in kilometres from enclosures of the plane coordinates of the point and of the two corners -/
theorem ratio_near {p o e W km t : ℝ} (hD : 0 < e - o) (h1 : (p - o) * W - km * (e - o) ≤ t * (e - o))
    (h2 : -(t * (e - o)) ≤ (p - o) * W - km * (e - o)) : |(p - o) / (e - o) * W - km| ≤ t := by
  have e1 : (p - o) / (e - o) * W - km = ((p - o) * W - km * (e - o)) / (e - o) := by
    field_simp
  rw [e1, abs_div, abs_of_pos hD, div_le_iff₀ hD, abs_le]
  exact ⟨h2, h1⟩
''')
for name, cond, (W, H), ps, tol in G:
    kind = 'wgs' if name.endswith('w') else 'sph'
    o = ps[0]; c = [p for p in ps if p[2] == W and p[3] == H][0]
    P = lambda n, e: f'(planeXY realArith format ({n} : ℝ) ({e} : ℝ))'
    for ax, comp, ext, ki in (('x', '1', W, 2), ('y', '2', H, 3)):
        po, pc = P(o[0], o[1]) + '.' + comp, P(c[0], c[1]) + '.' + comp
        out.append(f'''theorem {name}_{ax} {{format : Int}} (hf : {cond}) :
    |{pc} - {po} - {ext}| ≤ {ext} / 10 ^ 5 := by
  have o := abs_le.mp ({pts[(kind, o[0], o[1])]} hf).{comp}
  have c := abs_le.mp ({pts[(kind, c[0], c[1])]} hf).{comp}
  rw [abs_le]; constructor <;> norm_num at o c ⊢ <;> linarith [o.1, o.2, c.1, c.2]
''')
        for i, p in enumerate(ps):
            pp = P(p[0], p[1]) + '.' + comp
            out.append(f'''theorem {name}_{ax}_{i} {{format : Int}} (hf : {cond}) :
    |({pp} - {po}) / ({pc} - {po}) * {ext} - {p[ki]}| ≤ {tol} := by
  have o := abs_le.mp ({pts[(kind, o[0], o[1])]} hf).{comp}
  have c := abs_le.mp ({pts[(kind, c[0], c[1])]} hf).{comp}
  have p := abs_le.mp ({pts[(kind, p[0], p[1])]} hf).{comp}
  norm_num at o c p
  apply ratio_near <;> norm_num <;> linarith [o.1, o.2, c.1, c.2, p.1, p.2]
''')
out.append('end Radolan.Num\n')
open('/verif/lean/Verif/Lemmas/RefPoints.lean', 'w').write('\n'.join(out))
