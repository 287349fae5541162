"""Writes lean/Verif/Lemmas/Bounds/*.lean: expressions for the objectives and checks of bounds by `decide +kernel`.  Long checks are cut into several modules to keep memory use low."""
from fractions import Fraction as F
import sys
import os
sys.path.insert(0, os.path.dirname(os.path.abspath(__file__)))
import bb
N = 10 ** 15


def lit(x):
    v = F(x) * N
    assert v.denominator == 1, x
    v = int(v)
    return f"(.ofNat (nat_lit {v}))" if v >= 0 else f"(.negSucc (nat_lit {-v - 1}))"


def addl(l):
    r = l[-1]
    for a in reversed(l[:-1]):
        r = f"(.add {a} {r})"
    return r


def scl(c, e): return f"(.scl {lit(c)} {e})"
def off(c, e): return f"(.off {lit(c)} {e})"
def sq(e): return f"(.sq {e})"
def mul(a, b): return f"(.mul {a} {b})"
def add(*l): return addl(list(l))
def sin(e): return f"(.sin {e})"
def cos(e): return f"(.cos {e})"
def expn(e): return f"(.expNeg {e})"
def var(j): return f"(.var (nat_lit {j}))"
def par(j): return f"(.par (nat_lit {j}))"
def neg(e): return scl(-1, e)
def I(a, b): return f"⟨{lit(a)}, {lit(b)}⟩"


def forr(x): return mul(sq(off(-2, scl(6, x))), sin(off(-4, scl(12, x))))


def sasena(x, y):
    return off(2, add(scl('0.01', sq(add(y, neg(sq(x))))), sq(off(-1, x)), scl(2, sq(off(-2, y))), scl(7, mul(sin(scl('0.5', x)), sin(scl('0.7', mul(x, y)))))))


def branin(x, y):  # par 0 = 5.1/(4 pi^2), par 1 = 5/pi, par 2 = 10 (1 - 1/(8 pi))
    a = off(-5, scl(15, x))
    q = off(-6, add(scl(15, y), neg(mul(par(0), sq(a))), mul(par(1), a)))
    return off(10, add(sq(q), mul(par(2), cos(a)), scl(5, x)))


def cons1(x, y): return off('0.2', neg(mul(x, y)))


def cons2(x, y):  # par 3 = 1/3
    u = off(-1, scl(2, x))
    v = off(-1, scl(2, y))
    t1 = mul(off(4, add(scl('-2.1', sq(u)), mul(par(3), sq(sq(u))))), sq(u))
    t3 = mul(off(-4, scl(4, sq(v))), sq(v))
    return off(6, neg(add(t1, mul(u, v), t3, scl(3, sin(off(6, scl(-6, u)))), scl(3, sin(off(6, scl(-6, v)))))))


def six3(x, y):
    return add(mul(off(12, add(scl('-6.3', sq(x)), sq(sq(x)))), sq(x)), scl(3, mul(x, y)), mul(off(-12, scl(12, sq(y))), sq(y)))


A3 = [['3.0', '10.0', '30.0'], ['0.1', '10.0', '35.0'], ['3.0', '10.0', '30.0'], ['0.1', '10.0', '35.0']]
P3 = [['0.3689', '0.117', '0.2673'], ['0.4699', '0.4387', '0.747'], ['0.1091', '0.8732', '0.5547'], ['0.03815', '0.5743', '0.8828']]
C3 = ['1', '1.2', '3', '3.2']
A6 = [['10.00', '3.0', '17.00', '3.5', '1.7', '8'], ['0.05', '10.0', '17.00', '0.1', '8.0', '14'], ['3.00', '3.5', '1.70', '10.0', '17.0', '8'],
      ['17.00', '8.0', '0.05', '10.0', '0.1', '14']]
P6 = [['0.1312', '0.1696', '0.5569', '0.0124', '0.8283', '0.5886'], ['0.2329', '0.4135', '0.8307', '0.3736', '0.1004', '0.9991'],
      ['0.2348', '0.1451', '0.3522', '0.2883', '0.3047', '0.6650'], ['0.4047', '0.8828', '0.8732', '0.5743', '0.1091', '0.0381']]
C6 = ['1.0', '1.2', '3.0', '3.2']


def hart(A, P, C, vs):
    return addl([scl('-' + C[i], expn(addl([scl(A[i][j], sq(off('-' + P[i][j], vs[j]))) for j in range(len(vs))]))) for i in range(len(C))])


def quots(k):
    vs = [var(0), var(1)]
    w = vs[:k] + [None] + vs[k:]

    def lin(cs):
        return off([c for c, x in zip(cs, w) if x is None][0], addl([scl(c, x) for c, x in zip(cs, w) if x]))
    return "[" + ",\n   ".join("(" + lin([F(A6[i][j]) * F(P6[i][j]) for i in range(3)]) + ", " + lin([A6[i][j] for i in range(3)]) + ")" for j in range(6)) + "]"


out = {}
imports = {}


def define(mod, name, doc, ty, body):
    out.setdefault(mod, []).append(f"/-- {doc} -/\ndef {name} : {ty} :=\n  {body}\n")


def ival(b): return [(float(l), float(h)) for l, h in b]


def split(mod, name, fn, pred, lem, box, limit=120, total=250):
    """Sub-box checks of at most about `limit` boxes, put into modules of their own, and glued together.  fn: objective, bound and constraint with the operations of `bb`;
    pred: what holds on the box, lem: the lemma that makes it follow from a check."""
    count = [0, total]

    def stmt(b): return f"OnBox ({pred}) [{', '.join(I(l, h) for l, h in b)}]"

    def go(b):
        r = bb.count(fn, ival(b), limit)
        count[0] += 1
        nm = f'{name}_{count[0]}'
        if r is not None:
            if count[1] + r > total:
                m = f'{mod}P{len(imports.setdefault(mod, [])) + 1}'
                imports[mod].append(m)
                imports[m] = [mod + 'E']
                out[m] = []
                count[1] = 0
            count[1] += r
            out[imports[mod][-1]].append(f"theorem {nm} : {stmt(b)} :=\n  {lem} (n := 60) (by decide +kernel)\n")
            return nm
        w = bb.worst(fn, ival(b))
        j = max(range(len(b)), key=lambda i: w[i])
        l, h = b[j]
        c = (F(l) + F(h)) / 2
        assert (c * N).denominator == 1
        x, y = go(b[:j] + [(l, c)] + b[j + 1:]), go(b[:j] + [(c, h)] + b[j + 1:])
        out[mod].append(f"theorem {nm} : {stmt(b)} := OnBox.glue (nat_lit {j}) {lit(c)} {x} {y}\n")
        return nm
    out.setdefault(mod, [])
    r = go(box)
    out[mod].append(f"theorem {name} : {stmt(box)} := {r}\n")


def point(mod, name, e, m, pars, l):
    """`e` is at least `m` at a point."""
    box = f"[{', '.join(I(a, a) for a in l)}]"
    if pars:
        out[mod].append(f"theorem {name} : OnBox (AbovePar {e} braninPars {lit(m)}) {box} :=\n  abovePar_of_check (n := 2) (by decide +kernel)\n")
    else:
        out[mod].append(f"theorem {name} : OnBox (Above {e} {lit(m)}) {box} :=\n  above_of_check (n := 2) (by decide +kernel)\n")


S = 'Forrester'
define(S + 'E', 'forresterE', '`(6 x - 2)² sin (12 x - 4)`', 'E', forr(var(0)))
define(S + 'E', 'forresterNegE', '`-(6 x - 2)² sin (12 x - 4)`', 'E', neg('forresterE'))
split(S, 'forrester_above', (bb.forr, -6.020741), f"Above forresterE {lit('-6.020741')}", 'above_of_check', [(0, 1)])
point(S, 'forrester_point_low', 'forresterE', '-6.0207401', False, ['0.757248757841856'])
point(S, 'forrester_point_high', 'forresterNegE', '6.02074005', False, ['0.757248757841856'])
S = 'Branin'
out[S + 'E'] = ["""/-- Enclosures of `5.1 / (4 π²)`, `5 / π`, `10 (1 - 1 / (8 π))` and `1 / 3`. -/
def braninPars : List I := [%s, %s, %s, %s]
""" % (I('0.129184509', '0.129184510'), I('1.591549430', '1.591549431'), I('9.602112641', '9.602112643'), I('0.333333333333333', '0.333333333333334'))]
define(S + 'E', 'braninE', 'The objective of `Branin_1` and `Branin_2`.', 'E', branin(var(0), var(1)))
define(S + 'E', 'braninNegE', 'The objective, negated.', 'E', neg('braninE'))
define(S + 'E', 'cons1E', 'The constraint of `Branin_1`.', 'E', cons1(var(0), var(1)))
define(S + 'E', 'cons2E', 'The constraint of `Branin_2`.', 'E', cons2(var(0), var(1)))
define(S + 'E', 'lagrange2E', 'The objective plus four times the constraint of `Branin_2`.', 'E', add('braninE', scl(4, 'cons2E')))
split(S, 'branin1_above', (bb.branin, 5.5756, bb.b1c), f"AboveOr braninE cons1E braninPars {lit('5.5756')}", 'aboveOr_of_check', [(0, 1), (0, 1)])
split(S, 'branin2_above', (bb.lag2, 12.001, bb.b2c), f"AboveOr lagrange2E cons2E braninPars {lit('12.001')}", 'aboveOr_of_check', [(0, 1), (0, 1)])
point(S, 'branin1_point_low', 'braninE', '5.57565', True, ['0.96773', '0.20667'])
point(S, 'branin1_point_high', 'braninNegE', '-5.57575', True, ['0.96773', '0.20667'])
point(S, 'branin2_point_high', 'braninNegE', '-11.96', True, ['0.941', '0.317'])
point(S, 'branin2_cons_point_low', 'cons2E', '0.01', True, ['0.941', '0.317'])
point(S, 'branin1_better_high', 'braninNegE', '-5.57568', True, ['0.96754', '0.20671'])
S = 'Sixhump'
define(S + 'E', 'sixhumpE', 'Three times the objective of `Sixhump`.', 'E', six3(var(0), var(1)))
split(S, 'sixhump_above', (bb.six3, -3.0951), f"Above sixhumpE {lit('-3.0951')}", 'above_of_check', [(-3, 3), (-2, 2)])
S = 'Sasena'
define(S + 'E', 'sasenaE', 'The objective of `Sasena`.', 'E', sasena(var(0), var(1)))
define(S + 'E', 'sasenaNegE', 'The objective of `Sasena`, negated.', 'E', neg('sasenaE'))
split(S, 'sasena_above', (bb.sasena, -1.4566), f"Above sasenaE {lit('-1.4566')}", 'above_of_check', [(0, 5), (0, 5)])
point(S, 'sasena_point_low', 'sasenaE', '-1.45653', False, ['2.5044', '2.5778'])
point(S, 'sasena_point_high', 'sasenaNegE', '1.45652', False, ['2.5044', '2.5778'])
S = 'Hartman3'
define(S + 'E', 'hartman3E', 'The objective of `Hartman3`.', 'E', hart(A3, P3, C3, [var(j) for j in range(3)]))
split(S, 'hartman3_above', (bb.hart(A3, P3, C3), -3.862792), f"Above hartman3E {lit('-3.862792')}", 'above_of_check', [(0, 1)] * 3)
point(S, 'hartman3_point_low', 'hartman3E', '-3.8627', False, ['0.1', '0.55592003', '0.85218259'])
S = 'Hartman6'
define(S + 'E', 'hartman6E', 'The sum of the first three terms of `Hartman6`, negated.', 'E', hart(A6[:3], P6[:3], C6[:3], [var(j) for j in range(6)]))
for k in range(3):
    define(S + 'E', f'centroid{k}', f'The weighted means of the centres for weights whose largest, number {k}, is 1.', 'List (E × E)', quots(k))
    split(S, f'hartman6_above{k}', (bb.hart6(A6, P6, C6, k), -3.3232), f"AboveQ centroid{k} hartman6E {lit('-3.3232')}", 'aboveQ_of_check', [(0, 1)] * 2)
define(S + 'E', 'hartman6FullE', 'The sum of the four terms of `Hartman6`, negated.', 'E', hart(A6, P6, C6, [var(j) for j in range(6)]))
define(S + 'E', 'hartman6NegE', 'The sum of the four terms of `Hartman6`.', 'E', neg('hartman6FullE'))
sch6 = ['0.20168952', '0.15001069', '0.47687398', '0.27533243', '0.31165162', '0.65730054']
point(S, 'hartman6_point_low', 'hartman6FullE', '-3.32236802', False, sch6)
point(S, 'hartman6_point_high', 'hartman6NegE', '3.322368', False, sch6)

if __name__ == '__main__':
    for mod, parts in out.items():
        imp = ''.join(f'import Verif.Lemmas.Bounds.{m}\n' for m in imports.get(mod, [])) or 'import Verif.Lemmas.IntervalSound\n'
        open(f'/verif/lean/Verif/Lemmas/Bounds/{mod}.lean', 'w').write(
            f'{imp}\n/-! Written by tools/mkbounds.py. -/\n\nnamespace Mfpml.IA\n\n' + '\n'.join(parts) + '\nend Mfpml.IA\n')
