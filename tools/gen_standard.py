"""Generate lean/Verif/Spec/Standard.lean: the TR 38.811 values transcribed in the project's test suite (/repo/test).

step_4_1_test.py  mean and deviation of the large-scale parameters  (Tables 6.7.2-1a to 6.7.2-8b)
step_4_2_test.py  cross-correlations
step_4_3_test.py  correlation distances
step_2_test.py    LoS probabilities (Table 6.6.1-1)
step_5_test.py    delay scaling
The clutter loss and shadow fading figures (Tables 6.6.2-1 to 6.6.2-3) are written out below; step_3_test.py repeats part.
"""
import re
from fractions import Fraction

TEST = '/repo/test/'
AREA = {'Test_URB': 'urban', 'Test_DUR': 'denseUrban', 'Test_SUR': 'subUrban'}
LSP = ['DS', 'ASD', 'ASA', 'SF', 'K', 'ZSA', 'ZSD']


def blocks(f):
    cls = fn = None
    for i, ln in enumerate(open(TEST + f), 1):
        m = re.match(r'class (\w+)', ln)
        if m:
            cls, fn = m[1], None
        m = re.match(r'    def (test\w+)', ln)
        if m:
            fn = m[1]
        if fn:
            yield cls, fn, i, ln


def milli(s):
    if 'inf' in s:
        return None
    a, *b = s.split('/')
    x = Fraction(a.strip()) * 1000
    assert x.denominator == 1, s
    return x.numerator  # a division by 10 (K-factor in bels) is left out: the table unit is dB


def show(x):
    return 'none' if x is None else 'some %s' % (x if x >= 0 else '(%d)' % x)


def key(cls, fn):
    m = re.match(r'test_(s|ka)_band_(?:(\d+)_degrees_)?(dl|ul)', fn)
    return AREA[cls], m[1] == 's', m[3] == 'ul', int(m[2]) if m[2] else None


def arm(area, los, s, u):
    b = lambda x: 'true' if x else 'false'
    return '.%s, %s, %s, %s' % (area, b(los), b(s), b(u))


stat = {}
for cls, fn, i, ln in blocks('step_4_1_test.py'):
    m = re.match(r"\s+(mu|sigma)_(\w+?)_(los|nlos)\s*=\s*(\S+)\s*$", ln)
    if m:
        area, s, u, ang = key(cls, fn)
        stat[(m[1], area, m[3] == 'los', s, u, LSP.index(m[2]), ang)] = milli(m[4])

cross = {}
for cls, fn, i, ln in blocks('step_4_2_test.py'):
    m = re.match(r"\s+(\w+)vs([A-Z]+)_(los|nlos)\s*=\s*(\S+)\s*$", ln)
    if m:
        area, s, u, ang = key(cls, fn)
        cross[(area, m[3] == 'los', s, u, LSP.index(m[1]), LSP.index(m[2]), ang)] = milli(m[4])

dist = {}
for cls, fn, i, ln in blocks('step_4_3_test.py'):
    m = re.match(r'\s+(\w+?)_(los|nlos) = ([\d.]+)\s*$', ln)
    if m:
        area, s, u, _ = key(cls, fn)
        dist[(area, m[2] == 'los', s, u, LSP.index(m[1]))] = milli(m[3])

losp = {}
cls_area = {'Test_URB': 'urban', 'Test_DUR': 'denseUrban', 'Test_SUR': 'subUrban'}
fn_area = {'test_urb_los_probabilities': 'urban', 'test_dur_los_probabilities': 'denseUrban',
           'test_sur_los_probabilities': 'subUrban'}
ang = None
for cls, fn, i, ln in blocks('step_2_test.py'):
    m = re.match(r'\s+elevation_angle = (\d+)\.0', ln)
    if m:
        ang = int(m[1])
    m = re.search(r'/100\.0, ([\d.]+), abs_tol', ln)
    if m:
        losp[(fn_area[fn], ang)] = (Fraction(m[1]) * 10)

ANG = range(10, 91, 10)
AREAS = ['denseUrban', 'urban', 'subUrban']
B = [True, False]
combos = [(a, l, s, u) for a in AREAS for l in B for s in B for u in B]

o = []
w = o.append
w('''import Mathlib.Data.Fintype.Defs
import Mathlib.Data.Int.Notation

/-
Independent record of TR 38.811 parameter values. Generated by /verif/tools/gen_standard.py from the values that the project's
own test suite transcribes from the standard (/repo/test/step_2_test.py, step_4_1_test.py, step_4_2_test.py,
step_4_3_test.py, step_5_test.py); clutter loss and shadow fading are those of TR 38.811 Tables 6.6.2-1 to 6.6.2-3
(/repo/test/step_3_test.py repeats those of the suburban area). The parameter files in /repo/OpenNTN/models are not read.
Values are thousandths in the unit of the standard, `none` is minus infinity. Lists run over the elevations 10, 20, ..., 90.
The arguments after the area are: LoS, S band, uplink. Large-scale parameters are numbered DS, ASD, ASA, SF, K, ZSA, ZSD.
-/
namespace OpenNTN.Spec

inductive Area where
  | denseUrban
  | urban
  | subUrban
  deriving DecidableEq

/-- Entry of a list over the elevations. -/
def atRow {α : Type} (l : List α) (row : ℤ) : Option α := l[(row / 10 - 1).toNat]?
''')
for nm, t, doc in [('mu', 'meanRec', 'Mean'), ('sigma', 'devRec', 'Deviation')]:
    w('/-- %s of the logarithm of a large-scale parameter; K-factor in dB. Not recorded (empty list): shadow fading, and the\n'
      'K-factor of NLoS links. /repo/test/step_4_1_test.py -/' % doc)
    w('def %s : Area → (los sBand uplink : Bool) → ℕ → List (Option ℤ)' % t)
    for c in combos:
        for i in range(7):
            v = [stat.get((nm,) + c + (i, a), 'X') for a in ANG]
            if 'X' in v:
                assert all(x == 'X' for x in v) and (i == 3 or (i == 4 and not c[1])), (c, i)
                continue
            w('  | %s, %d => [%s]' % (arm(*c), i, ', '.join(show(x) for x in v)))
    w('  | _, _, _, _, _ => []\n')

w('/-- Cross-correlation of two large-scale parameters, as (first, second, thousandths by elevation).\n'
  '/repo/test/step_4_2_test.py -/')
w('def crossRec : Area → (los sBand uplink : Bool) → List (ℕ × ℕ × List ℤ)')
for c in combos:
    pairs = sorted({(k[4], k[5]) for k in cross if k[:4] == c})
    assert len(pairs) == 21
    l = []
    for p in pairs:
        vs = [cross[c + p + (a,)] for a in ANG]
        l.append('(%d, %d, %s)' % (p + ('.replicate 9 ' + ('%d' if vs[0] >= 0 else '(%d)') % vs[0] if len(set(vs)) == 1 else str(vs),)))
    w('  | %s =>\n    [%s]' % (arm(*c), ',\n     '.join(l)))
w('')
ds = {(l, i): {dist[(a, l, s, u, i)] for a in AREAS for s in B for u in B} for l in B for i in range(7)}
assert all(len(v) == 1 for v in ds.values())
w('/-- Correlation distance in mm; the same in all areas, bands, directions and at every elevation.\n'
  '/repo/test/step_4_3_test.py -/')
w('def corrDistRec (los : Bool) : List ℤ :=')
f = lambda l: '[%s]' % ', '.join(str(list(ds[(l, i)])[0]) for i in range(7))
w('  if los then %s else %s\n' % (f(True), f(False)))
w('/-- LoS probability in thousandths, TR 38.811 Table 6.6.1-1. /repo/test/step_2_test.py -/')
w('def losProbRec : Area → List ℤ')
for a in AREAS:
    w('  | .%s => [%s]' % (a, ', '.join(str(losp[(a, g)]) for g in ANG)))
w('')
src = open(TEST + 'step_5_test.py').read()
rl = [milli(x) for x in re.search(r'rTau_los_s_band = \[(.*?)\]', src)[1].split(',')]
rn = [milli(x) for x in re.search(r'rTau_nlos_s_band = \[(.*?)\]', src)[1].split(',')]
d = set(re.findall(r'rTau_los=([\d.]+), rTau_nlos=([\d.]+)', src))
assert d == {('2.5', '2.3')}
w('/-- Delay scaling parameter r_tau. /repo/test/step_5_test.py 43, 138-154, 239 -/')
w('def rTauRec : Area → (los sBand : Bool) → List ℤ')
w('  | .subUrban, true, true => %s' % rl)
w('  | .subUrban, false, true => %s' % rn)
w('  | _, true, _ => List.replicate 9 2500')
w('  | _, false, _ => List.replicate 9 2300\n')
CL = {'dS': '34.3 30.9 29.0 27.7 26.8 26.2 25.8 25.5 25.5', 'dK': '44.3 39.9 37.5 35.8 34.6 33.8 33.3 33.0 32.9',
      'sS': '19.52 18.17 18.42 18.28 18.63 17.68 16.50 16.30 16.30', 'sK': '29.5 24.6 21.9 20.0 18.7 17.8 17.2 16.9 16.8'}
SF = {'denseUrban true true': '3.5 3.4 2.9 3.0 3.1 2.7 2.5 2.3 1.2',
      'denseUrban false true': '15.5 13.9 12.4 11.7 10.6 10.5 10.1 9.2 9.2',
      'denseUrban true false': '2.9 2.4 2.7 2.4 2.4 2.7 2.6 2.8 0.6',
      'denseUrban false false': '17.1 17.1 15.6 14.6 14.2 12.6 12.1 12.3 12.3',
      'urban true _': '4 4 4 4 4 4 4 4 4', 'urban false _': '6 6 6 6 6 6 6 6 6',
      'subUrban true true': '1.79 1.14 1.14 0.92 1.42 1.56 0.85 0.72 0.72',
      'subUrban false true': '8.93 9.08 8.78 10.25 10.56 10.74 10.17 11.52 11.52',
      'subUrban true false': '1.9 1.6 1.9 2.3 2.7 3.1 3.0 3.6 0.4',
      'subUrban false false': '10.7 10.0 11.2 11.6 11.8 10.8 10.8 10.8 10.8'}
ml = lambda s: [milli(x) for x in s.split()]
w('/-- Clutter loss of NLoS links in dB/1000, TR 38.811 Tables 6.6.2-1 to 6.6.2-3; the argument is S band. -/')
w('def clutterRec : Area → (sBand : Bool) → List ℤ')
w('  | .subUrban, true => %s\n  | .subUrban, false => %s\n  | _, true => %s\n  | _, false => %s\n'
  % tuple(ml(CL[k]) for k in ['sS', 'sK', 'dS', 'dK']))
w('/-- Shadow fading deviation in dB/1000, TR 38.811 Tables 6.6.2-1 to 6.6.2-3; the arguments are LoS and S band. -/')
w('def shadowRec : Area → (los sBand : Bool) → List ℤ')
for k, v in SF.items():
    w('  | .%s => %s' % (', '.join(k.split()), ml(v)))
w('\nend OpenNTN.Spec')
open('/verif/lean/Verif/Spec/Standard.lean', 'w').write('\n'.join(o) + '\n')
