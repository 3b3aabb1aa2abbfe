# Generates lean/Verif/Model/DelayTables.lean from /repo/OpenNTN/models/TDL-*.json and CDL-*.json (read as text).
import json,os
from decimal import Decimal as D
MD='/repo/OpenNTN/models/'
def num(v):
    n=D(v)*10000
    assert n==int(n)
    return str(int(n)) if n>=0 else f'({int(n)})'
def lst(v): return '['+', '.join(num(x) for x in v)+']'
o=['''/-
Tables of `/repo/OpenNTN/models/TDL-*.json` and `/repo/OpenNTN/models/CDL-*.json`, one definition per file.
Generated by `/verif/tools/gen_delay_tables.py` from the JSON text.

Simplification: numbers are stored exactly as integer multiples of 1/10000 (all values have at most four decimals).
-/
namespace OpenNTN

/-- Content of a TDL file (`/repo/OpenNTN/models/TDL-*.json`). -/
structure TdlTable where
  los : Bool
  numClusters : Nat
  scaleDelays : Bool
  delays : List Int
  powers : List Int

/-- Content of a CDL file (`/repo/OpenNTN/models/CDL-*.json`). -/
structure CdlTable where
  los : Bool
  numClusters : Nat
  cASD : Int
  cASA : Int
  cZSD : Int
  cZSA : Int
  xpr : Int
  delays : List Int
  powers : List Int
  aod : List Int
  aoa : List Int
  zod : List Int
  zoa : List Int
''']
for n in ['A','B','C','D','A30','B100','C300']:
    d=json.load(open(MD+f'TDL-{n}.json'),parse_float=D)
    assert set(d)=={'los','num_clusters','scale_delays','delays','powers'}
    o.append(f'''/-- `/repo/OpenNTN/models/TDL-{n}.json`. -/
def tdl{n} : TdlTable where
  los := {str(bool(d['los'])).lower()}
  numClusters := {d['num_clusters']}
  scaleDelays := {str(bool(d['scale_delays'])).lower()}
  delays := {lst(d['delays'])}
  powers := {lst(d['powers'])}
''')
for n in 'ABCD':
    d=json.load(open(MD+f'CDL-{n}.json'),parse_float=D)
    assert set(d)=={'los','num_clusters','cASD','cASA','cZSD','cZSA','xpr','delays','powers','aod','aoa','zod','zoa'}
    o.append(f'''/-- `/repo/OpenNTN/models/CDL-{n}.json`. -/
def cdl{n} : CdlTable where
  los := {str(bool(d['los'])).lower()}
  numClusters := {d['num_clusters']}
'''+''.join(f"  {k} := {num(d[k])}\n" for k in ['cASD','cASA','cZSD','cZSA','xpr'])+''.join(f"  {k} := {lst(d[k])}\n" for k in ['delays','powers','aod','aoa','zod','zoa']))
o.append('end OpenNTN\n')
open('/verif/lean/Verif/Model/DelayTables.lean','w').write('\n'.join(o))
