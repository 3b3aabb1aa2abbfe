# Generates lean/Verif/Model/Tables.lean from /repo/OpenNTN/models/*Urban*.json (read as text).
import json,glob,os
from decimal import Decimal as D
MD='/repo/OpenNTN/models/'
fs=[os.path.basename(f) for f in sorted(glob.glob(MD+'*Urban*.json'))]
T={}
for f in fs:
    d=json.load(open(MD+f),parse_float=D)
    b={}
    for k,v in d.items():
        p=k.rsplit('_',1)
        if p[-1].isdigit(): b.setdefault(p[0],{})[int(p[-1])]=v
        else: b[k]=v
    T[f]=b
params=sorted(set(k for b in T.values() for k in b))
def lname(p): return 'p'+p.replace('_','')
def cell(v):
    if v=='-inf': return 'ninf'
    n=D(v)*1000
    assert n==int(n)
    n=int(n)
    return f'm {n}' if n>=0 else f'm ({n})'
o=[]
o.append('''/-
Parameter tables of `/repo/OpenNTN/models/*Urban*.json`, one definition per file.
Generated by `/verif/tools/gen_tables.py` from the JSON text; every definition below cites the file it was read from.

Simplifications:
* the JSON key `name_angle` is modelled by the pair (`name`, `angle`) instead of the concatenated string;
* numbers are stored exactly as integer thousandths (all table values have at most three decimals), the string `"-inf"` is `ninf`.
-/
namespace OpenNTN

/-- A number in a parameter file (`/repo/OpenNTN/models/*.json`): `m n` is `n/1000`, `ninf` is the string `"-inf"`. -/
inductive Cell where
  | m (milli : Int)
  | ninf
deriving DecidableEq, Repr, Inhabited

/-- Parameter names occurring in the scenario parameter files (`/repo/OpenNTN/models/*Urban*.json`). -/
inductive Param where''')
o.append('  '+'\n  '.join('| '+lname(p) for p in params))
o.append('''deriving DecidableEq, Repr

/-- The name as it is written in the parameter files, before the angle suffix (`/repo/OpenNTN/models/*Urban*.json`). -/
def Param.name : Param → String
NAMES
/-- What a parameter file holds for a name: nothing, one value (key without angle), or one value for each of the
angles 10,20,...,90 (keys `name_10` ... `name_90`). -/
inductive Entry where
  | absent
  | scalar (c : Cell)
  | byAngle (c10 c20 c30 c40 c50 c60 c70 c80 c90 : Cell)
deriving DecidableEq, Repr

/-- The content of one parameter file. -/
abbrev ParamFile := Param → Entry

open Cell Entry
'''.replace('NAMES',''.join(f'  | .{lname(p)} => "{p}"\n' for p in params)))
for f in fs:
    nm='file'+f[:-5].replace('_','')
    o.append(f'/-- `/repo/OpenNTN/models/{f}` -/')
    o.append(f'def {nm} : ParamFile')
    for p in params:
        if p not in T[f]: e='absent'
        elif isinstance(T[f][p],dict):
            assert sorted(T[f][p])==list(range(10,100,10))
            cs=[cell(T[f][p][a]) for a in range(10,100,10)]
            e='byAngle '+' '.join(c if c=='ninf' else f'({c})' for c in cs)
        else:
            e='scalar ('+cell(T[f][p])+')'
        o.append(f'  | .{lname(p)} => {e}')
    o.append('')
o.append('''/-- The directory `/repo/OpenNTN/models` seen by `files(models).joinpath(name)` + `open`
(system_level_scenario.py 890-893, 905-908): the scenario parameter files by name, `none` = file not found. -/
def readParamFile (name : String) : Option ParamFile :=''')
for i,f in enumerate(fs):
    nm='file'+f[:-5].replace('_','')
    o.append(f'  {"if" if i==0 else "else if"} name = "{f}" then some {nm}')
o.append('  else none\n\nend OpenNTN')
open('/verif/lean/Verif/Model/Tables.lean','w').write('\n'.join(o)+'\n')
print(params)
