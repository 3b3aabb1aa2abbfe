# Writes MANIFEST.json. Run from anywhere. Checks that every property has an entry and every theorem name exists in the sources.
import json,glob,re,sys
ROOT='/verif/'
C=[]
def c(prop,status,theorems,note=''):
    C.append({"property":prop,"status":status,"theorems":["OpenNTN."+t for t in theorems.split()],"note":note})
exec(open(ROOT+'tools/claims.py').read())
src='\n'.join(open(f).read() for f in glob.glob(ROOT+'lean/Verif/Props/*.lean'))
names=set(re.findall(r'^theorem (\S+)',src,re.M))
for x in C:
    for t in x['theorems']:
        if t[len('OpenNTN.'):] not in names: print('missing theorem',t); 
used={t[len('OpenNTN.'):] for x in C for t in x['theorems']}
for n in sorted(names-used):
    if re.match(r'C\d\d',n): print('theorem not claimed',n)
props=[json.loads(l)['id'] for l in open(ROOT+'properties.jsonl')]
done={x['property'] for x in C}
print('no claim yet:',[p for p in props if p not in done])
json.dump({"claims":C},open(ROOT+'MANIFEST.json','w'),indent=1)
# root import file
mods=sorted(f[len(ROOT+'lean/'):-5].replace('/','.') for f in glob.glob(ROOT+'lean/Verif/**/*.lean',recursive=True))
open(ROOT+'lean/Verif.lean','w').write(''.join(f'import {m}\n' for m in mods))
