# Writes /verif/DESIGN.md from the text below, properties.jsonl and claims.py.
import json,glob,re
ROOT='/verif/'
C={}
def c(prop,status,theorems,note=''): C[prop]=(status,theorems.split(),note)
exec(open(ROOT+'tools/claims.py').read())
where={}
for f in glob.glob(ROOT+'lean/Verif/Props/*.lean'):
    for n in re.findall(r'^theorem (\S+)',open(f).read(),re.M): where[n]=f.split('/')[-1][:-5]
HOW={}
for line in open(ROOT+'tools/how.txt'):
    line=line.rstrip('\n')
    if not line: continue
    i,mod,txt=line.split('|',2); HOW[i.strip()]=(mod.strip(),txt.strip())
props=[json.loads(l) for l in open(ROOT+'properties.jsonl')]
rows=[]
for p in props:
    s,t,_=C[p['id']]; mod,txt=HOW[p['id']]
    rows.append(f"| {p['id']} | {p['title']} | {s} | {mod} | {where[t[0]]} | {txt} |")
dis=[]
for p in props:
    s,t,n=C[p['id']]
    if s=='partial': dis.append(f"* **{p['id']}** {p['title']}. {n} Theorems: "+', '.join(f'`{x}`' for x in t)+'.')
head=open(ROOT+'tools/design_head.md').read()
open(ROOT+'DESIGN.md','w').write(head.replace('@TABLE@','\n'.join(rows)).replace('@DIS@','\n'.join(dis)))
print('how missing:',[p['id'] for p in props if p['id'] not in HOW])
