import json,re,glob
M={}
exec(open('/verif/tools/mdata.py').read())
# collect all theorem names
names=set()
for f in glob.glob('/verif/lean/Verif/**/*.lean',recursive=True):
    t=open(f).read()
    for m in re.finditer(r'^theorem\s+(\S+)',t,re.M): names.add(m.group(1))
props=[json.loads(l)['id'] for l in open('/verif/properties.jsonl')]
claims=[]
used=set()
for p in props:
    if p not in M: continue
    st,ths,note=M[p]
    if ths is None: 
        ths=sorted(n for n in names if n.startswith(p+'_'))
    for t in ths: assert t in names,(p,t); used.add(t)
    claims.append(dict(property=p,status=st,theorems=["Ggnss."+t for t in ths],note=note))
left=[n for n in names if re.match(r'C\d\d_',n) and n not in used]
print("unclaimed:",left); print("missing props:",[p for p in props if p not in M])
json.dump(dict(claims=claims),open('/verif/MANIFEST.json','w'),indent=1,ensure_ascii=False)
