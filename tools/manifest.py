import json,re,glob
# build manifest from /verif/props_status
st=json.load(open('/verif/tools/status.json'))
names={}
for f in glob.glob('/verif/lean/Verif/Props/*.lean'):
    for m in re.finditer(r'^theorem (C(\d\d)_[\w\']+)',open(f).read(),re.M):
        names.setdefault('C'+m.group(2),[]).append('Soil.'+m.group(1))
claims=[]
ids=[json.loads(l)['id'] for l in open('/verif/properties.jsonl')]
for i in ids:
    if i in names:
        t=names[i]
        s=st.get(i,{}).get('status') or ('partial' if any(x.endswith('_partial') for x in t) else 'proved')
        claims.append({"property":i,"status":s,"theorems":t,"note":st.get(i,{}).get('note','')})
    else:
        print('missing',i)
json.dump({"claims":claims},open('/verif/MANIFEST.json','w'),indent=1)
