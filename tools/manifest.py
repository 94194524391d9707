import re,glob,json,os
props=[json.loads(l) for l in open('/verif/properties.jsonl')]
notes=json.load(open('/verif/tools/notes.json')) if os.path.exists('/verif/tools/notes.json') else {}
th={}
for f in sorted(glob.glob('/verif/lean/Verif/Props/*.lean')):
    text=open(f).read()
    for m in re.finditer(r'^theorem (c(\d\d\d?)_\w+[\w\']*)',text,re.M):
        ns=[]
        for w,n in re.findall(r'^(namespace|end) (\S+)',text[:m.start()],re.M):
            if w=='namespace': ns.append(n)
            elif ns and ns[-1]==n: ns.pop()
        th.setdefault('C'+m.group(2),[]).append('.'.join(ns+[m.group(1)]))
claims=[]
for p in props:
    i=p['id']
    n=notes.get(i,{})
    if i in th:
        st=n.get('status') or ('partial' if any(t.endswith('_partial') for t in th[i]) else 'proved')
        claims.append(dict(property=i,status=st,theorems=th[i],note=n.get('note','')))
    elif n.get('status')=='not_applicable':
        claims.append(dict(property=i,status='not_applicable',theorems=[],note=n['note']))
    else:
        print('no theorem',i)
json.dump(dict(claims=claims),open('/verif/MANIFEST.json','w'),indent=1)
print(len(claims))
