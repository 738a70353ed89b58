import json,re,glob,sys
# collects theorem names CNN_* from Props files; notes/status by table
names={}
for f in sorted(glob.glob('/verif/lean/Verif/Props/*.lean')):
    src=open(f).read()
    ns=re.search(r'^namespace (SqlPuzzle\S*)',src,re.M).group(1)
    for m in re.finditer(r'^theorem (C(\d\d)_\w+)',src,re.M):
        names.setdefault('C'+m.group(2),[]).append(ns+'.'+m.group(1))
exec(open('/verif/tools/notes.py').read())
ids=[json.loads(l)['id'] for l in open('/verif/properties.jsonl')]
claims=[]
for i in ids:
    if i in names:
        st=STATUS.get(i,'proved')
        claims.append({"property":i,"status":st,"theorems":names[i],"note":NOTES.get(i,'')})
    else: print('missing',i)
json.dump({"claims":claims},open('/verif/MANIFEST.json','w'),indent=1,ensure_ascii=False)
