"""Generates MANIFEST.json.  Run from /verif: python3 tools/manifest.py
Theorem names are collected from lean/Verif/Props by their Cnn_ prefix; status and notes are kept here."""
import json, re, glob
NOTES = {}
exec(open('tools/notes.py').read())
props=[json.loads(l)['id'] for l in open('properties.jsonl') if l.strip()]
thms={}
for f in sorted(glob.glob('lean/Verif/Props/*.lean')):
    for m in re.finditer(r'^theorem (C\d\d)_(\S+)', open(f).read(), re.M):
        thms.setdefault(m.group(1),[]).append('PySqlSync.'+m.group(1)+'_'+m.group(2))
claims=[]
for p in props:
    st,note=NOTES.get(p,('partial' ,'not yet proved'))
    t=thms.get(p,[])
    if not t and st=='proved': st='partial'
    claims.append({'property':p,'status':st,'theorems':t,'note':note})
json.dump({'claims':claims},open('MANIFEST.json','w'),indent=1,ensure_ascii=False)
print({c['property']:(c['status'],len(c['theorems'])) for c in claims})
