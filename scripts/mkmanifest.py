#!/usr/bin/env python3
# Generates /verif/MANIFEST.json from the theorem names (C<nn>_...) in lean/Verif/Props/*.lean and the notes below.
import re,glob,json,os
root=os.path.dirname(os.path.dirname(os.path.abspath(__file__)))
thms={}
for f in sorted(glob.glob(root+'/lean/Verif/Props/*.lean')):
    for m in re.finditer(r'^theorem (C(\d\d\d?)_\w+)',open(f).read(),re.M):
        thms.setdefault('C'+m.group(2),[]).append('Rmq.'+m.group(1))
notes=json.load(open(root+'/scripts/notes.json'))
claims=[]
for l in open(root+'/properties.jsonl'):
    i=json.loads(l)['id']
    if i in thms:
        st='partial' if any(t.endswith('_partial') for t in thms[i]) else 'proved'
        claims.append(dict(property=i,status=notes.get(i,{}).get('status',st),theorems=thms[i],note=notes.get(i,{}).get('note','')))
    elif i in notes: claims.append(dict(property=i,status=notes[i]['status'],theorems=[],note=notes[i]['note']))
    else: print('no claim for',i)
json.dump({'claims':claims},open(root+'/MANIFEST.json','w'),indent=1,ensure_ascii=False)
