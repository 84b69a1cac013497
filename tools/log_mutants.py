#!/usr/bin/env python3
"""Append the results of mutate.py to seeded/LOG.jsonl. usage: log_mutants.py out.jsonl"""
import json,sys
have=set()
try:
    for l in open('/verif/seeded/LOG.jsonl'):
        d=json.loads(l); have.add((d['definition'],d['edit']))
except FileNotFoundError: pass
with open('/verif/seeded/LOG.jsonl','a') as o:
    for l in open(sys.argv[1]):
        d=json.loads(l)
        if 'error' in d or (d['definition'],d['edit']) in have: continue
        ids=d['properties']
        rel=[t for t in d['not_built'] if t.split('_')[0] in ids]
        rec={'definition':d['definition'],'edit':d['edit'],'claim':d['claim'],'properties':ids,'detected':d['killed'],
             'theorems_failed':[f.split(' @')[0].split(' ')[-1] for f in d['failed']],
             'claim_theorems_no_longer_proved':rel,'theorems_tightened':d.get('tightened',[])}
        o.write(json.dumps(rec)+'\n')
