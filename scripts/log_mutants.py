#!/usr/bin/env python3
"""Appends results of mutate.py to seeded/LOG.jsonl.  usage: log_mutants.py RESULTS.jsonl"""
import json,sys
out=open("/verif/seeded/LOG.jsonl","a")
for l in open(sys.argv[1]):
    r=json.loads(l)
    if 'problem' in r: print("skipped",r); continue
    out.write(json.dumps({"definition":f"{r['name']} (lean/Verif/{r['file']})","edit":{"old":r['edit'][0],"new":r['edit'][1]},
      "claim_broken":r['claim'],"detected":not r['ok'],"theorems_failed_directly":r['direct'],
      "property_theorems_failed":r['manifest'],"theorems_tightened":r.get('tightened',[])},ensure_ascii=False)+"\n")
