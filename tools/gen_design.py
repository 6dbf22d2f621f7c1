#!/usr/bin/env python3
"""Writes /verif/DESIGN.md from tools/design_head.md, tools/design_methods.txt, tools/design_tail.md."""
import json
P={}
for l in open('/verif/properties.jsonl'):
    d=json.loads(l); P[d['id']]=d
out=open('/verif/tools/design_head.md').read()
out+='| property | how it is proved |\n|---|---|\n'
seen=set()
for l in open('/verif/tools/design_methods.txt'):
    k,v=l.strip().split('|',1); seen.add(k)
    out+=f"| {k} {P[k]['title']} | {v.replace('|','/')} |\n"
assert seen==set(P),set(P)^seen
tail=open('/verif/tools/design_tail.md').read()
rows=[json.loads(l) for l in open('/verif/seeded/LOG.jsonl')]
what={'C':'the characters in Lean, by program (C81-C86)','S':'lexer, parser and meaning of Python, program as a whole','T':'Python text, by program','T2':'Python text, by program','X':'Python text: faults, calls and their arguments (C92-C95)','Y':'Python text: what becomes of faults, order of calls (C98, C99)','I':'Python text: imports, classes, networks (C96, C97)'}
tab=[]
for k in dict.fromkeys(r['run'].split('/')[0] for r in rows):
    q=[r for r in rows if r['run'].split('/')[0]==k]; un=sum(r.get('note','').startswith('the edited') for r in q); s=sum(r['survived'] for r in q)
    tab.append(f"| {k} | {what.get(k,'definitions of the model')} | {len(q)}{f' ({un} not translatable)' if un else ''} | {len(q)-un-s} | {s} |")
out+=tail.replace('@N@',str(len(rows))).replace('@TABLE@','\n'.join(tab))
open('/verif/DESIGN.md','w').write(out)
