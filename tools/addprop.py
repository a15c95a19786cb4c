#!/usr/bin/env python3
"""usage: addprop.py ID 'title' 'statement' 'quantifier' 'why' 'anchor;anchor' 'modelled' 'how' : appends to properties.jsonl and the DESIGN.md table"""
import sys,json,os
os.chdir(os.path.join(os.path.dirname(__file__),'..'))
i,t,s,q,w,a,m,h=sys.argv[1:]
open('properties.jsonl','a').write(json.dumps({"id":i,"title":t,"statement":s,"quantifier":q,"why_tests_cant":w,"anchors":a.split(';')})+"\n")
L=open('DESIGN.md').read().split('\n')
prev='| C%d |'%(int(i[1:])-1)
k=[n for n,l in enumerate(L) if l.startswith(prev)][0]
L.insert(k+1,'| %s | %s | %s | %s |'%(i,t,m,h))
open('DESIGN.md','w').write('\n'.join(L))
