#!/usr/bin/env python3
"""Replace @path:func@ and #ErrorName# markers of a draft by file:line citations."""
import re,sys
def lines(path): return open('/repo/'+path).read().split('\n')
def func(path,name):
    L=lines(path)
    for i,l in enumerate(L):
        if re.match(r'func (\(\w+ \*?\w+\) )?'+name+r'\(',l):
            j=i
            while L[j]!='}': j+=1
            return f'{path}:{i+1}-{j+1}'
    raise SystemExit('no '+path+' '+name)
def err(path,name):
    L=lines(path)
    for i,l in enumerate(L):
        if re.match(r'\t'+name+r'\s+= Error\{',l):
            j=i
            while L[j].strip()!='}': j+=1
            return f'{path}:{i+1}-{j+1}'
    raise SystemExit('no '+name)
src,dst,errpath=sys.argv[1:4]
t=open(src).read()
t=re.sub(r'@([\w/.]+):(\w+)@',lambda m:func(m[1],m[2]),t)
t=re.sub(r'#(\w+Error)#',lambda m:err(errpath,m[1]),t)
open(dst,'w').write(t)
