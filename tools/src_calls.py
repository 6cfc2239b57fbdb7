# Write the module that collects the theorems about the single methods into one statement about all calls.
# Run from lean/.  It reads the call depth and the need for fuel from the statements of the theorems.
import re, sys
def facts(*files):
    t={}
    for f in files:
        s=open(f).read()
        for m in re.finditer(r'^theorem (\w+) \(fuel d : Nat\)(.*?):= by$',s,re.M|re.S):
            d=re.search(r'fuel \(d \+ (\d+)\)',m[2])
            t[m[1]]=(int(d[1]),'(hf' in m[2])
    return t
def mini(ns,model,depth,files,ops,typed,v1=False):
    t=facts(*files); out=[]
    EQ='wrap_eq1' if v1 else 'wrap_eq'; U='(fun _ => .val .unit)' if v1 else '(fun _ => .unit)'; UV='(fun _ => .unit)'; C=''
    wv=lambda w: '(fun a => .val (%s a))'%w if v1 and w!='.any' else w
    def dep(n):
        k=depth-t[n][0]
        return 'd' if k==0 else '(d + %d)'%k
    def act(pat,n,args,hyp='_'):
        hf='hf ' if t[n][1] else ''
        a=f'{ns}.{n} fuel {dep(n)} {hf}{args}'.rstrip()
        out.append(f'  | {pat}{C}, {hyp} => by kexact ({a}).trans ({EQ} {U} {UV} (fun _ => rfl) _)')
    def get(pat,n,args,slot,wrapV,wrapval,hyp='_'):
        hf='hf ' if t[n][1] else ''
        a=' '.join(f'{ns}.{n} fuel {dep(n)} {hf}{args}'.split())
        out.append(f'  | {pat}{C}, {hyp} => by kexact (withOut_of {wrapV} {slot} fun k => {a} _ k).trans ({EQ} {wv(wrapval)} {wrapV} (fun _ => rfl) _)')
    SL='(fun s => .bytes (.mem s))'
    for k in typed:
        for e in ['le','be']:
            N=k.upper()+e.upper()
            act(f'.write .{k} .{e} (some o) data','Write'+N,'o data'); act(f'.write .{k} .{e} none data','Write'+N+'Next','data')
            kk='UKind.kind .'+k
            g=(f"(o'.typed .{k})",f'(goList .{k})',f'(.typed .{k})')
            get(f'.read .{k} .{e} (some o) n','Read'+N,'o n',*g); get(f'.read .{k} .{e} none n','Read'+N+'Next','n',*g)
    two=lambda pat,n,a,f,*r: (f(pat.replace('POS','(some o)'),n,'o '+a,*r),f(pat.replace('POS','none'),n+'Next',a,*r))
    if v1:
        two('.writeComplex POS x w e','WriteComplex','x w e',act)
        two('.readComplex POS n w e','ReadComplex','n w e',get,'any','goAny','.any')
    for o in ops:
        if o=='writeBytes': two('.writeBytes POS data','WriteBytes','data',act)
        elif o=='noByte':
            out.append(f'  | .writeByte _ _{C}, _ => trivial'); out.append(f'  | .readByte _{C}, _ => trivial')
        elif o=='readBytes': two('.readBytes POS n','ReadBytes','n',get,"o'.slice",SL,'.slice')
        elif o=='readBit': two('.readBit POS','ReadBit','',get,"o'.u8",'.u8','.u8')
        elif o=='readBits': two('.readBits POS n','ReadBits','n',get,"o'.u64",'.u64','.u64')
        elif o=='setBit': two('.setBit POS data','SetBit','data',act)
        elif o=='flipBit': two('.flipBit POS','FlipBit','',act)
        elif o=='setBits': two('.setBits POS data n','SetBits','data n',act)
        elif o in('clearAll','setAll','flipAll'): act('.'+o,o[0].upper()+o[1:]+'Bits','')
        elif o in('seek','seekBit'): act(f'.{o} o r',o[0].upper()+o[1:],'o r')
        elif o in('after','afterBit'): get(f'.{o} l',o[0].upper()+o[1:],'l (ha _ rfl)' if v1 else 'l ha',"o'.i64",'.i64','.i64','ha')
        elif o in('alignByte','alignBit','refresh','reset'): act('.'+o,o[0].upper()+o[1:],'')
        elif o=='grow': act('.grow n','Grow','n')
        elif o=='bytes': get('.bytes','Bytes','',"o'.slice",SL,'.slice')
        else: get('.'+o,o[0].upper()+o[1:],'',"o'.i64",'.i64','.i64')
    return '\n'.join(out)
ALL='writeBytes noByte readBytes readBit readBits setBit flipBit setBits clearAll setAll flipAll seek seekBit after afterBit alignByte alignBit grow refresh reset bytes capacity bitCapacity offset bitOffset'.split()
HEAD='''import Verif.Src.Calls2
import Verif.Src.Wrap
%s
/-! The calls of %s from their text, in one statement.  Written by tools/src_calls.py. -/

namespace Crunch.Src
open V3.Mini (onB callOut)

'''
def v2mini():
    s=HEAD%('import Verif.Src.V2MiniTyped\n','v2 `MiniBuffer`')
    s+="""/-- All methods of v2 `MiniBuffer`. -/
theorem V2Mini.calls (fuel d : Nat) (hf : 2 ^ 64 < fuel) (o' : V3.Outs) : (op : V2.Op2) → Two.Fits op →
    match V2.miniCall o' op with
    | none => True
    | some m => V2Mini.P.callMini fuel (d + 4) (Two.goName op) (Two.goArgs op) (Two.goOut o' op) = onB m >>= fun x => pure (goVal x)
"""
    s+=mini('V2Mini','V2.Mini',4,['Verif/Src/V2Mini.lean','Verif/Src/V2MiniTyped.lean'],ALL,['u16','u32','u64'])
    open('Verif/Src/V2MiniCalls.lean','w').write(s+'\n\nend Crunch.Src\n')
def v1mini():
    s=HEAD%('import Verif.Src.Calls1\nimport Verif.Src.V1Mini\nimport Verif.Src.V1MiniComplex\nimport Verif.V1.MiniApi\n','v1 `MiniBuffer`')
    s+="""/-- All methods of v1 `MiniBuffer`. -/
theorem V1Mini.calls (fuel d : Nat) (hf : 2 ^ 64 < fuel) (o' : V3.Outs) (any : V1.Any) : (op : V1.Op1) → One.Fits op →
    match V1.miniCall1 o' any op with
    | none => True
    | some m => V1Mini.P.callMini fuel (d + 4) (One.goName op) (One.goArgs op) (One.goOut o' any op) = onB m >>= fun x => pure (goVal1 x)
"""
    s+=mini('V1Mini','V1.Mini',4,['Verif/Src/V1Mini.lean','Verif/Src/V1MiniComplex.lean'],[o for o in ALL if o!='reset'],[],True)
    open('Verif/Src/V1MiniCalls.lean','w').write(s+'\n\nend Crunch.Src\n')
def buffer(ns,depth,files,ops,typed,v1=False):
    t=facts(*files); out=[]
    C=''
    wv=lambda w: '(fun a => .val (%s a))'%w if v1 and w!='.any' else w
    U='(fun _ => .val .unit)' if v1 else '(fun _ => .unit)'; UV='(fun _ => .unit)'; G='goVal1' if v1 else 'goVal'
    def get(pat,n,args,wrapV,wrapval,hyp='_'):
        hf='hf ' if t[n][1] else ''
        k=depth-t[n][0]; dd='d' if k==0 else '(d + %d)'%k
        a=f'{ns}.{n} fuel {dd} {hf}{args}'.rstrip()
        out.append(f'  | {pat}{C}, {hyp} => by kexact ({a}).trans (wrap_prog {G} {wrapval} {wrapV} (fun _ => rfl) _)')
    def act(pat,n,args): get(pat,n,args,UV,U)
    SL='(fun s => .bytes (.mem s))'
    for k in typed:
        for e in ['le','be']:
            N=k.upper()+e.upper()
            act(f'.write .{k} .{e} (some o) data','Write'+N,'o data'); act(f'.write .{k} .{e} none data','Write'+N+'Next','data')
            g=(f'(goList .{k})',f'(.typed .{k})')
            get(f'.read .{k} .{e} (some o) n','Read'+N,'o n',*g); get(f'.read .{k} .{e} none n','Read'+N+'Next','n',*g)
    two=lambda pat,n,a,f,*r: (f(pat.replace('POS','(some o)'),n,'o '+a,*r),f(pat.replace('POS','none'),n+'Next',a,*r))
    if v1:
        two('.writeComplex POS x w e','WriteComplex','x w e',act)
        two('.readComplex POS n w e','ReadComplex','n w e',get,'goAny','.any')
    for o in ops:
        if o=='writeBytes': two('.writeBytes POS data','WriteBytes','data',act)
        elif o=='noByte':
            two('.writeByte POS data','WriteByte','data',act); two('.readByte POS','ReadByte','',get,'.u8',wv('.u8'))
        elif o=='readBytes': two('.readBytes POS n','ReadBytes','n',get,SL,wv('.slice'))
        elif o=='readBit': two('.readBit POS','ReadBit','',get,'.u8',wv('.u8'))
        elif o=='readBits': two('.readBits POS n','ReadBits','n',get,'.u64',wv('.u64'))
        elif o=='setBit': two('.setBit POS data','SetBit','data',act)
        elif o=='flipBit': two('.flipBit POS','FlipBit','',act)
        elif o=='setBits': two('.setBits POS data n','SetBits','data n',act)
        elif o in('clearAll','setAll','flipAll'): act('.'+o,o[0].upper()+o[1:]+'Bits','')
        elif o in('seek','seekBit'): act(f'.{o} o r',o[0].upper()+o[1:],'o r')
        elif o in('after','afterBit'): get(f'.{o} l',o[0].upper()+o[1:],'l (ha _ rfl)' if v1 else 'l ha','.i64',wv('.i64'),'ha')
        elif o in('alignByte','alignBit','refresh','reset'): act('.'+o,o[0].upper()+o[1:],'')
        elif o=='grow': act('.grow n','Grow','n')
        elif o=='bytes': get('.bytes','Bytes','',SL,wv('.slice'))
        else: get('.'+o,o[0].upper()+o[1:],'','.i64',wv('.i64'))
    return '\n'.join(out)
def v2buffer():
    s=HEAD%('import Verif.Src.V2BufferTyped\n','v2 `Buffer`')
    s+="""/-- All methods of v2 `Buffer`. -/
theorem V2Buffer.calls (fuel d : Nat) (hf : 2 ^ 64 < fuel) : (op : V2.Op2) → Two.Fits op →
    (V2Buffer.P.call fuel (d + 4) (Two.goName op) (Two.goArgs op) : Prog V) = (V2.exec op).bind fun x => .ret (goVal x)
"""
    s+=buffer('V2Buffer',4,['Verif/Src/V2Buffer.lean','Verif/Src/V2BufferTyped.lean'],ALL,['u16','u32','u64'])
    open('Verif/Src/V2BufferCalls.lean','w').write(s+'\n\nend Crunch.Src\n')
def v1buffer():
    s=HEAD%('import Verif.Src.Calls1\nimport Verif.Src.V1Buffer\nimport Verif.Src.V1BufferComplex\nimport Verif.V1.Api\n','v1 `Buffer`')
    s+="""/-- All methods of v1 `Buffer`. -/
theorem V1Buffer.calls (fuel d : Nat) (hf : 2 ^ 64 < fuel) : (op : V1.Op1) → One.Fits op →
    (V1Buffer.P.call fuel (d + 4) (One.goName op) (One.goArgs op) : Prog V) = (V1.exec1 op).bind fun x => .ret (goVal1 x)
"""
    s+=buffer('V1Buffer',4,['Verif/Src/V1Buffer.lean','Verif/Src/V1BufferComplex.lean'],[o for o in ALL if o!='reset'],[],True)
    open('Verif/Src/V1BufferCalls.lean','w').write(s+'\n\nend Crunch.Src\n')
v2mini()
v1mini()
v2buffer()
v1buffer()
