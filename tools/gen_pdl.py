#!/usr/bin/env python3
# Writes lean/Verif/Spec/PdlPackets.lean from the packet description.
import re
src=open('/repo/src/uci_packets.pdl').read().split('\n')
enums={};vals={};decls=[]
i=0
def strip(l): return re.sub(r'//.*','',l).strip()
while i<len(src):
    l=strip(src[i])
    m=re.match(r'enum (\w+)\s*:\s*(\d+)\s*\{',l)
    if m:
        name,w=m.group(1),int(m.group(2)); d={}
        i+=1; depth=1
        while depth:
            l=strip(src[i])
            mm=re.match(r'(\w+)\s*=\s*(0x[0-9a-fA-F]+|\d+)\s*,?$',l)
            if mm and depth==1: d[mm.group(1)]=int(mm.group(2),0)
            depth+=l.count('{')-l.count('}')
            if l=='}' and depth==0: break
            i+=1
        enums[name]=w; vals[name]=d
    m=re.match(r'(struct|packet) (\w+)\s*(?::\s*(\w+)\s*)?(?:\(([^)]*)\))?\s*\{',l)
    if m:
        kind,name,parent,cons=m.groups(); start=i+1; fs=[]
        i+=1
        while strip(src[i])!='}':
            l=strip(src[i]).rstrip(',')
            if l: fs.append(l)
            i+=1
        decls.append((kind,name,parent,cons,fs,start,i+1))
    i+=1
structs={d[1] for d in decls if d[0]=='struct'}
D={d[1]:d for d in decls}
def lname(n): return n[0].lower()+n[1:]
types={}  # field -> enum, per packet chain
def fields(d):
    out=[]
    for f in d[4]:
        m=re.match(r'_reserved_\s*:\s*(\d+)$',f)
        if m: out.append(f'.reserved {m.group(1)}'); continue
        m=re.match(r'_fixed_\s*=\s*(\d+)\s*:\s*(\d+)$',f)
        if m: out.append(f'.fixed {m.group(1)} {m.group(2)}'); continue
        m=re.match(r'_(count|size)_\((\w+)\)\s*:\s*(\d+)$',f)
        if m and m.group(2)=='_body_': out.append(f'.sizeOfPayload {m.group(3)}'); continue
        if m: out.append(f'.{m.group(1)} "{m.group(2)}" {m.group(3)}'); continue
        if f in('_payload_','_body_'): out.append('.payload'); continue
        m=re.match(r'(\w+)\s*:\s*(\d+) if (\w+) = (\d+)$',f)
        if m: out.append(f'.optional "{m.group(1)}" {m.group(2)} "{m.group(3)}" {m.group(4)}'); continue
        m=re.match(r'(\w+)\s*:\s*8\[(\d*)\]$',f)
        if m: out.append(f'.bytes "{m.group(1)}"'); continue
        m=re.match(r'(\w+)\s*:\s*(\d+)$',f)
        if m: out.append(f'.scalar "{m.group(1)}" {m.group(2)}'); continue
        m=re.match(r'(\w+)\s*:\s*(\w+)\[\]$',f)
        if m:
            if m.group(2) in structs: out.append(f'.structs "{m.group(1)}" {lname(m.group(2))}')
            else: out.append(f'.scalars "{m.group(1)}" {enums[m.group(2)]}')
            continue
        m=re.match(r'(\w+)\s*:\s*(\w+)$',f)
        if m:
            if m.group(2) in structs: out.append(f'.struct "{m.group(1)}" {lname(m.group(2))}')
            else:
                out.append(f'.scalar "{m.group(1)}" {enums[m.group(2)]}'); types[d[1],m.group(1)]=m.group(2)
            continue
        raise Exception(f)
    return out
def findtype(name,f):
    while name:
        if (name,f) in types: return types[name,f]
        name=D[name][2]
    raise Exception(f)
o='''import Verif.Spec.Pdl
/-!
The structures and packets of `src/uci_packets.pdl`, 613-1499, field by field, in the order of the file (a structure moved before
its first use). Enumerations are scalars of their width; the values of the constraints are those of the enumerations, which C95
compares with the model.
-/

namespace Pica.Spec.Pdl

'''
skip={'CommonPacketHeader','ControlPacketHeader','DataPacketHeader'}
done=set()
def wrap(head,items):
    s=head; line=s
    out=[];cur=head+'['
    for k,x in enumerate(items):
        piece=x+(', ' if k+1<len(items) else ']')
        if len(cur)+len(piece.rstrip())>128: out.append(cur.rstrip()); cur='    '+piece
        else: cur+=piece
    if not items: cur+=']'
    out.append(cur)
    return '\n'.join(out)
def emit(d):
    global o
    kind,name,parent,cons,fs,a,b=d
    if name in done: return
    done.add(name)
    for f in fs:
        m=re.search(r':\s*(\w+)(\[\])?$',f)
        if m and m.group(1) in structs: emit(D[m.group(1)])
    fl=fields(d)
    o+=f'/-- {a}-{b} -/\n'
    if kind=='struct':
        o+=wrap(f'def {lname(name)} : List Field := ',fl)+'\n\n'
    else:
        if parent:
            cs=[]
            for c in cons.split(','):
                k,v=[x.strip() for x in c.split('=')]
                cs.append(f'("{k}", {vals[findtype(name,k)][v]})')
            o+=wrap(f'def {lname(name)} : Packet := .child {lname(parent)} [{", ".join(cs)}] ',fl)+'\n\n'
        else: o+=wrap(f'def {lname(name)} : Packet := .root ',fl)+'\n\n'
for d in decls:
    if d[1] in skip: continue
    emit(d)
o+='end Pica.Spec.Pdl\n'
open('/verif/lean/Verif/Spec/PdlPackets.lean','w').write(o)
