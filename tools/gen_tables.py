#!/usr/bin/env python3
"""Copies the numeric tables of /repo/src/{detail,gerg2008}.rs into Lean.

The script computes nothing: every literal of the Rust text becomes the exact decimal
`dc mantissa exponent` (= mantissa * 10^-exponent) or a natural number, in the same position.
"""
import re, sys
OUT='/verif/lean/Verif/Tables/'
if len(sys.argv)>1: OUT=sys.argv[1].rstrip('/')+'/'

def load(fn):
    return open(fn).read().split('\n')

def strip_comment(l):
    return l.split('//')[0]

def dec(tok):
    t=tok.replace('_','')
    neg=t.startswith('-')
    if neg: t=t[1:]
    m=re.fullmatch(r'(\d+)(?:\.(\d*))?(?:[eE]([+-]?\d+))?',t)
    assert m,tok
    ip,fp,ex=m.group(1),m.group(2) or '',int(m.group(3) or 0)
    mant=int(ip+fp); e=len(fp)-ex
    while e>0 and mant%10==0 and mant!=0:
        mant//=10; e-=1
    if mant==0: e=0
    if e<0: mant*=10**(-e); e=0
    return f'dc ({"-" if neg else ""}{mant}) {e}' if neg else f'dc {mant} {e}'

def find_const(lines,name):
    for a,l in enumerate(lines):
        if re.match(rf'(pub\(crate\) )?const {name}:',l):
            b=a
            buf=strip_comment(l)
            while ';' not in buf.split('=',1)[1] if '=' in buf else True:
                b+=1; buf+=' '+strip_comment(lines[b])
            return a+1,b+1,buf
    raise KeyError(name)

def parse(body,conv):
    body=body.strip().rstrip(';').strip()
    # tokenise
    toks=re.findall(r'\[|\]|[^\[\],\s]+',body)
    pos=0
    def val():
        nonlocal pos
        if toks[pos]=='[':
            pos+=1; r=[]
            while toks[pos]!=']': r.append(val())
            pos+=1; return r
        t=toks[pos]; pos+=1; return conv(t)
    v=val(); assert pos==len(toks),(pos,toks[pos:]); return v

def lean_vec(v,ind='  '):
    if isinstance(v[0],list):
        return '#v[\n'+',\n'.join(ind+lean_vec(r,ind+'  ') for r in v)+']'
    out='#v['; col=0; parts=[]
    line=''
    for s in v:
        if len(line)+len(s)>90: parts.append(line); line=''
        line+=(s+', ')
    parts.append(line)
    txt=('\n'+ind+'  ').join(p.rstrip() for p in parts)
    return '#v['+txt.rstrip().rstrip(',')+']'

def shape(v):
    return [len(v)]+(shape(v[0]) if isinstance(v[0],list) else [])
def check(v,sh):
    assert len(v)==sh[0]
    if len(sh)>1:
        for r in v: check(r,sh[1:])

def lean_type(sh,base):
    t=base
    for n in reversed(sh):
        t=f'Vector ({t}) {n}' if ' ' in t else f'Vector {t} {n}'
    return t

def emit_const(f,lines,fn,name,isnat,leanname=None):
    a,b,buf=find_const(lines,name)
    body=buf.split('=',1)[1]
    conv=(lambda t:str(int(t))) if isnat else dec
    v=parse(body,conv)
    sh=shape(v); check(v,sh)
    f.write(f'/-- `{name}`, {fn}:{a}-{b}. -/\n')
    f.write(f'def {leanname or name} : {lean_type(sh,"Nat" if isnat else "Dec")} := {lean_vec(v)}\n\n')

def lst(items):
    parts=[];line=''
    for s in items:
        if len(line)+len(s)>94: parts.append(line); line=''
        line+=s+', '
    parts.append(line)
    return '[\n  '+'\n  '.join(p.rstrip() for p in parts).rstrip().rstrip(',')+']'

HDR='''/-
Generated by tools/gen_tables.py from {src}; do not edit.
Every number is a literal of the Rust text, as the exact decimal mantissa * 10^-exponent.
-/
import Verif.Dec

namespace Aga8.{ns}

'''
def detail():
    L=load('/repo/src/detail.rs')
    fn='src/detail.rs'
    with open(OUT+'Detail.lean','w') as f:
        f.write(HDR.format(src='/repo/src/detail.rs',ns='Detail.Tab'))
        for n in ['MMI','AN']: emit_const(f,L,fn,n,False)
        for n in ['BN','KN']: emit_const(f,L,fn,n,True)
        emit_const(f,L,fn,'UN',False)
        for n in ['FN','GN','QN','SN','WN']: emit_const(f,L,fn,n,True)
        for n in ['EI','KI','GI','QI','FI','SI','WI','EIJ','UIJ','KIJ','GIJ','TH0I']: emit_const(f,L,fn,n,False)
        asg=[];a=b=None
        for k,l in enumerate(L):
            m=re.match(r'\s*self\.n0i\[(\d+)\]\[(\d+)\] = (\S+);',l)
            if m:
                if a is None:a=k+1
                b=k+1
                asg.append(f'({m.group(1)}, {m.group(2)}, {dec(m.group(3))})')
        f.write(f'/-- The literal assignments `self.n0i[i][j] = v` of `setup`, in program order, {fn}:{a}-{b}. -/\n')
        f.write(f'def n0iAsg : List (Nat × Nat × Dec) := {lst(asg)}\n\n')
        f.write('end Aga8.Detail.Tab\n')
def gerg():
    L=load('/repo/src/gerg2008.rs')
    fn='src/gerg2008.rs'
    with open(OUT+'Gerg.lean','w') as f:
        f.write(HDR.format(src='/repo/src/gerg2008.rs',ns='Gerg.Tab'))
        emit_const(f,L,fn,'MMI_GERG',False)
        for n in ['KPOL','KEXP','KPOLIJ','KEXPIJ']: emit_const(f,L,fn,n,True)
        for n in ['DC','TC','NOIK','FIJ']: emit_const(f,L,fn,n,False)
        emit_const(f,L,fn,'MNUMB',True)
        for n in ['TH0I','GVIJ','BTIJ','GTIJ']: emit_const(f,L,fn,n,False)
        # setup
        s0=next(k for k,l in enumerate(L) if l.startswith('    fn setup'))
        l1=next(k for k in range(s0,len(L)) if L[k].strip()=='for i in 1..=MAXFLDS {')
        l1e=next(k for k in range(l1,len(L)) if L[k]=='        }')
        l2=next(k for k in range(l1e,len(L)) if L[k].strip()=='for i in 1..=4 {')
        l2e=next(k for k in range(l2,len(L)) if L[k]=='        }')
        end=next(k for k in range(l2e,len(L)) if L[k].strip()=='for i in 1..=MAXFLDS {')
        seen=0
        for arr in ['coik','doik','toik']:
            isn=arr!='toik'
            conv=(lambda t:str(int(t))) if isn else dec
            for nm,(a,b) in {'All':(l1,l1e),'Long':(l2,l2e)}.items():
                asg=[]
                for k in range(a,b):
                    m=re.match(rf'\s*self\.{arr}\[i\]\[(\d+)\] = (\S+);',L[k])
                    if m: asg.append(f'({m.group(1)}, {conv(m.group(2))})'); seen+=1
                f.write(f'/-- Assignments `self.{arr}[i][k] = v` in the loop {fn}:{a+1}-{b+1}, as `(k, v)`. -/\n')
                f.write(f'def {arr}{nm} : List (Nat × {"Nat" if isn else "Dec"}) := {lst(asg)}\n\n')
        for arr in ['coik','doik','toik','dijk','tijk','cijk','eijk','bijk','gijk','nijk','n0i','bvij','gvij','btij','gtij']:
            isn=arr in('coik','doik','dijk')
            conv=(lambda t:str(int(t))) if isn else dec
            asg=[];a=b=None
            for k in range(l2e,end):
                m=re.match(rf'\s*(?:self\.)?{arr}\[(\d+)\]\[(\d+)\] = ([^;]+);',L[k])
                if m:
                    a=a or k+1; b=k+1; seen+=1
                    asg.append(f'({m.group(1)}, {m.group(2)}, {conv(m.group(3).strip())})')
            f.write(f'/-- Straight-line assignments `{arr}[i][j] = v` of `setup`, in program order, {fn}:{a}-{b}. -/\n')
            f.write(f'def {arr}Asg : List (Nat × Nat × {"Nat" if isn else "Dec"}) := {lst(asg)}\n\n')
        # every assignment line in the covered region was consumed
        tot=sum(1 for k in range(l1,end) if ' = ' in strip_comment(L[k]) and not re.match(r'\s*(vc3|tc2)\[',L[k]))
        assert tot==seen,(tot,seen)
        f.write('end Aga8.Gerg.Tab\n')
detail(); gerg()
