#!/usr/bin/env python3
"""From Verif/Src (the text of the repository, written by gen_src.py):

* Verif/SrcX/*.lean, the same text with the constructs of Verif/SrcX/Sem.lean (only the namespace and the imports change);
* Verif/SrcX/SimText.lean, SimBip38.lean: for every function the statement, and its proof, that it follows the text without faults, with bounds for its external
  calls computed from the text (the proofs, not this script, are what checks the bounds);
* Verif/SrcX/LowText.lean: lower bounds for the external calls made before a value is returned, likewise;
* Verif/SrcX/SeqText.lean: the order of the external calls, likewise;
* Verif/SrcX/StopText.lean: what becomes of a fault, also of one that is caught.

usage: gen_sim.py [DIR]      (DIR: the directory Verif)
"""
import collections
import glob
import os
import re
import sys

V = sys.argv[1] if len(sys.argv) > 1 else os.path.join(os.path.dirname(os.path.abspath(__file__)), "..", "lean", "Verif")
S = os.path.join(V, "Src")
X = os.path.join(V, "SrcX")

# --- the text ---
for f in sorted(os.listdir(S)):
    t = open(f"{S}/{f}").read()
    if "generated by `tools/gen_src.py`" not in t:
        continue
    t = t.replace("namespace Bip38.Src\n", "namespace Bip38.SrcX\n\nopen Bip38.Src\n").replace("end Bip38.Src\n", "end Bip38.SrcX\n")
    t = t.replace("import Verif.Src.Attr\n", "").replace("import Verif.Src.", "import Verif.SrcX.").replace("@[src] ", "")
    t = t.replace("generated by `tools/gen_src.py`, do not edit", "generated by `tools/gen_src.py` and `tools/gen_sim.py`, do not edit")
    open(f"{X}/{f}", "w").write(t)

# --- upper bounds of the external calls ---
order=['Exceptions','Const','Utils','Base58','Ripemd160','Crypto','Point','PublicKey','PrivateKey','Wif','P2pkhAddress','Bip38']
C=collections.Counter
ext={}
for m in re.finditer(r'^def (\w+)((?: \(\w : \w+\))?) : (Fn|Val → Fn|Run Val) := (external|externalMethod) \.(\w+)',open(f'{X}/Builtin.lean').read(),re.M): ext[m.group(1)]=C({m.group(5):1})
def tok(s): return re.findall(r'"(?:[^"\\]|\\.)*"|[()\[\],⟨⟩]|[^\s()\[\],⟨⟩"]+',s)
def parse(ts):
    # returns nested lists: ('app',[..]) / ('list',[..]) / ('tup',[..])
    pos=0
    def seq(end):
        nonlocal pos
        items=[[]]
        while True:
            t=ts[pos] if pos<len(ts) else None
            if t in end: pos+=1; break
            pos+=1
            if t==',': items.append([]); continue
            if t=='(':
                r=seq((')',)); items[-1].append(('tup',r) if len(r)>1 else ('app',r[0]))
            elif t=='[': 
                r=seq((']',)); items[-1].append(('list',[('app',x) for x in r if x]))
            elif t=='⟨':
                r=seq(('⟩',)); items[-1].append(('tup',r))
            else: items[-1].append(t)
        return items
    r=seq((None,))
    return ('app',r[0])
env={}
def mx(a,b): return a|b
def cost(e):
    if isinstance(e,str): return env.get(e,ext.get(e,C()))
    k,x=e
    if k=='list':
        r=C()
        for y in x: r+=cost(y)
        return r
    if k=='tup':
        r=C()
        for y in x: r+=cost(('app',y))
        return r
    if not x: return C()
    if len(x)==1: return cost(x[0])
    h=x[0]
    def s(l):
        r=C()
        for y in l: r+=cost(y)
        return r
    def table(t):
        r=C()
        for y in t[1]: r=mx(r,cost(y))
        return r
    if h=='eIf' or h=='sIf': return cost(x[1])+mx(cost(x[2]),cost(x[3]))
    if h=='eMethod' and x[3]==('app',['eName','v!','"aes"']): return cost(x[2])+s(x[4:])
    if h=='eMethod': return mx(table(x[1]),cost(x[2]))+s(x[3:])
    if h=='eBin': return mx(table(x[1]),table(x[2]))+s(x[4:])
    if h=='sTry':
        hs=C()
        for y in x[3][1]: hs=mx(hs,cost(y))
        return cost(x[2])+hs
    if h in('sFor','sForUnpack'): assert not cost(x[3]); return cost(x[2])
    if h=='sWhile': assert not s(x[1:3])
    if h in('sAssign','sUnpack'): return cost(x[2])
    return s(x)
B={}
for f in order:
    t=open(f'{X}/{f}.lean').read()
    for m in re.finditer(r'^def (\S+) \(H : Host\)(?: \(c : ExcClass\))? : (Fn|Stmt|Run Val) :=(?: fun env =>)?\n((?:  .*\n?)+)',t,re.M):
        c=cost(parse(tok(m.group(3))))
        env[m.group(1)]=c
        if m.group(2)!='Stmt': B[m.group(1)]=sorted(((k,v) for k,v in c.items() if v),key=lambda z:['urandom','sha256','hashNew','digest','normalize','scrypt','aes','aesEncrypt','aesDecrypt','ecdsa'].index(z[0]))

# --- functions ---
L=[]
for f in order:
    t=open(f'{X}/{f}.lean').read()
    stm=[]
    for m in re.finditer(r'^(def|noncomputable def) (\S+) (\(H : Host\)(?: \(c : ExcClass\))?) : (Fn|Stmt|Run Val) :=',t,re.M):
        name,args,ty=m.group(2),m.group(3),m.group(4)
        if ty=='Stmt': stm.append(name); continue
        extra=' (c : ExcClass)' if 'ExcClass' in args else ''
        ap=f'{name} H'+(' c' if extra else '')
        us=' '.join([name]+stm)
        b=B.get(name)
        bound='calls ['+', '.join(f'(.{k}, {v})' for k,v in b)+']' if b is not None else '?'
        unf=', '.join(f'SrcX.{s}, Src.{s}' for s in [name]+stm)
        hy=''
        L.append((f,name,extra,ap,ty,unf,bound,bool(stm)))
        stm=[]

# --- statements and proofs ---
H='''import Verif.SrcX.Sim
import Verif.SrcX.Bip38
import Verif.Src.Bip38
/-!
# Every function of the repository, with faults, against the same function without (generated by `tools/gen_sim.py`, do not edit)

The bounds (`calls`) are upper bounds for the external calls of one call of the function, for arguments of any kind.
-/
set_option linter.unusedVariables false
set_option linter.style.longLine false
namespace Bip38.SrcX

open Bip38.Src

variable {K : Ctx}

'''
out=[H]
bt=open(f'{X}/Builtin.lean').read()
for m in re.finditer(r'^def (\w+)((?: \(\w : \w+\))?) : (Fn|Val → Fn|Run Val) := (pure1|pureMethod|external|externalMethod|lift) (.*)$',bt,re.M):
    n,a,ty,kind,rest=m.groups()
    if n in ('xUrandom','xNormalize','xScrypt','xHashNew'): continue
    ap=n+(' H' if 'Host' in a else ' c' if a else '')
    rel={'Fn':'SimF','Val → Fn':'SimM','Run Val':'Sim'}[ty]
    b='fun _ => 0' if kind in('pure1','pureMethod','lift') else 'one '+rest.split()[0]
    pr={'pure1':'sim_pure1 _','pureMethod':'sim_pureMethod _','external':'sim_external _ rfl _','externalMethod':'sim_externalMethod _ rfl _ _','lift':'sim_lift _'}[kind]
    arg=' (c : ExcClass)' if 'ExcClass' in a else ''
    om='' if 'Host' in a else 'omit H in\n' if 0 else ''
    out.append(f'theorem sim_{n}{" (H : Host)" if "Host" in a else ""}{arg} : {rel} ({b}) K ({ap}) (Src.{ap}) := {pr}\nmacro_rules | `(tactic| sim_known) => `(tactic| exact sim_{n}{" _" if a else ""})\n')
out.append('variable (H : Host)\n')
# the functions during which `except MalformedPointError` or `except AttributeError` may catch something
text='\n'.join(open(x).read() for x in sorted(glob.glob(f'{X}/*.lean')) if not x.endswith(('Sim.lean','SimText.lean','SimBip38.lean','Low.lean','LowText.lean','Stop.lean','StopText.lean','Sem.lean','Builtin.lean')))
names=[l[1] for l in L]
body={}
for m in re.finditer(r'^def (\w+)(.*?)(?=^/--|^end |\Z)',text,re.M|re.S):
    nm=re.sub(r'_L\d+$','',m.group(1))
    body[nm]=body.get(nm,'')+m.group(2)
fineset={n for n in names if '.malformed' in body[n] or '.attributeError]' in body[n]}
grow=True
while grow:
    new={n for n in names if n not in fineset and any(re.search(r'\b'+f+r'\b',body[n]) for f in fineset)}
    grow=bool(new); fineset|=new

# the calls with fixed arguments
uses={}
def own(t):
    r=[]
    I=r'\(eConst \(\.int (\d+)\)\)'
    r+=[f'.urandom {x}' for x in re.findall(r'eCall \(xUrandom H\) \['+I+r'\]',t)]
    if 'xNormalize H' in t: r.append('.nfc')
    if 'xHashNew H' in t: r.append('.ripemd160')
    for m in re.finditer(r'eCall \(xScrypt H\)',t):
        c=re.search(r', '+I+r', '+I+r', '+I+r'(?:, '+I+r')?\]',t[m.end():])
        g=[x for x in c.groups() if x]
        r.append(('.scrypt ' if len(g)==3 else '.scryptOf ')+' '.join(g))
    return r
for n in names:
    t=body[n].replace('[(.BIP38, BIP38_encrypt H)]','[]')
    u=own(t)
    for g in uses:
        if re.search(r'\b'+g+r'\b',t): u+=uses[g]
    uses[n]=sorted(set(u))
for f,name,extra,ap,ty,unf,bound,hasst in L:
    b=B.get(name,None)
    if ty=='Run Val':
        if b is None: b=[]
        assert b==[]
        out.append(f'theorem sim_{name} : Sim (fun _ => 0) K ({ap}) (Src.{ap}) := by\n  delta {unf.replace(chr(44),chr(32))}\n  sim_value\nmacro_rules | `(tactic| sim_known) => `(tactic| exact sim_{name} _)\n')
    else:
        bs='calls ['+', '.join(f'(.{k}, {v})' for k,v in b)+']' if b is not None else 'calls []'
        hyp={'BIP38_create_new_encrypted_wif':' (hH : FineHash K)','BIP38_confirm_code':' (hH : FineHash K) (hS : FineKey K)'}.get(name,'')
        fine=' (hK : Fine K)' if name in fineset else ''
        if uses[name]: hyp=' (hU : Allows K ['+', '.join(uses[name])+'])'+hyp
        sfx='_aes' if name=='BIP38_create_new_encrypted_wif' else ''
        out.append(f'theorem sim_{name}{extra}{fine}{hyp} : SimF ({bs}) K ({ap}) (Src.{ap}) := by\n  delta {unf.replace(chr(44),chr(32))}\n  sim_function{sfx}\nmacro_rules | `(tactic| sim_known) => `(tactic| exact sim_{name} _{" _" if extra else ""}{" (by assumption)" if fine else ""}{" (allows_sub (by assumption) (by decide))" if uses[name] else ""})\n')
text='\n'.join(out)
cut=text.index('theorem sim_BIP38_init')
end='end Bip38.SrcX\n'
open(f'{X}/SimText.lean','w').write(text[:cut]+'\n'+end)
head2=H.replace('import Verif.SrcX.Sim\nimport Verif.SrcX.Bip38\nimport Verif.Src.Bip38\n','import Verif.SrcX.SimText\n').replace('Every function of the repository','The methods of `BIP38`')
open(f'{X}/SimBip38.lean','w').write(head2+'variable (H : Host)\n\n'+text[cut:]+'\n'+end)

# --- lower bounds of the external calls before a value is returned (None: there is no value) ---
STUCK={'mDigest','mEncrypt','mDecrypt','mX','mY','mToString','mGetVerifyingKey'}  # other values do not have these methods
WORK=['urandom','sha256','hashNew','digest','normalize','scrypt','aes','aesEncrypt','aesDecrypt','ecdsa','slow','fast']
def ladd(a,b): return None if a is None or b is None else a+b
def lmin(a,b): return b if a is None else a if b is None else a&b
low={}
def lx(e):
    if isinstance(e,str):
        if e in low: return low[e]
        if e in ext and (not e.startswith('m') or e in STUCK): return C(ext[e])
        return C()
    k,x=e
    def s(l):
        r=C()
        for y in l: r=ladd(r,lx(y))
        return r
    if k=='list': return s(x)
    if k=='tup': return s([('app',y) for y in x])
    if not x: return C()
    if len(x)==1: return lx(x[0])
    h=x[0]
    def table(t):
        r=None
        for y in t[1]: r=lmin(r,lx(y))
        return r
    if h=='eIf': return ladd(lx(x[1]),lmin(lx(x[2]),lx(x[3])))
    if h in('eAnd','eOr'): return lx(x[1])
    if h=='eCompare': return s(x[1:2]+x[2][1][:1])
    if h=='eFormat': return C()
    if h=='eMethod': return ladd(s(x[3:]),lmin(table(x[1]),lx(x[2])))
    if h=='eBin': return s(x[4:])
    if h=='eCall' and x[1]==('app',['xScrypt','H']):
        r=s(x[1:])
        c=[y for y in x[2][1][2:]]
        n=[re.search(r"'(\d+)'",str(y)).group(1) for y in c]
        if n in(['16384','8','8'],['16384','8','8','32']): r=ladd(r,C({'slow':1}))
        if n==['1024','1','1','64']: r=ladd(r,C({'fast':1}))
        return r
    return s(x)
def ls(e):
    """(bound for going on, bound for returning)"""
    k,x=e
    if len(x)==1 and not isinstance(x[0],str): return ls(x[0])
    h=x[0]
    if h in low: return low[h]
    if h in('sAssign','sUnpack'): return (lx(x[2]),None)
    if h in('sExpr',): return (lx(x[1]),None)
    if h=='sPass': return (C(),None)
    if h=='sReturn': return (None,lx(x[1]))
    if h=='sRaise': return (None,None)
    if h=='sIf':
        c=lx(x[1]); a,b=lb(x[2]),lb(x[3])
        return (ladd(c,lmin(a[0],b[0])),ladd(c,lmin(a[1],b[1])))
    if h=='sTry':
        a,b=lb(x[2])
        for y in x[3][1]:
            hb=y
            while hb[0]=='app': hb=hb[1][0]
            n,r=lb(hb[1][1][0])
            a,b=lmin(a,n),lmin(b,r)
        return (a,b)
    raise ValueError(h)
def lb(l):
    a,b=C(),None
    for y in l[1]:
        n,r=ls(y)
        b=lmin(b,ladd(a,r)); a=ladd(a,n)
    return (a,b)
LT=['''import Verif.SrcX.Low
import Verif.SrcX.SimBip38
/-!
# External calls before a function of the repository returns a value (generated by `tools/gen_sim.py`, do not edit)

The bounds (`works`) are lower bounds, computed from the text, for one call of the function, for arguments of any kind.
-/
set_option linter.unusedVariables false
set_option linter.style.longLine false
namespace Bip38.SrcX

open Bip38.Src
''']
for m in re.finditer(r'^def (\w+)((?: \(\w : \w+\))?) : (Fn|Val → Fn|Run Val) := (pure1|pureMethod|external|externalMethod|lift) (.*)$',bt,re.M):
    n,a,ty,kind,rest=m.groups()
    ap=n+(' H' if 'Host' in a else ' c' if a else '')
    rel={'Fn':'LowF','Val → Fn':'LowM','Run Val':'Low'}[ty]
    arg=(' (H : Host)' if 'Host' in a else '')+(' (c : ExcClass)' if 'ExcClass' in a else '')
    b='fun _ => some 0'
    if kind=='external': b,pr='once '+rest.split()[0],'low_external _ _'
    elif n in STUCK: b,pr='once '+rest.split()[0],'low_externalMethod _ fun v _ _ h => by cases v <;> first | rfl | cases h'
    elif kind=='externalMethod': pr='low_otherMethod _ _ _'
    elif kind=='pure1': pr='fun _ _ => low_lift _'
    elif kind=='pureMethod': pr=f'fun v a k => low_lift (Src.{n} v a k)'
    else: pr='low_lift _'
    LT.append(f'theorem low_{n}{arg} : {rel} ({b}) ({ap}) := {pr}\nmacro_rules | `(tactic| low_known) => `(tactic| exact low_{n}{" _" if a else ""})\n')
LT.append('variable (H : Host)\n')
LOOP={'sAssert','sFor','sForUnpack','sWhile','sMutate','eComprehension','eCallStar'}
LBND={}
for f in order:
    t=open(f'{X}/{f}.lean').read()
    stm=[]; loops=False
    for m in re.finditer(r'^def (\S+) \(H : Host\)((?: \(c : ExcClass\))?) : (Fn|Stmt|Run Val) :=(?: fun env =>)?\n((?:  .*\n?)+)',t,re.M):
        name,ex,ty,txt=m.groups()
        if ty=='Stmt':
            stm.append(name)
            if any(re.search(r'\b'+w+r'\b',txt) for w in LOOP): loops=True; low[name]=(C(),C())
            else: low[name]=ls(parse(tok(txt)))
            continue
        ap=f'{name} H'+(' c' if ex else '')
        us=f'{" _" if ex else ""}'
        fineargs=' (fun _ _ h => h.elim)' if name in fineset else ''
        hu=' (fun _ _ _ _ => trivial)' if uses[name] else ''
        if ty=='Run Val':
            low[name]=C()
            LT.append(f'theorem low_{name} : Low (fun _ => some 0) ({ap}) := low_of_sim (K := anything) (sim_{name} H)\nmacro_rules | `(tactic| low_known) => `(tactic| exact low_{name} _)\n')
        elif loops:
            assert not B[name] and name not in fineset and not uses[name],name
            low[name]=C()
            LT.append(f'theorem low_{name}{ex} : LowF (fun _ => some 0) ({ap}) := lowF_of_sim (K := anything) (sim_{name} H{" c" if ex else ""})\nmacro_rules | `(tactic| low_known) => `(tactic| exact low_{name} _{us})\n')
        else:
            l=parse(tok(txt))[1]
            body_=[y for y in l if not isinstance(y,str) and y[0]=='list'][-1]
            a,b=lb(body_)
            r=lmin(a,b)
            low[name]=r
            if r is None: bs='fun _ => none'; LBND[name]=None
            else:
                it=[(w,r[w]) for w in WORK if r.get(w)]
                LBND[name]=it
                bs='works ['+', '.join(f'({"."+w if w in("slow","fast") else ".of ."+w}, {v})' for w,v in it)+']'
            unf=' '.join('SrcX.'+s for s in [name]+stm)
            LT.append(f'theorem low_{name}{ex} : LowF ({bs}) ({ap}) := by\n  delta {unf}\n  low_function\nmacro_rules | `(tactic| low_known) => `(tactic| exact low_{name} _{us})\n')
        stm=[]; loops=False
open(f'{X}/LowText.lean','w').write('\n'.join(LT)+'\nend Bip38.SrcX\n')

# --- the order of the external calls ---
SEEN={'sha256':'.sha256','hashNew':'R','normalize':'.normalize','aesEncrypt':'.aesEncrypt','aesDecrypt':'.aesDecrypt','digest':None,'aes':None,'ecdsa':None}
def qn(l):
    """up to initial parts"""
    l=sorted(set(l),key=lambda t:(-len(t),t)); r=[]
    for t in l:
        if not any(u[:len(t)]==t for u in r): r.append(t)
    return frozenset(r)
E0=frozenset([()]); N0=frozenset()
QI=(E0,E0); QN=(N0,N0)
def qcat(a,b): return frozenset(x+y for x in a for y in b)
def qseq(a,b): return (qcat(a[0],b[0]),qn(a[1]|qcat(a[0],b[1])))
def qalt(a,b): return (a[0]|b[0],qn(a[1]|b[1]))
def qparts(a): return frozenset(t[:i] for t in a for i in range(len(t)+1))
sq={}
def qs(l):
    r=QI
    for y in l: r=qseq(r,qx(y))
    return qseq(r,QI)
def qx(e):
    if isinstance(e,str):
        if e in sq: return sq[e]
        if e in ext:
            k=list(ext[e])[0]
            t=frozenset([(SEEN[k],) if SEEN[k] else ()]) if k in SEEN else None
            return (t,t) if t is not None else QI
        return QI
    k,x=e
    if k=='list': return qs(x)
    if k=='tup': return qs([('app',y) for y in x])
    if not x: return QI
    if len(x)==1: return qx(x[0])
    h=x[0]
    def table(t):
        r=QN
        for y in t[1]: r=qalt(r,qx(y))
        return r
    if h=='eIf' and 'xAlgorithms' in str(x[1]): return qx(x[2])
    if h=='eIf': return qseq(qx(x[1]),qalt(qx(x[2]),qx(x[3])))
    if h in('eAnd','eOr'): return qseq(qx(x[1]),qalt(qx(x[2]),QI))
    if h=='eMethod' and x[3]==('app',['eName','v!','"aes"']): return qseq(qs(x[4:]),qx(x[2]))
    if h=='eMethod': return qseq(qs(x[3:]),qalt(table(x[1]),qx(x[2])))
    if h=='eBin': return qseq(qs(x[4:]),qalt(QI,qalt(table(x[1]),table(x[2]))))
    if h=='eCall' and x[1]==('app',['xScrypt','H']):
        n=[re.search(r"'(\d+)'",str(y)).group(1) for y in x[2][1][2:]]
        if len(n)==3: n.append('64')
        t=frozenset([('.scrypt '+' '.join(n),)])
        return qseq(qs(x[2:]),(t,t))
    if h=='eCall' and x[1]==('app',['xUrandom','H']):
        t=frozenset([('.urandom '+re.search(r"'(\d+)'",str(x[2])).group(1),)])
        return (t,t)
    if h=='eCall': return qseq(qs(x[2:]),qx(x[1]))
    if h in sq or h in ext: return qx(h)
    return qs(x[1:])
def qst(e):
    """(going on, returning, raising)"""
    k,x=e
    if len(x)==1 and not isinstance(x[0],str): return qst(x[0])
    h=x[0]
    if h in sq: return sq[h]
    if h in('sAssign','sUnpack'): o,b=qseq(qx(x[2]),QI); return (o,N0,b)
    if h=='sExpr': o,b=qseq(qx(x[1]),QI); return (o,N0,b)
    if h=='sPass': return (E0,N0,E0)
    if h=='sReturn': o,b=qx(x[1]); return (N0,o,b)
    if h=='sRaise': o,b=qseq(qx(x[2]),QI); return (N0,N0,b)
    if h=='sIf':
        o,b=qx(x[1]); p,q=qb(x[2]),qb(x[3])
        return (qcat(o,p[0]|q[0]),qcat(o,p[1]|q[1]),qn(b|qcat(o,p[2]|q[2])))
    if h=='sTry':
        n,r,b=qb(x[2])
        hn,hr,hb=N0,N0,E0
        for y in x[3][1]:
            while y[0]=='app': y=y[1][0]
            m=qb(y[1][1][0])
            hn,hr,hb=hn|m[0],hr|m[1],hb|m[2]
        return (n|qcat(qparts(b),hn),r|qcat(qparts(b),hr),qn(qcat(qparts(b),hb)))
    raise ValueError(h)
def qb(l):
    n,r,b=E0,N0,E0
    for y in l[1]:
        p=qst(y)
        n,r,b=qcat(n,p[0]),r|qcat(n,p[1]),qn(b|qcat(n,p[2]))
    return (n,r,b)
def qlean(s):
    def one(t):
        parts=[]; cur=[]
        for y in t:
            if y=='R':
                if cur: parts.append('['+', '.join(cur)+']')
                cur=[]; parts.append('rip r')
            else: cur.append(y)
        if cur or not parts: parts.append('['+', '.join(cur)+']')
        return ' ++ '.join(parts)
    return '['+', '.join(one(t) for t in sorted(s,key=lambda t:(len(t),t)))+']'
def qshow(q):
    return 'Seqs.idle' if q==QI else 'Seqs.fails' if q==(N0,E0) else f'⟨{qlean(q[0])}, {qlean(q[1])}⟩'
QT=['''import Verif.SrcX.Seq
import Verif.SrcX.SimBip38
/-!
# The order of the external calls of every function of the repository (generated by `tools/gen_sim.py`, do not edit)

The sequences are computed from the text, for arguments of any kind; `r` says whether `hashlib` has RIPEMD-160.
-/
set_option linter.unusedVariables false
set_option linter.unusedSectionVars false
set_option linter.style.longLine false
namespace Bip38.SrcX

open Bip38.Src Bip38.Spec
''']
for m in re.finditer(r'^def (\w+)((?: \(\w : \w+\))?) : (Fn|Val → Fn|Run Val) := (pure1|pureMethod|external|externalMethod|lift) (.*)$',bt,re.M):
    n,a,ty,kind,rest=m.groups()
    if n in('xScrypt','xUrandom'): continue
    ap=n+(' H' if 'Host' in a else ' c' if a else '')
    rel={'Fn':'SqF','Val → Fn':'SqM','Run Val':'Sq'}[ty]
    arg=(' (H : Host)' if 'Host' in a else '')+(' (c : ExcClass)' if 'ExcClass' in a else '')
    b='Seqs.idle'
    if kind in('external','externalMethod'):
        k=SEEN[rest.split()[0][1:]]
        t='[]' if k is None else '[.ripemd160]' if k=='R' else f'[{k}]'
        if not(kind=='externalMethod' and n not in STUCK): b='stepping '+t
    if kind=='external': pr=f'sq_external _ _ _ fun _ _ => rfl'
    elif n in STUCK: pr='sq_externalMethod _ _ (fun _ _ => rfl) fun v _ _ h => by cases v <;> first | rfl | cases h'
    elif kind=='externalMethod': pr='sq_otherMethod _ _ _ fun _ _ => rfl'
    elif kind=='pure1': pr='fun _ _ => sq_lift _'
    elif kind=='pureMethod': pr=f'fun v a k => sq_lift (Src.{n} v a k)'
    else: pr='sq_lift _'
    QT.append(f'theorem sq_{n}{arg} : {rel} ({b}) ({ap}) := {pr}\nmacro_rules | `(tactic| sq_known) => `(tactic| exact sq_{n}{" _" if a else ""})\n')
QT.append('variable (H : Host) {r : Bool} (hr : H.P.hashlibRipemd160.isSome = r)\ninclude hr\n')
QB={}
for f in order:
    t=open(f'{X}/{f}.lean').read()
    stm=[]; loops=False
    for m in re.finditer(r'^def (\S+) \(H : Host\)((?: \(c : ExcClass\))?) : (Fn|Stmt|Run Val) :=(?: fun env =>)?\n((?:  .*\n?)+)',t,re.M):
        name,ex,ty,txt=m.groups()
        if ty=='Stmt':
            stm.append(name)
            if any(re.search(r'\b'+w+r'\b',txt) for w in LOOP): loops=True; sq[name]=(E0,E0,E0)
            else: sq[name]=qst(parse(tok(txt)))
            continue
        ap=f'{name} H'+(' c' if ex else '')
        us=f'{" _" if ex else ""}'
        known=f'macro_rules | `(tactic| sq_known) => `(tactic| exact sq_{name} _ (by assumption){us})\n'
        if ty=='Run Val':
            sq[name]=QI
            QT.append(f'theorem sq_{name} : Sq Seqs.idle ({ap}) := sq_of_sim (K := anything) (sim_{name} H) fun _ => rfl\n'+known)
        elif loops:
            sq[name]=QI
            QT.append(f'theorem sq_{name}{ex} : SqF Seqs.idle ({ap}) := sqF_of_sim (K := anything) (sim_{name} H{" c" if ex else ""}) fun _ => rfl\n'+known)
        else:
            l=parse(tok(txt))[1]
            body_=[y for y in l if not isinstance(y,str) and y[0]=='list'][-1]
            n,q,b=qb(body_)
            sq[name]=QB[name]=(n|q,qn(b|n|q))
            unf=' '.join('SrcX.'+s for s in [name]+stm)
            aes='_aes' if any('eMethod [(.BIP38' in z for z in re.findall(r'def '+name+r'_L\d+ .*\n((?:  .*\n?)+)',t)) else ''
            QT.append(f'theorem sq_{name}{ex} : SqF ({qshow(sq[name])}) ({ap}) := by\n  delta {unf}\n  sq_function{aes} r\n'+known)
        stm=[]; loops=False
open(f'{X}/SeqText.lean','w').write('\n'.join(QT)+'\nend Bip38.SrcX\n')

# --- what becomes of faults (also of caught ones) ---
PLACES={'PublicKey_from_bytes_L47':('publicBytes','malformed'),'PublicKey_from_point_L68':('publicPoint','malformed'),'PrivateKey_from_bytes_L44':('privateBytes','malformed'),
  'Point_from_bytes_L46':('pointBytes','ruleold'),'Point_raw_encoded_L128':(None,'old'),'Point_raw_decoded_L144':(None,'old'),
  'BIP38_create_new_encrypted_wif_L264':('intermediateHash','value'),'BIP38_confirm_code_L391':('confirmationHash','value'),'BIP38_confirm_code_L440':('confirmationKey','key')}
RULES=['publicBytes','publicPoint','privateBytes','pointBytes','intermediateHash','confirmationHash','confirmationKey']
ST=['''import Verif.SrcX.Stop
import Verif.SrcX.SimBip38
/-!
# What becomes of a fault during a function of the repository (generated by `tools/gen_sim.py`, do not edit)
-/
set_option linter.unusedVariables false
set_option linter.style.longLine false
namespace Bip38.SrcX

open Bip38.Src

variable {T : Tr}
''']
for m in re.finditer(r'^def (\w+)((?: \(\w : \w+\))?) : (Fn|Val → Fn|Run Val) := (pure1|pureMethod|external|externalMethod|lift) (.*)$',bt,re.M):
    n,a,ty,kind,rest=m.groups()
    ap=n+(' H' if 'Host' in a else ' c' if a else '')
    rel={'Fn':'StF','Val → Fn':'StM','Run Val':'St'}[ty]
    arg=(' (H : Host)' if 'Host' in a else '')+(' (c : ExcClass)' if 'ExcClass' in a else '')
    pr={'pure1':'st_pure1 _','pureMethod':'st_pureMethod _','external':'st_external _ _','externalMethod':'st_externalMethod _ _ _','lift':'st_lift _'}[kind]
    ST.append(f'theorem st_{n}{arg} : {rel} T ({ap}) (Src.{ap}) := {pr}\nmacro_rules | `(tactic| st_known) => `(tactic| exact st_{n}{" _" if a else ""})\n')
ST.append('variable (H : Host)\n')
rules={}; old={}
sttext={}
def dl(names): return ' '.join(f'SrcX.{s} Src.{s}' for s in names)
def reach(t,seen):
    for s in re.findall(r'\b(\w+_L\d+) H',t):
        if s not in seen and s in sttext:
            seen.append(s)
            if s not in PLACES and s not in ASSIGNS: reach(sttext[s],seen)
    return seen
STOPS=[]
# variables that hold no `Point`
FREE={'BIP38_encrypt':'private_key','BIP38_create_new_encrypted_wif':'public_key','BIP38_confirm_code':'public_key','BIP38_decrypt':'public_key'}
ASSIGNS={'BIP38_encrypt_L190':'call','BIP38_encrypt_L196':'call','BIP38_create_new_encrypted_wif_L304':'call','BIP38_confirm_code_L441':'call','BIP38_decrypt_L549':'method','BIP38_decrypt_L619':'method'}
def inv(name):
    return next((f'[v!"{v}"]' for k,v in FREE.items() if name==k or name.startswith(k+'_L')),'[]')
NOPOINT='''theorem noPoint_PublicKey_init : NoPoint (PublicKey_init H) := noPoint_defclass _ _ (by decide) rfl

theorem noPoint_PrivateKey_init : NoPoint (PrivateKey_init H) := noPoint_defclass _ _ (by decide) rfl

theorem noPoint_PublicKey_from_point : NoPoint (PublicKey_from_point H) :=
  noPoint_defun (noPoint_one (noPoint_try (noPoint_one (noPoint_return (other_call (noPoint_PublicKey_init H)))) (noPoint_one noPoint_raise)))

theorem noPoint_PrivateKey_from_bytes : NoPoint (PrivateKey_from_bytes H) :=
  noPoint_defun (noPoint_one (noPoint_try (noPoint_one (noPoint_return (other_call (noPoint_PrivateKey_init H)))) (noPoint_one noPoint_raise)))

theorem noPoint_PrivateKey_public_key : NoPoint (PrivateKey_public_key H) :=
  noPoint_defun (noPoint_one (noPoint_return (other_call (noPoint_PublicKey_init H))))

'''
OTHER={'BIP38_encrypt':'other_call (noPoint_PrivateKey_from_bytes H)','BIP38_create_new_encrypted_wif':'other_call (noPoint_PublicKey_from_point H)','BIP38_confirm_code':'other_call (noPoint_PublicKey_from_point H)',
  'BIP38_decrypt':'other_method (by intro p hp; cases List.mem_singleton.1 hp; exact noPoint_PrivateKey_public_key H)'}
for f in order:
    t=open(f'{X}/{f}.lean').read()
    sttext.clear()
    for m in re.finditer(r'^(?:noncomputable )?def (\S+) \(H : Host\)((?: \(c : ExcClass\))?) : (Fn|Stmt|Run Val) :=(?: fun env =>)?\n((?:  .*\n?)+)',t,re.M):
        name,ex,ty,txt=m.groups()
        if ty=='Stmt': sttext[name]=txt
        if ty=='Stmt' and name not in PLACES and name not in ASSIGNS: continue
        us=f'{" _" if ex else ""}'
        ap=f'{name} H'+(' c' if ex else '')
        if ty=='Run Val':
            ST.append(f'theorem st_{name} : St T ({ap}) (Src.{ap}) := st_silent (sim_{name} H) fun _ => rfl\nmacro_rules | `(tactic| st_known) => `(tactic| exact st_{name} _)\n')
            rules[name]=set(); old[name]=False
            continue
        sts=reach(txt,[])
        if ty=='Fn' and not B[name]:
            assert name not in fineset and not uses[name],name
            rules[name]=set(); old[name]=False
            ST.append(f'theorem st_{name}{ex} : StF T ({ap}) (Src.{ap}) := stF_silent (sim_{name} H{" c" if ex else ""}) (by intro k; cases k <;> rfl)\nmacro_rules | `(tactic| st_known) => `(tactic| exact st_{name} _{us})\n')
            STOPS.append((f,name,ex,[],False))
            continue
        full=txt+' '.join(sttext[s] for s in sts if s not in PLACES)
        if f=='Bip38': full=full.replace('(.Point, Point_raw H), ','')
        if f=='Bip38' and NOPOINT: ST.append(NOPOINT); NOPOINT=None
        r=set(); o=False
        for g in rules:
            if re.search(r'\b'+g+r'\b',full): r|=rules[g]; o=o or old[g]
        if name in PLACES:
            rule,kind=PLACES[name]
            if rule: r.add(rule)
            if kind in('old','ruleold'): o=True
            if kind=='key': r={'confirmationKey'}
        rules[name]=r; old[name]=o
        rl=[x for x in RULES if x in r]
        hyp=(f' (hT : Covers T [{", ".join("."+x for x in rl)}])' if rl else '')+(' (hO : NoOld T)' if o else '')
        use=(' (covers_sub (by assumption) (by decide))' if rl else '')+(' (by assumption)' if o else '')
        unf=[s for s in sts if s not in PLACES and s not in ASSIGNS]
        if ty=='Fn':
            ST.append(f'theorem st_{name}{ex}{hyp} : StF T ({ap}) (Src.{ap}) := by\n  delta {dl([name]+unf)}\n  {"refine st_defclass _ ?_ ?_" if "defclass" in txt else f"refine st_defun (I := {inv(name)}) _ ?_ ?_ rfl"}\n  all_goals repeat\' st_rule\nmacro_rules | `(tactic| st_known) => `(tactic| exact st_{name} _{us}{use})\n')
            STOPS.append((f,name,ex,rl,o))
            continue
        if name in ASSIGNS:
            fn=name.rsplit('_L',1)[0]
            ST.append(f'theorem st_{name}{hyp} : StS T {inv(name)} ({ap}) (Src.{ap}) := by\n  delta {dl([name])}\n  refine st_assign_other _ ?_ ({OTHER[fn]})\n  repeat\' st_rule\nmacro_rules | `(tactic| st_known) => `(tactic| exact st_{name} _{use})\n')
            continue
        # a `try`
        bt_,hs_=re.match(r'\s*sTry \[.*?\] (\[.*?\]) (\[.*\]) env',txt).groups()
        bs=reach(bt_,[]); h=[reach(x,[]) for x in re.findall(r'\[[^][]*_L\d+ H[^][]*\]',hs_)]
        unb=lambda l: f'delta {dl(l)}\n' if l else ''
        head=f'theorem st_{name}{hyp} : StS T {inv(name)} ({ap}) (Src.{ap}) := by\n  delta {dl([name]+unf)}\n'
        as_=[s for s in bs if s in ASSIGNS]
        sim=(f'delta {dl(as_)}\n    ' if as_ else '')+'apply sim_block\n    repeat\' sim_rule'
        bound='intro k; cases k <;> decide'
        # goals in the order of the lemma
        def goals(ns,gs): return ''.join(f'  case {i} =>\n    '+g+'\n' for i,g in zip(ns.split(),gs))
        msg=f'exact raises_msg H _ rfl _'
        b='repeat\' st_rule'
        hm='apply sim_block\n    repeat\' sim_rule'
        z='intro k; cases k <;> rfl'
        cc='intro k; simp [Catch.matches, Rule.catches]'
        if kind in('malformed','value'):
            pr=f'  apply st_try_rule .{rule} hT (K := bounds)\n'+goals('h hs hk hc hm hm0 hb hg',[b,sim,bound,cc,hm,z,b,msg])
        elif kind=='ruleold':
            pr=f'  apply st_try_rule_old .{rule} hT hO (K := bounds)\n'+goals("h hs hk hc hm hm0 hb hg hb'",[b,sim,bound,cc,hm,z,b,msg,b])
        elif kind=='old':
            pr=f'  apply st_try_old hO (K := bounds)\n'+goals('h hs hk hb',[b,sim,bound,b])
        else:
            pr=f'''  have hC : Covers T.inner [.publicBytes, .publicPoint] := covers_inner T
  have hF : Fine bounds := fun _ _ h => h.elim
  apply st_try_key hT (K := bounds)
'''+goals('h hs hk hm hm0 hb hg',[b,sim,bound,hm,z,b,msg])
        ST.append(head+pr+f'macro_rules | `(tactic| st_known) => `(tactic| exact st_{name} _{use})\n')
open(f'{X}/StopText.lean','w').write('\n'.join(ST)+'\nend Bip38.SrcX\n')
if os.environ.get('STOPS'):
    for s in STOPS: print(s)
