#!/usr/bin/env python3
"""Writes Verif/Py/OnlyOf.lean, Verif/PyX/Only.lean, Verif/PyX/OnlyOf.lean, Verif/Py/OnlyProgram.lean: that what each text defines is determined.

Usage: gen_only.py DIR, DIR holding Verif/Py and Verif/PyX.  Reads the Of*.lean files that gen_text.py writes, and Verif/Py/Only.lean."""
import re,sys
mods=[('Exceptions','exceptions'),('Const','const'),('Utils','utils'),('Ripemd160','ripemd160'),('Crypto','crypto'),('Base58','base58'),('Wif','wif'),('Point','point'),('PublicKey','publicKey'),('PrivateKey','privateKey'),('P2pkhAddress','p2pkhAddress'),('Bip38','bip38')]
MT={'ctor':'Fn','method':'Fn','fn':'Fn','attr':'Run Val'}
TY={'value':'Expr','fn':'Fn','exc':'(ExcClass → Fn) × Fn'}
def write(D, lib):
    out=[]
    for M,m in mods:
        s=open(D+f'Of{M}.lean').read()
        i=s.index(f'def {M}Defs (H : Host) : Scope :='); j=s.index('\n/--',i)
        body=s[i:j]
        cls=re.search(r'\(v!"(\w+)", \.cls (.*)\n',body)
        items=[]   # kind,name,term   in order
        if cls:
            cn,cc=cls.group(1),cls.group(2).strip()
            items=[(k,n,x) for n,k,x in re.findall(r'\(v!"(\w+)", \.(ctor|method|fn|attr) \((.*?)\)\)[,\]]',body)]
        else:
            for n,k,x in re.findall(r'\(v!"(\w+)", \.(value|fn|exc) (.*)\)[,\]]',body):
                items.append((k,n,x))
        file=re.search(r"/-- What `(.*?)` defines",s).group(1)
        d=re.search(rf'theorem {m}_definitions \(H : Host\) :\n    definitions (\{{.*?\}})\n      \((.*?)\) {m}Tree = ',s,re.S)
        ctx=' '.join(d.group(1).split()); mf=d.group(2)
        dfs=re.search(rf'theorem {m}_defines \(H : Host\) :\n    (Defines .*?) \({M}Defs H\)',s,re.S).group(1)
        # order: functions of the classes in the order of the model, when given
        order=list(range(len(items)))
        if cls:
            o=s.index(f'def {M}Order'); ns=re.findall(r'\(v!"(\w+)", ',s[o:s.index('\n\n',o)])
            order=[q for q in order if items[q][0]=='attr']+sorted([q for q in order if items[q][0]!='attr'],key=lambda q:ns.index(items[q][1]))
        def term(q): 
            k,n,x=items[q]
            return x if k!='exc' else '('+re.match(r'\.\w+ (\(.*?\)) (\(.*?\))$',x).group(1)+', '+re.match(r'\.\w+ (\(.*?\)) (\(.*?\))$',x).group(2)+')'
        def ent(q,known):
            k,n,x=items[q]
            if k=='exc': return f'(v!"{n}", .exc {x})' if known else f'(v!"{n}", .exc {x.split()[0]} x{q}.1 x{q}.2)'
            x=x if not k in('value','fn') or cls else x[1:-1]
            return f'(v!"{n}", .{k} '+(f'({x})' if known else f'x{q}')+')'
        def scope(done):
            l='['+', '.join(ent(q,q in done) for q in range(len(items)))+']'
            return f'[(v!"{cn}", .cls {cc} {l})]' if cls else l
        out.append(f'/-! ### `{file}` -/\n')
        if cls:
            kinds='(v!"%s", .cls %s [%s])'%(cn,cc,', '.join(f'(v!"{n}", .{k})' for k,n,x in items))
        else:
            kinds=', '.join(f'(v!"{n}", .{k}'+(' '+x.split()[0] if k=='exc' else '')+')' for k,n,x in items)
        out.append(f'theorem {m}_shape : shape {m}Tree = [{kinds}] := by by_kernel\n')
        def proj(q):
            k,n,x=items[q]
            if cls: return f'memOf v!"{cn}" v!"{n}"'
            return {'value':'valueOf','fn':'fnOf','exc':'excAt'}[k]+f' v!"{n}"'
        def res(q):
            k,n,x=items[q]
            return f'(.{k} ({x}))' if cls else (f'{x}' if k!='exc' else term(q))
        def nm(q): return f'{m}_{items[q][1].strip("_")}_is'
        done=set()
        facts=[]
        for q in order:
            unk=[p for p in range(len(items)) if p not in done]
            vs=' '.join(f'(x{p} : {MT[items[p][0]] if cls else TY[items[p][0]]})' for p in unk)
            c=ctx.replace(f'{M}Defs H ++',scope(done)+' ++')
            out.append(f'theorem {nm(q)} (H : Host) {vs} :\n    {proj(q)} (definitions {c} ({mf}) {m}Tree) = some {res(q)} := by\n  by_kernel\n')
            facts.append((q,unk)); done.add(q)
        out.append(f'/-- The text of `{file}` defines this and nothing else. -/\ntheorem {m}_only (H : Host) {{defs : Scope}} (h : {dfs} defs) : defs = {M}Defs H := by')
        out.append(f'  obtain ⟨tree, ins, hp, hi, hd⟩ := h')
        out.append(f'  obtain rfl := Option.some.inj ({m}_parse.symm.trans hp)')
        out.append(f'  obtain rfl := Option.some.inj (({m}_imports H).symm.trans hi)')
        out.append(f'  have hk0 := ({m}_shape ▸ shape_eq hd : _ = _)')
        if cls:
            out.append(f'  obtain ⟨ms, d, rfl, hm0, hk1⟩ := key_cls hk0')
            out.append(f'  obtain rfl := key_nil hk1')
        for q,(k,n,x) in enumerate(items):
            if cls: out.append(f'  obtain ⟨x{q}, d{q}, rfl, hm{q+1}⟩ := mem_{k} hm{q}')
            else: out.append(f'  obtain ⟨x{q}, d{q}, rfl, hk{q+1}⟩ := key_{k} hk{q}')
        out.append(f'  obtain rfl := mem_nil hm{len(items)}' if cls else f'  obtain rfl := key_nil hk{len(items)}')
        for q,unk in facts:
            k=items[q][0]
            e=f'Option.some.inj (({nm(q)} H {" ".join(f"x{p}" for p in unk)}).symm.trans (congrArg ({proj(q)}) hd))'
            if cls: e=f'Mem.{k}.inj ({e})'
            out.append(f'  obtain rfl := {e}' if k!='exc' else f'  obtain rfl : {term(q)} = x{q} := {e}')
        out.append('  rfl\n')
    ns = 'Bip38.Py' if lib == 'Py' else 'Bip38.SrcX.Text'
    op = 'Bip38.Src' if lib == 'Py' else 'Bip38.Src Bip38.Py'
    extra = '' if lib == 'Py' else ', with external calls as events'
    hd = f"import Verif.{lib}.Only\n" + ''.join(f'import Verif.{lib}.Of{M}\n' for M, m in mods) + f"""/-!
# The definitions of the modules are determined{extra}

What the text of a module defines (`Verif/{lib}/Of*.lean`) is the only list of definitions that it defines.  Each definition is determined by those before it,
whatever the others are.

Generated by `tools/gen_only.py`.
-/
set_option linter.style.longLine false
set_option linter.unusedVariables false
namespace {ns}
open {op}

"""
    open(D+'OnlyOf.lean','w').write(hd+'\n'.join(out)+f'\nend {ns}\n')

FIELDS = ['exceptions', 'const', 'utils', 'ripemd160', 'crypto', 'base58', 'point', 'publicKey', 'privateKey', 'secp256k1', 'wif', 'p2pkhAddress', 'bip38']
def DEFS(f): return f'({f[0].upper() + f[1:]}Defs H)' if f != 'secp256k1' else '(secp256k1Hands H)'

def write_program(D):
    out=[]
    means=[]
    for M,m in mods:
        s=open(D+f'Of{M}.lean').read()
        i=s.index(f'def {M}Defs (H : Host) : Scope :='); j=s.index('\n/--',i)
        body=s[i:j]
        cls=re.search(r'\(v!"(\w+)", \.cls (.*)\n',body)
        items=[]   # kind,name,term   in order
        if cls:
            cn,cc=cls.group(1),cls.group(2).strip()
            items=[(k,n,x) for n,k,x in re.findall(r'\(v!"(\w+)", \.(ctor|method|fn|attr) \((.*?)\)\)[,\]]',body)]
        else:
            for n,k,x in re.findall(r'\(v!"(\w+)", \.(value|fn|exc) (.*)\)[,\]]',body):
                items.append((k,n,x))
        file=re.search(r"/-- What `(.*?)` defines",s).group(1)
        d=re.search(rf'theorem {m}_definitions \(H : Host\) :\n    definitions (\{{.*?\}})\n      \((.*?)\) {m}Tree = ',s,re.S)
        ctx=' '.join(d.group(1).split()); mf=d.group(2)
        own = bool(cls) or M == 'Exceptions'
        if M == 'Exceptions':
            ctx = ctx.replace('Error_str H', 'strOf @@')
        ctx = ctx.replace(f'({M}Order H)', f'(classMethods {m}Names @@)'); mfc = mf.replace(f'({M}Order H)', f'(classMethods {m}Names @@)')
        i = FIELDS.index(m)
        later = [f'y{f}' for f in FIELDS[i + 1:]]
        def world(x): return 'Modules.world ⟨' + ', '.join([DEFS(f) for f in FIELDS[:i]] + [x] + later) + '⟩'
        lv = f'({" ".join(later)} : Scope)' if later else ''
        pk = re.search(r'Defines H \(Error_str H\) (\[.*?\]) ', re.search(rf'theorem {m}_defines \(H : Host\) :\n    (Defines .*?) \({M}Defs H\)',s,re.S).group(1)).group(1)
        cm = mf
        for M2, m2 in mods:
            cm = cm.replace(f'({M2}Order H)', f'(classMethods {m2}Names ({M2}Defs H))' if M2 != M else f'(classMethods {m2}Names x)')
        stmt = f'Defines H (strOf {"x" if M == "Exceptions" else "(ExceptionsDefs H)"}) {pk} ({world("x")}) ({cm}) {M}Text x'
        orders = ', '.join((['strOf_eq'] if M != 'Exceptions' else []) + [f'{m2}_order' for M2, m2 in mods if f'{M2}Order' in mf and M2 != M])
        dfs=re.search(rf'theorem {m}_defines \(H : Host\) :\n    (Defines .*?) \({M}Defs H\)',s,re.S).group(1)
        # order: functions of the classes in the order of the model, when given
        order=list(range(len(items)))
        if cls:
            o=s.index(f'def {M}Order'); ns=re.findall(r'\(v!"(\w+)", ',s[o:s.index('\n\n',o)])
            order=[q for q in order if items[q][0]=='attr']+sorted([q for q in order if items[q][0]!='attr'],key=lambda q:ns.index(items[q][1]))
        def term(q): 
            k,n,x=items[q]
            return x if k!='exc' else '('+re.match(r'\.\w+ (\(.*?\)) (\(.*?\))$',x).group(1)+', '+re.match(r'\.\w+ (\(.*?\)) (\(.*?\))$',x).group(2)+')'
        def ent(q,known):
            k,n,x=items[q]
            if k=='exc': return f'(v!"{n}", .exc {x})' if known else f'(v!"{n}", .exc {x.split()[0]} x{q}.1 x{q}.2)'
            x=x if not k in('value','fn') or cls else x[1:-1]
            return f'(v!"{n}", .{k} '+(f'({x})' if known else f'x{q}')+')'
        def scope(done):
            l='['+', '.join(ent(q,q in done) for q in range(len(items)))+']'
            return f'[(v!"{cn}", .cls {cc} {l})]' if cls else l
        out.append(f'/-! ### `{file}` -/\n')
        if cls:
            kinds='(v!"%s", .cls %s [%s])'%(cn,cc,', '.join(f'(v!"{n}", .{k})' for k,n,x in items))
        else:
            kinds=', '.join(f'(v!"{n}", .{k}'+(' '+x.split()[0] if k=='exc' else '')+')' for k,n,x in items)
        out.append(f'theorem {m}_imports_in (H : Host) (x : Scope) {lv} :\n    imports {pk} ({world("x")}) {m}Tree = some ((imports {pk} ({M}World H) {m}Tree).getD []) := by by_kernel\n')
        def proj(q):
            k,n,x=items[q]
            if cls: return f'memOf v!"{cn}" v!"{n}"'
            return {'value':'valueOf','fn':'fnOf','exc':'excAt'}[k]+f' v!"{n}"'
        def res(q):
            k,n,x=items[q]
            return f'(.{k} ({x}))' if cls else (f'{x}' if k!='exc' else term(q))
        def nm(q): return f'{m}_{items[q][1].strip("_")}_in'
        done=set()
        facts=[]
        order = order if own else []
        for q in order:
            unk=[p for p in range(len(items)) if p not in done]
            vs=' '.join(f'(x{p} : {MT[items[p][0]] if cls else TY[items[p][0]]})' for p in unk)
            c=ctx.replace(f'{M}Defs H ++',scope(done)+' ++').replace('@@', scope(done)); mfd=mfc.replace('@@', scope(done))
            out.append(f'theorem {nm(q)} (H : Host) {vs} :\n    {proj(q)} (definitions {c} ({mfd}) {m}Tree) = some {res(q)} := by\n  by_kernel\n')
            facts.append((q,unk)); done.add(q)
        out.append(f'theorem {m}_in (H : Host) {lv} {{x : Scope}} (h : {stmt}) : x = {M}Defs H := by')
        if orders: out.append(f'  rw [{orders}] at h')
        out.append(f'  obtain ⟨tree, ins, hp, hi, hd⟩ := h')
        out.append(f'  obtain rfl := Option.some.inj ({m}_parse.symm.trans hp)')
        out.append(f'  obtain rfl := Option.some.inj (({m}_imports_in H x {" ".join(later)}).symm.trans hi)')
        allorders = ', '.join(['strOf_eq'] + [f'{m2}_order' for M2, m2 in mods if f'{M2}Order' in mf])
        ex = stmt.replace(' x}', ' @}')
        def at(t): return re.sub(r'\bx\b', f'({M}Defs H)', t)
        w13 = re.sub(r'\by(\w+)', lambda q: DEFS(q.group(1)), at(stmt)).replace(re.sub(r'\by(\w+)', lambda q: DEFS(q.group(1)), at(world('x'))), '(program H).world').replace('((program H).world)', '(program H).world')
        means.append(f'theorem {m}_means (H : Host) : {w13} := by\n  rw [{allorders}]\n  exact ⟨{m}Tree, _, {m}_parse, {m}_imports_in H _ {" ".join("_" for _ in later)}, {m}_definitions H⟩\n')
        if not own:
            out.append(f'  exact {m}_only H ⟨_, _, {m}_parse, {m}_imports H, hd⟩\n')
            continue
        out.append(f'  have hk0 := ({m}_shape ▸ shape_eq hd : _ = _)')
        if cls:
            out.append(f'  obtain ⟨ms, d, rfl, hm0, hk1⟩ := key_cls hk0')
            out.append(f'  obtain rfl := key_nil hk1')
        for q,(k,n,x) in enumerate(items):
            if cls: out.append(f'  obtain ⟨x{q}, d{q}, rfl, hm{q+1}⟩ := mem_{k} hm{q}')
            else: out.append(f'  obtain ⟨x{q}, d{q}, rfl, hk{q+1}⟩ := key_{k} hk{q}')
        out.append(f'  obtain rfl := mem_nil hm{len(items)}' if cls else f'  obtain rfl := key_nil hk{len(items)}')
        for q,unk in facts:
            k=items[q][0]
            e=f'Option.some.inj (({nm(q)} H {" ".join(f"x{p}" for p in unk)}).symm.trans (congrArg ({proj(q)}) hd))'
            if cls: e=f'Mem.{k}.inj ({e})'
            out.append(f'  obtain rfl := {e}' if k!='exc' else f'  obtain rfl : {term(q)} = x{q} := {e}')
        out.append('  rfl\n')
    later = FIELDS[FIELDS.index('secp256k1') + 1:]
    sw = lambda x: 'Modules.world ⟨' + ', '.join(DEFS(f) for f in FIELDS[:9]) + ', ' + x + ', ' + ', '.join('y' + f for f in later) + '⟩'
    pk = '[v!"bip38.secp256k1", v!"bip38"]'
    out.append(f"""/-! ### `bip38/secp256k1/__init__.py` -/

theorem secp256k1_imports_in (H : Host) (x {" ".join("y" + f for f in later)} : Scope) :
    imports {pk} ({sw("x")}) secp256k1Tree = some (secp256k1Hands H) := by by_kernel

theorem secp256k1_in (H : Host) ({" ".join("y" + f for f in later)} : Scope) {{x : Scope}} (h : HandsOn {pk} ({sw("x")}) Secp256k1Text x) : x = secp256k1Hands H := by
  obtain ⟨tree, hp, hi⟩ := h
  obtain rfl := Option.some.inj (secp256k1_parse.symm.trans hp)
  exact (Option.some.inj ((secp256k1_imports_in H x {" ".join("y" + f for f in later)}).symm.trans hi)).symm
""")
    means.append(f"""theorem secp256k1_means (H : Host) : HandsOn {pk} (program H).world Secp256k1Text (secp256k1Hands H) :=
  ⟨secp256k1Tree, secp256k1_parse, secp256k1_imports_in H _ {" ".join("_" for f in later)}⟩
""")
    out.extend(["/-! ### All files -/\n"] + means)
    out.append("""/-- The texts mean the terms of `Verif/Src`. -/
theorem program_means (H : Host) : Program H (program H) :=
  ⟨""" + ', '.join(f'{f}_means H' for f in FIELDS) + """⟩

/-- And nothing else. -/
theorem program_only (H : Host) {m : Modules} (h : Program H m) : m = program H := by
  obtain ⟨""" + ', '.join('x' + f for f in FIELDS) + """⟩ := m
  obtain ⟨""" + ', '.join('h' + f for f in FIELDS) + """⟩ := h
""" + ''.join(f'  have e{f} := {f}_in H {" ".join("x" + g for g in FIELDS[FIELDS.index(f) + 1:])} h{f}\n  subst e{f}\n' for f in FIELDS) + """  rfl
""")
    hd = """import Verif.Py.Program
import Verif.Py.OnlyOf
/-!
# What the texts define is determined, for the program as a whole

Generated by `tools/gen_only.py`.
-/
set_option linter.style.longLine false
set_option linter.unusedVariables false
namespace Bip38.Py
open Bip38.Src

/-- What `bip38/secp256k1/__init__.py` hands on. -/
def secp256k1Hands (H : Host) : Scope :=
  (v!"generator_secp256k1", .ext v!"ecdsa.ecdsa.generator_secp256k1") :: (PointDefs H ++ PublicKeyDefs H ++ PrivateKeyDefs H)

/-- What the files define, as terms of `Verif/Src`. -/
def program (H : Host) : Modules :=
  ⟨""" + ', '.join(DEFS(f) for f in FIELDS) + """⟩

theorem strOf_eq (H : Host) : strOf (ExceptionsDefs H) = Error_str H := by by_kernel
""" + ''.join(f'theorem {m}_order (H : Host) : classMethods {m}Names ({M}Defs H) = {M}Order H := by by_kernel\n' for M, m in mods if m in ('point', 'publicKey', 'privateKey', 'p2pkhAddress', 'bip38')) + '\n'
    open(D+'OnlyProgram.lean','w').write(hd+'\n'.join(out)+'\nend Bip38.Py\n')

root = sys.argv[1] + '/Verif/'
write(root + 'Py/', 'Py')
only = open(root + 'Py/Only.lean').read()
only = only.replace('import Verif.Py.Text\n', 'import Verif.Py.Text\nimport Verif.PyX.Meaning\n').replace('# What a text defines is determined\n', '# What a text defines is determined, with external calls as events\n')
only = only.replace("`Defines` (`Verif/Py/Meaning.lean`)", "As `Verif/Py/Only.lean` (written by `tools/gen_only.py`): `Defines` (`Verif/PyX/Meaning.lean`)").replace('Verif/Py/OnlyOf', 'Verif/PyX/OnlyOf')
only = only.replace('namespace Bip38.Py\nopen Bip38.Src\n', 'namespace Bip38.SrcX.Text\nopen Bip38.Src Bip38.Py\n').replace('end Bip38.Py', 'end Bip38.SrcX.Text')
open(root + 'PyX/Only.lean', 'w').write(only)
write(root + 'PyX/', 'PyX')
write_program(root + 'Py/')
