#!/usr/bin/env python3
"""Writes lean/Verif/Sm2/Asm/Code.lean from /repo/sm2/sm2p256_amd64.s (macros expanded, registers resolved)."""
import re,sys
sys.path.insert(0,'/verif/tools'); import asmparse
CODE,DATA=asmparse.parse()
DN={('p256const2',0):'const2',('p256const3',0):'const3',('p256GmordK0',0):'ordK0'}
for i in range(4): DN[('p256Gmord',8*i)]='ord%d'%i; DN[('p256Gmone',8*i)]='one%d'%i
AL={'acc4':'R10','acc5':'R11','acc6':'R12','acc7':'R13','mul0':'AX'}
REG=re.compile(r'^(AX|BX|CX|DX|SI|DI|BP|R\d+)$'); XR=re.compile(r'^X\d+$')
def ev(e):
    e=e.strip()
    return eval(e) if e else 0
def sym(o):
    m=re.match(r'(\w+)<>(\+(0x\w+))?\(SB\)',o); return (m.group(1),int(m.group(3) or '0',16))
def addr(o):
    m=re.match(r'^(.*)\((\w+)\)$',o); return ev(m.group(1)),m.group(2)
def src(o):
    if REG.match(o): return '(.reg .%s)'%o
    if o.startswith('$'): return '(.imm %d)'%(ev(o[1:])%2**64)
    if '<>' in o: return '(.imm %s)'%DN[sym(o)]
    if '(FP)' in o: return '(.arg %s)'%re.match(r'\w+\+(\d+)\(FP\)',o).group(1)
    off,b=addr(o)
    return '(.stk %d)'%off if b=='SP' else '(.mem .%s %d)'%(b,off)
def xop(o):
    if XR.match(o): return '(.reg .%s)'%o
    if '<>' in o:
        n,b=sym(o); return '(.imm %s %s)'%(DN[(n,b)],DN[(n,b+8)])
    off,b=addr(o)
    return '(.stk %d)'%off if b=='SP' else '(.mem .%s %d)'%(b,off)
def ins(op,a):
    if op=='MOVQ':
        if XR.match(a[1]): return '.movqx %s .%s'%(src(a[0]),a[1])
        return '.movq %s %s'%(src(a[0]),src(a[1]))
    if op=='MULQ': return '.mulq %s'%src(a[0])
    if op in('ADDQ','ADCQ','SUBQ','SBBQ','ANDQ','ORQ','XORQ','TESTQ'): return '.%s %s .%s'%(op.lower(),src(a[0]),a[1])
    if op=='SHLQ': return '.shlq %d .%s'%(ev(a[0][1:]),a[1])
    if op=='SHRQ':
        if ':' in a[1]:
            d,h=[AL[t] for t in a[1].split(':')]; return '.shrd %d .%s .%s'%(ev(a[0][1:]),d,h)
        return '.shrq %d .%s'%(ev(a[0][1:]),a[1])
    if op.startswith('CMOVQ'): return '.cmov%s .%s .%s'%(op[5:].lower(),a[0],a[1])
    if op=='DECQ': return '.decq .%s'%a[0]
    if op=='BSWAPQ': return '.bswapq .%s'%a[0]
    if op=='MOVL':
        if XR.match(a[1]): return '.movlx .%s .%s'%(a[0],a[1])
        if '(SP)' in a[1]: return '.movlst .%s %d'%(a[0],addr(a[1])[0])
        return '.movlld %d .%s'%(addr(a[0])[0],a[1])
    if op=='MOVOU': return '.movou %s %s'%(xop(a[0]),xop(a[1]))
    if op in('PXOR','PAND','PCMPEQL','PADDL','PSUBL'): return '.%s .%s .%s'%(op.lower(),a[0],a[1])
    if op=='PANDN': return '.pandn %s .%s'%(xop(a[0]),a[1])
    if op=='PSHUFD': assert a[0]=='$0'; return '.pshufd0 .%s .%s'%(a[1],a[2])
    raise Exception(op)
out=['''import Verif.Sm2.Asm.Machine
/-!
The routines of `sm2/sm2p256_amd64.s` as instruction lists, with macros expanded and register names resolved; written
by `tools/asm2lean.py` from the source. The comment after each group of instructions gives its source line(s). A `CALL` is the list of
the routine called; a loop is given as the parts before it, its body (ended by `JNE`) and after it.
-/
namespace Verif.Sm2.Asm
''']
for (n,o),l in sorted(DN.items(),key=lambda t:t[1]):
    out.append('/-- sm2p256_amd64.s:27-44 `%s+%d` -/\nabbrev %s : Nat := 0x%x\n'%(n,o,l,DATA[(n,o)]))
ORDER=[k for k in CODE if not k.startswith('sm2p256Test') and k!='sm2p256LittleToBig']
# callees first
ORDER.sort(key=lambda k:k in('sm2p256PointAddAffineAsm','sm2p256PointAddAsm','sm2p256PointDoubleAsm'))
def flagcheck(name,lst):
    """no instruction reads a flag last written by a shift, nor ZF after MULQ (CALLs are checked on their own and read none at entry)"""
    cf=zf='entry'
    for n,op,a in lst:
        if op in('ADCQ','SBBQ','CMOVQCS'): assert cf not in('SHIFT','entry'),(name,n,op)
        if op in('CMOVQEQ','CMOVQNE','JNE'): assert zf not in('SHIFT','MULQ','entry'),(name,n,op)
        if op in('SHLQ','SHRQ'): cf=zf='SHIFT'
        elif op=='MULQ': cf='MULQ';zf='MULQ'
        elif op in('ADDQ','ADCQ','SUBQ','SBBQ','ANDQ','ORQ','XORQ','TESTQ'): cf=zf=op
        elif op=='DECQ': zf=op
        elif op=='CALL': cf=zf='entry'
for k in CODE: flagcheck(k,CODE[k])
def body(name,lst):
    """list of segments"""
    segs=[];cur=[]
    for n,op,a in lst:
        if op=='CALL':
            segs.append(cur);cur=[]; segs.append(re.match(r'·?(\w+)',a[0]).group(1)); continue
        cur.append((n,ins(op,a)))
    segs.append(cur)
    txt=[]
    for s in segs:
        if isinstance(s,str): txt.append(s); continue
        if not s: continue
        rows=[];i=0
        while i<len(s):
            g=s[i:i+5]; last=i+5>=len(s)
            rng='%d-%d'%(g[0][0],g[-1][0]) if g[0][0]!=g[-1][0] else '%d'%g[0][0]
            rows.append('   '+', '.join(x for _,x in g)+('' if last else ',')+' -- %s'%rng)
            i+=5
        rows[0]='  ['+rows[0].lstrip()
        txt.append('\n'.join(rows)+'\n  ]')
    r=''
    for i,t in enumerate(txt):
        tt=t if t.startswith('  ') else '  '+t
        r+=tt+(' ++\n' if i<len(txt)-1 else '\n')
    return r
for k in ORDER:
    c=[t for t in CODE[k] if t[1]!='RET']
    lab=[i for i,t in enumerate(c) if t[1]=='LABEL']
    rng='%d-%d'%(CODE[k][0][0],CODE[k][-1][0])
    if lab:
        i=lab[0]; j=[x for x,t in enumerate(c) if t[1]=='JNE'][0]
        for suf,part in(('Pre',c[:i]),('Body',c[i+1:j]),('Post',c[j+1:])):
            out.append('/-- sm2p256_amd64.s:%s `%s`, %s -/\ndef %s%s : List Instr :=\n%s'%(rng,k,{'Pre':'before the loop','Body':'the loop body','Post':'after the loop'}[suf],k,suf,body(k,part) if part else '  []\n'))
    else:
        out.append('/-- sm2p256_amd64.s:%s `%s` -/\ndef %s : List Instr :=\n%s'%(rng,k,k,body(k,c)))
out.append('end Verif.Sm2.Asm\n')
open('/verif/lean/Verif/Sm2/Asm/Code.lean','w').write('\n'.join(out))
