"""Parser for /repo/sm2/sm2p256_amd64.s: expands #define macros, returns {routine: [(line, mnemonic, [operands])]} with
registers resolved.  Used by asm2lean.py."""
import re
SRC='/repo/sm2/sm2p256_amd64.s'
def strip(l): return re.sub(r'//.*','',l).strip()
def parse(src=SRC):
    raw=open(src,encoding='utf8').read().split('\n')
    lines=[];i=0
    while i<len(raw):
        l=raw[i]; n=i+1
        if l.lstrip().startswith('#define'):
            acc=l
            while strip(acc).endswith('\\'):
                i+=1; acc=strip(acc)[:-1].rstrip()+' '+raw[i]
            l=acc
        lines.append((n,l)); i+=1
    defs={}; out={}; cur=None; data={}
    def splitops(s):
        ops=[];d=0;c=''
        for ch in s:
            if ch=='(':d+=1
            if ch==')':d-=1
            if ch==',' and d==0: ops.append(c.strip());c=''
            else:c+=ch
        if c.strip(): ops.append(c.strip())
        return ops
    def simple(tok):
        # object-like or function-like macro in an operand
        for _ in range(10):
            m=re.match(r'^([A-Za-z_]\w*)(\((.*)\))?$',tok)
            if not m or m.group(1) not in defs: break
            par,body=defs[m.group(1)]
            if par is None:
                if m.group(2): break
                tok=body.strip()
            else:
                tok=re.sub(r'\b%s\b'%par,m.group(3),body).strip()
        # registers inside address parentheses
        m=re.match(r'^(.*)\((\w+)\)$',tok)
        if m and m.group(2) in defs and defs[m.group(2)][0] is None: tok=m.group(1)+'('+defs[m.group(2)][1].strip()+')'
        return tok
    def emit(n,stmt):
        stmt=stmt.strip()
        if not stmt: return
        m=re.match(r'^(\w+):$',stmt)
        if m: out[cur].append((n,'LABEL',[m.group(1)])); return
        m=re.match(r'^(\w+)\s*(.*)$',stmt)
        op,rest=m.group(1),m.group(2).strip()
        if op in defs:
            par,body=defs[op]
            if par is not None:
                a=re.match(r'^\((\w+)\)$',rest).group(1)
                body=re.sub(r'\b%s\b'%par,a,body)
            for st in body.split(';'): emit(n,st)
            return
        out[cur].append((n,op,[simple(o) for o in splitops(rest)]))
    for n,l in lines:
        s=strip(l)
        if not s or s.startswith('/*') or s.startswith('#include') or s.startswith('GLOBL'): continue
        if s.startswith('#undef'): defs.pop(s.split()[1],None); continue
        if s.startswith('#define'):
            m=re.match(r'#define\s+(\w+)(\((\w+)\))?\s*(.*)$',s,re.S)
            name,par,body=m.group(1),m.group(3),m.group(4)
            # function-like only if '(' immediately follows
            if par is None:
                m=re.match(r'#define\s+(\w+)\s*(.*)$',s,re.S); body=m.group(2)
            defs[name]=(par,body.rstrip('\\').strip()); continue
        if s.startswith('DATA'):
            m=re.match(r'DATA (\w+)<>\+(0x\w+)\(SB\)/8, \$(0x\w+)',s); data[(m.group(1),int(m.group(2),16))]=int(m.group(3),16); continue
        if s.startswith('TEXT'):
            cur=re.match(r'TEXT\s+·?(\w+)\(SB\)',s).group(1); out[cur]=[]; continue
        for st in s.split(';'): emit(n,st)
    return out,data
if __name__=='__main__':
    o,d=parse()
    ops={}
    for k,v in o.items():
        print(k,len(v))
        for n,op,a in v:
            kinds=tuple('r' if re.match(r'^(AX|BX|CX|DX|SI|DI|BP|SP|R\d+|X\d+)$',x) else 'i' if x.startswith('$') else 'c' if '<>' in x else 'f' if '(FP)' in x else 's' if '(SP)' in x else 'm' if '(' in x else x for x in a)
            ops.setdefault((op,kinds),0); ops[(op,kinds)]+=1
    for k in sorted(ops): print(k,ops[k])
    print(d)
