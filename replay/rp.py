"""Tiny Rust parser for test bodies."""
import re, os, glob
TOK=re.compile(r'''\s+|//[^\n]*|/\*.*?\*/|(?P<str>"(?:\\.|[^"\\])*")|(?P<life>'[a-z_]+(?!'))|(?P<char>'(?:\\.|[^'\\])')|(?P<num>0[xb][0-9a-fA-F_]+(?:u8|u16|u32|u64|usize)?|\d[\d_]*(?:\.\d[\d_]*)?(?:e-?\d+)?(?:u8|u16|u32|u64|usize|i32|f32|f64)?)|(?P<id>r\#[a-z_]+|[A-Za-z_]\w*)|(?P<op>\.\.=|\.\.|::|->|=>|==|!=|<=|>=|&&|\|\||<<|>>|[-+*/%&|^!<>=.,;:?\#(){}\[\]@$])''',re.S|re.X)
class T:
    def __init__(s,k,v,pos): s.k=k;s.v=v;s.pos=pos
    def __repr__(s): return f'{s.v}'
def lex(src):
    i=0;out=[]
    while i<len(src):
        m=TOK.match(src,i)
        if not m: raise SyntaxError(f'lex {src[i:i+30]!r}')
        if m.lastgroup: out.append(T(m.lastgroup,m.group(),i))
        i=m.end()
    out.append(T('eof','',i)); return out
class P:
    def __init__(s,toks): s.t=toks;s.i=0
    @property
    def cur(s): return s.t[s.i]
    def peek(s,v,k=0): return s.t[s.i+k].v==v and s.t[s.i+k].k!='str'
    def eat(s,v):
        if s.peek(v): s.i+=1; return True
        return False
    def need(s,v):
        if not s.eat(v): raise SyntaxError(f'expected {v} got {s.t[s.i:s.i+6]}')
    def ident(s):
        if s.cur.k!='id': raise SyntaxError(f'ident {s.t[s.i:s.i+6]}')
        v=s.cur.v; s.i+=1; return v
    # types
    def ty(s):
        if s.eat('&'):
            if s.cur.k=='life': s.i+=1
            mut=s.eat('mut')
            return ('ref',mut,s.ty())
        if s.eat('['):
            e=s.ty()
            if s.eat(';'):
                n=s.expr(); s.need(']'); return ('arr',e,n)
            s.need(']'); return ('slice',e)
        if s.eat('('):
            l=[]
            while not s.eat(')'):
                l.append(s.ty()); s.eat(',')
            return ('tup',l)
        if s.eat('_'): return ('_',)
        if s.cur.k=='num': # const arg
            e=s.prim(); return ('const',e)
        if s.eat('impl') or s.eat('dyn'):
            t=s.ty()
            while s.eat('+'):
                if s.cur.k=='life': s.i+=1
                else: s.ty()
            return ('impl',t)
        if s.cur.k=='life': s.i+=1; return ('life',)
        segs=[s.ident()];args=None
        while True:
            if s.peek('::') and s.peek('<',1):
                s.i+=1
            if s.peek('<'):
                args=s.targs(); 
            if s.peek('(') and segs[-1] in('Fn','FnMut','FnOnce'):
                s.ty()
                if s.eat('->'): s.ty()
            if s.eat('::'): segs.append(s.ident()); continue
            break
        return ('path',segs,args)
    def targs(s):
        s.need('<'); l=[]
        while not s.peek('>') and not s.peek('>>'):
            t=s.ty()
            if s.eat('='): t=('assoc',t,s.ty())
            while s.eat('+'): s.ty()
            l.append(t); s.eat(',')
        s.closeangle(); return l
    def closeangle(s):
        if s.eat('>'): return
        if s.peek('>>'):
            s.t[s.i]=T('op','>',s.cur.pos); return
        raise SyntaxError('>')
    # expressions
    PREC=[['||'],['&&'],['==','!=','<','>','<=','>='],['|'],['^'],['&'],['<<','>>'],['+','-'],['*','/','%']]
    def expr(s,nostruct=False):
        # ranges / closures
        if s.peek('|') or s.peek('||') or s.peek('move'):
            return s.closure()
        if s.peek('..') or s.peek('..='):
            op=s.cur.v; s.i+=1
            if s.cur.v in (')',']',',',';'): return ('range',None,None,op)
            return ('range',None,s.bin(0,nostruct),op)
        l=s.bin(0,nostruct)
        if s.peek('..') or s.peek('..='):
            op=s.cur.v; s.i+=1
            if s.cur.v in (')',']',',',';','{') : return ('range',l,None,op)
            return ('range',l,s.bin(0,nostruct),op)
        if s.peek('=') :
            s.i+=1; return ('assign',l,s.expr())
        if s.cur.v in('+','-','*') and s.peek('=',1):
            op=s.cur.v; s.i+=2; return ('opassign',op,l,s.expr())
        return l
    def closure(s):
        s.eat('move'); ps=[]
        if not s.eat('||'):
            s.need('|')
            while not s.eat('|'):
                ps.append(s.pat())
                if s.eat(':'): s.ty()
                s.eat(',')
        return ('closure',ps,s.expr())
    def bin(s,lvl,ns):
        if lvl==len(s.PREC): return s.cast(ns)
        l=s.bin(lvl+1,ns)
        while s.cur.k=='op' and s.cur.v in s.PREC[lvl] and not (s.cur.v in '+-*' and s.peek('=',1)):
            op=s.cur.v; s.i+=1
            l=('bin',op,l,s.bin(lvl+1,ns))
        return l
    def cast(s,ns):
        e=s.unary(ns)
        while s.eat('as'): e=('cast',e,s.ty())
        return e
    def unary(s,ns):
        if s.eat('&'):
            mut=s.eat('mut'); return ('ref',mut,s.unary(ns))
        if s.eat('&&'):
            return ('ref',False,('ref',False,s.unary(ns)))
        if s.eat('*'): return ('deref',s.unary(ns))
        if s.eat('!'): return ('not',s.unary(ns))
        if s.eat('-'): return ('neg',s.unary(ns))
        return s.postfix(s.prim(ns))
    def args(s,close=')'):
        l=[]
        while not s.eat(close):
            l.append(s.expr())
            if not s.eat(','):
                s.need(close); break
        return l
    def postfix(s,e):
        while True:
            if s.eat('?'): e=('try',e)
            elif s.peek('.') :
                s.i+=1
                if s.cur.k=='num': e=('field',e,s.cur.v); s.i+=1; continue
                n=s.ident(); ta=None
                if s.peek('::'): s.i+=1; ta=s.targs()
                if s.eat('('): e=('method',e,n,ta,s.args())
                else: e=('field',e,n)
            elif s.eat('('): e=('call',e,s.args())
            elif s.eat('['):
                i=s.expr(); s.need(']'); e=('index',e,i)
            else: return e
    def prim(s,ns=False):
        c=s.cur
        if c.k=='num': s.i+=1; return ('num',c.v)
        if c.k=='str': s.i+=1; return ('str',c.v)
        if c.k=='char': s.i+=1; return ('char',c.v)
        if s.eat('('):
            l=[];comma=False
            while not s.eat(')'):
                l.append(s.expr())
                if s.eat(','): comma=True
                else: s.need(')'); break
            if len(l)==1 and not comma: return ('paren',l[0])
            return ('tuple',l)
        if s.eat('['):
            if s.eat(']'): return ('array',[])
            e=s.expr()
            if s.eat(';'):
                n=s.expr(); s.need(']'); return ('repeat',e,n)
            l=[e]
            if s.eat(','): l+=s.args(']')
            else: s.need(']')
            return ('array',l)
        if s.peek('{'): return ('block',s.block())
        if s.eat('if'):
            if s.eat('let'):
                p=s.pat(); s.need('='); c=('iflet',p,s.expr(True))
            else: c=s.expr(True)
            a=s.block(); b=None
            if s.eat('else'): b=s.block() if s.peek('{') else [('expr',s.prim())]
            return ('if',c,a,b)
        if s.eat('match'):
            e=s.expr(True); s.need('{'); arms=[]
            while not s.eat('}'):
                p=s.pat(); s.need('=>'); arms.append((p,s.expr())); s.eat(',')
            return ('match',e,arms)
        if s.eat('loop'): return ('loop',s.block())
        if s.eat('while'):
            if s.eat('let'):
                p=s.pat(); s.need('='); c=('iflet',p,s.expr(True))
            else: c=s.expr(True)
            return ('while',c,s.block())
        if s.eat('for'):
            p=s.pat(); s.need('in'); e=s.expr(True); return ('for',p,e,s.block())
        if s.eat('return'):
            return ('return',None if s.peek(';') else s.expr())
        if s.eat('break'): return ('break',)
        if s.eat('unsafe'): return ('block',s.block())
        if s.peek('<'):
            s.i+=1; t=s.ty(); tr=None
            if s.eat('as'): tr=s.ty()
            s.closeangle(); segs=[]
            while s.eat('::'): segs.append((s.ident(),None))
            return ('qpath',t,tr,segs)
        # path
        segs=[]
        n=s.ident(); 
        if s.peek('!') and (s.peek('(',1) or s.peek('[',1) or s.peek('{',1)):
            s.i+=1; close={'(':')','[':']','{':'}'}[s.cur.v]; s.i+=1
            if n=='vec' or n.startswith('assert') or n in('panic','println','std','format','matches'):
                if close==']' :
                    if s.eat(']'): return ('macro',n,[])
                    e=s.expr()
                    if s.eat(';'):
                        k=s.expr(); s.need(']'); return ('repeat',e,k)
                    l=[e]
                    if s.eat(','): l+=s.args(']')
                    else: s.need(']')
                    return ('macro',n,l)
                return ('macro',n,s.args(close))
            return ('macro',n,s.args(close))
        ta=None
        while True:
            if s.peek('::') and s.peek('<',1):
                s.i+=1; ta=s.targs()
            segs.append((n,ta)); ta=None
            if s.eat('::'):
                n=s.ident(); continue
            break
        if s.peek('!') and s.peek('(',1):
            s.i+=2; return ('macro',segs[-1][0],s.args())
        if s.peek('!') and s.peek('[',1):
            s.i+=2
            if s.eat(']'): return ('array',[])
            e=s.expr()
            if s.eat(';'):
                k=s.expr(); s.need(']'); return ('repeat',e,k)
            l=[e]
            if s.eat(','): l+=s.args(']')
            else: s.need(']')
            return ('array',l)
        if s.peek('{') and not ns and segs[-1][0][0].isupper():
            s.i+=1; fs=[]
            while not s.eat('}'):
                f=s.ident(); s.need(':'); fs.append((f,s.expr())); s.eat(',')
            return ('struct',segs,fs)
        return ('path',segs)
    def pat(s):
        if s.eat('&'): s.eat('mut'); return s.pat()
        if s.eat('mut'): return s.pat()
        if s.eat('ref'): return s.pat()
        if s.eat('_'): return ('_',)
        if s.eat('('):
            l=[]
            while not s.eat(')'): l.append(s.pat()); s.eat(',')
            return ('tup',l)
        if s.cur.k=='num': 
            e=s.prim(); return ('lit',e)
        segs=[s.ident()]
        while s.eat('::'): segs.append(s.ident())
        if s.eat('('):
            l=[]
            while not s.eat(')'): l.append(s.pat()); s.eat(',')
            return ('tstruct',segs,l)
        return ('bind',segs)
    def block(s):
        s.need('{'); st=[]
        while not s.eat('}'):
            if s.eat(';'): continue
            if s.peek('#'):
                s.i+=1; s.need('['); d=1
                while d:
                    if s.peek('['): d+=1
                    if s.peek(']'): d-=1
                    s.i+=1
                continue
            if s.peek('use'):
                u=[]
                while not s.eat(';'): u.append(s.cur.v); s.i+=1
                st.append(('use',''.join(u))); continue
            if s.peek('const') or s.peek('static'):
                s.i+=1
                n=s.ident(); s.need(':'); t=s.ty(); s.need('='); e=s.expr(); s.need(';')
                st.append(('let',('bind',[n]),t,e)); continue
            if s.peek('fn'):
                st.append(s.fn()); continue
            if s.eat('let'):
                p=s.pat(); t=None;e=None
                if s.eat(':'): t=s.ty()
                if s.eat('='): e=s.expr()
                if s.eat('else'):
                    s.block(); s.need(';'); st.append(('letelse',p,e)); continue
                s.need(';'); st.append(('let',p,t,e)); continue
            e=s.expr()
            semi=s.eat(';')
            st.append(('expr',e) if not semi else ('stmt',e))
        return st
    def fn(s):
        s.eat('pub'); s.need('fn'); name=s.ident(); gen=[]
        if s.peek('<'):
            s.i+=1
            while not s.eat('>'):
                if s.cur.k=='life': s.i+=1; s.eat(','); continue
                c=s.eat('const'); n=s.ident(); b=[]
                if s.eat(':'):
                    while True:
                        if s.cur.k=='life': s.i+=1
                        else: b.append(s.ty())
                        if not s.eat('+'): break
                gen.append((c,n,b)); s.eat(',')
        s.need('('); ps=[]
        while not s.eat(')'):
            p=s.pat(); s.need(':'); ps.append((p,s.ty())); s.eat(',')
        ret=None
        if s.eat('->'): ret=s.ty()
        wh=[]
        if s.eat('where'):
            while not s.peek('{'):
                s.i+=1
        return ('fn',name,gen,ps,ret,s.block())
def tests(path):
    """yield (name, line, helper fns, body) of #[test] fns in file"""
    src=open(path).read()
    m=re.search(r'^(\s*)mod tests?\w* \{',src,re.M)
    if not m:
        if '#[test]' not in src: return []
        start=0
    else: start=m.start()
    out=[];helpers={};errs=[]
    for fm in re.finditer(r'(?P<attr>(?:[ \t]*#\[[^\n]*\]\n)*)[ \t]*(?:pub )?fn (?P<n>\w+)',src[start:]):
        pos=start+fm.start('n')
        istest='#[test]' in fm.group('attr')
        panics='should_panic' in fm.group('attr')
        fs=src.rfind('fn ',0,pos)
        line=src.count('\n',0,pos)+1
        # end of fn: match braces
        i=src.index('{',pos);
        # skip generics with braces? none
        d=0;j=i
        while True:
            if src[j]=='{': d+=1
            if src[j]=='}':
                d-=1
                if d==0: break
            j+=1
        txt=src[fs:j+1]
        try:
            f=P(lex(txt)).fn()
        except SyntaxError as e:
            errs.append((fm.group('n'),line,str(e),istest)); continue
        if istest: out.append((fm.group('n'),line,panics,f))
        else: helpers[fm.group('n')]=f
    return out,helpers,errs
if __name__=='__main__':
    from collections import Counter
    tot=0;ne=0;C=Counter()
    def walk(x):
        if isinstance(x,tuple):
            if x and x[0]=='method': C['.'+x[2]]+=1
            if x and x[0]=='call' and x[1][0]=='path': C['::'+x[1][1][-1][0]]+=1
            if x and x[0] in('match','loop','while','for','if','return','try','closure','macro'): C[x[0]+(x[1] if x[0]=='macro' else '')]+=1
            for y in x: walk(y)
        elif isinstance(x,list):
            for y in x: walk(y)
    for p in sorted(glob.glob('/repo/midi2/src/**/*.rs',recursive=True)):
        r=tests(p)
        if not r: continue
        out,h,errs=r
        tot+=len(out)
        for e in errs:
            if e[3]: ne+=1; print(p,e)
        for o in out: walk(o[3])
    print(tot,ne)
    print(C.most_common())
