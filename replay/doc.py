import re,os,sys
sys.path.insert(0,'/verif/replay')
from rp import tests
from tr import Tr,Skip
import pickle
def blocks(p):
    src=open(p).read().splitlines(); out=[];cur=None
    md=p.endswith('.md')
    for i,l in enumerate(src,1):
        if not md:
            m=re.match(r'\s*//[/!] ?(.*)$',l)
            if not m: cur=None; continue
            t=m.group(1)
        else: t=l
        if t.strip().startswith('```'):
            if cur is None:
                cur=(i,t.strip()[3:],[])
            else: out.append(cur); cur=None
        elif cur is not None: cur[2].append(t)
    return out
res={}
d='/tmp/replay_doc'; os.makedirs(d,exist_ok=True)
for p in ['/repo/midi2/src/packets.rs','/repo/midi2/src/traits.rs','/repo/midi2/src/buffer.rs','/repo/midi2/README.md','/repo/midi2/src/lib.rs']:
    for line,kind,code in blocks(p):
        if kind not in('rust',''): print('skip kind',p,line,kind); continue
        f=f'{d}/x.rs'
        code=[c for c in code if not c.strip().startswith('#!')]
        code=[re.sub(r'^# ','',c) for c in code]
        open(f,'w').write('mod tests {\n#[test]\nfn doc_%d() {\n%s\n}\n}\n'%(line,'\n'.join(code)))
        rel=p.split('/repo/midi2/')[1]
        try:
            out,h,errs=tests(f)
            if errs: print('PARSE',rel,line,errs); continue
            T=Tr('/repo/midi2/src/message.rs',h); lines=T.run(out[0][3])
            res.setdefault(rel,[]).append(('example',line,lines)); print('OK',rel,line)
        except Skip as e: print('SKIP',rel,line,str(e)[:150])
        except Exception as e:
            import traceback; print('EXC',rel,line,repr(e)[:100],traceback.format_exc().splitlines()[-3])
pickle.dump(res,open('/tmp/replay_docs.pkl','wb'))
