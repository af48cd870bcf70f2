import re,sys,glob,os
sys.path.insert(0,'/verif/replay')
from rp import tests
class Skip(Exception): pass
ML=open('/verif/lean/Verif/Model/Messages.lean').read()
FIXED={}
for m in re.finditer(r'def (\w+) : MsgDesc where\n  name := "([\w:]+)"\n  umpSize := (\d+)\n  bytesSize := ([^\n]*)\n  props := \[(.*?)\]\n(?=\n)',ML,re.S):
    props={}
    for pm in re.split(r',\n?\s*(?=\(")',m.group(5).strip()):
        pm=re.sub(r'\s+',' ',pm.strip())
        q=re.match(r'\("(\w+)", ?(.*)\)$',pm)
        props[q.group(1)]=q.group(2)
    mod,ty=m.group(2).split('::')
    FIXED[(mod,ty)]=('fixed','Msg.'+m.group(1),props,m.group(4)!='none')
assert len(FIXED)==ML.count(': MsgDesc where'),(len(FIXED),ML.count(': MsgDesc where'))
TX=open('/verif/lean/Verif/Model/Text.lean').read()
FLEX={m.group(1):m.group(0) for m in re.finditer(r'⟨"(\w+)", 0x\w+, 0x\w+⟩',TX)}
STREAM={'EndpointName':'StreamText.endpointName','ProductInstanceId':'StreamText.productInstanceId','FunctionBlockName':'StreamText.functionBlockName'}
ENUMS=['UmpMessage','BytesMessage','ChannelVoice1','ChannelVoice2','SystemCommon','FlexData','UmpStream','Utility']
INTW={'u8':8,'u16':16,'u32':32,'u64':64}
for i in range(1,33):
    INTW.setdefault('u%d'%i,i)
def fldty(f):
    m=re.match(r'\.(hybrid|schema) \.(\w+)|\.(hybrid|schema) \((\.\w+[^)]*)\)',f)
    if m:
        r=m.group(2) or m.group(4)
        if r=='u7x3': return ('tup',[('num',7)]*3)
        if r=='u7x4': return ('tup',[('num',7)]*4)
        if r in INTW: return ('num',INTW[r])
        if r=='bool': return ('bool',)
        return ('rep',r)
    head=f.split()[0]
    return {'.utilData':('num',16),'.u20Data':('num',20),'.noteAttribute':('opt',('val','Attribute')),'.controller':('val','Controller'),
      '.programBank':('opt',('num',14)),'.flexOptionalChannel':('opt',('num',4)),'.tonic':('val','Tonic'),'.keySharpsFlats':('val','KeySharpsFlats'),
      '.chordSharpsFlats':('val','ChordSharpsFlats'),'.chordType':('val','ChordType'),'.alteration':('opt',('val','Alteration')),
      '.uiHint':('val','UiHint'),'.midi1Port':('opt',('val','Midi1Port')),'.direction':('val','Direction')}[head]
REPTY={'bool':('bool',),'.bool':('bool',)}
def lty(t):
    k=t[0]
    if k=='num': return f'BitVec {t[1]}'
    if k=='bool': return 'Bool'
    if k=='nat': return 'Nat'
    if k=='val': return t[1]
    if k=='opt': return f'Option ({lty(t[1])})'
    if k=='list': return f'List ({lty(t[1])})'
    if k=='tup': return ' × '.join(lty(x) if x[0]!='tup' else lty(x) for x in t[1])
    if k=='str': return 'String'
    if k=='msg': return f'Buf .{t[2]}'
    raise Skip(f'lty {t}')
VALS={ # Rust variant -> Lean
 'Attribute':{'ManufacturerSpecific':('manufacturerSpecific',[16]),'ProfileSpecific':('profileSpecific',[16]),'Pitch7_9':('pitch7_9',[16])},
 'Controller':{'Volume':('volume',[32])},
 'KeySharpsFlats':{'Sharps':('sharps',[3]),'Flats':('flats',[3]),'NonStandard':('nonStandard',[])},
 'ChordSharpsFlats':{x:(x[0].lower()+x[1:],[]) for x in ['DoubleSharp','Sharp','Natural','Flat','DoubleFlat']},
 'Tonic':{**{x:(x,[]) for x in 'ABCDEFG'},'NonStandard':('nonStandard',[])},
 'Alteration':{x:(x.lower(),[4]) for x in ['Add','Subtract','Raise','Lower']},
 'UiHint':{'Undeclared':('undeclared',[]),'Sender':('sender',[]),'Receiver':('receiver',[]),'Reciever':('receiver',[]),'SenderReciever':('senderReceiver',[]),'SenderReceiver':('senderReceiver',[])},
 'Midi1Port':{'DontRestrictBandwidth':('dontRestrictBandwidth',[]),'RestrictBandwidth':('restrictBandwidth',[])},
 'Direction':{'Input':('input',[]),'Output':('output',[]),'Bidirectional':('bidirectional',[])},
 'PacketStatus':{'Complete':('complete',[]),'Start':('start',[]),'Continue':('continue_',[]),'End':('end_',[])},
 'DeviceId':{'FunctionBlock':('functionBlock',[]),'Group':('group',[])},
}
def chord(n):
    return n[0].lower()+n[1:]
CIF={'source':('num',28),'device_manufacturer':('tup',[('num',7)]*3),'device_family':('num',14),'model_number':('num',14),
 'software_version':('tup',[('num',7)]*4),'process_inquiry_supported':('bool',),'property_exchange_supported':('bool',),
 'profile_configuration_supported':('bool',),'protocol_negotiation_supported':('bool',),'max_sysex_size':('num',28),'output_path_id':('num',7)}
def camel(s):
    p=s.split('_'); return p[0]+''.join(x.title() for x in p[1:])
def num(v):
    m=re.match(r'(0[xb][0-9a-fA-F_]+?|[\d_]+?)_?(u8|u16|u32|u64|usize|i32|f32|f64)?$',v)
    return int(m.group(1).replace('_',''),0),m.group(2)
class Tr:
    def __init__(s,path,helpers):
        s.path=path;s.helpers=helpers;s.out=[];s.env={};s.n=0;s.gen={};s.uses=[]
        rel=path[len('/repo/midi2/src/'):-3]
        s.mod=rel.split('/')[0]; s.rel=rel
    def fresh(s,b='x'):
        s.n+=1; return f'{b}{s.n}'
    def emit(s,l): s.out.append(l)
    def bind(s,res,t,b='x'):
        v=s.fresh(b); s.emit(f'let {v} ← {res}'); return v,t
    # --- resolve message type
    def mtype(s,segs,targs):
        name=segs[-1] if isinstance(segs[-1],str) else segs[-1][0]
        names=[x if isinstance(x,str) else x[0] for x in segs]
        if name in ('Sysex7','Sysex8'): return ('sx','s7' if name=='Sysex7' else 's8')
        if name=='DiscoveryQuery':
            return ('ci',num(targs[0][1][1])[0])
        if name in ENUMS: return ('enum',name)
        mods=[x for x in names[:-1]]
        for u in s.uses:
            if u.endswith('::'+name) or re.search(r'[:{, ]\s*'+name+r'\b',u):
                mods+=re.findall(r'\w+',u)
        for m in mods+[s.mod]:
            if (m,name) in FIXED: return FIXED[(m,name)]
        if name in FLEX: return ('flex',f'({FLEX[name]} : FlexText)')
        if name in STREAM: return ('stream',STREAM[name])
        c=[v for (m,n),v in FIXED.items() if n==name]
        if len(c)==1: return c[0]
        if name=='Packet': return ('packet',)
        raise Skip('type '+name)
    def rty(s,t):
        """rust type -> (unit fmt, mem) for buffers"""
        if t[0]=='path' and t[1][-1]=='Vec':
            return (s.unit(t[2][0]),'vec')
        if t[0]=='arr': return (s.unit(t[1]),('arr',s.cval(t[2])))
        if t[0]=='ref' and t[2][0]=='slice': return (s.unit(t[2][1]),'slice')
        if t[0]=='_': return None
        raise Skip(f'rty {t}')
    def unit(s,t):
        if t[0]=='path':
            n=t[1][-1]
            if n in s.gen: return s.gen[n]
            return {'u8':'bytes','u32':'ump'}[n]
        raise Skip(f'unit {t}')
    def cval(s,e):
        if e[0]=='num': return num(e[1])[0]
        if e[0]=='path' and e[1][0][0] in s.gen: return s.gen[e[1][0][0]]
        raise Skip(f'const {e}')
    # --- integers
    def ints(s,e):
        """python value of constant integer expression or None"""
        if e[0]=='num': return num(e[1])[0]
        if e[0]=='paren': return s.ints(e[1])
        if e[0]=='call' and e[1][0]=='path' and e[1][1][-1][0]=='new' and re.match(r'u\d+$',e[1][1][-2][0] if len(e[1][1])>1 else ''):
            return s.ints(e[2][0])
        if e[0]=='path' and len(e[1])==1 and e[1][0][0] in s.env and s.env[e[1][0][0]][1][0]=='pyint':
            return s.env[e[1][0][0]][0]
        if e[0]=='bin' and e[1] in '+-*':
            a,b=s.ints(e[2]),s.ints(e[3])
            if a is None or b is None: return None
            return {'+':a+b,'-':a-b,'*':a*b}[e[1]]
        return None
    def pylist(s,e):
        """source iterator / list as python ints with hint: (items, lower, upper)"""
        k=e[0]
        if k=='paren': return s.pylist(e[1])
        if k=='ref': return s.pylist(e[2])
        if k=='range':
            a,b=s.ints(e[1]),s.ints(e[2])
            if e[3]=='..=': b+=1
            return list(range(a,b)),b-a,b-a
        if k=='array':
            l=[s.ints(x) for x in e[1]]
            if None in l: return None
            return l,len(l),len(l)
        if k=='repeat':
            a,n=s.ints(e[1]),s.ints(e[2])
            if a is None: return None
            return [a]*n,n,n
        if k=='index' and e[2][0]=='range' and e[2][1] is None: return s.pylist(e[1])
        if k=='path' and len(e[1])==1 and e[1][0][0] in s.env:
            v=s.env[e[1][0][0]]
            if v[1][0]=='pylist': return v[0]
            return None
        if k=='method':
            if e[2] in('map',):
                f=e[4][0]
                if f[0]=='path' and f[1][-1][0] in('new','from'): return s.pylist(e[1])
                return None
            if e[2]=='chain':
                a,b=s.pylist(e[1]),s.pylist(e[4][0]); return a[0]+b[0],a[1]+b[1],a[2]+b[2]
            if e[2] in('iter','cloned','copied','into_iter','collect','clone'): return s.pylist(e[1])
            return None
        if k=='call' and e[1][0]=='path':
            segs=[x[0] for x in e[1][1]]
            if segs[-2:]==['RubbishPayloadIterator','new']: return list(range(50)),0,None
            if segs[-2:]==['RubbishPayloadIterator','from']:
                r=s.pylist(e[2][0]); return r and (r[0],0,None)
            if segs[-1]=='repeat_n':
                a,n=s.ints(e[2][0]),s.ints(e[2][1]); return [a]*n,n,n
            if segs[-1]=='empty': return [],0,0
            if segs[-2:]==['Vec','new']: return [],0,0
            if segs[-1]=='default' : return [],0,0
        if k=='qpath' : return [],0,0
        if k=='call' and e[1][0]=='qpath': return [],0,0
        return None
    def has_suffix(s,e,suf):
        r=[False]
        def w(x):
            if isinstance(x,tuple):
                if x and x[0]=='num' and isinstance(x[1],str) and x[1].endswith(suf): r[0]=True
                if x and x[0]=='path' and isinstance(x[1],list) and len(x[1])==1 and isinstance(x[1][0],tuple) and x[1][0][0] in s.env and s.env[x[1][0][0]][1][0]=='pylist':
                    if s.env[x[1][0][0]][1][1]==suf: r[0]=True
                for y in x: w(y)
            elif isinstance(x,list):
                for y in x: w(y)
        w(e); return r[0]
    def guessfmt(s,kind,e,items):
        if kind[0] in('flex','stream','packet'): return 'ump'
        if kind[0]=='ci': return 'bytes'
        if kind[0]=='sx' and kind[1]=='s8': return 'ump'
        if kind[0]=='fixed' and not kind[3]: return 'ump'
        if kind[0]=='enum':
            if kind[1]=='BytesMessage': return 'bytes'
            if kind[1] not in('ChannelVoice1','SystemCommon'): return 'ump'
        if s.has_suffix(e,'u8'): return 'bytes'
        if s.has_suffix(e,'u32'): return 'ump'
        if e[0]=='qpath' or (e[0]=='ref' and 'u32' in str(e)): return 'ump'
        if items and max(items)>0xFF: return 'ump'
        if items: return 'bytes'
        return 'ump'
    def llist(s,items,w):
        if len(items)>=8 and items==list(range(items[0],items[0]+len(items))):
            base=f'List.range {len(items)}' if items[0]==0 else f"List.range' {items[0]} {len(items)}"
            return f'(({base}).map (BitVec.ofNat {w}))'
        if len(items)>4 and len(set(items))==1:
            return f'(List.replicate {len(items)} (0x{items[0]:X} : BitVec {w}))'
        if not items: return f'([] : List (BitVec {w}))'
        return '([' + ', '.join((f'0x{v:X}') for v in items) + f'] : List (BitVec {w}))'
    def fw(s,fmt): return 32 if fmt=='ump' else 8
    def src(s,e,w):
        r=s.pylist(e)
        if r is None: raise Skip(f'src {str(e)[:80]}')
        it,lo,up=r
        return f'⟨{s.llist(it,w)}, {lo}, {"none" if up is None else "some "+str(up)}⟩'
    # --- expressions
    def ev(s,e,exp=None):
        k=e[0]
        if k=='paren': return s.ev(e[1],exp)
        if k=='ref': return s.ev(e[2],exp)
        if k=='deref': return s.ev(e[1],exp)
        if k=='path' and [x[0] for x in e[1]][-2:]==['u28','MAX']: return '(0xFFFFFFF : BitVec 28)',('num',28)
        i=s.ints(e)
        if i is not None:
            if exp is None or exp[0]=='any':
                if k=='call': return f'(0x{i:X} : BitVec {e[1][1][-2][0][1:]})',('num',int(e[1][1][-2][0][1:]))
                if k=='num' and num(e[1])[1] in INTW: return f'(0x{i:X} : BitVec {INTW[num(e[1])[1]]})',('num',INTW[num(e[1])[1]])
                return str(i),('nat',)
            if exp[0]=='num': return f'(0x{i:X} : BitVec {exp[1]})',exp
            if exp[0]=='nat': return str(i),exp
            raise Skip(f'int at {exp}')
        if k=='str': 
            return e[1],('str',)
        if k=='not':
            a,t=s.ev(e[1]); return f'(!{a})',('bool',)
        if k=='bin' and e[1]=='==':
            a,t=s.ev(e[2]); b,_=s.ev(e[3],t); return f'(decide ({a} = {b}))',('bool',)
        if k=='path':
            segs=[x[0] for x in e[1]]
            if len(segs)==1:
                n=segs[0]
                if n in s.env:
                    v,t=s.env[n]
                    if t[0]=='pylist':
                        return s.listat(v[0],exp,e)
                    return v,t
                if n in('true','false'): return n,('bool',)
                if n=='None': return 'none',exp
                if n=='STATUS': return s.status(),('num',8)
            return s.variant(segs,[],exp)
        pl=s.pylist(e)
        if pl is not None and (exp is None or exp[0] in('list','any')):
            return s.listat(pl[0],exp,e)
        if k=='index' and e[2][0]=='range':
            a,t=s.ev(e[1],exp); r=e[2]
            a,t=s.tolist(a,t)
            if r[1] is None and r[2] is None: return a,t
            if t[0]!='list': raise Skip('slice')
            lo=s.ints(r[1]) if r[1] else 0
            if r[2] is None: return f'({a}.drop {lo})',t
            hi=s.ints(r[2])+(1 if r[3]=='..=' else 0)
            return f'(({a}.take {hi}).drop {lo})',t
        if k=='cast':
            if e[2][1]==['u8']:
                i=s.ints(e[1])
                if i is not None: return f'(0x{i:X} : BitVec 8)',('num',8)
        if k=='tuple' and e[1]==[]: return '()',('unit',)
        if k=='index':
            a,t=s.ev(e[1]); i=s.ints(e[2])
            a,t=s.tolist(a,t)
            return s.bind(f"at' {a} {i}",t[1])
        if k=='array' and exp and exp[0]=='tup':
            return '('+', '.join(s.ev(x,t)[0] for x,t in zip(e[1],exp[1]))+')',exp
        if k=='array' and exp and exp[0]=='list':
            return '['+', '.join(s.ev(x,exp[1])[0] for x in e[1])+']',exp
        if k=='block':
            w=s.want
            for q in e[1][:-1]: s.stmt(q)
            s.want=w
            return s.ev(e[1][-1][1],exp)
        if k=='call': return s.call(e,exp)
        if k=='method': return s.method(e,exp)
        raise Skip(f'expr {k} {str(e)[:60]}')
    def listat(s,items,exp,e):
        if exp and exp[0]=='list': return s.llist(items,exp[1][1]),exp
        if exp and exp[0]=='tup': return '('+', '.join(f'(0x{v:X} : BitVec {t[1]})' for v,t in zip(items,exp[1]))+')',exp
        w=8 if s.has_suffix(e,'u8') else 32
        return s.llist(items,w),('list',('num',w))
    def status(s):
        src=open(s.path).read()
        m=re.search(r'const STATUS: u8 = (0x[0-9A-Fa-f]+|0b[01_]+)',src)
        return f'(0x{int(m.group(1),0):X} : BitVec 8)'
    def variant(s,segs,args,exp):
        if exp is None: raise Skip(f'variant {segs}')
        if exp[0]=='opt' and segs[-1]=='Some':
            a,_=s.ev(args[0],exp[1]); return f'(some {a})',exp
        if exp[0]=='val':
            ty=exp[1]
            if ty=='ChordType': return f'ChordType.{chord(segs[-1])}',exp
            if ty=='FlexBank':
                return {'SetupAndPerformance':'0','MetadataText':'1','PerformanceText':'2'}[segs[-1]],exp
            if ty=='PacketStatus' and segs[-1]=='UnexpectedEnd':
                return '(PacketStatus.unexpectedEnd '+('true' if args[0][1][-1][0]=='Valid' else 'false')+')',exp
            ln,ws=VALS[ty][segs[-1]]
            xs=[]
            for a,w in zip(args,ws):
                if a[0]=='call' and a[1][1][-1][0]=='from_bits': a=a[2][0]
                xs.append(s.ev(a,('num',w))[0])
            r=f'{ty}.{ln}'
            return (f'({r} '+' '.join(xs)+')' if xs else r),exp
        raise Skip(f'variant {segs} at {exp}')
    def ctorbuf(s,kind,arg,fmt=None):
        it=s.pylist(arg)
        if it is not None:
            fmt=fmt or s.guessfmt(kind,arg,it[0])
            return s.llist(it[0],s.fw(fmt)),fmt
        v,t=s.ev(arg)
        if t[0]=='list': return v,('bytes' if t[1][1]==8 else 'ump')
        if t[0]=='msg': return v,t[2]
        raise Skip('ctorbuf')
    def ns(s,kind,fmt):
        """lean prefix for message operations"""
        if kind[0]=='fixed': return kind[1]
        if kind[0]=='sx': return 'Sx.'+kind[1] if fmt=='ump' else 'Sxb'
        if kind[0]=='flex' or kind[0]=='stream': return kind[1]
        raise Skip('ns')
    def call(s,e,exp):
        f=e[1]; args=e[2]
        if f[0]!='path': raise Skip('call')
        segs=[x[0] for x in f[1]]; fn=segs[-1]
        if segs==['u8','from']:
            a,t=s.ev(args[0]); return f'({a}.setWidth 8)',('num',8)
        at=('opt',('val','Attribute'))
        if fn=='write_attribute':
            a,_=s.ev(args[0],('list',('num',32))); v,_=s.ev(args[1],at)
            return s.bind(f'Fld.write .ump .noteAttribute {a} ({v} : Option Attribute)',('list',('num',32)))
        if fn=='try_from_ump' and s.rel=='channel_voice2/attribute':
            a,_=s.ev(args[0],('list',('num',32)))
            return f'(do Fld.validate .ump .noteAttribute {a}; (Fld.read .ump .noteAttribute {a} : Res (Option Attribute)))',('res',at)
        if fn=='Pitch7_9' and exp is None:
            return s.variant(segs,args,at[1])
        if fn=='Ok': 
            if exp and exp[0]=='ou': return 'none',exp
            if exp and exp[0]=='res' and exp[1][0]=='unit2': return 'OKUNIT',exp
            a,t=s.ev(args[0],exp[1] if exp and exp[0]=='res' else None)
            return f'(.ok {a})',('res',t)
        if fn=='Err':
            a=str(args[0])
            er='.bufferOverflow' if 'BufferOverflow' in a else '.invalidData'
            if exp and exp[0]=='ou': return f'(some {er})',exp
            return f'(.err {er})',exp
        if fn=='Some':
            if exp and exp[0]=='opt': return s.variant(segs,args,exp)
            a,t=s.ev(args[0]); return f'(some {a})',('opt',t)
        if len(segs)==1 and fn in s.helpers and fn not in('is_compact','compact'): return s.inline(fn,f[1][-1][1],args)
        if fn=='is_compact' and len(segs)==1:
            a,t=s.ev(args[0]); 
            if t[2]=='bytes': return 'true',('bool',)
            return f'(Sx.{t[1][1]}.isCompact {a})',('bool',)
        if fn=='compact' and len(segs)==1:
            v=args[0]
            while v[0]=='ref': v=v[2]
            name=v[1][0][0]; cur,t=s.env[name]
            nv=s.fresh('m'); s.emit(f'let {nv} ← Sx.{t[1][1]}.compact {cur}'); s.env[name]=(nv,t); return '()',('unit',)
        if fn[0].isupper() and len(segs)>=2 and segs[-2] in ENUMS:
            a,t=s.ev(args[0])
            return s.toenum(segs[-2],a,t)
        if fn[0].isupper():
            try: kind=s.mtype(segs,f[1][-1][1])
            except Skip: return s.variant(segs,args,exp)
            fm=exp[2] if exp and exp[0]=='msg' else None
            b,fmt=s.ctorbuf(kind,args[0],fm)
            return b,('msg',kind,fmt,'vec' if 'vec' in str(args[0]) else 'slice')
        # Type::assoc
        if len(segs)>=2 and segs[-2][0].isupper():
            targs=f[1][-2][1]
            kind=s.mtype(segs[:-1],targs)
            bt=None
            if targs: bt=s.rty(targs[-1])
            return s.assoc(kind,bt,fn,args,exp)
        if fn=='validate_ump' : raise Skip('validate')
        raise Skip(f'call {segs}')
    def toenum(s,en,a,t):
        if t[0]=='enum': return s.convenum(en,a,t)
        kind=t[1]
        if en in('UmpMessage','FlexData','UmpStream'):
            k={'fixed':lambda:f'UmpKind.fixed {kind[1]}','sx':lambda:f'UmpKind.sysex .{kind[1]}','flex':lambda:f'UmpKind.flexText {kind[1]}','stream':lambda:f'UmpKind.streamText {kind[1]}'}[kind[0]]()
        elif en=='BytesMessage':
            k=f'BytesKind.fixed {kind[1]}' if kind[0]=='fixed' else 'BytesKind.sysex7'
        else: k=kind[1]
        return f'({k}, {a})',('enum',en,t[2],None)
    def convenum(s,en,a,t): return a,('enum',en,t[2],None)
    def assoc(s,kind,bt,fn,args,exp):
        if kind[0]=='enum': return s.enumassoc(kind,bt,fn,args,exp)
        if kind[0]=='packet': 
            pk=s.packetkind()
            b,fmt=s.ctorbuf(kind,args[0])
            if pk is None: return f'(Packet.tryFrom {b})',('res',('pkt',None))
            return f'(PacketKind.tryFrom .{pk} {b})',('res',('pkt',pk))
        if fn=='try_from':
            b,fmt=s.ctorbuf(kind,args[0])
            t=('msg',kind,fmt,'slice')
            if kind[0]=='fixed': return f'({kind[1]}.tryFrom .{fmt} {b})',('res',t)
            if kind[0]=='ci': return f'(Ci.tryFrom {kind[1]} {b})',('res',t)
            return f'({s.ns(kind,fmt)}.tryFrom {b})' if not(kind[0]=='sx' and fmt=='bytes') else f'(Sxb.tryFrom {b})',('res',t)
        if fn in('try_new_with_buffer','new_with_buffer'):
            vec=False
            a=args[0]
            b,fmt=s.ctorbuf(kind,a, bt[0] if bt else None)
            vec='vec' in str(a) or (a[0]=='ref' and a[1] and a[2][0]=='path')
            lf='tryNewWithBuffer' if fn.startswith('try') else 'newWithBuffer'
            mem='fixed' if fn.startswith('try') else 'vec'
            t=('msg',kind,fmt,mem)
            if kind[0]=='fixed': r=f'({kind[1]}.{lf} .{fmt} {b})'
            elif kind[0]=='ci': r=f'(Ci.{lf} {kind[1]} {b})'
            else: r=f'({s.ns(kind,fmt)}.{lf} {b})'
            if fn.startswith('try'): return r,('res',t)
            x=s.bind(r,t,'m')
            q=args[0]
            while q[0]=='ref': q=q[2]
            if q[0]=='path' and q[1][0][0] in s.env: s.env[q[1][0][0]]=(x[0],('list',('num',s.fw(fmt))))
            return x
        if bt is None: raise Skip(f'no buffer type {fn}')
        fmt,mem=bt
        if fn=='new':
            t=('msg',kind,fmt,'vec' if mem=='vec' else 'fixed')
            if mem=='vec':
                r=f'{kind[1]}.newVec .{fmt}' if kind[0]=='fixed' else (f'Ci.newVec {kind[1]}' if kind[0]=='ci' else f'{s.ns(kind,fmt)}.newVec')
            else:
                n=mem[1]
                r=f'{kind[1]}.newArray .{fmt} {n}' if kind[0]=='fixed' else (f'Ci.tryNew {kind[1]} {n}' if kind[0]=='ci' else f'{s.ns(kind,fmt)}.newArray {n}')
            return s.bind(r,t,'m')
        if fn=='try_new':
            n=mem[1]; t=('msg',kind,fmt,'fixed')
            r=f'({kind[1]}.tryNew .{fmt} {n})' if kind[0]=='fixed' else (f'(Ci.tryNew {kind[1]} {n})' if kind[0]=='ci' else f'({s.ns(kind,fmt)}.tryNew {n})')
            return r,('res',t)
        a,at=s.ev(args[0])
        return s.conv(kind,fn,a,at,fmt,mem)
    def conv(s,kind,fn,a,at,fmt,mem):
        src=at[2]
        t=('msg',kind,fmt,'vec' if mem=='vec' else 'fixed')
        tr=fn.startswith('try')
        if fn in('from_bytes','from_ump','try_from_bytes','try_from_ump'):
            if kind[0]=='fixed':
                if mem=='vec': r=f'({kind[1]}.convertVec .{src} .{fmt} {a})'
                else: r=f'({kind[1]}.{"tryConvertArray" if tr else "convertArray"} .{src} .{fmt} {mem[1]} {a})'
            else:
                if src=='bytes': r=f'(Sxb.fromBytes true {a})' if mem=='vec' else f'(Sxb.tryFromBytes true {mem[1]} {a})'
                else: r=f'(Sxb.fromUmp {a})' if mem=='vec' else f'(Sxb.tryFromUmp {mem[1]} {a})'
        elif 'array_rebuffer' in fn:
            if kind[0]=='fixed': r=f'({kind[1]}.arrayRebuffer .{fmt} {mem[1]} {a})'
            else: r=f'(({s.uk(kind,fmt)}).arrayRebuffer {mem[1]} {a})'
        elif fn.startswith('try_rebuffer'):
            if kind[0]=='fixed': r=f'({kind[1]}.tryRebufferArray .{fmt} {mem[1]} {a})'
            else: r=f'(({s.uk(kind,fmt)}).tryRebufferArray {mem[1]} {a})'
        elif fn.startswith('rebuffer'):
            if kind[0]=='fixed': r=f'({kind[1]}.rebufferFrom .{fmt} {a})'
            else: r=f'(({s.uk(kind,fmt)}).rebufferFrom {a})'
        else: raise Skip(f'conv {fn}')
        if tr: return r,('res',t)
        return s.bind(r,t,'m')
    def uk(s,kind,fmt):
        if fmt=='bytes': return 'BytesKind.sysex7'
        return {'sx':lambda:f'UmpKind.sysex .{kind[1]}','flex':lambda:f'UmpKind.flexText {kind[1]}','stream':lambda:f'UmpKind.streamText {kind[1]}'}[kind[0]]()
    def enumassoc(s,kind,bt,fn,args,exp):
        en=kind[1]
        if fn=='try_from':
            b,fmt=s.ctorbuf(kind,args[0])
            m=f' .{fmt}' if en in('ChannelVoice1','SystemCommon') else ''
            return f'({en}.tryFrom{m} {b})',('res',('enum',en,fmt,None))
        a,at=s.ev(args[0]); fmt,mem=bt
        if fn in('from_bytes','from_ump'): return s.bind(f'HybridEnum.convertVec .{at[2]} .{fmt} {a}',('enum',en,fmt,None))
        if fn in('try_from_bytes','try_from_ump'): return f'(HybridEnum.tryConvertArray .{at[2]} .{fmt} {mem[1]} {a})',('res',('enum',en,fmt,None))
        return s.enumconv(en,fn,a,at,fmt,mem)
    def enumconv(s,en,fn,a,at,fmt,mem):
        t=('enum',en,fmt,None)
        small=en not in('UmpMessage','BytesMessage','FlexData','UmpStream')
        if 'array_rebuffer' in fn: return s.bind(f'FixedEnum.arrayRebuffer .{fmt} {mem[1]} {a}',t)
        x=a
        if small: x=f'({"asUmp" if fmt=="ump" else "asBytes"} {a})'; t=('enum','UmpMessage' if fmt=='ump' else 'BytesMessage',fmt,None)
        N='BytesMessage' if fmt=='bytes' else 'UmpMessage'
        if fn.startswith('try_'): return f'({N}.tryRebufferArray {mem[1]} {x})',('res',t)
        return s.bind(f'{N}.rebufferFrom {x}',t)
    def packetkind(s):
        return {'sysex7':'sysex7','sysex8':'sysex8','flex_data':'flexData','ump_stream':'umpStream','channel_voice1':'channelVoice1','channel_voice2':'channelVoice2','system_common':'systemCommon','utility':'utility','packet':None}[s.mod]
    # --- methods
    def lval(s,e):
        while e[0] in('paren','ref','deref'): e=e[1] if e[0]!='ref' else e[2]
        if e[0]=='path' and len(e[1])==1 and e[1][0][0] in s.env: return e[1][0][0]
        return None
    def method(s,e,exp):
        _,recv,m,ta,args=e
        if m=='collect':
            v,t=s.ev(recv)
            return v,t  # iterators evaluate to lists lazily
        if m in('clone','deref','into'):
            v,t=s.ev(recv)
            if m=='into' and exp and exp[0]=='enum': return s.toenum(exp[1],v,t)
            if t[0]=='pkt' : return v,t
            return v,t
        v,t=s.ev(recv)
        lv=s.lval(recv)
        def upd(nv):
            if lv: s.env[lv]=(nv,s.env[lv][1])
        k=t[0]
        if m in('unwrap','expect'):
            if k=='res': return s.bind(f'{v}.unwrap',t[1])
            if k=='ou': s.emit(f'Res.assert (decide ({v} = none))'); return '()',('unit',)
            if k=='opt':
                n=s.fresh(); s.emit(f'let {n} ← unwrapO {v}'); return n,t[1]
            raise Skip(f'unwrap {k}')
        if k=='res' and m=='map' and exp and exp[0]=='res' and exp[1][0]=='enum':
            x=s.fresh(); r,_=s.toenum(exp[1][1],x,t[1])
            return f'(do let {x} ← {v}; return {r})',exp
        if k=='ou' and m in('is_ok','is_err'): return f'{v}.{"isNone" if m=="is_ok" else "isSome"}',('bool',)
        if k=='res' and m=='is_err': return f'(!{v}.isOk)',('bool',)
        if k=='res' and m=='expect_err': s.emit(f'Res.assert (decide ({v} = .err .bufferOverflow))'); return '()',('unit',)
        if m=='is_ok': return f'{v}.isOk',('bool',)
        if k=='num':
            w=t[1]; N={32:'U32',8:'U8',7:'U7'}.get(w)
            if N is None: raise Skip('bit ops width')
            i=s.ints(args[0])
            if m in('bit','crumb','nibble','septet','octet','word'):
                rt={'bit':('bool',),'crumb':('num',2),'nibble':('num',4),'septet':('num',7),'octet':('num',8),'word':('num',16)}[m]
                if w==8 and m in('octet','crumb'): raise Skip('u8 '+m+' not modelled')
                ix='' if (w==8 and m=='septet') else f' {i}'
                return f'({N}.{m} {v}{ix})',rt
            if m.startswith('set_'):
                b=m[4:]
                at={'bit':('bool',),'crumb':('num',2),'nibble':('num',4),'septet':('num',7),'octet':('num',8),'word':('num',16)}[b]
                if w==8 and b in('octet','crumb'): raise Skip('u8 '+b+' not modelled')
                a,_=s.ev(args[1],at)
                ix='' if (w==8 and b=='septet') else f' {i}'
                nv=f'({N}.set{b.title()} {v}{ix} {a})'; upd(nv); return nv,t
        if k=='pkt':
            pk=t[1]
            if pk is None: v=f'{v}.2'
            sk={'sysex7':'.s7','sysex8':'.s8'}.get(pk)
            if m=='status': return s.bind(f'Packet.sysexStatus {sk} {v}',('val','PacketStatus'))
            if m=='format': return s.bind(f'Packet.{"flexFormat" if pk=="flexData" else "streamFormat"} {v}',('val','PacketStatus'))
            if m in('group','channel'): return s.bind(f'Packet.{m} {v}',('num',4))
            if m=='stream_id': return s.bind(f'Packet.streamId {v}',('num',8))
            if m in('set_group','set_channel'):
                a,_=s.ev(args[0],('num',4)); nv=s.fresh('p'); s.emit(f'let {nv} ← Packet.{camel(m)} {v} {a}'); upd(nv); return '()',('unit',)
            if m=='payload': 
                return '0',('pit',sk,v)
        if k=='pit':
            sk,p=t[1],t[2]; w=7 if sk=='.s7' else 8
            if m=='next' or m=='nth':
                n=s.fresh();i2=s.fresh('i')
                arg=f'{s.ints(args[0])} ' if m=='nth' else ''
                s.emit(f'let ({n}, {i2}) ← Packet.{m} true {sk} {p} {arg}{v}'); upd(i2)
                return n,('opt',('num',w))
            if m in('len','count'): return s.bind(f'Packet.len true {sk} {p} {v}',('nat',))
        if k=='sxit':
            kk,fmt,b=t[1],t[2],t[3]; w=7 if kk[1]=='s7' else 8
            pre=f'Sx.{kk[1]}' if fmt=='ump' else 'Sxb'
            bb=f' {b}' if fmt=='ump' else ''
            if m in('next','nth'):
                n=s.fresh();i2=s.fresh('i'); arg=f' {s.ints(args[0])}' if m=='nth' else ''
                s.emit(f'let ({n}, {i2}) ← {pre}.{m}{bb}{arg} {v}'); upd(i2)
                return n,('opt',('num',w))
            if m in('len',):
                if fmt=='ump': return f'(Sx.len {v})',('nat',)
                return s.bind(f'Sxb.len {v}',('nat',))
            if m=='map': return v,t
            if m=='size_hint': raise Skip('size_hint')
        if k=='chunks':
            if m=='next':
                n=s.fresh();i2=s.fresh('c'); s.emit(f'let ({n}, {i2}) ← Packet.itNext {v}'); upd(i2); return n,('opt',('pkt',None))
            if m=='len': return f'(Packet.itLen {v})',('nat',)
        if k=='enum': return s.enummethod(v,t,m,args,upd,exp)
        if k=='list' and m in('iter','cloned','map','len'):
            if m=='len': return f'{v}.length',('nat',)
            return v,t
        if k!='msg': raise Skip(f'method {m} on {k}')
        return s.msgmethod(v,t,m,args,upd,exp)
    def enummethod(s,v,t,m,args,upd,exp):
        _,en,fmt,_=t
        small=en not in('UmpMessage','BytesMessage','FlexData','UmpStream')
        if m=='data':
            if small: return s.bind(f'{v}.1.data .{fmt} {v}.2',('list',('num',s.fw(fmt))))
            return s.bind(f'{v}.1.data {v}.2',('list',('num',s.fw(fmt))))
        if m=='packets': return s.bind(f'{v}.1.packets {v}.2',('chunks',))
        if m=='group':
            return s.bind(f'{"FlexData" if en=="FlexData" else "FixedEnum"}.group {v}',('num',4))
        if m=='channel':
            mm=f' .{fmt}' if en=='ChannelVoice1' else ''
            return s.bind(f'{en}.channel{mm} {v}',('num',4))
        if m=='bank': return s.bind(f'{v}.1.flexBank {v}.2',('val','FlexBank'))
        if m=='status': return s.bind(f'{v}.1.flexStatus {v}.2',('num',8))
        if 'rebuffer_into' in m:
            tt=exp or s.want
            if tt and tt[0]=='res': tt=tt[1]
            if not tt or tt[0]!='enum': raise Skip('rebuffer target')
            return s.enumconv(en,m,v,t,tt[2],tt[3])
        raise Skip(f'enum {m}')
    def msgmethod(s,v,t,m,args,upd,exp):
        _,kind,fmt,mem=t
        kk=kind[0]
        setter=m.startswith('set_') or m.startswith('try_set_')
        if m=='data':
            if kk=='fixed': r=f'{kind[1]}.data .{fmt} {v}'
            elif kk=='sx': r=f'{s.ns(kind,fmt)}.data {v}'
            elif kk=='flex': r=f'FlexText.data {v}'
            elif kk=='stream': r=f'StreamText.data {v}'
            else: r=f'Ci.data {v}'
            return s.bind(r,('list',('num',s.fw(fmt))))
        if m=='packets':
            r={'fixed':f'{kind[1]}.packets {v}','sx':f'Sx.{kind[1]}.dataPackets {v}','flex':f'FlexText.packets {v}','stream':f'StreamText.packets {v}'}[kk]
            return s.bind(r,('chunks',))
        if 'rebuffer_into' in m or m in('into_ump','into_bytes','try_into_ump','try_into_bytes'):
            m={'into_ump':'from_bytes','into_bytes':'from_ump','try_into_ump':'try_from_bytes','try_into_bytes':'try_from_ump'}.get(m,m)
            tt=exp or s.want
            if tt and tt[0]=='res': tt=tt[1]
            if not tt or tt[0]!='msg': raise Skip('rebuffer target')
            return s.conv(kind,m,v,t,tt[2],tt[4] if len(tt)>4 else tt[3])
        if kk=='fixed':
            ff=dict(kind[2])
            if m in ff:
                if ff[m].split()[0] in('.flexBank','.flexStatus'): pass
                else:
                    ty=s.fty(ff[m]); n=s.fresh(); s.emit(f'let {n} : {lty(ty)} ← Fld.read .{fmt} ({ff[m]}) {v}'); return n,ty
            if m.startswith('set_') and m[4:] in ff:
                f=ff[m[4:]]; ty=s.fty(f); a,_=s.ev(args[0],ty)
                nv=s.fresh('m'); s.emit(f'let {nv} ← Fld.write .{fmt} ({f}) {v} ({a} : {lty(ty)})'); upd(nv); return '()',('unit',)
            if m=='bank': return s.bind(f'(UmpKind.fixed {kind[1]}).flexBank {v}',('val','FlexBank'))
            if m=='status': return s.bind(f'(UmpKind.fixed {kind[1]}).flexStatus {v}',('num',8))
        if kk=='ci':
            if m in CIF:
                ty=CIF[m]; n=s.fresh(); s.emit(f'let {n} : {lty(ty)} ← Ci.get .{camel(m)} {v}'); return n,ty
            if m.startswith('set_') and m[4:] in CIF:
                ty=CIF[m[4:]]; a,_=s.ev(args[0],ty); nv=s.fresh('m')
                s.emit(f'let {nv} ← Ci.set .{camel(m[4:])} {v} ({a} : {lty(ty)})'); upd(nv); return '()',('unit',)
            if m=='destination': return s.bind(f'Ci.destination {v}',('num',28))
            if m=='device_id': return s.bind(f'Ci.deviceId {v}',('val','DeviceId'))
        if kk in('flex','stream'):
            T='FlexText' if kk=='flex' else 'StreamText'
            if m in('set_text','set_name','set_id'):
                nv=s.fresh('m'); p='FlexText.setText' if kk=='flex' else f'{kind[1]}.setText'
                s.emit(f'let {nv} ← {p} {v} {s.ev(args[0])[0]}'); upd(nv); return '()',('unit',)
            if m in('try_set_text','try_set_name','try_set_id'):
                p='FlexText.trySetText' if kk=='flex' else f'{kind[1]}.trySetText'
                r=f'({p} {v} {s.ev(args[0])[0]})'
                nv=s.fresh('m'); s.emit(f'let {nv} := orElse {r} {v}'); upd(nv)
                return r,('res',('unit2',))
            if m in('text','name','id'):
                p='FlexText.text' if kk=='flex' else f'{kind[1]}.text'
                return s.bind(f'{p} {v}',('str',))
            if m in('text_bytes','name_bytes','id_bytes'):
                p='FlexText.textBytes' if kk=='flex' else f'{kind[1]}.textBytes'
                return s.bind(f'{p} {v}',('list',('num',8)))
            if m=='group': return s.bind(f'{T}.group {v}',('num',4))
            if m=='set_group':
                a,_=s.ev(args[0],('num',4)); upd(f'({T}.setGroup {v} {a})'); return '()',('unit',)
            if m=='function_block': return s.bind(f'StreamText.block {v}',('num',8))
            if m=='set_function_block':
                a,_=s.ev(args[0],('num',8)); upd(f'(StreamText.setBlock {v} {a})'); return '()',('unit',)
            if m=='optional_channel': return s.bind(f'FlexText.channel {v}',('opt',('num',4)))
            if m=='bank': return s.bind(f'(UmpKind.flexText {kind[1]}).flexBank {v}',('val','FlexBank'))
            if m=='status': return s.bind(f'(UmpKind.flexText {kind[1]}).flexStatus {v}',('num',8))
        if kk=='sx':
            w=7 if kind[1]=='s7' else 8
            K=f'Sx.{kind[1]}'
            ops=f'({K}.ops true .{mem})' if fmt=='ump' else f'(Sxb.ops .{mem})'
            P=K if fmt=='ump' else 'Sxb'
            if m=='payload':
                return s.bind(f'{P}.payload {v}',('sxit',kind,fmt,v),'it')
            if m=='payload_size': return s.bind(f'{P}.payloadSize {v}',('nat',))
            if m=='group': return s.bind(f'Sx.group {v}',('num',4)) if fmt=='ump' else ('(0 : BitVec 4)',('num',4))
            if m=='stream_id': return s.bind(f'Sx.streamId {v}',('num',8))
            if m=='set_group':
                a,_=s.ev(args[0],('num',4)); upd(f'({K}.setGroup {v} {a})' if fmt=='ump' else v); return '()',('unit',)
            if m=='set_stream_id':
                a,_=s.ev(args[0],('num',8)); upd(f'(Sx.setStreamId {v} {a})'); return '()',('unit',)
            simple={'set_payload':'setPayload','insert_payload':'insert','append_payload':'append','append_byte':'appendByte'}
            tryops={'try_set_payload':'trySetPayload','try_insert_payload':'tryInsert','try_append_payload':'tryAppend','try_append_byte':'tryAppendByte'}
            def aa(mm):
                if 'byte' in mm: return s.ev(args[0],('num',w))[0]
                r=s.src(args[0],w)
                if 'insert' in mm: r+=f' {s.ints(args[1])}'
                return r
            if m in simple:
                nv=s.fresh('m'); s.emit(f'let {nv} ← {ops}.{simple[m]} {v} {aa(m)}'); upd(nv); return '()',('unit',)
            if m in tryops:
                nv=s.fresh('m'); er=s.fresh('e'); s.emit(f'let ({nv}, {er}) ← {ops}.{tryops[m]} {v} {aa(m)}'); upd(nv); return er,('ou',)
            if m=='splice_payload':
                r=args[1]; lo=f'(.included {s.ints(r[1])})' if r[1] else '.unbounded'
                hi=f'(.{"included" if r[3]=="..=" else "excluded"} {s.ints(r[2])})' if r[2] else '.unbounded'
                nv=s.fresh('m'); s.emit(f'let {nv} ← {ops}.splice {v} {s.src(args[0],w)} {lo} {hi}'); upd(nv); return '()',('unit',)
            if m=='set_byte':
                a,_=s.ev(args[0],('num',w)); nv=s.fresh('m'); s.emit(f'let {nv} ← {P}.setByte {v} {a} {s.ints(args[1])}'); upd(nv); return '()',('unit',)
            if m=='move_payload_tail':
                nv=s.fresh('m'); s.emit(f'let {nv} ← {ops}.moveTail {v} {s.ints(args[0])} {s.ints(args[1])}'); upd(nv); return '()',('unit',)
            if m=='compact':
                nv=s.fresh('m'); s.emit(f'let {nv} ← {ops}.compact {v}'); upd(nv); return '()',('unit',)
        raise Skip(f'msg {kk}.{m}')
    def fty(s,f):
        t=fldty(f)
        if t[0]=='rep':
            r=t[1]
            if r in('bool','.bool'): return ('bool',)
            m=re.match(r'\.?(u7x3|u7x4|u7s3|u7s4|arr7 ?(\d))',r)
            return ('rept',r)
        return t
    # evaluate iterators to lists when compared
    def tolist(s,v,t):
        if t[0]=='sxit':
            kk,fmt,b=t[1],t[2],t[3]; w=7 if kk[1]=='s7' else 8
            if fmt=='ump': return s.bind(f'Sx.{kk[1]}.collect {b} ({v}.cache + 1) {v}',('list',('num',w)))
            return s.bind(f'Sxb.collect ({v}.data.length + 1) {v}',('list',('num',w)))
        if t[0]=='pit':
            w=7 if t[1]=='.s7' else 8
            return s.bind(f'Packet.collect true {t[1]} {t[2]} 20 {v}',('list',('num',w)))
        if t[0]=='pkt': return (v if t[1] else f'{v}.2'),('list',('num',32))
        return v,t
    want=None
    def assert_eq(s,a,b):
        # choose side which determines type
        if s.pylist(a) is not None and s.pylist(b) is None: a,b=b,a
        l,t=s.ev(a)
        l,t=s.tolist(l,t) if not(t[0]=='pkt' and False) else (l,t)
        bb=b
        while bb[0] in('ref','deref','paren'): bb=bb[2] if bb[0]=='ref' else bb[1]
        if t[0]=='opt' and t[1][0]=='pkt':
            if bb[0]=='path' and bb[1][0][0]=='None': s.emit(f'Res.assert {l}.isNone'); return
            raise Skip('opt pkt')
        if t[0]=='nat' and bb[0]!='path':
            r,_=s.ev(bb,t)
        elif t[0]=='msg':
            r,rt=s.ev(bb,t)
        else: 
            r,rt=s.ev(bb,t)
            if t[0]=='list' and rt and rt[0] not in('list',): r,rt=s.tolist(r,rt)
        if r=='OKUNIT': s.emit(f'Res.assert {l}.isOk'); return
        s.emit(f'Res.assert (decide ({l} = {r}))')
    def wtype(s,t):
        """expected type from a let annotation"""
        if t is None: return None
        if t[0]=='path' and t[1][-1]=='Result': return ('res',s.wtype(t[2][0]))
        if t[0]=='path' and t[2]:
            try:
                kind=s.mtype(t[1],t[2]); fmt,mem=s.rty(t[2][-1])
                if kind[0]=='enum': return ('enum',kind[1],fmt,mem)
                return ('msg',kind,fmt,'vec' if mem=='vec' else 'fixed',mem)
            except Skip: return None
        return None
    def stmt(s,st):
        k=st[0]
        if k=='use': s.uses.append(st[1]); return
        if k=='let':
            _,p,t,e=st
            if e is None: raise Skip('let')
            if p[0]=='_': nm=None
            elif p[0]=='bind': nm=p[1][0]
            else: raise Skip('pat')
            pl=s.pylist(e)
            if pl is not None and not (t and t[0]=='path' and t[1][-1] in('x',)):
                suf='u8' if s.has_suffix(e,'u8') or ('u8' in str(t)) or "'u8'" in str(e) else ('u32' if s.has_suffix(e,'u32') or 'u32' in str(t) else None)
                s.env[nm]=(pl,('pylist',suf)); return
            s.want=s.wtype(t)
            w=s.want
            if w and w[0]=='enum' and e[0]=='method' and e[2]=='into':
                v,tt=s.ev(e,w)
            else: v,tt=s.ev(e)
            s.want=None
            if nm: s.env[nm]=(v,tt)
            return
        if k=='letelse':
            _,p,e=st
            v,t=s.ev(e)
            # pattern Ok(Enum::..(Enum::V(_)))
            if p[1]!=['Ok'] or t[0]!='res': raise Skip('letelse')
            q=p[2][0]; en=t[1][1]
            x=s.fresh(); s.emit(f'let {x} ← {v}.unwrap')
            while q[2][0][0]=='tstruct': q=q[2][0]
            name=q[1][-1]; mod=q[1][0]
            if name=='Sysex8': k2='UmpKind.sysex .s8'
            elif name=='Sysex7': k2='UmpKind.sysex .s7' if en=='UmpMessage' else 'BytesKind.sysex7'
            else:
                kind=s.mtype([{'ChannelVoice1':'channel_voice1','ChannelVoice2':'channel_voice2','SystemCommon':'system_common'}.get(mod,mod),name],None)
                if en=='BytesMessage': k2=f'BytesKind.fixed {kind[1]}'
                else: k2={'fixed':f'UmpKind.fixed {kind[1]}','flex':f'UmpKind.flexText {kind[1]}','stream':f'UmpKind.streamText {kind[1]}'}[kind[0]]
            s.emit(f'Res.assert (decide ({x}.1 = {k2}))'); return
        if k in('expr','stmt'):
            e=st[1]
            if e[0]=='macro':
                if e[1]=='assert_eq': return s.assert_eq(e[2][0],e[2][1])
                if e[1]=='assert':
                    v,_=s.ev(e[2][0]); s.emit(f'Res.assert ({v})'); return
                raise Skip('macro '+e[1])
            if e[0]=='for':
                l=s.pylist(e[2])
                for x in l[0]:
                    s.env[e[1][1][0]]=(x,('pyint',))
                    for q in e[3]: s.stmt(q)
                return
            s.ev(e); return
        raise Skip(k)
    def inline(s,fn,targs,args):
        f=s.helpers[fn]; _,name,gen,ps,ret,body=f
        g=dict(s.gen)
        if targs:
            for (c,n,b),t in zip(gen,targs):
                if c: g[n]=s.cval(t[1])
                else: g[n]=s.unit(t)
        if ps: raise Skip('helper args '+fn)
        old=s.gen,s.env; s.gen=g;s.env={}
        for q in body: s.stmt(q)
        s.gen,s.env=old
        return '()',('unit',)
    def run(s,f):
        for q in f[5]: s.stmt(q)
        return s.out
if __name__=='__main__':
    from collections import Counter
    C=Counter();ok=0;res={}
    dead={'ump_stream/ump_stream_group','ci/old_mod','ci/property','ci/version'}
    for p in sorted(glob.glob('/repo/midi2/src/**/*.rs',recursive=True)):
        r=tests(p)
        if not r: continue
        out,h,errs=r
        rel=p[len('/repo/midi2/src/'):-3]
        for name,line,panics,f in out:
            if rel in dead: C['dead file']+=1; continue
            try:
                T=Tr(p,h); lines=T.run(f); ok+=1
                res.setdefault(rel,[]).append((name,line,lines))
            except Skip as e:
                C[str(e)[:60]]+=1; print('SKIP',rel,name,line,str(e)[:120])
            except Exception as e:
                import traceback
                C['EXC '+repr(e)[:60]]+=1; print('EXC',rel,name,line,repr(e)[:200], traceback.format_exc().splitlines()[-3])
    print(ok,C)
    import pickle; pickle.dump(res,open('/tmp/replay_tests.pkl','wb'))
