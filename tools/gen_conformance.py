#!/usr/bin/env python3
"""Translates /repo/test/*_test.cpp statement by statement into lean/Verif/Conformance/*.lean."""
import re,sys,os
from fractions import Fraction
LIBM={'cbrt','pow','exp','log','log2','exp2'}
W='xyzw'
class T:  # translator for one test file
    def __init__(s,kind,n):
        s.kind,s.n=kind,n   # kind F I B Q
        s.out=[];s.tmp=0;s.env={};s.libm=False
    # types: 'F','I','B', ('V',n,elt), 'Q', ('A',list)
    def bind(s,e):
        s.tmp+=1;v=f't{s.tmp}'; s.out.append(f'let {v} ← {e}'); return v
    def toks(s,t):
        t=t.replace('zcm::','').replace('quat::wxyz','quatwxyz')
        return re.findall(r'\d+\.\d*f?|\d+|[A-Za-z_]\w*|==|!=|&&|\|\||[-+*/^!()\[\]{},.;]',t)
    def parse(s,txt):
        s.tk=s.toks(txt);s.i=0
        r=s.e(0); assert s.i==len(s.tk),(txt,s.tk[s.i:]); return r
    def pk(s): return s.tk[s.i] if s.i<len(s.tk) else None
    def nx(s): s.i+=1; return s.tk[s.i-1]
    LV=[['||'],['&&'],['^'],['==','!='],['+','-'],['*','/']]
    def e(s,l):
        if l==len(s.LV): return s.un()
        a=s.e(l+1)
        while s.pk() in s.LV[l]:
            o=s.nx(); b=s.e(l+1); a=s.bin(o,a,b)
        return a
    def un(s):
        if s.pk()=='-':
            s.nx(); a,t=s.un()
            if t=='I': 
                m=re.fullmatch(r'\(I32.lit (\d+)\)',a)
                if m: return f'(I32.lit (-{m[1]}))',t
                return s.bind(f'I32.neg {a}'),t
            if t==('V',s.n,'I'): return s.bind(f'IV{s.n}.neg {a}'),t
            return f'(-{a})',t
        if s.pk()=='!':
            s.nx(); a,t=s.un()
            return (f'(!{a})',t) if t=='B' else (f'(BV{t[1]}.not {a})',t)
        return s.post()
    def args(s,close):
        r=[]
        while s.pk()!=close:
            r.append(s.e(0))
            if s.pk()==',': s.nx()
        s.nx(); return r
    def ctor(s,k,n,a):
        p={'F':'V','I':'IV','B':'BV'}[k]
        if len(a)==1: return f'({p}{n}.splat {a[0][0]})',('V',n,k)
        f='XYZW'[:n]
        return f'({p}{n}.of{f} '+' '.join(x for x,_ in a)+')',('V',n,k)
    def post(s):
        t=s.nx()
        if t=='(':
            a=s.e(0); assert s.nx()==')'
        elif re.match(r'\d',t):
            if t.endswith('f') or '.' in t:
                q=Fraction(t.rstrip('f').rstrip('.') if not t.rstrip('f').endswith('.') else t.rstrip('f')+'0')
                a=(f'(lit {q.numerator})' if q.denominator==1 else f'(lit ({q.numerator} / {q.denominator}))','F')
            elif s.kind in 'FQ' and not (s.i>=2 and s.tk[s.i-2]=='['): a=(f'(lit {t})','F')
            else: a=(f'(I32.lit {t})','I')
        elif t in('true','false'): a=(t,'B')
        elif t=='NAN': a=('F32.nan','F')
        elif t=='INFINITY': a=('(F32.inf false)','F')
        elif s.pk() in('(','{'):
            c={'(':')','{':'}'}[s.nx()]
            g=s.args(c); x=' '.join(v for v,_ in g); ty=g[0][1] if g else None
            m=re.fullmatch(r'([ib]?)vec([234])',t)
            mk=re.fullmatch(r'make_([ib]?)vec([234])',t)
            if m: a=s.ctor({'':'F','i':'I','b':'B'}[m[1]],int(m[2]),g)
            elif mk:
                k={'':'F','i':'I','b':'B'}[mk[1]]
                a=(s.bind(f"{ {'F':'V','I':'IV','B':'BV'}[k] }{mk[2]}.make build {x}"),('V',int(mk[2]),k))
            elif t=='make_quat': a=(s.bind(f'Quat.make build {x}'),'Q')
            elif t=='quat': a=(f'(Quat.ofFloats {x})','Q')
            elif t=='quatwxyz': a=(f'(Quat.wxyz {x})','Q')
            elif t in('any','all'): a=(f'(BV{ty[1]}.{t} {x})','B')
            elif t in('dot','distance','length','compMin','compMax','compAdd','compMul'):
                a=(f'({s.px(ty)}.{t} {x})','F')
            elif t in('isnan','isinf','equal'): a=(f'({s.px(ty)}.{t} {x})',('V',4 if ty=='Q' else ty[1],'B'))
            elif t=='mix': a=(f'(V{ty[1]}.mixS {x})',ty)
            else:
                if t in LIBM: s.libm=True
                a=(f'({s.px(ty)}.{t} {x})',ty)
        else:
            a=s.env[t]
        while s.pk() in('.','['):
            if s.nx()=='.':
                m=s.nx(); v,ty=a
                if ty=='Q': a=(f'{v}.{m}','F')
                elif len(m)==1: a=(f'{v}.{m}',ty[2])
                else:
                    k=len(m); tab={'F':'V','I':'IV'}[ty[2]]
                    a=(s.bind(f'swizzle{k} {tab}{ty[1]}.swizzles ['+', '.join('.'+c for c in m)+f'] {v}.data'),('V',k,ty[2]))
            else:
                i=s.nx(); assert s.nx()==']'; v,ty=a
                if ty[0]=='A': a=ty[1][int(i)]
                else:
                    p='Quat' if ty=='Q' else {'F':'V','I':'IV','B':'BV'}[ty[2]]+str(ty[1])
                    a=(s.bind(f'{p}.at build {v} {i}'),'F' if ty=='Q' else ty[2])
        return a
    def px(s,ty):
        if ty=='Q': return 'Quat'
        if ty=='F': return 'F'
        return {'F':'V','I':'IV','B':'BV'}[ty[2]]+str(ty[1])
    def bin(s,o,a,b):
        (x,t),(y,u)=a,b
        v=lambda t:isinstance(t,tuple)
        if o in('==','!='):
            return f'({s.px(t)}.{"eq" if o=="==" else "ne"} {x} {y})','B'
        nm={'+':'add','-':'sub','*':'mul','/':'div','&&':'and','||':'or','^':'xor'}[o]
        k=(t if v(t) else u)
        if v(k) and k[2] in 'IB':
            p=s.px(k)
            f=nm if v(t) and v(u) else nm+'S' if v(t) else 's'+nm.capitalize()
            e=f'{p}.{f} {x} {y}'
            return (s.bind(e),k) if k[2]=='I' else (f'({e})',k)
        return f'({x} {o} {y})',k if v(k) else ('Q' if 'Q' in (t,u) else k)
    def stmt(s,l):
        l=l.strip().rstrip(';').strip()
        if not l: return
        m=re.fullmatch(r'(?:float|int|bool) d\[\] = \{(.*)\}|float s\[\] = \{(.*)\}',l)
        if m:
            nm='d' if m[1] else 's'
            el=[];depth=0;cur=''
            for ch in (m[1] or m[2])+',':
                if ch==',' and depth==0: el.append(s.parse(cur));cur='';continue
                depth+={'(':1,')':-1}.get(ch,0);cur+=ch
            t=el[0][1]; lt={'F':'F32','I':'I32','B':'Bool'}[t]
            s.out.append(f'let {nm} : List {lt} := ['+', '.join(e for e,_ in el)+']')
            junk={'F':'F32.nan','I':'(I32.lit 0)','B':'false'}[t]
            s.env[nm]=(f'(some fun i => {nm}.getD i {junk})',('A',[(f'({nm}.getD {i} {junk})',t) for i in range(len(el))]))
            return
        m=re.fullmatch(r'(?:ASSERT|EXPECT)_(FLOAT_)?EQ\((.*)\)',l)
        if m:
            body=m[2];depth=0
            for j,ch in enumerate(body):
                depth+={'(':1,')':-1,'{':1,'}':-1}.get(ch,0)
                if ch==',' and depth==0: break
            (a,t),(b,u)=s.parse(body[:j]),s.parse(body[j+1:])
            assert t==u,(l,t,u)
            if m[1]: c=f'floatEq {a} {b}'
            elif t=='Q': c=f'Quat.eq {a} {b}'
            elif isinstance(t,tuple): c=f'{s.px(t)}.eq {a} {b}'
            else: c=f'{a} == {b}'
            s.out.append(f'check ({c})'); return
        m=re.fullmatch(r'result\[(\d)\] = (.*)',l)
        if m:
            e,_=s.parse(m[2]); p=s.px(s.env['result'][1])
            s.out.append(f'let result ← {p}.set build result {m[1]} {e}'); return
        m=re.fullmatch(r'tmp\.(\w) = (.*)',l)
        if m:
            e,_=s.parse(m[2])
            s.out.append(f'let tmp := {{ tmp with {m[1]} := {e} }}'); return
        m=re.fullmatch(r'(?:const auto |auto |zcm::\w+ )?(\w+) = (.*)',l)
        e,t=s.parse(m[2])
        LT={'F':'F32','I':'I32','B':'Bool'}
        ty='Quat F32' if t=='Q' else LT[t] if isinstance(t,str) else f'V{t[1]} {LT[t[2]]}'
        s.out.append(f'let {m[1]} : {ty} := {e}')
        s.env[m[1]]=(m[1],t)
LT={'F':'F32','I':'I32','B':'Bool'}
def gen(fn,kind,n,name):
    src=open(f'/repo/test/{fn}').read(); lines=src.split('\n')
    o=[f'''import Verif.Conformance.Gtest

/-!
The assertions of /repo/test/{fn}, run against the model (tests, not proofs: see Verif/Conformance/Gtest.lean).
-/

set_option exponentiation.threshold 400
set_option linter.unusedVariables false

namespace Zcm.Conformance.{name}
''']
    t=T(kind,n)
    cnt=0
    for i,l in enumerate(lines,1):
        m=re.match(r'const auto (first|second|scalar) = (.*);',l)
        if m:
            x=m[2]; 
            if kind=='I' and m[1]=='scalar': pass
            e,ty=t.parse(x)
            lty='Quat F32' if ty=='Q' else LT[ty] if isinstance(ty,str) else f'V{ty[1]} {LT[ty[2]]}'
            o.append(f'/-- /repo/test/{fn}:{i} -/\nabbrev {m[1]} : {lty} := {e}\n')
            t.env[m[1]]=(m[1],ty)
    g=dict(t.env)
    i=0
    while i<len(lines):
        m=re.match(r'TEST\((\w+), ?(\w+)\)',lines[i])
        if not m: i+=1;continue
        j=i
        while lines[j].rstrip()!='}': j+=1
        body=[re.sub(r'//.*','',x).strip() for x in lines[i+1:j]]
        body=' '.join(x for x in body if x and x!='{')
        t=T(kind,n);t.env=dict(g)
        for st in body.split(';'): t.stmt(st)
        tst=m[2]
        o.append(f'/-- /repo/test/{fn}:{i+1}-{j+1} -/')
        o.append(f'def {tst} '+('[Libm F32] ' if t.libm else '')+'(build : Build) : Res Unit := do')
        o+=['  '+x for x in t.out]
        if not t.libm:
            o.append(f'\nexample : ∀ build, {tst} build = .ok () := by intro build; cases build <;> decide +kernel\n')
        else:
            f=tst
            ar=' (lit (3 / 2))' if f=='pow' else ''
            o.append(f'\nexample [Libm F32] (h : ∀ n ∈ [2, 3, 4, 5], (F.{f} (lit n){ar} : F32) ≠ .nan) : ∀ build, {tst} build = .ok () := by\n  simp only [List.forall_mem_cons] at h\n  intro build; cases build <;> exact quat_check _ _ _ _ h.1 h.2.1 h.2.2.1 h.2.2.2.1\n')
        cnt+=1
        i=j
    o.append(f'end Zcm.Conformance.{name}')
    open(os.path.join(os.path.dirname(os.path.abspath(__file__)),'..','lean','Verif','Conformance',name+'.lean'),'w').write('\n'.join(o)+'\n')
    print(fn,cnt)
for fn,k,n,name in [('vec2_test.cpp','F',2,'Vec2'),('vec3_test.cpp','F',3,'Vec3'),('vec4_test.cpp','F',4,'Vec4'),('ivec2_test.cpp','I',2,'IVec2'),('ivec3_test.cpp','I',3,'IVec3'),('ivec4_test.cpp','I',4,'IVec4'),('bvec2_test.cpp','B',2,'BVec2'),('bvec3_test.cpp','B',3,'BVec3'),('bvec4_test.cpp','B',4,'BVec4'),('quat_test.cpp','Q',4,'Quaternion')]:
    gen(fn,k,n,name)
