import sys
sys.path.insert(0, __file__.rsplit('/', 1)[0])
from gen import BL
B=1<<64
class Blk: pass
def analyse(name, winp, mulw=True):
    """winp: lean input expr -> weight (limb index)."""
    _,ops,env=BL[name]
    return ops,env
def pv(v): # p1.2 -> atom name
    n,i=v.split('.'); return n+('h' if i=='1' else 'l') if n[0]=='p' else n+('v' if i=='1' else 'c')
def isvar(a): return a[0] in 'psd' and a.split('.')[0][1:].isdigit()
def atom(a):
    if isvar(a): return pv(a)
    return a.replace('.','_') if '.' in a else a
class G:
    def __init__(s,name,winp,outs,params):
        s.name=name; s.winp=winp; s.ops=BL[name][1]; env=BL[name][2]
        s.outs=[env[o] for o in outs]; s.params=params
        s.by={o['n']:o for o in s.ops}
        # weights
        s.w={}
        def w(a):
            if a in ('0','1'): return None
            if isvar(a): return s.w.get(a)
            return winp[a]
        s.wt=w
        for o in s.ops:
            if o['f']=='Mul64':
                k=w(o['la'][0])+w(o['la'][1]); o['w']=k
                s.w[o['n']+'.2']=k; s.w[o['n']+'.1']=k+1
            else:
                ks={w(a) for a in o['la'] if w(a) is not None}
                assert len(ks)==1,(name,o,ks)
                k=ks.pop(); o['w']=k; s.w[o['n']+'.1']=k; s.w[o['n']+'.2']=k+1
        s.users={}
        for o in s.ops:
            for a in o['la']:
                if isvar(a): s.users.setdefault(a,[]).append(o['n'])
        s.dropc=[o['n'] for o in s.ops if o['f']=='Add64' and o['n']+'.2' not in s.users]
        s.inputs=sorted({a for o in s.ops for a in o['la'] if not isvar(a) and a not in('0','1')})
    def mults(s,targets):
        """targets: dict var->coef. Returns mult per stmt, residual per var"""
        mu={}; need=dict(targets)
        for o in reversed(s.ops):
            v1,v2=o['n']+'.1',o['n']+'.2'
            m=max(need.get(v1,0),need.get(v2,0))
            if m==0: continue
            mu[o['n']]=m
            if o['f']=='Add64':
                for a in o['la']:
                    if isvar(a): need[a]=need.get(a,0)+m
            elif o['f']=='Mul64':
                for a in o['la']: assert not isvar(a),(s.name,o)
        res={}
        for n in mu:
            for v in (n+'.1',n+'.2'):
                r=mu[n]-need.get(v,0)
                if r: res[v]=r
        return mu,res
    def eqn(s,n): return 'e_'+n
    def identity(s,targets,zero=()):
        """LHS(targets)+residuals = products ; returns (statement, lincomb, residual vars, products)"""
        mu,res=s.mults(targets)
        lhs=[];prods=[];lc=[]
        for v,c in targets.items(): lhs.append('%d * %s'%(c*B**s.w[v],atom(v)))
        # residual has targets' own count 0; 
        for v,r in res.items():
            if v in zero: continue
            lhs.append('%d * %s'%(r*B**s.w[v],atom(v)))
        for n,m in mu.items():
            o=s.by[n]
            lc.append('%d * %s'%(m*B**o['w'],s.eqn(n)))
            if o['f']=='Mul64': prods.append((m,o['w'],o['la'][0],o['la'][1]))
        for v,r in res.items():
            if v in zero: lc.append('%d * z_%s'%(-r*B**s.w[v],v.split('.')[0]))
        rhs=['%d * (%s * %s)'%(m*B**w,atom(a),atom(b)) for m,w,a,b in prods]
        return ' + '.join(lhs)+' = '+' + '.join(rhs), ' + '.join(lc), [v for v in res if v not in zero], prods
    def core(s,concl_builder):
        """emit a core lemma over ints."""
        vars_=[]
        for a in s.inputs: vars_.append(atom(a))
        for o in s.ops:
            vars_+= [atom(o['n']+'.1'),atom(o['n']+'.2')]
        hyps=[]
        for a in s.inputs:
            x=atom(a); hyps+=[('l_'+x,'0 ≤ %s'%x,'wL'),('u_'+x,'%s ≤ %d'%(x,B-1),'wU')]
        for o in s.ops:
            n=o['n']
            if o['f']=='Mul64':
                hyps.append(('e_'+n,'%sl + %d * %sh = %s * %s'%(n,B,n,atom(o['la'][0]),atom(o['la'][1])),'e_'+n))
                v=[n+'l',n+'h']
            else:
                args=[atom(a) for a in o['la'] if a!='0'] or ['0']
                hyps.append(('e_'+n,'%sv + %d * %sc = %s'%(n,B,n,' + '.join(args)),'e_%s.1'%n))
                v=[n+'v',n+'c']
            for x in v: hyps+=[('l_'+x,'0 ≤ %s'%x,'wL'),('u_'+x,'%s ≤ %d'%(x,B-1),'wU')]
        body=''
        pairs=set()
        for o in s.ops:
            if o['f']=='Mul64': pairs.add((o['la'][0],o['la'][1]))
        extra,concl,tail=concl_builder(s)
        pairs|=set(extra)
        for a,b in sorted(pairs):
            x,y=atom(a),atom(b)
            body+='  have l_%s_%s : 0 ≤ %s * %s := mul_nonneg l_%s l_%s\n'%(x,y,x,y,x,y)
            body+='  have u_%s_%s : %s * %s ≤ %d := prod_le l_%s u_%s u_%s\n'%(x,y,x,y,(B-1)**2,y,x,y)
        zero=set()
        for n in s.dropc:
            if s.keepdrop and n in s.keepdrop: continue
            st,lc,res,prods=s.identity({n+'.2':1},zero)
            body+='  have z_%s : %sc = 0 := by\n'%(n,n)
            body+='    have e : %s := by\n      linear_combination %s\n'%(st,lc)
            facts=['e','l_%sc'%n]+['l_'+atom(v) for v in res]+['u_%s_%s'%(atom(a),atom(b)) for m,w,a,b in prods]
            body+='    have : %sc < 1 := by linarith only [%s]\n    omega\n'%(n,', '.join(facts))
            zero.add(n+'.2')
        s.zero=zero
        body+=tail(s)
        import re
        used=set(re.findall(r'[eul]_\w+',body))
        hyps=[h for h in hyps if h[0] in used]
        s.hyps=hyps
        usedv=set(re.findall(r'\w+',' '.join(h[1] for h in hyps)+' '+concl))
        vars_=[v for v in vars_ if v in usedv]
        hyps=['(%s : %s)'%(h[0],h[1]) for h in hyps]
        t='theorem %s_core {%s : ℤ}\n    %s :\n    %s := by\n%s\n'%(s.name,' '.join(vars_),'\n    '.join(hyps),concl,body)
        return t
    keepdrop=None
    def wrap(s,sig,concl,pre,post):
        """theorem about the model."""
        t='theorem %s_spec %s :\n    %s := by\n'%(s.name,sig,concl)
        t+=pre
        t+='  unfold %s\n  extract_lets %s\n'%(s.name,' '.join(o['n'] for o in s.ops))
        for o in s.ops:
            n=o['n']
            if o['f']=='Mul64':
                t+='  have e_%s : (%s.2.toNat : ℤ) + %d * %s.1.toNat = %s.toNat * %s.toNat := mulZ _ _\n'%(n,n,B,n,o['la'][0],o['la'][1])
            else:
                x,y,c=o['la']
                nm='addZ'; args='_ _ _'
                rhs=[z+'.toNat' for z in (x,y,c) if z!='0']
                hc=''
                if c=='0': nm+='c'
                if y=='0': nm+='0'
                if c!='0': hc=' e_%s.2'%c.split('.')[0]
                t+='  have e_%s : (%s.1.toNat : ℤ) + %d * %s.2.toNat = %s ∧ %s.2.toNat ≤ 1 := %s%s%s\n'%(n,n,B,n,' + '.join(rhs),n,nm,' _'*(len(rhs)),hc)
        t+='  clear_value %s\n'%' '.join(o['n'] for o in s.ops)
        args=[h[2] for h in s.hyps]
        t+='  have h := %s_core %s\n'%(s.name,' '.join(args))
        t+=post
        return t
def words(s,n):
    return ' + '.join(('%s' if i==0 else str(B**i)+' * %s')%('%s.w%d.toNat'%(s,i)) for i in range(n))
def at(s,n,pos=None):
    return ' + '.join(('%s' if i==0 else str(B**i)+' * %s')%('%s_w%d'%(s,i)) for i in range(n))
HEAD='''import Verif.Model.Mod
import Verif.Proofs.Word
import Mathlib.Tactic.LinearCombination
import Mathlib.Tactic.Linarith
/-! Values of the straight-line blocks of `Reciprocal` and `reduce4`.

Each `_core` lemma is about integers: `e_<k>` is the equation of statement `k`, `l_` and `u_` are bounds.  A carry
that the code drops is shown to be zero from the equations before it. -/
set_option exponentiation.threshold 1000
namespace Uni

theorem mulZ (x y : Word) :
    ((mul64 x y).2.toNat : ℤ) + 18446744073709551616 * (mul64 x y).1.toNat = x.toNat * y.toNat := by
  exact_mod_cast mul64_spec x y

theorem addZ (x y c : Word) (hc : c.toNat ≤ 1) :
    ((add64 x y c).1.toNat : ℤ) + 18446744073709551616 * (add64 x y c).2.toNat = x.toNat + y.toNat + c.toNat ∧
    (add64 x y c).2.toNat ≤ 1 := by
  have h := add64_spec x y c hc
  exact ⟨by exact_mod_cast h.1, h.2⟩

theorem addZc (x y : Word) :
    ((add64 x y 0).1.toNat : ℤ) + 18446744073709551616 * (add64 x y 0).2.toNat = x.toNat + y.toNat ∧
    (add64 x y 0).2.toNat ≤ 1 := by
  have h := add64_spec x y 0 (by decide)
  exact ⟨by exact_mod_cast h.1, h.2⟩

theorem addZ0 (x c : Word) (hc : c.toNat ≤ 1) :
    ((add64 x 0 c).1.toNat : ℤ) + 18446744073709551616 * (add64 x 0 c).2.toNat = x.toNat + c.toNat ∧
    (add64 x 0 c).2.toNat ≤ 1 := by
  have h := add64_spec x 0 c hc
  exact ⟨by exact_mod_cast h.1, h.2⟩

theorem wL {x : Word} : (0 : ℤ) ≤ x.toNat := Int.natCast_nonneg _

theorem wU {x : Word} : (x.toNat : ℤ) ≤ 18446744073709551615 := by
  have := x.isLt
  omega

theorem prod_le {x y : ℤ} (ly : 0 ≤ y) (ux : x ≤ 18446744073709551615) (uy : y ≤ 18446744073709551615) :
    x * y ≤ 340282366920938463426481119284349108225 :=
  calc x * y ≤ 18446744073709551615 * y := mul_le_mul_of_nonneg_right ux ly
    _ ≤ 18446744073709551615 * 18446744073709551615 := by linarith
    _ = _ := by norm_num

'''
for n,nm in ((2,'Words2'),(3,'Words3'),(5,'Words5'),(6,'Words6'),(7,'Words7'),(9,'Words9')):
    HEAD+='theorem %s.toZ (x : %s) : (x.toNat : ℤ) = %s := by\n  simp only [%s.toNat]\n  push_cast\n  norm_num\n\n'%(nm,nm,words('x',n),nm)
HEAD+='theorem U256.toZ (x : U256) : (x.toNat : ℤ) = %s := by\n  simp only [U256.toNat]\n  push_cast\n  ring\n\nnamespace U256\n\n'%words('x',4)
def trunc(drop,err,nx,ny):
    """conclusion: B^drop*V ≤ X*Y < B^drop*(V+err)"""
    def cb(s):
        xs,ys=s.xs,s.ys
        allp=[(x,y) for x in xs for y in ys]
        V=' + '.join('%d * %s'%(B**(s.w[v]-drop),atom(v)) if s.w[v]>drop else atom(v) for v in s.outs)
        X=' + '.join('%d * %s'%(B**i,atom(a)) if i else atom(a) for i,a in enumerate(xs))
        Y=' + '.join('%d * %s'%(B**i,atom(a)) if i else atom(a) for i,a in enumerate(ys))
        if err is None:
            concl='%s = (%s) * (%s)'%(V,X,Y)
        else:
            concl='%d * (%s) ≤ (%s) * (%s) ∧ (%s) * (%s) < %d * (%s + %d)'%(B**drop,V,X,Y,X,Y,B**drop,V,err)
        def tail(s):
            st,lc,res,prods=s.identity({v:1 for v in s.outs},s.zero)
            if err is None: 
                return '  linear_combination %s\n'%lc
            t='  have e : %s := by\n    linear_combination %s\n'%(st,lc)
            used={(a,b) for m,w,a,b in prods}
            t+='  have f : (%s) * (%s) = %s := by ring\n'%(X,Y,' + '.join('%d * (%s * %s)'%(B**(s.winp[a]+s.winp[b]),atom(a),atom(b)) for a,b in allp))
            om=[(a,b) for a,b in allp if (a,b) not in used]
            t+='  rw [f]\n  constructor\n'
            t+='  · linarith only [e, %s]\n'%', '.join(['l_'+atom(v) for v in res]+['l_%s_%s'%(atom(a),atom(b)) for a,b in om])
            t+='  · linarith only [e, %s]\n'%', '.join(['u_'+atom(v) for v in res]+['u_%s_%s'%(atom(a),atom(b)) for a,b in om])
            return t
        return allp,concl,tail
    return cb
def prodblock(name,xn,xlen,yn,ylen,xt,yt,outs,outT,drop,err,sig):
    winp={}
    for i in range(xlen): winp['%s.w%d'%(xn,i)]=i
    for i in range(ylen): winp['%s.w%d'%(yn,i)]=i
    g=G(name,winp,outs,None)
    g.xs=['%s.w%d'%(xn,i) for i in range(xlen)]; g.ys=['%s.w%d'%(yn,i) for i in range(ylen)]
    g.inputs=sorted(set(g.inputs)|set(g.xs)|set(g.ys))
    t=g.core(trunc(drop,err,xlen,ylen))
    call='%s %s %s'%(name,xn,yn) if xn!=yn else '%s %s'%(name,xn)
    if err is None:
        concl='((%s).toNat : ℤ) = %s.toNat * %s.toNat'%(call,xn,yn)
    else:
        concl='%d * ((%s).toNat : ℤ) ≤ %s.toNat * %s.toNat ∧ (%s.toNat * %s.toNat : ℤ) < %d * ((%s).toNat + %d)'%(B**drop,call,xn,yn,xn,yn,B**drop,call,err)
    post='  rw [%s]\n  exact h\n\n'%', '.join(dict.fromkeys([outT+'.toZ',xt+'.toZ '+xn,yt+'.toZ '+yn]))
    t+=g.wrap(sig,concl,'',post)
    return t
OUT=HEAD
if len(sys.argv)<2 or "recipMul3" in sys.argv: OUT+=prodblock('recipMul3','x',4,'y',4,'U256','U256',['q%d'%i for i in range(5)],'Words5',3,8,'(x y : U256)')
if len(sys.argv)<2 or "recipSq2" in sys.argv: OUT+=prodblock('recipSq2','r2',2,'r2',2,'Words2','Words2',['a3l','a3h','c3l','c3h'],'U256',0,None,'(r2 : Words2)')
if len(sys.argv)<2 or "recipSq3" in sys.argv: OUT+=prodblock('recipSq3','r3',3,'r3',3,'Words3','Words3',['a4l','a4h','d4l','d4h','f4l','f4h'],'Words6',0,None,'(r3 : Words3)')
if len(sys.argv)<2 or "recipMul4" in sys.argv: OUT+=prodblock('recipMul4','a',6,'y',4,'Words6','U256',['x%d'%i for i in range(7)],'Words7',3,4*B,'(a : Words6) (y : U256)')
if len(sys.argv)<2 or "recipMul5" in sys.argv: OUT+=prodblock('recipMul5','x',5,'y',4,'Words5','U256',['q%d'%i for i in range(9)],'Words9',0,None,'(x : Words5) (y : U256)')
if len(sys.argv)<2 or "barrettQ" in sys.argv: OUT+=prodblock('barrettQ','x',5,'mu',5,'Words5','Words5',['q%d'%i for i in range(1,6)],'Words5',5,2,'(x mu : Words5)')

def want(n): return len(sys.argv)<2 or n in sys.argv
def barR():
    winp={'q.w%d'%i:i for i in range(5)}; winp.update({'m.w%d'%i:i for i in range(4)})
    g=G('barrettR',winp,['r%d'%i for i in range(5)],None)
    g.xs=['q.w%d'%i for i in range(5)]; g.ys=['m.w%d'%i for i in range(4)]
    g.inputs=sorted(set(g.xs+g.ys)); g.keepdrop=set(g.dropc)
    def cb(s):
        V=' + '.join('%d * %s'%(B**(s.w[v]),atom(v)) if s.w[v]>0 else atom(v) for v in s.outs)
        X=at('q',5);Y=at('m',4)
        concl='∃ k : ℤ, %s + %d * k = (%s) * (%s)'%(V,B**5,X,Y)
        def tail(s):
            st,lc,res,prods=s.identity({v:1 for v in s.outs},set())
            for v in res: assert s.w[v]>=5,(v,s.w[v])
            mu,resd=s.mults({v:1 for v in s.outs})
            used={(a,b) for m,w,a,b in prods}
            om=[(a,b) for a in s.xs for b in s.ys if (a,b) not in used]
            ks=['%d * %s'%(resd[v]*B**(s.w[v]-5),atom(v)) for v in res]+['%d * (%s * %s)'%(B**(winp[a]+winp[b]-5),atom(a),atom(b)) for a,b in om]
            return '  exact ⟨%s,\n    by linear_combination %s⟩\n'%(' + '.join(ks),lc)
        return [],concl,tail
    t=g.core(cb)
    t+=g.wrap('(q : Words5) (m : U256)','∃ k : ℤ, ((barrettR q m).toNat : ℤ) + %d * k = q.toNat * m.toNat'%B**5,'','  rw [Words5.toZ, Words5.toZ q, U256.toZ m]\n  exact h\n\n')
    return t
if want('barrettR'): OUT+=barR()
def mul2():
    _,ops,env=BL['recipMul2']
    import copy
    full=copy.deepcopy(ops)
    m={'p1.2':'a.w0','p1.1':'a.w1'}
    for o in ops: o['la']=[m.get(x,x) for x in o['la']]
    BL['recipMul2']=(_,ops[1:],env)
    winp={'a.w0':0,'a.w1':1,'y.w2':0,'y.w3':1}
    g=G('recipMul2',winp,['e2l','e2h'],None)
    g.xs=['a.w0','a.w1']; g.ys=['y.w2','y.w3']; g.inputs=sorted(g.xs+g.ys)
    t=g.core(trunc(2,1,2,2))
    g.ops=full
    w=g.wrap('(r1 : Word) (y : U256)','%d * ((recipMul2 r1 y).toNat : ℤ) ≤ r1.toNat * r1.toNat * (y.w2.toNat + %d * y.w3.toNat) ∧\n    (r1.toNat * r1.toNat * (y.w2.toNat + %d * y.w3.toNat) : ℤ) < %d * ((recipMul2 r1 y).toNat + 1)'%(B*B,B,B,B*B),'','  rw [Words2.toZ, ← e_p1]\n  exact h\n\n')
    return t+w
if want('recipMul2'): OUT+=mul2()
OUT+='end U256\nend Uni\n'
open('/tmp/gen/o_'+sys.argv[1]+'.lean' if len(sys.argv)>1 else '/verif/lean/Verif/Proofs/ModBlocks.lean','w').write(OUT)
