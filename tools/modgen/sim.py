from parse import *
import random
def W(n,k): return [(n>>(64*i))%B for i in range(k)]
def V(ws): return sum(w<<(64*i) for i,w in enumerate(ws))
def recip(m):
    w=W(m,4); 
    assert w[3]
    s=64-w[3].bit_length(); p=255-s
    if m&(m-1)==0: return V([B-1]*4+[(B-1)>>(p&63)]),{}
    y=m<<s; yy=W(y,4)
    env={'y[%d]'%i:yy[i] for i in range(4)}
    yh=yy[3]>>32
    r0=0xffffffff if yh==0x80000000 else (1<<63)//yh
    assert r0<2**32
    t1=r0*r0; assert t1<B
    t1=t1*yy[3]//B
    r1=2*((r0<<32)-t1)%B
    sp1=0
    if r1|((yy[3]<<1)%B)==0: r1=B-1; sp1=1
    env['r1']=r1
    run(89,113,env)
    sp2=0
    if env['r2h']|env['r2l']|((yy[3]<<1)%B)==0: env['r2h']=env['r2l']=B-1; sp2=1
    run(119,133,env)
    env.update(x0=env['a3l'],x1=env['a3h'],x2=env['c3l'],x3=env['c3h'])
    run(143,240,env)
    r4=V([env[k] for k in 'r4l r4k r4j r4i r4h'.split()])
    env.update(x0=env['r4l'],x1=env['r4k'],x2=env['r4j'],x3=env['r4i'],x4=env['r4h'])
    run(250,289,env)
    true=(B**9//4)//y
    R=r4-env['b']
    r2=env['r2h']*B+env['r2l']; r3=V([env['r3l'],env['r3m'],env['r3h']])
    info=dict(e1=(B*B//2*1)*1//1 and (2**63*B**4//y-r1), e2=2**127*B**4//y-r2,e3=2**191*B**4//y-r3,over=env['b'],e4=true-R)
    p=(p&63)-1
    mu = 2*R if p<0 else R>>p
    return mu,info
def reduce4(x,m,mu):
    xs=W(x,8); mm=W(m,4); ms=W(mu,5)
    env={'mu[%d]'%i:ms[i] for i in range(5)}
    env.update({'m[%d]'%i:mm[i] for i in range(4)})
    for i in range(5): env['x%d'%i]=xs[3+i]
    run(362,392,env)
    env['q0'],env['q1'],env['q2'],env['q3'],env['q4']=[env['q%d'%i] for i in range(1,6)]
    q3=V([env['q%d'%i] for i in range(5)])
    for i in range(5): env['x%d'%i]=xs[i]
    run(412,447,env)
    r=V([env['r%d'%i] for i in range(5)])
    b=env['b']
    if b: r=(r+m)%B**5
    k=0
    while r>=m: r-=m; k+=1; assert k<100
    return r,b,k,x//m-q3
if __name__=='__main__':
    from collections import Counter
    C={}
    def note(k,v): 
        a=C.setdefault(k,[v,v]); a[0]=min(a[0],v); a[1]=max(a[1],v)
    def rm():
        c=random.randrange(6)
        bits=random.randrange(193,257)
        if c==0: return random.getrandbits(bits-1)|(1<<(bits-1))
        if c==1: return (1<<(bits-1))+random.getrandbits(random.randrange(1,bits))
        if c==2: return (1<<bits)-1-random.getrandbits(random.randrange(1,bits-1))
        if c==3: return (1<<(bits-1))+random.randrange(4)
        if c==4: return ((1<<(bits-1))+(random.getrandbits(bits-1)>>random.randrange(1,60)<<random.randrange(1,180)))%(1<<bits) | (1<<(bits-1))
        return (1<<(bits-1))|(1<<random.randrange(bits-1))|(random.getrandbits(3))
    for i in range(150000):
        m=rm(); 
        mu,info=recip(m)
        for k in info: note(k,info[k])
        note('mu',(1<<512)//m-mu)
        x=random.getrandbits(256) if i%2 else (1<<256)-1-random.getrandbits(random.randrange(1,250))
        y=random.getrandbits(256) if i%3 else (1<<256)-1-random.getrandbits(random.randrange(1,250))
        r,b,k,d=reduce4(x*y,m,mu)
        assert r==x*y%m,(x,y,m)
        note('b',b);note('k',k);note('d',d)
    print(C)
