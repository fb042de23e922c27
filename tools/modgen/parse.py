import re
L=open('/repo/uint256/mod.go').read().split('\n')
def stmts(a,b):
    out=[]
    for ln in range(a,b+1):
        l=L[ln-1].split('//')[0]
        for s in l.split(';'):
            s=s.strip()
            if not s: continue
            mm=re.match(r'(\w+)\s*,\s*(\w+)\s*:?=\s*bits\.(\w+)\((.*)\)$',s)
            if mm:
                args=[x.strip() for x in mm.group(4).split(',')]
                out.append((ln,mm.group(1),mm.group(2),mm.group(3),args))
            else: out.append((ln,s))
    return out
B=1<<64
def run(a,b,env):
    g=lambda v: env[v] if v in env else int(v)
    for s in stmts(a,b):
        if len(s)==2: continue
        ln,o1,o2,f,args=s
        if args[0]=='uint64(1) << 62': args=['4611686018427387904']+args[1:]
        v=[g(x) for x in args]
        if f=='Mul64': r=(v[0]*v[1]//B,v[0]*v[1]%B)
        elif f=='Add64': t=sum(v); r=(t%B,t//B)
        elif f=='Sub64': t=v[0]-v[1]-v[2]; r=(t%B,1 if t<0 else 0)
        if o1!='_': env[o1]=r[0]
        if o2!='_': env[o2]=r[1]
    return env
if __name__=='__main__':
    for i,l in enumerate(L,1):
        if 28<=i<=345 or 1: print(i,l)
