import sys
sys.path.insert(0, __file__.rsplit('/', 1)[0])
from parse import stmts
# A block: name, doc, params [(leanname, go name)], line ranges, outputs [(go names)], struct
def lets(ranges, env0, prefix=''):
    """SSA: returns list of (letname, fn, [lean args], (go out1, go out2), go args, line) and final env."""
    env=dict(env0); ops=[]; k=0
    for a,b in ranges:
        for s in stmts(a,b):
            if len(s)==2: raise Exception(s)
            ln,o1,o2,f,args=s
            la=[]
            for x in args:
                if x in env: la.append(env[x])
                elif x=='uint64(1) << 62': la.append('0x4000000000000000')
                elif x in('0','1'): la.append(x)
                else: raise Exception((ln,x,env))
            k+=1
            nm={'Mul64':'p','Add64':'s','Sub64':'d'}[f]+str(k)
            ops.append(dict(n=nm,f=f,la=la,o=(o1,o2),ga=args,ln=ln))
            if o1!='_': env[o1]=nm+'.1'
            if o2!='_': env[o2]=nm+'.2'
    return ops,env
def model(name,doc,params,ranges,env0,outs,ret):
    ops,env=lets(ranges,env0)
    t='/-- %s -/\ndef %s %s : %s :=\n'%(doc,name,params,ret)
    for o in ops:
        t+='  let %s := %s %s\n'%(o['n'],o['f'].lower(),' '.join(o['la']))
    t+='  ⟨'+', '.join(env[x] for x in outs)+'⟩\n\n'
    return t,ops,env
Y={'y[%d]'%i:'y.w%d'%i for i in range(4)}
Mm={'m[%d]'%i:'m.w%d'%i for i in range(4)}
R='/repo/uint256/mod.go'
BL={}
def block(name,doc,params,ranges,env0,outs,ret):
    BL[name]=model(name,doc,params,ranges,env0,outs,ret)
block('recipMul2','`%s:89-104` the second iteration of `Reciprocal`: the upper words of the product of the square of `r1` with `y`.'%R,'(r1 : Word) (y : U256)',[(90,104)],dict(Y,r1='r1'),['e2l','e2h'],'Words2')
block('recipSub2','`%s:106-112` subtract and double.'%R,'(r1 : Word) (e : Words2)',[(107,112)],dict(r1='r1',e2l='e.w0',e2h='e.w1'),['r2l','r2h'],'Words2')
block('recipSq2','`%s:121-132` the square of `r2`.'%R,'(r2 : Words2)',[(122,132)],{'r2l':'r2.w0','r2h':'r2.w1'},['a3l','a3h','c3l','c3h'],'U256')
block('recipMul3','`%s:134-164` the upper words of the product with `y`.'%R,'(x y : U256)',[(143,164)],dict(Y,**{'x%d'%i:'x.w%d'%i for i in range(4)}),['q%d'%i for i in range(5)],'Words5')
block('recipSub3','`%s:166-176` subtract and double.'%R,'(r2 : Words2) (q : Words5)',[(167,176)],dict({'q%d'%i:'q.w%d'%i for i in range(5)},r2l='r2.w0',r2h='r2.w1'),['r3l','r3m','r3h'],'Words3')
block('recipSq3','`%s:180-203` the square of `r3`.'%R,'(r3 : Words3)',[(182,203)],{'r3l':'r3.w0','r3m':'r3.w1','r3h':'r3.w2'},['a4l','a4h','d4l','d4h','f4l','f4h'],'Words6')
block('recipMul4','`%s:205-231` the upper words of the product with `y`.'%R,'(a : Words6) (y : U256)',[(207,231)],dict(Y,a4l='a.w0',a4h='a.w1',d4l='a.w2',d4h='a.w3',f4l='a.w4',f4h='a.w5'),['x%d'%i for i in range(7)],'Words7')
block('recipSub4','`%s:233-240` subtract.'%R,'(r3 : Words3) (x : Words7)',[(234,240)],dict({'x%d'%i:'x.w%d'%i for i in range(7)},r3l='r3.w0',r3m='r3.w1',r3h='r3.w2'),['r4l','r4k','r4j','r4i','r4h'],'Words5')
block('recipMul5','`%s:242-276` the product of the candidate with `y`.'%R,'(x : Words5) (y : U256)',[(250,276)],dict(Y,**{'x%d'%i:'x.w%d'%i for i in range(5)}),['q%d'%i for i in range(9)],'Words9')
block('barrettQ','`%s:348-400` the estimate of the quotient: the words from 2^320 on of (x / 2^192) * mu.'%R,'(x mu : Words5)',[(362,392)],dict({'x%d'%i:'x.w%d'%i for i in range(5)},**{'mu[%d]'%i:'mu.w%d'%i for i in range(5)}),['q1','q2','q3','q4','q5'],'Words5')
block('barrettR','`%s:410-437` the product with `m` modulo 2^320.'%R,'(q : Words5) (m : U256)',[(414,436)],dict(Mm,**{'q%d'%i:'q.w%d'%i for i in range(5)}),['r%d'%i for i in range(5)],'Words5')
block('recipDec','`%s:291-296` the candidate minus one.'%R,'(r : Words5)',[(292,296)],dict(r4l='r.w0',r4k='r.w1',r4j='r.w2',r4i='r.w3',r4h='r.w4'),['x0','x1','x2','x3','x4'],'Words5')
block('recipDouble','`%s:307-311` twice the candidate.'%R,'(r : Words5)',[(307,311)],dict(r4l='r.w0',r4k='r.w1',r4j='r.w2',r4i='r.w3',r4h='r.w4'),['x0','x1','x2','x3','x4'],'Words5')
block('reduceFix','`%s:452-456` add `m`.'%R,'(r : Words5) (m : U256)',[(452,456)],dict(Mm,**{'r%d'%i:'r.w%d'%i for i in range(5)}),['r%d'%i for i in range(5)],'Words5')
if __name__=='__main__':
    for k in BL: print(BL[k][0])
