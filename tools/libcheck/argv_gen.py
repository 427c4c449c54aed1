"""Random command lines with the results of CPython's argparse, for the model of the programs' command lines.
The parser is built here from the table of options in Model/CommandLine.lean."""
import argparse, random, re, sys, io, contextlib
random.seed(int(sys.argv[1])); N=int(sys.argv[2])
src=open(sys.argv[3]).read()
def table(name):
    i=src.index('def %s '%name); body=src[i:src.index('\n\n',i)]
    opts=[]
    for m in re.finditer(r'(helpOption,)|sharedOptions (true|false)|opt \[([^\]]*)\] "(\w+)"\.toList (\.\w+|\(\.choice [^)]*\))',body):
        if m.group(1): continue
        if m.group(2): opts+=shared(m.group(2)=='true'); continue
        opts.append((re.findall(r'"([^"]*)"',m.group(3)),m.group(4),m.group(5)))
    modes=re.findall(r'"(\w+)"',body[body.index('modes :='):]) if 'modes :=' in body else []
    return opts,modes,'positional := true' in body
def shared(remote):
    i=src.index('def sharedOptions'); body=src[i:src.index('\n\n',i)]
    opts=[]
    for m in re.finditer(r'opt \[([^\]]*)\] "(\w+)"\.toList (\.\w+|\(\.choice [^)]*\))',body):
        n=re.findall(r'"([^"]*)"',m.group(1))
        if not remote and n[0] in ('--noauth','--access-token','--delay'): continue
        opts.append((n,m.group(2),m.group(3)))
    return opts
class Usage(Exception): pass
class Help(Exception): pass
def build(name):
    opts,modes,pos=table(name)
    p=argparse.ArgumentParser()
    def err(msg): raise Usage()
    p.error=err
    def ph(*a): raise Help()
    p.print_help=ph
    g=p.add_mutually_exclusive_group(required=True) if modes else None
    for n,d,k in opts:
        kw={'dest':d}
        if k=='.flag': kw['action']='store_true'
        elif k=='.append': kw['action']='append'
        elif k=='.int': kw['type']=int
        elif k=='.float': kw['type']=float
        elif k.startswith('(.choice'): kw['choices']=('1.0','1.1'); kw['default']='1.1'
        (g if d in modes else p).add_argument(*n,**kw)
    if pos: p.add_argument(dest='map',nargs='*',type=str)
    return p,opts
def enc(s): return ','.join(str(ord(c)) for c in s)
def show(ns,opts):
    out=[]
    for n,d,k in opts:
        v=getattr(ns,d)
        if v is None or v is False: continue
        if d=='spec_version' and v=='1.1': continue
        if v is True: out.append(d+'=yes')
        elif isinstance(v,list): out.append(d+'=L'+'/'.join(enc(x) for x in v))
        elif isinstance(v,int): out.append(d+'=I%d'%v)
        elif isinstance(v,float): out.append(d+'=F%d'%int(v))
        else: out.append(d+'=S'+enc(v))
    return ' '.join(sorted(out))+'|'+'/'.join(enc(x) for x in getattr(ns,'map',[]))
P={}
for nm in ('syncParser','buildParser','exploreParser'): P[nm]=build(nm)
def word(opts):
    n,d,k=random.choice(opts+[(['-h','--help'],'help','.flag')]*(1 if random.random()<.15 else 0))
    s=random.choice(n)
    r=random.random()
    if r<.25 and len(s)>3: s=s[:random.randint(3,len(s))]
    val=random.choice(['x','u=p','5','-1','-5.5','-','','a b','-x y','1.0','1.1','2','--','-b','md5','=','-q','--zz','--zz=1','-n'])
    r=random.random()
    if r<.15: return [s+'='+val]
    if r<.25 and s[:2]!='--':
        t=s
        for _ in range(random.randint(1,3)):
            t+=random.choice(['n','b','v','t','T','m','l','e','5','=','q','-','a','h','d'])
        return [t]
    if k!='.flag' and r<.9: return [s,val]
    if r<.95: return [s]
    return [s,val]
for i in range(N):
    nm=random.choice(list(P))
    p,opts=P[nm]
    argv=[]
    if nm!='exploreParser' and random.random()<.8:
        mo=[o for o in opts if o[1] in table(nm)[1]]
        n,d,k=random.choice(mo)
        argv+=[random.choice(n)]+(['v'] if k!='.flag' else [])
    for _ in range(random.randint(0,4)):
        if random.random()<.25: argv[random.randint(0,len(argv)):0]=[random.choice(['u','u=p','p','-','','--','-1','a b'])]
        else:
            w=word(opts)
            if random.random()<.7: argv+=w
            else: argv=w+argv
    try:
        with contextlib.redirect_stderr(io.StringIO()), contextlib.redirect_stdout(io.StringIO()):
            r=show(p.parse_args(list(argv)),opts)
    except Usage: r='U'
    except Help: r='H'
    print(nm+'\t'+(';'.join('S'+enc(a) for a in argv))+'\t'+r)
