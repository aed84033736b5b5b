import ast,json
src=open('/repo/tests/test_vgf.py').read(); T=ast.parse(src)
def ev(n):
    if isinstance(n,ast.Constant): return n.value
    if isinstance(n,(ast.List,ast.Tuple)): return [ev(x) for x in n.elts]
    if isinstance(n,ast.Dict): return {ev(k):ev(v) for k,v in zip(n.keys,n.values)}
    if isinstance(n,ast.UnaryOp): return -ev(n.operand)
    if isinstance(n,ast.Call):
        if n.keywords and all(k.arg!='dtype' for k in n.keywords): return {k.arg:ev(k.value) for k in n.keywords}
        return ev(n.args[0])
    raise Exception(ast.dump(n)[:200])
def val(x):
    if isinstance(x,str) and x.startswith('q') and '/' in x:
        try: a,b=x[1:].split('/'); return int(a)/int(b)
        except ValueError: return x
    if isinstance(x,list): return [val(y) for y in x]
    if isinstance(x,dict): return {k:val(v) for k,v in x.items()}
    return x
def diff(a,b,p=''):
    if isinstance(b,dict) and isinstance(a,list) and len(a)==1 and isinstance(a[0],dict): a=a[0]
    if isinstance(a,dict) and isinstance(b,list): a=list(a.values())
    if isinstance(a,dict) and isinstance(b,dict):
        r=[]
        for k in set(a)|set(b):
            if k=='kind': continue
            if k not in a: r.append((p+'.'+k,'MODEL LACKS',str(b[k])[:60])); continue
            if k not in b: r.append((p+'.'+k,'MODEL EXTRA',str(a[k])[:60])); continue
            r+=diff(a[k],b[k],p+'.'+k)
        return r
    if isinstance(a,list) and isinstance(b,list):
        if len(a)!=len(b): return [(p,'len',len(a),len(b))]
        return [d for i,(x,y) in enumerate(zip(a,b)) for d in diff(x,y,p+'[%d]'%i)]
    if isinstance(a,(int,float)) and isinstance(b,(int,float)):
        return [] if abs(a-b)<=1e-6*max(1,abs(b)) else [(p,a,b)]
    return [] if a==b else [(p,a,b)]
for f in T.body:
    if not(isinstance(f,ast.FunctionDef) and f.name.startswith('test')): continue
    exp={};file=None;env={}
    for s in f.body:
        if isinstance(s,ast.Assign):
            nm=s.targets[0].id; tx=ast.unparse(s.value)
            if nm.startswith('expected'): exp[nm[9:]]=ev(s.value)
            elif nm=='vgf': file=s.value.right.value; els=[val(e) for e in json.load(open('/tmp/val/'+file[:-4]+'.json'))]
            elif nm=='v': pass
            elif tx.startswith('['):
                attr=s.value.elt.attr; it=ast.unparse(s.value.generators[0].iter)
                L=els if it=='v.elements' else env[it]
                env[nm[8:]]=[e.get(attr) for e in L]
            else:
                if 'filter_elements' in tx:
                    m=tx[tx.index('(')+1:tx.index(')')]; k,v=m.split('='); num={'VGType.volcano':35,'VGType.ash_cloud':36}.get(v) or int(v)
                    L=[e for e in els if e[k]==num]
                elif 'get_tracks' in tx: L=[e for e in els if e['vg_class']==10]
                else: L=els
                env[nm]=L[0] if '[0]' in tx else L
                if nm.startswith('decoded_'): env[nm[8:]]=env[nm]
    for k,e in exp.items():
        got=env.get(k)
        if got is None:
            c=[v for n,v in env.items() if isinstance(v,dict)]
            got=env.get(k,c[0] if len(c)==1 else None)
        print(f.name,k,file,diff(got,e)[:8] if got is not None else 'NO')
