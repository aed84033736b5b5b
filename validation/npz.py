import zipfile,struct,re,ast
def load(path):
    out={}
    z=zipfile.ZipFile(path)
    for n in z.namelist():
        b=z.read(n); v=b[6]
        if v==1: hl=struct.unpack('<H',b[8:10])[0]; o=10
        else: hl=struct.unpack('<I',b[8:12])[0]; o=12
        h=ast.literal_eval(b[o:o+hl].decode()); d=b[o+hl:]
        t=h['descr']; 
        try:
            code={'f4':'f','f8':'d','i4':'i','i8':'q','u4':'I'}[t[1:]]
            e=t[0] if t[0] in '<>' else '<'
            cnt=1
            for k in h['shape']: cnt*=k
            vals=struct.unpack(e+str(cnt)+code,d[:struct.calcsize(code)*cnt])
            if h['fortran_order'] and len(h['shape'])==2:
                r,c=h['shape']; vals=[vals[j*r+i] for i in range(r) for j in range(c)]
        except KeyError: vals=('?',t)
        out[n[:-4]]=(h['shape'],t,vals)
    return out
if __name__=='__main__':
    import sys
    for k,(s,t,v) in load(sys.argv[1]).items(): print(k,s,t,v[:5])
