import csv
for f in ['climate','lwc_std_sfc']:
    ref={(r['STN'],r['YYMMDD/HHMM']):r for r in csv.DictReader(open(f'/repo/tests/data/{f}.csv'))}
    n=0;bad=[]
    for l in open(f+'.all.out'):
        p=l.rstrip('\n').split('|'); y,mo,d,h,mi=map(int,p[1].split())
        r=ref[(p[0].strip(),'%02d%02d%02d/%02d%02d'%(y%100,mo,d,h,mi))]
        for kv in p[2:]:
            k,v=kv.split('=',1)
            if k in('text','spcl'): continue
            n+=1
            a=float(v);b=float(r[k.upper()])
            if abs(a-b)>1e-6*max(1,abs(b)): bad.append((p[1],k,a,b))
    print(f,n,len(ref),bad[:5])
