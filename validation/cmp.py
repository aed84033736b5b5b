import sys; sys.path.insert(0,'/tmp/val')
import npz
for f in ['none','dec','grib','diff']:
    s,t,v=npz.load(f'/repo/tests/data/{f}.npz')['values']
    rows=[[None if x=='nan' else int(x.split('/')[0])/int(x.split('/')[1]) for x in l.split()] for l in open(f+'.out')]
    fl=[x for r in rows for x in r]
    print(f,s,len(rows),len(rows[0]),max(abs(a-b)/abs(b) for a,b in zip(fl,v)), len(fl)==len(v))
for f in ['little_endian']:
    fl=open(f+'.out').read().split(); print(f,len(fl),set(fl))
