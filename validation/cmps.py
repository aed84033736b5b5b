import csv,glob
def read(p):
    return {l.split()[0]:[float('nan') if x=='nan' else float(x) for x in l.split()[1:]] for l in open(p)}
for f in ['msn_hrrr_mrg','top_sigw_hght_unmrg','waml_sigw_pres_unmrg','dl10548_sigw_pres_unmrg_man_bgl','nzwp_no_ttcc']:
    try: d=read(f+'.0.out')
    except Exception as e: print(f,e); continue
    rows=list(csv.DictReader(open(f'/repo/tests/data/{f}.csv')))
    for k in rows[0]:
        if k.lower() not in d: print(f,'no',k); continue
        a=d[k.lower()]; b=[float(r[k]) for r in rows]; b=[float('nan') if x==-9999 else x for x in b]
        bad=[(i,x,y) for i,(x,y) in enumerate(zip(a,b)) if not (abs(x-y)<=1.1e-2 or (x!=x and y!=y))]
        print(f,k,len(a),len(b),'ok' if not bad and len(a)==len(b) else bad[:4])
