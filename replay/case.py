"""Replays the integration tests of the package on the model: python3 case.py [all1 ... crit7 ctx6 comp6]."""
import json,sys,subprocess,datetime,time,os,tempfile
from fractions import Fraction
from xl import *
HERE=os.path.dirname(os.path.abspath(__file__)); TMP=tempfile.mkdtemp()
B='/repo/xlseries/tests/integration_cases/'
def mk(i,remove=False,sets=(),orig=None):
    wb=load(orig or B+f'original/test_case{i}.xlsx')
    params=json.load(open(B+f'parameters/test_case{i}.json'))
    d=dump(wb[0],dict(params=list(map(list,params.items())),remove=remove,set=[list(x) for x in sets]))
    json.dump(d,open(TMP+'/in.json','w'))
def expected(i,special=''):
    res=[]
    for n,c in load(B+f'expected/test_case{i}{special}.xlsx'):
        if not c: continue
        R=max(r for r,_ in c if c[(r,_)] is not None);C=max(k for r,k in c if c[(r,k)] is not None)
        cols=[c.get((1,k)) for k in range(2,C+1)]
        idx=[c.get((r,1)) for r in range(2,R+1)]
        data=[[c.get((r,k)) for r in range(2,R+1)] for k in range(2,C+1)]
        res.append((idx,cols,data))
    return res
def run():
    t=time.time()
    p=subprocess.run('cp %s/Replay.lean.txt %s/Replay.lean && cd /verif/lean && lake env lean --run %s/Replay.lean %s/in.json'%(HERE,TMP,TMP,TMP),shell=True,capture_output=True,text=True)
    print('   ',p.stderr.strip()[:500],round(time.time()-t,1),'s')
    return json.loads(p.stdout) if p.stdout.strip() else {}
def val(x): return float('nan') if x=='nan' else int(x[0])/int(x[1])
def compare(got,exp):
    if 'frames' not in got: return str(got)
    fs=[]
    for f in got['frames']:
        fs.append(([datetime.datetime(*t[:3])+datetime.timedelta(microseconds=t[3]) for t in f['index']],f['columns'],[[val(x) for x in c] for c in f['data']],f['freq']))
    fs.sort(key=lambda f:len(f[0])*2); exp=sorted(exp,key=lambda f:len(f[0])*2)
    msgs=[]
    if len(fs)!=len(exp): msgs.append(f'number {len(fs)} vs {len(exp)}')
    for f,e in zip(fs,exp):
        if f[0]!=e[0]: msgs.append(f'index {f[0][:2]}..{f[0][-2:]} {len(f[0])} vs {e[0][:2]}..{e[0][-2:]} {len(e[0])}')
        if f[1]!=e[1]: msgs.append(f'columns {f[1]} vs {e[1]}')
        for ci,(a,b) in enumerate(zip(f[2],e[2])):
            if len(a)!=len(b): msgs.append(f'col {ci} len {len(a)} {len(b)}');continue
            for ri,(x,y) in enumerate(zip(a,b)):
                y=float('nan') if y is None or y=='NaN' else y
                if not isinstance(y,(int,float)): msgs.append(f'exp {y!r}');break
                if (x!=x)!=(y!=y) or (x==x and abs(x-y)>1e-9*max(1,abs(x))): msgs.append(f'col {ci} row {ri}: {x} vs {y}');break
    return msgs or 'OK %s'%[(len(f[0]),f[3],len(f[1])) for f in fs]
if __name__=='__main__':
    sel=sys.argv[1:] 
    tests=[]
    for i in range(1,8): tests.append((f'all{i}',i,False,[('data_ends',None)],'_without_end' if i==5 else ''))
    for i in range(1,8):
        tests.append((f'crit{i}',i,True,{4:[('missing_value','…')],6:[('continuity',False),('blank_rows',True)]}.get(i,[]),'_without_end' if i==5 else ''))
    tests.append(('ctx6',6,False,[('data_ends',None),('context',{"VABpb":"A8-A23","PIBpm":"A8-A27"})],'_context'))
    tests.append(('comp6',6,False,[('data_ends',None),("context",{"VABpb":"B8-B23","PIBpm":"B8-B27"}),("headers_coord","(A8_B8)-(A28_B28)")],'_composed_headers'))
    for n,i,rm,sets,sp in tests:
        if sel and n not in sel: continue
        mk(i,rm,sets); print(n,flush=True); print('   ',compare(run(),expected(i,sp)),flush=True)
