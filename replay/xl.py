import zipfile, re, json, sys, datetime, unicodedata
import xml.etree.ElementTree as ET
from fractions import Fraction
NS='{http://schemas.openxmlformats.org/spreadsheetml/2006/main}'
RN='{http://schemas.openxmlformats.org/officeDocument/2006/relationships}'
BUILTIN_DATE=set(list(range(14,23))+[45,46,47])
def col(s):
    n=0
    for c in s: n=n*26+ord(c)-64
    return n
def is_date_fmt(f):
    f=f.split(';')[0]
    f=re.sub(r'"[^"]*"|\[[^\]]*\]|\\.|_.','',f)
    return re.search(r'[dmhysDMHYS]',f) is not None
def load(path):
    z=zipfile.ZipFile(path)
    wb=ET.fromstring(z.read('xl/workbook.xml'))
    pr=wb.find(NS+'workbookPr'); d1904=pr is not None and pr.get('date1904') in('1','true')
    rels={r.get('Id'):r.get('Target') for r in ET.fromstring(z.read('xl/_rels/workbook.xml.rels'))}
    ss=[]
    if 'xl/sharedStrings.xml' in z.namelist():
        for si in ET.fromstring(z.read('xl/sharedStrings.xml')):
            t=''
            for ch in si:
                if ch.tag==NS+'t': t+=ch.text or ''
                elif ch.tag==NS+'r':
                    for x in ch.findall(NS+'t'): t+=x.text or ''
            ss.append(t.replace('x005F_',''))
    st=ET.fromstring(z.read('xl/styles.xml'))
    fm={int(n.get('numFmtId')):n.get('formatCode') for n in st.iter(NS+'numFmt')}
    xfs=[int(x.get('numFmtId',0)) for x in st.find(NS+'cellXfs')]
    date=[ (i in BUILTIN_DATE) if i not in fm else is_date_fmt(fm[i]) for i in xfs]
    out=[]
    for sh in wb.find(NS+'sheets'):
        t=rels[sh.get(RN+'id')]; t=t.lstrip('/') ; t=t if t.startswith('xl/') else 'xl/'+t
        if 'chartsheet' in t: continue
        ws=ET.fromstring(z.read(t)); cells={}
        for c in ws.iter(NS+'c'):
            m=re.match(r'([A-Z]+)(\d+)$',c.get('r')); rc=(int(m[2]),col(m[1]))
            v=c.find(NS+'v'); ty=c.get('t','n'); val=None
            if v is not None and v.text is not None:
                x=v.text
                if ty=='n':
                    n=float(x) if ('.' in x or 'E' in x or 'e' in x) else int(x)
                    if date[int(c.get('s',0))]:
                        base=datetime.datetime(1904,1,1) if d1904 else datetime.datetime(1899,12,30)
                        n=base+datetime.timedelta(days=n)
                        # round to seconds
                        n=(n+datetime.timedelta(microseconds=500000)).replace(microsecond=0)
                    val=n
                elif ty=='s': val=ss[int(x)]
                elif ty=='b': val=bool(int(x))
                else: val=x
            elif ty=='inlineStr':
                val=''.join(t.text or '' for t in c.iter(NS+'t'))
            cells[rc]=val
        for mc in ws.iter(NS+'mergeCell'):
            a,b=(mc.get('ref').split(':')+[None])[:2]
            if b:
                ma=re.match(r'([A-Z]+)(\d+)$',a);mb=re.match(r'([A-Z]+)(\d+)$',b)
                for r in range(int(ma[2]),int(mb[2])+1):
                    for k in range(col(ma[1]),col(mb[1])+1):
                        if (r,k)!=(int(ma[2]),col(ma[1])): cells.pop((r,k),None)
        out.append((sh.get('name'),cells))
    return out
SPECIAL={'º':'o','°':'deg','ª':'a','…':'...','–':'-','—':'--','“':'"','”':'"','’':"'",'‘':"'",'\xa0':' ','´':"'",'ß':'ss','€':'EU','•':'*'}
def uni(c):
    if ord(c)<128: return c
    if c in SPECIAL: return SPECIAL[c]
    d=''.join(x for x in unicodedata.normalize('NFKD',c) if ord(x)<128)
    return d
def num(x):
    if x!=x: return 'nan'
    f=Fraction(x); return [str(f.numerator),str(f.denominator)]
def enc(v):
    if v is None: return ['none']
    if isinstance(v,bool): return ['bool',v]
    if isinstance(v,int): return ['int',str(v)]
    if isinstance(v,float): return ['float',num(v)]
    if isinstance(v,datetime.datetime):
        return ['dt',v.year,v.month,v.day,((v.hour*60+v.minute)*60+v.second)*1000000+v.microsecond]
    return ['str',v]
def dump(sheet,extra):
    name,cells=sheet
    chars={};fl=[];rp=[];seen=set()
    for v in cells.values():
        if isinstance(v,str):
            for c in v: 
                if ord(c)>127: chars[c]=uni(c)
            for s in (v,v.strip()):
                if s not in seen:
                    seen.add(s)
                    try: fl.append([s,num(float(s))])
                    except ValueError: pass
        if isinstance(v,float): rp.append([num(v),repr(v)])
    o=dict(title=name,maxRow=max([k[0] for k in cells]+[1]),maxCol=max([k[1] for k in cells]+[1]),
        cells=[[r,c,*enc(v)] for (r,c),v in cells.items() if v is not None],
        chars=[[k,v] for k,v in chars.items()],floats=fl,reprs=rp,**extra)
    return o
