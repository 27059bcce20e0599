import sys,glob,re,os
sys.path.insert(0,os.path.dirname(os.path.abspath(__file__)))
from table import K
import xml.etree.ElementTree as ET
def local(t): return t.split('}')[1] if '}' in t else t
def ns(t): return t.split('}')[0][1:] if '}' in t else None
def txt(t,s):
    s=s.strip()
    return {'string':lambda:True,'boolean':lambda:s in('true','false','1','0'),'integer':lambda:re.fullmatch(r'[+-]?[0-9]+',s) is not None,'decimal':lambda:re.fullmatch(r'[+-]?([0-9]+(\.[0-9]*)?|\.[0-9]+)',s) is not None}[t]()
def check(v,e,k,path,out):
    d=K[k]; p=path+'/'+local(e.tag)
    for n,t,req,since in d['attrs']:
        if since>v: continue
        if req and n not in e.attrib: out.append((p,'missing @'+n))
        if n in e.attrib and not txt(t,e.attrib[n]): out.append((p,'bad @'+n))
    kind,c=d['content']
    if kind=='text':
        if len(e): out.append((p,'children in text'))
        if not txt(c,e.text or ''): out.append((p,'bad text %r'%e.text))
        return
    kids=[x for x in e if ns(x.tag)==bomns]
    names=[local(x.tag) for x in kids]
    ok=False
    types={}
    for s,u,gs in c:
        if not (s<=v<=u): continue
        r=''
        for g in gs:
            if not(g['since']<=v<=g['until']): continue
            for n,t in g['items']: types[n]=t
            r+='(?:(?:'+'|'.join(re.escape(n) for n,_ in g['items'])+') ){%d,%s}'%(g['min'],'' if g['max'] is None else g['max'])
        if re.fullmatch(r,''.join(n+' ' for n in names)): ok=True
    if not ok: out.append((p,'sequence %s'%names))
    for x in kids:
        t=types.get(local(x.tag))
        if t: check(v,x,t,p,out)
for f in sorted(glob.glob('/repo/cyclonedx-bom/tests/spec/1.*/*.xml')+glob.glob('/repo/cyclonedx-bom/tests/data/**/*.xml',recursive=True)):
    try: root=ET.parse(f).getroot()
    except Exception as ex: print('??',f,ex); continue
    bomns=ns(root.tag)
    m=re.search(r'bom/1\.(\d)',bomns or '')
    if not m: print('ns',f,bomns); continue
    v=int(m[1])
    if v<3 or v>5: continue
    out=[]
    check(v,root,'bom','',out)
    b=os.path.basename(f)
    inv=b.startswith('invalid')
    if inv and not out: print('INVALID ACCEPTED',v,b)
    if not inv and out: print('VALID REJECTED',v,b,out[:3])
