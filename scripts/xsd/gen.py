import os,sys,textwrap
sys.path.insert(0,os.path.dirname(os.path.abspath(__file__)))
from table import K
V={3:'.v1_3',4:'.v1_4',5:'.v1_5'}
def lname(k): return k
def item(n,t): return f'("{n}", .{lname(t)})'
def part(g):
    fn={(0,1):'mayHave',(1,1):'mustHave',(0,None):'anyNumber',(1,None):'atLeastOne'}[(g['min'],g['max'])]
    if len(g['items'])==1:
        n,t=g['items'][0]; s=f'{fn} "{n}" .{lname(t)}'
    else:
        fn={'mustHave':'oneOf','anyNumber':'anyOf'}[fn]
        s=f'{fn} [{", ".join(item(n,t) for n,t in g["items"])}]'
    if g['since']>3: s=f'({s}).from {V[g["since"]]}'
    if g['until']<5: s=f'({s}).upTo {V[g["until"]]}'
    return s
def wrap(s,ind):
    return textwrap.fill(s,width=100,initial_indent='',subsequent_indent=' '*ind,break_long_words=False,break_on_hyphens=False)
out=[]
names=list(K)
out.append(open(os.path.join(os.path.dirname(os.path.abspath(__file__)),'head.txt')).read())
out.append('/-- The types of elements. -/\ninductive ElementType where')
line='  | '+' | '.join(names)
out.append('\n'.join('  '+l for l in textwrap.wrap('| '+' | '.join(names),width=96)))
out.append('  deriving DecidableEq, Repr\n')
out.append(open(os.path.join(os.path.dirname(os.path.abspath(__file__)),'mid.txt')).read())
for k in names:
    d=K[k]
    at=[]
    for n,t,req,since in d['attrs']:
        s=f'{"needs" if req else "has"} "{n}" .{t}'
        if since>3: s=f'({s}).from {V[since]}'
        at.append(s)
    if d['content'][0]=='text': c=f'.text .{d["content"][1]}'
    else: c='.children ['+', '.join('['+', '.join(part(g) for g in gs)+']' for _,_,gs in d['content'][1])+']'
    a='['+', '.join(at)+']'
    out.append(wrap(f'  | .{k} => ⟨{a}, {c}⟩',6))
out.append('')
out.append(open(os.path.join(os.path.dirname(os.path.abspath(__file__)),'tail.txt')).read())
open('/verif/lean/Verif/Spec/XmlSchema.lean','w').write('\n'.join(out))
