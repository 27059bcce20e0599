import sys; sys.path.insert(0,'/verif/scripts/xsd')
from table import K
V={3:'.v1_3',4:'.v1_4',5:'.v1_5'}
def item(n,t): return f'("{n}", .{t})'
def part(g):
    fn={(0,1):'mayHave',(1,1):'mustHave',(0,None):'anyNumber',(1,None):'atLeastOne'}[(g['min'],g['max'])]
    if len(g['items'])==1:
        n,t=g['items'][0]; s=f'{fn} "{n}" .{t}'
    else:
        fn={'mustHave':'oneOf','anyNumber':'anyOf'}[fn]
        s=f'{fn} [{", ".join(item(n,t) for n,t in g["items"])}]'
    if g['since']>3: s=f'({s}).from {V[g["since"]]}'
    if g['until']<5: s=f'({s}).upTo {V[g["until"]]}'
    return s
def seqs(k): return [gs for _,_,gs in K[k]['content'][1]]
def present(v,gs): return [g for g in gs if g['since']<=v<=g['until']]
def plist(v,gs): return '['+', '.join(part(g) for g in present(v,gs))+']'
# writers: (type, tag or None if parameter, element type, versions since, takes version)
W=[('AttachedText',None,'attachedText',3,0),('Property','property','property',3,0),('Hash','hash','hash',3,0),
('OrganizationalContact',None,'organizationalContact',3,0),('OrganizationalEntity',None,'organizationalEntity',3,0),
('ExternalReference','reference','externalReference',3,0),('VulnerabilitySource','source','namedUrl',4,0),
('VulnerabilityReference','reference','vulnerabilityReference',4,0),('Advisory','advisory','advisory',4,0),
('VulnerabilityCredits','credits','credits',4,0),('Dependency','dependency','dependency',3,0),
('Composition','composition','composition',3,1),('IdentifiableAction',None,'identifiableAction',3,0),('Commit','commit','commit',3,0),
('Diff','diff','diff',3,0),('Source','source','namedUrl',3,0),('Issue','issue','issue',3,0),('Patch','patch','patch',3,0),
('VulnerabilityAnalysis','analysis','analysis',4,1),('TargetVersion','version','affectedVersion',4,0),
('VulnerabilityTarget','target','target',4,0),('License','license','license',3,1),('SpdxExpression','expression','expression',3,0),
('Licenses','licenses','licenses',3,1),('VulnerabilityRating','rating','rating',4,0),('ComponentEvidence','evidence','evidence',3,1),
('DataGovernanceResponsibleParty',None,'responsibleParty',5,0),('DataGovernance',None,'governance',5,0),
('Attachment',None,'attachment',5,0),('Graphic','graphic','graphic',5,0),('GraphicsCollection',None,'graphics',5,0),
('DataContents','contents','dataContents',5,0),('ComponentData',None,'componentData',5,0),
('ModelParametersApproach','approach','approach',5,0),('Dataset','dataset','componentData',5,0),('MLParameter',None,'mlParameter',5,0),
('ModelParameters','modelParameters','modelParameters',5,0),('ConfidenceInterval','confidenceInterval','confidenceInterval',5,0),
('PerformanceMetric','performanceMetric','performanceMetric',5,0),('QuantitativeAnalysis','quantitativeAnalysis','quantitativeAnalysis',5,0),
('Considerations','considerations','considerations',5,0),('ModelCard','modelCard','modelCard',5,0),
('DataClassification','classification','classification',3,0),('ServiceData','dataflow','dataflow',5,0),
('ServiceDataChoice','data','serviceData',3,1),('Swid','swid','swid',3,0),('Lifecycle','lifecycle','lifecycle',5,0),
('Component','component','component',3,1),('Pedigree','pedigree','pedigree',3,1),('Service','service','service',3,1),
('Tool','tool','tool',3,1),('Tools','tools','tools',3,1),('Metadata','metadata','metadata',3,1),('Vulnerability','vulnerability','vulnerability',4,1),
('ResourceReference',None,'resourceReference',5,0),('Parameter','parameter','parameter',5,0),('Input','input','input',5,0),('Output','output','output',5,0),
('Command','command','command',5,0),('Step','step','step',5,0),('TriggerEvent','event','event',5,0),('Condition','condition','condition',5,0),
('Trigger','trigger','trigger',5,0),('Volume','volume','volume',5,0),('Workspace','workspace','workspace',5,0),('WorkflowTask','task','task',5,0),
('Workflow','workflow','workflow',5,0),('Formula','formula','formula',5,1)]
HEAD='''set_option linter.unusedSectionVars false
set_option linter.unusedSimpArgs false
set_option linter.unusedVariables false
set_option synthInstance.maxSize 100000
set_option synthInstance.maxHeartbeats 400000
'''
def tags():
    o=['''import Verif.Lemmas.Conforming.Basic
import Verif.Lemmas.Format.Parts
import Verif.Model.Format.Bom

/-!
# Lemmas: the names of the elements that the writers write

Generated.
-/

set_option linter.unusedSectionVars false

namespace Cdx.Conforming

open Spec

section
variable [F32Format]

theorem component_writeAll (v : SpecVersion) (l : List Component) :
    Component.writeXmlAll v l = l.flatMap (Component.writeXml v) := by
  induction l with
  | nil => simp [Component.writeXmlAll]
  | cons a l ih => simp [Component.writeXmlAll, ih]

instance (tag s) : Tag (writeCdata tag s) tag := ⟨⟩''']
    for T,tag,ty,since,tv in W:
        a=' v' if tv else ''
        b=' (v : SpecVersion)' if tv else ''
        if tag is None: o.append(f'instance (tag : String) (x : {T}) : Tag ({T}.writeXml tag x) tag := ⟨⟩')
        else: o.append(f'instance{b} (x : {T}) : Tag ({T}.writeXml{a} x) "{tag}" := ⟨⟩')
    pairs=set()
    for k,d in K.items():
        ns=[a[0] for a in d['attrs']]
        for i in range(len(ns)):
            for j in range(i+1,len(ns)): pairs.add((ns[j],ns[i]))
    for m,n in sorted(pairs): o.append(f'instance : Differ "{m}" "{n}" := ⟨by decide⟩')
    for k,d in K.items():
        if d['content'][0]=='text': o.append(f'instance : Texty .{k} .{d["content"][1]} := ⟨rfl⟩')
    o.append('''
end

end Cdx.Conforming
''')
    open('/verif/lean/Verif/Lemmas/Conforming/Tags.lean','w').write('\n'.join(o))
manual=open('/verif/scripts/xsd/conforming.txt').read()
M={}
for blk in manual.split('=== ')[1:]:
    n,_,body=blk.partition('\n')
    M[n.strip()]=body.strip('\n')
def reach(v):
    seen=[];todo=['bom']
    while todo:
        k=todo.pop()
        if k in seen: continue
        seen.append(k)
        d=K[k]
        if d['content'][0]=='seqs':
            for gs in seqs(k):
                for g in present(v,gs): todo+= [t for _,t in g['items']]
    return [k for k in K if k in seen]
def sub(s,v):
    import re
    out=[]
    for line in s.split('\n'):
        m=re.match(r'%(\d+)\|(.*)',line)
        if m:
            if str(v) in m[1]: out.append(m[2])
        else: out.append(line)
    return '\n'.join(out).replace('%v',V[v])
def vfile(v):
    o=[f'''import Verif.Lemmas.Conforming.Tags

/-!
# Lemmas: what is written in version 1.{v} follows the schema, or departs from it in a known way

Generated, one instance for each writer.
-/

{HEAD}
namespace Cdx.Conforming.V1_{v}

open Spec Cdx

section
variable [F32Format]{" [Decimals]" if v>3 else ""}
''']
    for k in reach(v):
        d=K[k]
        ats=[a for a in d['attrs'] if a[3]<=v]
        def at(a):
            s=f'{"needs" if a[2] else "has"} "{a[0]}" .{a[1]}'
            return f'({s}).from {V[a[3]]}' if a[3]>3 else s
        o.append(f'instance : Rules {V[v]} .{k} [{", ".join(at(a) for a in ats)}] := ⟨rfl⟩')
        if d['content'][0]=='seqs':
            ss=seqs(k)
            if len(ss)==1:
                o.append(f'instance : Kids {V[v]} .{k} {plist(v,ss[0])} := ⟨_, rfl, List.mem_singleton.mpr rfl⟩')
            its=[]
            for gs in ss:
                for g in present(v,gs): its+= [item(n,t) for n,t in g['items']]
            o.append(f'instance : Items {V[v]} .{k} [{", ".join(its)}] := ⟨rfl⟩')
    o.append(sub(f'''
instance (tag s : String) : Elem True %v tag .string (writeCdata tag s) := by
  unfold writeCdata; infer_instance''',v))
    for T,tag,ty,since,tv in W:
        if v<since: continue
        a=' '+V[v] if tv else ''
        for pre in M.get(T+'.pre','').split('\x00'):
            if pre: o.append('\n'+sub(pre,v))
        key=f'{T}.{v}' if f'{T}.{v}' in M else T
        if key in M:
            o.append('\n'+sub(M[key],v)); continue
        if tag is None:
            o.append(f'\ninstance (tag : String) (x : {T}) : Elem True {V[v]} tag .{ty} ({T}.writeXml tag x) := by\n  unfold {T}.writeXml; infer_instance')
        else:
            o.append(f'\ninstance (x : {T}) : Elem True {V[v]} "{tag}" .{ty} ({T}.writeXml{a} x) := by\n  unfold {T}.writeXml; infer_instance')
    o.append('\n'+sub(M[f'Bom.{v}'] if f'Bom.{v}' in M else M['Bom'],v))
    o.append(f'''
end

end Cdx.Conforming.V1_{v}
''')
    open(f'/verif/lean/Verif/Lemmas/Conforming/V1_{v}.lean','w').write('\n'.join(o))
tags()
for v in (3,4,5): vfile(v)
