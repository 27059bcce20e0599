import re
# item: name[:kind][mult][@since[-until]]   mult: ''(?) '!' '*' '+'
# group with alternatives: (a|b)mult@since
# alternatives of sequences: separated by ' || '; an alternative may start with @since or @since-until
K={}   # kind -> dict(attrs=[(name,type,req,since)], content=('text',t) | ('seqs',[ (since,until,[group]) ]))
def parse_item(w):
    m=re.fullmatch(r'(\([^)]*\)|[\w-]+(?::\w+)?)([!*+]?)(?:@(\d)(?:-(\d))?)?',w)
    assert m,w
    body,mult,since,until=m.groups()
    since=int(since or 3); until=int(until or 5)
    alts=body[1:-1].split('|') if body[0]=='(' else [body]
    items=[]
    for a in alts:
        n,_,k=a.partition(':')
        items.append((n,k or 'string'))
    mn,mx={'':(0,1),'!':(1,1),'*':(0,None),'+':(1,None)}[mult]
    return dict(items=items,min=mn,max=mx,since=since,until=until)
def parse_attrs(s):
    out=[]
    for w in s.split():
        m=re.fullmatch(r'([\w-]+)(?::(\w+))?(!?)(?:@(\d))?',w); assert m,w
        out.append((m[1],m[2] or 'string',bool(m[3]),int(m[4] or 3)))
    return out
def seq(k,s,attrs=''):
    alts=[]
    for a in s.split('||'):
        ws=a.split()
        since,until=3,5
        if ws and ws[0][0]=='@':
            m=re.fullmatch(r'@(\d)(?:-(\d))?',ws[0]); since=int(m[1]); until=int(m[2] or 5); ws=ws[1:]
        alts.append((since,until,[parse_item(w) for w in ws]))
    assert k not in K,k
    K[k]=dict(attrs=parse_attrs(attrs),content=('seqs',alts))
def text(k,t='string',attrs=''):
    assert k not in K,k
    K[k]=dict(attrs=parse_attrs(attrs),content=('text',t))
text('string'); text('boolean','boolean'); text('integer','integer'); text('decimal','decimal')
seq('bom','metadata:metadata components:components services:services externalReferences:externalReferences dependencies:dependencies compositions:compositions properties:properties@5 vulnerabilities:vulnerabilities@4 annotations:annotations@5 formulation:formulation@5','serialNumber version:integer')
seq('metadata','timestamp lifecycles:lifecycles@5 tools:tools authors:authors component:component manufacture:organizationalEntity supplier:organizationalEntity licenses:licenses properties:properties')
seq('lifecycles','lifecycle:lifecycle*'); seq('lifecycle','phase! || name! description')
seq('tools','tool:tool* || components:components@5 services:services@5')
seq('tool','vendor name version hashes:hashes externalReferences:externalReferences@4')
seq('authors','author:organizationalContact*')
seq('organizationalContact','name email phone','bom-ref@5')
seq('organizationalEntity','name url* contact:organizationalContact*','bom-ref@5')
seq('components','component:component*')
seq('component','supplier:organizationalEntity author publisher group name! version!@3-3 version@4 description scope hashes:hashes licenses:licenses copyright cpe purl swid:swid modified:boolean pedigree:pedigree externalReferences:externalReferences properties:properties components:components evidence:evidence releaseNotes:releaseNotes@4 modelCard:modelCard@5 data:componentData*@5','type! mime-type bom-ref')
seq('hashes','hash:hash*'); text('hash','string','alg!')
seq('licenses','license:license* || expression:expression')
text('expression','string','bom-ref@5')
text('licenseId'); text('licenseName')
seq('license','(id:licenseId|name:licenseName)! text:attachedText url licensing:licensing@5 properties:properties@5','bom-ref@5')
seq('licensing','altIds:altIds licensor:licenseContact licensee:licenseContact purchaser:licenseContact purchaseOrder licenseTypes:licenseTypes lastRenewal expiration')
seq('altIds','altId*'); seq('licenseTypes','licenseType*')
seq('licenseContact','(organization:organizationalEntity|individual:organizationalContact)!')
text('attachedText','string','content-type encoding'); text('attachment','string','content-type encoding')
seq('swid','text:attachedText url','tagId! name! version tagVersion:integer patch:boolean')
seq('pedigree','ancestors:components descendants:components variants:components commits:commits patches:patches notes')
seq('commits','commit:commit*'); seq('commit','uid url author:identifiableAction committer:identifiableAction message')
seq('identifiableAction','timestamp name email')
seq('patches','patch:patch*'); seq('patch','diff:diff resolves:resolves','type!')
seq('diff','text:attachedText url'); seq('resolves','issue:issue*')
seq('issue','id name description source:namedUrl references:urls','type!')
seq('namedUrl','name url'); seq('urls','url*')
seq('externalReferences','reference:externalReference*')
seq('externalReference','url! comment hashes:hashes','type!')
seq('properties','property:property*'); text('property','string','name!')
seq('evidence','identity:identity@5 occurrences:occurrences@5 callstack:callstack@5 licenses:licenses copyright:copyrights')
seq('copyrights','text*')
seq('identity','field! confidence:decimal methods:methods tools:toolRefs'); seq('methods','method:method*')
seq('method','technique! confidence:decimal! value'); seq('toolRefs','tool:reference*')
seq('reference','','ref!')
seq('occurrences','occurrence:occurrence*'); seq('occurrence','location!','bom-ref')
seq('callstack','frames:frames'); seq('frames','frame:frame*')
seq('frame','package module! function parameters:frameParameters line:integer column:integer fullFilename')
seq('frameParameters','parameter*')
seq('modelCard','modelParameters:modelParameters quantitativeAnalysis:quantitativeAnalysis considerations:considerations properties:properties','bom-ref')
seq('modelParameters','approach:approach task architectureFamily modelArchitecture datasets:datasets inputs:mlInputs outputs:mlOutputs')
seq('approach','type'); seq('datasets','(dataset:componentData|ref)*')
seq('mlInputs','input:mlParameter*'); seq('mlOutputs','output:mlParameter*'); seq('mlParameter','format')
seq('componentData','type! name contents:dataContents classification sensitiveData* graphics:graphics description governance:governance','bom-ref')
seq('dataContents','attachment:attachment url properties:properties')
seq('graphics','description collection:graphicCollection'); seq('graphicCollection','graphic:graphic*'); seq('graphic','name image:attachment')
seq('governance','(custodians:custodians|stewards:stewards|owners:owners)*')
seq('custodians','custodian:responsibleParty*'); seq('stewards','steward:responsibleParty*'); seq('owners','owner:responsibleParty*')
seq('responsibleParty','(organization:organizationalEntity|contact:organizationalContact)!')
seq('quantitativeAnalysis','performanceMetrics:performanceMetrics graphics:graphics'); seq('performanceMetrics','performanceMetric:performanceMetric*')
seq('performanceMetric','type value slice confidenceInterval:confidenceInterval'); seq('confidenceInterval','lowerBound upperBound')
seq('considerations','users:users useCases:useCases technicalLimitations:technicalLimitations performanceTradeoffs:performanceTradeoffs ethicalConsiderations:ethicalConsiderations fairnessAssessments:fairnessAssessments')
seq('users','user*'); seq('useCases','useCase*'); seq('technicalLimitations','technicalLimitation*'); seq('performanceTradeoffs','performanceTradeoff*')
seq('ethicalConsiderations','ethicalConsideration:ethicalConsideration*'); seq('ethicalConsideration','name mitigationStrategy')
seq('fairnessAssessments','fairnessAssessment:fairnessAssessment*'); seq('fairnessAssessment','groupAtRisk benefits harms mitigationStrategy')
seq('services','service:service*')
seq('service','provider:organizationalEntity group name! version description endpoints:endpoints authenticated:boolean x-trust-boundary:boolean trustZone@5 data:serviceData licenses:licenses externalReferences:externalReferences properties:properties services:services releaseNotes:releaseNotes@4','bom-ref')
seq('endpoints','endpoint*')
seq('serviceData','classification:classification* || dataflow:dataflow*@5'); text('classification','string','flow!')
seq('dataflow','classification:classification! governance:governance source:urls destination:urls','name description')
seq('dependencies','dependency:dependency*'); seq('dependency','dependency:subDependency*','ref!'); seq('subDependency','dependency:subDependency*','ref!')
seq('compositions','composition:composition*')
seq('composition','aggregate! assemblies:assemblies dependencies:referencedDependencies vulnerabilities:referencedVulnerabilities@5','bom-ref@5')
seq('assemblies','assembly:reference*'); seq('referencedDependencies','dependency:reference*'); seq('referencedVulnerabilities','vulnerability:reference*')
seq('vulnerabilities','vulnerability:vulnerability*')
seq('vulnerability','id source:namedUrl references:vulnerabilityReferences ratings:ratings cwes:cwes description detail recommendation workaround@5 proofOfConcept:proofOfConcept@5 advisories:advisories created published updated rejected@5 credits:credits tools:tools analysis:analysis affects:affects properties:properties','bom-ref')
seq('vulnerabilityReferences','reference:vulnerabilityReference*'); seq('vulnerabilityReference','id! source:namedUrl!')
seq('ratings','rating:rating*'); seq('rating','source:namedUrl score:decimal severity method vector justification')
seq('cwes','cwe:integer*'); seq('advisories','advisory:advisory*'); seq('advisory','title url!')
seq('credits','organizations:organizations individuals:individuals'); seq('organizations','organization:organizationalEntity*'); seq('individuals','individual:organizationalContact*')
seq('analysis','state justification responses:responses detail firstIssued@5 lastUpdated@5'); seq('responses','response*')
seq('affects','target:target*'); seq('target','ref! versions:versions'); seq('versions','version:affectedVersion*'); seq('affectedVersion','(version|range)! status')
seq('proofOfConcept','reproductionSteps environment supportingMaterial:supportingMaterial'); seq('supportingMaterial','attachment:attachment*')
seq('annotations','annotation:annotation*'); seq('annotation','subjects:subjects! annotator:annotator! timestamp! text!','bom-ref')
seq('subjects','subject:reference*')
seq('annotator','(organization:organizationalEntity|individual:organizationalContact|component:component|service:service)!')
seq('formulation','formula:formula*'); seq('formula','components:components services:services workflows:workflows properties:properties','bom-ref')
seq('workflows','workflow:workflow*')
seq('workflow','uid! name description resourceReferences:resourceReferences tasks:tasks taskDependencies:dependencies taskTypes:taskTypes! trigger:trigger steps:steps inputs:inputs outputs:outputs timeStart timeEnd workspaces:workspaces runtimeTopology:dependencies properties:properties','bom-ref!')
seq('tasks','task:task*')
seq('task','uid! name description resourceReferences:resourceReferences taskTypes:taskTypes! trigger:trigger steps:steps inputs:inputs outputs:outputs timeStart timeEnd workspaces:workspaces runtimeTopology:dependencies properties:properties','bom-ref!')
seq('taskTypes','taskType+')
seq('resourceReferences','resourceReference:resourceReference*'); seq('resourceReference','(ref|externalReference:externalReference)!')
seq('trigger','uid! name description resourceReferences:resourceReferences type! event:event conditions:conditions timeActivated inputs:inputs outputs:outputs properties:properties','bom-ref!')
seq('event','uid description timeReceived data:attachment source:resourceReference target:resourceReference properties:properties')
seq('conditions','condition:condition*'); seq('condition','description expression properties:properties')
seq('inputs','input:input*'); seq('input','(resource:resourceReference|parameters:parameters|environmentVars:environmentVars|data:attachment)! source:resourceReference target:resourceReference properties:properties')
seq('outputs','output:output*'); seq('output','(resource:resourceReference|environmentVars:environmentVars|data:attachment)! type source:resourceReference target:resourceReference properties:properties')
seq('parameters','parameter:parameter*'); seq('parameter','name value dataType')
seq('environmentVars','(environmentVar:property|value)*')
seq('steps','step:step*'); seq('step','name description commands:commands properties:properties')
seq('commands','command:command*'); seq('command','executed properties:properties')
seq('workspaces','workspace:workspace*')
seq('workspace','uid! name aliases:aliases description resourceReferences:resourceReferences accessMode mountPath managedDataType volumeRequest volume:volume properties:properties','bom-ref!')
seq('aliases','alias*'); seq('volume','uid name mode path sizeAllocated persistent:boolean remote:boolean properties:properties')
seq('releaseNotes','type! title featuredImage socialImage description timestamp aliases:aliases tags:tags resolves:resolves notes:notes properties:properties')
seq('tags','tag*'); seq('notes','note:note*'); seq('note','locale text:noteText!'); text('noteText','string','content-type encoding')
for k,d in K.items():
    if d['content'][0]=='seqs':
        for _,_,gs in d['content'][1]:
            for g in gs:
                for n,t in g['items']: assert t in K,(k,n,t)
        # consistency: same name same kind
        m={}
        for _,_,gs in d['content'][1]:
            for g in gs:
                for n,t in g['items']: assert m.setdefault(n,t)==t,(k,n)
print(len(K)) if __name__=='__main__' else None
