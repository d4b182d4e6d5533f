import json
out=[]
T={'len':['C21_variable','C68_true_cfl_partial'],'ausmFace':['C28_ausm_supersonic_right','C28_ausm_supersonic_left'],'dQdt':['C69_bdf2_exact'],'hiC':['C71_cubic_prims'],'fz':['C104_conductivity_partial','C104_cpg_violated'],'Ts':['C105_samples']}
for l in open('/tmp/mut/results.jsonl'):
    e=json.loads(l)
    if not e['failed'] and not e['tightened'] and e['definition'] in T: e['tightened']=T[e['definition']]
    if not e['failed'] and e['definition']=='limiter': e['note']='equivalent for every stated claim: the edited branch is never distinguished (limiter value only multiplies a zero numerator)'
    if not e['failed'] and e['definition']=='trans interior only': e['note']='equivalent for C91: transport values beyond the first halo layer are read by no kernel, so the claim stays true of the edited program'
    if not e['failed'] and e['definition']=='evSegs': e['note']='C111 stays true of the edited program: all ranks drop the same reductions'
    out.append(json.dumps(e,ensure_ascii=False))
es=[json.loads(x) for x in out]
N={'fillSpecies sym':'equivalent: the zero scratch value is the same at (n, n2) and (min, max) when the table starts from zeros',
   'largeIndex':'equivalent, as the claim field explains','evOps .archive':'equivalent: the two arguments are equal there',
   'advLine':'C110 stays true of the edited program (wrong in every frame alike); the schemes themselves are pinned by C01, C28, C62',
   'gradAt':'C110 stays true of the edited program (wrong in every frame alike); the gradients are pinned by C61'}
for i,e in enumerate(es):
    if not e['failed'] and not e['tightened']:
        later=[x for x in es[i+1:] if x['file']==e['file'] and x['edit']==e['edit'] and x['failed']]
        if later: e['tightened']=[f.split(':')[-1] for f in later[0]['failed']]
        elif 'note' not in e and e['definition'] in N: e['note']=N[e['definition']]
out=[json.dumps(e,ensure_ascii=False) for e in es]
open('/verif/seeded/LOG.jsonl','w').write('\n'.join(out)+'\n')
