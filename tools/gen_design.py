#!/usr/bin/env python3
"""Writes DESIGN.md: the prose below plus the per-property table (model, proof method, status from MANIFEST.json)."""
import json
man = {c['property']: c for c in json.load(open('/verif/MANIFEST.json'))['claims']}
props = [json.loads(l) for l in open('/verif/properties.jsonl')]
how = {
'C01': ('Layout: `View`, `pos`, `get`, `set`', 'div/mod bijection'),
'C02': ('Layout', 'injectivity of positions; induction over the list of writes'),
'C03': ('Layout: `View.sub`', 'arithmetic on offsets'),
'C04': ('Layout: striped iterator state machine', 'invariant over increments, wrap-around `size_t` included'),
'C05': ('Layout: cursor begin/end/stride', 'closed form of pointer loops'),
'C06': ('Storage: heap with allocate/free, objects, `Op`, `step`', 'invariant by induction over histories'),
'C07': ('Storage', 'frame invariant over histories'),
'C08': ('Storage', 'history invariant'),
'C09': ('Dense: `convert`', 'loop invariant over cells'),
'C10': ('Dense: `transpose`', 'loop invariant over cells'),
'C11': ('Sparse: `toDense`', 'loop invariant over runs'),
'C12': ('Sparse: `ofView`, `ofDense`', 'emission invariant'),
'C13': ('Sparse: `transpose` (counting sort)', 'three loop invariants, conservation of counts'),
'C14': ('Sparse', 'composition of C11, C12'),
'C15': ('Blocked: `generate`, `toDense`', 'partition lemma, loop invariants'),
'C16': ('Dense: `binop`, `binassign`', 'loop invariant'),
'C17': ('Sparse: `binop` (three merge loops)', 'merge invariant with measure'),
'C18': ('Sparse: `binopDS`, `binassignDS`, `binopSD`', 'loop invariants'),
'C19': ('Mat: `SMat.binop`, `Mat.add/sub`', 'case analysis over kinds'),
'C20': ('Mat', 'composition, case analysis over kinds'),
'C21': ('Dense: `mulGeneral`', 'loop invariant with explicit summation order'),
'C22': ('Dense: `mulCursor`', 'loop invariant with explicit summation order'),
'C23': ('Sparse: `mulSS`', 'emission invariant, sum over runs'),
'C24': ('Sparse: `mulSD`, `mulDS`', 'loop invariants, sum over runs'),
'C25': ('Mat: `mulZero`', 'case analysis'),
'C26': ('Mat: `mul`', 'distributivity, case analysis'),
'C27': ('Blocked: `mul`', 'loop invariant over the grid, sum over a partition'),
'C28': ('Blocked, BlockSize: `blockPipeline`', 'composition of C15/C27/C36/C39, for any limits via C39_outcomes'),
'C29': ('Checker', 'order reasoning'),
'C30': ('Checker', 'order reasoning'),
'C31': ('Checker', 'order reasoning over the sum of checker kinds'),
'C32': ('Checker: `countSig`, occupation', 'counting, monotonicity'),
'C33': ('Cache: objects with caches, `Op`, `step`', 'ghost flag invariant over histories'),
'C34': ('Cache', 'ghost flag invariant over histories'),
'C35': ('Norm', 'fold over buffers, real analysis of max/sum'),
'C36': ('Converter: `convertMatrix`', 'case analysis over the type list'),
'C37': ('Converter', 'search over the list of conditions'),
'C38': ('Dispatch: type lists, tables', 'induction over type lists'),
'C39': ('BlockSize; specification SpecBlockSize', 'refinement of the nested border loops to the greedy relation of SpecBlockSize; outcome = Finished or Stuck'),
'C40': ('BlockSize', 'invariants of the same loops'),
'C41': ('BlockSize: detection arrays; specification SpecBlockSize (steepest open place)', 'greedy refinement and argmax invariant'),
'C42': ('FileIO', 'loop invariant over columns of the window'),
'C43': ('Serialize', 'induction over the archive'),
'C44': ('Dense: fillers', 'loop invariant'),
'C45': ('Compare: deviations', 'folds, real analysis'),
'C46': ('Blas: `gemm`/`csrmm` calls against a contract', 'contract instantiation; a reference implementation shows the contract satisfiable'),
'C47': ('DimHist', 'induction over histories, exact characterisation of harmful steps'),
'C48': ('Compare: `equal`', 'induction over buffers'),
'C49': ('Dense: `ofLists`; BlockedList', 'loop invariants'),
'C50': ('Mat: `Multi`', 'induction over histories'),
'C51': ('Tracker', 'induction over nested scopes'),
'C52': ('Tracker: `EnumParser`', 'induction over registrations'),
'C53': ('Pattern', 'induction over palette, loop invariant'),
'C54': ('Provider: `bandMatrix`', 'loop invariant, `size_t` arithmetic'),
'C55': ('Sparse: `convert`', 'array conversion lemma, C13'),
'C56': ('Provider', 'loop invariant; negations by wrap-around'),
'C57': ('Provider', 'induction over the configuration'),
'C58': ('Blas', 'uniqueness of the denoted object'),
'C59': ('Layout: `View.sub` twice', 'arithmetic'),
'C60': ('Storage', 'counting invariant over frugal histories'),
'C61': ('Storage', 'history invariant'),
'C62': ('Dense, Sparse, Norm, Compare, Serialize, FileIO', 'uniqueness of the denoted object'),
'C63': ('Dense, Sparse, Layout, Blas, Blocked, Checker', 'instances of the general theorems'),
'C64': ('Sparse', 'induction over production histories'),
'C65': ('Mat', 'case analysis over kinds'),
'C66': ('Serialize, FileIO, Mat', 'length invariants of partial executions'),
'C67': ('Compare', 'induction over buffers'),
'C68': ('Dense: `ofLists`; BlockedList', 'loop with failing steps'),
'C69': ('Mat, Tracker, Provider', 'case analysis over build configurations'),
'C70': ('FileIO, Provider', 'case analysis'),
'C71': ('Blas', 'contract instantiation'),
}
extra = json.load(open('/verif/tools/how.json'))
how.update({k: tuple(v) for k, v in extra.items()})
out = open('/verif/tools/design_head.md').read()
out += '\n## Per property: model, proof, result\n\n"Result" is the status in MANIFEST.json; the note there says what is missing or false.\n\n'
out += '| id | property | modelled in | proved by | result |\n|----|----------|-------------|-----------|--------|\n'
for p in props:
    m, h = how.get(p['id'], ('', ''))
    c = man.get(p['id'])
    out += f"| {p['id']} | {p['title']} | {m} | {h} | {c['status'] if c else 'not modelled'} |\n"
out += '\n### Notes per property\n\n'
for p in props:
    c = man.get(p['id'])
    if c and c['note']:
        out += f"* **{p['id']}** ({c['status']}): {c['note']}\n"
open('/verif/DESIGN.md', 'w').write(out)
