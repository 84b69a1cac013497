#!/usr/bin/env python3
"""Extract the BLAS wrapper tables of /repo into Verif/Model/WrapperTable.lean.

Every row is read from the text of the .cpp and .h files, argument by argument; nothing is assumed
about the callee or about the order of the arguments.  The script stops on text it cannot read."""
import re
R = '/repo/'
H = 'include/BlasBooster/BlasInterface/'
CODE = {'float': 's', 'double': 'd', 'std::complex<float>': 'c', 'std::complex<double>': 'z',
        'int': 'i', 'char': 'h'}

def par(t):
    t = t.strip().replace(' *', '*')
    assert t.endswith('*'), t
    t = t[:-1].strip()
    return CODE[t[6:]] if t.startswith('const ') else CODE[t].upper()

def ret(t):
    return 'void' if t == 'void' else {'s': 'float', 'd': 'double', 'c': 'cfloat', 'z': 'cdouble', 'i': 'int'}[CODE[t]]

def split(ps):
    out = []
    for p in ps.split(','):
        m = re.match(r'(.*\*)\s*(v\d+)$', p.strip())
        out.append((par(m.group(1)), m.group(2)))
    return out

def wrappers(f, lib):
    s = open(R + f).read()
    out = []
    n = len(re.findall(r'::operator\(\)', s))
    for m in re.finditer(r'^([\w:<> ]+?) BlasInterface ?< ?%s, (\w+) ?>::operator\(\) \(\s*(.*?)\) const\s*\{(.*?)\n\}' % lib, s, re.S | re.M):
        r, name, ps, body = m.groups()
        ps = split(ps)
        pos = {v: i for i, (_, v) in enumerate(ps)}
        lines = [l.strip() for l in body.strip().split('\n')]
        if len(lines) == 1:
            c = re.match(r'return ::(\w+)\((.*)\);$', lines[0])
            hidden = 'false'
        else:
            assert len(lines) == 3 and lines[0] == r + ' result;' and lines[2] == 'return result;', lines
            c = re.match(r'::(\w+)\((.*)\);$', lines[1])
            hidden = 'true'
        args = []
        for a in c.group(2).split(','):
            a = a.strip()
            args.append('.res' if a == '&result' else '.v %d' % pos[a])
        out.append((name, ret(r), ''.join(p for p, _ in ps), c.group(1), args, hidden, s[:m.start()].count('\n') + 1))
    assert len(out) == n, (len(out), n)
    return out

def decls(f, lib):
    s = open(R + f).read()
    out = []
    for m in re.finditer(r'struct BlasInterface <%s, (\w+)>\s*\{\s*([\w:<> ]+?) operator\(\) \((.*?)\) const;' % lib, s, re.S):
        out.append((m.group(1), ret(m.group(2)), ''.join(p for p, _ in split(m.group(3)))))
    assert len(out) == len(re.findall(r'operator\(\)', s))
    return out

def protos(f):
    s = open(R + f).read()
    out = []
    for m in re.finditer(r'^([\w:<>]+) (\w+)\((.*?)\);', s, re.M):
        out.append((m.group(2), ret(m.group(1)), ''.join(par(p) for p in m.group(3).split(','))))
    assert len(out) == s.count(');')
    return out

def tags(f):
    s = open(R + f).read()
    out = re.findall(r'struct (\w+)\n\{\n    static std::string name\(\) \{ return "(\w+)"; \}\n\};', s)
    assert len(out) == s.count('struct ')
    return out

L = ['/- Generated by tools/gen_wrappers.py from the wrapper sources of /repo; do not edit. -/',
     'import Verif.Model.Wrapper', '', 'namespace BB.Wrap', '']
def wtable(nm, f, lib):
    w = wrappers(f, lib)
    L.append('/-- /repo/%s:%d-%d: one row per `BlasInterface<%s, ·>::operator()`, in the order of the file:' % (f, w[0][6], w[-1][6] + 6, lib))
    L.append('the tag, the return type, the parameter types (lower case = pointer to const), the routine')
    L.append('called, the argument list, and whether the result is taken from a local `result`. -/')
    L.append('def %s : List Wrapper := [' % nm)
    L.append(',\n'.join('  { name := "%s", ret := .%s, params := sig "%s", callee := "%s",\n    args := [%s], hidden := %s }'
                        % (n, r, p, c, ', '.join(a), h) for n, r, p, c, a, h, _ in w) + ']')
    L.append('')
def stable(nm, fs, get, what):
    L.append('/-- %s: %s. -/' % (', '.join('/repo/' + f for f in fs), what))
    L.append('def %s : List Sig := [' % nm)
    rows = [x for f in fs for x in get(f)]
    L.append(',\n'.join('  { name := "%s", ret := .%s, params := sig "%s" }' % x for x in rows) + ']')
    L.append('')
wtable('openBLAS', 'src/Interfaces/OpenBLAS/BlasInterface_OpenBLAS.cpp', 'OpenBLAS')
wtable('intelMKL', 'src/Interfaces/IntelMKL/BlasInterface_IntelMKL.cpp', 'IntelMKL')
stable('openBLASDecls', [H + 'BlasInterface_OpenBLAS.h'], lambda f: decls(f, 'OpenBLAS'), 'the declared call operators')
stable('intelMKLDecls', [H + 'BlasInterface_IntelMKL.h'], lambda f: decls(f, 'IntelMKL'), 'the declared call operators')
stable('blasProtos', [H + 'Blas.h'], protos, 'the extern "C" prototypes')
stable('sparseProtos', [H + 'IntelMKL_SpBlas.h'], protos, 'the extern "C" prototypes')
L.append('/-- /repo/%sFunctionTypes.h: the routine tags and what their `name()` returns. -/' % H)
L.append('def tags : List (String × String) := [')
L.append(',\n'.join('  ("%s", "%s")' % t for t in tags(H + 'FunctionTypes.h')) + ']')
L += ['', 'end BB.Wrap', '']
open('/verif/lean/Verif/Model/WrapperTable.lean', 'w').write('\n'.join(L))
