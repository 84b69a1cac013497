#!/usr/bin/env python3
"""Writes lean/Verif/Model/Templates.lean: the text of the .pre templates of /repo, verbatim."""
import os
T=[('blasH','include/BlasBooster/BlasInterface/Blas.h.pre'),
('mklH','include/BlasBooster/BlasInterface/BlasInterface_IntelMKL.h.pre'),
('openH','include/BlasBooster/BlasInterface/BlasInterface_OpenBLAS.h.pre'),
('typesH','include/BlasBooster/BlasInterface/FunctionTypes.h.pre'),
('spH','include/BlasBooster/BlasInterface/IntelMKL_SpBlas.h.pre'),
('mklCpp','src/Interfaces/IntelMKL/BlasInterface_IntelMKL.cpp.pre'),
('openCpp','src/Interfaces/OpenBLAS/BlasInterface_OpenBLAS.cpp.pre')]
out=['import Verif.Model.Text\n\n/-!\n# The templates of the BLAS interface, verbatim\n\nGenerated by tools/gen_templates.py from the `.pre` files of /repo.\n-/\n\nnamespace BB.Gen\n']
for n,p in T:
    s=open('/repo/'+p).read()
    assert '"##' not in s
    lines=s.count('\n')+(0 if s.endswith('\n') else 1)
    out.append(f'/-- /repo/{p}:1-{lines} -/\ndef {n} : Text := text r##"{s}"##\n')
c=open('/repo/src/Interfaces/IntelMKL/BlasInterface_IntelMKL.cpp').read().split('\n')[:18]
out.append('/-- /repo/src/Interfaces/IntelMKL/BlasInterface_IntelMKL.cpp:1-18, the beginning of the committed file. -/\ndef mklCommitted : Text := text r##"'+'\n'.join(c)+'"##\n')
out.append('end BB.Gen\n')
open('/verif/lean/Verif/Model/Templates.lean','w').write('\n'.join(out))
