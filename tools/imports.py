#!/usr/bin/env python3
"""Regenerate lean/Verif.lean: import every module under lean/Verif."""
import os
root='/verif/lean/Verif'
out=[]
for d in ['Model','Spec','Lemmas','Examples','Props','Witness','Upstream']:
    for f in sorted(os.listdir(f'{root}/{d}')):
        if f.endswith('.lean'): out.append(f'import Verif.{d}.{f[:-5]}')
open('/verif/lean/Verif.lean','w').write('\n'.join(out)+'\n')
