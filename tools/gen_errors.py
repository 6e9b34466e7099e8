#!/usr/bin/env python3
"""Generates lean/Verif/Model/Errors.lean from the three Rust error enums."""
import re
out=["import Verif.Model.Basic","","/-!\n# Error codes\n\nGenerated by tools/gen_errors.py from program/src/error.rs:20-167 (`SwigError`) and state/src/lib.rs:104-211\n(`SwigStateError`, `SwigAuthenticateError`).  The code is the enum discriminant, as in `ProgramError::Custom(e as u32)`.\n-/","","namespace Verif.E",""]
def enum(path,name,prefix):
    t=open(path).read()
    m=re.search(r'pub enum %s \{(.*?)\n\}'%name,t,re.S)
    n=None
    line0=t[:m.start()].count('\n')+1
    for off,l in enumerate(m.group(1).split('\n')):
        l=l.split('//')[0].strip()
        mm=re.match(r'(\w+)(?:\s*=\s*(\d+))?,',l)
        if mm:
            n=int(mm.group(2)) if mm.group(2) else n+1
            nm=mm.group(1); nm=nm[0].lower()+nm[1:]
            out.append(f"/-- `{name}::{mm.group(1)}` ({path.replace('/repo/','')}:{line0+off}). -/\nabbrev {prefix}{nm} : Err := .custom {n}")
enum('/repo/program/src/error.rs','SwigError','')
enum('/repo/state/src/lib.rs','SwigStateError','st_')
enum('/repo/state/src/lib.rs','SwigAuthenticateError','au_')
out.append("\nend Verif.E\n")
open('lean/Verif/Model/Errors.lean','w').write('\n'.join(out))
