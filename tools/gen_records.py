#!/usr/bin/env python3
"""Writes lean/Verif/Model/Records.lean: every `repr(C)` record of the program and its stated length, read from /repo. Run from /verif."""
import os,re,sys
REPO='/repo/'
BASE={'u8':'u8','bool':'u8','u16':'u16','u32':'u32','u64':'u64','u128':'u128','SwigInstruction':'u16','Pubkey':'(bytes 32)'}
SIZE={'u8':1,'bool':1,'u16':2,'u32':4,'u64':8,'u128':16}
def field(t,consts):
    t=t.strip()
    if t in BASE: return BASE[t]
    m=re.fullmatch(r'\[(\w+);\s*(\w+)\]',t)
    if m:
        n=int(m.group(2)) if m.group(2).isdigit() else consts[m.group(2)]
        return f'(bytes {n})' if m.group(1)=='u8' else f'(array {BASE[m.group(1)]} {n})'
    raise SystemExit('unknown type '+t)
recs=[]
for root in ['program/src','state/src']:
    for d,ds,fs in os.walk(REPO+root):
        ds.sort()
        for f in sorted(fs):
            if not f.endswith('.rs'): continue
            p=os.path.join(d,f); s=open(p).read()
            consts={a:int(b) for a,b in re.findall(r'const (\w+): usize = (\d+);',s)}
            for q in ['state/src/authority/programexec/mod.rs']:
                consts.update({a:int(b) for a,b in re.findall(r'const (\w+): usize = (\d+);',open(REPO+q).read())})
            s=s.replace('$name','ScopedSubAccountV2')
            lens={}
            for m in re.finditer(r'impl(?:<[^>]*>)? Transmutable for (\w+)(?:<[^>]*>)? \{(.*?)^\s*\}',s,re.S|re.M):
                e=re.search(r'const LEN: usize\s*=\s*([^;]+);',m.group(2)).group(1)
                lens[m.group(1)]=(e,s[:m.start(2)+m.group(2).index('const LEN')].count('\n')+1)
            for m in re.finditer(r'((?:^[ \t]*#\[[^\n]*\]\n|^[ \t]*///[^\n]*\n)+)^[ \t]*pub(?:\([a-z]+\))? struct (\w+)\s*\{([^{}]*)\}',s,re.M):
                a=re.search(r'#\[repr\(C(?:,\s*align\((\d+)\))?\)\]',m.group(1))
                if not a: continue
                line=s[:m.start(2)].count('\n')+1
                body=re.sub(r'//[^\n]*','',m.group(3))
                fl=[x.strip() for x in re.split(r',(?![^\[]*\])',body) if x.strip()]
                fl=[re.fullmatch(r'(?:pub(?:\([a-z]+\))?\s+)?(\w+)\s*:\s*(.+)',re.sub(r'#\[[^\]]*\]','',x).strip(),re.S).groups() for x in fl]
                n=m.group(2)
                end=s[:m.end()].count('\n')+1
                recs.append((n,p[len(REPO):],line,end,int(a.group(1) or 1),[(x,field(t,consts)) for x,t in fl],lens.get(n),'NoPadding' in m.group(1)))
names={r[0] for r in recs}
def lenexpr(n,e):
    e=re.sub(r'\s+','',e)
    m=re.fullmatch(r'(?:core::mem::)?size_of::<(\w+)>\(\)',e)
    if m: return (n if m.group(1)=='Self' else m.group(1))+'.size'
    if re.fullmatch(r'[\d+]+',e): return e.replace('+',' + ')
    for d,_,fs in os.walk(REPO+'state/src'):
        for f in fs:
            m=re.search(r'const '+re.escape(e)+r': usize = (\d+);',open(os.path.join(d,f)).read())
            if m: return m.group(1)
    raise SystemExit('unknown LEN '+e)
with open('lean/Verif/Model/Records.lean','w') as o:
    w=o.write
    w('import Verif.Spec.Layout\n\n/-!\n# The records of the program\n\nGenerated by tools/gen_records.py from the source: the fields of every record with C layout, and the length the program states for it\n(`Transmutable::LEN`).  `bool` and `SwigInstruction` count as `u8` and `u16`; `u128` is aligned to 8 bytes as on the target.\n-/\n\nnamespace Verif.Rec\nopen Field\n\n')
    for n,p,l,e,al,fl,ln,np in recs:
        w(f'/-- {p}:{l}-{e}. -/\ndef {n} : Record := ⟨{al}, [{", ".join(t for _,t in fl)}]⟩\n')
        for i,(x,_) in enumerate(fl):
            if 'padding' in x or x.startswith('_'): continue
            w(f'def {n}.{x} : Span := {n}.span {i}\n')
        w('\n')
    w('/-- The records read from and written as bytes, each with the length stated for it. -/\ndef stated : List (Record × Nat) := [\n')
    w(',\n'.join(f'  /- {p}:{ln[1]} -/ ({n}, {lenexpr(n,ln[0])})' for n,p,l,e,al,fl,ln,np in recs if ln))
    w(']\n\n/-- The records the compiler checks for padding (`#[derive(NoPadding)]`). -/\ndef checked : List Record := [\n  ')
    w(',\n  '.join(n for n,p,l,e,al,fl,ln,np in recs if np))
    w(']\n\nend Verif.Rec\n')
print(len(recs),[r[0] for r in recs if not r[6]],[r[0] for r in recs if not r[7]])
