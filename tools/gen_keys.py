#!/usr/bin/env python3
"""Writes lean/Verif/Model/Keys.lean: well-known addresses decoded from base58. Run from /verif."""
A='123456789ABCDEFGHJKLMNPQRSTUVWXYZabcdefghijkmnopqrstuvwxyz'
def b58(s):
    n=0
    for c in s: n=n*58+A.index(c)
    b=n.to_bytes(32,'big')
    return b
keys=[('swigId','swigypWHEksbC64pWKwah1WTeh9JXwx8H1rJHLdbQMB','the program itself, assertions/src/lib.rs:12'),
('systemId','11111111111111111111111111111111','System program (`pinocchio_system::ID`)'),
('tokenId','TokenkegQfeZyiNwAJbNbGKPFXCWuBvf9Ss623VQ5DA','SPL Token, program/src/lib.rs'),
('token2022Id','TokenzQdBNbLqP5VEhdkAS6EPFLC1PHnBqCXEpPxuEb','SPL Token 2022, program/src/lib.rs'),
('stakeId','Stake11111111111111111111111111111111111111','Stake program, program/src/lib.rs'),
('instructionsSysvarId','Sysvar1nstructions1111111111111111111111111','Instructions sysvar (`pinocchio::sysvars::instructions::INSTRUCTIONS_ID`)'),
('secp256r1Id','Secp256r1SigVerify1111111111111111111111111','secp256r1 precompile, state/src/authority/secp256r1.rs:32-41'),
]
with open('lean/Verif/Model/Keys.lean','w') as o:
    o.write('import Verif.Model.Basic\n\n/-!\n# Well-known addresses\n\nGenerated by tools/gen_keys.py from the base58 strings in the source.\n-/\n\nnamespace Verif\n\n')
    for n,s,d in keys:
        o.write(f'/-- {s}: {d}. -/\ndef {n} : Key := [{", ".join(map(str,b58(s)))}]\n\n')
    o.write('end Verif\n')
