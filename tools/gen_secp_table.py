#!/usr/bin/env python3
"""Translate the table of byte points of btcec (package/github.com/btcsuite/btcd/btcec/v1/secp256k1.go), decoded as in
precompute.go:30-39 (base64, then zlib), into lean/Verif/Model/SecpTableN.lean: one natural number per point, the 120 bytes of
the point read little-endian."""
import base64, re, zlib
s = open('/repo/package/github.com/btcsuite/btcd/btcec/v1/secp256k1.go').read()
d = zlib.decompress(base64.b64decode(re.search(r'secp256k1BytePoints = "([^"]*)"', s).group(1)))
assert len(d) == 32 * 256 * 120
for part in range(4):
    out = ['/-', 'Generated by tools/gen_secp_table.py: windows %d to %d of the byte points of secp256k1.go:10, decoded.' % (8*part, 8*part+7),
           'Each number is the 120 serialized bytes of a point, little-endian.', '-/', 'namespace Tss.Secp', '']
    for i in range(8 * part, 8 * part + 8):
        out.append('/-- secp256k1.go:10, serialized bytes %d to %d. -/' % (i*256*120, (i+1)*256*120-1))
        out.append('def tableRow%d : List Nat := [' % i)
        out.append(',\n'.join('  0x%x' % int.from_bytes(d[(256*i+b)*120:(256*i+b+1)*120], 'little') for b in range(256)) + ']')
        out.append('')
    out.append('end Tss.Secp')
    open('/verif/lean/Verif/Model/SecpTable%d.lean' % part, 'w').write('\n'.join(out) + '\n')
