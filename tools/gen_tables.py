#!/usr/bin/env python3
"""Transcribe the precomputed tables of /repo/btcec into lean/Verif/Curve/Data.

Reads the string constants of btcec/secp256k1.go and btcec/secp256k1H.go, undoes base64 and zlib
as btcec/precompute.go does, and writes each of the 32 rows of a table as one number: word k of
entry i (little-endian uint32, all below 2^28) is found at bit 28 * (30 * i + k).
"""
import base64, os, re, struct, zlib

OUT = os.path.join(os.path.dirname(os.path.abspath(__file__)), "../lean/Verif/Curve/Data")

for name, src, lines in (("G", "secp256k1.go", "23-67"), ("H", "secp256k1H.go", "69-113")):
    text = open("/repo/btcec/" + src).read()
    data = zlib.decompress(base64.b64decode(re.search(r'= "([^"]*)"', text).group(1)))
    assert len(data) == 32 * 256 * 30 * 4
    words = struct.unpack("<%dI" % (len(data) // 4), data)
    assert max(words) < 2 ** 28
    rows = []
    for b in range(32):
        w = words[b * 7680:(b + 1) * 7680]
        rows.append(sum(x << (28 * k) for k, x in enumerate(w)))
    for part in range(4):
        with open("%s/Tab%s%d.lean" % (OUT, name, part), "w") as f:
            f.write("/-!\n# Rows %d to %d of the table in btcec/%s\n\nWritten by tools/gen_tables.py.\n-/\n\n"
                    "namespace Zk.Curve\n" % (8 * part, 8 * part + 7, src))
            for b in range(8 * part, 8 * part + 8):
                f.write("\n/-- Row %d of the table in btcec/%s:10, unpacked by btcec/precompute.go:%s. -/\n"
                        "def row%s%d : Nat :=\n  0x%x\n" % (b, src, lines, name, b, rows[b]))
            f.write("\nend Zk.Curve\n")
