#!/usr/bin/env python3
"""Transcribes the test vectors of /repo/btcec/field_test.go into Lean examples.

Usage: gen_vectors.py /repo/btcec/field_test.go 1 > lean/Verif/Field/Vectors1.lean
       gen_vectors.py /repo/btcec/field_test.go 2 > lean/Verif/Field/Vectors2.lean
"""
import re
import sys

src = open(sys.argv[1]).read().split("\n")
starts = [(i + 1, m.group(1)) for i, l in enumerate(src)
          for m in [re.match(r"func Test(\w+)\(", l)] if m]


def body(name):
    i = next(k for k, (_, n) in enumerate(starts) if n == name)
    a = starts[i][0]
    b = next(j for j in range(a, len(src)) if src[j] == "}") + 1
    return a, b, "\n".join(re.sub(r"(^|\s)//.*", "", l) for l in src[a - 1:b])


def rows(name):
    a, b, t = body(name)
    t = t[t.index("}{") + 2:]
    t = t[:t.index("\n\t}\n")]
    t = t.replace("[10]uint32{", "⟨").replace("\t", " ")
    # words of a field value, then rows
    t = re.sub(r"⟨([^}]*)}", lambda m: "⟨" + m.group(1) + "⟩", t)
    out = [re.sub(r"\s+", " ", r).strip().rstrip(",") for r in re.findall(r"\{([^{}]*)\}", t)]
    return a, b, out


def hexes(r):
    return re.sub(r'"([0-9a-z]*)"', lambda m: f'"{m.group(1)}"', r)


part = sys.argv[2]
print("import Verif.Text.Model")
print()
print("/-! # The test vectors of btcec/field_test.go")
print()
print("Written by tools/gen_vectors.py.  They are tests of the model, not proofs: on these inputs it gives the")
print("results the authors of the Go code expect. -/")
print()
print("namespace Zk.Text")
print()
print("open Zk Zk.Field")


def emit(name, ty, pat, prop):
    if (part == "2") != (name in ("Mul", "Square", "Inverse")):
        return
    a, b, rs = rows(name)
    print()
    print(f"/-- Test{name}, btcec/field_test.go:{a}-{b}. -/")
    print(f"example : ∀ t ∈ ([")
    print(",\n".join(f"    ({hexes(r)})" for r in rs))
    print(f"    ] : List ({ty})), {prop} := by")
    print("  decide +kernel")


emit("SetInt", "UInt64 × FieldVal", "", "setInt t.1 = t.2")
emit("Stringer", "String × String", "", "(do\n      let f ← setHex (ascii t.1)\n      pure (fieldString f)) = Go.ok (ascii t.2)")
emit("Normalize", "FieldVal × FieldVal", "", "normalize t.1 = t.2")
emit("IsOdd", "String × Bool", "", "(do\n      let f ← setHex (ascii t.1)\n      pure (isOdd f)) = Go.ok t.2")
emit("Equals", "String × String × Bool", "", "(do\n      let f ← normalize <$> setHex (ascii t.1)\n      let f2 ← normalize <$> setHex (ascii t.2.1)\n      pure (equals f f2)) = Go.ok t.2.2")
one = "(do\n      let f ← normalize <$> setHex (ascii t.1)\n      let expected ← normalize <$> setHex (ascii t.2)\n      pure (equals (normalize (%s)) expected)) = Go.ok true"
two = "(do\n      let f ← normalize <$> setHex (ascii t.1)\n      let expected ← normalize <$> setHex (ascii t.2.2)\n      pure (equals (normalize (%s)) expected)) = Go.ok true"
three = "(do\n      let f ← normalize <$> setHex (ascii t.1)\n      let f2 ← normalize <$> setHex (ascii t.2.1)\n      let expected ← normalize <$> setHex (ascii t.2.2)\n      pure (equals (normalize (%s)) expected)) = Go.ok true"
emit("Negate", "String × String", "", one % "negate f 1")
emit("AddInt", "String × UInt64 × String", "", two % "addInt f t.2.1")
emit("Add", "String × String × String", "", three % "add f f2")
emit("Add2", "String × String × String", "", three % "add2 f f2")
emit("MulInt", "String × UInt64 × String", "", two % "mulInt f t.2.1")
emit("Mul", "String × String × String", "", three % "mul f f2")
emit("Square", "String × String", "", one % "square f")
emit("Inverse", "String × String", "", one % "inverse f")
print()
print("end Zk.Text")
