#!/usr/bin/env python3
"""Translate the circuit tables of /repo/fhevm/src/codegen/codegen_*.rs into Lean data.

Purely textual: every `AnyBitCircuit::Bk(BitCircuit::new([nodes], width))` becomes one Lean
definition with the same nodes in the same order and the same width.  Usage:

    python3 tools/gen_circuits.py [repo] [output directory]
"""
import re
import sys

REPO = sys.argv[1] if len(sys.argv) > 1 else "/repo"
OUT = sys.argv[2] if len(sys.argv) > 2 else "/verif/lean/Verif/Model/Circuits"
NAMES = {"lui": "Lui", "jalr": "Jalr", "auipc": "Auipc", "ram_offset": "RamOffset",
         "pc_update": "PcUpdate"}


def load(name):
    path = f"{REPO}/fhevm/src/codegen/codegen_{name}.rs"
    text = open(path).read()
    bits = int(re.search(r"const INPUT_BITS: usize = (\d+)", text).group(1))
    outs = int(re.search(r"const OUTPUT_BITS: usize = (\d+)", text).group(1))
    start = text.index("OUTPUT_CIRCUITS")
    first = text.count("\n", 0, start) + 1
    last = text.count("\n") + 1
    parts = re.split(r"AnyBitCircuit::B(\d+)\(BitCircuit::new\(", text[start:])
    circuits = []
    for k in range(1, len(parts), 2):
        assert int(parts[k]) == len(circuits)
        m = re.match(r"\s*\[(.*?)\]\s*,\s*(\d+)\s*,?\s*\)", parts[k + 1], re.S)
        body = m.group(1)
        nodes = []
        pos = 0
        tok = re.compile(r"\s*Node::(?:Cmux\(\s*(\d+)\s*,\s*(\d+)\s*,\s*(\d+)\s*,?\s*\)|(Copy)|(None))\s*,?\s*")
        while pos < len(body.rstrip()):
            n = tok.match(body, pos)
            assert n, body[pos:pos + 60]
            pos = n.end()
            if n.group(4):
                nodes.append(".copy")
            elif n.group(5):
                nodes.append(".none")
            else:
                nodes.append(f".cmux {n.group(1)} {n.group(2)} {n.group(3)}")
        circuits.append((nodes, int(m.group(2))))
    assert len(circuits) == outs == 32
    return bits, circuits, first, last


for name, mod in NAMES.items():
    bits, circuits, first, last = load(name)
    ns = mod[0].lower() + mod[1:]
    o = [f"import Verif.Model.Bdd",
         f"/- Generated by tools/gen_circuits.py from fhevm/src/codegen/codegen_{name}.rs:{first}-{last}",
         f"   (`OUTPUT_CIRCUITS`); node for node, same order, same widths. -/",
         f"namespace Verif.Model.Circuits.{mod}", "open Verif.Model", "",
         f"/-- `INPUT_BITS` of codegen_{name}.rs. -/",
         f"def inputBits : Nat := {bits}", ""]
    for i, (nodes, w) in enumerate(circuits):
        o.append(f"def b{i} : BitCircuit where")
        o.append(f"  maxInterState := {w}")
        if not nodes:
            o.append("  nodes := []")
        else:
            o.append("  nodes := [")
            lines = [", ".join(nodes[j:j + w]) for j in range(0, len(nodes), w)]
            o.append(",\n".join("    " + l for l in lines) + "]")
        o.append("")
    o.append("/-- `OUTPUT_CIRCUITS`. -/")
    o.append("def circuits : List BitCircuit :=")
    o.append("  [" + ",\n   ".join(", ".join(f"b{i}" for i in range(a, min(a + 8, 32))) for a in range(0, 32, 8)) + "]")
    o.append("")
    o.append(f"end Verif.Model.Circuits.{mod}")
    open(f"{OUT}/{mod}.lean", "w").write("\n".join(o) + "\n")
