#!/usr/bin/env python3
"""Transcribe the names of the tags of /repo/src/uci_packets.pdl and the enumerations of
/repo/py/pica/pica/packets/uci.py, read as text, into Lean.

Usage: gen_names.py /repo/src/uci_packets.pdl > lean/Verif/Model/EnumNames.lean
       gen_names.py /repo/py/pica/pica/packets/uci.py > lean/Verif/Model/PyEnums.lean
The output is committed; the build does not run this script."""
import re, sys
import os
here = os.path.dirname(os.path.abspath(__file__))
gen = open(os.path.join(here, 'gen_enums.py')).read()
CLOSED = re.search(r'CLOSED = """(.*?)"""', gen, re.S).group(1).split()
OPEN = re.search(r'OPEN = "(.*?)"', gen).group(1).split()

def camel(tag):
    parts = [p for p in tag.split('_') if p]
    return parts[0].lower() + ''.join(p[0].upper() + p[1:].lower() for p in parts[1:])

src = open(sys.argv[1]).read().split('\n')
p = print
if sys.argv[1].endswith('.pdl'):
    enums = {}
    i = 0
    while i < len(src):
        m = re.match(r'enum (\w+)\s*:\s*(\d+)\s*\{', src[i])
        if m:
            start = i + 1; tags = []; nested = []; depth = 1; i += 1
            while depth:
                line = src[i].split('//')[0].strip()
                t = re.match(r'(\w+)\s*=\s*(0x[0-9A-Fa-f]+|\d+)\s*,?$', line)
                if t: (tags if depth == 1 else nested).append(t.group(1))
                depth += line.count('{') - line.count('}')
                i += 1
            enums[m.group(1)] = (start, i, tags, nested)
            continue
        i += 1
    p("""import Verif.Model.Enums
/-!
The names of the tags of `/repo/src/uci_packets.pdl`, transcribed by `/verif/tools/gen_names.py`.
-/

namespace Pica

/-- The name of a tag in the packet description. -/
class NamedEnum (E : Type) where
  name : E → String
""")
    for n in CLOSED:
        a, b, tags, nested = enums[n]
        p(f"/-- `src/uci_packets.pdl` {a}-{b}. -/\ninstance : NamedEnum {n} where\n  name")
        for t in tags: p(f'    | .{camel(t)} => "{t}"')
        p("")
    for n in OPEN:
        a, b, tags, nested = enums[n]
        p(f"/-- The named tags of `{n}` outside of its ranges, `src/uci_packets.pdl` {a}-{b}. -/")
        p(f"def {n}.named : List (String × {n}) := [")
        p(",\n".join(f'  ("{t}", .{camel(t)})' for t in tags) + "]\n")
        p(f"/-- The named tags of `{n}` within its ranges, `src/uci_packets.pdl` {a}-{b}. -/")
        p(f"def {n}.nested : List (String × {n}) := [")
        p(",\n".join(f'  ("{t}", .{camel(t)})' for t in nested) + "]\n")
    p("end Pica")
else:
    p("""/-!
The enumerations of `/repo/py/pica/pica/packets/uci.py`, transcribed by `/verif/tools/gen_names.py`.
-/

namespace Pica.Py

/-- A class derived from `enum.IntEnum`. -/
structure IntEnum where
  name : String
  members : List (String × Nat)
  /-- `from_int` raises for other values than those of the members; otherwise it returns them -/
  closed : Bool
  deriving DecidableEq

/-- `E.from_int(v)`; `none` is an exception. -/
def IntEnum.fromInt (c : IntEnum) (v : Nat) : Option Nat :=
  if v ∈ c.members.map Prod.snd then some v else if c.closed then none else some v

/-- The classes, in their order. -/
def classes : List IntEnum := [""")
    out = []
    i = 0
    while i < len(src):
        m = re.match(r'class (\w+)\(enum\.IntEnum\):', src[i])
        if m:
            start = i + 1; members = []; i += 1; closed = None
            while closed is None:
                t = re.match(r'    (\w+) = (0x[0-9a-fA-F]+|\d+)$', src[i])
                if t: members.append((t.group(1), int(t.group(2), 0)))
                if src[i].strip() == 'raise exn': closed = True
                if src[i].strip() == 'return v': closed = False
                i += 1
            body = ',\n    '.join(f'("{t}", 0x{v:02x})' for t, v in members)
            out.append(f'  -- {start}-{i}\n  ⟨"{m.group(1)}", [\n    {body}],\n    {"true" if closed else "false"}⟩')
            continue
        i += 1
    p(",\n".join(out) + "]\n")
    p("end Pica.Py")
