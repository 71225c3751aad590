#!/usr/bin/env python3
"""Transcribe the fields of the packets of /repo/py/pica/pica/packets/uci.py, read as text, into Lean: for every class derived
from `Packet` the names and types of its dataclass fields in the order of `dataclasses.fields`, that is those of the base class
first.

Usage: gen_fields.py /repo/py/pica/pica/packets/uci.py > lean/Verif/Model/PyFields.lean
The output is committed; the build does not run this script."""
import ast, sys
tree = ast.parse(open(sys.argv[1]).read())
base, own, lines = {}, {}, {}
for n in tree.body:
    if isinstance(n, ast.ClassDef):
        base[n.name] = ast.unparse(n.bases[0]) if n.bases else ''
        own[n.name] = [(s.target.id, ast.unparse(s.annotation)) for s in n.body if isinstance(s, ast.AnnAssign)]
        lines[n.name] = [s.lineno for s in n.body if isinstance(s, ast.AnnAssign)] or [n.lineno]

def isenum(c): return base.get(c) == 'enum.IntEnum'

def fields(c):
    r = fields(base[c]) if base[c] in base else []
    for f in own[c]:
        assert f[0] not in [x[0] for x in r]
        r.append(f)
    return r

def lean(c): return c[0].lower() + c[1:]

def ty(t):
    if t == 'int': return '.int'
    if t == 'bytearray': return '.custom'
    if t == 'Optional[int]': return '.other "typing.Optional[int]"'
    if t == 'Optional[bytes]': return '.other "typing.Optional[bytes]"'
    if t.startswith('List['): return f'.list ({ty(t[5:-1])})'
    if isenum(t): return f'.enum "{t}"'
    assert t in base, t
    return f'.struct .{lean(t)}'

def rows(xs):
    """The elements of a list, in lines of at most 120 characters."""
    r, line = [], ''
    for i, x in enumerate(xs):
        x = x + (',' if i + 1 < len(xs) else '')
        if line and len(line) + 1 + len(x) > 112:
            r.append(line); line = x
        else: line = (line + ' ' + x).strip()
    return '\n      '.join(r + [line])

classes = [c for c in base if not isenum(c) and c != 'Packet']
bases = [c for c in base if c in ('Packet',) or any(base[d] == c for d in classes)]
p = print
p("""/-!
The fields of the packets of `/repo/py/pica/pica/packets/uci.py`, transcribed by `/verif/tools/gen_fields.py`.
-/

namespace Pica.Py

/-- The classes derived from `Packet`. -/
inductive Class where""")
for c in classes: p(f"  | {lean(c)}")
p("""  deriving DecidableEq, Repr

/-- `__name__`. -/
def Class.name : Class → String""")
for c in classes: p(f'  | .{lean(c)} => "{c}"')
p("""
/-- The type of a field, as `Packet.show` (26-83) tells them apart. `bytes` is not among them: no field has it. -/
inductive FieldType where
  | int
  /-- a class derived from `enum.IntEnum` -/
  | enum (name : String)
  /-- a class derived from `Packet` -/
  | struct (c : Class)
  | list (element : FieldType)
  /-- another class; this is `bytearray` -/
  | custom
  /-- what is no class; its text -/
  | other (text : String)
  deriving DecidableEq, Repr

/-- The name and the type of a field. -/
abbrev Field := String × FieldType
""")
def entry(c):
    own_ = [f'("{n}", {ty(t)})' for n, t in own[c]]
    b = (lean(base[c]) + 'Fields') if base[c] in base else ''
    if not own_: return b
    l = '[' + rows(own_) + ']'
    return f'{b} ++\n      {l}' if b and len(l) > 60 else f'{b} ++ {l}' if b else l
for c in bases:
    l = lines[c]
    p(f"/-- The fields of `{c}`, {l[0]}-{l[-1]}. -/\ndef {lean(c)}Fields : List Field :=\n  {entry(c)}\n")
p("/-- `dataclasses.fields` of a class: its fields in their order, those of the class it is derived from first. -/")
p("def Class.fields : Class → List Field")
for c in classes:
    l = lines[c]
    p(f"  -- {l[0]}-{l[-1]}")
    p(f"  | .{lean(c)} =>\n    {lean(c) + 'Fields' if c in bases else entry(c)}")
p("\nend Pica.Py")
