#!/usr/bin/env python3
"""Transcribe the enumerations of /repo/src/uci_packets.pdl into Lean.

Usage: gen_enums.py /repo/src/uci_packets.pdl > lean/Verif/Model/Enums.lean
The output is committed; the build does not run this script."""
import re, sys

CLOSED = """PacketBoundaryFlag MessageType GroupId DataPacketFormat CoreOpcodeId SessionConfigOpcodeId
SessionControlOpcodeId AndroidOpcodeId CreditAvailability DataTransferNtfStatusCode ResetConfig
DeviceType RangingRoundUsage StsConfig MultiNodeMode ChannelNumber MacFcsType AoaResultReq
SessionInfoNtfConfig DeviceRole RframeConfig RssiReporting PsduDataRate PreambleDuration LinkLayerMode
RangingTimeStruct PrfMode ScheduleMode KeyRotation MacAddressMode HoppingMode BprfPhrDataRate StsLength
SessionDataTransferStatusNtfConfig DeviceState SessionState MulticastUpdateStatus MacAddressIndicator
SessionType RangingMeasurementType UpdateMulticastListAction""".split()
OPEN = "Status ReasonCode ConfigParameterId AppConfigTlvType CapTlvType".split()

def camel(tag):
    parts = [p for p in tag.split('_') if p]
    out = parts[0].lower() + ''.join(p[0].upper() + p[1:].lower() for p in parts[1:])
    return out

src = open(sys.argv[1]).read().split('\n')
enums = {}
i = 0
while i < len(src):
    m = re.match(r'enum (\w+)\s*:\s*(\d+)\s*\{', src[i])
    if m:
        start = i + 1; tags = []; ranges = []; depth = 1; i += 1
        while depth:
            line = src[i].split('//')[0].strip()
            r = re.match(r'(\w+)\s*=\s*(0x[0-9A-Fa-f]+)\.\.(0x[0-9A-Fa-f]+)', line)
            t = re.match(r'(\w+)\s*=\s*(0x[0-9A-Fa-f]+|\d+)\s*,?$', line)
            d = re.match(r'(\w+)\s*=\s*\.\.', line)
            if r: ranges.append((r.group(1), int(r.group(2), 0), int(r.group(3), 0)))
            elif d: ranges.append((d.group(1), None, None))
            elif t: tags.append((t.group(1), int(t.group(2), 0)))
            depth += line.count('{') - line.count('}')
            i += 1
        enums[m.group(1)] = (int(m.group(2)), start, i, tags, ranges)
        continue
    i += 1

p = print
p("""import Verif.Model.Bytes
/-!
Enumerations of `/repo/src/uci_packets.pdl`, transcribed by `/verif/tools/gen_enums.py`.

A closed enumeration is an inductive type with the wire code of each tag.
`TryFrom<u8>` of the generated Rust code is `WireEnum.ofU8?`: it succeeds exactly on the codes of the tags.
Enumerations with ranges of unnamed values (`Status`, `AppConfigTlvType`, ..) are
represented by their code; the `is..` predicate says which codes are legal.
-/

namespace Pica

/-- A closed enumeration of the packet description: its tags and their codes. -/
class WireEnum (E : Type) where
  /-- `u8::from(tag)` -/
  toU8 : E → UInt8
  /-- the declared tags -/
  all : List E

/-- `E::try_from(u8)`: the tag with that code, if any. -/
def WireEnum.ofU8? {E : Type} [WireEnum E] (b : UInt8) : Option E :=
  (WireEnum.all (E := E)).find? (fun e => WireEnum.toU8 e == b)
""")
for name in CLOSED:
    w, a, b, tags, ranges = enums[name]
    assert not ranges
    p(f"/-- `enum {name} : {w}`, `src/uci_packets.pdl` {a}-{b}. -/")
    p(f"inductive {name} where")
    for t, v in tags: p(f"  | {camel(t)}")
    p("  deriving DecidableEq, Repr, Inhabited\n")
    p(f"/-- Codes of `{name}`. -/")
    p(f"def {name}.code : {name} → UInt8")
    for t, v in tags: p(f"  | .{camel(t)} => 0x{v:02x}")
    p("")
    p(f"instance : WireEnum {name} where\n  toU8 := {name}.code\n  all := [{', '.join('.'+camel(t) for t,_ in tags)}]\n")
for name in OPEN:
    w, a, b, tags, ranges = enums[name]
    p(f"/-- `enum {name} : {w}`, `src/uci_packets.pdl` {a}-{b}, represented by its code. -/")
    p(f"structure {name} where\n  code : UInt8\n  deriving DecidableEq, Repr, Inhabited\n")
    p(f"namespace {name}")
    for t, v in tags: p(f"def {camel(t)} : {name} := ⟨0x{v:02x}⟩")
    if any(lo is None for _, lo, _ in ranges):
        p(f"/-- The enumeration is open: every code is legal. -/\ndef isTag (_ : UInt8) : Bool := true")
    else:
        named = [v for _, v in tags if not any(lo <= v <= hi for _, lo, hi in ranges)]
        p(f"/-- Legal codes: the ranges and the named codes outside of them. -/\ndef isTag (b : UInt8) : Bool :=")
        conds = [f"(0x{lo:02x} ≤ b && b ≤ 0x{hi:02x})" for _, lo, hi in ranges]
        # compress named codes to intervals
        named.sort(); iv = []
        for v in named:
            if iv and iv[-1][1] == v - 1: iv[-1][1] = v
            else: iv.append([v, v])
        conds += [f"(0x{lo:02x} ≤ b && b ≤ 0x{hi:02x})" if lo != hi else f"b == 0x{lo:02x}" for lo, hi in iv]
        p("  " + " ||\n  ".join(conds))
    p(f"end {name}\n")
p("end Pica")
