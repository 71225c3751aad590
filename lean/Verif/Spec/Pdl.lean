import Verif.Model.Bytes
/-!
The language of `src/uci_packets.pdl`, as far as the packets use it: what a packet with given values of its fields is on the
wire. The description is `little_endian_packets` (line 15): the bits of a packet are the bits of its fields one after the other,
each with its least significant bit first.
-/

namespace Pica.Spec.Pdl

/-- A field of a packet or of a structure. -/
inductive Field where
  /-- `id : bits`, or a member of an enumeration of that width -/
  | scalar (id : String) (bits : Nat)
  /-- `_reserved_ : bits` -/
  | reserved (bits : Nat)
  /-- `_fixed_ = value : bits` -/
  | fixed (value bits : Nat)
  /-- `_count_(id) : bits`, the number of elements of an array -/
  | count (id : String) (bits : Nat)
  /-- `_size_(id) : bits`, the number of its bytes -/
  | size (id : String) (bits : Nat)
  /-- `_size_(_body_) : bits`, the same of the payload -/
  | sizeOfPayload (bits : Nat)
  /-- `id : bits if flag = value` -/
  | optional (id : String) (bits : Nat) (flag : String) (value : Nat)
  /-- `id : 8[]` -/
  | bytes (id : String)
  /-- `id : 8[n]` -/
  | array (id : String) (n : Nat)
  /-- `id : E[]` of an enumeration -/
  | scalars (id : String) (bits : Nat)
  /-- `id : S[]` of a structure -/
  | structs (id : String) (element : List Field)
  /-- `id : S` -/
  | struct (id : String) (element : List Field)
  /-- `_payload_` or `_body_`: where the fields of a derived packet are -/
  | payload

/-- A packet: a root, or derived from another one with values for some of its fields. -/
inductive Packet where
  | root (fields : List Field)
  | child (parent : Packet) (constraints : List (String × Nat)) (fields : List Field)

/-- The value of a field. -/
inductive Value where
  | absent
  | int (n : Nat)
  | bytes (b : Bytes)
  | ints (l : List Nat)
  | record (l : List (String × Value))
  | records (l : List (List (String × Value)))

/-- The values of the fields of a packet or structure. -/
abbrev Values := List (String × Value)

def Values.get (env : Values) (id : String) : Value :=
  match env with
  | [] => .absent
  | (k, v) :: env => if k = id then v else Values.get env id

def Values.int (env : Values) (id : String) : Nat :=
  match env.get id with
  | .int n => n
  | _ => 0

def Values.bytes (env : Values) (id : String) : Bytes :=
  match env.get id with
  | .bytes b => b
  | _ => []

def Values.ints (env : Values) (id : String) : List Nat :=
  match env.get id with
  | .ints l => l
  | _ => []

def Values.records (env : Values) (id : String) : List Values :=
  match env.get id with
  | .records l => l
  | _ => []

def Values.record (env : Values) (id : String) : Values :=
  match env.get id with
  | .record l => l
  | _ => []

/-- The number of elements of an array. -/
def Values.length (env : Values) (id : String) : Nat :=
  match env.get id with
  | .bytes b => b.length
  | .ints l => l.length
  | .records l => l.length
  | _ => 0

/-- Bits, some of which are reserved. -/
abbrev Pattern := List (Option Bool)

/-- The bits of a number. -/
def nat (bits v : Nat) : Pattern := (List.range bits).map fun i => some (v.testBit i)

/-- Reserved bits. -/
def gap (bits : Nat) : Pattern := List.replicate bits none

/-- The bits of bytes. -/
def octets (b : Bytes) : Pattern := b.flatMap fun x => nat 8 x.toNat

mutual
/-- The bits of a field; `p` are those of the payload. -/
def Field.pattern (env : Values) (p : Pattern) : Field → Pattern
  | .scalar id n => nat n (env.int id)
  | .reserved n => gap n
  | .fixed v n => nat n v
  | .count id n => nat n (env.length id)
  | .size id n => nat n (env.length id)
  | .sizeOfPayload n => nat n (p.length / 8)
  | .optional id n flag v => if env.int flag = v then nat n (env.int id) else []
  | .bytes id => octets (env.bytes id)
  | .array id _ => octets (env.bytes id)
  | .scalars id n => (env.ints id).flatMap fun v => nat n v
  | .structs id l => (env.records id).flatMap fun e => patterns e [] l
  | .struct id l => patterns (env.record id) [] l
  | .payload => p
/-- The bits of fields one after the other. -/
def patterns (env : Values) (p : Pattern) : List Field → Pattern
  | [] => []
  | f :: l => f.pattern env p ++ patterns env p l
end

/-- The bits of a packet with a payload. -/
def Packet.within (env : Values) (p : Pattern) : Packet → Pattern
  | .root l => patterns env p l
  | .child q cs l => q.within (cs.map (fun c => (c.1, Value.int c.2)) ++ env) (patterns env p l)

/-- The bits of a packet. The values for `_payload_` are those of `payload`. -/
def Packet.pattern (q : Packet) (env : Values) : Pattern := q.within env (octets (env.bytes "payload"))

/-- The bits of bytes. -/
def bitsOf (b : Bytes) : List Bool := b.flatMap fun x => (List.range 8).map x.toNat.testBit

/-- Bits that agree with a pattern. Those that are reserved may have any value. -/
def Agrees : Pattern → List Bool → Prop
  | [], [] => True
  | none :: p, _ :: b => Agrees p b
  | some x :: p, y :: b => y = x ∧ Agrees p b
  | _, _ => False

/-- Bytes with these bits, whatever the reserved ones are. -/
def Matches (p : Pattern) (b : Bytes) : Prop := Agrees p (bitsOf b)

/-- Bytes with these bits, the reserved ones being 0. -/
def IsWritten (p : Pattern) (b : Bytes) : Prop := bitsOf b = p.map (·.getD false)

end Pica.Spec.Pdl
