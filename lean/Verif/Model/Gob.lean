import Verif.Model.Phase2
/-
The gob format (Go standard library `encoding/gob`) of the phase 2 header, `/repo/phase2/header.go`: a message defining the
type, then a message with the value. The decoder model accepts the type definition that the encoder writes and no other
(the real one also accepts other field orders); values, field omission and extra bytes in the value message are treated as
the real decoder does.
-/
namespace ZkSetup.Gob

open ZkSetup Phase2

/-- number of bytes of `n` in base 256, at most `fuel` -/
def byteLenAux : (fuel n : Nat) → Nat
  | 0, _ => 0
  | fuel + 1, n => if n = 0 then 0 else byteLenAux fuel (n / 256) + 1

/-- number of bytes of a 64-bit number -/
def byteLen (n : Nat) : Nat := byteLenAux 8 n

/-- `encodeUint`: one byte below 128, else the negated byte count and the big-endian bytes -/
def uintBytes (n : Nat) : Bytes :=
  if n < 128 then [UInt8.ofNat n] else UInt8.ofNat (256 - byteLen n) :: beBytes (byteLen n) n

/-- `encodeInt`: `i << 1`, complemented for negative `i` -/
def zigzag (i : Int) : Nat := if 0 ≤ i then (2 * i).toNat else (2 * (-i - 1) + 1).toNat

def intBytes (i : Int) : Bytes := uintBytes (zigzag i)

/-- `decodeUintReader` -/
def readUint : Go Rd Nat := do
  let b ← Rd.readFull 1
  if (b.headD 0).toNat < 128 then pure (b.headD 0).toNat
  else if 256 - (b.headD 0).toNat > 8 then Go.fail (.err "gob: encoded unsigned integer out of range")
  else do
    let bs ← Rd.readFull (256 - (b.headD 0).toNat)
    pure (beValue bs)

/-- `decodeInt` -/
def unzigzag (u : Nat) : Int := if u % 2 = 1 then -((u / 2 : Nat) : Int) - 1 else ((u / 2 : Nat) : Int)

def readInt : Go Rd Int := do
  let u ← readUint
  pure (unzigzag u)

/-- `recvMessage`: the length and that many bytes; messages of 1 GB and more are refused -/
def message : Go Rd Bytes := do
  let n ← readUint
  if n ≥ 2 ^ 30 then Go.fail (.err "gob: bad data: message too big")
  else Rd.readFull n

/-- a message -/
def messageBytes (payload : Bytes) : Bytes := uintBytes payload.length ++ payload

/-- the field names -/
def names : List (List Char) :=
  [['W', 'i', 'r', 'e', 's'],
   ['W', 'i', 't', 'n', 'e', 's', 's'],
   ['P', 'u', 'b', 'l', 'i', 'c'],
   ['P', 'r', 'i', 'v', 'a', 't', 'e', 'C', 'o', 'm', 'm', 'i', 't', 't', 'e', 'd'],
   ['C', 'o', 'n', 's', 't', 'r', 'a', 'i', 'n', 't', 's'],
   ['D', 'o', 'm', 'a', 'i', 'n'],
   ['C', 'o', 'n', 't', 'r', 'i', 'b', 'u', 't', 'i', 'o', 'n', 's']]

/-- ASCII bytes of a name -/
def ascii (s : List Char) : Bytes := s.map fun c => UInt8.ofNat c.toNat

/-- the type definition: id -65, a struct type named `Header` with id 65 and seven fields of type `int` (id 2) -/
def typeDef : Bytes :=
  [0xFF, 0x81, 0x03, 0x01, 0x01, 0x06] ++ ascii ['H', 'e', 'a', 'd', 'e', 'r'] ++ [0x01, 0xFF, 0x82, 0x00, 0x01, 0x07]
    ++ names.flatMap (fun n => [0x01, UInt8.ofNat n.length] ++ ascii n ++ [0x01, 0x04, 0x00]) ++ [0x00, 0x00]

/-- fields in order -/
def toList (h : Header) : List Int :=
  [h.wires, h.witness, h.pub, h.privateCommitted, h.constraints, h.domain, h.contributions]

def ofList (l : List Int) : Header where
  wires := l.getD 0 0
  witness := l.getD 1 0
  pub := l.getD 2 0
  privateCommitted := l.getD 3 0
  constraints := l.getD 4 0
  domain := l.getD 5 0
  contributions := l.getD 6 0

/-- the fields that are not zero, each with the distance from the last one written; a zero byte at the end -/
def fieldBytes : (delta : Nat) → List Int → Bytes
  | _, [] => [0]
  | d, v :: vs => if v = 0 then fieldBytes (d + 1) vs else uintBytes d ++ intBytes v ++ fieldBytes 1 vs

/-- the value message: type id 65, the fields -/
def valueBytes (h : Header) : Bytes := intBytes 65 ++ fieldBytes 1 (toList h)

/-- `gob.NewEncoder(writer).Encode(h)` -/
def encode (h : Header) : Bytes := messageBytes typeDef ++ messageBytes (valueBytes h)

/-- `decodeStruct`: `num` is the number of the next field -/
def readFields : (fuel num : Nat) → List Int → Go Rd (List Int)
  | 0, _, _ => Go.fail (.err "gob: range error")
  | fuel + 1, num, l => do
    let d ← readUint
    if d = 0 then pure l
    else if num + d - 1 ≥ 7 then Go.fail (.err "gob: range error: corrupted data: field number")
    else do
      let v ← readInt
      readFields fuel (num + d) (l.set (num + d - 1) v)

/-- the value in its message -/
def readValue : Go Rd (List Int) := do
  let id ← readInt
  if id = 65 then readFields 8 0 (List.replicate 7 0) else Go.fail (.err "gob: unknown type id or corrupted data")

/-- `gob.NewDecoder(reader).Decode(h)` -/
def decode : Go Rd Header := do
  let t ← message
  if t = typeDef then do
    let m ← message
    let l ← Go.lift (readValue.run ⟨0, 0, m⟩).1
    pure (ofList l)
  else Go.fail (.err "gob: type mismatch")

/-- the header format of phase 2 files -/
def headerCodec : HeaderCodec where
  enc := encode
  dec := decode

end ZkSetup.Gob
