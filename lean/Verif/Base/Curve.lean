import Verif.Base.Stream
import Mathlib.Algebra.Module.Basic
import Mathlib.Algebra.Field.Basic
/-
Contract of the curve library (gnark-crypto `ecc/bn254`) and of the hash functions. `Curve` is the data
the code uses, `Curve.Lawful` the assumed laws. BN254 is one instance; `Verif/Base/Toy.lean` builds another.
-/
namespace ZkSetup

/-- Point serialisation (gnark-crypto `bn254.Encoder`, `bn254.Decoder`). -/
structure Codec (G : Type) where
  /-- compressed size: 32 for G1, 64 for G2 -/
  size : Nat
  /-- does the first byte announce a compressed point? -/
  compressed : UInt8 → Bool
  /-- `setBytes` with the subgroup check; `none` is an invalid encoding -/
  setBytes : Bytes → Option G
  /-- After a failed `p.setBytes(b)`: has `p` been changed into coordinates that are encoded differently? gnark-crypto assigns `X`
  before it looks for `Y`, and both before the subgroup check, so a failure can leave something behind that is no group element. -/
  spoils : Bytes → G → Bool
  /-- compressed encoding (`enc.Encode(&p)`) -/
  bytes : G → Bytes
  /-- uncompressed encoding (`bn254.RawEncoding()`, and `p.Marshal()`) -/
  rawBytes : G → Bytes

structure Codec.Lawful {G : Type} (c : Codec G) : Prop where
  size_pos : 0 < c.size
  bytes_length : ∀ p, (c.bytes p).length = c.size
  bytes_flag : ∀ p, c.compressed ((c.bytes p).headD 0) = true
  set_bytes : ∀ p, c.setBytes (c.bytes p) = some p
  raw_length : ∀ p, (c.rawBytes p).length = 2 * c.size
  raw_flag : ∀ p, c.compressed ((c.rawBytes p).headD 0) = false
  set_raw : ∀ p, c.setBytes (c.rawBytes p) = some p

namespace Codec
variable {G : Type}

/-- `t.setBytes(buf)` with the error returned -/
def set (c : Codec G) (b : Bytes) : Go Rd G :=
  match c.setBytes b with
  | some p => pure p
  | none => Go.fail (.err "invalid point encoding")

/-- `dec.Decode(&p)`: read the compressed size, read as much again if the flag says uncompressed. -/
def decode (c : Codec G) : Go Rd G := do
  let b ← Rd.readFull c.size
  if c.compressed (b.headD 0) then c.set b
  else do
    let b' ← Rd.readFull c.size
    c.set (b ++ b')

/-- the bytes that `dec.Decode(&p)` hands to `setBytes` if `rest` is left to read; none if the input ends before -/
def handed (c : Codec G) (rest : Bytes) : Option Bytes :=
  if rest.length < c.size then none
  else if c.compressed (rest.headD 0) then some (rest.take c.size)
  else if rest.length < 2 * c.size then none
  else some (rest.take (2 * c.size))

/-- does a failing `dec.Decode(&p)` with `rest` left to read change the point `p`? See `Codec.spoils`. -/
def decodeSpoils (c : Codec G) (rest : Bytes) (p : G) : Bool :=
  match c.handed rest with
  | some b => c.spoils b p
  | none => false

/-- the loop `for i := 0; i < n; i++ { dec.Decode(&buff[i]) }` -/
def decodeN (c : Codec G) : Nat → Go Rd (List G)
  | 0 => pure []
  | n + 1 => do
    let p ← c.decode
    let ps ← c.decodeN n
    pure (p :: ps)

/-- the loop `for i := range ps { enc.Encode(&ps[i]) }` -/
def encodeN (c : Codec G) (ps : List G) : Bytes := ps.flatMap c.bytes

/-- `dec.Decode(&slice)`: big-endian uint32 length, then the points. -/
def decodeSlice (c : Codec G) : Go Rd (List G) := do
  let b ← Rd.readFull 4
  c.decodeN (beValue b)

/-- `enc.Encode(slice)`: big-endian uint32 length, then the points. -/
def encodeSlice (c : Codec G) (ps : List G) : Bytes := beBytes 4 ps.length ++ ps.flatMap c.bytes

/-- `enc.Encode(slice)` with `RawEncoding()`. -/
def encodeSliceRaw (c : Codec G) (ps : List G) : Bytes := beBytes 4 ps.length ++ ps.flatMap c.rawBytes

section lemmas
variable {c : Codec G} (hc : c.Lawful)
include hc

theorem decode_bytes (cap pos : Nat) (p : G) (ys : Bytes) :
    c.decode.run ⟨cap, pos, c.bytes p ++ ys⟩ = (.ok p, ⟨cap, pos + c.size, ys⟩) := by
  unfold decode
  rw [Go.bind_ok (Rd.readFull_append cap pos _ ys _ (hc.bytes_length p))]
  rw [if_pos (hc.bytes_flag p)]
  simp [set, hc.set_bytes]

theorem decode_raw (cap pos : Nat) (p : G) (ys : Bytes) :
    c.decode.run ⟨cap, pos, c.rawBytes p ++ ys⟩ = (.ok p, ⟨cap, pos + 2 * c.size, ys⟩) := by
  have hl := hc.raw_length p
  have hsplit : c.rawBytes p = (c.rawBytes p).take c.size ++ (c.rawBytes p).drop c.size := by simp
  have h1 : ((c.rawBytes p).take c.size).length = c.size := by simp; omega
  have h2 : ((c.rawBytes p).drop c.size).length = c.size := by simp; omega
  have hhead : ((c.rawBytes p).take c.size).headD 0 = (c.rawBytes p).headD 0 := by
    have hp := hc.size_pos
    cases hb : c.rawBytes p with
    | nil => simp
    | cons b t =>
      cases hs : c.size with
      | zero => omega
      | succ n => simp
  unfold decode
  rw [hsplit, List.append_assoc,
    Go.bind_ok (Rd.readFull_append cap pos _ _ _ h1), hhead, hc.raw_flag]
  simp only [Bool.false_eq_true, if_false]
  rw [Go.bind_ok (Rd.readFull_append cap _ _ _ _ h2), ← hsplit]
  simp [set, hc.set_raw]; omega

theorem encodeN_length (ps : List G) : (c.encodeN ps).length = c.size * ps.length := by
  induction ps with
  | nil => simp [encodeN]
  | cons p ps ih =>
    simp only [encodeN, List.flatMap_cons, List.length_append, List.length_cons] at *
    rw [ih, hc.bytes_length, Nat.mul_succ]; omega

theorem decodeN_encodeN (cap pos : Nat) (ps : List G) (ys : Bytes) :
    (c.decodeN ps.length).run ⟨cap, pos, c.encodeN ps ++ ys⟩
      = (.ok ps, ⟨cap, pos + c.size * ps.length, ys⟩) := by
  induction ps generalizing pos with
  | nil => simp [decodeN, encodeN]
  | cons p ps ih =>
    simp only [List.length_cons, decodeN, encodeN, List.flatMap_cons, List.append_assoc] at *
    rw [Go.bind_ok (decode_bytes hc cap pos p _)]
    rw [Go.bind_ok (ih _)]
    simp [Nat.mul_succ]; omega

theorem decodeSlice_encodeSlice (cap pos : Nat) (ps : List G) (ys : Bytes)
    (h : ps.length < 2 ^ 32) :
    c.decodeSlice.run ⟨cap, pos, c.encodeSlice ps ++ ys⟩
      = (.ok ps, ⟨cap, pos + (4 + c.size * ps.length), ys⟩) := by
  unfold decodeSlice encodeSlice
  rw [List.append_assoc, Go.bind_ok (Rd.readFull_append cap pos _ _ 4 (beBytes_length _ _)),
    beValue_beBytes _ _ (by simpa using h)]
  have := decodeN_encodeN hc cap (pos + 4) ps ys
  rw [encodeN] at this
  rw [this]; simp; omega

theorem encodeSlice_length (ps : List G) :
    (c.encodeSlice ps).length = 4 + c.size * ps.length := by
  have := encodeN_length hc ps
  rw [encodeN] at this
  rw [encodeSlice, List.length_append, this, beBytes_length]

end lemmas
end Codec

/-- The data of the pairing-friendly curve and of the hash functions. `GT` is written additively. -/
structure Curve (F G1 G2 GT : Type) where
  /-- `bn254.Generators()` -/
  g1 : G1
  g2 : G2
  /-- the pairing -/
  e : G1 → G2 → GT
  c1 : Codec G1
  c2 : Codec G2
  /-- SHA-256 -/
  sha : Bytes → Bytes
  /-- `bn254.HashToG2(msg, []byte{dst})` -/
  hashG2 : Bytes → UInt8 → G2

section
variable {F G1 G2 GT : Type} [Field F] [AddCommGroup G1] [Module F G1] [AddCommGroup G2]
  [Module F G2] [AddCommGroup GT] [Module F GT]

/-- Assumed laws of the curve library: prime-order groups with generators and a non-degenerate bilinear
pairing, 32- and 64-byte encodings, a 32-byte hash, and a hash to G2 that never hits the identity. -/
structure Curve.Lawful (C : Curve F G1 G2 GT) : Prop where
  span1 : ∀ P : G1, ∃ x : F, P = x • C.g1
  span2 : ∀ P : G2, ∃ x : F, P = x • C.g2
  nondeg : C.e C.g1 C.g2 ≠ 0
  add_left : ∀ P Q R, C.e (P + Q) R = C.e P R + C.e Q R
  add_right : ∀ P Q R, C.e P (Q + R) = C.e P Q + C.e P R
  smul_left : ∀ (x : F) P Q, C.e (x • P) Q = x • C.e P Q
  smul_right : ∀ (x : F) P Q, C.e P (x • Q) = x • C.e P Q
  codec1 : C.c1.Lawful
  codec2 : C.c2.Lawful
  size1 : C.c1.size = 32
  size2 : C.c2.size = 64
  sha_length : ∀ b, (C.sha b).length = 32
  hash_ne : ∀ b d, C.hashG2 b d ≠ 0

end
end ZkSetup
