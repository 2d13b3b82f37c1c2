import Verif.Model.Phase2
import Verif.Spec.Phase1
import Mathlib.Algebra.BigOperators.Group.Finset.Basic
/-
The phase 2 file format, and what a contribution should do to it. Stated on structured files.
-/
namespace ZkSetup

open Phase2

/-- all fields are 64-bit integers -/
structure Phase2.Header.InRange (h : Header) : Prop where
  wires : -(2 ^ 63) ≤ h.wires ∧ h.wires < 2 ^ 63
  witness : -(2 ^ 63) ≤ h.witness ∧ h.witness < 2 ^ 63
  pub : -(2 ^ 63) ≤ h.pub ∧ h.pub < 2 ^ 63
  privateCommitted : -(2 ^ 63) ≤ h.privateCommitted ∧ h.privateCommitted < 2 ^ 63
  constraints : -(2 ^ 63) ≤ h.constraints ∧ h.constraints < 2 ^ 63
  domain : -(2 ^ 63) ≤ h.domain ∧ h.domain < 2 ^ 63
  contributions : -(2 ^ 63) ≤ h.contributions ∧ h.contributions < 2 ^ 63

/-- Assumed laws of the header encoding: what is written is read back, and a successful read depends only on the bytes
it consumes. `Verif/Proofs/Gob.lean` proves them for the gob format. -/
structure Phase2.HeaderCodec.Lawful (H : HeaderCodec) : Prop where
  /-- reading back what was written -/
  dec_enc : ∀ h : Header, h.InRange → ∀ (cap pos : Nat) (ys : Bytes),
    H.dec.run ⟨cap, pos, H.enc h ++ ys⟩ = (.ok h, ⟨cap, pos + (H.enc h).length, ys⟩)
  /-- a successful read consumes a prefix and depends on nothing else -/
  dec_local : ∀ (r r' : Rd) (h : Header), H.dec.run r = (.ok h, r') →
    ∃ used : Bytes, r.rest = used ++ r'.rest ∧ ∀ (cap pos : Nat) (ys : Bytes),
      H.dec.run ⟨cap, pos, used ++ ys⟩ = (.ok h, ⟨cap, pos + used.length, ys⟩)
  /-- reading does not replace the buffer -/
  dec_cap : ∀ (r r' : Rd) (h : Header), H.dec.run r = (.ok h, r') → r'.cap = r.cap
  /-- only 64-bit integers are read -/
  dec_range : ∀ (r r' : Rd) (h : Header), H.dec.run r = (.ok h, r') → h.InRange
  /-- reading does not panic -/
  dec_total : ∀ (r r' : Rd) (m : String), H.dec.run r ≠ (.error (.panic m), r')

/-- The contents of a phase 2 file. -/
structure P2File (G1 G2 : Type) where
  wires : Nat
  witness : Nat
  pub : Nat
  privateCommitted : Nat
  constraints : Nat
  domain : Nat
  delta1 : G1
  delta2 : G2
  z : List G1
  pkk : List G1
  records : List (Contribution G1 G2)

/-- the header of a file -/
def P2File.header {G1 G2 : Type} (f : P2File G1 G2) : Header where
  wires := f.wires
  witness := f.witness
  pub := f.pub
  privateCommitted := f.privateCommitted
  constraints := f.constraints
  domain := f.domain
  contributions := f.records.length

section
variable {F G1 G2 GT : Type} [Field F] [AddCommGroup G1] [Module F G1] [AddCommGroup G2]
  [Module F G2] [AddCommGroup GT] [Module F GT]

/-- A well-formed file: section lengths as the header says, 64-bit counts, 32-byte hashes. The points are arbitrary. -/
structure P2File.WF (f : P2File G1 G2) : Prop where
  wires : f.wires < 2 ^ 63
  pub : f.pub < 2 ^ 63
  privateCommitted : f.privateCommitted < 2 ^ 63
  constraints : f.constraints < 2 ^ 63
  domain : f.domain < 2 ^ 63
  witness : f.witness < 2 ^ 63
  domain_pos : 0 < f.domain
  z : f.z.length = f.domain - 1
  pkk : f.pkk.length = f.witness
  count : f.records.length < 2 ^ 63 - 1
  hash : ∀ r ∈ f.records, r.hash.length = 32

/-- the bytes of a record that are hashed: `[δ]1` and the public key -/
def record2Body (C : Curve F G1 G2 GT) (r : Contribution G1 G2) : Bytes :=
  C.c1.bytes r.delta ++ keyBytes C r.pk

/-- bytes of a record: the body and its hash -/
def record2Bytes (C : Curve F G1 G2 GT) (r : Contribution G1 G2) : Bytes := record2Body C r ++ r.hash

/-- the parameters -/
def P2File.params (C : Curve F G1 G2 GT) (f : P2File G1 G2) : Bytes :=
  C.c1.bytes f.delta1 ++ C.c2.bytes f.delta2 ++ f.z.flatMap C.c1.bytes ++ f.pkk.flatMap C.c1.bytes

/-- The file: header, parameters, records. -/
def P2File.encode (C : Curve F G1 G2 GT) (H : HeaderCodec) (f : P2File G1 G2) : Bytes :=
  H.enc f.header ++ f.params C ++ f.records.flatMap (record2Bytes C)

/-- Position of the hash of record `j` in the file. -/
def P2File.hashPos (H : HeaderCodec) (f : P2File G1 G2) (j : Nat) : Nat :=
  (H.enc f.header).length + 32 + 64 + 32 * f.z.length + 32 * f.pkk.length + 192 * j + 160

/-- No hash lies across a boundary of the 4096-byte read buffer. -/
def P2File.NoStraddle (H : HeaderCodec) (f : P2File G1 G2) : Prop :=
  ∀ j < f.records.length, f.hashPos H j % 4096 + 32 ≤ 4096

/-- the challenge for the next contribution: the last hash, or nothing -/
def lastHash2 (rs : List (Contribution G1 G2)) : Bytes :=
  match rs.getLast? with
  | none => []
  | some r => r.hash

/-- The record for the new `[δ]1` and the drawn values. -/
def newRecord2 (C : Curve F G1 G2 GT) (rnd : Rand F) (challenge : Bytes) (d1 : G1) : Contribution G1 G2 :=
  let r : Contribution G1 G2 := { delta := d1, pk := proofOf C rnd.delta rnd.s challenge 1, hash := [] }
  { r with hash := C.sha (record2Body C r) }

/-- What a contribution should do: multiply `[δ]1`, `[δ]2`, divide Z and PKK, append a record. -/
def P2File.contribute (C : Curve F G1 G2 GT) (f : P2File G1 G2) (rnd : Rand F) : P2File G1 G2 :=
  { f with
    delta1 := rnd.delta • f.delta1
    delta2 := rnd.delta • f.delta2
    z := f.z.map (rnd.delta⁻¹ • ·)
    pkk := f.pkk.map (rnd.delta⁻¹ • ·)
    records := f.records ++ [newRecord2 C rnd (lastHash2 f.records) (rnd.delta • f.delta1)] }

/-- a ceremony: contributions one after the other -/
def P2File.ceremony (C : Curve F G1 G2 GT) (f : P2File G1 G2) (rnds : List (Rand F)) : P2File G1 G2 :=
  rnds.foldl (fun f rnd => f.contribute C rnd) f

/-- No hash lies across a buffer boundary in any file that a contributor or the verifier reads. -/
def P2File.CeremonyNoStraddle (C : Curve F G1 G2 GT) (H : HeaderCodec) (f : P2File G1 G2) (rnds : List (Rand F)) :
    Prop :=
  ∀ k ≤ rnds.length, (f.ceremony C (rnds.take k)).NoStraddle H

/-- `x` is a proven update of `prev`: knowledge of `x` for the previous hash, and `[δ]1` multiplied by it. -/
structure Step2By (C : Curve F G1 G2 GT) (prevDelta : G1) (prevHash : Bytes) (r : Contribution G1 G2) (x : F) : Prop where
  /-- `SX = x·S` -/
  sx : r.pk.sx = x • r.pk.s
  /-- `SPX = x·H(S ‖ SX ‖ previous hash, 1)` -/
  spx : r.pk.spx = x • C.hashG2 (C.c1.rawBytes r.pk.s ++ C.c1.rawBytes r.pk.sx ++ prevHash) 1
  delta : r.delta = x • prevDelta
  hash : r.hash = C.sha (record2Body C r)

/-- every record is an update of the one before it by the given scalar -/
def Chain2By (C : Curve F G1 G2 GT) : G1 → Bytes → List (Contribution G1 G2) → List F → Prop
  | _, _, [], [] => True
  | d, h, r :: rs, x :: xs => Step2By C d h r x ∧ Chain2By C r.delta r.hash rs xs
  | _, _, _, _ => False

/-- The verifier's random combination of a section: `Σ r_k · p_k`, where `r_k` is drawn for batch `k / b`, position `k % b`. -/
def batchSum (b : Nat) (rnd : Nat → Nat → F) (ps : List G1) : G1 :=
  ∑ k ∈ Finset.range ps.length, rnd (k / b) (k % b) • ps.getD k 0

/-- Agreement of the circuit shape of two files. -/
def P2File.SameShape (f o : P2File G1 G2) : Prop :=
  f.wires = o.wires ∧ f.witness = o.witness ∧ f.pub = o.pub ∧ f.privateCommitted = o.privateCommitted ∧
    f.constraints = o.constraints ∧ f.domain = o.domain

end
end ZkSetup
